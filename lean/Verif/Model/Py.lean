/-
Python values and exceptions used by the model (byte-string reading).

Data-carrying `str` values are byte strings.  This is the Python 2 `str` semantics that the code
in /repo/python/src/keyczar and its unit tests assume (see DESIGN.md, section 1).
-/
namespace Verif

/-- A data-carrying Python `str` in the byte-string reading. -/
abbrev Bytes := List UInt8

/-- Exceptions.  Models python/src/keyczar/errors.py:22-66 (the `KeyczarError` hierarchy) plus the
built-in exceptions that the modelled code can raise.  Messages are dropped except where the
constructor argument is part of the API (`BadVersionError(version)`, lengths).
`diverged` is not an exception: it is the outcome of a loop that ran out of fuel. -/
inductive PyErr where
  | keyczarError            -- errors.py:22
  | badVersion (v : Nat)    -- errors.py:25
  | base64Decoding          -- errors.py:32
  | invalidSignature        -- errors.py:35
  | keyNotFound             -- errors.py:41
  | shortCiphertext (n : Nat) -- errors.py:48
  | shortSignature (n : Nat)  -- errors.py:55
  | noPrimaryKey            -- errors.py:62
  | typeError
  | valueError
  | indexError
  | keyError
  | attributeError
  | assertionError
  | structError
  | pyasn1Error
  | osError
  | unboundLocal
  | unmodelled              -- input outside the modelled fragment (documented at each use)
  | diverged                -- loop did not terminate within the given fuel
deriving DecidableEq, Repr

/-- `isinstance(e, KeyczarError)`: errors.py:22-66. -/
def PyErr.isKeyczarError : PyErr → Bool
  | .keyczarError | .badVersion _ | .base64Decoding | .invalidSignature | .keyNotFound
  | .shortCiphertext _ | .shortSignature _ | .noPrimaryKey => true
  | _ => false

/-- `isinstance(e, KeyNotFoundError)`: errors.py:41, 62 (`NoPrimaryKeyError` is a subclass). -/
def PyErr.isKeyNotFoundError : PyErr → Bool
  | .keyNotFound | .noPrimaryKey => true
  | _ => false

deriving instance DecidableEq for Except

/-- A Python computation that returns a value or raises. -/
abbrev Py (α : Type) := Except PyErr α

/-- `try: x except IsCaught: raise e` -/
def Py.mapErr {α} (x : Py α) (f : PyErr → PyErr) : Py α :=
  match x with
  | .ok a => .ok a
  | .error e => .error (f e)

/-- Python's clamping of a slice bound `i` for a sequence of length `n`. -/
def clampIdx (n : Nat) (i : Int) : Nat :=
  if i < 0 then (i + n).toNat else min i.toNat n

/-- `s[i:]` -/
def sliceFrom {α} (s : List α) (i : Int) : List α := s.drop (clampIdx s.length i)
/-- `s[:j]` -/
def sliceTo {α} (s : List α) (j : Int) : List α := s.take (clampIdx s.length j)
/-- `s[i:j]` -/
def slice {α} (s : List α) (i j : Int) : List α :=
  (s.take (clampIdx s.length j)).drop (clampIdx s.length i)

/-- ASCII literal as a byte string. -/
def bstr (s : String) : Bytes := s.toList.map fun c => UInt8.ofNat c.toNat

end Verif
