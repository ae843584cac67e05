import Verif.Model.Py
/-
Base64: util.py:344-394 and the CPython library functions it calls.
-/
namespace Verif

/-- The standard alphabet character of a 6-bit value (RFC 4648 table 1; `binascii.b2a_base64`). -/
def b64Char (n : Nat) : UInt8 :=
  if n < 26 then UInt8.ofNat (65 + n)            -- A-Z
  else if n < 52 then UInt8.ofNat (97 + (n - 26)) -- a-z
  else if n < 62 then UInt8.ofNat (48 + (n - 52)) -- 0-9
  else if n = 62 then 43                          -- +
  else 47                                         -- /

def PAD : UInt8 := 61  -- '='

/-- `binascii.b2a_base64` without the trailing newline, i.e. `base64.b64encode`. -/
def b64encode : Bytes → Bytes
  | [] => []
  | [a] =>
    [b64Char (a.toNat / 4), b64Char (a.toNat % 4 * 16), PAD, PAD]
  | [a, b] =>
    [b64Char (a.toNat / 4), b64Char (a.toNat % 4 * 16 + b.toNat / 16),
     b64Char (b.toNat % 16 * 4), PAD]
  | a :: b :: c :: t =>
    b64Char (a.toNat / 4) :: b64Char (a.toNat % 4 * 16 + b.toNat / 16)
      :: b64Char (b.toNat % 16 * 4 + c.toNat / 64) :: b64Char (c.toNat % 64) :: b64encode t

/-- `string.maketrans('+/', '-_')` (base64.py) -/
def trEnc (c : UInt8) : UInt8 := if c = 43 then 45 else if c = 47 then 95 else c
/-- `string.maketrans('-_', '+/')` (base64.py) -/
def trDec (c : UInt8) : UInt8 := if c = 45 then 43 else if c = 95 then 47 else c

/-- `base64.urlsafe_b64encode` -/
def urlsafeB64encode (s : Bytes) : Bytes := (b64encode s).map trEnc

/-- util.py:344-357 `Base64WSEncode`: `base64.urlsafe_b64encode(str(s)).replace("=", "")`.
`str(s)` is the identity on byte strings. -/
def Base64WSEncode (s : Bytes) : Bytes := (urlsafeB64encode s).filter (· ≠ PAD)

/-- CPython 2.7 Modules/binascii.c `table_a2b_base64` (`none` is -1; note PAD -> 0). -/
def a2bTable (c : UInt8) : Option Nat :=
  let n := c.toNat
  if 65 ≤ n ∧ n ≤ 90 then some (n - 65)
  else if 97 ≤ n ∧ n ≤ 122 then some (n - 97 + 26)
  else if 48 ≤ n ∧ n ≤ 57 then some (n - 48 + 52)
  else if n = 43 then some 62
  else if n = 47 then some 63
  else if n = 61 then some 0
  else none

/-- CPython 2.7 `binascii_find_valid`: the (num+1)-th valid character, if any. -/
def findValid : Bytes → Nat → Option UInt8
  | [], _ => none
  | c :: s, num =>
    match a2bTable c with
    | some _ => if num = 0 then some c else findValid s (num - 1)
    | none => findValid s num

/-- Main loop of CPython 2.7 `binascii_a2b_base64`.  State: `quad` (position in the quad),
`leftchar`, `leftbits`; `out` is the output so far.  `none` is `binascii.Error('Incorrect padding')`.
Invalid characters (including CR, LF, space, bytes above 0x7f) are skipped. -/
def a2bGo : Bytes → Nat → Nat → Nat → Bytes → Option Bytes
  | [], _, _, leftbits, out => if leftbits ≠ 0 then none else some out
  | c :: s, quad, leftchar, leftbits, out =>
    if c = PAD then
      if quad < 2 ∨ (quad = 2 ∧ findValid (c :: s) 1 ≠ some PAD) then
        a2bGo s quad leftchar leftbits out          -- invalid pad: ignored
      else some out                                  -- `leftbits = 0; break`
    else
      match a2bTable c with
      | none => a2bGo s quad leftchar leftbits out
      | some v =>
        let lc := leftchar * 64 + v
        let lb := leftbits + 6
        if lb ≥ 8 then
          a2bGo s ((quad + 1) % 4) (lc % 2 ^ (lb - 8)) (lb - 8)
            (out ++ [UInt8.ofNat (lc / 2 ^ (lb - 8))])
        else a2bGo s ((quad + 1) % 4) lc lb out

/-- `base64.urlsafe_b64decode`; the `binascii.Error` becomes `TypeError` (base64.py, Python 2.7). -/
def urlsafeB64decode (s : Bytes) : Py Bytes :=
  match a2bGo (s.map trDec) 0 0 0 [] with
  | some b => .ok b
  | none => .error .typeError

/-- `''.join(s.splitlines())` on a byte string: drops CR and LF.  Then `.replace(" ", "")`. -/
def isSkipped (c : UInt8) : Bool := c = 10 || c = 13 || c = 32

/-- util.py:365-394 `Base64WSDecode`. -/
def Base64WSDecode (s : Bytes) : Py Bytes :=
  let s := s.filter (fun c => !isSkipped c)         -- util.py:381-382
  let d := s.length % 4                              -- :383
  if d = 1 then .error .base64Decoding               -- :384-385
  else
    let s := if d = 2 then s ++ [PAD, PAD] else if d = 3 then s ++ [PAD] else s  -- :386-389
    match urlsafeB64decode s with                    -- :390-394
    | .ok b => .ok b
    | .error .typeError => .error .base64Decoding
    | .error e => .error e

end Verif
