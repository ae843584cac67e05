import Verif.Model.Keyczart
/-
Comparing keys with `==` (keys.py:125-128), the test helper of readers.py:212-215 that uses it, and the output sizes of
the cipher modes (keyinfo.py:113-131).
-/
namespace Verif

/-- keys.py:134-139, 153, 168-170 `key_string`: the abstract method of keys.py:134 returns None, and only
`SymmetricKey` overrides it. -/
def Key.keyString : Key → Option Bytes
  | .aes k => some k.keyString
  | .hmac k => some k.keyString
  | _ => none

/-- keys.py:125-128 `Key.__eq__` -/
def Key.eq (self other : Key) : Bool :=
  self.type = other.type ∧ self.size = other.size ∧ self.keyString = other.keyString

/-- readers.py:212-215 `MockReader.HasPubKey` for the dictionaries `self.keys` and `self.pubkeys` -/
def MockReader.HasPubKey (keys pubkeys : Int → Option Key) (v : Int) : Py Bool :=
  match keys v with
  | none => .error .keyError
  | some priv =>
    match pubkeys v with
    | none => .error .keyError
    | some pub => do return (← priv.publicKey).eq pub

/-- keyinfo.py:123-131 `GetOutputSize(b, i)`: block size and length of the input.  (No other code uses it.) -/
def CipherMode.GetOutputSize (b i : Nat) : CipherMode → Nat
  | .CBC => (i / b + 2) * b
  | .CTR => i + b / 2
  | .ECB => b
  | .DET_CBC => (i / b + 1) * b

/-- keyinfo.py:128-131 `use_iv` -/
def CipherMode.useIv : CipherMode → Bool
  | .CBC | .CTR => true
  | .ECB | .DET_CBC => false

end Verif
