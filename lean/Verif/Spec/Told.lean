import Verif.Spec.Oaep
import Verif.Spec.CommandLine
/-
Independent specification for C88: what the exception of a failed decryption says.
-/
namespace Verif.Spec
open Verif

/-- `t` is `before`, a number in decimal digits without superfluous zeros, and `after` -/
def Quotes (before : String) (n : Nat) (after : String) (t : Bytes) : Prop :=
  ∃ d, Digits d ∧ decimal d = n ∧ (d.head? = some 48 → d = [48]) ∧ t = bstr before ++ d ++ bstr after

/-- number of bytes of a number written without leading zeros, one for zero -/
def bytesOf (m : Nat) : Nat := if m < 256 then 1 else bytesOf (m / 256) + 1

/-- what RSA decryption says, for the number `m` that the ciphertext decrypts to and the data block `DB` its bytes
hide (any data block if there are too few bytes) -/
inductive RsaSays (H : Bytes → Bytes) (m : Nat) (DB : Bytes) : PyErr → Option Bytes → Prop
  | small (t : Bytes) (h : m < 256 ^ 41)
      (ht : Quotes "OAEP Decoding Error - encoded_message is too small: " (bytesOf m) "" t) :
      RsaSays H m DB .keyczarError (some t)
  | label (h : 256 ^ 41 ≤ m) (hl : DB.take 20 ≠ H []) :
      RsaSays H m DB .keyczarError (some (bstr "OAEP Decoding Error - hash_id is invalid"))
  | zeros (h : 256 ^ 41 ≤ m) (z : Nat) (hz : DB = H [] ++ List.replicate z 0) : RsaSays H m DB .indexError none
  | one (h : 256 ^ 41 ≤ m) (z : Nat) (c : UInt8) (rest : Bytes) (h0 : c ≠ 0) (h1 : c ≠ 1)
      (hz : DB = H [] ++ List.replicate z 0 ++ c :: rest) :
      RsaSays H m DB .keyczarError (some (bstr "OAEP Decoding Error - expected a 1 value"))

end Verif.Spec
