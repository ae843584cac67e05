import Verif.Spec.Der
import Verif.Spec.Encodings
import Verif.Model.PyCrypto
/-
Independent specification for C80: the byte strings that a DSA verifier takes for a pair of numbers, and the
condition of FIPS 186-2 for accepting a pair.
-/
namespace Verif.Spec
open Verif

/-- X.690 8.1.3: length octets in any definite form: one octet below 128, or the number of octets with the top bit set
and that many big-endian octets (leading zeros allowed) -/
def BerLength (n : Nat) (l : Bytes) : Prop :=
  (∃ c : UInt8, l = [c] ∧ c.toNat = n ∧ n < 128) ∨
  ∃ (c : UInt8) (b : Bytes), l = c :: b ∧ c.toNat = 128 + b.length ∧ b ≠ [] ∧ bigEndian b = n

/-- X.690 8.3: an INTEGER; the content octets need not be the fewest -/
def BerInteger (n : Int) (x : Bytes) : Prop :=
  ∃ l c, x = 0x02 :: (l ++ c) ∧ BerLength c.length l ∧ c ≠ [] ∧ twosComplement c = n

/-- a SEQUENCE of two INTEGERs -/
def BerPair (r s : Int) (b : Bytes) : Prop :=
  ∃ l x y, b = 0x30 :: (l ++ (x ++ y)) ∧ BerLength (x ++ y).length l ∧ BerInteger r x ∧ BerInteger s y

/-- FIPS 186-2 section 6: the pair (r, s) is a signature of a message whose digest is the number z -/
def DsaAccepts (k : DsaPubObj) (z : Nat) (r s : Int) : Prop :=
  0 < r ∧ r < k.q ∧ 0 < s ∧ s < k.q ∧
    ∃ w : Nat, w * s.toNat % k.q = 1 ∧ k.g ^ (z * w % k.q) * k.y ^ (r.toNat * w % k.q) % k.p % k.q = r.toNat

end Verif.Spec
