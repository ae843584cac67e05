import Verif.Model.Der
import Verif.Lemmas.Util
/-
DER as X.690 describes it, for the types used by util.py; independent of the encoder in Model/Der.lean.
-/
namespace Verif.Spec

/-- X.690 8.1.3, 10.1: short form below 128, otherwise the number of octets with the top bit set and
the fewest big-endian octets; at most 126 octets -/
def LengthOctets (n : Nat) (l : Bytes) : Prop :=
  (n < 128 ∧ ∃ c : UInt8, c.toNat = n ∧ l = [c]) ∨
  (128 ≤ n ∧ ∃ (c : UInt8) (b : Bytes), l = c :: b ∧ c.toNat = 128 + b.length ∧ b.length ≤ 126 ∧ beNat b = n ∧ b.head? ≠ some 0)

/-- value of content octets of an INTEGER, X.690 8.3.3 -/
def twosComplement (b : Bytes) : Int :=
  match b with
  | [] => 0
  | c :: _ => if c.toNat < 128 then beNat b else (beNat b : Int) - 256 ^ b.length

/-- X.690 8.3.2: one octet, or the first nine bits are not all equal -/
def Shortest (b : Bytes) : Prop :=
  match b with
  | [] => False
  | [_] => True
  | c :: d :: _ => ¬ (c.toNat = 0 ∧ d.toNat < 128) ∧ ¬ (c.toNat = 255 ∧ 128 ≤ d.toNat)

mutual
/-- `b` is the DER encoding of the value -/
inductive IsDer : Asn1 → Bytes → Prop
  | integer (n : Int) (l c : Bytes) : twosComplement c = n → Shortest c → LengthOctets c.length l → IsDer (.integer n) (0x02 :: l ++ c)
  | octets (b l : Bytes) : LengthOctets b.length l → IsDer (.octets b) (0x04 :: l ++ b)
  | bits (b l : Bytes) : LengthOctets (1 + b.length) l → IsDer (.bits b) (0x03 :: l ++ 0 :: b)
  | null : IsDer .null [0x05, 0]
  | oid (c l : Bytes) : LengthOctets c.length l → IsDer (.oid c) (0x06 :: l ++ c)
  | seq (vs : List Asn1) (l c : Bytes) : AreDer vs c → LengthOctets c.length l → IsDer (.seq vs) (0x30 :: l ++ c)
inductive AreDer : List Asn1 → Bytes → Prop
  | nil : AreDer [] []
  | cons (v : Asn1) (vs : List Asn1) (b c : Bytes) : IsDer v b → AreDer vs c → AreDer (v :: vs) (b ++ c)
end

/-- base-128 octets of a component of an object identifier, X.690 8.19.2 -/
def base128 (n : Nat) : List Nat :=
  if n < 128 then [n] else (base128 (n / 128)).map (fun x => if x < 128 then x + 128 else x) ++ [n % 128]
decreasing_by omega

/-- content octets of an object identifier, X.690 8.19.4 -/
def oidOctets : List Nat → List Nat
  | a :: b :: t => (base128 (40 * a + b) ++ (t.map base128).flatten)
  | _ => []

/-- the DigestInfo of PKCS#1 v2.1 9.2 for SHA-1, whose object identifier is 1.3.14.3.2.26 -/
def digestInfoSha1 (digest : Bytes) : Asn1 :=
  .seq [.seq [.oid ((oidOctets [1, 3, 14, 3, 2, 26]).map UInt8.ofNat), .null], .octets digest]

/-- PKCS#1 v2.1 9.2, EMSA-PKCS1-v1_5 with the hash function `H` (SHA-1): `em` is the encoding of `M` in `k` octets -/
def IsEmsa (H : Bytes → Bytes) (k : Nat) (M em : Bytes) : Prop :=
  ∃ T, IsDer (digestInfoSha1 (H M)) T ∧ T.length + 11 ≤ k ∧
    em = [0x00, 0x01] ++ List.replicate (k - T.length - 3) 0xFF ++ [0x00] ++ T

end Verif.Spec
