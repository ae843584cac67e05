import Verif.Spec.Der
import Verif.Spec.Asym
import Verif.Spec.Crypto
import Verif.Spec.KeyId
import Verif.Spec.Encodings
/-
Independent specification for C84: the signature that the standards prescribe for a key, a message and, for DSA, a drawn
number; the ciphertext that PKCS#1 prescribes up to its length.
-/
namespace Verif.Spec
open Verif

/-- `sig` is the signature of `msg`; `draw q` is the number k of FIPS 186-2 -/
def TheSignature (H : Bytes → Bytes) (draw : Nat → Nat) : Key → Bytes → Bytes → Prop
  | .hmac k, msg, sig => ∃ kb, Base64WSDecode k.keyString = .ok kb ∧ sig = hmac H kb msg
  | .rsaPriv k, msg, sig => sig.length = k.size / 8 ∧ bigEndian sig < k.key.n ∧
      ∃ em, IsEmsa H (k.size / 8) msg em ∧ bigEndian sig ^ k.key.e % k.key.n = bigEndian em
  | .dsaPriv k, msg, sig => ∃ r s : Nat, r = k.key.g ^ draw k.key.q % k.key.p % k.key.q ∧ s < k.key.q ∧
      draw k.key.q * s % k.key.q = (bigEndian (H msg) + k.key.x * r) % k.key.q ∧ IsDer (.seq [.integer r, .integer s]) sig
  | _, _, _ => False

/-- a non-empty string of octets without leading zeros; one zero for zero -/
def FewestOctets (b : Bytes) : Prop := b = [0] ∨ b ≠ [] ∧ b.head? ≠ some 0

end Verif.Spec
