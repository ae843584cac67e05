import Mathlib.Data.Nat.Prime.Defs
import Verif.Spec.Dsa
import Verif.Spec.Crypto
import Verif.Model.Keys
/-
Independent specification for C82: the byte strings that are signatures of a message under a key.
-/
namespace Verif.Spec
open Verif

/-- `sig` is a signature of `msg` under a key: FIPS 198 for HMAC keys, PKCS#1 v1.5 for RSA keys (as a number: leading zeros
are free), FIPS 186-2 for DSA keys (in BER, with anything after it).  `range`: whether the RSA implementation checks that the
number is less than the modulus. -/
def SignatureFor (H : Bytes → Bytes) (range : Bool) : Key → Bytes → Bytes → Prop
  | .hmac k, msg, sig => ∃ kb, Base64WSDecode k.keyString = .ok kb ∧ sig = hmac H kb msg
  | .aes _, _, _ => False
  | .rsaPub k, msg, sig => rsa k msg sig
  | .rsaPriv k, msg, sig => rsa k.pub msg sig
  | .dsaPub k, msg, sig => dsa k msg sig
  | .dsaPriv k, msg, sig => dsa k.pub msg sig
where
  rsa (k : RsaPublicKey) (msg sig : Bytes) : Prop :=
    (range = true → bigEndian sig < k.key.n) ∧
      ∃ em, IsEmsa H (k.size / 8) msg em ∧ bigEndian sig ^ k.key.e % k.key.n = bigEndian em
  dsa (k : DsaPublicKey) (msg sig : Bytes) : Prop :=
    ∃ b trailing r s, sig = b ++ trailing ∧ BerPair r s b ∧ DsaAccepts k.key (bigEndian (H msg)) r s

/-- numbers that a key for signatures must have for the above to be meaningful: an RSA modulus of at least 46 octets, the
least in which a digest can be encoded; a prime q for DSA -/
def SoundKey : Key → Prop
  | .hmac _ => True
  | .aes _ => False
  | .rsaPub k => rsa k
  | .rsaPriv k => rsa k.pub
  | .dsaPub k => dsa k
  | .dsaPriv k => dsa k.pub
where
  rsa (k : RsaPublicKey) : Prop := k.key.n ≠ 0 ∧ 368 ≤ k.size
  dsa (k : DsaPublicKey) : Prop := k.key.q.Prime ∧ k.key.p ≠ 0

end Verif.Spec
