import Verif.Model.Keyczar
/-
What the conversion of a key set does to the keys: every number is written with one more leading zero byte.
-/
namespace Verif.Spec
open Verif

/-- an RSA public key with a zero byte before both numbers; the key object is the same -/
def zeroRsaPub (k : RsaPublicKey) : RsaPublicKey :=
  ⟨0 :: k.modulus, 0 :: k.publicExponent, k.key, k.size⟩

/-- a DSA public key with a zero byte before the four numbers -/
def zeroDsaPub (k : DsaPublicKey) : DsaPublicKey :=
  ⟨0 :: k.p, 0 :: k.q, 0 :: k.g, 0 :: k.y, k.key, k.size⟩

/-- a key with a zero byte before each of its numbers: RSA and DSA keys change in the byte strings that hold their numbers
and in nothing else, AES and HMAC keys do not change -/
def withZeros : Key → Key
  | .aes k => .aes k
  | .hmac k => .hmac k
  | .rsaPub k => .rsaPub (zeroRsaPub k)
  | .dsaPub k => .dsaPub (zeroDsaPub k)
  | .rsaPriv k => .rsaPriv ⟨0 :: k.privateExponent, 0 :: k.primeP, 0 :: k.primeQ, 0 :: k.primeExponentP,
      0 :: k.primeExponentQ, 0 :: k.crtCoefficient, zeroRsaPub k.pub, k.key, k.size⟩
  | .dsaPriv k => .dsaPriv ⟨0 :: k.x, zeroDsaPub k.pub, k.key, k.size⟩

/-- a Keyczar object with a zero byte before each number of its keys -/
def zeroCzar (c : Czar) : Czar :=
  ⟨c.heap, c.metadata, c.vkeys.map fun p => (p.1, withZeros p.2), c.hkeys.map fun p => (p.1, withZeros p.2), c.primary⟩

end Verif.Spec
