import Verif.Model.Keys
import Verif.Spec.Asym
/-
Independent specification of key identifiers and message formats (C21, C22, C42-C47).
-/
namespace Verif.Spec
open Verif

/-- a non-negative number's big-endian bytes without leading zeros (one zero byte for zero) -/
def minimal (b : Bytes) : Bytes :=
  match b.dropWhile (· = 0) with
  | [] => [0]
  | t => t

/-- a byte string preceded by its length as four big-endian bytes -/
def lengthPrefixed (b : Bytes) : Bytes := i2osp4 b.length ++ b

/-- The 4 identifier bytes of a key, for a hash `H`: HMAC: the key bytes; AES: length of the AES
key, the AES key, the HMAC key; RSA: modulus and exponent; DSA: p, q, g, y (each length-prefixed,
without leading zeros).  Private keys have the identifier of their public part. -/
def KeyId (H : Bytes → Bytes) : Key → Bytes → Prop
  | .hmac k, id => ∃ kb, Base64WSDecode k.keyString = .ok kb ∧ id = (H kb).take 4
  | .aes k, id => ∃ kb hb, Base64WSDecode k.keyString = .ok kb ∧
      Base64WSDecode k.hmacKey.keyString = .ok hb ∧ id = (H (lengthPrefixed kb ++ hb)).take 4
  | .rsaPub k, id => rsa k id
  | .rsaPriv k, id => rsa k.pub id
  | .dsaPub k, id => dsa k id
  | .dsaPriv k, id => dsa k.pub id
where
  rsa (k : RsaPublicKey) (id : Bytes) : Prop :=
    id = (H (lengthPrefixed (minimal k.modulus) ++ lengthPrefixed (minimal k.publicExponent))).take 4
  dsa (k : DsaPublicKey) (id : Bytes) : Prop :=
    id = (H (lengthPrefixed (minimal k.p) ++ lengthPrefixed (minimal k.q) ++ lengthPrefixed (minimal k.g) ++
      lengthPrefixed (minimal k.y))).take 4

/-- header of every ciphertext and signature: version byte 0, then the identifier -/
def header (id : Bytes) : Bytes := 0 :: id

/-- the bytes that a plain signature covers -/
def plainPayload (m : Bytes) : Bytes := m ++ [0]

/-- the bytes that an attached signature covers -/
def attachedPayload (m nonce : Bytes) : Bytes := m ++ lengthPrefixed nonce ++ [0]

/-- an attached signature blob -/
def attachedBlob (id m sig : Bytes) : Bytes := header id ++ lengthPrefixed m ++ sig

/-- an output encoding (None or a function) and a decoding that undoes it -/
def Inverse (enc : Option (Bytes → Bytes)) (dec : Option (Bytes → Py Bytes)) : Prop :=
  match enc, dec with
  | none, none => True
  | some f, some g => ∀ b, g (f b) = .ok b
  | _, _ => False

end Verif.Spec
