import Verif.Model.Py
/-
Independent specifications for symmetric cryptography (C13-C17).
-/
namespace Verif.Spec
open Verif

/-- RFC 2104 HMAC over a hash `H` with 64-byte blocks. -/
def hmac (H : Bytes → Bytes) (K text : Bytes) : Bytes :=
  let K' := if 64 < K.length then H K else K
  let K0 := K' ++ List.replicate (64 - K'.length) 0
  let ipad : Bytes := List.replicate 64 0x36
  let opad : Bytes := List.replicate 64 0x5C
  H (List.zipWith (· ^^^ ·) K0 opad ++ H (List.zipWith (· ^^^ ·) K0 ipad ++ text))

/-- PKCS#5 padding: `p` is `d` followed by `n` bytes of value `n`, where `n` is between 1 and 16
and the total is a multiple of 16. -/
def Pkcs5 (d p : Bytes) : Prop :=
  ∃ n : Nat, 1 ≤ n ∧ n ≤ 16 ∧ p = d ++ List.replicate n (UInt8.ofNat n) ∧ 16 ∣ p.length

/-- Cipher block chaining (NIST SP 800-38A): `Cbc E iv ps cs` says that the ciphertext blocks `cs`
are obtained from the plaintext blocks `ps` by `C_i = E (P_i xor C_{i-1})`, `C_0 = iv`. -/
inductive Cbc (E : Bytes → Bytes) : Bytes → List Bytes → List Bytes → Prop
  | nil (iv) : Cbc E iv [] []
  | cons (iv p c : Bytes) (ps cs : List Bytes) :
      c = E (List.zipWith (· ^^^ ·) p iv) → Cbc E c ps cs → Cbc E iv (p :: ps) (c :: cs)

/-- all blocks have the block size of AES -/
def AllBlocks (bs : List Bytes) : Prop := ∀ b ∈ bs, b.length = 16

end Verif.Spec
