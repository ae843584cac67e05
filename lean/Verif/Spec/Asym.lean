import Verif.Model.Py
import Verif.Model.PyCrypto
import Mathlib.Data.Nat.Prime.Defs
/-
Independent specifications for RSA, OAEP and DSA (C48-C52).
-/
namespace Verif.Spec
open Verif

/-- PKCS#1 v2.1 I2OSP(i, 4) -/
def i2osp4 (i : Nat) : Bytes :=
  [UInt8.ofNat (i / 16777216 % 256), UInt8.ofNat (i / 65536 % 256), UInt8.ofNat (i / 256 % 256),
    UInt8.ofNat (i % 256)]

/-- PKCS#1 v2.1 B.2.1 MGF1 output stream: `T = Hash(Z|0) | Hash(Z|1) | ...`, `n` blocks. -/
def mgf1Blocks (H : Bytes → Bytes) (z : Bytes) : Nat → Bytes
  | 0 => []
  | n + 1 => mgf1Blocks H z n ++ H (z ++ i2osp4 n)

/-- MGF1 with a hash of 20 bytes: the leading `l` bytes (using enough blocks). -/
def mgf1 (H : Bytes → Bytes) (z : Bytes) (l : Nat) : Bytes := (mgf1Blocks H z (l / 20 + 1)).take l

/-- bytewise exclusive or of equally long strings -/
def xor (a b : Bytes) : Bytes := List.zipWith (· ^^^ ·) a b

/-- PKCS#1 v2.1 section 7.1.1, EME-OAEP encoding with empty label, hash `H` (20 bytes) and MGF1:
`k` is the length of the modulus in bytes. -/
def oaep (H : Bytes → Bytes) (k : Nat) (seed M : Bytes) : Bytes :=
  let DB := H [] ++ List.replicate (k - M.length - 42) 0 ++ [1] ++ M
  let maskedDB := xor DB (mgf1 H seed (k - 21))
  let maskedSeed := xor seed (mgf1 H maskedDB 20)
  [0] ++ maskedSeed ++ maskedDB

/-- A valid RSA key pair with the CRT values PyCrypto keeps (`u = p⁻¹ mod q`).  The exponents only
need to be inverse modulo `p - 1` and `q - 1`. -/
structure RsaValid (k : RsaObj) : Prop where
  p_prime : k.p.Prime
  q_prime : k.q.Prime
  ne : k.p ≠ k.q
  n_eq : k.n = k.p * k.q
  ed_p : k.e * k.d % (k.p - 1) = 1
  ed_q : k.e * k.d % (k.q - 1) = 1
  u_eq : k.u * k.p % k.q = 1

/-- Valid DSA key (FIPS 186): `g` has order dividing the prime `q` modulo `p`, `y = g^x mod p`. -/
structure DsaValid (k : DsaObj) : Prop where
  q_prime : k.q.Prime
  p_pos : 1 < k.p
  order : k.g ^ k.q % k.p = 1
  y_eq : k.y = k.g ^ k.x % k.p

end Verif.Spec
