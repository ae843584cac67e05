import Verif.Model.Util
/-
The asymmetric part of PyCrypto 2.x that keys.py calls: Crypto.PublicKey.RSA and DSA key objects,
Crypto.Util.number.  This is library code (not in /repo); the model follows the library's Python
implementation (`_slowmath.py`), without RSA blinding.
-/
namespace Verif

/-- `pow(a, e, n)` by repeated squaring (equal to `a ^ e % n`, see `powMod_eq`). -/
def powMod (a e n : Nat) : Nat :=
  if _h : e = 0 then 1 % n
  else
    let h := powMod (a * a % n) (e / 2) n
    if e % 2 = 1 then a * h % n else h
termination_by e

/-- `Crypto.Util.number.long_to_bytes(n)`: minimal big-endian bytes, one zero byte for 0. -/
def longToBytes (n : Nat) : Bytes := if n = 0 then [0] else BigIntToBytes n

/-- the loop of `Crypto.Util.number.inverse` (extended Euclid) -/
def inverseLoop (u3 v3 : Nat) (u1 v1 : Int) : Int :=
  if _h : v3 = 0 then u1 else inverseLoop v3 (u3 % v3) v1 (u1 - v1 * (u3 / v3 : Nat))
termination_by v3
decreasing_by exact Nat.mod_lt _ (by omega)

/-- `Crypto.Util.number.inverse(u, v)`; the final `while u1 < 0: u1 += v` is reduction mod `v`. -/
def inverse (u v : Nat) : Nat :=
  let u1 := inverseLoop u v 1 0
  if u1 < 0 then (u1 % v).toNat else u1.toNat

/-- RSA public key object -/
structure RsaPubObj where
  n : Nat
  e : Nat
deriving DecidableEq, Repr

/-- RSA private key object; `u = p^{-1} mod q`. -/
structure RsaObj where
  n : Nat
  e : Nat
  d : Nat
  p : Nat
  q : Nat
  u : Nat
deriving DecidableEq, Repr

/-- DSA public key object -/
structure DsaPubObj where
  y : Nat
  g : Nat
  p : Nat
  q : Nat
deriving DecidableEq, Repr

/-- DSA private key object -/
structure DsaObj where
  y : Nat
  g : Nat
  p : Nat
  q : Nat
  x : Nat
deriving DecidableEq, Repr

/-- `key.publickey()` -/
def RsaObj.pub (k : RsaObj) : RsaPubObj := ⟨k.n, k.e⟩
def DsaObj.pub (k : DsaObj) : DsaPubObj := ⟨k.y, k.g, k.p, k.q⟩

variable (P : Prims)

/-- `_RSAKey._encrypt(m) = pow(m, e, n)`; `ValueError` for modulus 0, and for `m ≥ n` with a
range-checking implementation. -/
def RsaPubObj.encryptInt (k : RsaPubObj) (m : Nat) : Py Nat :=
  if k.n = 0 then .error .valueError
  else if P.rsaRangeCheck ∧ k.n ≤ m then .error .valueError
  else .ok (powMod m k.e k.n)

/-- `_RSAKey._decrypt(c)`, by the Chinese remainder theorem.  Keys with `p ≤ 1` or `q ≤ 1` are
outside the model. -/
def RsaObj.decryptInt (k : RsaObj) (c : Nat) : Py Nat :=
  if P.rsaRangeCheck ∧ k.n ≤ c then .error .valueError
  else if k.p ≤ 1 ∨ k.q ≤ 1 then .error .unmodelled
  else
    let m1 := powMod c (k.d % (k.p - 1)) k.p
    let m2 := powMod c (k.d % (k.q - 1)) k.q
    let h : Int := m2 - m1
    let h := if h < 0 then h + k.q else h
    let h := h * k.u % k.q
    .ok (h * k.p + m1).toNat

/-- `key.encrypt(data, None)[0]` on a byte string -/
def RsaPubObj.encrypt (k : RsaPubObj) (data : Bytes) : Py Bytes := do
  return longToBytes (← k.encryptInt P (BytesToLong data))

/-- `key.decrypt(data)` on a byte string -/
def RsaObj.decrypt (k : RsaObj) (data : Bytes) : Py Bytes := do
  return longToBytes (← k.decryptInt P (BytesToLong data))

/-- `key.sign(data, None)[0]` on a byte string -/
def RsaObj.sign (k : RsaObj) (data : Bytes) : Py Nat := k.decryptInt P (BytesToLong data)

/-- `key.verify(data, (sig,))` -/
def RsaPubObj.verify (k : RsaPubObj) (data : Bytes) (sig : Nat) : Py Bool := do
  let v ← k.encryptInt P sig
  return v == BytesToLong data

/-- `key.sign(data, K)` for DSA: `ValueError` unless `1 < K < q`. -/
def DsaObj.sign (key : DsaObj) (data : Bytes) (k : Nat) : Py (Nat × Nat) :=
  if ¬ (1 < k ∧ k < key.q) then .error .valueError
  else if key.p = 0 then .error .valueError
  else
    let m := BytesToLong data
    let invK := inverse k key.q
    let r := powMod key.g k key.p % key.q
    let s := invK * (m + key.x * r) % key.q
    .ok (r, s)

/-- `key.verify(data, (r, s))` for DSA. -/
def DsaPubObj.verify (key : DsaPubObj) (data : Bytes) (r s : Int) : Py Bool :=
  if ¬ (0 < r ∧ r < key.q) ∨ ¬ (0 < s ∧ s < key.q) then .ok false
  else if key.p = 0 then .error .valueError
  else
    let m := BytesToLong data
    let w := inverse s.toNat key.q
    let u1 := m * w % key.q
    let u2 := r.toNat * w % key.q
    let v := powMod key.g u1 key.p * powMod key.y u2 key.p % key.p % key.q
    .ok (decide ((v : Int) = r))

end Verif
