import Verif.Model.Keys
import Mathlib.Analysis.SpecialFunctions.Log.Base
/-
The two lengths that the code computes in floating point:
* keys.py:725 and 939, `int(math.floor(math.log(n, 256)) + 1)`, meant to be the number of bytes of `n`;
* util.py:500, `int(math.ceil(mlen / float(HLEN)))`, the number of hash blocks in MGF1.

Doubles are real numbers; the operations of the machine are given by their error bounds.

Simplification.  The range of exponents is unbounded in `FloatOps`: no operation here underflows, and the only one that
can overflow, the conversion of a long integer, is tested for (`2 ^ 1024`).
-/
namespace Verif

/-- Arithmetic of doubles and the C library's `log`. -/
structure FloatOps where
  /-- rounding of an exact result to a double -/
  fl : ℝ → ℝ
  /-- the `log` of the C library -/
  log : ℝ → ℝ
  /-- IEEE 754: half a unit in the last place -/
  fl_error : ∀ x, |fl x - x| ≤ 2⁻¹ ^ 53 * |x|
  /-- integers of at most 53 bits are doubles -/
  fl_int : ∀ m : ℤ, |m| ≤ 2 ^ 53 → fl m = m
  /-- one unit in the last place -/
  log_error : ∀ x, 0 < x → |log x - Real.log x| ≤ 2⁻¹ ^ 52 * |Real.log x|

variable (F : FloatOps)

/-- CPython's `_PyLong_Frexp`: `n` is about `x * 2^e` with `1/2 ≤ x < 1` -/
noncomputable def pyFrexp (n : Nat) : ℝ × Nat :=
  let e := Nat.log2 n + 1
  let x := F.fl (n / 2 ^ e)
  if x = 1 then (1 / 2, e + 1) else (x, e)

/-- CPython's `loghelper` in mathmodule.c, for a positive integer: the logarithm of the double, or, if the integer is
too large for a double, `log(x) + log(2.0) * e` -/
noncomputable def pyLog (n : Nat) : ℝ :=
  if F.fl n < 2 ^ 1024 then F.log (F.fl n)
  else F.fl (F.log (pyFrexp F n).1 + F.fl (F.log 2 * F.fl (pyFrexp F n).2))

/-- `math.log(n, 256)` -/
noncomputable def pyLog256 (n : Nat) : ℝ := F.fl (pyLog F n / pyLog F 256)

/-- keys.py:725, 939: `int(math.floor(math.log(n, 256)) + 1)`; `math.log(0)` raises `ValueError` -/
noncomputable def numBytesFloat (n : Nat) : Py Nat :=
  if n = 0 then .error .valueError else .ok (⌊pyLog256 F n⌋ + 1).toNat

/-- util.py:500 `int(math.ceil(mlen / float(HLEN)))` -/
noncomputable def mgfBlocksFloat (mlen : Nat) : Nat := ⌈F.fl (F.fl mlen / F.fl (HLEN : ℕ))⌉.toNat

/-- keys.py:936-958 `RsaPublicKey.__Encode` with the computed length -/
noncomputable def RsaPublicKey.EncodeFloat (P : Prims) (key : RsaPublicKey) (seed msg : Bytes) : Py Bytes := do
  let k ← numBytesFloat F key.key.n
  oaepEncode P k seed msg

/-- keys.py:715-754 `RsaPrivateKey.__Decode` with the computed length -/
noncomputable def RsaPrivateKey.DecodeFloat (P : Prims) (key : RsaPrivateKey) (encoded : Bytes) : Py Bytes :=
  oaepDecode P (numBytesFloat F key.key.n) encoded

/-- util.py:482-502 `MGF` with the computed number of blocks -/
noncomputable def MGFFloat (P : Prims) (seed : Bytes) (mlen : Nat) : Py Bytes :=
  if mlen > 2 ^ 32 * HLEN then .error .keyczarError
  else
    let output := ((List.range (mgfBlocksFloat F mlen)).map fun i => Hash P [seed, IntToBytes i]).flatten
    .ok (output.take mlen)

end Verif
