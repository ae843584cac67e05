import Verif.Lemmas.ExampleKeys
/-
A valid 2048-bit RSA key with proved primes, made as the 512-bit one of ExampleKeys.
-/
namespace Verif

/-- 1024-bit prime `2^207 * 3^515 + 1` -/
def exBigP : Nat := 2 ^ 207 * 3 ^ 515 + 1
/-- 1025-bit prime `2^536 * 3^308 + 1` -/
def exBigQ : Nat := 2 ^ 536 * 3 ^ 308 + 1

theorem exBigP_prime : exBigP.Prime :=
  prime_of_lucas23 207 515 5 exBigP rfl (by decide +kernel) (by decide +kernel) (by decide +kernel) (by decide +kernel)
theorem exBigQ_prime : exBigQ.Prime :=
  prime_of_lucas23 536 308 5 exBigQ rfl (by decide +kernel) (by decide +kernel) (by decide +kernel) (by decide +kernel)

/-- a 2048-bit RSA key with public exponent 65537 -/
def exBigObj : RsaObj where
  n := exBigP * exBigQ
  e := 65537
  d := inverse 65537 ((exBigP - 1) * (exBigQ - 1))
  p := exBigP
  q := exBigQ
  u := inverse exBigP exBigQ

set_option maxRecDepth 4000 in
theorem exBigObj_valid : Spec.RsaValid exBigObj where
  p_prime := exBigP_prime
  q_prime := exBigQ_prime
  ne := by decide +kernel
  n_eq := rfl
  ed_p := by decide +kernel
  ed_q := by decide +kernel
  u_eq := by decide +kernel

end Verif
