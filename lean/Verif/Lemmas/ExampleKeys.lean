import Mathlib.NumberTheory.LucasPrimality
import Verif.Lemmas.Arith
import Verif.Spec.Asym
/-
Concrete keys used as instances of the theorems about RSA: a valid 512-bit RSA key with proved
primes (Lucas test; `p - 1` and `q - 1` have only the prime factors 2 and 3).
-/
namespace Verif

theorem prime_of_lucas23 (a b w : Nat) (p : Nat) (hp : p = 2 ^ a * 3 ^ b + 1)
    (h1 : powMod w (p - 1) p = 1) (h2 : powMod w ((p - 1) / 2) p ≠ 1) (h3 : powMod w ((p - 1) / 3) p ≠ 1)
    (hbig : 1 < p) : p.Prime := by
  have cast1 : ∀ e, ((w : ZMod p) ^ e = 1) ↔ powMod w e p = 1 := by
    intro e
    rw [powMod_eq]
    constructor
    · intro h
      have : ((w ^ e : Nat) : ZMod p) = ((1 : Nat) : ZMod p) := by push_cast; simpa using h
      have := (ZMod.natCast_eq_natCast_iff _ _ _).mp this
      unfold Nat.ModEq at this
      rw [this, Nat.mod_eq_of_lt hbig]
    · intro h
      have : ((w ^ e : Nat) : ZMod p) = ((1 : Nat) : ZMod p) := by
        rw [ZMod.natCast_eq_natCast_iff]
        unfold Nat.ModEq
        rw [h, Nat.mod_eq_of_lt hbig]
      push_cast at this
      simpa using this
  refine lucas_primality p (w : ZMod p) ((cast1 _).mpr h1) ?_
  intro q hq hd
  have hd' : q ∣ 2 ^ a * 3 ^ b := by rw [hp] at hd; simpa using hd
  rcases (Nat.Prime.dvd_mul hq).mp hd' with h | h
  · have := (Nat.prime_dvd_prime_iff_eq hq Nat.prime_two).mp (hq.dvd_of_dvd_pow h)
    subst this
    exact fun hh => h2 ((cast1 _).mp hh)
  · have := (Nat.prime_dvd_prime_iff_eq hq Nat.prime_three).mp (hq.dvd_of_dvd_pow h)
    subst this
    exact fun hh => h3 ((cast1 _).mp hh)

/-- 256-bit prime `2^227 * 3^18 + 1` -/
def exP : Nat := 2 ^ 227 * 3 ^ 18 + 1
/-- 256-bit prime `2^175 * 3^51 + 1` -/
def exQ : Nat := 2 ^ 175 * 3 ^ 51 + 1

theorem exP_prime : exP.Prime :=
  prime_of_lucas23 227 18 5 exP rfl (by decide +kernel) (by decide +kernel) (by decide +kernel) (by decide +kernel)
theorem exQ_prime : exQ.Prime :=
  prime_of_lucas23 175 51 15 exQ rfl (by decide +kernel) (by decide +kernel) (by decide +kernel) (by decide +kernel)

/-- a 512-bit RSA key with public exponent 65537 -/
def exRsaObj : RsaObj where
  n := exP * exQ
  e := 65537
  d := inverse 65537 ((exP - 1) * (exQ - 1))
  p := exP
  q := exQ
  u := inverse exP exQ

theorem exRsaObj_valid : Spec.RsaValid exRsaObj where
  p_prime := exP_prime
  q_prime := exQ_prime
  ne := by decide +kernel
  n_eq := rfl
  ed_p := by decide +kernel
  ed_q := by decide +kernel
  u_eq := by decide +kernel

theorem exRsaObj_bits : 2 ^ 511 ≤ exRsaObj.n ∧ exRsaObj.n < 2 ^ 512 := by decide +kernel

end Verif
