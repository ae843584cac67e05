import Verif.Model.PyCrypto
import Verif.Lemmas.Util
import Mathlib.FieldTheory.Finite.Basic
import Mathlib.Data.Nat.ChineseRemainder
import Mathlib.Data.Int.ModEq
import Mathlib.Tactic.Ring
import Mathlib.Tactic.Linarith
import Mathlib.Tactic.ByContra
namespace Verif

theorem powMod_eq (a e n : Nat) : powMod a e n = a ^ e % n := by
  induction e using Nat.strongRecOn generalizing a with
  | _ e ih =>
    rw [powMod]
    split
    · next h => subst h; simp
    · next h =>
      simp only
      rw [ih (e / 2) (by omega)]
      have key : (a * a % n) ^ (e / 2) % n = (a ^ (2 * (e / 2))) % n := by
        rw [← Nat.pow_mod, ← pow_two, ← pow_mul]
      split
      · next h1 =>
        have : e = 2 * (e / 2) + 1 := by omega
        rw [key]
        conv_rhs => rw [this, pow_succ, Nat.mul_comm]
        rw [Nat.mul_mod, Nat.mod_mod, ← Nat.mul_mod]
      · next h1 =>
        have : e = 2 * (e / 2) := by omega
        rw [key]
        conv_rhs => rw [this]

/-- loop invariant of the extended Euclidean algorithm -/
theorem inverseLoop_spec (u v : Int) (u3 v3 : Nat) (u1 v1 : Int)
    (h1 : (u3 : Int) ≡ u1 * u [ZMOD v]) (h2 : (v3 : Int) ≡ v1 * u [ZMOD v]) :
    ((Nat.gcd u3 v3 : Nat) : Int) ≡ inverseLoop u3 v3 u1 v1 * u [ZMOD v] := by
  induction v3 using Nat.strongRecOn generalizing u3 u1 v1 with
  | _ v3 ih =>
    rw [inverseLoop]
    split
    · next h => subst h; rw [Nat.gcd_zero_right]; exact h1
    · next h =>
      have hlt : u3 % v3 < v3 := Nat.mod_lt _ (by omega)
      have := ih (u3 % v3) hlt v3 v1 (u1 - v1 * (u3 / v3 : Nat)) h2 (by
        have e : ((u3 % v3 : Nat) : Int) = (u3 : Int) - (v3 : Int) * ((u3 / v3 : Nat) : Int) := by
          have := Nat.div_add_mod u3 v3
          have : ((v3 * (u3 / v3) + u3 % v3 : Nat) : Int) = u3 := by rw [this]
          push_cast at this ⊢
          linarith
        rw [e]
        have e2 : (u1 - v1 * ((u3 / v3 : Nat) : Int)) * u
            = u1 * u - v1 * u * ((u3 / v3 : Nat) : Int) := by ring
        rw [e2]
        exact h1.sub (h2.mul_right _))
      rw [Nat.gcd_comm, Nat.gcd_rec, Nat.gcd_comm]
      exact this

theorem inverse_spec {u v : Nat} (hv : 0 < v) (hc : Nat.Coprime u v) : inverse u v * u ≡ 1 [MOD v] := by
  have h := inverseLoop_spec (u : Int) (v : Int) u v 1 0 (by simp) (by
    rw [zero_mul]
    exact Int.modEq_zero_iff_dvd.mpr dvd_rfl)
  rw [hc.gcd_eq_one] at h
  have key : ((inverse u v : Nat) : Int) ≡ inverseLoop u v 1 0 [ZMOD v] := by
    unfold inverse
    simp only
    split
    · next hneg =>
      rw [Int.toNat_of_nonneg (Int.emod_nonneg _ (by omega))]
      exact Int.mod_modEq _ _
    · next hpos =>
      rw [Int.toNat_of_nonneg (by omega)]
  have : ((inverse u v * u : Nat) : Int) ≡ ((1 : Nat) : Int) [ZMOD v] := by
    push_cast
    exact (key.mul_right _).trans h.symm
  exact (Int.natCast_modEq_iff).mp this

/-! ### RSA -/

/-- Fermat: exponents may be reduced modulo `p - 1` when `p` does not divide the base. -/
theorem pow_mod_fermat {p : Nat} (hp : p.Prime) {c : Nat} (hc : ¬ p ∣ c) (d : Nat) :
    c ^ (d % (p - 1)) ≡ c ^ d [MOD p] := by
  have := Fact.mk hp
  have h1 : c ^ (p - 1) ≡ 1 [MOD p] := by
    have hz : (c : ZMod p) ≠ 0 := by
      rw [Ne, ZMod.natCast_eq_zero_iff]; exact hc
    have := ZMod.pow_card_sub_one_eq_one hz
    exact (ZMod.natCast_eq_natCast_iff _ _ _).mp (by push_cast; exact this)
  conv_rhs => rw [← Nat.mod_add_div d (p - 1), pow_add, pow_mul]
  have : (c ^ (p - 1)) ^ (d / (p - 1)) ≡ 1 ^ (d / (p - 1)) [MOD p] := h1.pow _
  rw [one_pow] at this
  simpa using (this.mul_left (c ^ (d % (p - 1)))).symm

/-- one prime: raising to `e` and then to `d` reduced modulo `p - 1` is the identity mod `p` -/
theorem rsa_one_prime {p e d m c : Nat} (hp : p.Prime) (hed : e * d % (p - 1) = 1)
    (hc : c ≡ m ^ e [MOD p]) : c ^ (d % (p - 1)) ≡ m [MOD p] := by
  have he : e ≠ 0 := by rintro rfl; simp at hed
  have hd : d % (p - 1) ≠ 0 := by
    intro h
    rw [Nat.mul_mod, h, Nat.mul_zero, Nat.zero_mod] at hed
    omega
  by_cases hm : p ∣ m
  · have hm0 : m ≡ 0 [MOD p] := (Nat.modEq_zero_iff_dvd).mpr hm
    have hc0 : c ≡ 0 [MOD p] := by
      have := hm0.pow e
      rw [zero_pow he] at this
      exact hc.trans this
    have := hc0.pow (d % (p - 1))
    rw [zero_pow hd] at this
    exact this.trans hm0.symm
  · have hcn : ¬ p ∣ c := by
      intro h
      have : m ^ e ≡ 0 [MOD p] := hc.symm.trans ((Nat.modEq_zero_iff_dvd).mpr h)
      exact hm (hp.dvd_of_dvd_pow ((Nat.modEq_zero_iff_dvd).mp this))
    have h1 := pow_mod_fermat hp hcn d
    have h3 : c ^ d ≡ m ^ (e * d) [MOD p] := by
      have := hc.pow d
      rwa [← pow_mul] at this
    have h4 := (pow_mod_fermat hp hm (e * d)).symm
    rw [hed, pow_one] at h4
    exact h1.trans (h3.trans h4)

/-- the Chinese remainder recombination used by PyCrypto -/
theorem crt_recombine {p q u m1 m2 m : Nat} (hp : 0 < p) (hq : 0 < q) (hcop : Nat.Coprime p q)
    (hu : u * p % q = 1 % q) (h1 : m1 = m % p) (h2 : m2 = m % q) (hm : m < p * q) :
    (((if (m2 : Int) - m1 < 0 then (m2 : Int) - m1 + q else (m2 : Int) - m1) * u % q) * p + m1).toNat = m := by
  have hh : (if (m2 : Int) - m1 < 0 then (m2 : Int) - m1 + q else (m2 : Int) - m1) ≡ (m2 : Int) - m1 [ZMOD q] := by
    split
    · exact Int.ModEq.symm (by rw [Int.modEq_iff_dvd]; simp)
    · exact Int.ModEq.refl _
  generalize (if (m2 : Int) - m1 < 0 then (m2 : Int) - m1 + q else (m2 : Int) - m1) = h at hh
  set H : Int := h * u % q with hH
  have hH0 : 0 ≤ H := Int.emod_nonneg _ (by omega)
  have hH1 : H < q := Int.emod_lt_of_pos _ (by omega)
  have hm1 : m1 < p := by rw [h1]; exact Nat.mod_lt _ hp
  have hx0 : 0 ≤ H * p + m1 := by positivity
  obtain ⟨x, hx⟩ := Int.eq_ofNat_of_zero_le hx0
  rw [hx]
  change x = m
  have hxlt : x < p * q := by
    have : (x : Int) < p * q := by
      rw [← hx]
      have a1 : H * p ≤ (q - 1) * p := mul_le_mul_of_nonneg_right (by omega) (by omega)
      have a2 : (m1 : Int) < p := by exact_mod_cast hm1
      nlinarith
    exact_mod_cast this
  have hxp : x ≡ m [MOD p] := by
    rw [← Int.natCast_modEq_iff, ← hx]
    have : H * (p : Int) + m1 ≡ 0 + m1 [ZMOD p] :=
      Int.ModEq.add_right _ (Int.modEq_zero_iff_dvd.mpr (Dvd.intro_left _ rfl))
    rw [zero_add] at this
    refine this.trans ?_
    rw [Int.natCast_modEq_iff, h1]
    exact Nat.mod_modEq _ _
  have hxq : x ≡ m [MOD q] := by
    rw [← Int.natCast_modEq_iff, ← hx]
    have e1 : H ≡ h * u [ZMOD q] := Int.mod_modEq _ _
    have e2 : (u : Int) * p ≡ 1 [ZMOD q] := by
      have : u * p ≡ 1 [MOD q] := hu
      have := (Int.natCast_modEq_iff).mpr this
      push_cast at this
      exact this
    have e3 : H * p ≡ h [ZMOD q] := by
      have := e1.mul_right (p : Int)
      rw [mul_assoc] at this
      have e4 := e2.mul_left h
      rw [mul_one] at e4
      exact this.trans e4
    have e5 : H * p + m1 ≡ ((m2 : Int) - m1) + m1 [ZMOD q] := (e3.trans hh).add_right _
    rw [sub_add_cancel] at e5
    refine e5.trans ?_
    rw [Int.natCast_modEq_iff, h2]
    exact Nat.mod_modEq _ _
  have := (Nat.modEq_and_modEq_iff_modEq_mul hcop).mp ⟨hxp, hxq⟩
  exact Nat.ModEq.eq_of_lt_of_lt this hxlt hm

end Verif
