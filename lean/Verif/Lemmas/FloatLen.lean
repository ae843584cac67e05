import Verif.Model.FloatLen
import Mathlib.Analysis.Complex.ExponentialBounds
import Mathlib.Tactic.Positivity
import Mathlib.Tactic.NormNum
import Mathlib.Tactic.Linarith
import Mathlib.Tactic.FieldSimp
/-
Error bounds for the logarithm to base 256 computed in doubles.
-/
namespace Verif

theorem log_close {y n u : ℝ} (hn : 0 < n) (hu : 0 ≤ u) (hu4 : u ≤ 1 / 2) (h : |y - n| ≤ u * n) :
    0 < y ∧ |Real.log y - Real.log n| ≤ 2 * u := by
  rw [abs_le] at h
  have hy : 0 < y := by nlinarith
  refine ⟨hy, ?_⟩
  rw [← Real.log_div hy.ne' hn.ne']
  have hq : 0 < y / n := div_pos hy hn
  have h1 : y / n ≤ 1 + u := by rw [div_le_iff₀ hn]; nlinarith
  have h2 : 1 - u ≤ y / n := by rw [le_div_iff₀ hn]; nlinarith
  rw [abs_le]
  constructor
  · have := Real.one_sub_inv_le_log_of_pos hq
    have h3 : (y / n)⁻¹ ≤ 1 + 2 * u := by
      rw [inv_le_comm₀ hq (by linarith)]
      refine le_trans ?_ h2
      rw [inv_le_iff_one_le_mul₀ (by linarith)]
      nlinarith
    linarith
  · have := Real.log_le_sub_one_of_pos hq
    linarith

theorem log2_bounds : (0.69 : ℝ) < Real.log 2 ∧ Real.log 2 < 0.7 :=
  ⟨by have := Real.log_two_gt_d9; linarith, by have := Real.log_two_lt_d9; linarith⟩

theorem log256 : Real.log 256 = 8 * Real.log 2 := by
  rw [show (256 : ℝ) = 2 ^ 8 by norm_num, Real.log_pow]; norm_num

variable (F : FloatOps)

/-- the numeric constants: half a unit in the last place -/
noncomputable abbrev ulp : ℝ := 2⁻¹ ^ 53

theorem ulp_pos : 0 < ulp := by norm_num [ulp]
theorem ulp_two : (2⁻¹ : ℝ) ^ 52 = 2 * ulp := by norm_num [ulp]

theorem pyFrexp_spec (n : Nat) (hn : n ≠ 0) (hb : n < 2 ^ 65536) :
    1 / 4 ≤ (pyFrexp F n).1 ∧ (pyFrexp F n).1 ≤ 2 ∧ (pyFrexp F n).2 ≤ 65537 ∧
    |(pyFrexp F n).1 * 2 ^ (pyFrexp F n).2 - n| ≤ ulp * n := by
  have hlog : Nat.log2 n < 65536 := (Nat.log2_lt hn).mpr hb
  have hlo : (2 : ℝ) ^ Nat.log2 n ≤ n := by exact_mod_cast Nat.log2_self_le hn
  have hhi : (n : ℝ) < 2 ^ (Nat.log2 n + 1) := by exact_mod_cast Nat.lt_log2_self
  have hp : (0 : ℝ) < 2 ^ (Nat.log2 n + 1) := by positivity
  unfold pyFrexp
  simp only
  generalize hx : F.fl ((n : ℝ) / 2 ^ (Nat.log2 n + 1)) = x
  have herr := F.fl_error ((n : ℝ) / 2 ^ (Nat.log2 n + 1))
  rw [hx, abs_of_nonneg (a := (n : ℝ) / 2 ^ (Nat.log2 n + 1)) (by positivity)] at herr
  have hq1 : (n : ℝ) / 2 ^ (Nat.log2 n + 1) < 1 := by rwa [div_lt_one hp]
  have hq2 : (1 / 2 : ℝ) ≤ (n : ℝ) / 2 ^ (Nat.log2 n + 1) := by
    rw [le_div_iff₀ hp, pow_succ]; linarith
  have key : |x * 2 ^ (Nat.log2 n + 1) - n| ≤ ulp * n := by
    have : x * 2 ^ (Nat.log2 n + 1) - n = (x - n / 2 ^ (Nat.log2 n + 1)) * 2 ^ (Nat.log2 n + 1) := by
      field_simp
    rw [this, abs_mul, abs_of_pos hp]
    calc _ ≤ (2⁻¹ ^ 53 * ((n : ℝ) / 2 ^ (Nat.log2 n + 1))) * 2 ^ (Nat.log2 n + 1) :=
          mul_le_mul_of_nonneg_right herr hp.le
      _ = ulp * n := by field_simp
  split
  · next h1 =>
    refine ⟨by norm_num, by norm_num, by simp; omega, ?_⟩
    simp only
    rw [h1] at key
    rw [show (1 / 2 : ℝ) * 2 ^ (Nat.log2 n + 1 + 1) = 1 * 2 ^ (Nat.log2 n + 1) by rw [pow_succ _ (Nat.log2 n + 1)]; ring]
    exact key
  · refine ⟨?_, ?_, by simp; omega, key⟩ <;>
    · generalize (n : ℝ) / 2 ^ (Nat.log2 n + 1) = q at *
      simp only
      rw [abs_le] at herr
      norm_num at herr
      linarith

theorem log_nat_le {n : Nat} (hn : n ≠ 0) (hb : n < 2 ^ 65536) : 0 ≤ Real.log n ∧ Real.log n ≤ 45876 := by
  have h1 : (1 : ℝ) ≤ n := by exact_mod_cast Nat.one_le_iff_ne_zero.mpr hn
  refine ⟨Real.log_nonneg h1, ?_⟩
  have h2 : (n : ℝ) ≤ 2 ^ 65536 := by exact_mod_cast hb.le
  have := Real.log_le_log (by linarith) h2
  rw [Real.log_pow] at this
  have := log2_bounds.2
  push_cast at *
  linarith

/-- the natural logarithm is computed to an absolute error of 2^-33 -/
theorem pyLog_error (n : Nat) (hn : n ≠ 0) (hb : n < 2 ^ 65536) : |pyLog F n - Real.log n| ≤ 2⁻¹ ^ 33 := by
  obtain ⟨hL0, hL⟩ := log_nat_le hn hb
  have hnp : (0 : ℝ) < n := by exact_mod_cast Nat.pos_of_ne_zero hn
  unfold pyLog
  split
  · have h1 := F.fl_error n
    rw [abs_of_pos hnp] at h1
    clear hb
    obtain ⟨hy, hc⟩ := log_close hnp ulp_pos.le (by norm_num [ulp]) h1
    have h2 := F.log_error _ hy
    generalize F.fl n = y at *
    generalize F.log y = z at *
    generalize Real.log y = w at *
    generalize Real.log n = L at *
    have hw : |w| ≤ 45877 := by
      rw [abs_le] at hc ⊢
      norm_num [ulp] at hc
      constructor <;> linarith
    have h3 : |z - w| ≤ 2⁻¹ ^ 52 * 45877 := le_trans h2 (mul_le_mul_of_nonneg_left hw (by positivity))
    rw [abs_le] at *
    norm_num [ulp] at *
    constructor <;> linarith
  · obtain ⟨hx1, hx2, he, hx⟩ := pyFrexp_spec F n hn hb
    clear hb
    have hf : F.fl ((pyFrexp F n).2 : ℝ) = (pyFrexp F n).2 := by
      have := F.fl_int (pyFrexp F n).2 (by rw [abs_of_nonneg (by positivity)]; norm_cast; omega)
      exact_mod_cast this
    rw [hf]
    generalize (pyFrexp F n).1 = x at *
    generalize hee : (pyFrexp F n).2 = e at *
    have hxp : 0 < x := by linarith
    have hep : (0 : ℝ) ≤ e := by positivity
    have heR : (e : ℝ) ≤ 65537 := by exact_mod_cast he
    obtain ⟨-, hc⟩ := log_close hnp ulp_pos.le (by norm_num [ulp]) hx
    rw [Real.log_mul hxp.ne' (by positivity), Real.log_pow] at hc
    obtain ⟨l1, l2⟩ := log2_bounds
    have hlx : |Real.log x| ≤ 2 := by
      have a1 := Real.log_le_log hxp hx2
      have a2 := Real.log_le_log (by norm_num) hx1
      rw [show (1 / 4 : ℝ) = (2 ^ 2)⁻¹ by norm_num, Real.log_inv, Real.log_pow] at a2
      push_cast at a2
      rw [abs_le]; constructor <;> linarith
    have e1 := F.log_error x hxp
    have e2 := F.log_error 2 (by norm_num)
    rw [abs_of_pos (by linarith : 0 < Real.log 2)] at e2
    have e1' : |F.log x - Real.log x| ≤ 2⁻¹ ^ 52 * 2 := le_trans e1 (mul_le_mul_of_nonneg_left hlx (by positivity))
    have e2' : |F.log 2 - Real.log 2| ≤ 2⁻¹ ^ 52 * 0.7 := le_trans e2 (mul_le_mul_of_nonneg_left l2.le (by positivity))
    have e3 := F.fl_error (F.log 2 * e)
    have e4 := F.fl_error (F.log x + F.fl (F.log 2 * e))
    generalize F.fl (F.log x + F.fl (F.log 2 * e)) = r at *
    generalize F.fl (F.log 2 * e) = t at *
    generalize F.log x = lx at *
    generalize F.log 2 = lt at *
    generalize Real.log x = X at *
    generalize Real.log 2 = T at *
    generalize Real.log n = L at *
    -- the product
    have hm : |lt * e - T * e| ≤ 2⁻¹ ^ 52 * 0.7 * 65537 := by
      rw [← sub_mul, abs_mul, abs_of_nonneg hep]
      exact mul_le_mul e2' heR hep (by positivity)
    have hTe : 0 ≤ T * e := mul_nonneg (by linarith) hep
    have hTe2 : T * e ≤ 0.7 * 65537 := mul_le_mul l2.le heR hep (by norm_num)
    have hm2 : |lt * e| ≤ 45877 := by
      rw [abs_le] at hm ⊢
      norm_num at hm hTe2
      constructor <;> linarith
    have e3' : |t - lt * e| ≤ 2⁻¹ ^ 53 * 45877 := le_trans e3 (mul_le_mul_of_nonneg_left hm2 (by positivity))
    have hs : |lx + t| ≤ 45881 := by
      rw [abs_le] at *
      norm_num at *
      constructor <;> linarith
    have e4' : |r - (lx + t)| ≤ 2⁻¹ ^ 53 * 45881 := le_trans e4 (mul_le_mul_of_nonneg_left hs (by positivity))
    have hc' : |X + T * e - L| ≤ 2 * ulp := by rw [mul_comm T]; exact hc
    clear hc hx e1 e2 e3 e4 hlx hs hm2
    generalize lt * e = m at *
    generalize T * e = M at *
    rw [abs_le] at *
    norm_num [ulp] at *
    constructor <;> linarith

/-- the logarithm to base 256 is computed to an absolute error of 2^-34 -/
theorem pyLog256_error (n : Nat) (hn : n ≠ 0) (hb : n < 2 ^ 65536) :
    |pyLog256 F n - Real.log n / Real.log 256| ≤ 2⁻¹ ^ 34 := by
  obtain ⟨hL0, hL⟩ := log_nat_le hn hb
  have hnum := pyLog_error F n hn hb
  have hden : |pyLog F 256 - Real.log 256| ≤ 2⁻¹ ^ 52 * Real.log 256 := by
    unfold pyLog
    have hf : F.fl ((256 : ℕ) : ℝ) = 256 := by
      have := F.fl_int 256 (by norm_num)
      exact_mod_cast this
    rw [hf, if_pos (lt_of_lt_of_le (by norm_num : (256 : ℝ) < 2 ^ 9) (pow_le_pow_right₀ (by norm_num) (by norm_num)))]
    have := F.log_error 256 (by norm_num)
    rwa [abs_of_pos (Real.log_pos (by norm_num))] at this
  obtain ⟨l1, l2⟩ := log2_bounds
  have hl : Real.log 256 = 8 * Real.log 2 := log256
  have hfl := F.fl_error (pyLog F n / pyLog F 256)
  unfold pyLog256
  generalize F.fl (pyLog F n / pyLog F 256) = r at *
  generalize pyLog F n = a at *
  generalize pyLog F 256 = d at *
  generalize Real.log n = L at *
  generalize Real.log 256 = ℓ at *
  have hℓ1 : 5.5 ≤ ℓ := by rw [hl]; linarith
  have hℓ2 : ℓ ≤ 5.6 := by rw [hl]; linarith
  have hden' : |d - ℓ| ≤ 2⁻¹ ^ 52 * 5.6 := le_trans hden (mul_le_mul_of_nonneg_left hℓ2 (by positivity))
  have hd5 : 5 ≤ d := by rw [abs_le] at hden'; norm_num at hden'; linarith
  have hLq : 0 ≤ L / ℓ ∧ L / ℓ ≤ 8342 := by
    refine ⟨by positivity, ?_⟩
    rw [div_le_iff₀ (by linarith)]; linarith
  have hq : |a / d - L / ℓ| ≤ 2⁻¹ ^ 33 / 5 + 8342 * (2⁻¹ ^ 52 * 5.6) / 5 := by
    have : a / d - L / ℓ = ((a - L) - (L / ℓ) * (d - ℓ)) / d := by
      have : d ≠ 0 := by linarith
      have : ℓ ≠ 0 := by linarith
      field_simp
      ring
    rw [this, abs_div, abs_of_pos (by linarith : 0 < d)]
    have hnumr : |(a - L) - (L / ℓ) * (d - ℓ)| ≤ 2⁻¹ ^ 33 + 8342 * (2⁻¹ ^ 52 * 5.6) := by
      refine le_trans (abs_sub _ _) (add_le_add hnum ?_)
      rw [abs_mul, abs_of_nonneg hLq.1]
      exact mul_le_mul hLq.2 hden' (abs_nonneg _) (by norm_num)
    rw [← add_div]
    exact div_le_div₀ (by positivity) hnumr (by norm_num) hd5
  generalize a / d = q at *
  generalize L / ℓ = Q at *
  have hqa : |q| ≤ 8343 := by
    rw [abs_le] at *
    norm_num at *
    constructor <;> linarith
  have hfl' : |r - q| ≤ 2⁻¹ ^ 53 * 8343 := le_trans hfl (mul_le_mul_of_nonneg_left hqa (by positivity))
  rw [abs_le] at *
  norm_num at *
  constructor <;> linarith

end Verif
