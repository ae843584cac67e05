import Verif.Lemmas.FloatLen
import Verif.Props.Asymmetric
import Verif.Model.Aes
import Mathlib.Data.Int.Log
import Mathlib.Algebra.Order.Round
/-
Property theorems C72: the lengths that the code computes in floating point.
-/
namespace Verif.Props
open Verif Verif.Spec

/-! ## A concrete instance: round to nearest -/

/-- rounding to 53 significant bits -/
noncomputable def roundDouble (x : ℝ) : ℝ := round (x * 2 ^ (52 - Int.log 2 |x|)) * (2 : ℝ) ^ (Int.log 2 |x| - 52)

theorem roundDouble_error (x : ℝ) : |roundDouble x - x| ≤ 2⁻¹ ^ 53 * |x| := by
  by_cases h0 : x = 0
  · subst h0; simp [roundDouble]
  have hx : 0 < |x| := abs_pos.mpr h0
  have hlo : (2 : ℝ) ^ Int.log 2 |x| ≤ |x| := by exact_mod_cast Int.zpow_log_le_self (b := 2) (by norm_num) hx
  unfold roundDouble
  generalize Int.log 2 |x| = e at *
  have hp : (0 : ℝ) < 2 ^ (e - 52) := by positivity
  have hinv : (2 : ℝ) ^ (52 - e) * 2 ^ (e - 52) = 1 := by
    rw [← zpow_add₀ (by norm_num)]; simp
  have : (round (x * 2 ^ (52 - e)) : ℝ) * 2 ^ (e - 52) - x =
      (round (x * 2 ^ (52 - e)) - x * 2 ^ (52 - e)) * 2 ^ (e - 52) := by
    rw [sub_mul, mul_assoc x, hinv, mul_one]
  rw [this, abs_mul, abs_of_pos hp, abs_sub_comm]
  have h1 := abs_sub_round (x * (2 : ℝ) ^ (52 - e))
  have h2 : (2 : ℝ) ^ (e - 52) = 2 ^ e * 2⁻¹ ^ 52 := by
    rw [zpow_sub₀ (by norm_num), inv_pow]; rfl
  calc _ ≤ 1 / 2 * (2 : ℝ) ^ (e - 52) := mul_le_mul_of_nonneg_right h1 hp.le
    _ = 2⁻¹ ^ 53 * 2 ^ e := by rw [h2]; ring
    _ ≤ _ := mul_le_mul_of_nonneg_left hlo (by positivity)

theorem roundDouble_of_int {x : ℝ} (m : ℤ) (h : x * 2 ^ (52 - Int.log 2 |x|) = m) : roundDouble x = x := by
  unfold roundDouble
  rw [h, round_intCast, ← h, mul_assoc, ← zpow_add₀ (by norm_num)]
  simp

theorem roundDouble_int (m : ℤ) (hm : |m| ≤ 2 ^ 53) : roundDouble m = m := by
  by_cases h0 : m = 0
  · subst h0; simp [roundDouble]
  have hpos : (0 : ℝ) < |(m : ℝ)| := abs_pos.mpr (by exact_mod_cast h0)
  have hone : (1 : ℝ) ≤ |(m : ℝ)| := by exact_mod_cast Int.one_le_abs h0
  have hlo : (2 : ℝ) ^ Int.log 2 |(m : ℝ)| ≤ |(m : ℝ)| := by exact_mod_cast Int.zpow_log_le_self (b := 2) (by norm_num) hpos
  have hge : 0 ≤ Int.log 2 |(m : ℝ)| := by
    rw [← Int.log_one_right (R := ℝ) 2]; exact Int.log_mono_right (by norm_num) hone
  have hle : |(m : ℝ)| ≤ 2 ^ 53 := by exact_mod_cast hm
  have he : Int.log 2 |(m : ℝ)| ≤ 53 := by
    have : (2 : ℝ) ^ Int.log 2 |(m : ℝ)| ≤ 2 ^ (53 : ℤ) := le_trans hlo (by exact_mod_cast hle)
    exact (zpow_le_zpow_iff_right₀ (by norm_num)).mp this
  rcases lt_or_eq_of_le he with h | h
  · obtain ⟨j, hj⟩ : ∃ j : ℕ, 52 - Int.log 2 |(m : ℝ)| = j := ⟨(52 - Int.log 2 |(m : ℝ)|).toNat, by omega⟩
    exact roundDouble_of_int (m * 2 ^ j) (by rw [hj]; push_cast; rw [zpow_natCast])
  · -- only ±2^53
    have h53 : |(m : ℝ)| = 2 ^ 53 := le_antisymm hle (by rw [h] at hlo; exact_mod_cast hlo)
    have hm' : |m| = 2 ^ 53 := by exact_mod_cast h53
    have hd : ∃ c : ℤ, m = 2 * c := by
      rcases abs_choice m with h | h
      · exact ⟨2 ^ 52, by rw [h] at hm'; rw [hm']; norm_num⟩
      · exact ⟨-2 ^ 52, by rw [h] at hm'; omega⟩
    obtain ⟨c, hc⟩ := hd
    refine roundDouble_of_int c ?_
    rw [h]
    have : (m : ℝ) = 2 * c := by exact_mod_cast hc
    rw [this]
    norm_num
    ring

/-- scaling by a power of two commutes with rounding -/
theorem roundDouble_scale (x : ℝ) (hx : 0 < x) (j : ℕ) : roundDouble (2 ^ j * x) = 2 ^ j * roundDouble x := by
  have hl : Int.log 2 |2 ^ j * x| = j + Int.log 2 |x| := by
    rw [abs_of_pos (by positivity), abs_of_pos hx]
    have h1 : (2 : ℝ) ^ Int.log 2 x ≤ x := by exact_mod_cast Int.zpow_log_le_self (b := 2) (by norm_num) hx
    have h2 : x < (2 : ℝ) ^ (Int.log 2 x + 1) := by exact_mod_cast Int.lt_zpow_succ_log_self (b := 2) (by norm_num) x
    apply le_antisymm
    · have : Int.log 2 (2 ^ j * x) < j + Int.log 2 x + 1 := by
        rw [← Int.lt_zpow_iff_log_lt (by norm_num) (by positivity)]
        push_cast
        rw [add_assoc, zpow_add₀ (by norm_num), zpow_natCast]
        exact mul_lt_mul_of_pos_left h2 (by positivity)
      omega
    · rw [← Int.zpow_le_iff_le_log (by norm_num) (by positivity)]
      push_cast
      rw [zpow_add₀ (by norm_num), zpow_natCast]
      exact mul_le_mul_of_nonneg_left h1 (by positivity)
  unfold roundDouble
  rw [hl]
  generalize Int.log 2 |x| = e
  have : (2 : ℝ) ^ j * x * 2 ^ (52 - (j + e)) = x * 2 ^ (52 - e) := by
    rw [show (52 - (j + e) : ℤ) = (52 - e) - j by ring, zpow_sub₀ (by norm_num : (2 : ℝ) ≠ 0) (52 - e) j, zpow_natCast]
    field_simp
  rw [this, show ((j : ℤ) + e - 52) = j + (e - 52) by ring, zpow_add₀ (by norm_num), zpow_natCast]
  ring

/-- round to nearest, with a correctly rounded logarithm -/
noncomputable def ieee : FloatOps where
  fl := roundDouble
  log x := roundDouble (Real.log x)
  fl_error := roundDouble_error
  fl_int := roundDouble_int
  log_error x _ := le_trans (roundDouble_error _)
    (mul_le_mul_of_nonneg_right (by norm_num) (abs_nonneg _))

/-! ## C72 -/

variable (F : FloatOps) (P : Prims)

/-- C72: the computed number of bytes is the true one unless `n` is within a factor 1 ± 2^-26 of a power of 256. -/
theorem C72_count (n k : Nat) (hb : n < 2 ^ 65536)
    (hlo : (256 : ℝ) ^ k * (1 + 2⁻¹ ^ 26) ≤ n) (hhi : (n : ℝ) ≤ 256 ^ (k + 1) * (1 - 2⁻¹ ^ 26)) :
    numBytesFloat F n = .ok (k + 1) := by
  have hp : (0 : ℝ) < n := lt_of_lt_of_le (by positivity) hlo
  have hn : n ≠ 0 := by rintro rfl; simp at hp
  have herr := pyLog256_error F n hn hb
  have hl : Real.log 256 = 8 * Real.log 2 := log256
  obtain ⟨l1, l2⟩ := log2_bounds
  have hℓ : 0 < Real.log 256 := by rw [hl]; linarith
  have h1 := Real.log_le_log (by positivity) hlo
  have h2 := Real.log_le_log hp hhi
  rw [Real.log_mul (by positivity) (by positivity), Real.log_pow] at h1
  rw [Real.log_mul (by positivity) (by norm_num), Real.log_pow] at h2
  have h3 := Real.one_sub_inv_le_log_of_pos (x := (1 + 2⁻¹ ^ 26 : ℝ)) (by positivity)
  have h4 := Real.log_le_sub_one_of_pos (x := (1 - 2⁻¹ ^ 26 : ℝ)) (by norm_num)
  have b1 : (k : ℝ) + 2⁻¹ ^ 30 ≤ Real.log n / Real.log 256 := by
    rw [le_div_iff₀ hℓ]
    have : (2⁻¹ ^ 30 : ℝ) * Real.log 256 ≤ 1 - (1 + 2⁻¹ ^ 26 : ℝ)⁻¹ := by
      rw [hl]; norm_num; linarith
    linarith [add_mul (k : ℝ) (2⁻¹ ^ 30) (Real.log 256)]
  have b2 : Real.log n / Real.log 256 ≤ k + 1 - 2⁻¹ ^ 30 := by
    rw [div_le_iff₀ hℓ]
    have : (2⁻¹ ^ 30 : ℝ) * Real.log 256 ≤ 2⁻¹ ^ 26 := by
      rw [hl]; norm_num; linarith
    push_cast at h2
    linarith [sub_mul (k + 1 : ℝ) (2⁻¹ ^ 30) (Real.log 256)]
  have hfloor : ⌊pyLog256 F n⌋ = k := by
    rw [Int.floor_eq_iff]
    rw [abs_le] at herr
    norm_num at herr b1 b2 ⊢
    constructor <;> linarith
  unfold numBytesFloat
  rw [if_neg hn, hfloor]
  congr 1

/-- C72: so for the modulus of a usable RSA key, whose top bit is set, only the 26 leading bits matter: unless they are
all ones the length is right. -/
theorem C72_rsa_count (key : RsaPrivateKey) (hu : UsableRsa key)
    (h : (key.key.n : ℝ) ≤ 2 ^ key.size * (1 - 2⁻¹ ^ 26)) :
    numBytesFloat F key.key.n = .ok (key.size / 8) := by
  obtain ⟨s1, s2, s3⟩ := hu.size_facts
  obtain ⟨j, hj⟩ : ∃ j, key.size = 8 * (j + 1) := ⟨key.size / 8 - 1, by omega⟩
  have hb : key.key.n < 2 ^ 65536 := lt_of_lt_of_le hu.bits.2 (Nat.pow_le_pow_right (by norm_num) (by omega))
  have h256 : ∀ i : ℕ, (256 : ℝ) ^ i = 2 ^ (8 * i) := fun i => by
    rw [show (256 : ℝ) = 2 ^ 8 by norm_num, ← pow_mul]
  have := C72_count F key.key.n j hb ?_ ?_
  · rw [this, hj]; congr 1; omega
  · have h1 : (2 : ℝ) ^ (key.size - 1) ≤ key.key.n := by exact_mod_cast hu.bits.1
    refine le_trans ?_ h1
    rw [h256, hj, show 8 * (j + 1) - 1 = 8 * j + 7 by omega, pow_add]
    exact mul_le_mul_of_nonneg_left (by norm_num) (by positivity)
  · rw [h256, ← hj]; exact h

/-- C72: then encoding and decoding are the ones of the exact length. -/
theorem C72_rsa_oaep (key : RsaPrivateKey) (hu : UsableRsa key)
    (h : (key.key.n : ℝ) ≤ 2 ^ key.size * (1 - 2⁻¹ ^ 26)) (seed msg em : Bytes) :
    key.pub.EncodeFloat F P seed msg = key.pub.Encode P seed msg ∧ key.DecodeFloat F P em = key.Decode P em := by
  have hc := C72_rsa_count F key hu h
  have hn : key.key.n ≠ 0 := by have := hu.valid.n_pos; omega
  have hlen : (BigIntToBytes key.key.n).length = key.size / 8 := by
    obtain ⟨s1, s2, s3⟩ := hu.size_facts
    have hb := byteLength_bounds hn
    rw [pow256, pow256] at hb
    have h1 := lt_of_le_of_lt hu.bits.1 hb.2
    have h2 := lt_of_le_of_lt hb.1 hu.bits.2
    rw [Nat.pow_lt_pow_iff_right (by norm_num)] at h1 h2
    omega
  have hx : numBytesFloat F key.key.n = numBytes key.key.n := by
    rw [hc, numBytes, if_neg hn, hlen]
  refine ⟨?_, ?_⟩
  · unfold RsaPublicKey.EncodeFloat RsaPublicKey.Encode
    rw [hu.pub]
    show (do let k ← numBytesFloat F key.key.n; _) = (do let k ← numBytes key.key.n; _)
    rw [hx]
  · unfold RsaPrivateKey.DecodeFloat RsaPrivateKey.Decode
    rw [hx]

theorem leadingBits {n s : Nat} (h : n * 2 ^ 26 + 2 ^ s ≤ 2 ^ s * 2 ^ 26) : (n : ℝ) ≤ 2 ^ s * (1 - 2⁻¹ ^ 26) := by
  have : (n : ℝ) * 2 ^ 26 + 2 ^ s ≤ 2 ^ s * 2 ^ 26 := by exact_mod_cast h
  generalize (2 : ℝ) ^ s = b at *
  norm_num at *
  linarith

/-- instance: the 512-bit key of C48 -/
example : UsableRsa exRsa ∧ (exRsa.key.n : ℝ) ≤ 2 ^ exRsa.size * (1 - 2⁻¹ ^ 26) :=
  ⟨exRsa_usable, leadingBits (by decide +kernel)⟩

set_option exponentiation.threshold 600 in
/-- C72: the condition is needed.  With round to nearest, every 512-bit modulus whose 54 leading bits are ones is said to
have 65 bytes. -/
theorem C72_wrong_count (n : Nat) (hlo : 2 ^ 512 - 2 ^ 458 ≤ n) (hhi : n < 2 ^ 512) :
    numBytesFloat ieee n = .ok 65 ∧ numBytes n = .ok 64 := by
  have hn : n ≠ 0 := by rintro rfl; norm_num at hlo
  have h511 : 2 ^ 511 ≤ n := le_trans (by norm_num) hlo
  constructor
  · have hloR : (2 ^ 512 - 2 ^ 458 : ℝ) ≤ n := by
      have := (Nat.sub_le_iff_le_add.mp hlo)
      have : (2 ^ 512 : ℝ) ≤ n + 2 ^ 458 := by
        have h := (Nat.cast_le (α := ℝ)).mpr this
        rwa [Nat.cast_add, Nat.cast_pow, Nat.cast_pow, Nat.cast_ofNat] at h
      linarith
    have hhiR : (n : ℝ) < 2 ^ 512 := by
      have h := (Nat.cast_lt (α := ℝ)).mpr hhi
      rwa [Nat.cast_pow, Nat.cast_ofNat] at h
    have hp : (0 : ℝ) < n := by exact_mod_cast Nat.pos_of_ne_zero hn
    have hlog : Int.log 2 (n : ℝ) = 511 := by
      rw [Int.log_natCast]
      have : Nat.log 2 n = 511 := (Nat.log_eq_iff (by left; norm_num)).mpr ⟨h511, hhi⟩
      rw [this]; rfl
    have hfl : roundDouble (n : ℝ) = 2 ^ 512 := by
      unfold roundDouble
      rw [abs_of_pos hp, hlog]
      have hr : round ((n : ℝ) * 2 ^ (52 - 511 : ℤ)) = 2 ^ 53 := by
        rw [round_eq, Int.floor_eq_iff]
        have e : (2 : ℝ) ^ (52 - 511 : ℤ) = (2 ^ 459)⁻¹ := by
          rw [← zpow_natCast, ← zpow_neg]; norm_num
        rw [e, ← div_eq_mul_inv]
        push_cast
        constructor
        · have : (2 ^ 53 - 1 / 2 : ℝ) ≤ n / 2 ^ 459 := by
            rw [le_div_iff₀ (by positivity)]
            refine le_trans (le_of_eq ?_) hloR
            norm_num
          linarith
        · have : (n : ℝ) / 2 ^ 459 < 2 ^ 53 := by
            rw [div_lt_iff₀ (by positivity)]
            refine lt_of_lt_of_le hhiR (le_of_eq ?_)
            norm_num
          linarith
      rw [hr]
      have : (2 : ℝ) ^ (511 - 52 : ℤ) = 2 ^ 459 := by
        rw [← zpow_natCast]; norm_num
      rw [this]
      push_cast
      norm_num
    have hl2 : 0 < Real.log 2 := Real.log_pos (by norm_num)
    have hnum : pyLog ieee n = 2 ^ 6 * roundDouble (Real.log 256) := by
      unfold pyLog
      show (if roundDouble (n : ℝ) < 2 ^ 1024 then roundDouble (Real.log (roundDouble n)) else _) = _
      rw [hfl, if_pos (pow_lt_pow_right₀ (by norm_num) (by norm_num)), ← roundDouble_scale _ (by rw [log256]; linarith),
        Real.log_pow, log256]
      congr 1
      push_cast
      ring
    have hden : pyLog ieee 256 = roundDouble (Real.log 256) := by
      unfold pyLog
      have hf : roundDouble ((256 : ℕ) : ℝ) = 256 := by
        have := roundDouble_int 256 (by norm_num)
        exact_mod_cast this
      show (if roundDouble ((256 : ℕ) : ℝ) < 2 ^ 1024 then roundDouble (Real.log (roundDouble ((256 : ℕ) : ℝ))) else _) = _
      rw [hf, if_pos (lt_of_lt_of_le (by norm_num : (256 : ℝ) < 2 ^ 9) (pow_le_pow_right₀ (by norm_num) (by norm_num)))]
    have hne : roundDouble (Real.log 256) ≠ 0 := by
      intro h0
      have := roundDouble_error (Real.log 256)
      rw [h0, zero_sub, abs_neg] at this
      have hpos : 0 < |Real.log 256| := abs_pos.mpr (by rw [log256]; linarith)
      norm_num at this
    have h64 : pyLog256 ieee n = 64 := by
      unfold pyLog256
      rw [hnum, hden, mul_div_assoc, div_self hne]
      have := roundDouble_int 64 (by norm_num)
      show roundDouble _ = _
      rw [mul_one, show (2 : ℝ) ^ 6 = ((64 : ℤ) : ℝ) by norm_num, this]
      norm_num
    unfold numBytesFloat
    rw [if_neg hn, h64]
    have : ⌊(64 : ℝ)⌋ = 64 := by exact_mod_cast Int.floor_intCast (R := ℝ) 64
    rw [this]
    rfl
  · have hb := byteLength_bounds hn
    rw [pow256, pow256] at hb
    have h1 := lt_of_le_of_lt h511 hb.2
    have h2 := lt_of_le_of_lt hb.1 hhi
    rw [Nat.pow_lt_pow_iff_right (by norm_num)] at h1 h2
    rw [numBytes, if_neg hn]
    congr 1
    omega

set_option exponentiation.threshold 600 in
/-- instance: the largest 512-bit number -/
example : 2 ^ 512 - 2 ^ 458 ≤ 2 ^ 512 - 1 ∧ 2 ^ 512 - 1 < 2 ^ 512 := by norm_num

/-- C72: a wrong length, as long as both sides compute the same one, does not spoil the round trip: for every `k`, a block
of `k` bytes whose value is below the modulus is decoded to the message (with the exception of C48). -/
theorem C72_round_trip_any_length (key : RsaObj) (hv : RsaValid key) (k : Nat) (hk : k ≤ 2 ^ 32) (seed msg em : Bytes)
    (hs : seed.length = 20) (he : oaepEncode P k seed msg = .ok em) (hlt : beNat em < key.n) :
    ∃ c d, key.pub.encrypt P em = .ok c ∧ key.decrypt P c = .ok d ∧
      oaepDecode P (.ok k) d = if (strip0 em).length < 42 then .error .keyczarError else .ok msg := by
  rw [oaepEncode_is_oaep P k seed msg hs hk] at he
  split at he
  · next hm =>
    injection he with he
    subst he
    obtain ⟨ci, h1, h2, _, h4⟩ := C49_decrypt_encrypt P key hv _ hlt
    refine ⟨longToBytes ci, longToBytes (beNat (oaep P.sha1 k seed msg)), ?_, ?_, oaepDecode_oaep P k seed msg hs hk hm⟩
    · simp only [RsaPubObj.encrypt, BytesToLong_eq, h1, bind, Except.bind, pure, Except.pure]
    · have hci : BytesToLong (longToBytes ci) = ci := by
        rw [BytesToLong_eq]
        unfold longToBytes
        split
        · next h => subst h; rfl
        · exact beNat_BigIntToBytes ci
      simp only [RsaObj.decrypt, hci, h4, bind, Except.bind, pure, Except.pure]
  · cases he

/-- instance: the 64-byte modulus of C48 taken for 65 bytes long -/
example : ∃ em, oaepEncode realPrims 65 (List.replicate 20 2) (bstr "This is some test data") = .ok em ∧
    beNat em < exRsaObj.n ∧ ¬ (strip0 em).length < 42 := by
  refine ⟨oaep realPrims.sha1 65 (List.replicate 20 2) (bstr "This is some test data"), ?_, ?_⟩
  · rw [oaepEncode_is_oaep _ _ _ _ (by decide) (by decide), if_pos (by decide)]
  · decide +kernel

/-- C72: the number of hash blocks of MGF1 is always right, so the mask is. -/
theorem C72_mgf (seed : Bytes) (mlen : Nat) : MGFFloat F P seed mlen = MGF P seed mlen := by
  unfold MGFFloat MGF
  split
  · rfl
  · next hm =>
    have hH : HLEN = 20 := rfl
    rw [hH] at hm ⊢
    have : mgfBlocksFloat F mlen = (mlen + (20 - 1)) / 20 := by
      unfold mgfBlocksFloat
      have f1 : F.fl ((mlen : ℕ) : ℝ) = mlen := by
        have := F.fl_int mlen (by rw [abs_of_nonneg (by positivity)]; norm_cast; omega)
        exact_mod_cast this
      have f2 : F.fl ((HLEN : ℕ) : ℝ) = 20 := by
        have := F.fl_int HLEN (by rw [hH]; norm_num)
        rw [hH] at this
        rw [hH]
        exact_mod_cast this
      rw [f1, f2]
      by_cases hd : mlen % 20 = 0
      · obtain ⟨q, rfl⟩ : ∃ q, mlen = 20 * q := ⟨mlen / 20, by omega⟩
        have : ((20 * q : ℕ) : ℝ) / 20 = ((q : ℤ) : ℝ) := by push_cast; field_simp
        rw [this, F.fl_int q (by rw [abs_of_nonneg (by positivity)]; norm_cast; omega), Int.ceil_intCast]
        omega
      · obtain ⟨q, r, hqr, hr1, hr2⟩ : ∃ q r, mlen = 20 * q + r ∧ 1 ≤ r ∧ r ≤ 19 :=
          ⟨mlen / 20, mlen % 20, by omega, by omega, by omega⟩
        have hv : ((mlen : ℕ) : ℝ) / 20 = q + r / 20 := by rw [hqr]; push_cast; field_simp
        have hq : (q : ℝ) ≤ 4294967296 := by exact_mod_cast (by omega : q ≤ 4294967296)
        have r1 : (1 : ℝ) ≤ r := by exact_mod_cast hr1
        have r2 : (r : ℝ) ≤ 19 := by exact_mod_cast hr2
        have herr := F.fl_error (((mlen : ℕ) : ℝ) / 20)
        rw [hv, abs_of_nonneg (a := (q : ℝ) + r / 20) (by positivity)] at herr
        rw [hv]
        generalize F.fl (q + r / 20) = y at *
        have hc : ⌈y⌉ = q + 1 := by
          rw [Int.ceil_eq_iff]
          rw [abs_le] at herr
          push_cast
          norm_num at herr ⊢
          constructor <;> linarith
        rw [hc]
        omega
    rw [this]

end Verif.Props
