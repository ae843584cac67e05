import Verif.Lemmas.Fips
import Verif.Model.Util
/-
C87: the concrete primitives of the model, `realPrims`, are SHA-1 as in FIPS 180-4 and the AES cipher as in FIPS 197.
-/
namespace Verif.Props
open Verif Spec

/-! ## AES -/

theorem sbox_is (S : UInt8 → UInt8) (h : ∀ x, Spec.Fips.SBox x (S x)) : S = Aes.sub :=
  funext fun x => ((sub_iff x (S x)).2 (h x)).symm

/-- C87: the table is the S-box of the standard: inversion in the field of 256 elements and an affine map. -/
theorem C87_sbox (x y : UInt8) : Aes.sub x = y ↔ Spec.Fips.SBox x y := sub_iff x y

/-- C87: with a key of 16, 24 or 32 bytes, the block function is the cipher of FIPS 197. -/
theorem C87_aes (key block out : Bytes) (hk : validAesKeyLen key.length = true) (hb : block.length = 16) :
    realPrims.aesEnc key block = out ↔ Spec.Fips.Cipher key block out := by
  simp only [validAesKeyLen, Bool.or_eq_true, decide_eq_true_eq] at hk
  have hl : key.length = 4 * (key.length / 4) := by omega
  have h0 : 0 < key.length / 4 := by omega
  show Aes.enc key block = out ↔ _
  constructor
  · rintro rfl
    exact ⟨Aes.sub, schedule (key.length / 4) key, fun x => (sub_iff x _).1 rfl, schedule_ok _ _ h0, Aes.enc_length _ hb,
      enc_eq (schedule_ok _ _ h0) h0 hl hb⟩
  · rintro ⟨S, w, hS, hw, ho, he⟩
    cases sbox_is S hS
    exact stateOf_inj (Aes.enc_length _ hb) ho ((enc_eq hw h0 hl hb).trans he.symm)

/-- C87: and decryption is its inverse. -/
theorem C87_aes_inverse (key block out : Bytes) (hk : validAesKeyLen key.length = true) (hb : block.length = 16)
    (h : Spec.Fips.Cipher key block out) : realPrims.aesDec key out = block := by
  rw [← (C87_aes key block out hk hb).2 h]
  exact Aes.dec_enc key hb

/-! ## SHA-1 -/

private theorem bigEndian_lt (b : Bytes) : bigEndian b < 256 ^ b.length := by
  induction b with
  | nil => simp [bigEndian]
  | cons c t ih =>
    simp only [bigEndian, List.length_cons, Nat.pow_succ]
    have := c.toNat_lt
    calc c.toNat * 256 ^ t.length + bigEndian t < c.toNat * 256 ^ t.length + 256 ^ t.length := by omega
      _ = (c.toNat + 1) * 256 ^ t.length := by rw [Nat.add_mul, Nat.one_mul]
      _ ≤ 256 * 256 ^ t.length := Nat.mul_le_mul_right _ (by omega)
      _ = 256 ^ t.length * 256 := Nat.mul_comm _ _

private theorem bigEndian_inj : ∀ {a b : Bytes}, a.length = b.length → bigEndian a = bigEndian b → a = b
  | [], [], _, _ => rfl
  | x :: s, y :: t, hl, h => by
    have hl' : s.length = t.length := by simpa using hl
    simp only [bigEndian, hl'] at h
    have h1 := bigEndian_lt s
    have h2 := bigEndian_lt t
    rw [hl'] at h1
    have hpos : 0 < 256 ^ t.length := Nat.pow_pos (by decide)
    have e1 : x.toNat = y.toNat := by
      have a1 : (x.toNat * 256 ^ t.length + bigEndian s) / 256 ^ t.length = x.toNat := by
        rw [Nat.mul_comm, Nat.mul_add_div hpos, Nat.div_eq_of_lt h1, Nat.add_zero]
      have a2 : (y.toNat * 256 ^ t.length + bigEndian t) / 256 ^ t.length = y.toNat := by
        rw [Nat.mul_comm, Nat.mul_add_div hpos, Nat.div_eq_of_lt h2, Nat.add_zero]
      rw [← a1, h, a2]
    rw [e1] at h
    have e2 : s = t := bigEndian_inj hl' (by omega)
    rw [UInt8.toNat_inj.1 e1, e2]

open _root_.Verif.Spec.Fips (Five)

/-- the model's words are numbers -/
def nums (s : Five) : Sha1.State := ⟨s.a.toNat, s.b.toNat, s.c.toNat, s.d.toNat, s.e.toNat⟩

private theorem rotl_eq (x : BitVec 32) (n : Nat) (hn : n < 32) : Sha1.rotl x.toNat n = (x.rotateLeft n).toNat := by
  unfold Sha1.rotl Sha1.M
  rw [BitVec.toNat_rotateLeft, Nat.mod_eq_of_lt hn, show (4294967296 : Nat) = 2 ^ 32 from rfl, Nat.or_mod_two_pow]
  congr 1
  apply Nat.mod_eq_of_lt
  exact Nat.lt_of_le_of_lt (Nat.shiftRight_le _ _) x.isLt

private theorem not_eq (x : BitVec 32) : Sha1.not32 x.toNat = (~~~x).toNat := by
  have : ~~~x = x ^^^ BitVec.allOnes 32 := BitVec.xor_allOnes.symm
  rw [this, BitVec.toNat_xor]
  rfl

private theorem ch_eq (x y z : BitVec 32) : (x &&& y ||| ~~~x &&& z) = Spec.Fips.Ch x y z := by
  unfold Spec.Fips.Ch
  ext i hi
  simp
  cases x[i] <;> simp

private theorem maj_eq (x y z : BitVec 32) : (x &&& y ||| x &&& z ||| y &&& z) = Spec.Fips.Maj x y z := by
  unfold Spec.Fips.Maj
  ext i hi
  simp
  cases x[i] <;> cases y[i] <;> simp

private theorem fk_eq (t : Nat) (b c d : BitVec 32) :
    Sha1.fk t b.toNat c.toNat d.toNat = (Spec.Fips.f t b c d).toNat + (Spec.Fips.K t).toNat := by
  unfold Sha1.fk Spec.Fips.f Spec.Fips.K
  by_cases h1 : t < 20
  · have g1 : t ≤ 19 := by omega
    simp only [h1, g1, if_true]
    rw [not_eq, ← BitVec.toNat_and, ← BitVec.toNat_and, ← BitVec.toNat_or, ch_eq]
    rfl
  · have g1 : ¬ t ≤ 19 := by omega
    simp only [h1, g1, if_false]
    by_cases h2 : t < 40
    · have g2 : t ≤ 39 := by omega
      simp only [h2, g2, if_true]
      rw [← BitVec.toNat_xor, ← BitVec.toNat_xor]
      rfl
    · have g2 : ¬ t ≤ 39 := by omega
      simp only [h2, g2, if_false]
      by_cases h3 : t < 60
      · have g3 : t ≤ 59 := by omega
        simp only [h3, g3, if_true]
        rw [← BitVec.toNat_and, ← BitVec.toNat_and, ← BitVec.toNat_and, ← BitVec.toNat_or, ← BitVec.toNat_or, maj_eq]
        rfl
      · have g3 : ¬ t ≤ 59 := by omega
        simp only [h3, g3, if_false]
        rw [← BitVec.toNat_xor, ← BitVec.toNat_xor]
        rfl

private theorem rounds_eq (W : Nat → BitVec 32) (s : Five) (n t : Nat) :
    Sha1.rounds t ((List.range' t n).map fun i => (W i).toNat) (nums (Spec.Fips.working W s t)) =
      nums (Spec.Fips.working W s (t + n)) := by
  induction n generalizing t with
  | zero => rfl
  | succ n ih =>
    rw [List.range'_succ, List.map_cons, Sha1.rounds, show t + (n + 1) = t + 1 + n by omega, ← ih (t + 1)]
    congr 1
    generalize hv : Spec.Fips.working W s t = v
    have hw : Spec.Fips.working W s (t + 1) =
        ⟨v.a.rotateLeft 5 + Spec.Fips.f t v.b v.c v.d + v.e + Spec.Fips.K t + W t, v.a, v.b.rotateLeft 30, v.c, v.d⟩ := by
      rw [Spec.Fips.working, hv]
    rw [hw]
    unfold nums
    simp only
    rw [rotl_eq _ 5 (by decide), rotl_eq _ 30 (by decide), fk_eq]
    congr 1
    simp only [BitVec.toNat_add]
    unfold Sha1.M
    omega

private theorem rounds_zero (W : Nat → BitVec 32) (s : Five) (n : Nat) :
    Sha1.rounds 0 ((List.range' 0 n).map fun i => (W i).toNat) (nums s) = nums (Spec.Fips.working W s n) := by
  have := rounds_eq W s n 0
  rwa [Nat.zero_add, Spec.Fips.working] at this

private theorem words_eq (n s : Nat) (blk : Bytes) (W : Nat → BitVec 32) (hl : blk.length = 4 * n)
    (hw : ∀ t < n, (W (s + t)).toNat = bigEndian ((blk.drop (4 * t)).take 4)) :
    Sha1.words blk = (List.range' s n).map fun i => (W i).toNat := by
  induction n generalizing s blk with
  | zero =>
    have : blk = [] := List.length_eq_zero_iff.1 (by omega)
    subst this; rfl
  | succ n ih =>
    match blk, hl with
    | a :: b :: c :: d :: t, hl =>
      rw [Sha1.words, List.range'_succ, List.map_cons, ih (s + 1) t (by simp at hl; omega)]
      · congr 1
        have := hw 0 (by omega)
        rw [Nat.add_zero] at this
        rw [this]
        simp [bigEndian]
        omega
      · intro i hi
        have := hw (i + 1) (by omega)
        rw [show s + 1 + i = s + (i + 1) by omega, this, show 4 * (i + 1) = 4 * i + 1 + 1 + 1 + 1 by omega]
        rfl

private theorem rev_nums (W : Nat → BitVec 32) (i j : Nat) (h : j < i) :
    (((List.range i).map fun i => (W i).toNat).reverse).getD j 0 = (W (i - 1 - j)).toNat := by
  rw [List.getD_eq_getElem?_getD, List.getElem?_reverse (by simpa using h)]
  simp only [List.length_map, List.length_range]
  rw [List.getElem?_map, List.getElem?_range (by omega)]
  rfl

private theorem extend_eq {blk : Bytes} {W : Nat → BitVec 32} (hW : Spec.Fips.MessageSchedule blk W) (n i : Nat) (hi : 16 ≤ i)
    (hn : i + n ≤ 80) : Sha1.extend n ((List.range i).map fun i => (W i).toNat).reverse =
      ((List.range (i + n)).map fun i => (W i).toNat).reverse := by
  induction n generalizing i with
  | zero => rfl
  | succ n ih =>
    have hs : ((List.range (i + 1)).map fun i => (W i).toNat).reverse =
        (W i).toNat :: ((List.range i).map fun i => (W i).toNat).reverse := by
      rw [List.range_succ]; simp
    rw [Sha1.extend, rev_nums W i 2 (by omega), rev_nums W i 7 (by omega), rev_nums W i 13 (by omega),
      rev_nums W i 15 (by omega), ← BitVec.toNat_xor, ← BitVec.toNat_xor, ← BitVec.toNat_xor, rotl_eq _ 1 (by decide),
      show i - 1 - 2 = i - 3 by omega, show i - 1 - 7 = i - 8 by omega, show i - 1 - 13 = i - 14 by omega,
      show i - 1 - 15 = i - 16 by omega, ← hW.2 i hi (by omega), ← hs, ih (i + 1) (by omega) (by omega),
      show i + 1 + n = i + (n + 1) by omega]

private theorem add_eq (x y : BitVec 32) : (y.toNat + x.toNat) % Sha1.M = (x + y).toNat := by
  rw [BitVec.toNat_add, Nat.add_comm y.toNat]
  rfl

private theorem block_eq {blk : Bytes} {s s' : Five} (hl : blk.length = 64) (h : Spec.Fips.Compressed blk s s') :
    Sha1.block (nums s) blk = nums s' := by
  obtain ⟨W, hW, rfl⟩ := h
  unfold Sha1.block
  simp only
  rw [words_eq 16 0 blk W hl (by simpa using hW.1), ← List.range_eq_range', extend_eq hW 64 16 (by decide) (by decide),
    List.reverse_reverse, List.range_eq_range']
  rw [show 16 + 64 = 80 from rfl, rounds_zero]
  generalize Spec.Fips.working W s 80 = v
  unfold nums Spec.Fips.plus
  simp only [add_eq]

/-- every block has a message schedule -/
def messageSchedule (blk : Bytes) (t : Nat) : BitVec 32 :=
  if h : t < 16 then BitVec.ofNat 32 (bigEndian ((blk.drop (4 * t)).take 4))
  else (messageSchedule blk (t - 3) ^^^ messageSchedule blk (t - 8) ^^^ messageSchedule blk (t - 14) ^^^
    messageSchedule blk (t - 16)).rotateLeft 1
termination_by t
decreasing_by all_goals omega

private theorem messageSchedule_ok (blk : Bytes) : Spec.Fips.MessageSchedule blk (messageSchedule blk) := by
  constructor
  · intro t ht
    rw [messageSchedule, dif_pos ht, BitVec.toNat_ofNat]
    apply Nat.mod_eq_of_lt
    have := bigEndian_lt ((blk.drop (4 * t)).take 4)
    refine Nat.lt_of_lt_of_le this ?_
    rw [show (2 : Nat) ^ 32 = 256 ^ 4 by decide]
    exact Nat.pow_le_pow_right (by decide) (by simp; omega)
  · intro t ht _
    conv_lhs => rw [messageSchedule, dif_neg (by omega)]

private theorem blocks_eq (H : Nat → Five) (n i : Nat) (p : Bytes) (hl : p.length = 64 * n)
    (h : ∀ j < n, Spec.Fips.Compressed ((p.drop (64 * j)).take 64) (H (i + j)) (H (i + j + 1))) :
    Sha1.blocks n p (nums (H i)) = nums (H (i + n)) := by
  induction n generalizing i p with
  | zero => rfl
  | succ n ih =>
    have h0 := h 0 (by omega)
    simp only [Nat.mul_zero, List.drop_zero, Nat.add_zero] at h0
    rw [Sha1.blocks, block_eq (by simp; omega) h0, ih (i + 1) (p.drop 64) (by simp; omega), show i + 1 + n = i + (n + 1) by omega]
    intro j hj
    have := h (j + 1) (by omega)
    rw [List.drop_drop, show 64 + 64 * j = 64 * (j + 1) by omega, show i + 1 + j = i + (j + 1) by omega]
    exact this

private theorem word4_eq (x : BitVec 32) : Sha1.word4 x.toNat = i2osp4 x.toNat := by
  have h : ∀ n, UInt8.ofNat n = UInt8.ofNat (n % 256) := fun n => by
    apply UInt8.toNat_inj.1
    simp
  unfold Sha1.word4 i2osp4
  rw [← h, ← h, ← h, ← h]

private theorem pad_iff (m p : Bytes) (hm : 8 * m.length < 2 ^ 64) : Spec.Fips.Padded m p ↔ p = Sha1.pad m := by
  have hlen : bigEndian (Sha1.word4 (m.length * 8 / Sha1.M) ++ Sha1.word4 (m.length * 8)) = 8 * m.length := by
    simp [Sha1.word4, bigEndian, Sha1.M]
    omega
  have hz : (Sha1.pad m).length = m.length + 1 + (119 - m.length % 64) % 64 + 8 := by
    simp [Sha1.pad, Sha1.word4]
    omega
  constructor
  · rintro ⟨z, len, h1, h2, h3, rfl, h4⟩
    have hz : z = (119 - m.length % 64) % 64 := by
      simp at h4
      omega
    have hl : len = Sha1.word4 (m.length * 8 / Sha1.M) ++ Sha1.word4 (m.length * 8) :=
      bigEndian_inj (by rw [h2]; rfl) (by rw [h3, hlen])
    rw [hz, hl]
    unfold Sha1.pad
    simp
  · rintro rfl
    refine ⟨(119 - m.length % 64) % 64, Sha1.word4 (m.length * 8 / Sha1.M) ++ Sha1.word4 (m.length * 8), by omega, rfl, hlen, ?_, ?_⟩
    · unfold Sha1.pad
      simp
    · rw [hz]
      omega

/-- C87: on messages of fewer than 2^64 bits, the hash function is SHA-1 of FIPS 180-4. -/
theorem C87_sha1 (m out : Bytes) (hm : 8 * m.length < 2 ^ 64) : realPrims.sha1 m = out ↔ Spec.Fips.Sha1 m out := by
  have key : ∀ (p : Bytes) (H : Nat → Five), Spec.Fips.Padded m p → H 0 = Spec.Fips.H0 →
      (∀ i < p.length / 64, Spec.Fips.Compressed ((p.drop (64 * i)).take 64) (H i) (H (i + 1))) →
      Sha1.hash m = Spec.Fips.digest (H (p.length / 64)) := by
    intro p H hp h0 hc
    have hd : p.length = 64 * (p.length / 64) := by
      obtain ⟨z, len, -, -, -, -, hd⟩ := hp
      omega
    have hp := (pad_iff m p hm).1 hp
    unfold Sha1.hash
    simp only
    rw [← hp, show (⟨0x67452301, 0xefcdab89, 0x98badcfe, 0x10325476, 0xc3d2e1f0⟩ : Sha1.State) = nums (H 0) by rw [h0]; rfl,
      blocks_eq H (p.length / 64) 0 p hd (by simpa using hc)]
    unfold nums Spec.Fips.digest
    simp only [word4_eq, Nat.zero_add]
  show Sha1.hash m = out ↔ _
  constructor
  · rintro rfl
    have hp := (pad_iff m _ hm).2 rfl
    let H : Nat → Five := fun n => Nat.rec Spec.Fips.H0 (fun i s =>
      Spec.Fips.plus (Spec.Fips.working (messageSchedule (((Sha1.pad m).drop (64 * i)).take 64)) s 80) s) n
    have hc : ∀ i < (Sha1.pad m).length / 64, Spec.Fips.Compressed (((Sha1.pad m).drop (64 * i)).take 64) (H i) (H (i + 1)) :=
      fun i _ => ⟨_, messageSchedule_ok _, rfl⟩
    exact ⟨_, H, hp, rfl, hc, key _ H hp rfl hc⟩
  · rintro ⟨p, H, hp, h0, hc, rfl⟩
    exact key p H hp h0 hc

/-- C87: `Hash` is SHA-1 of its arguments put together. -/
theorem C87_hash (inputs : List Bytes) (out : Bytes) (hm : 8 * inputs.flatten.length < 2 ^ 64) :
    Hash realPrims inputs = out ↔ Spec.Fips.Sha1 inputs.flatten out := C87_sha1 _ _ hm

/-! ## Cases -/

/-- FIPS 197, appendix B -/
example : Spec.Fips.Cipher
    [0x2b, 0x7e, 0x15, 0x16, 0x28, 0xae, 0xd2, 0xa6, 0xab, 0xf7, 0x15, 0x88, 0x09, 0xcf, 0x4f, 0x3c]
    [0x32, 0x43, 0xf6, 0xa8, 0x88, 0x5a, 0x30, 0x8d, 0x31, 0x31, 0x98, 0xa2, 0xe0, 0x37, 0x07, 0x34]
    [0x39, 0x25, 0x84, 0x1d, 0x02, 0xdc, 0x09, 0xfb, 0xdc, 0x11, 0x85, 0x97, 0x19, 0x6a, 0x0b, 0x32] :=
  (C87_aes _ _ _ (by decide) (by decide)).1 (by decide +kernel)

/-- FIPS 197, appendix C.3 -/
example : Spec.Fips.Cipher ((List.range 32).map UInt8.ofNat) ((List.range 16).map fun i => UInt8.ofNat (17 * i))
    [0x8e, 0xa2, 0xb7, 0xca, 0x51, 0x67, 0x45, 0xbf, 0xea, 0xfc, 0x49, 0x90, 0x4b, 0x49, 0x60, 0x89] :=
  (C87_aes _ _ _ (by decide) (by decide)).1 (by decide +kernel)

/-- the hash of "abc" -/
example : Spec.Fips.Sha1 [97, 98, 99] [0xa9, 0x99, 0x3e, 0x36, 0x47, 0x06, 0x81, 0x6a, 0xba, 0x3e, 0x25, 0x71, 0x78, 0x50,
    0xc2, 0x6c, 0x9c, 0xd0, 0xd8, 0x9d] :=
  (C87_sha1 _ _ (by decide)).1 (by decide +kernel)

end Verif.Props
