import Verif.Spec.Fips
import Verif.Model.Aes
/-
Lemmas for C87: the arithmetic of bytes in AES.
-/
namespace Verif.Props
open Verif
open Verif.Spec.Fips (gf SBox affineBit polyMul polyRed)

private theorem xor8 (a b : UInt8) : (a ^^^ b).toNat = a.toNat ^^^ b.toNat := UInt8.toNat_xor a b

private theorem mulTerm (a b i acc : Nat) : (if b.testBit i then acc ^^^ (a <<< i) else acc) = acc ^^^ (if b.testBit i then a <<< i else 0) := by
  split <;> simp

private theorem mulTerm_xor (a b b' i : Nat) : (if (b ^^^ b').testBit i then a <<< i else 0) =
    (if b.testBit i then a <<< i else 0) ^^^ (if b'.testBit i then a <<< i else 0) := by
  rw [Nat.testBit_xor]
  cases b.testBit i <;> cases b'.testBit i <;> simp

theorem polyMul_xor (a b b' : Nat) : polyMul a (b ^^^ b') = polyMul a b ^^^ polyMul a b' := by
  have hr : List.range 8 = [0, 1, 2, 3, 4, 5, 6, 7] := by decide
  simp only [polyMul, hr, List.foldl, mulTerm, mulTerm_xor]
  ac_rfl

private theorem redStep_xor (n n' i : Nat) : (if (n ^^^ n').testBit (8 + i) then (n ^^^ n') ^^^ (0x11b <<< i) else n ^^^ n') =
    (if n.testBit (8 + i) then n ^^^ (0x11b <<< i) else n) ^^^ (if n'.testBit (8 + i) then n' ^^^ (0x11b <<< i) else n') := by
  rw [Nat.testBit_xor]
  generalize 0x11b <<< i = c
  cases n.testBit (8 + i) <;> cases n'.testBit (8 + i)
  · simp
  · simp [Nat.xor_assoc]
  · simp; ac_rfl
  · simp
    rw [show n ^^^ c ^^^ (n' ^^^ c) = (n ^^^ n') ^^^ (c ^^^ c) by ac_rfl]
    simp

theorem polyRed_xor (n n' : Nat) : polyRed (n ^^^ n') = polyRed n ^^^ polyRed n' := by
  unfold polyRed
  generalize [6, 5, 4, 3, 2, 1, 0] = l
  induction l generalizing n n' with
  | nil => rfl
  | cons i t ih => simp only [List.foldl, redStep_xor, ih]

theorem gf_xor (x a b : UInt8) : gf x (a ^^^ b) = gf x a ^^^ gf x b := by
  unfold gf
  rw [xor8, polyMul_xor, polyRed_xor]
  simp

/-- the inverse affine transformation -/
private def unAffine (y : UInt8) : UInt8 :=
  UInt8.ofNat ((List.range 8).foldl (fun acc k =>
    if (y.toNat.testBit ((k + 2) % 8) ^^ y.toNat.testBit ((k + 5) % 8) ^^ y.toNat.testBit ((k + 7) % 8) ^^ (5 : Nat).testBit k)
    then acc + 2 ^ k else acc) 0)

private def bits (b : UInt8) : UInt8 :=
  (if b.toNat.testBit 0 then 1 else 0) ^^^ (if b.toNat.testBit 1 then 2 else 0) ^^^ (if b.toNat.testBit 2 then 4 else 0) ^^^
  (if b.toNat.testBit 3 then 8 else 0) ^^^ (if b.toNat.testBit 4 then 16 else 0) ^^^ (if b.toNat.testBit 5 then 32 else 0) ^^^
  (if b.toNat.testBit 6 then 64 else 0) ^^^ (if b.toNat.testBit 7 then 128 else 0)

private theorem bits_eq (b : UInt8) : b = bits b :=
  Aes.forall_uint8 (p := fun b => b = bits b) (by decide +kernel) b

private theorem unAffine_sub : ∀ n < 256, (∀ k < 8, (Aes.sub (UInt8.ofNat n)).toNat.testBit k = affineBit (unAffine (Aes.sub (UInt8.ofNat n))) k) ∧
    (if UInt8.ofNat n = 0 then unAffine (Aes.sub (UInt8.ofNat n)) = 0 else gf (UInt8.ofNat n) (unAffine (Aes.sub (UInt8.ofNat n))) = 1) := by
  decide +kernel

private theorem left_inverse : ∀ n < 256, UInt8.ofNat n ≠ 0 → ∀ k < 8,
    gf (unAffine (Aes.sub (UInt8.ofNat n))) (gf (UInt8.ofNat n) (UInt8.ofNat (2 ^ k))) = UInt8.ofNat (2 ^ k) := by
  decide +kernel

private theorem gf_zero (x : UInt8) : gf x 0 = 0 := by
  have := gf_xor x 0 0
  simpa using this

private theorem linear_id {L : UInt8 → UInt8} (h : ∀ a b, L (a ^^^ b) = L a ^^^ L b) (h0 : L 0 = 0)
    (hk : ∀ k < 8, L (UInt8.ofNat (2 ^ k)) = UInt8.ofNat (2 ^ k)) (b : UInt8) : L b = b := by
  have it : ∀ (c : Bool) (k : Nat), k < 8 → L (if c then UInt8.ofNat (2 ^ k) else 0) = if c then UInt8.ofNat (2 ^ k) else 0 := by
    intro c k hk'
    cases c
    · exact h0
    · exact hk k hk'
  have := bits_eq b
  conv_lhs => rw [this]
  conv_rhs => rw [this]
  unfold bits
  simp only [h]
  rw [show (1 : UInt8) = UInt8.ofNat (2 ^ 0) from rfl, show (2 : UInt8) = UInt8.ofNat (2 ^ 1) from rfl,
    show (4 : UInt8) = UInt8.ofNat (2 ^ 2) from rfl, show (8 : UInt8) = UInt8.ofNat (2 ^ 3) from rfl,
    show (16 : UInt8) = UInt8.ofNat (2 ^ 4) from rfl, show (32 : UInt8) = UInt8.ofNat (2 ^ 5) from rfl,
    show (64 : UInt8) = UInt8.ofNat (2 ^ 6) from rfl, show (128 : UInt8) = UInt8.ofNat (2 ^ 7) from rfl]
  rw [it _ 0 (by decide), it _ 1 (by decide), it _ 2 (by decide), it _ 3 (by decide), it _ 4 (by decide), it _ 5 (by decide),
    it _ 6 (by decide), it _ 7 (by decide)]

private theorem sub_spec (x : UInt8) : (∀ k < 8, (Aes.sub x).toNat.testBit k = affineBit (unAffine (Aes.sub x)) k) ∧
    (if x = 0 then unAffine (Aes.sub x) = 0 else gf x (unAffine (Aes.sub x)) = 1) :=
  Aes.forall_uint8 (p := fun x => (∀ k < 8, (Aes.sub x).toNat.testBit k = affineBit (unAffine (Aes.sub x)) k) ∧
    (if x = 0 then unAffine (Aes.sub x) = 0 else gf x (unAffine (Aes.sub x)) = 1)) unAffine_sub x

private theorem inverse_unique (x b : UInt8) (hx : x ≠ 0) (h : gf x b = 1) : b = unAffine (Aes.sub x) := by
  have hl : ∀ a, gf (unAffine (Aes.sub x)) (gf x a) = a :=
    linear_id (L := fun a => gf (unAffine (Aes.sub x)) (gf x a)) (fun a b => by simp only [gf_xor])
      (by simp only [gf_zero])
      (Aes.forall_uint8 (p := fun x => x ≠ 0 → ∀ k < 8,
        gf (unAffine (Aes.sub x)) (gf x (UInt8.ofNat (2 ^ k))) = UInt8.ofNat (2 ^ k)) left_inverse x hx)
  have h2 := (sub_spec x).2
  rw [if_neg hx] at h2
  rw [← hl b, h, ← h2, hl]

private theorem byte_ext (x y : UInt8) (h : ∀ k < 8, x.toNat.testBit k = y.toNat.testBit k) : x = y := by
  rw [bits_eq x, bits_eq y]
  unfold bits
  rw [h 0 (by decide), h 1 (by decide), h 2 (by decide), h 3 (by decide), h 4 (by decide), h 5 (by decide), h 6 (by decide),
    h 7 (by decide)]

/-- the table is the S-box of the standard -/
theorem sub_iff (x y : UInt8) : Aes.sub x = y ↔ SBox x y := by
  constructor
  · rintro rfl
    exact ⟨_, (sub_spec x).2, (sub_spec x).1⟩
  · rintro ⟨b, hb, hy⟩
    have : b = unAffine (Aes.sub x) := by
      by_cases hx : x = 0
      · rw [if_pos hx] at hb
        have := (sub_spec x).2
        rw [if_pos hx] at this
        rw [hb, this]
      · rw [if_neg hx] at hb
        exact inverse_unique x b hx hb
    subst this
    exact byte_ext _ _ fun k hk => by rw [hy k hk, (sub_spec x).1 k hk]

theorem gf_two (x : UInt8) : gf 2 x = Aes.xt x :=
  Aes.forall_uint8 (p := fun x => gf 2 x = Aes.xt x) (by decide +kernel) x

theorem gf_three (x : UInt8) : gf 3 x = Aes.xt x ^^^ x :=
  Aes.forall_uint8 (p := fun x => gf 3 x = Aes.xt x ^^^ x) (by decide +kernel) x

/-! ## Rounds -/

theorem fin4 : ∀ r : Fin 4, r = 0 ∨ r = 1 ∨ r = 2 ∨ r = 3 := by decide

theorem stateOf_map (g : UInt8 → UInt8) (b : Bytes) (h : b.length = 16) :
    Spec.Fips.stateOf (b.map g) = fun r c => g (Spec.Fips.stateOf b r c) := by
  obtain ⟨a0, a1, a2, a3, b0, b1, b2, b3, c0, c1, c2, c3, d0, d1, d2, d3, rfl⟩ := Aes.len16 h
  funext r c
  rcases fin4 r with rfl | rfl | rfl | rfl <;> rcases fin4 c with rfl | rfl | rfl | rfl <;> rfl

theorem stateOf_shift (b : Bytes) (h : b.length = 16) : Spec.Fips.stateOf (Aes.shiftRows b) = Spec.Fips.shiftRows (Spec.Fips.stateOf b) := by
  obtain ⟨a0, a1, a2, a3, b0, b1, b2, b3, c0, c1, c2, c3, d0, d1, d2, d3, rfl⟩ := Aes.len16 h
  funext r c
  rcases fin4 r with rfl | rfl | rfl | rfl <;> rcases fin4 c with rfl | rfl | rfl | rfl <;> rfl

theorem stateOf_mix (b : Bytes) (h : b.length = 16) : Spec.Fips.stateOf (Aes.mixColumns b) = Spec.Fips.mixColumns (Spec.Fips.stateOf b) := by
  obtain ⟨a0, a1, a2, a3, b0, b1, b2, b3, c0, c1, c2, c3, d0, d1, d2, d3, rfl⟩ := Aes.len16 h
  have col : ∀ a b c d : UInt8,
      Aes.xt a ^^^ Aes.xt b ^^^ b ^^^ c ^^^ d = gf 2 a ^^^ gf 3 b ^^^ c ^^^ d ∧
      a ^^^ Aes.xt b ^^^ Aes.xt c ^^^ c ^^^ d = gf 2 b ^^^ gf 3 c ^^^ d ^^^ a ∧
      a ^^^ b ^^^ Aes.xt c ^^^ Aes.xt d ^^^ d = gf 2 c ^^^ gf 3 d ^^^ a ^^^ b ∧
      Aes.xt a ^^^ a ^^^ b ^^^ c ^^^ Aes.xt d = gf 2 d ^^^ gf 3 a ^^^ b ^^^ c := by
    intro a b c d
    rw [gf_two, gf_two, gf_two, gf_two, gf_three, gf_three, gf_three, gf_three]
    refine ⟨?_, ?_, ?_, ?_⟩ <;> ac_rfl
  funext r c
  rcases fin4 r with rfl | rfl | rfl | rfl <;> rcases fin4 c with rfl | rfl | rfl | rfl
  exacts [(col a0 a1 a2 a3).1, (col b0 b1 b2 b3).1, (col c0 c1 c2 c3).1, (col d0 d1 d2 d3).1,
    (col a0 a1 a2 a3).2.1, (col b0 b1 b2 b3).2.1, (col c0 c1 c2 c3).2.1, (col d0 d1 d2 d3).2.1,
    (col a0 a1 a2 a3).2.2.1, (col b0 b1 b2 b3).2.2.1, (col c0 c1 c2 c3).2.2.1, (col d0 d1 d2 d3).2.2.1,
    (col a0 a1 a2 a3).2.2.2, (col b0 b1 b2 b3).2.2.2, (col c0 c1 c2 c3).2.2.2, (col d0 d1 d2 d3).2.2.2]

theorem stateOf_add (k b : Bytes) (hk : k.length = 16) (h : b.length = 16) :
    Spec.Fips.stateOf (Aes.addKey k b) = fun r c => Spec.Fips.stateOf b r c ^^^ Spec.Fips.stateOf k r c := by
  obtain ⟨a0, a1, a2, a3, b0, b1, b2, b3, c0, c1, c2, c3, d0, d1, d2, d3, rfl⟩ := Aes.len16 h
  obtain ⟨a0', a1', a2', a3', b0', b1', b2', b3', c0', c1', c2', c3', d0', d1', d2', d3', rfl⟩ := Aes.len16 hk
  funext r c
  rcases fin4 r with rfl | rfl | rfl | rfl <;> rcases fin4 c with rfl | rfl | rfl | rfl <;> rfl

theorem stateOf_inj {a b : Bytes} (ha : a.length = 16) (hb : b.length = 16) (h : Spec.Fips.stateOf a = Spec.Fips.stateOf b) : a = b := by
  apply List.ext_getElem (by rw [ha, hb])
  intro i h1 h2
  have hi : i < 16 := by omega
  have := congrFun (congrFun h ⟨i % 4, by omega⟩) ⟨i / 4, by omega⟩
  unfold Spec.Fips.stateOf at this
  simp only [show i % 4 + 4 * (i / 4) = i by omega] at this
  simpa [h1, h2] using this

/-! ## The key schedule -/

/-- word `i` of a schedule -/
def wordOf (w : Nat → Fin 4 → UInt8) (i : Nat) : Aes.Word := (w i 0, w i 1, w i 2, w i 3)

private theorem rev_range (w : Nat → Fin 4 → UInt8) (i j : Nat) (h : j < i) :
    (((List.range i).map (wordOf w)).reverse).getD j (0, 0, 0, 0) = wordOf w (i - 1 - j) := by
  rw [List.getD_eq_getElem?_getD, List.getElem?_reverse (by simpa using h)]
  simp only [List.length_map, List.length_range]
  rw [List.getElem?_map, List.getElem?_range (by omega)]
  rfl

theorem expand_eq {nk : Nat} {key : Bytes} {w : Nat → Fin 4 → UInt8} (hw : Spec.Fips.KeySchedule Aes.sub nk key w) (h0 : 0 < nk)
    (n i : Nat) (hi : nk ≤ i) (hn : i + n ≤ 4 * (nk + 7)) :
    Aes.expand nk n i (Spec.Fips.rcon ((i - 1) / nk)) ((List.range i).map (wordOf w)).reverse =
      ((List.range (i + n)).map (wordOf w)).reverse := by
  induction n generalizing i with
  | zero => rfl
  | succ n ih =>
    have hs : ((List.range (i + 1)).map (wordOf w)).reverse = wordOf w i :: ((List.range i).map (wordOf w)).reverse := by
      rw [List.range_succ]; simp
    have step := ih (i + 1) (by omega) (by omega)
    rw [hs, show i + 1 + n = i + (n + 1) by omega, show i + 1 - 1 = i by omega] at step
    have hw2 := hw.2 i hi (by omega)
    unfold Aes.expand
    simp only [rev_range w i 0 (by omega), rev_range w i (nk - 1) (by omega), show i - 1 - 0 = i - 1 by omega,
      show i - 1 - (nk - 1) = i - nk by omega]
    rw [← step]
    by_cases h1 : i % nk = 0
    · obtain ⟨q, rfl⟩ := Nat.dvd_of_mod_eq_zero h1
      have hq : 0 < q := by
        rcases Nat.eq_zero_or_pos q with rfl | h
        · omega
        · exact h
      have d1 : nk * q / nk = q := Nat.mul_div_cancel_left q h0
      have d2 : (nk * q - 1) / nk = q - 1 := by
        obtain ⟨p, rfl⟩ : ∃ p, q = p + 1 := ⟨q - 1, by omega⟩
        rw [Nat.mul_add, Nat.mul_one, show nk * p + nk - 1 = nk - 1 + nk * p by omega, Nat.add_mul_div_left _ _ h0,
          Nat.div_eq_of_lt (by omega)]
        omega
      have r1 : Aes.xt (Spec.Fips.rcon (q - 1)) = Spec.Fips.rcon q := by
        obtain ⟨p, rfl⟩ : ∃ p, q = p + 1 := ⟨q - 1, by omega⟩
        rw [← gf_two]; rfl
      simp only [if_pos h1, d1] at hw2
      rw [if_pos h1, d1, d2, r1]
      congr 2
      have e0 := hw2 0
      have e1 := hw2 1
      have e2 := hw2 2
      have e3 := hw2 3
      simp only [wordOf, Aes.xorW, Aes.subW, Aes.rotW, e0, e1, e2, e3]
      simp
    · have hd : i / nk = (i - 1) / nk := by
        obtain ⟨j, rfl⟩ : ∃ j, i = j + 1 := ⟨i - 1, by omega⟩
        rw [Nat.succ_div, if_neg (fun hdv => h1 (Nat.mod_eq_zero_of_dvd hdv))]
        simp
      rw [if_neg h1, hd]
      simp only [if_neg h1] at hw2
      by_cases h2 : nk > 6 ∧ i % nk = 4
      · have h2' : 6 < nk ∧ i % nk = 4 := h2
        rw [if_pos h2]
        simp only [if_pos h2'] at hw2
        simp only [wordOf, Aes.xorW, Aes.subW, hw2]
      · have h2' : ¬ (6 < nk ∧ i % nk = 4) := h2
        rw [if_neg h2]
        simp only [if_neg h2'] at hw2
        have e : Aes.xorW (wordOf w (i - nk)) (wordOf w (i - 1)) = wordOf w i := by
          simp only [wordOf, Aes.xorW, hw2]
        rw [e]

theorem toWords_eq (nk s : Nat) (key : Bytes) (w : Nat → Fin 4 → UInt8) (hl : key.length = 4 * nk)
    (hw : ∀ i < nk, ∀ r : Fin 4, w (s + i) r = key.getD (4 * i + r.val) 0) :
    Aes.toWords key = (List.range' s nk).map (wordOf w) := by
  induction nk generalizing s key with
  | zero =>
    have : key = [] := List.length_eq_zero_iff.1 (by omega)
    subst this; rfl
  | succ n ih =>
    match key, hl with
    | a :: b :: c :: d :: t, hl =>
      have h0 := hw 0 (by omega)
      rw [Aes.toWords, List.range'_succ, List.map_cons, ih (s + 1) t (by simp at hl; omega)]
      · congr 1
        unfold wordOf
        rw [show s = s + 0 from rfl, h0 0, h0 1, h0 2, h0 3]
        rfl
      · intro i hi r
        have := hw (i + 1) (by omega) r
        rw [show s + 1 + i = s + (i + 1) by omega, this, show 4 * (i + 1) + r.val = (4 * i + r.val) + 4 by omega]
        simp

/-- the sixteen bytes of a round key -/
def keyAt (w : Nat → Fin 4 → UInt8) (s : Nat) : Bytes :=
  [w s 0, w s 1, w s 2, w s 3, w (s + 1) 0, w (s + 1) 1, w (s + 1) 2, w (s + 1) 3,
   w (s + 2) 0, w (s + 2) 1, w (s + 2) 2, w (s + 2) 3, w (s + 3) 0, w (s + 3) 1, w (s + 3) 2, w (s + 3) 3]

def keysFrom (w : Nat → Fin 4 → UInt8) : Nat → Nat → List Bytes
  | _, 0 => []
  | s, m + 1 => keyAt w s :: keysFrom w (s + 4) m

theorem toKeys_eq (w : Nat → Fin 4 → UInt8) (m s : Nat) :
    Aes.toKeys ((List.range' s (4 * m)).map (wordOf w)) = keysFrom w s m := by
  induction m generalizing s with
  | zero => rfl
  | succ m ih =>
    rw [show 4 * (m + 1) = 4 * m + 1 + 1 + 1 + 1 by omega]
    simp only [List.range'_succ, List.map_cons, Aes.toKeys, keysFrom]
    rw [show s + 1 + 1 + 1 + 1 = s + 4 by omega, ih]
    rfl

theorem roundKeys_eq {nk : Nat} {key : Bytes} {w : Nat → Fin 4 → UInt8} (hw : Spec.Fips.KeySchedule Aes.sub nk key w) (h0 : 0 < nk)
    (hl : key.length = 4 * nk) : Aes.roundKeys key = keysFrom w 0 (nk + 7) := by
  unfold Aes.roundKeys
  have hk : key.length / 4 = nk := by omega
  simp only [hk]
  rw [toWords_eq nk 0 key w hl (by simpa using hw.1), ← List.range_eq_range']
  have h1 : (1 : UInt8) = Spec.Fips.rcon ((nk - 1) / nk) := by rw [Nat.div_eq_of_lt (by omega)]; rfl
  rw [h1, expand_eq hw h0 _ _ (Nat.le_refl _) (by omega), List.reverse_reverse, List.range_eq_range',
    show nk + (4 * (nk + 7) - nk) = 4 * (nk + 7) by omega, toKeys_eq]

theorem stateOf_keyAt (w : Nat → Fin 4 → UInt8) (s : Nat) (r c : Fin 4) : Spec.Fips.stateOf (keyAt w s) r c = w (s + c.val) r := by
  rcases fin4 r with rfl | rfl | rfl | rfl <;> rcases fin4 c with rfl | rfl | rfl | rfl <;> rfl

theorem stateOf_addKeyAt (w : Nat → Fin 4 → UInt8) (k : Nat) (b : Bytes) (h : b.length = 16) :
    Spec.Fips.stateOf (Aes.addKey (keyAt w (4 * k)) b) = Spec.Fips.addRoundKey w k (Spec.Fips.stateOf b) := by
  rw [stateOf_add _ _ rfl h]
  funext r c
  rw [stateOf_keyAt]
  rfl

theorem encRounds_eq (w : Nat → Fin 4 → UInt8) (b0 : Spec.Fips.State) (m k : Nat) (s : Bytes) (hs : s.length = 16)
    (h : Spec.Fips.stateOf s = Spec.Fips.after Aes.sub w b0 k) :
    Spec.Fips.stateOf (Aes.encRounds (keysFrom w (4 * (k + 1)) (m + 1)) s) =
      Spec.Fips.addRoundKey w (k + m + 1)
        (Spec.Fips.shiftRows fun r c => Aes.sub (Spec.Fips.after Aes.sub w b0 (k + m) r c)) := by
  have hm : (s.map Aes.sub).length = 16 := by simpa using hs
  induction m generalizing k s with
  | zero =>
    show Spec.Fips.stateOf (Aes.addKey (keyAt w (4 * (k + 1))) (Aes.shiftRows (s.map Aes.sub))) = _
    rw [stateOf_addKeyAt _ _ _ (Aes.shiftRows_length hm), stateOf_shift _ hm, stateOf_map _ _ hs, h]
    rfl
  | succ m ih =>
    have hx := Aes.addKey_length (k := keyAt w (4 * (k + 1))) rfl (Aes.mix_length (Aes.shiftRows_length hm))
    show Spec.Fips.stateOf (Aes.encRounds (keysFrom w (4 * (k + 1) + 4) (m + 1))
      (Aes.addKey (keyAt w (4 * (k + 1))) (Aes.mixColumns (Aes.shiftRows (s.map Aes.sub))))) = _
    rw [show 4 * (k + 1) + 4 = 4 * (k + 1 + 1) by omega, ih (k + 1) _ hx ?_ (by simpa using hx),
      show k + 1 + m = k + (m + 1) by omega]
    rw [stateOf_addKeyAt _ _ _ (Aes.mix_length (Aes.shiftRows_length hm)), stateOf_mix _ (Aes.shiftRows_length hm),
      stateOf_shift _ hm, stateOf_map _ _ hs, h]
    rfl

/-- the model computes the cipher with any schedule of the key -/
theorem enc_eq {nk : Nat} {key block : Bytes} {w : Nat → Fin 4 → UInt8} (hw : Spec.Fips.KeySchedule Aes.sub nk key w) (h0 : 0 < nk)
    (hl : key.length = 4 * nk) (hb : block.length = 16) :
    Spec.Fips.stateOf (Aes.enc key block) = Spec.Fips.addRoundKey w (nk + 6)
      (Spec.Fips.shiftRows fun r c => Aes.sub (Spec.Fips.after Aes.sub w (Spec.Fips.stateOf block) (nk + 5) r c)) := by
  unfold Aes.enc
  rw [roundKeys_eq hw h0 hl]
  show Spec.Fips.stateOf (Aes.encRounds (keysFrom w (0 + 4) (nk + 6)) (Aes.addKey (keyAt w 0) block)) = _
  have := encRounds_eq w (Spec.Fips.stateOf block) (nk + 5) 0 (Aes.addKey (keyAt w 0) block)
    (Aes.addKey_length rfl hb) (stateOf_addKeyAt w 0 block hb)
  simpa using this

/-- every key has a schedule -/
def schedule (nk : Nat) (key : Bytes) (i : Nat) : Fin 4 → UInt8 :=
  if h : i < nk ∨ nk = 0 then fun r => key.getD (4 * i + r.val) 0
  else fun r => schedule nk key (i - nk) r ^^^
    (if i % nk = 0 then Aes.sub (schedule nk key (i - 1) (r + 1)) ^^^ (if r = 0 then Spec.Fips.rcon (i / nk - 1) else 0)
     else if 6 < nk ∧ i % nk = 4 then Aes.sub (schedule nk key (i - 1) r)
     else schedule nk key (i - 1) r)
termination_by i
decreasing_by all_goals omega

theorem schedule_ok (nk : Nat) (key : Bytes) (h0 : 0 < nk) : Spec.Fips.KeySchedule Aes.sub nk key (schedule nk key) := by
  constructor
  · intro i hi r
    rw [schedule, dif_pos (.inl hi)]
  · intro i hi _ r
    conv_lhs => rw [schedule, dif_neg (by omega)]

end Verif.Props
