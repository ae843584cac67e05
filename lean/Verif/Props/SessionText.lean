import Verif.Spec.SessionText
import Verif.Props.Unpack
import Verif.Props.Attached
import Verif.Props.Accepts
import Verif.Props.AesText
import Verif.Props.JsonText
/-
C86: exactly which session materials and session messages are accepted.  keyczar.py:691-717, 784-843, util.py:421-444.
-/
namespace Verif.Props
open Verif Spec
variable (P : Prims)

/-! ## Packed keys -/

theorem unpackI_iff (f : Bytes) (n : Int) : structUnpackI f = .ok n ↔ Signed4 f n := by
  constructor
  · intro h
    have hl : f.length = 4 := by
      unfold structUnpackI at h
      split at h
      · rfl
      · cases h
    obtain ⟨v, hv, rfl⟩ := four_bytes f hl
    rw [unpackI_i2osp4 hv] at h
    exact ⟨v, hv, rfl, (Except.ok.inj h).symm⟩
  · rintro ⟨u, hu, rfl, rfl⟩
    exact unpackI_i2osp4 hu

theorem _root_.Verif.Spec.Signed4.length {f : Bytes} {n : Int} (h : Signed4 f n) : f.length = 4 := by
  obtain ⟨u, -, rfl, -⟩ := h; rfl

theorem _root_.Verif.Spec.Signed4.nat {f : Bytes} {n : Nat} (h : Signed4 f n) : f = i2osp4 n ∧ n < 2 ^ 31 := by
  obtain ⟨u, hu, rfl, he⟩ := h
  split at he
  · have : n = u := by omega
    subst this; exact ⟨rfl, by assumption⟩
  · omega

theorem signed4_nat {n : Nat} (h : n < 2 ^ 31) : Signed4 (i2osp4 n) n := ⟨n, by omega, rfl, by rw [if_pos h]⟩

private theorem unpackOne (data : Bytes) (p : Int) (a : Bytes) (q : Int) :
    UnpackByteArray data p = .ok (a, q) ↔
      ∃ n, Signed4 (slice data p (p + 4)) n ∧ a = slice data (p + 4) (p + 4 + n) ∧ q = p + 4 + n := by
  unfold UnpackByteArray
  cases hs : structUnpackI (slice data p (p + 4)) with
  | error e =>
    simp only [bind, Except.bind, reduceCtorEq, false_iff]
    rintro ⟨n, h, -⟩
    rw [(unpackI_iff _ _).2 h] at hs; cases hs
  | ok n =>
    simp only [bind, Except.bind, pure, Except.pure, Except.ok.injEq, Prod.mk.injEq]
    constructor
    · rintro ⟨rfl, rfl⟩
      exact ⟨n, (unpackI_iff _ _).1 hs, rfl, rfl⟩
    · rintro ⟨n', h, rfl, rfl⟩
      rw [(unpackI_iff _ _).2 h] at hs; cases hs
      exact ⟨rfl, rfl⟩

private theorem loop_acc (f : Nat) (data : Bytes) (p : Int) (acc l : List Bytes) (q : Int)
    (h : unpackLoop f data p acc = .ok (l, q)) : ∃ m, l = acc ++ m ∧ m.length < f ∧ ¬ q < data.length := by
  induction f generalizing p acc with
  | zero => cases h
  | succ f ih =>
    simp only [unpackLoop] at h
    by_cases hp : p < data.length
    · rw [if_pos hp] at h
      obtain ⟨⟨a, p'⟩, -, h⟩ := bind_ok h
      obtain ⟨m, rfl, hm, hq⟩ := ih _ _ h
      exact ⟨a :: m, by simp, by simp; omega, hq⟩
    · rw [if_neg hp] at h
      simp only [Except.ok.injEq, Prod.mk.injEq] at h
      obtain ⟨rfl, rfl⟩ := h
      exact ⟨[], by simp, by simp, hp⟩

/-- two turns of the loop -/
private theorem two_iff (fuel : Nat) (hf : 2 < fuel) (data kb hb : Bytes) :
    UnpackMultipleByteArrays fuel data = .ok [kb, hb] ↔
      ∃ p, (4 : Int) < data.length ∧ UnpackByteArray data 4 = .ok (kb, p) ∧ p < data.length ∧
        UnpackByteArray data p = .ok (hb, data.length) := by
  obtain ⟨f, rfl⟩ : ∃ f, fuel = f + 3 := ⟨fuel - 3, by omega⟩
  unfold UnpackMultipleByteArrays
  constructor
  · intro h
    obtain ⟨⟨l, q⟩, h1, h2⟩ := bind_ok h
    dsimp only at h2
    split at h2
    · next hq =>
      cases h2
      simp only [unpackLoop] at h1
      by_cases hp : (4 : Int) < data.length
      · rw [if_pos hp] at h1
        obtain ⟨⟨a, p⟩, e1, h1⟩ := bind_ok h1
        dsimp only at h1
        by_cases hp' : p < data.length
        · rw [if_pos hp'] at h1
          obtain ⟨⟨b, p2⟩, e2, h1⟩ := bind_ok h1
          dsimp only at h1
          by_cases hp2 : p2 < data.length
          · rw [if_pos hp2] at h1
            obtain ⟨⟨c, p3⟩, -, h1⟩ := bind_ok h1
            obtain ⟨m, hm, -⟩ := loop_acc _ _ _ _ _ _ h1
            have := congrArg List.length hm
            simp at this
          · rw [if_neg hp2] at h1
            simp only [Except.ok.injEq, Prod.mk.injEq] at h1
            obtain ⟨h3, h4⟩ := h1
            simp only [List.nil_append, List.cons_append, List.cons.injEq, and_true] at h3
            obtain ⟨rfl, rfl⟩ := h3
            subst h4
            exact ⟨p, hp, e1, hp', by rw [e2, hq]⟩
        · rw [if_neg hp'] at h1
          simp at h1
      · rw [if_neg hp] at h1
        simp at h1
    · cases h2
  · rintro ⟨p, hp, e1, hp', e2⟩
    simp only [unpackLoop, if_pos hp, e1, if_pos hp', e2, bind, Except.bind]
    simp [pure, Except.pure]

private theorem clamp_nat (n i : Nat) : clampIdx n (i : Int) = min i n := by
  unfold clampIdx
  rw [if_neg (by omega)]
  simp

private theorem clamp_neg (n i : Nat) (hi : 0 < i) : clampIdx n (-(i : Int)) = n - i := by
  unfold clampIdx
  rw [if_pos (by omega)]
  omega

/-- Exactly which byte strings are taken as two packed arrays, and which arrays they are. -/
theorem packed_iff (fuel : Nat) (hf : 2 < fuel) (data kb hb : Bytes) :
    UnpackMultipleByteArrays fuel data = .ok [kb, hb] ↔ PackedForm kb hb data := by
  rw [two_iff fuel hf]
  constructor
  · rintro ⟨p, hp, e1, hp', e2⟩
    rw [unpackOne] at e1 e2
    obtain ⟨n1, s1, rfl, rfl⟩ := e1
    obtain ⟨n2, s2, rfl, hn2⟩ := e2
    have c4 : slice data 4 (4 + 4) = (data.take 8).drop 4 := slice_nat data 4 8
    rw [c4] at s1
    have l8 : 8 ≤ data.length := by
      have := s1.length
      simp at this; omega
    have hsplit : data = data.take 4 ++ (data.take 8).drop 4 ++ data.drop 8 := by
      have : data.take 4 = (data.take 8).take 4 := by rw [List.take_take]; rfl
      rw [this, List.take_append_drop, List.take_append_drop]
    have lc : (data.take 4).length = 4 := by simp; omega
    by_cases h0 : 0 ≤ 4 + 4 + n1
    · obtain ⟨q, hq⟩ := Int.eq_ofNat_of_zero_le h0
      rw [hq] at s2 hn2 hp' ⊢
      have eq4 : ((q : Int) + 4) = ((q + 4 : Nat) : Int) := by push_cast; rfl
      rw [eq4, slice_nat] at s2
      have lq : q + 4 ≤ data.length := by
        have := s2.length
        simp at this; omega
      have en : (q : Int) + 4 + n2 = ((data.length : Nat) : Int) := hn2.symm
      have ek : slice data (4 + 4) (q : Int) = (data.take q).drop 8 := slice_nat data 8 q
      have eh : slice data ((q : Int) + 4) ((q : Int) + 4 + n2) = data.drop (q + 4) := by
        rw [en, eq4, slice_nat, List.take_length]
      rw [ek, eh]
      have hn : n2 = ((data.drop (q + 4)).length : Int) := by simp; omega
      rw [hn] at s2
      obtain ⟨f2, f3⟩ := s2.nat
      have hd : data = data.take q ++ lengthPrefixed (data.drop (q + 4)) := by
        unfold lengthPrefixed
        rw [← f2]
        have : (data.take (q + 4)).drop q ++ data.drop (q + 4) = data.drop q := by
          rw [show data.drop (q + 4) = (data.drop q).drop 4 by rw [List.drop_drop],
            show (data.take (q + 4)).drop q = (data.drop q).take 4 by rw [List.drop_take]; congr 1; omega,
            List.take_append_drop]
        rw [this, List.take_append_drop]
      have := PackedForm.forward (data.take 4) ((data.take 8).drop 4) (data.drop 8) (data.take q) (data.drop (q + 4)) lc
        (by
          have : (((data.take q).length : Nat) : Int) - 8 = n1 := by simp; omega
          rw [this]; exact s1)
        (by rw [← hsplit]; exact hd) f3
      rwa [← hsplit] at this
    · obtain ⟨t, ht, ht0⟩ : ∃ t : Nat, 4 + 4 + n1 = -(t : Int) ∧ 0 < t := ⟨(-(4 + 4 + n1)).toNat, by omega, by omega⟩
      rw [ht] at s2 hn2 ⊢
      have hl2 := s2.length
      have ht4 : 4 < t := by
        by_contra hlt
        have : clampIdx data.length (-(t : Int) + 4) = min (4 - t) data.length := by
          rw [show (-(t : Int) + 4) = ((4 - t : Nat) : Int) by omega]; exact clamp_nat _ _
        unfold slice at hl2
        rw [this, clamp_neg _ _ ht0] at hl2
        simp at hl2
        omega
      obtain ⟨b, rfl⟩ : ∃ b, t = b + 4 := ⟨t - 4, by omega⟩
      have hb0 : 0 < b := by omega
      have e4 : (-((b + 4 : Nat) : Int) + 4) = -(b : Int) := by push_cast; omega
      rw [e4] at s2 hn2 hl2 ⊢
      unfold slice at hl2
      rw [clamp_neg _ _ hb0, clamp_neg _ _ ht0] at hl2
      simp at hl2
      have lb : b + 4 ≤ data.length := by omega
      have es : slice data (-((b + 4 : Nat) : Int)) (-(b : Int)) = (data.take (data.length - b)).drop (data.length - (b + 4)) := by
        unfold slice; rw [clamp_neg _ _ hb0, clamp_neg _ _ ht0]
      have eh : slice data (-(b : Int)) (-(b : Int) + n2) = data.drop (data.length - b) := by
        rw [← hn2]
        unfold slice
        rw [clamp_neg _ _ hb0, clamp_nat, Nat.min_self, List.take_length]
      have ek : slice data (4 + 4) (-((b + 4 : Nat) : Int)) = (data.take (data.length - (b + 4))).drop 8 := by
        unfold slice
        rw [clamp_neg _ _ ht0, show (4 + 4 : Int) = ((8 : Nat) : Int) from rfl, clamp_nat, Nat.min_eq_left l8]
      rw [es] at s2
      rw [ek, eh]
      have lh : (data.drop (data.length - b)).length = b := by simp; omega
      have lp : (data.take (data.length - (b + 4))).length = data.length - (b + 4) := by simp
      have hn : n2 = ((data.length - (b + 4) + 4 + 2 * b : Nat) : Int) := by omega
      rw [hn] at s2
      obtain ⟨f2, f3⟩ := s2.nat
      have hd : data = data.take (data.length - (b + 4)) ++ i2osp4 (data.length - (b + 4) + 4 + 2 * b) ++
          data.drop (data.length - b) := by
        rw [← f2]
        have e1 : data.take (data.length - (b + 4)) = (data.take (data.length - b)).take (data.length - (b + 4)) := by
          rw [List.take_take]; congr 1; omega
        rw [e1, List.take_append_drop, List.take_append_drop]
      have := PackedForm.backward (data.take 4) ((data.take 8).drop 4) (data.drop 8) (data.take (data.length - (b + 4)))
        (data.drop (data.length - b)) lc
        (by
          rw [lh]
          have : (-12 - (b : Int)) = n1 := by push_cast at ht; omega
          rw [this]; exact s1)
        (by rw [← hsplit, lh, lp]; exact hd)
        (by intro h; rw [h] at lh; simp at lh; omega)
        (by rw [lh, lp]; exact f3)
      rwa [← hsplit] at this
  · intro h
    cases h with
    | forward count field rest pre _ hc hs hd hl =>
      have lf := hs.length
      generalize hD : count ++ field ++ rest = D at hd ⊢
      have lD : D.length = pre.length + 4 + hb.length := by rw [hd]; simp [lengthPrefixed, i2osp4]; omega
      have lD' : D.length = 8 + rest.length := by rw [← hD]; simp [hc, lf]; omega
      have s1 : slice D 4 (4 + 4) = field := by
        rw [show slice D 4 (4 + 4) = (D.take 8).drop 4 from slice_nat D 4 8, ← hD,
          List.take_left' (by simp [hc, lf]), List.drop_left' hc]
      have s2 : slice D (pre.length : Int) ((pre.length : Int) + 4) = i2osp4 hb.length := by
        rw [show ((pre.length : Int) + 4) = ((pre.length + 4 : Nat) : Int) by push_cast; rfl, slice_nat, hd]
        unfold lengthPrefixed
        rw [← List.append_assoc, List.take_left' (by simp [i2osp4]), List.drop_left' rfl]
      have e8 : (4 + 4 + ((pre.length : Int) - 8)) = (pre.length : Int) := by omega
      refine ⟨(pre.length : Int), by omega, ?_, by omega, ?_⟩
      · rw [unpackOne]
        refine ⟨(pre.length : Int) - 8, by rw [s1]; exact hs, ?_, e8.symm⟩
        rw [e8, show slice D (4 + 4) (pre.length : Int) = (D.take pre.length).drop 8 from slice_nat D 8 pre.length, hd,
          List.take_left' rfl]
      · rw [unpackOne]
        refine ⟨(hb.length : Int), by rw [s2]; exact signed4_nat hl, ?_, by omega⟩
        rw [show ((pre.length : Int) + 4) = ((pre.length + 4 : Nat) : Int) by push_cast; rfl,
          show (((pre.length + 4 : Nat) : Int) + (hb.length : Int)) = ((D.length : Nat) : Int) by omega, slice_nat,
          List.take_length, hd]
        unfold lengthPrefixed
        rw [← List.append_assoc, List.drop_left' (by simp [i2osp4])]
    | backward count field rest pre _ hc hs hd hne hl =>
      have lf := hs.length
      have hb0 : 0 < hb.length := List.length_pos_iff.2 hne
      generalize hD : count ++ field ++ rest = D at hd ⊢
      have lD : D.length = pre.length + 4 + hb.length := by rw [hd]; simp [i2osp4]; omega
      have lD' : D.length = 8 + rest.length := by rw [← hD]; simp [hc, lf]; omega
      have s1 : slice D 4 (4 + 4) = field := by
        rw [show slice D 4 (4 + 4) = (D.take 8).drop 4 from slice_nat D 4 8, ← hD,
          List.take_left' (by simp [hc, lf]), List.drop_left' hc]
      have ep : (4 + 4 + (-12 - (hb.length : Int))) = -((hb.length + 4 : Nat) : Int) := by push_cast; omega
      have e4 : (-((hb.length + 4 : Nat) : Int) + 4) = -(hb.length : Int) := by push_cast; omega
      have c1 : clampIdx D.length (-((hb.length + 4 : Nat) : Int)) = pre.length := by rw [clamp_neg _ _ (by omega)]; omega
      have c2 : clampIdx D.length (-(hb.length : Int)) = pre.length + 4 := by rw [clamp_neg _ _ hb0]; omega
      have s2 : slice D (-((hb.length + 4 : Nat) : Int)) (-(hb.length : Int)) = i2osp4 (pre.length + 4 + 2 * hb.length) := by
        unfold slice
        rw [c1, c2, hd, List.take_left' (by simp [i2osp4]), List.drop_left' rfl]
      refine ⟨-((hb.length + 4 : Nat) : Int), by omega, ?_, by omega, ?_⟩
      · rw [unpackOne]
        refine ⟨-12 - (hb.length : Int), by rw [s1]; exact hs, ?_, ep.symm⟩
        rw [ep]
        unfold slice
        rw [c1, show (4 + 4 : Int) = ((8 : Nat) : Int) from rfl, clamp_nat, Nat.min_eq_left (by omega), hd, List.append_assoc,
          List.take_left' rfl]
      · rw [unpackOne, e4]
        have en : -(hb.length : Int) + ((pre.length + 4 + 2 * hb.length : Nat) : Int) = (D.length : Int) := by omega
        refine ⟨((pre.length + 4 + 2 * hb.length : Nat) : Int), by rw [s2]; exact signed4_nat hl, ?_, en.symm⟩
        rw [en]
        unfold slice
        rw [c2, clamp_nat, Nat.min_self, List.take_length, hd, List.drop_left' (by simp [i2osp4])]

private theorem PackedForm_unique {kb hb kb' hb' data : Bytes} (h : PackedForm kb hb data) (h' : PackedForm kb' hb' data) :
    kb = kb' ∧ hb = hb' := by
  rw [← packed_iff 3 (by decide)] at h h'
  rw [h] at h'
  simp only [Except.ok.injEq, List.cons.injEq, and_true] at h'
  exact h'

private theorem load_says (kb hb : Bytes) (s : Session) :
    (Except.ok ⟨⟨Base64WSEncode kb, ⟨Base64WSEncode hb, setSize .HMAC_SHA1 (hb.length * 8 : Nat)⟩,
      setSize .AES (kb.length * 8 : Nat)⟩, none⟩ : Py Session) = .ok s ↔ SessionSays kb hb s := by
  have h1 : setSize .HMAC_SHA1 (hb.length * 8 : Nat) = 256 := by
    have := setSize_mem .HMAC_SHA1 (hb.length * 8 : Nat)
    simpa [KeyType.sizes] using this
  have h2 : setSize .AES (kb.length * 8 : Nat) = if kb.length = 24 then 192 else if kb.length = 32 then 256 else 128 := by
    by_cases a : kb.length = 24
    · rw [if_pos a, a]; decide
    · by_cases b : kb.length = 32
      · rw [if_neg a, if_pos b, b]; decide
      · rw [if_neg a, if_neg b]
        unfold setSize KeyType.IsValidSize
        by_cases c : kb.length = 16
        · rw [c]; decide
        · rw [if_neg]
          · rfl
          · simp [KeyType.sizes]
            omega
  rw [h1, h2, Except.ok.injEq]
  exact eq_comm

/-- C86: `LoadPackedKey` makes a session of exactly the byte strings of `PackedForm`, and it holds the two keys they say.
Nothing is asked of the lengths of the keys. -/
theorem C86_packed (fuel : Nat) (hf : 2 < fuel) (data : Bytes) (s : Session) :
    Session.LoadPackedKey fuel data = .ok s ↔ ∃ kb hb, PackedForm kb hb data ∧ SessionSays kb hb s := by
  unfold Session.LoadPackedKey
  constructor
  · intro h
    obtain ⟨l, h1, h2⟩ := bind_ok h
    split at h2
    · exact ⟨_, _, (packed_iff fuel hf _ _ _).1 h1, (load_says _ _ _).1 h2⟩
    · cases h2
  · rintro ⟨kb, hb, h1, h2⟩
    rw [(packed_iff fuel hf _ _ _).2 h1]
    exact (load_says _ _ _).2 h2

/-- C86: no byte string is read as two different pairs of keys. -/
theorem C86_unique (kb hb kb' hb' data : Bytes) (h : PackedForm kb hb data) (h' : PackedForm kb' hb' data) :
    kb = kb' ∧ hb = hb' := PackedForm_unique h h'

/-- C86: but one pair of keys is read from many byte strings: the number of arrays is not looked at, whatever the four bytes
are; and the same keys come out of a string whose first length is negative. -/
theorem C86_many (kb hb count : Bytes) (hc : count.length = 4) (hk : kb.length < 2 ^ 31) (hh : hb.length < 2 ^ 31) :
    PackedForm kb hb (count ++ lengthPrefixed kb ++ lengthPrefixed hb) ∧
    (hb ≠ [] → kb.length + 12 + 2 * hb.length < 2 ^ 31 →
      PackedForm kb hb (count ++ i2osp4 (2 ^ 32 - 12 - hb.length) ++ kb ++ i2osp4 (kb.length + 12 + 2 * hb.length) ++ hb)) := by
  constructor
  · have := PackedForm.forward count (i2osp4 kb.length) (kb ++ lengthPrefixed hb) (count ++ lengthPrefixed kb) hb hc
      (by
        have : (((count ++ lengthPrefixed kb).length : Nat) : Int) - 8 = (kb.length : Int) := by
          simp [lengthPrefixed, hc, i2osp4]; omega
        rw [this]; exact signed4_nat hk)
      (by simp [lengthPrefixed]) hh
    have e1 : (count ++ lengthPrefixed kb).drop 8 = kb := by
      unfold lengthPrefixed
      rw [← List.append_assoc, List.drop_left' (by simp [hc, i2osp4])]
    have e2 : count ++ i2osp4 kb.length ++ (kb ++ lengthPrefixed hb) = count ++ lengthPrefixed kb ++ lengthPrefixed hb := by
      simp [lengthPrefixed]
    rwa [e1, e2] at this
  · intro hne hl
    have hp : (count ++ i2osp4 (2 ^ 32 - 12 - hb.length) ++ kb).length = kb.length + 8 := by simp [hc, i2osp4]; omega
    have := PackedForm.backward count (i2osp4 (2 ^ 32 - 12 - hb.length)) (kb ++ i2osp4 (kb.length + 12 + 2 * hb.length) ++ hb)
      (count ++ i2osp4 (2 ^ 32 - 12 - hb.length) ++ kb) hb hc
      ⟨2 ^ 32 - 12 - hb.length, by omega, rfl, by rw [if_neg (by omega)]; omega⟩
      (by
        rw [hp, show kb.length + 8 + 4 + 2 * hb.length = kb.length + 12 + 2 * hb.length by omega]
        simp only [List.append_assoc])
      hne (by rw [hp]; omega)
    rw [List.drop_left' (by simp [hc, i2osp4])] at this
    simpa only [List.append_assoc] using this

/-- C86: a `SessionDecrypter` is made of exactly the materials that the Crypter decrypts to a packed pair of keys. -/
theorem C86_material (fuel : Nat) (hf : 2 < fuel) (c : Czar) (material : Bytes) (s : Session) :
    SessionDecrypter.new P fuel c material = .ok s ↔
      ∃ data kb hb, c.Decrypt P material (some Base64WSDecode) = .ok data ∧ PackedForm kb hb data ∧ SessionSays kb hb s := by
  unfold SessionDecrypter.new
  rw [except_bind_iff]
  simp only [C86_packed fuel hf]
  constructor
  · rintro ⟨d, h, kb, hb, h1, h2⟩; exact ⟨d, kb, hb, h, h1, h2⟩
  · rintro ⟨d, kb, hb, h, h1, h2⟩; exact ⟨d, h, kb, hb, h1, h2⟩

/-! ## Messages of a session -/

theorem SessionSays_ok {kb hb : Bytes} {s : Session} (h : SessionSays kb hb s) :
    s.key.Ok ∧ s.key.keyBytes = .ok kb ∧ s.key.hmacKey.keyBytes = .ok hb := by
  cases h
  refine ⟨⟨WSE_plain _, ⟨WSE_plain _, by simp [KeyType.sizes]⟩, ?_⟩, Base64WSDecode_encode _, Base64WSDecode_encode _⟩
  simp only [KeyType.sizes]
  split
  · simp
  · split <;> simp

/-- what the Crypter of a usable key decrypts -/
theorem session_text {s : Session} {kb hb : Bytes} (hk : s.key.Ok) (hu : UsableAes s.key kb hb) (input data m : Bytes)
    (dec : Option (Bytes → Py Bytes)) (hdec : Decodes dec input data) :
    SessionDecrypter.Decrypt P s input dec = .ok m ↔
      ∃ id iv ps, KeyId P.sha1 (.aes s.key) id ∧ AesText P.sha1 (P.aesEnc kb) hb id iv ps data ∧ Unpadded ps.flatten m := by
  obtain ⟨c, h1, h2, h3⟩ := Session.crypter_ok (P := P) hk hu
  unfold SessionDecrypter.Decrypt
  rw [h1]
  show c.Decrypt P input dec = .ok m ↔ _
  rw [C83_accepts P c h2 (by rw [h3]; exact staticSet_distinct _ _) ?_ input data m dec hdec]
  · rw [h3]
    constructor
    · rintro ⟨e, he, k, kb', hb', id, iv, ps, e1, e2, e3, e4, e5, e6⟩
      simp only [staticSet, List.mem_singleton] at he
      subst he
      cases e1
      cases hu.aes.symm.trans e2
      cases hu.mac.symm.trans e3
      exact ⟨id, iv, ps, e4, e5, e6⟩
    · rintro ⟨id, iv, ps, e4, e5, e6⟩
      exact ⟨_, List.mem_singleton.2 rfl, s.key, kb, hb, id, iv, ps, rfl, hu.aes, hu.mac, e4, e5, e6⟩
  · intro e he
    rw [h3] at he
    simp only [staticSet, List.mem_singleton] at he
    subst he
    exact ⟨_, kb, hb, rfl, hu⟩

/-- C86: with an AES key of 16, 24 or 32 bytes, the session decrypts exactly the AES messages under its keys. -/
theorem C86_use (kb hb : Bytes) (s : Session) (hs : SessionSays kb hb s) (hl : kb.length = 16 ∨ kb.length = 24 ∨ kb.length = 32)
    (input data m : Bytes) (dec : Option (Bytes → Py Bytes)) (hdec : Decodes dec input data) :
    SessionDecrypter.Decrypt P s input dec = .ok m ↔
      ∃ id iv ps, KeyId P.sha1 (.aes s.key) id ∧ AesText P.sha1 (P.aesEnc kb) hb id iv ps data ∧ Unpadded ps.flatten m := by
  obtain ⟨h1, h2, h3⟩ := SessionSays_ok hs
  exact session_text P h1 ⟨h2, by simp only [validAesKeyLen, Bool.or_eq_true, decide_eq_true_eq]; omega, h3⟩ input data m dec hdec

/-- C86: with an AES key of any other length, which was accepted without a word, it decrypts nothing at all. -/
theorem C86_useless (kb hb : Bytes) (s : Session) (hs : SessionSays kb hb s) (hl : kb.length ∉ [16, 24, 32])
    (input : Bytes) (dec : Option (Bytes → Py Bytes)) (m : Bytes) : SessionDecrypter.Decrypt P s input dec ≠ .ok m := by
  obtain ⟨hok, h2, h3⟩ := SessionSays_ok hs
  intro h
  unfold SessionDecrypter.Decrypt at h
  obtain ⟨c, h1, h⟩ := bind_ok h
  have hc : Loaded P c := ⟨_, _, h1⟩
  have hg := Czar.init_gives (cls := .crypter) (StaticKeyReader_gives (P := P) (k := .aes s.key) hok
    (by simp only [Key.hashId, AesKey.hashId, h2, h3, bind, Except.bind, pure, Except.pure]; exact ⟨_, rfl⟩)
    .DECRYPT_AND_ENCRYPT)
  rw [if_pos (by refine ⟨rfl, fun h => ?_, by simp [staticSet, KeySet.primaries]⟩; cases h)] at hg
  obtain ⟨c', g1, g2⟩ := hg
  have : c' = c := Except.ok.inj (g1.symm.trans h1)
  subst this
  have key : ∀ d, s.key.Decrypt P d ≠ .ok m := by
    intro d hd
    unfold AesKey.Decrypt at hd
    simp only at hd
    split at hd
    · cases hd
    · obtain ⟨b, -, hd⟩ := bind_ok hd
      split at hd
      · obtain ⟨kb', e1, hd⟩ := bind_ok hd
        cases h2.symm.trans e1
        obtain ⟨o, e2, -⟩ := bind_ok hd
        unfold CbcObj.new at e2
        rw [if_neg (by
          rintro ⟨hv, -⟩
          simp only [validAesKeyLen, Bool.or_eq_true, decide_eq_true_eq] at hv
          simp only [List.mem_cons, List.not_mem_nil, or_false] at hl
          omega)] at e2
        cases e2
      · cases hd
  unfold Czar.Decrypt at h
  obtain ⟨d, -, h⟩ := bind_ok h
  split at h
  · cases h
  · rw [sliceTo5] at h
    rcases ParseHeader_cases P hc (d.take 5) with ⟨-, hx⟩ | ⟨x, -, hx⟩ | ⟨e, he, id, hid, hb, hp⟩
    · rw [hx] at h; cases h
    · rw [hx] at h; cases h
    · rw [hp] at h
      rw [g2] at he
      simp only [staticSet, List.mem_singleton] at he
      subst he
      exact key d h

/-! ## Signed sessions -/

/-- C86: a signed session is read from exactly the JSON texts that have an AES key under `key` and Base64 under `nonce`.
The nonce may have any length. -/
theorem C86_json (text : Bytes) (s : Session) :
    Session.LoadJsonSession text = .ok s ↔
      ∃ j kj n, Says text j ∧ HasField j "key" kj ∧ AesSays kj s.key ∧ B64Field j "nonce" n ∧ s.nonce = some n := by
  unfold Session.LoadJsonSession
  constructor
  · intro h
    obtain ⟨j, h1, h⟩ := bind_ok h
    obtain ⟨kj, h2, h⟩ := bind_ok h
    obtain ⟨k, h3, h⟩ := bind_ok h
    obtain ⟨n, h4, h⟩ := bind_ok h
    cases h
    refine ⟨j, kj, n, (C78_accepts _ _).1 h1, (get_ok _ _ _).1 h2, ?_, (getB64_ok _ _ _).1 h4, rfl⟩
    exact (AesKey.Read_ok (loads_dumps kj (get_WF (loads_WF h1) h2)) k).1 h3
  · rintro ⟨j, kj, n, h1, h2, h3, h4, h5⟩
    have h1 := (C78_accepts _ _).2 h1
    have h2 := (get_ok _ _ _).2 h2
    have h3 := (AesKey.Read_ok (loads_dumps kj (get_WF (loads_WF h1) h2)) s.key).2 h3
    have h4 := (getB64_ok _ _ _).2 h4
    simp only [h1, h2, h3, h4, bind, Except.bind, pure, Except.pure]
    rw [← h5]

/-- C86: a `SignedSessionDecrypter` is made of exactly the materials that the Crypter decrypts to such a text. -/
theorem C86_signed_material (c : Czar) (material : Bytes) (s : Session) :
    SignedSessionDecrypter.new P c material = .ok s ↔
      ∃ text j kj n, c.Decrypt P material (some Base64WSDecode) = .ok text ∧ Says text j ∧ HasField j "key" kj ∧
        AesSays kj s.key ∧ B64Field j "nonce" n ∧ s.nonce = some n := by
  unfold SignedSessionDecrypter.new
  rw [except_bind_iff]
  simp only [C86_json]
  constructor
  · rintro ⟨t, h, j, kj, n, h1⟩; exact ⟨t, j, kj, n, h, h1⟩
  · rintro ⟨t, j, kj, n, h, h1⟩; exact ⟨t, h, j, kj, n, h1⟩

/-- C86: a signed session gives the message `m` exactly when the text is Base64 of an AES message under the session key, with an
attached signature, under a key of the verifier, of this and of the nonce of the session. -/
theorem C86_signed (s : Session) (nonce kb hb : Bytes) (hn : s.nonce = some nonce) (hnl : nonce.length < 2 ^ 31) (hk : s.key.Ok)
    (hu : UsableAes s.key kb hb) (verifier : Czar) (hv : Loaded P verifier) (hd : verifier.keySet.Distinct P)
    (hs : ∀ e ∈ verifier.keySet.entries, SoundKey e.key) (signed blob m : Bytes) (hb64 : Base64WSDecode signed = .ok blob) :
    SignedSessionDecrypter.Decrypt P s verifier signed = .ok (some m) ↔
      ∃ ct, (∃ e ∈ verifier.keySet.entries, ∃ id sig, KeyId P.sha1 e.key id ∧ AttachedForm id ct sig blob ∧
          SignatureFor P.sha1 P.rsaRangeCheck e.key (ct ++ lengthPrefixed nonce ++ [0]) sig) ∧
        ∃ id iv ps, KeyId P.sha1 (.aes s.key) id ∧ AesText P.sha1 (P.aesEnc kb) hb id iv ps ct ∧ Unpadded ps.flatten m := by
  have ha := fun ct => C82_attached P verifier hv hd hs signed blob nonce ct (some Base64WSDecode) hb64 hnl
  constructor
  · intro h
    obtain ⟨ct, h1, -, h2⟩ := (C54_exact P s nonce hn verifier signed).2.2 m h
    exact ⟨ct, (ha ct).1 h1, (session_text P hk hu ct ct m none rfl).1 h2⟩
  · rintro ⟨ct, h1, h2⟩
    have h1 := (ha ct).2 h1
    have hne : ct ≠ [] := by
      rintro rfl
      obtain ⟨id, iv, ps, -, ⟨cs, -, -, -, -, he⟩, -⟩ := h2
      simp [header] at he
    have h2 := (session_text P hk hu ct ct m none rfl).2 h2
    have hnb : s.nonceBytes = .ok nonce := by unfold Session.nonceBytes; rw [hn]
    unfold SessionDecrypter.Decrypt at h2
    obtain ⟨c, g1, g2⟩ := bind_ok h2
    unfold SignedSessionDecrypter.Decrypt
    obtain ⟨a, t, rfl⟩ := List.exists_cons_of_ne_nil hne
    simp only [hnb, h1, g1, g2, bind, Except.bind, pure, Except.pure]

/-! ## Cases -/

/-- the usual form -/
example : PackedForm (List.replicate 16 1) (List.replicate 32 2)
    ([0, 0, 0, 2] ++ [0, 0, 0, 16] ++ List.replicate 16 1 ++ [0, 0, 0, 32] ++ List.replicate 32 2) := by
  have := (C86_many (List.replicate 16 1) (List.replicate 32 2) [0, 0, 0, 2] rfl (by decide) (by decide)).1
  exact this

/-- the same keys, with a count of 7 and with a negative length -/
example : PackedForm (List.replicate 16 1) (List.replicate 32 2)
    ([0, 0, 0, 7] ++ [255, 255, 255, 212] ++ List.replicate 16 1 ++ [0, 0, 0, 92] ++ List.replicate 32 2) := by
  have := (C86_many (List.replicate 16 1) (List.replicate 32 2) [0, 0, 0, 7] rfl (by decide) (by decide)).2 (by simp) (by decide)
  exact this

/-- eight bytes are enough: both keys are read from the length fields themselves -/
example : PackedForm [] [255, 255, 255, 248] [0, 0, 0, 4, 255, 255, 255, 248] :=
  PackedForm.forward [0, 0, 0, 4] [255, 255, 255, 248] [] [] [255, 255, 255, 248] rfl
    ⟨2 ^ 32 - 8, by decide, by decide, by decide⟩ (by decide) (by decide)

example : ∃ s, Session.LoadPackedKey 3 [0, 0, 0, 4, 255, 255, 255, 248] = .ok s ∧ SessionSays [] [255, 255, 255, 248] s ∧
    ∀ input dec m, SessionDecrypter.Decrypt P s input dec ≠ .ok m :=
  ⟨_, (C86_packed 3 (by decide) _ _).2 ⟨[], [255, 255, 255, 248],
    PackedForm.forward [0, 0, 0, 4] [255, 255, 255, 248] [] [] [255, 255, 255, 248] rfl
      ⟨2 ^ 32 - 8, by decide, by decide, by decide⟩ (by decide) (by decide), rfl⟩, rfl,
    fun input dec m => C86_useless P [] [255, 255, 255, 248] _ rfl (by decide) input dec m⟩

/-- every new session is read back from its text -/
example (rnd : Rand) : ∃ text, (Session.New rnd).json = .ok text ∧ ∃ j kj n, Says text j ∧ HasField j "key" kj ∧
    AesSays kj (Session.New rnd).key ∧ B64Field j "nonce" n ∧ n = rnd.bytes 2 16 := by
  obtain ⟨text, h1, h2⟩ := C54_json_round_trip (Session.New rnd) _ rfl (Session.New_key rnd)
  obtain ⟨j, kj, n, a, b, c, d, e⟩ := (C86_json text _).1 h2
  exact ⟨text, h1, j, kj, n, a, b, c, d, (Option.some.inj e).symm⟩

/-- a verifier with one HMAC key and a new session, to which C86_signed applies; a message that is accepted -/
example (rnd : Rand) : ∃ ve signed blob, Loaded P ve ∧ ve.keySet.Distinct P ∧ (∀ e ∈ ve.keySet.entries, SoundKey e.key) ∧
    Base64WSDecode signed = .ok blob ∧
    SignedSessionDecrypter.Decrypt P (Session.New rnd) ve signed = .ok (some [1, 2, 3]) := by
  have hk : (Key.hmac ⟨Base64WSEncode [7, 8, 9], 256⟩).Ok := ⟨WSE_plain _, by simp [KeyType.sizes]⟩
  have hh : ∃ hash, (Key.hmac ⟨Base64WSEncode [7, 8, 9], 256⟩).hashId P = .ok hash := by
    simp only [Key.hashId, HmacKey.hashId, HmacKey.keyBytes, Base64WSDecode_encode, bind, Except.bind, pure, Except.pure]
    exact ⟨_, rfl⟩
  have := Czar.init_gives (cls := .signer) (StaticKeyReader_gives (P := P) hk hh .SIGN_AND_VERIFY)
  rw [if_pos (by refine ⟨rfl, fun h => ?_, by simp [staticSet, KeySet.primaries]⟩; cases h)] at this
  obtain ⟨c, h1, h2⟩ := this
  have hc : Loaded P c := ⟨_, _, h1⟩
  have hd : c.keySet.Distinct P := by rw [h2]; exact staticSet_distinct _ _
  obtain ⟨out, -, h4⟩ := C54_hmac P c c hc hc hd ⟨1, .PRIMARY, .bool false, .hmac ⟨Base64WSEncode [7, 8, 9], 256⟩⟩ _ _
    (by rw [h2]; rfl) rfl (by rw [h2]; exact List.mem_singleton.2 rfl) rfl rnd rnd rnd [] [1, 2, 3] (by decide)
  have hb : ∃ blob, Base64WSDecode out = .ok blob := by
    cases hx : Base64WSDecode out with
    | ok b => exact ⟨b, rfl⟩
    | error x =>
      exfalso
      obtain ⟨ct, g, -⟩ := (C54_exact P (Session.New rnd) _ rfl c out).2.2 _ h4
      unfold Czar.AttachedVerify at g
      simp only [decodeWith, hx, bind, Except.bind] at g
      cases g
  obtain ⟨blob, hb⟩ := hb
  refine ⟨c, out, blob, hc, hd, ?_, hb, h4⟩
  intro e he
  rw [h2] at he
  cases List.mem_singleton.1 he
  trivial

end Verif.Props
