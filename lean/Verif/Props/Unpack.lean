import Verif.Props.Encodings
import Verif.Lemmas.KeyId
import Mathlib.Data.Fintype.Pigeonhole
import Mathlib.Data.Fintype.Card
import Mathlib.Logic.Relation
/-
C06: the layout of packed arrays.  C07: exactly when UnpackMultipleByteArrays terminates.
-/
namespace Verif.Props
open Verif Spec

/-- one turn of the loop goes from reading at `p` to reading at `q` -/
def Goes (data : Bytes) (p q : Int) : Prop := p < data.length ∧ ∃ n, LenFieldAt data p n ∧ q = p + 4 + n

/-- one turn of the loop as a function -/
def turn (data : Bytes) (p : Int) : Option Int :=
  if p < data.length then
    match structUnpackI (slice data p (p + 4)) with
    | .ok n => some (p + 4 + n)
    | .error _ => none
  else none

theorem turn_iff {data : Bytes} {p q : Int} : turn data p = some q ↔ Goes data p q := by
  unfold turn Goes LenFieldAt
  by_cases h : p < data.length
  · rw [if_pos h]
    cases hs : structUnpackI (slice data p (p + 4)) with
    | error e => simp
    | ok n => simp [h, eq_comm]
  · rw [if_neg h]; simp [h]

def turns (data : Bytes) : Nat → Int → Option Int
  | 0, p => some p
  | f + 1, p => (turn data p).bind (turns data f)

theorem turns_add (data : Bytes) (a b : Nat) (p : Int) : turns data (a + b) p = (turns data a p).bind (turns data b) := by
  induction a generalizing p with
  | zero => simp [turns]
  | succ a ih =>
    rw [Nat.add_right_comm]
    simp only [turns]
    cases turn data p with
    | none => rfl
    | some q => simp [ih]

theorem unpackLoop_diverged (data : Bytes) (f : Nat) (p : Int) (acc : List Bytes) :
    unpackLoop f data p acc = .error .diverged ↔ (turns data f p).isSome = true := by
  induction f generalizing p acc with
  | zero => simp [unpackLoop, turns]
  | succ f ih =>
    simp only [unpackLoop, turns, turn]
    by_cases h : p < data.length
    · rw [if_pos h, if_pos h]
      unfold UnpackByteArray
      cases hs : structUnpackI (slice data p (p + 4)) with
      | error e =>
        have hse : e = .structError := by
          unfold structUnpackI at hs
          split at hs
          · cases hs
          · exact (Except.error.inj hs).symm
        subst hse
        simp [bind, Except.bind]
      | ok n =>
        simp only [bind, Except.bind, pure, Except.pure, Option.bind]
        exact ih _ _
    · rw [if_neg h, if_neg h]; simp

theorem unpack_diverged (data : Bytes) (f : Nat) :
    UnpackMultipleByteArrays f data = .error .diverged ↔ (turns data f 4).isSome = true := by
  rw [← unpackLoop_diverged data f 4 []]
  unfold UnpackMultipleByteArrays
  cases unpackLoop f data 4 [] with
  | error e => simp [bind, Except.bind]
  | ok r =>
    simp only [bind, Except.bind, pure, Except.pure]
    split <;> simp

theorem turns_le {data : Bytes} {a b : Nat} (h : a ≤ b) {p : Int} (hb : (turns data b p).isSome = true) :
    (turns data a p).isSome = true := by
  obtain ⟨c, rfl⟩ := Nat.exists_eq_add_of_le h
  rw [turns_add] at hb
  cases ha : turns data a p with
  | none => rw [ha] at hb; cases hb
  | some q => rfl

theorem turns_mul {data : Bytes} {c : Nat} {q : Int} (h : turns data c q = some q) (m : Nat) : turns data (m * c) q = some q := by
  induction m with
  | zero => simp [turns]
  | succ m ih => rw [Nat.succ_mul, turns_add, ih]; exact h

theorem turns_forever {data : Bytes} {p q : Int} {i c : Nat} (hi : turns data i p = some q) (hc : turns data (c + 1) q = some q)
    (f : Nat) : (turns data f p).isSome = true := by
  refine turns_le (b := i + f * (c + 1)) ?_ ?_
  · rw [Nat.mul_succ]; omega
  · rw [turns_add, hi]
    simp [turns_mul hc f]

/-- a turn starts between `-len(data)` and `len(data)` -/
theorem turn_range {data : Bytes} {p q : Int} (h : turn data p = some q) : -(data.length : Int) ≤ p ∧ p < data.length := by
  obtain ⟨h1, n, h2, -⟩ := turn_iff.mp h
  refine ⟨?_, h1⟩
  by_contra hlt
  unfold LenFieldAt structUnpackI at h2
  have : (slice data p (p + 4)).length < 4 := by
    unfold slice
    rw [List.length_drop, List.length_take]
    unfold clampIdx
    split <;> split <;> omega
  split at h2
  · rename_i he
    rw [he] at this
    simp at this
  · cases h2

theorem turns_repeat {data : Bytes} {p : Int} (h : (turns data (2 * data.length + 1) p).isSome = true) :
    ∃ i c q, turns data i p = some q ∧ turns data (c + 1) q = some q := by
  have hpos : ∀ i, i < 2 * data.length + 1 → ∃ q, turns data i p = some q ∧ -(data.length : Int) ≤ q ∧ q < data.length := by
    intro i hi
    have h1 := turns_le (data := data) (p := p) (show i + 1 ≤ 2 * data.length + 1 by omega) h
    rw [turns_add] at h1
    cases hq : turns data i p with
    | none => rw [hq] at h1; cases h1
    | some q =>
      refine ⟨q, rfl, ?_⟩
      rw [hq] at h1
      cases ht : turn data q with
      | none => simp [turns, ht] at h1
      | some r => exact turn_range ht
  choose f hf using fun i : Fin (2 * data.length + 1) => hpos i.1 i.2
  let g : Fin (2 * data.length + 1) → Fin (2 * data.length) := fun i => ⟨(f i + data.length).toNat, by have := hf i; omega⟩
  obtain ⟨i, j, hij, hg⟩ := Fintype.exists_ne_map_eq_of_card_lt g (by simp)
  have hfe : f i = f j := by
    have h1 := congrArg Fin.val hg
    have := hf i
    have := hf j
    simp only [g] at h1
    omega
  have key : ∀ i j : Fin (2 * data.length + 1), i.1 < j.1 → f i = f j →
      ∃ i c q, turns data i p = some q ∧ turns data (c + 1) q = some q := by
    intro i j hlt he
    obtain ⟨c, hc⟩ := Nat.exists_eq_add_of_lt hlt
    refine ⟨i, c, f i, (hf i).1, ?_⟩
    have := (hf j).1
    rw [hc, Nat.add_assoc, turns_add, (hf i).1, ← he] at this
    exact this
  rcases Nat.lt_or_gt_of_ne (fun h => hij (Fin.ext h)) with h1 | h1
  · exact key i j h1 hfe
  · exact key j i h1 hfe.symm

theorem turns_visits {data : Bytes} {i : Nat} {p q : Int} (hp : Visits data p) (h : turns data i p = some q) : Visits data q := by
  induction i generalizing p with
  | zero => cases h; exact hp
  | succ i ih =>
    simp only [turns] at h
    cases ht : turn data p with
    | none => rw [ht] at h; cases h
    | some r =>
      rw [ht] at h
      obtain ⟨h1, n, h2, rfl⟩ := turn_iff.mp ht
      exact ih (.next hp h1 h2) h

theorem visits_turns {data : Bytes} {q : Int} (h : Visits data q) : ∃ i, turns data i 4 = some q := by
  induction h with
  | start => exact ⟨0, rfl⟩
  | next _ hlt hl ih =>
    obtain ⟨i, hi⟩ := ih
    refine ⟨i + 1, ?_⟩
    rw [turns_add, hi]
    simp [turns, turn_iff.mpr ⟨hlt, _, hl, rfl⟩]

theorem turns_transGen {data : Bytes} {p q : Int} :
    (∃ c, turns data (c + 1) p = some q) ↔ Relation.TransGen (Goes data) p q := by
  constructor
  · rintro ⟨c, hc⟩
    induction c generalizing p with
    | zero =>
      simp only [turns] at hc
      cases ht : turn data p with
      | none => rw [ht] at hc; cases hc
      | some r => rw [ht] at hc; cases hc; exact .single (turn_iff.mp ht)
    | succ c ih =>
      rw [turns] at hc
      cases ht : turn data p with
      | none => rw [ht] at hc; cases hc
      | some r => rw [ht] at hc; exact .head (turn_iff.mp ht) (ih hc)
  · intro h
    induction h with
    | single h => exact ⟨0, by simp [turns, turn_iff.mpr h]⟩
    | tail _ h ih =>
      obtain ⟨c, hc⟩ := ih
      exact ⟨c + 1, by rw [turns_add, hc]; simp [turns, turn_iff.mpr h]⟩

/-- C07: unpacking runs for ever exactly on the data on which it comes back to a position where it has already read a
length field. -/
theorem C07_diverges_iff (data : Bytes) : (∀ fuel, UnpackMultipleByteArrays fuel data = .error .diverged) ↔
    ∃ p, Visits data p ∧ Relation.TransGen (Goes data) p p := by
  constructor
  · intro h
    obtain ⟨i, c, q, h1, h2⟩ := turns_repeat ((unpack_diverged data _).mp (h (2 * data.length + 1)))
    exact ⟨q, turns_visits .start h1, turns_transGen.mp ⟨c, h2⟩⟩
  · rintro ⟨p, h1, h2⟩ fuel
    obtain ⟨i, hi⟩ := visits_turns h1
    obtain ⟨c, hc⟩ := turns_transGen.mpr h2
    exact (unpack_diverged data fuel).mpr (turns_forever hi hc fuel)

/-- C07: and when it ends, it does so within `2 * len(data)` turns. -/
theorem C07_bound (data : Bytes) (fuel : Nat) (h : UnpackMultipleByteArrays fuel data ≠ .error .diverged) (fuel' : Nat)
    (hf : 2 * data.length < fuel') : UnpackMultipleByteArrays fuel' data ≠ .error .diverged := by
  intro hd
  refine h ?_
  rw [unpack_diverged] at hd ⊢
  obtain ⟨i, c, q, h1, h2⟩ := turns_repeat (turns_le (show 2 * data.length + 1 ≤ fuel' by omega) hd)
  exact turns_forever h1 h2 fuel

/-- example: a loop of two turns, by length fields -12 and 4 -/
example : ∀ fuel, UnpackMultipleByteArrays fuel
    [0, 0, 0, 2, 0, 0, 0, 4, 1, 2, 3, 4, 0xff, 0xff, 0xff, 0xf4] = .error .diverged := by
  rw [C07_diverges_iff]
  have h1 : Goes [0, 0, 0, 2, 0, 0, 0, 4, 1, 2, 3, 4, 0xff, 0xff, 0xff, 0xf4] 4 12 := ⟨by decide, 4, by unfold LenFieldAt; decide +kernel, rfl⟩
  have h2 : Goes [0, 0, 0, 2, 0, 0, 0, 4, 1, 2, 3, 4, 0xff, 0xff, 0xff, 0xf4] 12 4 := ⟨by decide, -12, by unfold LenFieldAt; decide +kernel, rfl⟩
  exact ⟨4, .start, .tail (.single h1) h2⟩

/-- example: a negative length that ends with an exception -/
example : UnpackMultipleByteArrays 9 [0, 0, 0, 1, 0xff, 0xff, 0xff, 0xff, 0, 0, 0, 0] ≠ .error .diverged := by decide +kernel

/-- C06: the layout: the number of arrays, then each array after its length, all numbers as four big-endian bytes. -/
theorem C06_format (arrays : List Bytes) (hn : arrays.length < 2 ^ 31) (h : ∀ a ∈ arrays, a.length < 2 ^ 31) :
    PackMultipleByteArrays arrays = .ok (i2osp4 arrays.length ++ arrays.flatMap lengthPrefixed) := by
  rw [PackMultiple_ok arrays hn h, IntToBytes_i2osp4, List.flatMap_def]
  congr 4

example : PackMultipleByteArrays [[1, 2], []] = .ok [0, 0, 0, 2, 0, 0, 0, 2, 1, 2, 0, 0, 0, 0] := by decide +kernel

end Verif.Props
