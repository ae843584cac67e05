import Verif.Model.Streams
/-
What is assumed of the file-like objects under the streams, and a concrete input stream that follows an
arbitrary schedule of short reads and "no data yet".
-/
namespace Verif.Spec

/-- An output stream that keeps what is written: `text` is what has reached it.  Flushing and writing
nothing do not change it. -/
structure Collects {τ} (S : Sink τ) (text : τ → Bytes) : Prop where
  write : ∀ o d, text (S.write o d) = text o ++ d
  flush : ∀ o, text (S.flush o) = text o

/-- An input stream that delivers the bytes `rest s`: read with a non-zero size (negative: as much as
it likes) it returns a non-empty piece of what is left (at most `f size` bytes for positive `size`),
or None, or, when nothing is left, the empty string.  `left` bounds how many times it can still return
something other than the empty string, so it does not return None for ever. -/
structure Serves {σ} (m : Source σ) (good : σ → Prop) (rest : σ → Bytes) (left : σ → Nat) (f : Nat → Nat) : Prop where
  step : ∀ s n, good s → n ≠ 0 →
    (∃ s', m.read s n = (.ok none, s') ∧ good s' ∧ rest s' = rest s ∧ left s' < left s) ∨
    (∃ s', m.read s n = (.ok (some []), s') ∧ good s' ∧ rest s = [] ∧ rest s' = [] ∧ left s' ≤ left s) ∨
    (∃ d s', m.read s n = (.ok (some d), s') ∧ d ≠ [] ∧ good s' ∧ rest s = d ++ rest s' ∧ left s' < left s ∧
      (0 < n → d.length ≤ f n.toNat))

/-- An input stream following a schedule: each entry is None ("no data yet") or the largest number of
bytes (plus one) the next read delivers; after the schedule, reads are not restricted.  This is what a
file, a pipe or a non-blocking socket does. -/
def scheduled : Source (Bytes × List (Option Nat)) :=
  ⟨fun s n =>
    if n = 0 then (.ok (some []), s)
    else
      let want := if n < 0 then s.1.length else n.toNat
      match s with
      | (d, []) => (.ok (some (d.take want)), (d.drop want, []))
      | (d, none :: sched) => (.ok none, (d, sched))
      | (d, some k :: sched) => (.ok (some (d.take (min want (k + 1)))), (d.drop (min want (k + 1)), sched))⟩

theorem scheduled_serves :
    Serves scheduled (fun _ => True) (·.1) (fun s => s.1.length + s.2.length) (fun n => n) := by
  constructor
  rintro ⟨d, sched⟩ n - hn
  rcases d with _ | ⟨a, d⟩
  · rcases sched with _ | ⟨_ | k, sched⟩
    · right; left
      exact ⟨([], []), by simp [scheduled, hn]⟩
    · left
      exact ⟨([], sched), by simp [scheduled, hn]⟩
    · right; left
      exact ⟨([], sched), by simp [scheduled, hn]⟩
  · have hw : ∀ w, (w = if n < 0 then (a :: d).length else n.toNat) → 0 < w ∧ (0 < n → w = n.toNat) := by
      intro w hw
      split at hw
      · simp at hw; omega
      · omega
    have key : ∀ w, 0 < w → (a :: d).take w ≠ [] ∧ (a :: d) = (a :: d).take w ++ (a :: d).drop w ∧
        ((a :: d).drop w).length < (a :: d).length ∧ ((a :: d).take w).length ≤ w := by
      intro w h
      obtain ⟨w, rfl⟩ : ∃ v, w = v + 1 := ⟨w - 1, by omega⟩
      refine ⟨by simp, (List.take_append_drop _ _).symm, ?_, ?_⟩
      · simp only [List.length_drop, List.length_cons]; omega
      · simp only [List.length_take]; omega
    rcases sched with _ | ⟨_ | k, sched⟩
    · right; right
      obtain ⟨h1, h2⟩ := hw _ rfl
      obtain ⟨k1, k2, k3, k4⟩ := key _ h1
      refine ⟨(a :: d).take (if n < 0 then (a :: d).length else n.toNat),
        ((a :: d).drop (if n < 0 then (a :: d).length else n.toNat), []), by simp only [scheduled, if_neg hn],
        k1, trivial, k2, ?_, fun h => ?_⟩
      · simpa using k3
      · rw [h2 h] at k4 ⊢; exact k4
    · left
      exact ⟨(a :: d, sched), by simp [scheduled, hn]⟩
    · right; right
      obtain ⟨h1, h2⟩ := hw _ rfl
      obtain ⟨k1, k2, k3, k4⟩ := key (min (if n < 0 then (a :: d).length else n.toNat) (k + 1)) (by omega)
      refine ⟨(a :: d).take (min (if n < 0 then (a :: d).length else n.toNat) (k + 1)),
        ((a :: d).drop (min (if n < 0 then (a :: d).length else n.toNat) (k + 1)), sched),
        by simp only [scheduled, if_neg hn], k1, trivial, k2, ?_, fun h => ?_⟩
      · simp only [List.length_cons] at *; omega
      · have := h2 h; omega

end Verif.Spec
