import Verif.Model.Memoize
import Verif.Props.Sessions
/-
C61: memoization.
-/
namespace Verif.Props
open Verif

/-- a program that calls the memoized function with the given arguments -/
def memoCalls {κ α β ω} [DecidableEq κ] (pickle : α → Py κ) (func : α → ω → Py β × ω) (s : Memo κ α β ω) :
    List α → List (Py β) × Memo κ α β ω
  | [] => ([], s)
  | a :: l =>
    let (x, s') := s.call pickle func a
    let (xs, s'') := memoCalls pickle func s' l
    (x :: xs, s'')

section
variable {κ α β ω : Type} [DecidableEq κ] (pickle : α → Py κ) (func : α → ω → Py β × ω)

/-- a successful run of the original function with arguments that pickle to `k` -/
def successFor (k : κ) (r : α × Py β) : Bool :=
  match pickle r.1, r.2 with
  | .ok k', .ok _ => k' = k
  | _, _ => false

/-- the dictionary holds, for every pickle, the result of the one successful run with it -/
structure MemoInv (s : Memo κ α β ω) : Prop where
  once : ∀ k, (s.runs.filter (successFor pickle k)).length ≤ 1
  stored : ∀ k v, s.memory.lookup k = some v → ∃ a, pickle a = .ok k ∧ (a, .ok v) ∈ s.runs
  made : ∀ a v, (a, .ok v) ∈ s.runs → ∃ k, pickle a = .ok k ∧ s.memory.lookup k = some v

theorem MemoInv.init (w : ω) : MemoInv pickle (Memo.init w : Memo κ α β ω) :=
  ⟨by simp [Memo.init], by simp [Memo.init], by simp [Memo.init]⟩

theorem MemoInv.call {s : Memo κ α β ω} (h : MemoInv pickle s) (a : α) :
    MemoInv pickle (s.call pickle func a).2 ∧
    (∀ k v, s.memory.lookup k = some v → (s.call pickle func a).2.memory.lookup k = some v) ∧
    (∀ v, (s.call pickle func a).1 = .ok v → ∃ k, pickle a = .ok k ∧ (s.call pickle func a).2.memory.lookup k = some v) := by
  unfold Memo.call
  cases hp : pickle a with
  | error e => exact ⟨h, fun _ _ hk => hk, by simp⟩
  | ok k =>
    dsimp only
    cases hl : s.memory.lookup k with
    | some v => exact ⟨h, fun _ _ hk => hk, fun v' hv => ⟨k, rfl, by rw [hl]; exact congrArg some (Except.ok.inj hv)⟩⟩
    | none =>
      dsimp only
      have hnew : ∀ r ∈ s.runs, successFor pickle k r = false := by
        intro r hr
        by_contra hc
        unfold successFor at hc
        split at hc
        · next k' v' h1 h2 =>
          obtain ⟨k2, h3, h4⟩ := h.made r.1 v' (by rw [← h2]; exact hr)
          rw [h1] at h3
          cases h3
          simp only [Bool.not_eq_false, decide_eq_true_eq] at hc
          rw [hc, hl] at h4
          cases h4
        · simp at hc
      rcases hf : func a s.world with ⟨x, w⟩
      cases x with
      | error e =>
        refine ⟨⟨fun k' => ?_, fun k' v' hv => ?_, fun a' v' hm => ?_⟩, fun _ _ hk => hk, by simp⟩
        · rw [List.filter_append]
          have : (List.filter (successFor pickle k') [(a, (Except.error e : Py β))]) = [] := by
            simp [successFor, hp]
          rw [this, List.append_nil]; exact h.once k'
        · obtain ⟨a', h1, h2⟩ := h.stored k' v' hv
          exact ⟨a', h1, by simp [h2]⟩
        · simp only [List.mem_append, List.mem_singleton, Prod.mk.injEq, reduceCtorEq, and_false, or_false] at hm
          exact h.made a' v' hm
      | ok v =>
        have hstep : ∀ k', ((k, v) :: s.memory).lookup k' = if k' = k then some v else s.memory.lookup k' := by
          intro k'
          rw [List.lookup_cons]
          by_cases hk : k' = k
          · simp [hk]
          · have : (k' == k) = false := by simpa using hk
            simp [this, hk]
        refine ⟨⟨fun k' => ?_, fun k' v' hv => ?_, fun a' v' hm => ?_⟩, fun k' v' hk => ?_, fun v' hv => ?_⟩
        · rw [List.filter_append, List.length_append]
          by_cases hk : k' = k
          · subst hk
            rw [List.filter_eq_nil_iff.mpr (fun r hr => by rw [hnew r hr]; simp)]
            rw [List.length_nil, Nat.zero_add]
            exact List.length_filter_le _ _
          · have : (List.filter (successFor pickle k') [(a, (Except.ok v : Py β))]) = [] := by
              simp [successFor, hp, Ne.symm hk]
            rw [this]; exact h.once k'
        · rw [hstep] at hv
          by_cases hk : k' = k
          · rw [if_pos hk] at hv
            cases hv
            exact ⟨a, by rw [hp, hk], by simp⟩
          · rw [if_neg hk] at hv
            obtain ⟨a', h1, h2⟩ := h.stored k' v' hv
            exact ⟨a', h1, by simp [h2]⟩
        · simp only [List.mem_append, List.mem_singleton, Prod.mk.injEq, Except.ok.injEq] at hm
          rcases hm with hm | ⟨rfl, rfl⟩
          · obtain ⟨k2, h1, h2⟩ := h.made a' v' hm
            refine ⟨k2, h1, ?_⟩
            rw [hstep, if_neg ?_, h2]
            rintro rfl
            rw [hl] at h2; cases h2
          · exact ⟨k, hp, by rw [hstep, if_pos rfl]⟩
        · rw [hstep, if_neg ?_, hk]
          rintro rfl
          rw [hl] at hk; cases hk
        · cases hv
          exact ⟨k, rfl, by rw [hstep, if_pos rfl]⟩

theorem memoCalls_inv : ∀ (l : List α) (s : Memo κ α β ω), MemoInv pickle s →
    MemoInv pickle (memoCalls pickle func s l).2 ∧
    (∀ k v, s.memory.lookup k = some v → (memoCalls pickle func s l).2.memory.lookup k = some v) ∧
    (∀ (i : Nat) (a : α) (v : β), l[i]? = some a → (memoCalls pickle func s l).1[i]? = some (.ok v) →
      ∃ k, pickle a = .ok k ∧ (memoCalls pickle func s l).2.memory.lookup k = some v)
  | [], s, h => ⟨h, fun _ _ hk => hk, by simp⟩
  | a :: l, s, h => by
    obtain ⟨h1, h2, h3⟩ := h.call pickle func a
    obtain ⟨h4, h5, h6⟩ := memoCalls_inv l _ h1
    refine ⟨h4, fun k v hk => h5 k v (h2 k v hk), fun i a' v hi hr => ?_⟩
    cases i with
    | zero =>
      simp only [List.getElem?_cons_zero, Option.some.injEq] at hi
      simp only [memoCalls, List.getElem?_cons_zero, Option.some.injEq] at hr
      subst hi
      obtain ⟨k, h7, h8⟩ := h3 v hr
      exact ⟨k, h7, h5 k v h8⟩
    | succ i =>
      simp only [List.getElem?_cons_succ] at hi
      simp only [memoCalls, List.getElem?_cons_succ] at hr
      exact h6 i a' v hi hr

/-- a program that calls the original function with the given arguments: its results and the world afterwards -/
def plainCalls (w : ω) : List α → List (Py β) × ω
  | [] => ([], w)
  | a :: l => ((func a w).1 :: (plainCalls (func a w).2 l).1, (plainCalls (func a w).2 l).2)

theorem plainCalls_append (w : ω) : ∀ l l' : List α,
    plainCalls func w (l ++ l') =
      ((plainCalls func w l).1 ++ (plainCalls func (plainCalls func w l).2 l').1,
        (plainCalls func (plainCalls func w l).2 l').2)
  | [], l' => by simp [plainCalls]
  | a :: l, l' => by
    simp only [List.cons_append, plainCalls]
    rw [plainCalls_append _ l l']

theorem Memo.call_replay {s : Memo κ α β ω} {w : ω} (a : α)
    (h : plainCalls func w (s.runs.map (·.1)) = (s.runs.map (·.2), s.world)) :
    plainCalls func w ((s.call pickle func a).2.runs.map (·.1)) =
      ((s.call pickle func a).2.runs.map (·.2), (s.call pickle func a).2.world) := by
  unfold Memo.call
  cases pickle a with
  | error e => exact h
  | ok k =>
    dsimp only
    cases s.memory.lookup k with
    | some v => exact h
    | none =>
      dsimp only
      rcases hf : func a s.world with ⟨x, w'⟩
      cases x with
      | error e =>
        simp only [List.map_append, List.map_cons, List.map_nil]
        rw [plainCalls_append, h]
        simp [plainCalls, hf]
      | ok v =>
        simp only [List.map_append, List.map_cons, List.map_nil]
        rw [plainCalls_append, h]
        simp [plainCalls, hf]

theorem memoCalls_replay (w : ω) : ∀ (l : List α) (s : Memo κ α β ω),
    plainCalls func w (s.runs.map (·.1)) = (s.runs.map (·.2), s.world) →
    plainCalls func w ((memoCalls pickle func s l).2.runs.map (·.1)) =
      ((memoCalls pickle func s l).2.runs.map (·.2), (memoCalls pickle func s l).2.world)
  | [], _, h => h
  | a :: l, _, h => memoCalls_replay w l _ (Memo.call_replay pickle func a h)

/-- C61: whatever the original function does to the world happens exactly as if it had been called directly with the
arguments of the calls that reached it, and in no other way: failing runs have their effects too, remembered ones have
none. -/
theorem C61_effects (w : ω) (calls : List α) :
    plainCalls func w ((memoCalls pickle func (Memo.init w) calls).2.runs.map (·.1)) =
      ((memoCalls pickle func (Memo.init w) calls).2.runs.map (·.2), (memoCalls pickle func (Memo.init w) calls).2.world) :=
  memoCalls_replay pickle func w calls _ rfl

/-- C61: whatever the original function depends on and does, over any sequence of calls it succeeds at most once for every
pickled argument. -/
theorem C61_once (w : ω) (calls : List α) (k : κ) :
    ((memoCalls pickle func (Memo.init w) calls).2.runs.filter (successFor pickle k)).length ≤ 1 :=
  (memoCalls_inv pickle func calls _ (MemoInv.init pickle w)).1.once k

/-- C61: whatever the original function depends on and does, two successful calls whose arguments pickle to the same
string return the same result (the first result is kept for ever). -/
theorem C61_sticky (w : ω) (calls : List α) (i j : Nat) (a b : α) (x y : β) (ha : calls[i]? = some a) (hb : calls[j]? = some b)
    (hx : (memoCalls pickle func (Memo.init w) calls).1[i]? = some (.ok x))
    (hy : (memoCalls pickle func (Memo.init w) calls).1[j]? = some (.ok y)) (hab : pickle a = pickle b) : x = y := by
  obtain ⟨-, -, h⟩ := memoCalls_inv pickle func calls _ (MemoInv.init pickle w)
  obtain ⟨k, h1, h2⟩ := h i a x ha hx
  obtain ⟨k', h3, h4⟩ := h j b y hb hy
  rw [hab, h3] at h1
  cases h1
  rw [h2] at h4
  exact Option.some.inj h4

/-- C61: nothing is ever removed from the dictionary (finding: the Crypters, and with them the keys, of all sessions stay in
memory for the lifetime of the process). -/
theorem C61_kept (w : ω) (calls more : List α) (i : Nat) (a : α) (x : β) (ha : calls[i]? = some a)
    (hx : (memoCalls pickle func (Memo.init w) calls).1[i]? = some (.ok x)) :
    ∃ k, pickle a = .ok k ∧ (memoCalls pickle func (memoCalls pickle func (Memo.init w) calls).2 more).2.memory.lookup k = some x := by
  obtain ⟨hinv, -, h⟩ := memoCalls_inv pickle func calls _ (MemoInv.init pickle w)
  obtain ⟨k, h1, h2⟩ := h i a x ha hx
  exact ⟨k, h1, (memoCalls_inv pickle func more _ hinv).2.1 k x h2⟩

/-- C61: arguments that cannot be pickled raise, and the original function is not called. -/
theorem C61_unpicklable (s : Memo κ α β ω) (a : α) (e : PyErr) (h : pickle a = .error e) : s.call pickle func a = (.error e, s) := by
  simp [Memo.call, h]
end

section
variable {κ α β : Type} [DecidableEq κ] (pickle : α → Py κ) (f : α → Py β)

/-- equal pickles imply equal results of successful calls -/
def Separates : Prop := ∀ a b k v, pickle a = .ok k → pickle b = .ok k → f a = .ok v → f b = .ok v

theorem memoCalls_transparent (hs : Separates pickle f) : ∀ (l : List α) (s : Memo κ α β Unit), (∀ a ∈ l, ∃ k, pickle a = .ok k) →
    (∀ k v, s.memory.lookup k = some v → ∃ a, pickle a = .ok k ∧ f a = .ok v) →
    (memoCalls pickle (fun a w => (f a, w)) s l).1 = l.map f
  | [], _, _, _ => rfl
  | a :: l, s, hp, hm => by
    obtain ⟨k, hk⟩ := hp a (by simp)
    have h1 : (s.call pickle (fun a w => (f a, w)) a).1 = f a ∧
        (∀ k v, (s.call pickle (fun a w => (f a, w)) a).2.memory.lookup k = some v → ∃ a, pickle a = .ok k ∧ f a = .ok v) := by
      unfold Memo.call
      rw [hk]
      dsimp only
      cases hl : s.memory.lookup k with
      | some v =>
        obtain ⟨a', h2, h3⟩ := hm k v hl
        exact ⟨(hs a' a k v h2 hk h3).symm, hm⟩
      | none =>
        dsimp only
        cases hf : f a with
        | error e => exact ⟨rfl, hm⟩
        | ok v =>
          refine ⟨rfl, fun k' v' h2 => ?_⟩
          dsimp only at h2
          rw [List.lookup_cons] at h2
          by_cases hkk : k' = k
          · simp only [hkk, beq_self_eq_true, Option.some.injEq] at h2
            subst h2
            exact ⟨a, by rw [hk, hkk], hf⟩
          · have : (k' == k) = false := by simpa using hkk
            simp only [this] at h2
            exact hm k' v' h2
    rw [List.map_cons, ← h1.1]
    simp only [memoCalls]
    rw [memoCalls_transparent hs l _ (fun a ha => hp a (by simp [ha])) h1.2]

/-- C61: for a deterministic function, every sequence of calls with picklable arguments returns exactly what the original
function returns or raises, if and only if equal pickles imply equal results. -/
theorem C61_transparent :
    (∀ calls : List α, (∀ a ∈ calls, ∃ k, pickle a = .ok k) →
      (memoCalls pickle (fun a w => (f a, w)) (Memo.init ()) calls).1 = calls.map f) ↔ Separates pickle f := by
  constructor
  · intro h a b k v ha hb hv
    have := h [a, b] (by simp only [List.mem_cons, List.not_mem_nil, or_false]; rintro x (rfl | rfl); exacts [⟨k, ha⟩, ⟨k, hb⟩])
    have h2 : (memoCalls pickle (fun a w => (f a, w)) (Memo.init ()) [a, b]).1 = [.ok v, .ok v] := by
      simp [memoCalls, Memo.call, Memo.init, ha, hb, hv]
    rw [h2] at this
    simp only [List.map_cons, List.map_nil, List.cons.injEq, and_true] at this
    exact this.2.symm
  · intro hs calls hp
    exact memoCalls_transparent pickle f hs calls _ hp (by simp [Memo.init])

/-- C61: a deterministic function that raised is called again, and raises again. -/
theorem C61_errors_not_kept (s : Memo κ α β Unit) (a : α) (e : PyErr) (k : κ) (hk : pickle a = .ok k) (hl : s.memory.lookup k = none)
    (h : f a = .error e) :
    s.call pickle (fun a w => (f a, w)) a = (.error e, { s with runs := s.runs ++ [(a, .error e)] }) := by
  simp [Memo.call, hk, hl, h]
end

/-- C61 for `_Session.crypter`, the only memoized function: if sessions with different keys have different pickles, every
sequence of accesses to `crypter`, of any sessions, gives what building the Crypter anew gives. -/
theorem C61_session_crypter (P : Prims) {κ : Type} [DecidableEq κ] (pickle : Session → Py κ) (hp : ∀ s, ∃ k, pickle s = .ok k)
    (hsep : ∀ s t, pickle s = pickle t → s.key = t.key) (calls : List Session) :
    (memoCalls pickle (fun s w => (s.crypter P, w)) (Memo.init ()) calls).1 = calls.map (·.crypter P) := by
  refine (C61_transparent pickle (·.crypter P)).mpr ?_ calls (fun s _ => hp s)
  intro s t k v hs ht hv
  have := hsep s t (hs.trans ht.symm)
  rw [← hv]
  simp only [Session.crypter, this]

/-- example: squares with the number itself as its pickle; the second call with 3 does not run the function -/
example : (memoCalls (κ := Nat) (fun n : Nat => .ok n) (fun n (w : Nat) => ((.ok (n * n + w) : Py Nat), w + 1)) (Memo.init 0) [3, 4, 3]).1 =
    [.ok 9, .ok 17, .ok 9] := by decide +kernel
/-- example for `C61_effects`: two failing runs and a remembered one; the world has counted the three runs there were -/
example : (memoCalls (κ := Nat) (fun n : Nat => .ok n) (fun n (w : Nat) => ((if n = 0 then .error .valueError else .ok n : Py Nat), w + 1))
    (Memo.init 0) [0, 4, 0, 4]).2.world = 3 := by decide +kernel
/-- example: pickles that are equal although the results differ: the second result is wrong -/
example : (memoCalls (κ := Nat) (fun n : Nat => .ok (n % 2)) (fun n (w : Unit) => ((.ok (n * n) : Py Nat), w)) (Memo.init ()) [3, 5]).1 =
    [.ok 9, .ok 9] := by decide +kernel

end Verif.Props
