import Verif.Spec.CommandLine
import Verif.Lemmas.JsonGrammar
import Verif.Props.Export
/-
C60: parsing the command line.
-/
namespace Verif.Props
open Verif Spec
variable (P : Prims)

theorem splitOn_ne (b : Bytes) : splitOn 61 b ≠ [] := by
  cases b with
  | nil => simp [splitOn]
  | cons x t =>
    rw [splitOn]
    split
    · simp
    · split <;> simp

theorem splitOn_one {b x : Bytes} : splitOn 61 b = [x] ↔ b = x ∧ 61 ∉ b := by
  induction b generalizing x with
  | nil => simp [splitOn, eq_comm]
  | cons a t ih =>
    rw [splitOn]
    by_cases ha : a = 61
    · rw [if_pos ha]
      constructor
      · intro h
        exact absurd (List.cons.inj h).2 (splitOn_ne t)
      · rintro ⟨-, h⟩
        exact absurd (by simp [ha]) h
    · rw [if_neg ha]
      cases hs : splitOn 61 t with
      | nil => exact absurd hs (splitOn_ne t)
      | cons w ws =>
        simp only [List.cons.injEq]
        constructor
        · rintro ⟨rfl, rfl⟩
          obtain ⟨h1, h2⟩ := ih.mp hs
          exact ⟨by rw [h1], by simp [Ne.symm ha, h2]⟩
        · rintro ⟨rfl, h2⟩
          have := ih.mpr ⟨rfl, fun h => h2 (by simp [h])⟩
          rw [hs] at this
          cases this
          exact ⟨rfl, rfl⟩

theorem splitOn_two {b x y : Bytes} : splitOn 61 b = [x, y] ↔ b = x ++ 61 :: y ∧ 61 ∉ x ∧ 61 ∉ y := by
  induction b generalizing x with
  | nil => simp [splitOn]
  | cons a t ih =>
    rw [splitOn]
    by_cases ha : a = 61
    · rw [if_pos ha]
      subst ha
      constructor
      · intro h
        obtain ⟨rfl, hh⟩ := List.cons.inj h
        obtain ⟨rfl, h2⟩ := splitOn_one.mp hh
        exact ⟨rfl, by simp, h2⟩
      · rintro ⟨h1, h2, h3⟩
        cases x with
        | nil =>
          obtain ⟨-, rfl⟩ := List.cons.inj h1
          rw [splitOn_one.mpr ⟨rfl, h3⟩]
        | cons z x =>
          obtain ⟨rfl, -⟩ := List.cons.inj h1
          exact absurd (by simp) h2
    · rw [if_neg ha]
      cases hs : splitOn 61 t with
      | nil => exact absurd hs (splitOn_ne t)
      | cons w ws =>
        simp only [List.cons.injEq]
        constructor
        · rintro ⟨rfl, rfl⟩
          obtain ⟨h1, h2, h3⟩ := ih.mp hs
          exact ⟨by rw [h1]; rfl, by simp [Ne.symm ha, h2], h3⟩
        · rintro ⟨h1, h2, h3⟩
          cases x with
          | nil =>
            obtain ⟨rfl, -⟩ := List.cons.inj h1
            exact absurd rfl ha
          | cons z x =>
            obtain ⟨rfl, hh⟩ := List.cons.inj h1
            have := ih.mpr ⟨hh, fun h => h2 (by simp [h]), h3⟩
            rw [hs] at this
            cases this
            exact ⟨rfl, rfl⟩

theorem Assigns_iff {name v arg : Bytes} : Assigns name v arg ↔ ∃ rest, arg = 45 :: 45 :: rest ∧ splitOn 61 rest = [name, v] := by
  constructor
  · rintro ⟨hn, hv⟩
    exact ⟨_, rfl, splitOn_two.mpr ⟨rfl, hn, hv⟩⟩
  · rintro ⟨rest, rfl, h⟩
    obtain ⟨rfl, hn, hv⟩ := splitOn_two.mp h
    exact ⟨hn, hv⟩

theorem GetFlag_iff {b : Bytes} {f : Flag} : GetFlag b = .ok f ↔ b = flagName f := by
  constructor
  · intro h
    unfold GetFlag at h
    split at h
    · next p hp =>
      have hm := List.mem_of_find?_eq_some hp
      have he := List.find?_some hp
      replace he : bstr p.1 = b := of_decide_eq_true he
      cases h
      subst he
      simp only [List.mem_cons, List.not_mem_nil, or_false] at hm
      rcases hm with rfl | rfl | rfl | rfl | rfl | rfl | rfl | rfl | rfl <;> decide +kernel
    · cases h
  · rintro rfl
    cases f <;> decide +kernel

theorem GetFlag_error {b : Bytes} (h : ∀ f, b ≠ flagName f) : GetFlag b = .error .keyczarError := by
  cases hg : GetFlag b with
  | ok f => exact absurd (GetFlag_iff.mp hg) (h f)
  | error e =>
    unfold GetFlag at hg
    split at hg <;> cases hg
    rfl

theorem GetCommand_iff {b : Bytes} {f : Command} : GetCommand b = .ok f ↔ b = commandName f := by
  constructor
  · intro h
    unfold GetCommand at h
    split at h
    · next p hp =>
      have hm := List.mem_of_find?_eq_some hp
      have he := List.find?_some hp
      replace he : bstr p.1 = b := of_decide_eq_true he
      cases h
      subst he
      simp only [List.mem_cons, List.not_mem_nil, or_false] at hm
      rcases hm with rfl | rfl | rfl | rfl | rfl | rfl | rfl <;> decide +kernel
    · cases h
  · rintro rfl
    cases f <;> decide +kernel

theorem GetCommand_error {b : Bytes} (h : ∀ f, b ≠ commandName f) : GetCommand b = .error .keyczarError := by
  cases hg : GetCommand b with
  | ok f => exact absurd (GetCommand_iff.mp hg) (h f)
  | error e =>
    unfold GetCommand at hg
    split at hg <;> cases hg
    rfl

/-- what one argument does to the flags -/
theorem parseFlags_cons (arg : Bytes) (t : List Bytes) (fl : List (Flag × Bytes)) :
    (Ignored arg ∧ parseFlags (arg :: t) fl = parseFlags t fl) ∨
    (∃ name v, Assigns name v arg ∧
      parseFlags (arg :: t) fl = (GetFlag name).bind fun f => parseFlags t (assocSet fl f v)) := by
  by_cases h : ∃ name v, Assigns name v arg
  · obtain ⟨name, v, h⟩ := h
    refine .inr ⟨name, v, h, ?_⟩
    obtain ⟨rest, rfl, hs⟩ := Assigns_iff.mp h
    rw [parseFlags, hs]
    rfl
  · refine .inl ⟨fun name v hx => h ⟨name, v, hx⟩, ?_⟩
    have h : ∀ name v, ¬ Assigns name v arg := fun name v hx => h ⟨name, v, hx⟩
    by_cases hr : ∃ rest, arg = 45 :: 45 :: rest
    · obtain ⟨rest, rfl⟩ := hr
      rw [parseFlags]
      split
      · next x y hs => exact absurd (Assigns_iff.mpr ⟨rest, rfl, hs⟩) (h x y)
      · rfl
    · rw [parseFlags]
      exact fun rest hx => hr ⟨rest, hx⟩

theorem _root_.Verif.Spec.Assigns.unique {n v n' v' arg : Bytes} (h : Assigns n v arg) (h' : Assigns n' v' arg) : n = n' ∧ v = v' := by
  obtain ⟨r, rfl, h1⟩ := Assigns_iff.mp h
  obtain ⟨r', hr, h2⟩ := Assigns_iff.mp h'
  cases hr
  rw [h1] at h2
  cases h2
  exact ⟨rfl, rfl⟩

theorem flagName_inj {f f' : Flag} (h : flagName f = flagName f') : f = f' := by
  have h1 : GetFlag (flagName f) = .ok f := GetFlag_iff.mpr rfl
  have h2 : GetFlag (flagName f) = .ok f' := GetFlag_iff.mpr h
  rw [h1] at h2
  exact Except.ok.inj h2

theorem _root_.Verif.Spec.FlagIs.cons_ignored {f : Flag} {arg : Bytes} {t : List Bytes} {v : Option Bytes}
    (h : ∀ v, ¬ Assigns (flagName f) v arg) (ht : FlagIs f t v) : FlagIs f (arg :: t) v := by
  cases ht with
  | none _ hn =>
    refine .none _ ?_
    intro a ha
    rcases List.mem_cons.mp ha with rfl | ha
    · exact h
    · exact hn a ha
  | some a arg' v' b ha hb => exact .some (arg :: a) arg' v' b ha hb

/-- flags after parsing: the last occurrence counts, earlier values are kept otherwise -/
theorem parseFlags_spec (argv : List Bytes) (fl : List (Flag × Bytes)) (hk : KnownFlags argv) :
    ∃ fl', parseFlags argv fl = .ok fl' ∧ ∀ f, ∃ v, FlagIs f argv v ∧ assocGet fl' f = v.or (assocGet fl f) := by
  induction argv generalizing fl with
  | nil => exact ⟨fl, rfl, fun f => ⟨none, .none _ (by simp), rfl⟩⟩
  | cons arg t ih =>
    have hk' : KnownFlags t := fun a ha => hk a (List.mem_cons_of_mem _ ha)
    rcases parseFlags_cons arg t fl with ⟨h1, h2⟩ | ⟨name, v, h1, h2⟩
    · rw [h2]
      obtain ⟨fl', g1, g2⟩ := ih fl hk'
      refine ⟨fl', g1, fun f => ?_⟩
      obtain ⟨v, g3, g4⟩ := g2 f
      exact ⟨v, g3.cons_ignored (fun v => h1 _ v), g4⟩
    · obtain ⟨f0, rfl⟩ := hk arg (by simp) name v h1
      rw [h2, GetFlag_iff.mpr rfl]
      obtain ⟨fl', g1, g2⟩ := ih (assocSet fl f0 v) hk'
      refine ⟨fl', g1, fun f => ?_⟩
      obtain ⟨w, g3, g4⟩ := g2 f
      rw [assocGet_set] at g4
      by_cases hf : f0 = f
      · subst hf
        rw [if_pos rfl] at g4
        cases g3 with
        | none _ hn => exact ⟨some v, .some [] arg v t h1 hn, g4⟩
        | some a arg' v' b ha hb => exact ⟨some v', .some (arg :: a) arg' v' b ha hb, g4⟩
      · rw [if_neg hf] at g4
        refine ⟨w, g3.cons_ignored ?_, g4⟩
        intro v' hv'
        exact hf (flagName_inj (h1.unique hv').1)

theorem parseFlags_unknown (argv : List Bytes) (fl : List (Flag × Bytes)) (hk : ¬ KnownFlags argv) :
    parseFlags argv fl = .error .keyczarError := by
  induction argv generalizing fl with
  | nil => exact absurd (fun a ha => by cases ha) hk
  | cons arg t ih =>
    rcases parseFlags_cons arg t fl with ⟨h1, h2⟩ | ⟨name, v, h1, h2⟩
    · rw [h2]
      apply ih
      intro ht
      apply hk
      intro a ha
      rcases List.mem_cons.mp ha with rfl | ha
      · exact fun n v hx => absurd hx (h1 n v)
      · exact ht a ha
    · rw [h2]
      by_cases hf : ∃ f, name = flagName f
      · obtain ⟨f, rfl⟩ := hf
        rw [GetFlag_iff.mpr rfl]
        apply ih
        intro ht
        apply hk
        intro a ha
        rcases List.mem_cons.mp ha with rfl | ha
        · exact fun n v hx => ⟨f, (hx.unique h1).1⟩
        · exact ht a ha
      · rw [GetFlag_error fun f hx => hf ⟨f, hx⟩]
        rfl

theorem _root_.Verif.Spec.FlagIs.unique {f : Flag} {argv : List Bytes} {v w : Option Bytes} (h : FlagIs f argv v) (h' : FlagIs f argv w) : v = w := by
  induction argv generalizing v w with
  | nil =>
    have key : ∀ {v}, FlagIs f [] v → v = none := by
      intro v h
      generalize hl : ([] : List Bytes) = l at h
      cases h with
      | none => rfl
      | some a arg v b => simp at hl
    rw [key h, key h']
  | cons arg t ih =>
    have key : ∀ {v}, FlagIs f (arg :: t) v → (FlagIs f t v ∧ (v = none → ∀ x, ¬ Assigns (flagName f) x arg)) ∨
        ∃ x, v = some x ∧ Assigns (flagName f) x arg ∧ FlagIs f t none := by
      intro v h
      generalize hl : arg :: t = l at h
      cases h with
      | none _ hn => subst hl; exact .inl ⟨.none _ fun a ha => hn a (List.mem_cons_of_mem _ ha), fun _ => hn arg (by simp)⟩
      | some a arg' v b ha hb =>
        cases a with
        | nil => cases hl; exact .inr ⟨v, rfl, ha, .none _ hb⟩
        | cons z a => cases hl; exact .inl ⟨.some a arg' v b ha hb, fun h => by cases h⟩
    rcases key h with ⟨h1, h2⟩ | ⟨x, rfl, h1, h2⟩ <;> rcases key h' with ⟨h3, h4⟩ | ⟨y, rfl, h3, h4⟩
    · exact ih h1 h3
    · exact absurd h3 (h2 (ih h1 h4) _)
    · exact absurd h1 (h4 (ih h3 h2) _)
    · rw [(h1.unique h3).2]

/-! ### numbers -/

theorem isSpace_iff (c : UInt8) : isSpaceByte c = true ↔ c ∈ ([32, 9, 10, 11, 12, 13] : List UInt8) := by
  have key : ∀ n : Fin 256, isSpaceByte (UInt8.ofNat n) = true ↔ UInt8.ofNat n ∈ ([32, 9, 10, 11, 12, 13] : List UInt8) := by
    decide +kernel
  have := key ⟨c.toNat, c.toNat_lt⟩
  simpa using this

theorem dropWhile_white {a x : Bytes} (ha : White a) (hx : ∀ c t, x = c :: t → isSpaceByte c = false) :
    (a ++ x).dropWhile isSpaceByte = x := by
  induction a with
  | nil =>
    cases x with
    | nil => rfl
    | cons c t =>
      rw [List.nil_append, List.dropWhile_cons, hx c t rfl]
      rfl
  | cons c t ih =>
    rw [List.cons_append, List.dropWhile_cons, if_pos ((isSpace_iff c).mpr (ha c (by simp)))]
    exact ih fun d hd => ha d (by simp [hd])

theorem stripSpace_white {a x b : Bytes} (ha : White a) (hb : White b)
    (h1 : ∀ c t, x = c :: t → isSpaceByte c = false) (h2 : ∀ c t, x = t ++ [c] → isSpaceByte c = false)
    (hne : x ≠ []) : stripSpace (a ++ x ++ b) = x := by
  unfold stripSpace
  rw [List.append_assoc, dropWhile_white ha]
  · rw [List.reverse_append, dropWhile_white]
    · simp
    · intro c hc; exact hb c (by simpa using hc)
    · intro c t h
      apply h2 c t.reverse
      have := congrArg List.reverse h
      simpa using this
  · intro c t h
    cases x with
    | nil => exact absurd rfl hne
    | cons z x =>
      obtain ⟨rfl, -⟩ := List.cons.inj h
      exact h1 _ x rfl

theorem stripSpace_decomp (s : Bytes) : ∃ a b, White a ∧ White b ∧ s = a ++ stripSpace s ++ b := by
  have key : ∀ l : Bytes, ∃ a, White a ∧ l = a ++ l.dropWhile isSpaceByte := by
    intro l
    refine ⟨l.takeWhile isSpaceByte, ?_, (List.takeWhile_append_dropWhile).symm⟩
    intro c hc
    exact (isSpace_iff c).mp (List.all_eq_true.mp List.all_takeWhile c hc)
  obtain ⟨a, ha, h1⟩ := key s
  obtain ⟨b, hb, h2⟩ := key (s.dropWhile isSpaceByte).reverse
  refine ⟨a, b.reverse, ha, fun c hc => hb c (by simpa using hc), ?_⟩
  have h3 := congrArg List.reverse h2
  rw [List.reverse_reverse, List.reverse_append] at h3
  unfold stripSpace
  rw [List.append_assoc, ← h3]
  exact h1

theorem digit_not_space (c : UInt8) (h : 48 ≤ c ∧ c ≤ 57) : isSpaceByte c = false ∧ c ≠ 43 ∧ c ≠ 45 := by
  have key : ∀ n : Fin 256, 48 ≤ UInt8.ofNat n ∧ UInt8.ofNat n ≤ 57 →
      isSpaceByte (UInt8.ofNat n) = false ∧ UInt8.ofNat n ≠ 43 ∧ UInt8.ofNat n ≠ 45 := by
    decide +kernel
  have := key ⟨c.toNat, c.toNat_lt⟩
  rw [show UInt8.ofNat ((⟨c.toNat, c.toNat_lt⟩ : Fin 256) : Nat) = c by simp] at this
  exact this h

theorem decimalVal_iff {b : Bytes} {n : Nat} : decimalVal b = some n ↔ Digits b ∧ n = decimal b := by
  have hfold : ∀ (b : Bytes) (m : Nat), b.foldl (fun n c => 10 * n + (c.toNat - 48)) m = m * 10 ^ b.length + decimal b := by
    intro b
    induction b with
    | nil => intro m; simp [decimal]
    | cons c t ih =>
      intro m
      rw [List.foldl_cons, ih, decimal, List.length_cons, pow_succ]
      ring
  unfold decimalVal Digits
  have hall : b.all (fun c => 48 ≤ c && c ≤ 57) = true ↔ ∀ c ∈ b, 48 ≤ c ∧ c ≤ 57 := by
    simp [List.all_eq_true]
  simp only [hall]
  by_cases h : b ≠ [] ∧ ∀ c ∈ b, 48 ≤ c ∧ c ≤ 57
  · rw [if_pos h]
    rw [hfold, Option.some.injEq, and_iff_right h]
    simp [eq_comm]
  · rw [if_neg h]
    simp [h]

theorem Digits.cons {d : Bytes} (h : Digits d) : ∃ c t, d = c :: t ∧ 48 ≤ c ∧ c ≤ 57 := by
  cases d with
  | nil => exact absurd rfl h.1
  | cons c t => exact ⟨c, t, rfl, h.2 c (by simp)⟩

theorem Digits.strip {a d b : Bytes} (ha : White a) (hd : Digits d) (hb : White b) : stripSpace (a ++ d ++ b) = d := by
  refine stripSpace_white ha hb ?_ ?_ hd.1
  · intro c t h
    exact (digit_not_space c (hd.2 c (by simp [h]))).1
  · intro c t h
    exact (digit_not_space c (hd.2 c (by simp [h]))).1

theorem signed_strip {a d b : Bytes} {s : UInt8} (hs : s = 43 ∨ s = 45) (ha : White a) (hd : Digits d) (hb : White b) :
    stripSpace (a ++ s :: d ++ b) = s :: d := by
  refine stripSpace_white ha hb ?_ ?_ (by simp)
  · intro c t h
    cases h
    rcases hs with rfl | rfl <;> decide
  · intro c t h
    obtain ⟨c', t', rfl, -⟩ := (Digits.cons hd)
    have : c ∈ c' :: t' := by
      have hl := congrArg List.getLast? h
      simp only [List.getLast?_append, List.getLast?_singleton, Option.some_or] at hl
      rw [List.getLast?_cons_cons] at hl
      exact List.mem_of_getLast? hl
    exact (digit_not_space c (hd.2 c this)).1

theorem pyInt_ok {b : Bytes} {n : Int} (h : IntText b n) : pyInt b = .ok (some n) := by
  unfold pyInt
  cases h with
  | plain a d b ha hd hb =>
    rw [Digits.strip ha hd hb]
    obtain ⟨c, t, rfl, hc⟩ := (Digits.cons hd)
    have := digit_not_space c hc
    simp only
    rw [if_neg (by simp [this.2]), decimalVal_iff.mpr ⟨hd, rfl⟩]
    rfl
  | plus a d b ha hd hb =>
    rw [signed_strip (.inl rfl) ha hd hb]
    obtain ⟨c, t, rfl, hc⟩ := (Digits.cons hd)
    have := digit_not_space c hc
    simp only [true_or, if_true]
    rw [this.1, decimalVal_iff.mpr ⟨hd, rfl⟩]
    rfl
  | minus a d b ha hd hb =>
    rw [signed_strip (.inr rfl) ha hd hb]
    obtain ⟨c, t, rfl, hc⟩ := (Digits.cons hd)
    have := digit_not_space c hc
    simp only [or_true, if_true]
    rw [this.1, decimalVal_iff.mpr ⟨hd, rfl⟩]
    rfl

theorem pyInt_some {b : Bytes} {n : Int} (h : pyInt b = .ok (some n)) : IntText b n := by
  obtain ⟨a, b', ha, hb, hs⟩ := stripSpace_decomp b
  unfold pyInt at h
  generalize stripSpace b = x at h hs
  subst hs
  split at h
  · cases h
  · next c t =>
    split at h
    · next hsign =>
      split at h
      · cases h
      · next d t' =>
        split at h
        · cases h
        · have h := Except.ok.inj h
          cases hv : decimalVal (d :: t') with
          | none => rw [hv] at h; cases h
          | some m =>
            rw [hv] at h
            obtain ⟨hd, rfl⟩ := decimalVal_iff.mp hv
            rcases hsign with rfl | rfl
            · cases h
              exact .plus a _ b' ha hd hb
            · cases h
              exact .minus a _ b' ha hd hb
    · have h := Except.ok.inj h
      cases hv : decimalVal (c :: t) with
      | none => rw [hv] at h; cases h
      | some m =>
        rw [hv] at h
        obtain ⟨hd, rfl⟩ := decimalVal_iff.mp hv
        cases h
        exact .plain a _ b' ha hd hb

theorem pyInt_none {b : Bytes} (h : ∀ n, ¬ IntText b n) (ho : ¬ OddSign b) : pyInt b = .ok none := by
  cases hp : pyInt b with
  | ok x =>
    cases x with
    | none => rfl
    | some n => exact absurd (pyInt_some hp) (h n)
  | error e =>
    exfalso
    apply ho
    obtain ⟨a, b', ha, hb, hs⟩ := stripSpace_decomp b
    unfold pyInt at hp
    generalize stripSpace b = x at hp hs
    subst hs
    split at hp
    · cases hp
    · next c t =>
      split at hp
      · next hsign =>
        split at hp
        · cases hp
        · next d t' =>
          split at hp
          · next hd =>
            refine ⟨a, c, d, t' ++ b', ha, hsign, ?_, by simp⟩
            intro z hz
            rw [List.mem_singleton] at hz
            subst hz
            exact (isSpace_iff z).mp hd
          · cases hp
      · cases hp

theorem pyInt_clear {b : Bytes} (ho : ¬ OddSign b) : ∃ r, pyInt b = .ok r := by
  by_cases h : ∃ n, IntText b n
  · obtain ⟨n, h⟩ := h
    exact ⟨_, pyInt_ok h⟩
  · exact ⟨_, pyInt_none (fun n hn => h ⟨n, hn⟩) ho⟩

/-- a numeric flag as `main` reads it -/
def readNum (v : Option Bytes) : Py (Option Int) := match v with
  | none => .ok (some (-1))
  | some b => pyInt b

theorem readNum_ok {v : Option Bytes} {n : Int} (h : NumFlag v n) : readNum v = .ok (some n) := by
  cases h with
  | absent => rfl
  | given h => exact pyInt_ok h

theorem readNum_clear {v : Option Bytes} (h : Clear v) : ∃ r, readNum v = .ok r := by
  cases v with
  | none => exact ⟨_, rfl⟩
  | some b => exact pyInt_clear (h b rfl)

theorem readNum_not {v : Option Bytes} (h : NotNum v) : readNum v = .ok none := by
  obtain ⟨b, rfl, h1, h2⟩ := h
  exact pyInt_none h2 h1

theorem parseNumbers_eq (fl : List (Flag × Bytes)) : parseNumbers fl = (do
    match ← readNum (assocGet fl .version) with
    | none => return (none, none)
    | some v => return (some v, ← readNum (assocGet fl .size))) := by
  unfold parseNumbers readNum
  cases assocGet fl .version <;> rfl

/-! ### the other values -/

theorem upper_lower (c : UInt8) (u : UInt8) (hu : 65 ≤ u ∧ u ≤ 90) :
    ((if 97 ≤ c ∧ c ≤ 122 then c - 32 else c) = u) ↔ ((if 65 ≤ c ∧ c ≤ 90 then c + 32 else c) = u + 32) := by
  obtain ⟨h1, h2⟩ := hu
  have h1 : 65 ≤ u.toNat := h1
  have h2 : u.toNat ≤ 90 := h2
  have hc := c.toNat_lt
  have e1 : (97 ≤ c ∧ c ≤ 122) ↔ (97 ≤ c.toNat ∧ c.toNat ≤ 122) := Iff.rfl
  have e2 : (65 ≤ c ∧ c ≤ 90) ↔ (65 ≤ c.toNat ∧ c.toNat ≤ 90) := Iff.rfl
  have e3 : (u + 32).toNat = u.toNat + 32 := by
    rw [UInt8.toNat_add]; show (u.toNat + 32) % 256 = _; omega
  by_cases h97 : 97 ≤ c.toNat ∧ c.toNat ≤ 122
  · rw [if_pos (e1.mpr h97), if_neg (fun h => by have := e2.mp h; omega), ← UInt8.toNat_inj, ← UInt8.toNat_inj, e3]
    have : (c - 32).toNat = c.toNat - 32 := by
      rw [UInt8.toNat_sub_of_le]
      · rfl
      · show 32 ≤ c.toNat; omega
    omega
  · rw [if_neg (fun h => h97 (e1.mp h)), ← UInt8.toNat_inj, ← UInt8.toNat_inj, e3]
    by_cases h65 : 65 ≤ c.toNat ∧ c.toNat ≤ 90
    · rw [if_pos (e2.mpr h65)]
      have : (c + 32).toNat = c.toNat + 32 := by
        rw [UInt8.toNat_add]; show (c.toNat + 32) % 256 = _; omega
      omega
    · rw [if_neg (fun h => h65 (e2.mp h))]
      omega

theorem upper_iff (b u : Bytes) (hu : ∀ c ∈ u, 65 ≤ c ∧ c ≤ 90) : upperBytes b = u ↔ lower b = u.map (· + 32) := by
  unfold upperBytes lower
  induction b generalizing u with
  | nil => cases u <;> simp
  | cons c t ih =>
    cases u with
    | nil => simp
    | cons d u =>
      simp only [List.map_cons, List.cons.injEq]
      rw [upper_lower c d (hu d (by simp)), ih u fun c hc => hu c (by simp [hc])]

/-- names of the statuses in upper case -/
def statusUpper : KeyStatus → Bytes
  | .PRIMARY => [80, 82, 73, 77, 65, 82, 89]
  | .ACTIVE => [65, 67, 84, 73, 86, 69]
  | .INACTIVE => [73, 78, 65, 67, 84, 73, 86, 69]

theorem ofBytes_inj {a b : Bytes} : a.map (fun c => Char.ofNat c.toNat) = b.map (fun c => Char.ofNat c.toNat) ↔ a = b := by
  constructor
  · intro h
    refine List.map_injective_iff.mpr ?_ h
    intro x y hxy
    have key : ∀ x : UInt8, (Char.ofNat x.toNat).toNat = x.toNat := by
      intro x
      have := x.toNat_lt
      rw [Char.ofNat, dif_pos (show x.toNat.isValidChar from .inl (by omega))]
      rfl
    have h1 := key x
    simp only at hxy
    rw [hxy, key y] at h1
    exact UInt8.toNat_inj.mp h1.symm
  · rintro rfl; rfl

theorem GetStatus_iff {b : Bytes} {st : KeyStatus} : GetStatus (Json.ofBytes b) = .ok st ↔ b = statusUpper st := by
  constructor
  · intro h
    unfold GetStatus lookupName Json.ofBytes at h
    simp only at h
    split at h
    · next p hp =>
      have hm := List.mem_of_find?_eq_some hp
      have he := List.find?_some hp
      replace he : p.1.toList = _ := of_decide_eq_true he
      cases h
      simp only [List.mem_cons, List.not_mem_nil, or_false] at hm
      refine ofBytes_inj.mp ?_
      rw [← he]
      rcases hm with rfl | rfl | rfl <;> decide +kernel
    · cases h
  · rintro rfl
    cases st <;> decide +kernel

theorem GetStatus_error {b : Bytes} (h : ∀ st, b ≠ statusUpper st) : GetStatus (Json.ofBytes b) = .error .keyczarError := by
  cases hg : GetStatus (Json.ofBytes b) with
  | ok st => exact absurd (GetStatus_iff.mp hg) (h st)
  | error e =>
    unfold GetStatus lookupName Json.ofBytes at hg
    simp only at hg
    split at hg <;> cases hg
    rfl

theorem upper_status (b : Bytes) (st : KeyStatus) : upperBytes b = statusUpper st ↔ lower b = statusText st := by
  rw [upper_iff]
  · cases st <;> exact Iff.rfl
  · cases st <;> decide

theorem status_ok {v : Option Bytes} {st : KeyStatus} (h : StatusFlag v st) :
    GetStatus (Json.ofBytes (upperBytes (v.getD (bstr "ACTIVE")))) = .ok st := by
  cases h with
  | absent => decide +kernel
  | given h => exact GetStatus_iff.mpr ((upper_status _ _).mpr h)

theorem status_bad {v : Option Bytes} (h : ∀ st, ¬ StatusFlag v st) :
    GetStatus (Json.ofBytes (upperBytes (v.getD (bstr "ACTIVE")))) = .error .keyczarError := by
  cases v with
  | none => exact absurd .absent (h _)
  | some b => exact GetStatus_error fun st hx => h st (.given ((upper_status _ _).mp hx))

theorem purpose_ok {v : Option Bytes} {p : Option KeyPurpose} (h : PurposeFlag v p) : purposeFlag v = p := by
  have e1 : bstr "crypt" = [99, 114, 121, 112, 116] := by decide +kernel
  have e2 : bstr "sign" = [115, 105, 103, 110] := by decide +kernel
  unfold purposeFlag
  rw [e1, e2]
  cases h with
  | crypt => rfl
  | sign => rfl
  | other _ h h' => rw [if_neg h, if_neg h']

theorem name_ok {v : Option Bytes} {n : List Char} (h : NameFlag v n) : decodeUtf8 (v.getD (bstr "Test")) = .ok n := by
  cases h with
  | absent =>
    have e : bstr "Test" = [84, 101, 115, 116] := by decide +kernel
    rw [Option.getD_none, e]
    rfl
  | given s => exact (JsonText.decodeUtf8_iff _ _).mpr rfl

theorem NameFlag.ascii {b : Bytes} (h : ∀ c ∈ b, c < 128) : NameFlag (some b) (b.map fun c => Char.ofNat c.toNat) := by
  have e : (b.map fun c => Char.ofNat c.toNat).flatMap utf8 = b := by
    induction b with
    | nil => rfl
    | cons c t ih =>
      have hc : c.toNat < 128 := h c (by simp)
      have e : (Char.ofNat c.toNat).toNat = c.toNat := JsonText.ofNat_toNat_of_valid (by omega)
      have e' : utf8 (Char.ofNat c.toNat) = [c] := by
        unfold utf8
        simp only [e]
        rw [if_pos (by omega)]
        simp
      rw [List.map_cons, List.flatMap_cons, e', ih fun c hc => h c (by simp [hc])]
      rfl
  have := NameFlag.given (b.map fun c => Char.ofNat c.toNat)
  rwa [e] at this

theorem name_none {v : Option Bytes} (h : NoName v) : decodeUtf8 (v.getD (bstr "Test")) = .error .valueError := by
  cases v with
  | none => exact absurd .absent (h.1 _)
  | some b =>
    cases e : decodeUtf8 b with
    | ok s =>
      rw [(JsonText.decodeUtf8_iff b s).mp e] at h
      exact absurd (.given s) (h.1 s)
    | error x =>
      rcases JsonText.decodeUtf8_error e with rfl | h'
      · exact e
      · exact absurd h' (h.2 b rfl)

/-! ### `main` -/

theorem Cmd.lift_ok {α β} (a : α) (f : α → Cmd β) : (Cmd.lift (.ok a) >>= f) = f a := by
  funext fs; rw [Cmd.lift_bind]

theorem Cmd.lift_error {α β} (e : PyErr) (f : α → Cmd β) : (Cmd.lift (.error e) >>= f) = Cmd.lift (.error e) := by
  funext fs; rw [Cmd.lift_bind]; rfl

theorem main_cons (env : Env) (name : Bytes) (rest : List Bytes) : main P env (name :: rest) =
    (Cmd.lift (GetCommand name) >>= fun cmd => Cmd.lift (parseFlags (name :: rest) []) >>= fun fl =>
      Cmd.lift (parseNumbers fl) >>= fun nums => dispatch P env fl nums cmd) := rfl

/-- C60: an unknown command raises KeyczarError and changes nothing -/
theorem C60_unknown_command (env : Env) (name : Bytes) (rest : List Bytes) (h : ∀ c, name ≠ commandName c) (fs : FS) :
    main P env (name :: rest) fs = (.error .keyczarError, []) := by
  rw [main_cons, GetCommand_error h, Cmd.lift_error]
  rfl

/-- C60: without arguments nothing happens but the usage message -/
theorem C60_no_arguments (env : Env) (fs : FS) : main P env [] fs = (.ok (), []) := rfl

/-- C60: an unknown flag, anywhere on the line, raises KeyczarError and changes nothing -/
theorem C60_unknown_flag (env : Env) (argv : List Bytes) (h : ¬ KnownFlags argv) (fs : FS) :
    main P env argv fs = (.error .keyczarError, []) := by
  cases argv with
  | nil => exact absurd (fun a ha => by cases ha) h
  | cons name rest =>
    by_cases hc : ∃ c, name = commandName c
    · obtain ⟨c, hc⟩ := hc
      rw [main_cons, GetCommand_iff.mpr hc, Cmd.lift_ok, parseFlags_unknown _ _ h, Cmd.lift_error]
      rfl
    · exact C60_unknown_command P env name rest (fun c hx => hc ⟨c, hx⟩) fs

theorem parseFlags_ignored (a b : List Bytes) (arg : Bytes) (h : Ignored arg) (fl : List (Flag × Bytes)) :
    parseFlags (a ++ arg :: b) fl = parseFlags (a ++ b) fl := by
  induction a generalizing fl with
  | nil =>
    rcases parseFlags_cons arg b fl with ⟨-, h2⟩ | ⟨name, v, h1, -⟩
    · exact h2
    · exact absurd h1 (h _ _)
  | cons x a ih =>
    rcases parseFlags_cons x (a ++ arg :: b) fl with ⟨h1, h2⟩ | ⟨name, v, h1, h2⟩ <;>
    rcases parseFlags_cons x (a ++ b) fl with ⟨h3, h4⟩ | ⟨name', v', h3, h4⟩
    · rw [List.cons_append, h2, List.cons_append, h4, ih]
    · exact absurd h3 (h1 _ _)
    · exact absurd h1 (h3 _ _)
    · obtain ⟨rfl, rfl⟩ := h1.unique h3
      rw [List.cons_append, h2, List.cons_append, h4]
      congr 1
      funext f
      exact ih _

/-- C60: an argument after the command that is no well-formed flag (for instance because its value contains `=`)
has no effect -/
theorem C60_ignored_argument (env : Env) (name : Bytes) (a b : List Bytes) (arg : Bytes) (h : Ignored arg) :
    main P env (name :: (a ++ arg :: b)) = main P env (name :: (a ++ b)) := by
  have := parseFlags_ignored (name :: a) b arg h []
  rw [List.cons_append, List.cons_append] at this
  rw [main_cons, main_cons, this]

/-- the flags of a parsed command line -/
theorem _root_.Verif.Spec.Parsed.main {argv : List Bytes} {cmd : Command} {V : Flag → Option Bytes} (h : Parsed argv cmd V) (env : Env) :
    ∃ fl : List (Flag × Bytes), (∀ f, assocGet fl f = V f) ∧
      main P env argv = (Cmd.lift (parseNumbers fl) >>= fun nums => dispatch P env fl nums cmd) := by
  obtain ⟨fl, h1, h2⟩ := parseFlags_spec argv [] h.known
  refine ⟨fl, fun f => ?_, ?_⟩
  · obtain ⟨v, h3, h4⟩ := h2 f
    rw [h4, (h.flags f).unique h3]
    cases v <;> rfl
  · have hh := h.head
    cases argv with
    | nil => cases hh
    | cons name rest =>
      rw [main_cons, GetCommand_iff.mpr (Option.some.inj hh), h1, Cmd.lift_ok, Cmd.lift_ok]

/-- flags whose numbers are clear do not stop `main` -/
theorem parseNumbers_clear {fl : List (Flag × Bytes)} {V : Flag → Option Bytes} (hf : ∀ f, assocGet fl f = V f)
    (hv : Clear (V .version)) (hs : Clear (V .size)) : ∃ nums, parseNumbers fl = .ok nums := by
  rw [parseNumbers_eq, hf, hf]
  obtain ⟨r, hr⟩ := readNum_clear hv
  obtain ⟨r', hr'⟩ := readNum_clear hs
  rw [hr, hr']
  cases r <;> exact ⟨_, rfl⟩

theorem parseNumbers_version {fl : List (Flag × Bytes)} {V : Flag → Option Bytes} (hf : ∀ f, assocGet fl f = V f) {n : Int}
    (hv : NumFlag (V .version) n) (hs : Clear (V .size)) : ∃ r, parseNumbers fl = .ok (some n, r) := by
  rw [parseNumbers_eq, hf, hf]
  obtain ⟨r', hr'⟩ := readNum_clear hs
  rw [readNum_ok hv, hr']
  exact ⟨_, rfl⟩

theorem parseNumbers_both {fl : List (Flag × Bytes)} {V : Flag → Option Bytes} (hf : ∀ f, assocGet fl f = V f) {n m : Int}
    (hv : NumFlag (V .version) n) (hs : NumFlag (V .size) m) : parseNumbers fl = .ok (some n, some m) := by
  rw [parseNumbers_eq, hf, hf, readNum_ok hv, readNum_ok hs]
  rfl

theorem parseNumbers_bad_version {fl : List (Flag × Bytes)} {V : Flag → Option Bytes} (hf : ∀ f, assocGet fl f = V f)
    (hv : NotNum (V .version)) : parseNumbers fl = .ok (none, none) := by
  rw [parseNumbers_eq, hf, hf, readNum_not hv]
  rfl

theorem parseNumbers_bad_size {fl : List (Flag × Bytes)} {V : Flag → Option Bytes} (hf : ∀ f, assocGet fl f = V f)
    (hv : Clear (V .version)) (hs : NotNum (V .size)) : ∃ r, parseNumbers fl = .ok (r, none) := by
  rw [parseNumbers_eq, hf, hf, readNum_not hs]
  obtain ⟨r, hr⟩ := readNum_clear hv
  rw [hr]
  cases r <;> exact ⟨_, rfl⟩

section dispatch
variable (env : Env) {argv : List Bytes} {V : Flag → Option Bytes}

/-- C60: `create` creates a set with exactly the flags' values; numeric flags do not matter -/
theorem C60_create (h : Parsed argv .create V) (hv : Clear (V .version)) (hs : Clear (V .size))
    {p : Option KeyPurpose} (hp : PurposeFlag (V .purpose) p) {n : List Char} (hn : NameFlag (V .name) n) :
    main P env argv = Create (V .location) (.str n) p (V .asymmetric) := by
  obtain ⟨fl, hf, hm⟩ := h.main P env
  obtain ⟨nums, hnum⟩ := parseNumbers_clear hf hv hs
  rw [hm, hnum, Cmd.lift_ok]
  unfold dispatch
  simp only [hf]
  rw [name_ok hn, purpose_ok hp]

/-- C60: `create` with a name that is not in UTF-8 fails like `create` with any other name, and where that would
succeed it raises ValueError; nothing is written -/
theorem C60_create_undecodable (h : Parsed argv .create V) (hv : Clear (V .version)) (hs : Clear (V .size))
    {p : Option KeyPurpose} (hp : PurposeFlag (V .purpose) p) (hn : NoName (V .name)) (n : List Char) (fs : FS) :
    main P env argv fs = (match (Create (V .location) (.str n) p (V .asymmetric) fs).1 with
      | .ok _ => .error .valueError
      | .error e => .error e, []) := by
  obtain ⟨fl, hf, hm⟩ := h.main P env
  obtain ⟨nums, hnum⟩ := parseNumbers_clear hf hv hs
  rw [hm, hnum, Cmd.lift_ok]
  unfold dispatch
  simp only [hf]
  rw [name_none hn, purpose_ok hp]
  simp only
  unfold CreateUndecodable Create
  cases V .location with
  | none => rfl
  | some l =>
    simp only
    rw [Cmd.lift_bind, Cmd.lift_bind]
    cases createType p (V .asymmetric) with
    | error e => rfl
    | ok t =>
      simp only
      rw [Cmd.look_bind, Cmd.look_bind]
      unfold CreateWriter
      by_cases hl : (fs l).isSome
      · rw [if_pos hl]
        simp only [Cmd.look]
        by_cases hm : ((fs l).bind fun d => d .metaFile).isSome
        · rw [if_pos hm]
          unfold WriteMetadata
          rw [if_pos ⟨by simp, hm⟩]
        · rw [if_neg hm]
          unfold WriteMetadata
          rw [if_neg (by simp [hm])]
          show _ = (match (WriteFile _ l .metaFile fs).1 with | .ok _ => _ | .error e => _, [])
          unfold WriteFile
          rw [if_pos hl]
      · rw [if_neg hl]

/-- C60: `addkey` without crypter -/
theorem C60_addkey (h : Parsed argv .addkey V) {n m : Int} (hv : NumFlag (V .version) n) (hs : NumFlag (V .size) m)
    {st : KeyStatus} (hst : StatusFlag (V .status) st) (hc : V .crypter = none) :
    main P env argv = AddKey P env (V .location) st none m := by
  obtain ⟨fl, hf, hm⟩ := h.main P env
  rw [hm, parseNumbers_both hf hv hs, Cmd.lift_ok]
  unfold dispatch
  simp only [hf, hc]
  rw [status_ok hst, Cmd.lift_ok]
  show (Cmd.lift (.ok m) >>= _) = _
  rw [Cmd.lift_ok]

/-- C60: `addkey` with a crypter -/
theorem C60_addkey_crypter (h : Parsed argv .addkey V) {n m : Int} (hv : NumFlag (V .version) n) (hs : NumFlag (V .size) m)
    {st : KeyStatus} (hst : StatusFlag (V .status) st) {cl : Loc} (hc : V .crypter = some cl) (fs : FS) :
    main P env argv fs = match (CreateCrypter P cl fs).1 with
      | .ok cr => AddKey P env (V .location) st (some cr) m fs
      | .error e => (.error e, []) := by
  obtain ⟨fl, hf, hm⟩ := h.main P env
  rw [hm, parseNumbers_both hf hv hs, Cmd.lift_ok]
  unfold dispatch
  simp only [hf, hc]
  rw [status_ok hst, Cmd.lift_ok]
  show (Cmd.lift (Czar.init P .crypter =<< CreateReader cl fs) >>= fun cr =>
    Cmd.lift (useVar (some m)) >>= fun size => AddKey P env (V .location) st (some cr) size) fs = _
  show _ = match (Czar.init P .crypter =<< CreateReader cl fs) with
    | .ok cr => AddKey P env (V .location) st (some cr) m fs
    | .error e => (.error e, [])
  rw [Cmd.lift_bind]
  cases (Czar.init P .crypter =<< CreateReader cl fs) with
  | error e => rfl
  | ok cr =>
    show (Cmd.lift (.ok m) >>= fun size => AddKey P env (V .location) st (some cr) size) fs = _
    rw [Cmd.lift_ok]

/-- C60: `addkey` with a status that is none of primary, active, inactive -/
theorem C60_addkey_bad_status (h : Parsed argv .addkey V) (hv : Clear (V .version)) (hs : Clear (V .size))
    (hst : ∀ st, ¬ StatusFlag (V .status) st) (fs : FS) : main P env argv fs = (.error .keyczarError, []) := by
  obtain ⟨fl, hf, hm⟩ := h.main P env
  obtain ⟨nums, hnum⟩ := parseNumbers_clear hf hv hs
  rw [hm, hnum, Cmd.lift_ok]
  unfold dispatch
  simp only [hf]
  rw [status_bad hst, Cmd.lift_error]
  rfl

/-- C60: `addkey` with a size or version that is no number changes nothing and raises (the usage message is printed,
but the code carries on with an unbound variable) -/
theorem C60_addkey_bad_number (h : Parsed argv .addkey V)
    (hn : NotNum (V .version) ∨ (Clear (V .version) ∧ NotNum (V .size))) (fs : FS) :
    ∃ e, main P env argv fs = (.error e, []) := by
  obtain ⟨fl, hf, hm⟩ := h.main P env
  have hnum : ∃ r, parseNumbers fl = .ok (r, none) := by
    rcases hn with hn | ⟨h1, h2⟩
    · exact ⟨_, parseNumbers_bad_version hf hn⟩
    · exact parseNumbers_bad_size hf h1 h2
  obtain ⟨r, hnum⟩ := hnum
  rw [hm, hnum, Cmd.lift_ok]
  unfold dispatch
  simp only [hf]
  generalize GetStatus (Json.ofBytes (upperBytes ((V .status).getD (bstr "ACTIVE")))) = st
  cases st with
  | error e => exact ⟨e, by rw [Cmd.lift_error]; rfl⟩
  | ok st =>
    rw [Cmd.lift_ok]
    cases V .crypter with
    | none => exact ⟨.unboundLocal, rfl⟩
    | some cl =>
      show ∃ e, (Cmd.lift (Czar.init P .crypter =<< CreateReader cl fs) >>= fun cr =>
        Cmd.lift (useVar none) >>= fun size => AddKey P env (V .location) st (some cr) size) fs = _
      rw [Cmd.lift_bind]
      cases (Czar.init P .crypter =<< CreateReader cl fs) with
      | error e => exact ⟨e, rfl⟩
      | ok cr => exact ⟨.unboundLocal, rfl⟩

/-- C60: `pubkey` -/
theorem C60_pubkey (h : Parsed argv .pubkey V) (hv : Clear (V .version)) (hs : Clear (V .size)) :
    main P env argv = PubKey P env (V .location) (V .destination) := by
  obtain ⟨fl, hf, hm⟩ := h.main P env
  obtain ⟨nums, hnum⟩ := parseNumbers_clear hf hv hs
  rw [hm, hnum, Cmd.lift_ok]
  unfold dispatch
  simp only [hf]

/-- C60: `promote` -/
theorem C60_promote (h : Parsed argv .promote V) {n : Int} (hv : NumFlag (V .version) n) (hs : Clear (V .size)) :
    main P env argv = Promote P env (V .location) n := by
  obtain ⟨fl, hf, hm⟩ := h.main P env
  obtain ⟨r, hnum⟩ := parseNumbers_version hf hv hs
  rw [hm, hnum, Cmd.lift_ok]
  unfold dispatch
  simp only [hf]
  exact Cmd.lift_ok n _

/-- C60: `demote` -/
theorem C60_demote (h : Parsed argv .demote V) {n : Int} (hv : NumFlag (V .version) n) (hs : Clear (V .size)) :
    main P env argv = Demote P env (V .location) n := by
  obtain ⟨fl, hf, hm⟩ := h.main P env
  obtain ⟨r, hnum⟩ := parseNumbers_version hf hv hs
  rw [hm, hnum, Cmd.lift_ok]
  unfold dispatch
  simp only [hf]
  exact Cmd.lift_ok n _

/-- C60: `revoke` -/
theorem C60_revoke (h : Parsed argv .revoke V) {n : Int} (hv : NumFlag (V .version) n) (hs : Clear (V .size)) :
    main P env argv = Revoke P env (V .location) n := by
  obtain ⟨fl, hf, hm⟩ := h.main P env
  obtain ⟨r, hnum⟩ := parseNumbers_version hf hv hs
  rw [hm, hnum, Cmd.lift_ok]
  unfold dispatch
  simp only [hf]
  exact Cmd.lift_ok n _

/-- C60: `promote`, `demote` and `revoke` with a version that is no number raise and change nothing -/
theorem C60_bad_version {cmd : Command} (h : Parsed argv cmd V) (hc : cmd = .promote ∨ cmd = .demote ∨ cmd = .revoke)
    (hv : NotNum (V .version)) (fs : FS) : main P env argv fs = (.error .unboundLocal, []) := by
  obtain ⟨fl, hf, hm⟩ := h.main P env
  rw [hm, parseNumbers_bad_version hf hv, Cmd.lift_ok]
  rcases hc with rfl | rfl | rfl <;> rfl

/-- C60: without `--version`, `promote`, `demote` and `revoke` fail and change nothing -/
theorem C60_missing_version {cmd : Command} (h : Parsed argv cmd V) (hc : cmd = .promote ∨ cmd = .demote ∨ cmd = .revoke)
    (hv : V .version = none) (hs : Clear (V .size)) (fs : FS) : ∃ e, main P env argv fs = (.error e, []) := by
  have hn : NumFlag (V .version) (-1) := by rw [hv]; exact .absent
  have key : ∀ op : Czar → Int → Py Unit × Czar, ∃ e, ChangeStatus P env op (V .location) (-1) fs = (.error e, []) := by
    intro op
    unfold ChangeStatus CreateGenericKeyczar
    cases V .location with
    | none => exact ⟨_, by rw [Cmd.lift_error]; rfl⟩
    | some l =>
      show ∃ e, (Cmd.lift ((CreateReader l fs).bind fun r => Czar.init P .generic (readerFor P none r)) >>= _) fs = _
      rw [Cmd.lift_bind]
      cases (CreateReader l fs).bind fun r => Czar.init P .generic (readerFor P none r) with
      | error e => exact ⟨e, rfl⟩
      | ok c => exact ⟨_, rfl⟩
  rcases hc with rfl | rfl | rfl
  · rw [C60_promote P env h hn hs]; exact key _
  · rw [C60_demote P env h hn hs]; exact key _
  · rw [C60_revoke P env h hn hs]
    obtain ⟨e, he⟩ := key Czar.Revoke
    refine ⟨e, ?_⟩
    show Cmd.andThen _ _ fs = _
    unfold Cmd.andThen
    rw [he]

end dispatch

/-! ### examples -/

theorem parsed_of {argv : List Bytes} {cmd : Command} {fl : List (Flag × Bytes)}
    (h : argv.head? = some (commandName cmd)) (hp : parseFlags argv [] = .ok fl) : Parsed argv cmd (assocGet fl) := by
  have hk : KnownFlags argv := by
    by_contra hk
    rw [parseFlags_unknown _ _ hk] at hp
    cases hp
  refine ⟨h, hk, fun f => ?_⟩
  obtain ⟨fl', h1, h2⟩ := parseFlags_spec argv [] hk
  rw [hp] at h1
  cases h1
  obtain ⟨v, h3, h4⟩ := h2 f
  rw [h4]
  cases v <;> exact h3

namespace ExLine
/-- `promote --location=zz --version=2 stray --location=h --name=a=b`: the last location counts, the name is dropped -/
def argv : List Bytes := [bstr "promote", bstr "--location=zz", bstr "--version= +1", bstr "stray", bstr "--location=h", bstr "--name=a=b"]
def fl : List (Flag × Bytes) := [(.location, [104]), (.version, [32, 43, 49])]

theorem parsed : Parsed argv .promote (assocGet fl) := parsed_of (by decide +kernel) (by decide +kernel)

theorem version : NumFlag (assocGet fl .version) 1 :=
  .given (.plus [32] [49] [] (by unfold White; decide) (by unfold Digits; decide) (by intro c hc; cases hc))

example (env : Env) : main realPrims env argv = Promote realPrims env (some [104]) 1 :=
  C60_promote realPrims env parsed version (by intro b hb; cases hb)

example : Ignored (bstr "--name=a=b") := by
  intro name v h
  obtain ⟨rest, h1, h2⟩ := Assigns_iff.mp h
  have : bstr "--name=a=b" = 45 :: 45 :: [110, 97, 109, 101, 61, 97, 61, 98] := by decide +kernel
  rw [this] at h1
  cases h1
  revert h2
  show splitOn 61 [110, 97, 109, 101, 61, 97, 61, 98] = _ → False
  have : splitOn 61 [110, 97, 109, 101, 61, 97, 61, 98] = [[110, 97, 109, 101], [97], [98]] := by decide
  rw [this]
  intro h
  cases h

/-- and it really promotes version 1 of testdata/hmac -/
example : ((main realPrims Ex.env argv (Ex.disk .ACTIVE .PRIMARY)).1 = .ok ()) ∧
    (main realPrims Ex.env argv (Ex.disk .ACTIVE .PRIMARY)).2 ≠ [] := by decide +kernel

/-- `addkey --location=h --status=PriMary --size=256` -/
def argv2 : List Bytes := [bstr "addkey", bstr "--location=h", bstr "--status=PriMary", bstr "--size=256"]
def fl2 : List (Flag × Bytes) := [(.location, [104]), (.status, [80, 114, 105, 77, 97, 114, 121]), (.size, [50, 53, 54])]
example (env : Env) : main realPrims env argv2 = AddKey realPrims env (some [104]) .PRIMARY none 256 :=
  C60_addkey realPrims env (parsed_of (fl := fl2) (by decide +kernel) (by decide +kernel)) .absent
    (.given (.plain [] [50, 53, 54] [] (by intro c hc; cases hc) (by unfold Digits; decide) (by intro c hc; cases hc)))
    (.given (by decide)) rfl

/-- `create --location=x --purpose=sign --name=A` -/
def argv3 : List Bytes := [bstr "create", bstr "--location=x", bstr "--purpose=sign", bstr "--name=A", bstr "--size=no"]
def fl3 : List (Flag × Bytes) := [(.location, [120]), (.purpose, [115, 105, 103, 110]), (.name, [65]), (.size, [110, 111])]
example (env : Env) : main realPrims env argv3 = Create (some [120]) (.str ['A']) (some .SIGN_AND_VERIFY) none :=
  C60_create realPrims env (parsed_of (fl := fl3) (by decide +kernel) (by decide +kernel))
    (by intro b hb; cases hb)
    (by
      intro b hb
      cases hb
      rintro ⟨a, s, c, t, ha, hs, hc, hx⟩
      cases a with
      | nil => cases hx; rcases hs with h | h <;> revert h <;> decide
      | cons z a =>
        obtain ⟨rfl, -⟩ := List.cons.inj hx
        have := ha 110 (by simp)
        revert this
        decide)
    .sign (.given ['A'])

/-- `create --location=x --purpose=sign --name=ü` in UTF-8 -/
def argv3u : List Bytes := [bstr "create", bstr "--location=x", bstr "--purpose=sign", bstr "--name=" ++ [0xc3, 0xbc]]
def fl3u : List (Flag × Bytes) := [(.location, [120]), (.purpose, [115, 105, 103, 110]), (.name, [0xc3, 0xbc])]
example (env : Env) : main realPrims env argv3u = Create (some [120]) (.str ['ü']) (some .SIGN_AND_VERIFY) none :=
  C60_create realPrims env (parsed_of (fl := fl3u) (by decide +kernel) (by decide +kernel))
    (by intro b hb; cases hb) (by intro b hb; cases hb) .sign (.given ['ü'])

/-- the same name in Latin-1 -/
def argv3l : List Bytes := [bstr "create", bstr "--location=x", bstr "--purpose=sign", bstr "--name=" ++ [0xfc]]
def fl3l : List (Flag × Bytes) := [(.location, [120]), (.purpose, [115, 105, 103, 110]), (.name, [0xfc])]
theorem noName_latin : NoName (some [0xfc]) := by
  refine ⟨fun s h => ?_, fun b hb => ?_⟩
  · have := name_ok h
    revert this
    show decodeUtf8 [0xfc] = .ok s → False
    intro h'
    cases h'
  · cases hb
    rintro ⟨c, -, h⟩
    have := h.length_le
    simp at this
example (env : Env) (fs : FS) (h : fs [120] = some fun _ => none) :
    main realPrims env argv3l fs = (.error .valueError, []) := by
  rw [C60_create_undecodable realPrims env (parsed_of (fl := fl3l) (by decide +kernel) (by decide +kernel))
    (by intro b hb; cases hb) (by intro b hb; cases hb) .sign noName_latin []]
  obtain ⟨text, e, -⟩ := C36_creates_empty realPrims fs [120] _ h rfl (.str []) trivial (some .SIGN_AND_VERIFY) none
    .SIGN_AND_VERIFY .HMAC_SHA1 .hmac
  rw [show assocGet fl3l .location = some [120] from rfl, show assocGet fl3l .asymmetric = none from rfl, e]

/-- `promote --location=h --version=x` -/
def argv4 : List Bytes := [bstr "promote", bstr "--location=h", bstr "--version="]
def fl4 : List (Flag × Bytes) := [(.location, [104]), (.version, [])]
theorem notNum_nil : NotNum (some []) := by
  refine ⟨[], rfl, ?_, ?_⟩
  · rintro ⟨a, s, c, t, -, -, -, hx⟩
    simp at hx
  · intro n h
    generalize hb : ([] : Bytes) = b at h
    cases h with
    | plain a d b _ hd _ => have := hd.1; simp at hb; exact this hb.2.1
    | plus a d b => simp at hb
    | minus a d b => simp at hb
example (env : Env) (fs : FS) : main realPrims env argv4 fs = (.error .unboundLocal, []) :=
  C60_bad_version realPrims env (parsed_of (fl := fl4) (by decide +kernel) (by decide +kernel)) (.inl rfl) notNum_nil fs

/-- an unknown flag, `addkey --location=h --sizes=1` -/
example : ¬ KnownFlags [bstr "addkey", bstr "--location=h", bstr "--sizes=1"] := by
  intro h
  obtain ⟨fl', h1, -⟩ := parseFlags_spec _ [] h
  have : parseFlags [bstr "addkey", bstr "--location=h", bstr "--sizes=1"] [] = .error .keyczarError := by decide +kernel
  rw [this] at h1
  cases h1

example (c : Command) : bstr "Create" ≠ commandName c := by cases c <;> decide +kernel
end ExLine

end Verif.Props
