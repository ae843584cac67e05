import Verif.Spec.HarnessMain
import Verif.Props.Harness
/-
C99: the command line of interop.py, the options it displays, and its exit status, which does not tell whether tests failed.
-/
namespace Verif.Props
open Verif Spec Harness

/-! ### command line -/

theorem splitEq_ne (t : Text) : splitEq t ≠ [] := by
  cases t with
  | nil => simp [splitEq]
  | cons c t =>
    unfold splitEq
    split
    · simp
    · split <;> simp

theorem splitEq_plain {t : Text} (h : '=' ∉ t) : splitEq t = [t] := by
  induction t with
  | nil => rfl
  | cons c t ih =>
    simp only [List.mem_cons, not_or] at h
    unfold splitEq
    rw [if_neg (Ne.symm h.1), ih h.2]

theorem splitEq_append {f : Text} (h : '=' ∉ f) (v : Text) : splitEq (f ++ '=' :: v) = f :: splitEq v := by
  induction f with
  | nil => simp [splitEq]
  | cons c t ih =>
    simp only [List.mem_cons, not_or] at h
    rw [List.cons_append, splitEq]
    rw [if_neg (Ne.symm h.1), ih h.2]

theorem splitEq_parts : ∀ {t : Text} {h : Text} {r : List Text}, splitEq t = h :: r →
    '=' ∉ h ∧ (r = [] ∧ t = h ∨ ∃ v, t = h ++ '=' :: v ∧ splitEq v = r)
  | [], h, r, e => by
    simp only [splitEq, List.cons.injEq] at e
    obtain ⟨rfl, rfl⟩ := e
    simp
  | c :: t, h, r, e => by
    unfold splitEq at e
    split_ifs at e with hc
    · simp only [List.cons.injEq] at e
      obtain ⟨rfl, rfl⟩ := e
      subst hc
      exact ⟨by simp, .inr ⟨t, rfl, rfl⟩⟩
    · cases ht : splitEq t with
      | nil => exact absurd ht (splitEq_ne t)
      | cons h' r' =>
        rw [ht] at e
        simp only [List.cons.injEq] at e
        obtain ⟨rfl, rfl⟩ := e
        obtain ⟨h1, h2⟩ := splitEq_parts ht
        refine ⟨by simp only [List.mem_cons, not_or]; exact ⟨Ne.symm hc, h1⟩, ?_⟩
        rcases h2 with ⟨rfl, rfl⟩ | ⟨v, rfl, hv⟩
        · exact .inl ⟨rfl, rfl⟩
        · exact .inr ⟨v, rfl, hv⟩

theorem splitEq_two {t f v : Text} : splitEq t = [f, v] ↔ t = f ++ '=' :: v ∧ '=' ∉ f ∧ '=' ∉ v := by
  constructor
  · intro h
    obtain ⟨h1, ⟨h2, -⟩ | ⟨w, rfl, hw⟩⟩ := splitEq_parts h
    · cases h2
    · obtain ⟨h3, ⟨-, rfl⟩ | ⟨x, rfl, hx⟩⟩ := splitEq_parts hw
      · exact ⟨rfl, h1, h3⟩
      · exact absurd hx (splitEq_ne x)
  · rintro ⟨rfl, h1, h2⟩
    rw [splitEq_append h1, splitEq_plain h2]

theorem mainFrom_flag (c w : Text) (f : RunFlag) {v : Text} (hv : '=' ∉ v) (rest : List Text) :
    mainFrom c w (f.text v :: rest) = match f with
      | .create => mainFrom v w rest
      | .verbose => mainFrom c v rest := by
  cases f with
  | create =>
    have e : RunFlag.text .create v = '-' :: '-' :: ("create".toList ++ '=' :: v) := rfl
    have hs : splitEq ("create".toList ++ '=' :: v) = ["create".toList, v] := splitEq_two.2 ⟨rfl, by decide, hv⟩
    rw [e, mainFrom]
    rw [if_neg (by simp), if_neg (by simp), if_pos (by simp [List.isPrefixOf])]
    simp only [List.drop_succ_cons, List.drop_zero]
    rw [if_neg (by simp), hs]
    simp only
    rw [if_pos trivial]
  | verbose =>
    have e : RunFlag.text .verbose v = '-' :: '-' :: ("verbose".toList ++ '=' :: v) := rfl
    have hs : splitEq ("verbose".toList ++ '=' :: v) = ["verbose".toList, v] := splitEq_two.2 ⟨rfl, by decide, hv⟩
    rw [e, mainFrom]
    rw [if_neg (by simp), if_neg (by simp), if_pos (by simp [List.isPrefixOf])]
    simp only [List.drop_succ_cons, List.drop_zero]
    rw [if_neg (by simp), hs]
    simp only
    rw [if_neg (by decide), if_pos trivial]

theorem lastOf_cons (p : RunFlag × Text) (t : List (RunFlag × Text)) (f : RunFlag) (d : Text) :
    lastOf (p :: t) f d = lastOf t f (if p.1 = f then p.2 else d) := by
  unfold lastOf
  by_cases h : p.1 = f
  · rw [List.filter_cons_of_pos (by simpa using h), if_pos h, List.getLast?_cons]
    cases (t.filter fun p => p.1 = f).getLast? <;> rfl
  · rw [List.filter_cons_of_neg (by simpa using h), if_neg h]

theorem mainFrom_flags : ∀ (flags : List (RunFlag × Text)) (c w : Text) (rest : List Text), (∀ p ∈ flags, '=' ∉ p.2) →
    mainFrom c w (flags.map (fun p => p.1.text p.2) ++ rest) =
      mainFrom (lastOf flags .create c) (lastOf flags .verbose w) rest
  | [], c, w, rest, _ => rfl
  | p :: t, c, w, rest, h => by
    rw [List.map_cons, List.cons_append, mainFrom_flag c w p.1 (h p List.mem_cons_self)]
    obtain ⟨f, v⟩ := p
    have ht : ∀ p ∈ t, '=' ∉ p.2 := fun p hp => h p (List.mem_cons_of_mem _ hp)
    cases f <;> simp only [lastOf_cons] <;> rw [mainFrom_flags t _ _ rest ht] <;> rfl

/-- an argument that does not lead to the usage text -/
theorem mainFrom_step {c w arg : Text} {rest : List Text} (h : mainFrom c w (arg :: rest) ≠ .usage) :
    arg = "display".toList ∨ arg = "options".toList ∨ ∃ f v, arg = RunFlag.text f v ∧ '=' ∉ v := by
  unfold mainFrom at h
  split_ifs at h with h1 h2 h3
  · exact .inl h1
  · exact .inr (.inl h2)
  · refine .inr (.inr ?_)
    simp only at h
    split_ifs at h with h4
    · exact absurd rfl h
    · split at h
      · next f v hs =>
        obtain ⟨e, -, hv⟩ := splitEq_two.1 hs
        have ha : arg = '-' :: '-' :: arg.drop 2 := by
          obtain ⟨t, rfl⟩ := List.isPrefixOf_iff_prefix.1 h3
          rfl
        rw [e] at ha
        split_ifs at h with h5 h6
        · exact ⟨.create, v, by rw [ha, h5]; rfl, hv⟩
        · exact ⟨.verbose, v, by rw [ha, h6]; rfl, hv⟩
        · exact absurd rfl h
      · exact absurd rfl h
  · exact absurd rfl h

/-- the flags with which a command line begins -/
theorem mainFrom_split : ∀ {argv : List Text} {c w : Text}, mainFrom c w argv ≠ .usage →
    ∃ (flags : List (RunFlag × Text)) (rest : List Text), argv = flags.map (fun p => p.1.text p.2) ++ rest ∧ (∀ p ∈ flags, '=' ∉ p.2) ∧
      (rest = [] ∨ ∃ t, rest = "display".toList :: t ∨ rest = "options".toList :: t)
  | [], c, w, _ => ⟨[], [], rfl, by simp, .inl rfl⟩
  | arg :: t, c, w, h => by
    rcases mainFrom_step h with rfl | rfl | ⟨f, v, rfl, hv⟩
    · exact ⟨[], _, rfl, by simp, .inr ⟨t, .inl rfl⟩⟩
    · exact ⟨[], _, rfl, by simp, .inr ⟨t, .inr rfl⟩⟩
    · rw [mainFrom_flag c w f hv] at h
      have : ∃ c' w', mainFrom c' w' t ≠ .usage := by cases f <;> exact ⟨_, _, h⟩
      obtain ⟨c', w', h'⟩ := this
      obtain ⟨flags, rest, rfl, h1, h2⟩ := mainFrom_split h'
      refine ⟨(f, v) :: flags, rest, rfl, ?_, h2⟩
      intro p hp
      rcases List.mem_cons.1 hp with rfl | hp
      · exact hv
      · exact h1 p hp

theorem end_run {c w : Text} {a b : Bool} : mainFrom c w [] = .run a b ↔ c = yn a ∧ w = yn b := by
  rw [mainFrom]
  constructor
  · intro h
    split_ifs at h with hc
    rw [not_or, not_not, not_not] at hc
    simp only [List.mem_cons, List.not_mem_nil, or_false] at hc
    simp only [Action.run.injEq] at h
    obtain ⟨rfl, rfl⟩ := h
    obtain ⟨h1, h2⟩ := hc
    rcases h1 with rfl | rfl <;> rcases h2 with rfl | rfl <;> exact ⟨by decide, by decide⟩
  · rintro ⟨rfl, rfl⟩
    cases a <;> cases b <;> decide

/-- C99 (running): the tests are run exactly if all arguments are flags and the last values of --create and --verbose,
by default y and n, are y or n.  Earlier values do not count. -/
theorem C99_run (argv : List Text) (create verbose : Bool) : parseArgs argv = .run create verbose ↔
    ∃ flags, FlagArgs flags argv ∧ lastOf flags .create "y".toList = yn create ∧
      lastOf flags .verbose "n".toList = yn verbose := by
  unfold parseArgs
  constructor
  · intro h
    obtain ⟨flags, rest, rfl, h1, h2⟩ := mainFrom_split (by rw [h]; simp)
    rw [mainFrom_flags flags _ _ _ h1] at h
    rcases h2 with rfl | ⟨t, rfl | rfl⟩
    · exact ⟨flags, ⟨by simp, h1⟩, end_run.1 h⟩
    · simp [mainFrom] at h
    · simp [mainFrom] at h
  · rintro ⟨flags, ⟨rfl, h1⟩, h2⟩
    have := mainFrom_flags flags "y".toList "n".toList [] h1
    rw [List.append_nil] at this
    rw [this]
    exact end_run.2 h2

/-- C99 (displays): the tests or the options are displayed exactly if the argument `display` or `options` comes after flags
only; the values of the flags and the arguments behind it do not count. -/
theorem C99_display (argv : List Text) :
    (parseArgs argv = .display ↔ ∃ flags args rest, FlagArgs flags args ∧ argv = args ++ "display".toList :: rest) ∧
    (parseArgs argv = .options ↔ ∃ flags args rest, FlagArgs flags args ∧ argv = args ++ "options".toList :: rest) := by
  have fwd : parseArgs argv ≠ .usage → (∀ a b, parseArgs argv ≠ .run a b) → ∃ flags args rest, FlagArgs flags args ∧
      (argv = args ++ "display".toList :: rest ∧ parseArgs argv = .display ∨
        argv = args ++ "options".toList :: rest ∧ parseArgs argv = .options) := by
    intro h hr
    obtain ⟨flags, rest, rfl, h1, h2⟩ := mainFrom_split h
    unfold parseArgs at hr ⊢
    rw [mainFrom_flags flags _ _ _ h1] at hr ⊢
    rcases h2 with rfl | ⟨t, rfl | rfl⟩
    · exfalso
      unfold parseArgs at h
      rw [mainFrom_flags flags _ _ _ h1] at h
      unfold mainFrom at h hr
      split_ifs at h hr
      · exact absurd rfl h
      · exact hr _ _ rfl
    · exact ⟨flags, _, t, ⟨rfl, h1⟩, .inl ⟨rfl, by simp [mainFrom]⟩⟩
    · exact ⟨flags, _, t, ⟨rfl, h1⟩, .inr ⟨rfl, by simp [mainFrom]⟩⟩
  constructor
  · constructor
    · intro h
      obtain ⟨flags, args, rest, h1, h2 | h2⟩ := fwd (by rw [h]; simp) (by rw [h]; simp)
      · exact ⟨flags, args, rest, h1, h2.1⟩
      · rw [h] at h2; cases h2.2
    · rintro ⟨flags, args, rest, ⟨rfl, h1⟩, rfl⟩
      unfold parseArgs
      rw [mainFrom_flags flags _ _ _ h1]
      simp [mainFrom]
  · constructor
    · intro h
      obtain ⟨flags, args, rest, h1, h2 | h2⟩ := fwd (by rw [h]; simp) (by rw [h]; simp)
      · rw [h] at h2; cases h2.2
      · exact ⟨flags, args, rest, h1, h2.1⟩
    · rintro ⟨flags, args, rest, ⟨rfl, h1⟩, rfl⟩
      unfold parseArgs
      rw [mainFrom_flags flags _ _ _ h1]
      simp [mainFrom]

/-! ### options -/

theorem addValue_keys {d : List (Text × List Text)} (hd : (d.map Prod.fst).Nodup) (o : Text × Text) :
    ((addValue d o).map Prod.fst).Nodup := assocSet_nodup hd _ _

theorem addValue_iff {d : List (Text × List Text)} (hd : (d.map Prod.fst).Nodup) (o : Text × Text) (n v : Text) :
    (∃ vs, (n, vs) ∈ addValue d o ∧ v ∈ vs) ↔ (∃ vs, (n, vs) ∈ d ∧ v ∈ vs) ∨ (n, v) = o := by
  obtain ⟨m, w⟩ := o
  simp only [← lookup_mem (addValue_keys hd _), ← lookup_mem hd]
  unfold addValue
  simp only [assocSet_lookup]
  by_cases h : n = m
  · subst h
    cases hl : d.lookup n with
    | none => simp [List.insert]
    | some vs => simp [or_comm]
  · simp [h]

theorem addChoice_iff : ∀ (o : Options) {d : List (Text × List Text)}, (d.map Prod.fst).Nodup →
    ((o.foldl addValue d).map Prod.fst).Nodup ∧ ∀ n v,
      ((∃ vs, (n, vs) ∈ o.foldl addValue d ∧ v ∈ vs) ↔ (∃ vs, (n, vs) ∈ d ∧ v ∈ vs) ∨ (n, v) ∈ o)
  | [], d, hd => ⟨hd, by simp⟩
  | p :: t, d, hd => by
    obtain ⟨h1, h2⟩ := addChoice_iff t (addValue_keys hd p)
    refine ⟨h1, fun n v => ?_⟩
    rw [List.foldl_cons, h2, addValue_iff hd, List.mem_cons, or_assoc]

theorem addChoices_iff : ∀ (l : List Options) {d : List (Text × List Text)}, (d.map Prod.fst).Nodup → ∀ n v,
    ((∃ vs, (n, vs) ∈ addChoices d l ∧ v ∈ vs) ↔ (∃ vs, (n, vs) ∈ d ∧ v ∈ vs) ∨ ∃ o ∈ l, (n, v) ∈ o)
  | [], d, hd, n, v => by simp [addChoices]
  | o :: t, d, hd, n, v => by
    obtain ⟨h1, h2⟩ := addChoice_iff o hd
    have := addChoices_iff t h1 n v
    unfold addChoices at this ⊢
    rw [List.foldl_cons, this, h2]
    simp only [List.mem_cons, exists_eq_or_imp, or_assoc]

theorem keysetFor_iff (cfg : Config) (op : Operation) (k : Keyset) :
    k ∈ GetGenerateKeysets cfg op.keytype ↔ KeysetFor cfg op k := by
  rw [mem_GetGenerateKeysets]
  unfold KeysetFor
  constructor
  · rintro ⟨a, h1, h2, h3, h4⟩
    refine ⟨a, h1, h2, h3, ?_⟩
    rcases h4 with h | ⟨h, h'⟩
    · exact .inl (h.trans h2.symm)
    · exact .inr ⟨h2.trans h, h'⟩
  · rintro ⟨a, h1, h2, h3, h4⟩
    refine ⟨a, h1, h2, h3, ?_⟩
    rcases h4 with h | ⟨h, h'⟩
    · exact .inl (h.trans h2)
    · exact .inr ⟨h2.symm.trans h, h'⟩

/-- what one key set adds to the tables -/
theorem part_of {cfg : Config} {op : Operation} {k : Keyset} {rs : List (List Options × List Options)}
    (h : (do
      let generate ← OptionsOf cfg op k .generateOptions
      let test ← collect (fun testKeyset => OptionsOf cfg op testKeyset .testOptions) (← GetTestKeysets cfg k)
      return [(generate, test)] : Py (List (List Options × List Options))) = .ok rs) :
    ∃ g tk t, OptionsOf cfg op k .generateOptions = .ok g ∧ GetTestKeysets cfg k = .ok tk ∧
      collect (fun testKeyset => OptionsOf cfg op testKeyset .testOptions) tk = .ok t ∧ rs = [(g, t)] := by
  cases h1 : OptionsOf cfg op k .generateOptions with
  | error e => rw [h1] at h; cases h
  | ok g =>
    cases h2 : GetTestKeysets cfg k with
    | error e => rw [h1, h2] at h; cases h
    | ok tk =>
      cases h3 : collect (fun testKeyset => OptionsOf cfg op testKeyset .testOptions) tk with
      | error e =>
        rw [h1, h2] at h
        simp only [bind, Except.bind] at h
        rw [h3] at h
        cases h
      | ok t =>
        rw [h1, h2] at h
        simp only [bind, Except.bind] at h
        rw [h3] at h
        cases h
        exact ⟨g, tk, t, rfl, rfl, h3, rfl⟩

/-- C99 (options): the tables of `options` show, for each operation, exactly the values that occur in some choice of options
for one of its key sets, whether or not the tests with this choice are ignored. -/
theorem C99_options {cfg : Config} (hd : Dicts cfg) (ho : (cfg.operations.map Prod.fst).Nodup) {gt tt : Table}
    (h : DisplayOptions cfg = .ok (gt, tt)) {op : Text × Operation} (hop : op ∈ cfg.operations) (n v : Text) :
    (Shows gt op.1 n v ↔ GenerateOption cfg op.2 n v) ∧ (Shows tt op.1 n v ↔ TestOption cfg op.2 n v) := by
  unfold DisplayOptions at h
  cases hr : collect (fun operation : Text × Operation => do
    let parts ← collect (fun keyset => do
      let generate ← OptionsOf cfg operation.2 keyset .generateOptions
      let test ← collect (fun testKeyset => OptionsOf cfg operation.2 testKeyset .testOptions)
        (← GetTestKeysets cfg keyset)
      return [(generate, test)]) (GetGenerateKeysets cfg operation.2.keytype)
    if parts = [] then return []
    else return [(operation.1, addChoices [] (parts.flatMap Prod.fst), addChoices [] (parts.flatMap Prod.snd))])
    cfg.operations with
  | error e => rw [hr] at h; cases h
  | ok rows =>
    rw [hr] at h
    simp only [bind, Except.bind, pure, Except.pure, Except.ok.injEq, Prod.mk.injEq] at h
    obtain ⟨rfl, rfl⟩ := h
    obtain ⟨rs, hrs⟩ := collect_parts hr op hop
    -- the rows of this operation are those made for it
    have mine : ∀ d e, (op.1, d, e) ∈ rows ↔ (op.1, d, e) ∈ rs := by
      intro d e
      rw [collect_ok hr]
      constructor
      · rintro ⟨op', h1, rs', h2, h3⟩
        have : op'.1 = op.1 := by
          cases hp : collect (fun keyset => do
              let generate ← OptionsOf cfg op'.2 keyset .generateOptions
              let test ← collect (fun testKeyset => OptionsOf cfg op'.2 testKeyset .testOptions)
                (← GetTestKeysets cfg keyset)
              return [(generate, test)]) (GetGenerateKeysets cfg op'.2.keytype) with
          | error e => rw [hp] at h2; cases h2
          | ok parts =>
            rw [hp] at h2
            simp only [bind, Except.bind, pure, Except.pure] at h2
            split_ifs at h2
            · cases h2; cases h3
            · cases h2
              simp only [List.mem_singleton, Prod.mk.injEq] at h3
              exact h3.1.symm
        have : op' = op := by
          have e1 := (lookup_mem ho).2 (show (op'.1, op'.2) ∈ cfg.operations from h1)
          have e2 := (lookup_mem ho).2 (show (op.1, op.2) ∈ cfg.operations from hop)
          rw [this, e2] at e1
          exact Prod.ext this (Option.some.inj e1).symm
        subst this
        rw [hrs] at h2
        cases h2
        exact h3
      · exact fun h3 => ⟨op, hop, rs, hrs, h3⟩
    cases hp : collect (fun keyset => do
        let generate ← OptionsOf cfg op.2 keyset .generateOptions
        let test ← collect (fun testKeyset => OptionsOf cfg op.2 testKeyset .testOptions)
          (← GetTestKeysets cfg keyset)
        return [(generate, test)]) (GetGenerateKeysets cfg op.2.keytype) with
    | error e => rw [hp] at hrs; cases hrs
    | ok parts =>
      rw [hp] at hrs
      have gen : (∃ c ∈ parts.flatMap Prod.fst, (n, v) ∈ c) ↔ GenerateOption cfg op.2 n v := by
        constructor
        · rintro ⟨c, hc, hv⟩
          obtain ⟨p, hp1, hp2⟩ := List.mem_flatMap.1 hc
          obtain ⟨k, hk, rs', h1, h2⟩ := (collect_ok hp p).1 hp1
          obtain ⟨g, tk, t, e1, -, -, rfl⟩ := part_of h1
          obtain rfl := List.mem_singleton.1 h2
          obtain ⟨o, e2⟩ := OptionsOf_keySet e1
          have hm := (lookup_mem hd.keySetOptions).1 e2
          exact ⟨k, o, c, (keysetFor_iff cfg op.2 k).1 hk, hm,
            (mem_OptionsOf e1 e2 (hd.ofKeySet _ hm).1 (hd.ofOperation _ hop).1 c).1 hp2, hv⟩
        · rintro ⟨k, o, c, h1, hm, h2, hv⟩
          have hk := (keysetFor_iff cfg op.2 k).2 h1
          obtain ⟨rs', h3⟩ := collect_parts hp k hk
          obtain ⟨g, tk, t, e1, -, -, rfl⟩ := part_of h3
          have e2 := (lookup_mem hd.keySetOptions).2 hm
          exact ⟨c, List.mem_flatMap.2 ⟨(g, t), (collect_ok hp _).2 ⟨k, hk, _, h3, List.mem_singleton.2 rfl⟩,
            (mem_OptionsOf e1 e2 (hd.ofKeySet _ hm).1 (hd.ofOperation _ hop).1 c).2 h2⟩, hv⟩
      have tst : (∃ c ∈ parts.flatMap Prod.snd, (n, v) ∈ c) ↔ TestOption cfg op.2 n v := by
        constructor
        · rintro ⟨c, hc, hv⟩
          obtain ⟨p, hp1, hp2⟩ := List.mem_flatMap.1 hc
          obtain ⟨k, hk, rs', h1, h2⟩ := (collect_ok hp p).1 hp1
          obtain ⟨g, tk, t, -, e1, e3, rfl⟩ := part_of h1
          obtain rfl := List.mem_singleton.1 h2
          obtain ⟨k', hk', r, e4, h4⟩ := (collect_ok e3 c).1 hp2
          obtain ⟨o, e2⟩ := OptionsOf_keySet e4
          have hm := (lookup_mem hd.keySetOptions).1 e2
          exact ⟨k, k'.purpose, o, c, (keysetFor_iff cfg op.2 k).1 hk, ((mem_GetTestKeysets hd.algorithms e1 k').1 hk').2.2, hm,
            (mem_OptionsOf e4 e2 (hd.ofKeySet _ hm).2 (hd.ofOperation _ hop).2 c).1 h4, hv⟩
        · rintro ⟨k, q, o, c, h1, hq, hm, h2, hv⟩
          have hk := (keysetFor_iff cfg op.2 k).2 h1
          obtain ⟨rs', h3⟩ := collect_parts hp k hk
          obtain ⟨g, tk, t, -, e1, e3, rfl⟩ := part_of h3
          have hk' : { k with purpose := q } ∈ tk := (mem_GetTestKeysets hd.algorithms e1 _).2 ⟨rfl, rfl, hq⟩
          obtain ⟨r, e4⟩ := collect_parts e3 _ hk'
          have e2 := (lookup_mem hd.keySetOptions).2 hm
          exact ⟨c, List.mem_flatMap.2 ⟨(g, t), (collect_ok hp _).2 ⟨k, hk, _, h3, List.mem_singleton.2 rfl⟩,
            (collect_ok e3 c).2 ⟨_, hk', r, e4,
              (mem_OptionsOf e4 e2 (hd.ofKeySet _ hm).2 (hd.ofOperation _ hop).2 c).2 h2⟩⟩, hv⟩
      have rows' : ∀ d e, (op.1, d, e) ∈ rows ↔ parts ≠ [] ∧ d = addChoices [] (parts.flatMap Prod.fst) ∧
          e = addChoices [] (parts.flatMap Prod.snd) := by
        intro d e
        rw [mine]
        simp only [bind, Except.bind, pure, Except.pure] at hrs
        split_ifs at hrs with hn
        · cases hrs; simp [hn]
        · cases hrs; simp [hn]
      have shows : ∀ {ps : List Options} (f : Text × List (Text × List Text) × List (Text × List Text) →
          Text × List (Text × List Text)), (∀ d, (op.1, d) ∈ rows.map f ↔ parts ≠ [] ∧ d = addChoices [] ps) →
          (parts = [] → ps = []) → (Shows (rows.map f) op.1 n v ↔ ∃ c ∈ ps, (n, v) ∈ c) := by
        intro ps f hf hps
        have := addChoices_iff ps (d := []) (by simp) n v
        simp only [List.not_mem_nil, false_and, exists_false, false_or] at this
        rw [← this]
        unfold Shows
        constructor
        · rintro ⟨d, vs, h1, h2, h3⟩
          rw [((hf d).1 h1).2] at h2
          exact ⟨vs, h2, h3⟩
        · rintro ⟨vs, h2, h3⟩
          refine ⟨_, vs, (hf _).2 ⟨?_, rfl⟩, h2, h3⟩
          intro hn
          rw [hps hn] at h2
          cases h2
      constructor
      · rw [shows _ ?_ ?_, gen]
        · intro d
          simp only [List.mem_map, Prod.mk.injEq, Prod.exists]
          constructor
          · rintro ⟨a, b, c, h1, rfl, rfl⟩
            have := (rows' _ _).1 h1
            exact ⟨this.1, this.2.1⟩
          · rintro ⟨h1, rfl⟩
            exact ⟨op.1, _, _, (rows' _ _).2 ⟨h1, rfl, rfl⟩, rfl, rfl⟩
        · rintro rfl; rfl
      · rw [shows _ ?_ ?_, tst]
        · intro d
          simp only [List.mem_map, Prod.mk.injEq, Prod.exists]
          constructor
          · rintro ⟨a, b, c, h1, rfl, rfl⟩
            have := (rows' _ _).1 h1
            exact ⟨this.1, this.2.2⟩
          · rintro ⟨h1, rfl⟩
            exact ⟨op.1, _, _, (rows' _ _).2 ⟨h1, rfl, rfl⟩, rfl, rfl⟩
        · rintro rfl; rfl

/-- C99: every option of a planned call and of a planned test is shown. -/
theorem C99_shown {cfg : Config} (hd : Dicts cfg) (ho : (cfg.operations.map Prod.fst).Nodup) {gt tt : Table}
    (h : DisplayOptions cfg = .ok (gt, tt)) {g : Planned} (hg : IsCall cfg g) {n v : Text} :
    ((n, v) ∈ g.options → Shows gt g.operation.1 n v) ∧
    ∀ r, IsTest cfg g r → (n, v) ∈ r.2 → Shows tt g.operation.1 n v := by
  obtain ⟨o, h1, h2⟩ := hg.options
  refine ⟨fun hv => (C99_options hd ho h hg.operation n v).1.2 ⟨g.keyset, o, g.options, hg.keyset, h1, h2, hv⟩, ?_⟩
  intro r hr hv
  obtain ⟨p, o', q1, q2, q3⟩ := hr.options
  exact (C99_options hd ho h hg.operation n v).2.2 ⟨g.keyset, p, o', r.2, hg.keyset, q1, q2, q3, hv⟩

/-! ### exit status -/

theorem callAll_ok {create : Nat → Creation → Py Bytes} : ∀ {l : List Creation} {n : Nat},
    callAll create n l = .ok () ↔ ∀ i c, l[i]? = some c → ∃ out, create (n + i) c = .ok out
  | [], n => by simp [callAll]
  | c :: t, n => by
    cases h : create n c with
    | error e =>
      constructor
      · intro h'
        simp only [callAll, h, bind, Except.bind] at h'
        cases h'
      · intro h'
        obtain ⟨out, ho⟩ := h' 0 c rfl
        rw [Nat.add_zero, h] at ho
        cases ho
    | ok out =>
      have e : callAll create n (c :: t) = callAll create (n + 1) t := by
        simp only [callAll, h, bind, Except.bind]
      rw [e, callAll_ok]
      constructor
      · intro h' i d hi
        cases i with
        | zero =>
          simp only [List.getElem?_cons_zero, Option.some.injEq] at hi
          subst hi
          exact ⟨out, h⟩
        | succ i =>
          obtain ⟨o, ho⟩ := h' i d (by simpa using hi)
          exact ⟨o, by rw [show n + (i + 1) = n + 1 + i by omega]; exact ho⟩
      · intro h' i d hi
        obtain ⟨o, ho⟩ := h' (i + 1) d (by simpa using hi)
        exact ⟨o, by rw [show n + 1 + i = n + (i + 1) by omega]; exact ho⟩

variable {cfg : Config} {create : Nat → Creation → Py Bytes} {generate : Nat → Planned → Py Bytes}

/-- C99 (status): the exit status is 0 or 1, and it is the same whatever the tests say. -/
theorem C99_blind (test test' : Test → Bool) (argv : List Text) :
    (program cfg create generate test argv).status = (program cfg create generate test' argv).status ∧
    (program cfg create generate test argv).status ≤ 1 := by
  unfold program
  split
  · exact ⟨rfl, Nat.le_refl _⟩
  · split <;> exact ⟨rfl, by decide⟩
  · split <;> exact ⟨rfl, by decide⟩
  · split
    · exact ⟨rfl, Nat.le_refl _⟩
    · split <;> exact ⟨rfl, by simp⟩

/-- C99 (status): for a command line that runs the tests, the status is 0 exactly if all creations, unless switched off, and
all calls for an output are answered and planning raises no exception; then every test that was set up has run, with its
result. -/
theorem C99_status (test : Test → Bool) {argv : List Text} {c v : Bool} (ha : parseArgs argv = .run c v) :
    ((program cfg create generate test argv).status = 0 ↔
      (c = true → Answered create (CreateKeys cfg)) ∧ ∃ ts, RunTests cfg generate = .ok ts) ∧
    ∀ ts, (c = true → Answered create (CreateKeys cfg)) → RunTests cfg generate = .ok ts →
      (program cfg create generate test argv).results = ts.map fun t => (t.1, test t.2) := by
  have hc : (∃ u, (if c = true then callAll create 0 (CreateKeys cfg) else .ok ()) = .ok u) ↔
      (c = true → Answered create (CreateKeys cfg)) := by
    cases c with
    | false => simp
    | true =>
      simp only [if_true, true_imp_iff]
      have := callAll_ok (create := create) (l := CreateKeys cfg) (n := 0)
      simp only [Nat.zero_add] at this
      unfold Answered
      rw [← this]
      exact ⟨fun ⟨u, h⟩ => h, fun h => ⟨_, h⟩⟩
  rw [← hc]
  unfold program
  rw [ha]
  simp only
  cases h1 : (if c = true then callAll create 0 (CreateKeys cfg) else .ok ()) with
  | error e => simp
  | ok u =>
    cases h2 : RunTests cfg generate with
    | error e => simp
    | ok ts => simp

/-- C99 (status): with the shipped configuration and Python 3, if the calls are answered, every planned test is run, and
the status is 0 even if each of them fails. -/
theorem C99_unreported (hc : Answered create (CreateKeys (shipped true)))
    (hg : ∀ n g, IsCall (shipped true) g → ∃ out, generate n g = .ok out) (test : Test → Bool) :
    (program (shipped true) create generate test []).status = 0 ∧
    ∀ g r, IsCall (shipped true) g → IsTest (shipped true) g r →
      ∃ out, ((g.test out r).name, test (g.test out r)) ∈ (program (shipped true) create generate test []).results := by
  obtain ⟨ts, h1, h2⟩ := C97_shipped hg
  have ha : parseArgs [] = .run true false := by decide
  obtain ⟨h3, h4⟩ := C99_status (cfg := shipped true) (create := create) (generate := generate) test ha
  refine ⟨h3.2 ⟨fun _ => hc, ts, h1⟩, fun g r hg hr => ?_⟩
  obtain ⟨n, g', out, -, -, -, -, -, -, hm⟩ := h2 g r hg hr
  rw [h4 ts (fun _ => hc) h1]
  exact ⟨out, List.mem_map.2 ⟨_, hm, rfl⟩⟩

/-! ### instances -/

namespace ExMain

/-- C99_run: a wrong value that is given before a right one does not matter -/
example : parseArgs ["--create=maybe".toList, "--verbose=y".toList, "--create=n".toList] = .run false true ∧
    FlagArgs [(.create, "maybe".toList), (.verbose, "y".toList), (.create, "n".toList)]
      ["--create=maybe".toList, "--verbose=y".toList, "--create=n".toList] :=
  ⟨by decide, rfl, by decide⟩
example : parseArgs ["--create=maybe".toList] = .usage ∧ parseArgs ["--create".toList] = .usage ∧
    parseArgs ["-create=y".toList] = .usage ∧ parseArgs ["--create=y=n".toList] = .usage ∧
    parseArgs ["--help".toList, "display".toList] = .usage := by decide

/-- C99_display -/
example : parseArgs ["--create=maybe".toList, "display".toList, "what".toList] = .display := by decide

def showsIn (t : Table) (op n v : Text) : Bool :=
  t.any fun e => decide (e.1 = op) && e.2.any fun d => decide (d.1 = n) && decide (v ∈ d.2)

/-- C99_options, C99_shown: the shipped configuration; `options` shows the signer rsa-sign1024 for sessions -/
theorem options_shipped : (match DisplayOptions (shipped true) with
    | .error _ => false
    | .ok (g, t) => showsIn g "signedSession".toList "signer".toList "rsa-sign1024".toList &&
      showsIn t "sign".toList "class".toList "verifier".toList && decide (g.length = 5) && decide (t.length = 5)) = true := by
  decide +kernel
example : Dicts (shipped true) ∧ ((shipped true).operations.map Prod.fst).Nodup := ⟨shipped_dicts true, by decide⟩

def answer {α} (_ : Nat) (_ : α) : Py Bytes := .ok []

/-- C99_unreported: all calls are answered, all tests fail, and the status is 0 -/
example : (program (shipped true) answer answer (fun _ => false) []).status = 0 :=
  (C99_unreported (fun _ _ _ => ⟨[], rfl⟩) (fun _ _ _ => ⟨[], rfl⟩) _).1

end ExMain

end Verif.Props
