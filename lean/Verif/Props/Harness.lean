import Verif.Lemmas.Harness
import Verif.Model.Interop
/-
C97: which interoperability tests interop/interop.py runs.
-/
namespace Verif.Props
open Verif Spec Harness

/-- C97: `_GenerateAll` plans exactly the calls that `IsCall` describes: every implementation, every operation, every key
set for its purpose (for encryption also the public part), every choice of one value for each option, except those that an
entry of ignoredTests.json covers. -/
theorem C97_calls {cfg : Config} (hd : Dicts cfg) {l : List Planned} (h : GenerateAll cfg = .ok l) (g : Planned) :
    g ∈ l ↔ IsCall cfg g := by
  unfold GenerateAll at h
  rw [collect_ok h]
  constructor
  · rintro ⟨i, hi, r1, h1, hg1⟩
    obtain ⟨o, ho, r2, h2, hg2⟩ := (collect_ok h1 g).1 hg1
    obtain ⟨k, hk, r3, h3, hg3⟩ := (collect_ok h2 g).1 hg2
    cases hl : OptionsOf cfg o.2 k .generateOptions with
    | error e => rw [hl] at h3; cases h3
    | ok os =>
      rw [hl] at h3
      simp only [bind, Except.bind, pure, Except.pure, Except.ok.injEq] at h3
      subst h3
      simp only [List.mem_map, List.mem_filter, Bool.not_eq_true'] at hg3
      obtain ⟨x, ⟨hx, hex⟩, rfl⟩ := hg3
      obtain ⟨ks, hks⟩ := OptionsOf_keySet hl
      have hm := (lookup_mem hd.keySetOptions).1 hks
      obtain ⟨a, h4, h5, h6, h7⟩ := (mem_GetGenerateKeysets cfg _ _).1 hk
      refine ⟨hi, ho, ⟨a, h4, h5, h6, ?_⟩, ⟨ks, hm, ?_⟩, ?_⟩
      · rcases h7 with h7 | ⟨h7, h8, h9⟩
        · exact Or.inl (h7.trans h5.symm)
        · exact Or.inr ⟨h5.trans h7, h8, h9⟩
      · exact (mem_OptionsOf hl hks (hd.ofKeySet _ hm).1 (hd.ofOperation _ ho).1 x).1 hx
      · intro hi'
        have := (IsException_iff cfg i o.1 k.name x).2 hi'
        rw [hex] at this; cases this
  · rintro ⟨h1, h2, ⟨a, h3, h4, h5, h6⟩, ⟨ks, h7, h8⟩, h9⟩
    obtain ⟨r1, hr1⟩ := collect_parts h _ h1
    obtain ⟨r2, hr2⟩ := collect_parts hr1 _ h2
    have hk : g.keyset ∈ GetGenerateKeysets cfg g.operation.2.keytype := by
      refine (mem_GetGenerateKeysets cfg _ _).2 ⟨a, h3, h4, h5, ?_⟩
      rcases h6 with h6 | ⟨h6, h10, h11⟩
      · exact Or.inl (h6.trans h4)
      · exact Or.inr ⟨h4.symm.trans h6, h10, h11⟩
    obtain ⟨r3, hr3⟩ := collect_parts hr2 _ hk
    refine ⟨_, h1, r1, hr1, (collect_ok hr1 g).2 ⟨_, h2, r2, hr2, (collect_ok hr2 g).2 ⟨_, hk, r3, hr3, ?_⟩⟩⟩
    have hks := (lookup_mem hd.keySetOptions).2 h7
    cases hl : OptionsOf cfg g.operation.2 g.keyset .generateOptions with
    | error e => rw [hl] at hr3; cases hr3
    | ok os =>
      rw [hl] at hr3
      simp only [bind, Except.bind, pure, Except.pure, Except.ok.injEq] at hr3
      subst hr3
      refine List.mem_map.2 ⟨g.options, List.mem_filter.2 ⟨?_, ?_⟩, rfl⟩
      · exact (mem_OptionsOf hl hks (hd.ofKeySet _ h7).1 (hd.ofOperation _ h2).1 _).2 h8
      · rw [Bool.not_eq_true', Bool.eq_false_iff]
        exact fun e => h9 ((IsException_iff cfg _ _ _ _).1 e)

/-- C97: `_TestAll` plans exactly the tests that `IsTest` describes. -/
theorem C97_tests {cfg : Config} (hd : Dicts cfg) {g : Planned} (ho : g.operation ∈ cfg.operations)
    (hg : (g.options.map Prod.fst).Nodup) {l : List (Text × Options)}
    (h : TestAll cfg g.operation.1 g.operation.2 g.keyset g.options = .ok l) (r : Text × Options) :
    r ∈ l ↔ IsTest cfg g r := by
  have nodup : ∀ {p o x}, (p, o) ∈ cfg.keySetOptions → Choice cfg o.testOptions g.operation.2.testOptions x →
      (x.map Prod.fst).Nodup := by
    intro p o x hm hx
    rw [hx.1]
    have := dictOf_nodup (hd.ofKeySet _ hm).2 (hd.ofOperation _ ho).2
    rwa [dictOf_keys (hd.ofKeySet _ hm).2 (hd.ofOperation _ ho).2] at this
  have look : ∀ {x : Options}, (x.map Prod.fst).Nodup →
      (fun n => (dictOf (x ++ g.options)).lookup n) = fun n => (g.options.lookup n).or (x.lookup n) :=
    fun hx => funext fun n => dictOf_lookup hx hg n
  unfold TestAll at h
  rw [collect_ok h]
  constructor
  · rintro ⟨i, hi, r1, h1, hg1⟩
    cases ht : GetTestKeysets cfg g.keyset with
    | error e => rw [ht] at h1; cases h1
    | ok tk =>
      rw [ht] at h1
      obtain ⟨k, hk, r3, h3, hg3⟩ := (collect_ok h1 r).1 hg1
      cases hl : OptionsOf cfg g.operation.2 k .testOptions with
      | error e => rw [hl] at h3; cases h3
      | ok os =>
        rw [hl] at h3
        simp only [bind, Except.bind, pure, Except.pure, Except.ok.injEq] at h3
        subst h3
        simp only [List.mem_map, List.mem_filter, Bool.not_eq_true'] at hg3
        obtain ⟨x, ⟨hx, hex⟩, rfl⟩ := hg3
        obtain ⟨ks, hks⟩ := OptionsOf_keySet hl
        have hm := (lookup_mem hd.keySetOptions).1 hks
        have hc := (mem_OptionsOf hl hks (hd.ofKeySet _ hm).2 (hd.ofOperation _ ho).2 x).1 hx
        refine ⟨hi, ⟨k.purpose, ks, ((mem_GetTestKeysets hd.algorithms ht k).1 hk).2.2, hm, hc⟩, ?_⟩
        intro hi'
        rw [← look (nodup hm hc)] at hi'
        have := (IsException_iff cfg i g.operation.1 g.keyset.name _).2 hi'
        rw [hex] at this; cases this
  · rintro ⟨h1, ⟨p, ks, h2, h3, h4⟩, h5⟩
    obtain ⟨r1, hr1⟩ := collect_parts h _ h1
    refine ⟨_, h1, r1, hr1, ?_⟩
    cases ht : GetTestKeysets cfg g.keyset with
    | error e => rw [ht] at hr1; cases hr1
    | ok tk =>
      rw [ht] at hr1
      have hk : { g.keyset with purpose := p } ∈ tk := (mem_GetTestKeysets hd.algorithms ht _).2 ⟨rfl, rfl, h2⟩
      obtain ⟨r3, hr3⟩ := collect_parts hr1 _ hk
      refine (collect_ok hr1 r).2 ⟨_, hk, r3, hr3, ?_⟩
      have hks := (lookup_mem hd.keySetOptions).2 h3
      cases hl : OptionsOf cfg g.operation.2 { g.keyset with purpose := p } .testOptions with
      | error e => rw [hl] at hr3; cases hr3
      | ok os =>
        rw [hl] at hr3
        simp only [bind, Except.bind, pure, Except.pure, Except.ok.injEq] at hr3
        subst hr3
        refine List.mem_map.2 ⟨r.2, List.mem_filter.2 ⟨?_, ?_⟩, rfl⟩
        · exact (mem_OptionsOf hl hks (hd.ofKeySet _ h3).2 (hd.ofOperation _ ho).2 _).2 h4
        · rw [Bool.not_eq_true', Bool.eq_false_iff]
          intro e
          refine h5 ?_
          rw [← look (nodup h3 h4)]
          exact (IsException_iff cfg _ _ _ _).1 e

theorem setupFrom_iff {cfg : Config} {generate : Nat → Planned → Py Bytes} : ∀ {l : List Planned} {n : Nat}
    {d ts : List (Text × Test)}, setupFrom cfg generate n l d = .ok ts ↔
      (∀ i g, l[i]? = some g → ∃ out rs, generate (n + i) g = .ok out ∧
        TestAll cfg g.operation.1 g.operation.2 g.keyset g.options = .ok rs) ∧
      ts = (allTests cfg generate l n).foldl (fun d t => assocSet d t.name t) d
  | [], n, d, ts => by
    simp only [setupFrom, Except.ok.injEq, allTests, List.zipIdx_nil, List.flatMap_nil, List.foldl_nil]
    constructor
    · rintro rfl; simp
    · exact fun h => h.2.symm
  | g :: l, n, d, ts => by
    simp only [setupFrom, bind, Except.bind]
    cases hg : generate n g with
    | error e =>
      constructor
      · intro h; cases h
      · rintro ⟨h, -⟩
        obtain ⟨out, rs, h1, -⟩ := h 0 g rfl
        rw [Nat.add_zero, hg] at h1; cases h1
    | ok out =>
      cases ht : TestAll cfg g.operation.1 g.operation.2 g.keyset g.options with
      | error e =>
        constructor
        · intro h; cases h
        · rintro ⟨h, -⟩
          obtain ⟨out, rs, -, h1⟩ := h 0 g rfl
          rw [ht] at h1; cases h1
      | ok rs =>
        simp only
        rw [setupFrom_iff]
        have hall : allTests cfg generate (g :: l) n = rs.map (g.test out) ++ allTests cfg generate l (n + 1) := by
          simp only [allTests, List.zipIdx_cons, List.flatMap_cons, hg, ht]
        rw [hall, List.foldl_append, List.foldl_map]
        refine and_congr_left fun _ => ?_
        constructor
        · intro h i g' hi
          cases i with
          | zero =>
            simp only [List.getElem?_cons_zero, Option.some.injEq] at hi
            subst hi
            exact ⟨out, rs, hg, ht⟩
          | succ i =>
            obtain ⟨o, r, h1, h2⟩ := h i g' (by simpa using hi)
            exact ⟨o, r, by rw [show n + (i + 1) = n + 1 + i by omega]; exact h1, h2⟩
        · intro h i g' hi
          obtain ⟨o, r, h1, h2⟩ := h (i + 1) g' (by simpa using hi)
          exact ⟨o, r, by rw [show n + 1 + i = n + (i + 1) by omega]; exact h1, h2⟩

/-- C97: the tests run.  There are any only if every call of an implementation succeeds; then the test run under a name is
the last planned test with that name, so of several tests with one name all but the last are left out without a word. -/
theorem C97_runs {cfg : Config} {generate : Nat → Planned → Py Bytes} {ts : List (Text × Test)} :
    RunTests cfg generate = .ok ts ↔ ∃ l, GenerateAll cfg = .ok l ∧
      (∀ i g, l[i]? = some g → ∃ out rs, generate i g = .ok out ∧
        TestAll cfg g.operation.1 g.operation.2 g.keyset g.options = .ok rs) ∧
      ts = (allTests cfg generate l).foldl (fun d t => assocSet d t.name t) [] := by
  simp only [RunTests, bind, Except.bind]
  cases h : GenerateAll cfg with
  | error e => simp
  | ok l =>
    simp only [Except.ok.injEq, exists_eq_left']
    rw [setupFrom_iff]
    simp only [Nat.zero_add]

/-- C97: under each name the last planned test with it is run, and nothing else is run. -/
theorem C97_last {cfg : Config} {generate : Nat → Planned → Py Bytes} {ts : List (Text × Test)}
    (h : RunTests cfg generate = .ok ts) {l : List Planned} (hl : GenerateAll cfg = .ok l) (n : Text) (t : Test) :
    (ts.map Prod.fst).Nodup ∧ ((n, t) ∈ ts ↔ t.name = n ∧ LastNamed (allTests cfg generate l) t) := by
  obtain ⟨l', h1, -, rfl⟩ := C97_runs.1 h
  rw [hl] at h1
  obtain rfl := Except.ok.inj h1
  have hn := foldl_tests_nodup (allTests cfg generate l) (d := []) (by simp)
  refine ⟨hn, ?_⟩
  rw [← lookup_mem hn, foldl_tests]
  simp only [List.lookup_nil, Option.or_none]
  exact find_last

/-- C97: a test that comes before another one with the same name is never run. -/
theorem C97_lost {cfg : Config} {generate : Nat → Planned → Py Bytes} {ts : List (Text × Test)}
    (h : RunTests cfg generate = .ok ts) {l : List Planned} (hl : GenerateAll cfg = .ok l) {t u : Test}
    (hn : t.name = u.name) (hne : t ≠ u) {before between after : List Test}
    (ha : allTests cfg generate l = before ++ t :: between ++ u :: after) (hat : t ∉ after) : ∀ n, (n, t) ∉ ts := by
  intro n hm
  obtain ⟨-, b, a, hb, hlast⟩ := ((C97_last h hl n t).2).1 hm
  rw [ha, List.append_assoc] at hb
  rcases List.append_eq_append_iff.1 hb with ⟨x, rfl, hx⟩ | ⟨x, rfl, hx⟩
  · -- `t` stands at or after the given place
    cases x with
    | nil =>
      simp only [List.nil_append, List.cons_append, List.cons.injEq, true_and] at hx
      exact hlast u (by rw [← hx]; simp) hn.symm
    | cons y x =>
      simp only [List.cons_append, List.cons.injEq] at hx
      obtain ⟨rfl, hx⟩ := hx
      rcases List.append_eq_append_iff.1 hx with ⟨z, rfl, hz⟩ | ⟨z, rfl, hz⟩
      · cases z with
        | nil => simp only [List.nil_append, List.cons.injEq] at hz; exact hne hz.1.symm
        | cons w z =>
          simp only [List.cons_append, List.cons.injEq] at hz
          exact hat (by rw [hz.2]; simp)
      · cases z with
        | nil => simp only [List.nil_append, List.cons.injEq] at hz; exact hne hz.1
        | cons w z =>
          simp only [List.cons_append, List.cons.injEq] at hz
          exact hlast u (by rw [hz.2]; simp) hn.symm
  · cases x with
    | nil =>
      simp only [List.nil_append, List.cons_append, List.cons.injEq, true_and] at hx
      exact hlast u (by rw [hx]; simp) hn.symm
    | cons y x =>
      simp only [List.cons_append, List.cons.injEq] at hx
      exact hlast u (by rw [hx.2]; simp) hn.symm

/-- C97: one call that fails, of any implementation, and no test at all is run. -/
theorem C97_one_failure {cfg : Config} {generate : Nat → Planned → Py Bytes} {l : List Planned}
    (hl : GenerateAll cfg = .ok l) {i : Nat} {g : Planned} (hi : l[i]? = some g) {e : PyErr} (he : generate i g = .error e) :
    ∃ e', RunTests cfg generate = .error e' := by
  cases h : RunTests cfg generate with
  | error e' => exact ⟨e', rfl⟩
  | ok ts =>
    obtain ⟨l', h1, h2, -⟩ := C97_runs.1 h
    rw [hl] at h1
    obtain rfl := Except.ok.inj h1
    obtain ⟨out, rs, h3, -⟩ := h2 i g hi
    rw [he] at h3; cases h3

theorem name_eq (t : Test) : t.name = "test_".toList ++ (t.tester ++ '_' :: ("generated_by_".toList ++ (t.generator ++
    '_' :: (t.operation ++ '_' :: (t.algorithm ++ '_' :: (join (t.generateOptions.map Prod.snd) ++
      '_' :: join (t.testOptions.map Prod.snd))))))) := by
  have e : "_generated_by_".toList = '_' :: "generated_by_".toList := by decide +kernel
  unfold Test.name
  rw [e]
  generalize "test_".toList = a
  generalize "generated_by_".toList = b
  simp

/-- C97: two tests of which neither has an underscore in a name or value, and with the same number of options if they are
of the same operation, have the same name only if they agree in everything the name shows. -/
theorem C97_names {t u : Test} (h : t.name = u.name)
    (ht : ∀ s ∈ [t.tester, t.generator, t.operation, t.algorithm] ++ t.generateOptions.map Prod.snd ++
      t.testOptions.map Prod.snd, '_' ∉ s)
    (hu : ∀ s ∈ [u.tester, u.generator, u.operation, u.algorithm] ++ u.generateOptions.map Prod.snd ++
      u.testOptions.map Prod.snd, '_' ∉ s)
    (hl : t.operation = u.operation → t.generateOptions.length = u.generateOptions.length ∧
      t.testOptions.length = u.testOptions.length) :
    t.tester = u.tester ∧ t.generator = u.generator ∧ t.operation = u.operation ∧ t.algorithm = u.algorithm ∧
      t.generateOptions.map Prod.snd = u.generateOptions.map Prod.snd ∧
      t.testOptions.map Prod.snd = u.testOptions.map Prod.snd := by
  rw [name_eq, name_eq] at h
  have h := List.append_cancel_left h
  obtain ⟨a1, h⟩ := split_underscore (ht t.tester (by simp)) (hu u.tester (by simp)) h
  have h := List.append_cancel_left h
  obtain ⟨a2, h⟩ := split_underscore (ht t.generator (by simp)) (hu u.generator (by simp)) h
  obtain ⟨a3, h⟩ := split_underscore (ht t.operation (by simp)) (hu u.operation (by simp)) h
  obtain ⟨a4, h⟩ := split_underscore (ht t.algorithm (by simp)) (hu u.algorithm (by simp)) h
  obtain ⟨l1, l2⟩ := hl a3
  obtain ⟨a5, h⟩ := split_join (fun s hs => ht s (List.mem_append_left _ (List.mem_append_right _ hs)))
    (fun s hs => hu s (List.mem_append_left _ (List.mem_append_right _ hs))) (by simpa using l1) h
  exact ⟨a1, a2, a3, a4, a5, join_inj (fun s hs => ht s (List.mem_append_right _ hs))
    (fun s hs => hu s (List.mem_append_right _ hs)) (by simpa using l2) h⟩

/-- the values of a tame configuration have no underscore -/
theorem choice_plain {cfg : Config} {gn tn : Text → List Text} (ht : Tame cfg gn tn) {a b : OptionTable}
    (ha : ∀ e ∈ a, NoUnderscore e.2) (hb : ∀ e ∈ b, NoUnderscore e.2)
    {o : Options} (ho : Choice cfg a b o) : ∀ s ∈ o.map Prod.snd, '_' ∉ s := by
  intro s hs
  obtain ⟨⟨n, v⟩, hm, rfl⟩ := List.mem_map.1 hs
  obtain ⟨l, hl, hv⟩ := ho.2 n v hm
  have hp : NoUnderscore l := by
    rcases hl with hl | ⟨-, hl⟩
    · exact hb _ hl
    · exact ha _ hl
  cases l with
  | list vs => exact hp v hv
  | text t =>
    simp only [Means, ht.isStr, if_true] at hv
    obtain ⟨-, a, h1, -, s, -, rfl⟩ := hv
    simp only [List.mem_append, not_or]
    exact ⟨ht.algorithms a h1, Nat.underscore_not_in_toDigits⟩

/-- In a configuration without underscores, and in which the options of an operation do not depend on the purpose of the key
set, two planned tests with the same name have the same arguments, up to the output tested. -/
theorem same_arguments {cfg : Config} (hd : Dicts cfg) {gn tn : Text → List Text} (ht : Tame cfg gn tn) {g g' : Planned}
    (hg : IsCall cfg g) (hg' : IsCall cfg g') {r r' : Text × Options} (hr : IsTest cfg g r) (hr' : IsTest cfg g' r')
    {o o' : Bytes} (hn : (g.test o r).name = (g'.test o' r').name) :
    g.implementation = g'.implementation ∧ g.operation.1 = g'.operation.1 ∧ g.keyset.name = g'.keyset.name ∧
      g.options = g'.options ∧ r = r' := by
  have key : ∀ {g : Planned} {r : Text × Options} {o : Bytes}, IsCall cfg g → IsTest cfg g r →
      (∀ s ∈ [(g.test o r).tester, (g.test o r).generator, (g.test o r).operation, (g.test o r).algorithm] ++
        (g.test o r).generateOptions.map Prod.snd ++ (g.test o r).testOptions.map Prod.snd, '_' ∉ s) ∧
      g.options.map Prod.fst = gn g.operation.1 ∧ r.2.map Prod.fst = tn g.operation.1 := by
    intro g r o hg hr
    obtain ⟨c1, c2, ⟨a, c3, c4, c5, c6⟩, ⟨ks, c7, c8⟩, -⟩ := hg
    obtain ⟨d1, ⟨p, kt, d2, d3, d4⟩, -⟩ := hr
    refine ⟨?_, ?_, ?_⟩
    · intro s hs
      simp only [Planned.test, List.mem_append, List.mem_cons, List.not_mem_nil, or_false] at hs
      have hop := ht.ofOperation _ c2
      rcases hs with ((rfl | rfl | rfl | rfl) | hs) | hs
      · exact ht.implementations _ d1
      · exact ht.implementations _ c1
      · exact ht.operations _ c2
      · rw [Keyset.name, List.mem_append, not_or]
        exact ⟨ht.algorithms _ c3, Nat.underscore_not_in_toDigits⟩
      · exact choice_plain ht (fun e he => ht.ofKeySet _ c7 e (List.mem_append_left _ he))
          (fun e he => hop e (List.mem_append_left _ he)) c8 s hs
      · exact choice_plain ht (fun e he => ht.ofKeySet _ d3 e (List.mem_append_right _ he))
          (fun e he => hop e (List.mem_append_right _ he)) d4 s hs
    · rw [c8.1]
      refine ht.gNames _ c2 _ c7 ?_
      rcases c6 with c6 | ⟨c6, -, c9⟩
      · exact Or.inl (c6.trans c4)
      · exact Or.inr ⟨c9, c4.symm.trans c6⟩
    · rw [d4.1]
      refine ht.tNames _ c2 _ d3 ?_
      have hk : g.keyset.purpose = g.operation.2.keytype ∨
          g.operation.2.keytype = "crypt".toList ∧ g.keyset.purpose = "encrypt".toList := by
        rcases c6 with c6 | ⟨c6, -, c9⟩
        · exact Or.inl (c6.trans c4)
        · exact Or.inr ⟨c4.symm.trans c6, c9⟩
      rcases d2 with ⟨d5, rfl⟩ | ⟨d5, rfl⟩ | ⟨d5, d6⟩
      · rcases hk with hk | ⟨-, hk⟩
        · exact Or.inl (d5.symm.trans hk)
        · rw [d5] at hk; exact absurd hk (by decide +kernel)
      · rcases hk with hk | ⟨hk, -⟩
        · -- key sets for encryption come from an operation on encryption
          rcases c6 with c6 | ⟨c6, -, c9⟩
          · exact Or.inr (Or.inr ⟨rfl, hk.symm.trans d5⟩)
          · exact Or.inl (c6.symm.trans c4)
        · exact Or.inl hk.symm
      · have hk' : g.operation.2.keytype = "sign".toList := by
          rcases hk with hk | ⟨-, hk⟩
          · exact hk.symm.trans d5
          · rw [d5] at hk; exact absurd hk (by decide +kernel)
        rcases d6 with rfl | ⟨rfl, -⟩
        · exact Or.inl hk'.symm
        · exact Or.inr (Or.inl ⟨rfl, hk'⟩)
  obtain ⟨p1, q1, q2⟩ := key (o := o) hg hr
  obtain ⟨p2, q3, q4⟩ := key (o := o') hg' hr'
  obtain ⟨e1, e2, e3, e4, e5, e6⟩ := C97_names hn p1 p2 (by
    intro e
    have e' : g.operation.1 = g'.operation.1 := e
    have l1 := congrArg List.length (q1.trans ((congrArg gn e').trans q3.symm))
    have l2 := congrArg List.length (q2.trans ((congrArg tn e').trans q4.symm))
    rw [List.length_map, List.length_map] at l1 l2
    exact ⟨l1, l2⟩)
  have e3' : g.operation.1 = g'.operation.1 := e3
  refine ⟨e2, e3, e4, pairs_ext (q1.trans ((congrArg gn e3').trans q3.symm)) e5, Prod.ext e1 ?_⟩
  exact pairs_ext (q2.trans ((congrArg tn e3').trans q4.symm)) e6

theorem mem_allTests {cfg : Config} {generate : Nat → Planned → Py Bytes} {l : List Planned} {t : Test} :
    t ∈ allTests cfg generate l ↔ ∃ n g out rs r, l[n]? = some g ∧ generate n g = .ok out ∧
      TestAll cfg g.operation.1 g.operation.2 g.keyset g.options = .ok rs ∧ r ∈ rs ∧ t = g.test out r := by
  rw [allTests, List.mem_flatMap]
  constructor
  · rintro ⟨⟨g, n⟩, hg, h⟩
    have hg : l[n]? = some g := List.mem_zipIdx_iff_getElem?.1 hg
    cases h1 : generate n g with
    | error e => simp only [h1] at h; cases h
    | ok out =>
      cases h2 : TestAll cfg g.operation.1 g.operation.2 g.keyset g.options with
      | error e => simp only [h1, h2] at h; cases h
      | ok rs =>
        simp only [h1, h2, List.mem_map] at h
        obtain ⟨r, hr, rfl⟩ := h
        exact ⟨n, g, out, rs, r, hg, h1, h2, hr, rfl⟩
  · rintro ⟨n, g, out, rs, r, hg, h1, h2, hr, rfl⟩
    refine ⟨(g, n), List.mem_zipIdx_iff_getElem?.2 hg, ?_⟩
    simp only [h1, h2]
    exact List.mem_map_of_mem hr

theorem call_nodup {cfg : Config} (hd : Dicts cfg) {g : Planned} (hg : IsCall cfg g) : (g.options.map Prod.fst).Nodup := by
  obtain ⟨ks, h1, h2⟩ := hg.options
  rw [h2.1]
  have h3 := (hd.ofKeySet _ h1).1
  have h4 := (hd.ofOperation _ hg.operation).1
  have := dictOf_nodup h3 h4
  rwa [dictOf_keys h3 h4] at this

theorem exists_last {l : List Test} {t : Test} (h : t ∈ l) : ∃ u, u.name = t.name ∧ LastNamed l u := by
  cases hf : l.reverse.find? fun u => u.name = t.name with
  | none =>
    rw [List.find?_eq_none] at hf
    have := hf t (List.mem_reverse.2 h)
    simp at this
  | some u => exact ⟨u, find_last.1 hf⟩

/-- C97: in a configuration without underscores in names and values, and in which the options of an operation do not depend
on the purpose of the key set, no test is left out: for every planned test a test with the same arguments is run, on an
output made by the same implementation with the same operation, key set and options. -/
theorem C97_complete {cfg : Config} (hd : Dicts cfg) {gn tn : Text → List Text} (ht : Tame cfg gn tn)
    {generate : Nat → Planned → Py Bytes} {ts : List (Text × Test)} (h : RunTests cfg generate = .ok ts) {g : Planned}
    (hg : IsCall cfg g) {r : Text × Options} (hr : IsTest cfg g r) :
    ∃ n g' out, IsCall cfg g' ∧ generate n g' = .ok out ∧ g'.implementation = g.implementation ∧
      g'.operation.1 = g.operation.1 ∧ g'.keyset.name = g.keyset.name ∧ g'.options = g.options ∧
      ((g.test out r).name, g.test out r) ∈ ts := by
  obtain ⟨l, hl, hok, -⟩ := C97_runs.1 h
  have hm := (C97_calls hd hl g).2 hg
  obtain ⟨n, hn⟩ := List.mem_iff_getElem?.1 hm
  obtain ⟨out, rs, h1, h2⟩ := hok n g hn
  have hrs := (C97_tests hd hg.operation (call_nodup hd hg) h2 r).2 hr
  obtain ⟨u, hu, hlast⟩ := exists_last (mem_allTests.2 ⟨n, g, out, rs, r, hn, h1, h2, hrs, rfl⟩)
  have hmu : u ∈ allTests cfg generate l := by
    obtain ⟨b, a, e, -⟩ := hlast
    rw [e]; simp
  obtain ⟨n', g', out', rs', r', hn', h1', h2', hrs', rfl⟩ := mem_allTests.1 hmu
  have hg' := (C97_calls hd hl g').1 (List.mem_of_getElem? hn')
  have hr' := (C97_tests hd hg'.operation (call_nodup hd hg') h2' r').1 hrs'
  obtain ⟨e1, e2, e3, e4, rfl⟩ := same_arguments hd ht hg' hg hr' hr hu
  have et : g.test out' r' = g'.test out' r' := by
    simp only [Planned.test, e1, e2, e3, e4]
  refine ⟨n', g', out', hg', h1', e1, e2, e3, e4, ?_⟩
  rw [et]
  exact ((C97_last h hl _ _).2).2 ⟨rfl, hlast⟩

/-- C97: and every test that is run is planned. -/
theorem C97_sound {cfg : Config} (hd : Dicts cfg) {generate : Nat → Planned → Py Bytes} {ts : List (Text × Test)}
    (h : RunTests cfg generate = .ok ts) {n : Text} {t : Test} (ht : (n, t) ∈ ts) :
    ∃ k g out r, IsCall cfg g ∧ generate k g = .ok out ∧ IsTest cfg g r ∧ t = g.test out r ∧ n = t.name := by
  obtain ⟨l, hl, -, -⟩ := C97_runs.1 h
  obtain ⟨hn, b, a, e, -⟩ := ((C97_last h hl n t).2).1 ht
  obtain ⟨k, g, out, rs, r, h1, h2, h3, h4, rfl⟩ := mem_allTests.1 (show t ∈ allTests cfg generate l by rw [e]; simp)
  have hg := (C97_calls hd hl g).1 (List.mem_of_getElem? h1)
  exact ⟨k, g, out, r, hg, h2, (C97_tests hd hg.operation (call_nodup hd hg) h3 r).1 h4, rfl, hn.symm⟩

/-- C97: `interop.py display` prints a line for each planned test, also for those that are not run. -/
theorem C97_display {cfg : Config} (hd : Dicts cfg) {names : List Text} (h : DisplayTests cfg = .ok names) (n : Text) :
    n ∈ names ↔ ∃ g r, IsCall cfg g ∧ IsTest cfg g r ∧ n = (g.test [] r).display := by
  simp only [DisplayTests, bind, Except.bind] at h
  cases hl : GenerateAll cfg with
  | error e => rw [hl] at h; cases h
  | ok l =>
    rw [hl] at h
    simp only at h
    rw [collect_ok h]
    constructor
    · rintro ⟨g, hg, rs, h1, h2⟩
      cases ht : TestAll cfg g.operation.1 g.operation.2 g.keyset g.options with
      | error e => rw [ht] at h1; cases h1
      | ok runs =>
        rw [ht] at h1
        simp only [pure, Except.pure, Except.ok.injEq] at h1
        subst h1
        obtain ⟨r, hr, rfl⟩ := List.mem_map.1 h2
        have hc := (C97_calls hd hl g).1 hg
        exact ⟨g, r, hc, (C97_tests hd hc.operation (call_nodup hd hc) ht r).1 hr, rfl⟩
    · rintro ⟨g, r, hc, hr, rfl⟩
      have hg := (C97_calls hd hl g).2 hc
      obtain ⟨rs, hrs⟩ := collect_parts h g hg
      refine ⟨g, hg, rs, hrs, ?_⟩
      cases ht : TestAll cfg g.operation.1 g.operation.2 g.keyset g.options with
      | error e => rw [ht] at hrs; cases hrs
      | ok runs =>
        rw [ht] at hrs
        simp only [pure, Except.pure, Except.ok.injEq] at hrs
        subst hrs
        exact List.mem_map.2 ⟨r, (C97_tests hd hc.operation (call_nodup hd hc) ht r).2 hr, rfl⟩

theorem shipped_dicts (b : Bool) : Dicts (shipped b) := by
  cases b <;> exact ⟨by decide +kernel, by decide +kernel, by decide +kernel, by decide +kernel⟩

/-- the names of the options of the shipped operations -/
def shippedCalls (operation : Text) : List Text :=
  if operation = "signedSession".toList then ["class".toList, "pubKey".toList, "cryptedKeySet".toList, "signer".toList]
  else if operation = "encrypt".toList then ["class".toList, "pubKey".toList, "cryptedKeySet".toList, "encoding".toList]
  else ["cryptedKeySet".toList, "encoding".toList]

def shippedTests (operation : Text) : List Text :=
  if operation = "signedSession".toList ∨ operation = "encrypt".toList then [] else ["class".toList, "pubKey".toList]

instance (l : Listing) : Decidable (NoUnderscore l) := by
  cases l <;> unfold NoUnderscore <;> infer_instance

theorem shipped_tame : Tame (shipped true) shippedCalls shippedTests :=
  ⟨rfl, by decide +kernel, by decide +kernel, by decide +kernel, by decide +kernel, by decide +kernel, by decide +kernel,
    by decide +kernel⟩

/-- C97: with the shipped configuration and Python 3, the plan is made without an exception, and if the implementations
answer all calls, every test of the plan is run. -/
theorem C97_shipped {generate : Nat → Planned → Py Bytes}
    (hgen : ∀ n g, IsCall (shipped true) g → ∃ out, generate n g = .ok out) :
    ∃ ts, RunTests (shipped true) generate = .ok ts ∧ ∀ g r, IsCall (shipped true) g → IsTest (shipped true) g r →
      ∃ n g' out, IsCall (shipped true) g' ∧ generate n g' = .ok out ∧ g'.implementation = g.implementation ∧
        g'.operation.1 = g.operation.1 ∧ g'.keyset.name = g.keyset.name ∧ g'.options = g.options ∧
        ((g.test out r).name, g.test out r) ∈ ts := by
  have hok : (match GenerateAll (shipped true) with
      | .error _ => false
      | .ok l => l.all fun g => match TestAll (shipped true) g.operation.1 g.operation.2 g.keyset g.options with
        | .error _ => false
        | .ok _ => true) = true := by decide +kernel
  cases hl : GenerateAll (shipped true) with
  | error e => rw [hl] at hok; cases hok
  | ok l =>
    rw [hl] at hok
    simp only [List.all_eq_true] at hok
    have hts : RunTests (shipped true) generate =
        .ok ((allTests (shipped true) generate l).foldl (fun d t => assocSet d t.name t) []) := by
      refine C97_runs.2 ⟨l, hl, ?_, rfl⟩
      intro i g hi
      have hm := List.mem_of_getElem? hi
      obtain ⟨out, ho⟩ := hgen i g ((C97_calls (shipped_dicts true) hl g).1 hm)
      have := hok g hm
      cases ht : TestAll (shipped true) g.operation.1 g.operation.2 g.keyset g.options with
      | error e => rw [ht] at this; cases this
      | ok rs => exact ⟨out, rs, ho, rfl⟩
    exact ⟨_, hts, fun g r hg hr => C97_complete (shipped_dicts true) shipped_tame hts hg hr⟩

/-- `d` is made or emptied by `CreateKeys` and then filled by the implementation `i` -/
def Filled (cfg : Config) (i d : Text) : Prop := ∃ c ∈ CreateKeys cfg, c.implementation = i ∧ d ∈ c.dirs

/-- what `CreateKeys` makes of an algorithm and a size: a key set, its public part if it is asymmetric, and a key set
encrypted with the one called `aes128` -/
theorem filled {cfg : Config} {i a : Text} {alg : Algorithm} {s : Nat} (hi : i ∈ cfg.implementations)
    (ha : (a, alg) ∈ cfg.algorithms) (hs : s ∈ alg.keySizes) :
    Filled cfg i (GetKeyDir i (a ++ Nat.toDigits 10 s)) ∧
      (alg.asymmetric = true → Filled cfg i (GetKeyDir i (a ++ Nat.toDigits 10 s) ++ "public".toList)) ∧
      Filled cfg i (GetKeyDir i (a ++ Nat.toDigits 10 s ++ "aes128".toList)) := by
  have h1 : Harness.Create i a alg s ∈ CreateKeys cfg := List.mem_append_left _ (List.mem_flatMap.2 ⟨i, hi, List.mem_flatMap.2
    ⟨(a, alg), ha, List.mem_map.2 ⟨s, hs, rfl⟩⟩⟩)
  have h2 : CreateEncrypted i a alg s "aes128".toList ∈ CreateKeys cfg :=
    List.mem_append_right _ (List.mem_flatMap.2 ⟨i, hi, List.mem_flatMap.2
      ⟨(a, alg), ha, List.mem_map.2 ⟨s, hs, rfl⟩⟩⟩)
  refine ⟨⟨_, h1, rfl, List.mem_append_left _ (List.mem_singleton.2 rfl)⟩, fun hb => ⟨_, h1, rfl, ?_⟩,
    ⟨_, h2, rfl, List.mem_singleton.2 rfl⟩⟩
  refine List.mem_append_right _ ?_
  rw [if_pos hb]
  exact List.mem_singleton.2 rfl

/-- the options of a call or test for which `CreateKeys` makes key sets -/
def Served (cfg : Config) (g : Planned) (pub : Text) : Prop :=
  valueOf g.options "cryptedKeySet" ∈ [[], "aes128".toList] ∧
  (pub = [] ∨ pub = "public".toList ∧ valueOf g.options "cryptedKeySet" = [] ∧
    ((cfg.algorithms.lookup g.keyset.algorithm).any fun a => a.asymmetric) = true) ∧
  (valueOf g.options "signer" = [] ∨ valueOf g.options "signer" ∈ (GetGenerateKeysets cfg sign).map Keyset.name)

/-- C97: the key sets that a call or a test reads are made by `CreateKeys`, for the implementation that makes the output, if
there is an algorithm `aes` of size 128, which encrypts the encrypted key sets, those are not asked for by another name, and
public parts are asked for only of asymmetric key sets that are not encrypted. -/
theorem C97_filled {cfg : Config} (hd : Dicts cfg) (haes : ∃ a, ("aes".toList, a) ∈ cfg.algorithms ∧ 128 ∈ a.keySizes)
    {g : Planned} (hg : IsCall cfg g) {pub : Text} (hs : Served cfg g pub) :
    ∀ d ∈ dirsRead g pub, Filled cfg g.implementation d := by
  obtain ⟨h1, h2, h3⟩ := hs
  obtain ⟨a, h4, -, h5, -⟩ := hg.keyset
  have hi := hg.implementation
  have hcr : ∀ d, (d ∈ if valueOf g.options "cryptedKeySet" = [] then [] else
      [("keys/".toList ++ g.implementation) ++ ['/'] ++ valueOf g.options "cryptedKeySet"]) →
      Filled cfg g.implementation d := by
    intro d hd
    by_cases hc : valueOf g.options "cryptedKeySet" = []
    · rw [if_pos hc] at hd; cases hd
    · rw [if_neg hc] at hd
      obtain rfl := List.mem_singleton.1 hd
      have hv : valueOf g.options "cryptedKeySet" = "aes128".toList := by
        rcases List.mem_cons.1 h1 with h | h
        · exact absurd h hc
        · exact List.mem_singleton.1 h
      obtain ⟨b, h6, h7⟩ := haes
      have := (filled hi h6 h7).1
      rw [hv]
      exact this
  have hname : ∀ {n : Text} {b : Algorithm} {s : Nat}, (n, b) ∈ cfg.algorithms → s ∈ b.keySizes →
      Filled cfg g.implementation (("keys/".toList ++ g.implementation) ++ ['/'] ++ (n ++ Nat.toDigits 10 s) ++
        valueOf g.options "cryptedKeySet" ++ []) := by
    intro n b s hb hs
    rw [List.append_nil]
    rcases List.mem_cons.1 h1 with h | h
    · rw [h, List.append_nil]
      exact (filled hi hb hs).1
    · rw [List.mem_singleton.1 h, List.append_assoc _ (n ++ Nat.toDigits 10 s)]
      exact (filled hi hb hs).2.2
  intro d hdr
  rcases List.mem_append.1 hdr with hdr | hdr
  · rcases List.mem_cons.1 hdr with rfl | hdr
    · rcases h2 with rfl | ⟨rfl, hc, hasym⟩
      · exact hname h4 h5
      · rw [hc, List.append_nil]
        refine (filled hi h4 h5).2.1 ?_
        rw [(lookup_mem hd.algorithms).2 h4] at hasym
        simpa using hasym
    · exact hcr d hdr
  · by_cases hsig : valueOf g.options "signer" = []
    · rw [if_pos hsig] at hdr; cases hdr
    · rw [if_neg hsig] at hdr
      rcases List.mem_cons.1 hdr with rfl | hdr
      · rcases h3 with h3 | h3
        · exact absurd h3 hsig
        · obtain ⟨k, hk, hn⟩ := List.mem_map.1 h3
          obtain ⟨b, h6, -, h7, -⟩ := (mem_GetGenerateKeysets cfg _ _).1 hk
          rw [← hn]
          exact hname h6 h7
      · exact hcr d hdr

instance (cfg : Config) (g : Planned) (pub : Text) : Decidable (Served cfg g pub) := by
  unfold Served; infer_instance

/-- C97: with the shipped configuration, every key set that a call or a test reads is in a directory that `CreateKeys` has
had filled by the implementation that makes the output. -/
theorem C97_keys {g : Planned} (hg : IsCall (shipped true) g) :
    (∀ d ∈ dirsRead g (valueOf g.options "pubKey"), Filled (shipped true) g.implementation d) ∧
    ∀ r, IsTest (shipped true) g r → ∀ d ∈ dirsRead g (valueOf r.2 "pubKey"), Filled (shipped true) g.implementation d := by
  have hok : (match GenerateAll (shipped true) with
      | .error _ => false
      | .ok l => l.all fun g => decide (Served (shipped true) g (valueOf g.options "pubKey")) &&
        match TestAll (shipped true) g.operation.1 g.operation.2 g.keyset g.options with
        | .error _ => false
        | .ok rs => rs.all fun r => decide (Served (shipped true) g (valueOf r.2 "pubKey"))) = true := by
    decide +kernel
  have haes : ∃ a, ("aes".toList, a) ∈ (shipped true).algorithms ∧ 128 ∈ a.keySizes :=
    ⟨⟨crypt, false, [128, 192, 256], ["--purpose=crypt".toList], []⟩, by decide +kernel, by decide +kernel⟩
  cases hl : GenerateAll (shipped true) with
  | error e => rw [hl] at hok; cases hok
  | ok l =>
    rw [hl] at hok
    simp only [List.all_eq_true, Bool.and_eq_true, decide_eq_true_eq] at hok
    obtain ⟨h1, h2⟩ := hok g ((C97_calls (shipped_dicts true) hl g).2 hg)
    refine ⟨C97_filled (shipped_dicts true) haes hg h1, ?_⟩
    intro r hr
    cases ht : TestAll (shipped true) g.operation.1 g.operation.2 g.keyset g.options with
    | error e => rw [ht] at h2; cases h2
    | ok rs =>
      rw [ht] at h2
      simp only [List.all_eq_true, decide_eq_true_eq] at h2
      have hrs := (C97_tests (shipped_dicts true) hg.operation (call_nodup (shipped_dicts true) hg) ht r).2 hr
      exact C97_filled (shipped_dicts true) haes hg (h2 r hrs)

/-- a call of the plan that is made in Python 2 -/
def py2Call : Planned where
  implementation := "python".toList
  operation := ("signedSession".toList, ⟨crypt, [("signer".toList, .text "ALL_SIGNING_KEYS".toList)], []⟩)
  keyset := ⟨"aes".toList, 128, crypt⟩
  options := [("class".toList, "crypter".toList), ("pubKey".toList, []), ("cryptedKeySet".toList, []),
    ("signer".toList, ['A'])]

/-- the options as the JSON object passed on -/
def jsonOptions (o : Options) : Json := .obj (o.map fun p => (p.1, .str p.2))

/-- C97: in Python 2 `isinstance(option_list, str)` is false for what `json.loads` gives, so the macro ALL_SIGNING_KEYS is not
replaced and its characters are taken for names of key sets.  With the shipped configuration, the implementation in Python
is then asked to sign with a key set called `A`, for which `CreateKeys` makes no directory; the call fails and no test at
all is run. -/
theorem C97_python2 (P : Prims) {fs : FS} (hfs : fs (bstr "keys/python/A") = none) {generate : Nat → Planned → Py Bytes}
    (hpy : ∀ n g, g.implementation = "python".toList → ∃ rnd, generate n g =
      interopGenerate P fs rnd (.str g.operation.1) (.str (GetKeyPath g.implementation)) (.str g.keyset.name)
        (jsonOptions g.options) (.str "This is some test data.".toList)) :
    (∃ e, RunTests (shipped false) generate = .error e) ∧ ¬ Filled (shipped false) "python".toList "keys/python/A".toList := by
  constructor
  · have hok : (match GenerateAll (shipped false) with
        | .error _ => false
        | .ok l => decide (py2Call ∈ l)) = true := by decide +kernel
    cases hl : GenerateAll (shipped false) with
    | error e => rw [hl] at hok; cases hok
    | ok l =>
      rw [hl] at hok
      simp only [decide_eq_true_eq] at hok
      obtain ⟨n, hn⟩ := List.mem_iff_getElem?.1 hok
      obtain ⟨rnd, hr⟩ := hpy n py2Call rfl
      refine C97_one_failure hl hn (e := .keyczarError) ?_
      rw [hr]
      have e1 : operationOf (.str py2Call.operation.1) = .ok .signedSession := by decide +kernel
      have e2 : Json.toBytes (.str "This is some test data.".toList) = .ok (bstr "This is some test data.") := by
        decide +kernel
      have e3 : Json.toBytes (.str (GetKeyPath py2Call.implementation)) = .ok (bstr "keys/python") := by decide +kernel
      have e4 : (jsonOptions py2Call.options).get "signer" = .ok (.str ['A']) := rfl
      have e5 : (jsonOptions py2Call.options).get "cryptedKeySet" = .ok (.str []) := rfl
      have e6 : Json.getD (.obj []) "pubKey" (Json.ofString "") = .ok (Json.ofString "") := rfl
      have e7 : Json.toBytes (.str ['A']) = .ok (bstr "A") := by decide +kernel
      have e8 : Json.toBytes (.str []) = .ok [] := by decide +kernel
      have e9 : Json.toBytes (Json.ofString "") = .ok [] := by decide +kernel
      have e10 : pathJoin (bstr "keys/python") (bstr "A" ++ [] ++ []) = bstr "keys/python/A" := by decide +kernel
      simp only [interopGenerate, e1, e2, e3, SignedSessionOperation.Generate, e4, readerOf, e5, e6, e7, e8, e9, GetReader,
        e10, CreateReader, hfs, bind, Except.bind]
  · have : ((CreateKeys (shipped false)).all fun c => decide ("keys/python/A".toList ∉ c.dirs)) = true := by decide +kernel
    rintro ⟨c, hc, -, hd⟩
    have := List.all_eq_true.1 this c hc
    simp only [decide_eq_true_eq] at this
    exact this hd

/-! Concrete cases. -/

/-- one implementation, one operation with two options: the values `a_b`, `c` and `a`, `b_c` give one name -/
def underscores : Config where
  isStr := true
  algorithms := [("hmac".toList, ⟨sign, false, [256], [], []⟩)]
  ignored := []
  operations := [("sign".toList, ⟨sign, [("x".toList, .list ["a_b".toList, "a".toList]),
    ("y".toList, .list ["c".toList, "b_c".toList])], []⟩)]
  implementations := ["python".toList]
  keySetOptions := [(sign, ⟨[], []⟩)]

/-- C97_lost, C97_last: of the four planned tests three are run; the one with the values `a_b` and `c` is not. -/
example : ((DisplayTests underscores).toOption.map List.length = some 4) ∧
    ((RunTests underscores fun n _ => .ok [UInt8.ofNat n]).toOption.map fun ts => ts.map fun t => t.2.output) =
      some [[3], [1], [2]] := by decide +kernel

/-- C97_calls, C97_tests on the shipped configuration: a call and a test of the plan, a call that is ignored -/
example : IsCall (shipped true)
    { implementation := "cpp".toList
      operation := ("sign".toList, ⟨sign, [("encoding".toList, .list ["encoded".toList, "unencoded".toList])], []⟩)
      keyset := ⟨"dsa".toList, 1024, sign⟩
      options := [("cryptedKeySet".toList, []), ("encoding".toList, "encoded".toList)] } := by
  have h : (match GenerateAll (shipped true) with
      | .error _ => false
      | .ok l => decide ((⟨"cpp".toList, ("sign".toList, ⟨sign, [("encoding".toList, .list ["encoded".toList,
        "unencoded".toList])], []⟩), ⟨"dsa".toList, 1024, sign⟩,
        [("cryptedKeySet".toList, []), ("encoding".toList, "encoded".toList)]⟩ : Planned) ∈ l)) = true := by decide +kernel
  cases hl : GenerateAll (shipped true) with
  | error e => rw [hl] at h; cases h
  | ok l =>
    rw [hl] at h
    exact (C97_calls (shipped_dicts true) hl _).1 (of_decide_eq_true h)

example : IsException (shipped true) "java".toList "attached".toList "hmac256".toList
      [("cryptedKeySet".toList, []), ("encoding".toList, "encoded".toList)] = true ∧
    IsException (shipped true) "java".toList "attached".toList "hmac256".toList
      [("cryptedKeySet".toList, []), ("encoding".toList, "unencoded".toList)] = false := by decide +kernel

/-- C97_shipped: 606 calls and 2372 tests are planned -/
example : (GenerateAll (shipped true)).toOption.map List.length = some 606 ∧
    (DisplayTests (shipped true)).toOption.map List.length = some 2372 := by decide +kernel

/-- C97_python2: an empty disk, and implementations in Python that do what Model/Interop says -/
example (P : Prims) (rnd : Nat → Rand) : ∃ e, RunTests (shipped false) (fun _ g => interopGenerate P (fun _ => none) rnd
    (.str g.operation.1) (.str (GetKeyPath g.implementation)) (.str g.keyset.name) (jsonOptions g.options)
    (.str "This is some test data.".toList)) = .error e :=
  (C97_python2 P rfl fun _ _ _ => ⟨rnd, rfl⟩).1

end Verif.Props
