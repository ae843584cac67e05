import Verif.Spec.Harness
import Mathlib.Tactic.SplitIfs
import Mathlib.Tactic.Tauto
/- Lemmas about the dicts, loops and names of Model/Harness. -/
namespace Verif.Harness
open Verif Spec

theorem collect_ok {α β} {f : α → Py (List β)} : ∀ {l : List α} {r : List β}, collect f l = .ok r →
    ∀ b, b ∈ r ↔ ∃ a ∈ l, ∃ rs, f a = .ok rs ∧ b ∈ rs
  | [], r, h, b => by
    simp only [collect, Except.ok.injEq] at h
    subst h; simp
  | a :: t, r, h, b => by
    simp only [collect, bind, Except.bind, pure, Except.pure] at h
    cases hf : f a with
    | error e => rw [hf] at h; cases h
    | ok rs =>
      rw [hf] at h
      cases ht : collect f t with
      | error e => rw [ht] at h; cases h
      | ok rt =>
        rw [ht] at h
        simp only [Except.ok.injEq] at h
        subst h
        rw [List.mem_append, collect_ok ht b]
        simp [hf]

/-- the parts of which the result is made up -/
theorem collect_parts {α β} {f : α → Py (List β)} : ∀ {l : List α} {r : List β}, collect f l = .ok r →
    ∀ a ∈ l, ∃ rs, f a = .ok rs
  | [], r, h, a, ha => by cases ha
  | a :: t, r, h, b, hb => by
    simp only [collect, bind, Except.bind, pure, Except.pure] at h
    cases hf : f a with
    | error e => rw [hf] at h; cases h
    | ok rs =>
      rw [hf] at h
      cases ht : collect f t with
      | error e => rw [ht] at h; cases h
      | ok rt =>
        rcases List.mem_cons.1 hb with rfl | hb
        · exact ⟨rs, hf⟩
        · exact collect_parts ht b hb

theorem lookup_mem {β} {l : List (Text × β)} (hl : (l.map Prod.fst).Nodup) {n : Text} {v : β} :
    l.lookup n = some v ↔ (n, v) ∈ l := by
  induction l with
  | nil => simp
  | cons p t ih =>
    obtain ⟨k, w⟩ := p
    simp only [List.map_cons, List.nodup_cons] at hl
    by_cases h : n = k
    · subst h
      rw [List.lookup_cons_self]
      simp only [Option.some.injEq, List.mem_cons, Prod.mk.injEq, true_and]
      constructor
      · rintro rfl; exact Or.inl rfl
      · rintro (rfl | h)
        · rfl
        · exact absurd (List.mem_map_of_mem (f := Prod.fst) h) hl.1
    · rw [List.lookup_cons, show (n == k) = false from beq_eq_false_iff_ne.2 h]
      simp only [List.mem_cons, Prod.mk.injEq, h, false_and, false_or]
      exact ih hl.2

theorem lookup_none {β} {l : List (Text × β)} {n : Text} : l.lookup n = none ↔ n ∉ l.map Prod.fst := by
  induction l with
  | nil => simp
  | cons p t ih =>
    obtain ⟨k, w⟩ := p
    by_cases h : n = k
    · subst h; simp
    · rw [List.lookup_cons, show (n == k) = false from beq_eq_false_iff_ne.2 h]
      simp only [List.map_cons, List.mem_cons, h, false_or]
      exact ih

theorem assocSet_keys {β} (d : List (Text × β)) (k : Text) (v : β) :
    (assocSet d k v).map Prod.fst = d.map Prod.fst ++ if k ∈ d.map Prod.fst then [] else [k] := by
  induction d with
  | nil => simp [assocSet]
  | cons p t ih =>
    obtain ⟨k', v'⟩ := p
    by_cases h : k' = k
    · simp [assocSet, h]
    · simp only [assocSet, h, if_false, List.map_cons, ih, List.cons_append, List.mem_cons,
        show ¬ k = k' from fun e => h e.symm, false_or]

theorem assocSet_lookup {β} (d : List (Text × β)) (k : Text) (v : β) (n : Text) :
    (assocSet d k v).lookup n = if n = k then some v else d.lookup n := by
  induction d with
  | nil =>
    by_cases h : n = k
    · simp [assocSet, h]
    · simp [assocSet, h, List.lookup_cons, beq_eq_false_iff_ne.2 h]
  | cons p t ih =>
    obtain ⟨k', v'⟩ := p
    by_cases h : k' = k
    · subst h
      by_cases hn : n = k'
      · simp [assocSet, hn]
      · simp [assocSet, List.lookup_cons, beq_eq_false_iff_ne.2 hn, hn]
    · simp only [assocSet, h, if_false, List.lookup_cons, ih]
      by_cases hn : n = k'
      · subst hn; simp [h]
      · simp [beq_eq_false_iff_ne.2 hn]

theorem assocSet_nodup {β} {d : List (Text × β)} (hd : (d.map Prod.fst).Nodup) (k : Text) (v : β) :
    ((assocSet d k v).map Prod.fst).Nodup := by
  rw [assocSet_keys]
  by_cases h : k ∈ d.map Prod.fst
  · simpa [h] using hd
  · rw [if_neg h]
    refine List.nodup_append.2 ⟨hd, by simp, ?_⟩
    intro a ha b hb
    simp only [List.mem_singleton] at hb
    subst hb
    intro e; subst e; exact h ha

theorem foldl_nodup {β} (l : List (Text × β)) : ∀ {d : List (Text × β)}, (d.map Prod.fst).Nodup →
    ((l.foldl (fun d p => assocSet d p.1 p.2) d).map Prod.fst).Nodup := by
  induction l with
  | nil => exact fun h => h
  | cons p t ih => exact fun h => ih (assocSet_nodup h p.1 p.2)

theorem foldl_keys {β} (l : List (Text × β)) : ∀ {d : List (Text × β)}, (l.map Prod.fst).Nodup →
    (l.foldl (fun d p => assocSet d p.1 p.2) d).map Prod.fst =
      d.map Prod.fst ++ (l.map Prod.fst).filter fun n => n ∉ d.map Prod.fst := by
  induction l with
  | nil => intro d _; simp
  | cons p t ih =>
    intro d hl
    simp only [List.map_cons, List.nodup_cons] at hl
    simp only [List.foldl_cons]
    rw [ih hl.2, assocSet_keys]
    by_cases h : p.1 ∈ d.map Prod.fst
    · simp only [if_pos h, List.append_nil, List.map_cons, List.filter_cons, h, not_true_eq_false, decide_false,
        Bool.false_eq_true, if_false, if_true]
    · simp only [h, if_false, List.map_cons, List.filter_cons, not_false_eq_true, decide_true, if_true, List.append_assoc,
        List.singleton_append, List.append_cancel_left_eq, List.cons.injEq, true_and]
      refine List.filter_congr fun n hn => ?_
      have : n ≠ p.1 := fun e => hl.1 (e ▸ hn)
      simp [this]

theorem foldl_lookup {β} (l : List (Text × β)) : ∀ {d : List (Text × β)}, (l.map Prod.fst).Nodup → ∀ n,
    (l.foldl (fun d p => assocSet d p.1 p.2) d).lookup n = (l.lookup n).or (d.lookup n) := by
  induction l with
  | nil => intro d _ n; simp
  | cons p t ih =>
    intro d hl n
    simp only [List.map_cons, List.nodup_cons] at hl
    simp only [List.foldl_cons]
    rw [ih hl.2, assocSet_lookup]
    obtain ⟨k, v⟩ := p
    by_cases h : n = k
    · subst h
      rw [lookup_none.2 hl.1]
      simp
    · simp [h, List.lookup_cons, beq_eq_false_iff_ne.2 h]

section
variable {β : Type} {a b : List (Text × β)} (ha : (a.map Prod.fst).Nodup) (hb : (b.map Prod.fst).Nodup)
include ha hb

theorem dictOf_lookup (n : Text) : (dictOf (a ++ b)).lookup n = (b.lookup n).or (a.lookup n) := by
  unfold dictOf
  rw [List.foldl_append, foldl_lookup b hb, foldl_lookup a ha]
  simp

theorem dictOf_keys : (dictOf (a ++ b)).map Prod.fst =
    a.map Prod.fst ++ (b.map Prod.fst).filter fun n => n ∉ a.map Prod.fst := by
  unfold dictOf
  have h : (a.foldl (fun d p => assocSet d p.1 p.2) []).map Prod.fst = a.map Prod.fst := by
    rw [foldl_keys a ha]; simp
  rw [List.foldl_append, foldl_keys b hb, h]

theorem dictOf_nodup : ((dictOf (a ++ b)).map Prod.fst).Nodup := foldl_nodup _ (by simp)

end

theorem mem_GetGenerateKeysets (cfg : Config) (p : Text) (k : Keyset) :
    k ∈ GetGenerateKeysets cfg p ↔ ∃ a, (k.algorithm, a) ∈ cfg.algorithms ∧ a.purpose = p ∧ k.size ∈ a.keySizes ∧
      (k.purpose = p ∨ p = crypt ∧ a.asymmetric = true ∧ k.purpose = encrypt) := by
  obtain ⟨ka, ks, kp⟩ := k
  simp only [GetGenerateKeysets, List.mem_flatMap, Prod.exists]
  constructor
  · rintro ⟨n, a, ha, h⟩
    by_cases hp : a.purpose = p
    · rw [if_pos hp] at h
      obtain ⟨s, hs, h⟩ := List.mem_flatMap.1 h
      split_ifs at h with hc
      · simp only [List.cons_append, List.nil_append, List.mem_cons, Keyset.mk.injEq, List.not_mem_nil, or_false] at h
        rcases h with ⟨rfl, rfl, rfl⟩ | ⟨rfl, rfl, rfl⟩
        · exact ⟨a, ha, hp, hs, Or.inr ⟨hc.1, hc.2, rfl⟩⟩
        · exact ⟨a, ha, hp, hs, Or.inl rfl⟩
      · simp only [List.nil_append, List.mem_cons, Keyset.mk.injEq, List.not_mem_nil, or_false] at h
        obtain ⟨rfl, rfl, rfl⟩ := h
        exact ⟨a, ha, hp, hs, Or.inl rfl⟩
    · rw [if_neg hp] at h
      cases h
  · rintro ⟨a, ha, hp, hs, h⟩
    refine ⟨ka, a, ha, ?_⟩
    rw [if_pos hp]
    refine List.mem_flatMap.2 ⟨ks, hs, ?_⟩
    rcases h with h | ⟨h1, h2, h3⟩
    · refine List.mem_append_right _ ?_
      rw [show kp = p from h]
      exact List.mem_singleton.2 rfl
    · refine List.mem_append_left _ ?_
      rw [if_pos ⟨h1, h2⟩, show kp = encrypt from h3]
      exact List.mem_singleton.2 rfl

theorem mem_optionValues {cfg : Config} {l : Listing} {vs : List Text} (h : optionValues cfg l = .ok vs) (v : Text) :
    v ∈ vs ↔ Means cfg l v := by
  unfold Means
  cases l with
  | list l => simp only [optionValues, Except.ok.injEq] at h; subst h; rfl
  | text t =>
    simp only [optionValues] at h
    by_cases hs : cfg.isStr = true
    · simp only [hs, if_true, macros] at h ⊢
      split_ifs at h with ht
      simp only [Except.ok.injEq] at h
      subst h
      simp only [List.mem_map, mem_GetGenerateKeysets]
      constructor
      · rintro ⟨k, ⟨a, h1, h2, h3, -⟩, rfl⟩
        exact ⟨ht, (k.algorithm, a), h1, h2, k.size, h3, rfl⟩
      · rintro ⟨-, ⟨n, a⟩, h1, h2, s, h3, rfl⟩
        exact ⟨⟨n, s, sign⟩, ⟨a, h1, h2, h3, Or.inl rfl⟩, rfl⟩
    · simp only [hs] at h ⊢
      simp only [Bool.false_eq_true, if_false, Except.ok.injEq] at h ⊢
      subst h
      simp [eq_comm]

theorem mem_product {cfg : Config} : ∀ {t : OptionTable} {tv : List (Text × List Text)}, allValues cfg t = .ok tv →
    (t.map Prod.fst).Nodup → ∀ o : Options, o ∈ product tv ↔
      o.map Prod.fst = t.map Prod.fst ∧ ∀ n v, (n, v) ∈ o → ∃ l, (n, l) ∈ t ∧ Means cfg l v
  | [], tv, h, _, o => by
    simp only [allValues, Except.ok.injEq] at h
    subst h
    simp only [product, List.mem_singleton, List.map_nil, List.map_eq_nil_iff]
    constructor
    · rintro rfl; simp
    · exact fun h => h.1
  | (n, l) :: t, tv, h, hd, o => by
    simp only [List.map_cons, List.nodup_cons] at hd
    simp only [allValues, bind, Except.bind, pure, Except.pure] at h
    cases hv : optionValues cfg l with
    | error e => rw [hv] at h; cases h
    | ok vs =>
      rw [hv] at h
      cases ht : allValues cfg t with
      | error e => rw [ht] at h; cases h
      | ok tv' =>
        rw [ht] at h
        simp only [Except.ok.injEq] at h
        subst h
        simp only [product, List.mem_flatMap, List.mem_map]
        constructor
        · rintro ⟨v, hvv, o', ho', rfl⟩
          obtain ⟨h1, h2⟩ := (mem_product ht hd.2 o').1 ho'
          refine ⟨by simp [h1], ?_⟩
          intro m w hm
          rcases List.mem_cons.1 hm with hm | hm
          · obtain ⟨rfl, rfl⟩ := Prod.mk.injEq _ _ _ _ ▸ hm
            exact ⟨l, List.mem_cons_self, (mem_optionValues hv w).1 hvv⟩
          · obtain ⟨l', h3, h4⟩ := h2 m w hm
            exact ⟨l', List.mem_cons_of_mem _ h3, h4⟩
        · rintro ⟨h1, h2⟩
          cases o with
          | nil => simp at h1
          | cons p o' =>
            obtain ⟨m, v⟩ := p
            simp only [List.map_cons, List.cons.injEq] at h1
            obtain ⟨rfl, h1⟩ := h1
            refine ⟨v, ?_, o', (mem_product ht hd.2 o').2 ⟨h1, ?_⟩, rfl⟩
            · obtain ⟨l', h3, h4⟩ := h2 m v List.mem_cons_self
              rcases List.mem_cons.1 h3 with h3 | h3
              · obtain ⟨-, rfl⟩ := Prod.mk.injEq _ _ _ _ ▸ h3
                exact (mem_optionValues hv v).2 h4
              · exact absurd (List.mem_map_of_mem (f := Prod.fst) h3) hd.1
            · intro k w hk
              obtain ⟨l', h3, h4⟩ := h2 k w (List.mem_cons_of_mem _ hk)
              rcases List.mem_cons.1 h3 with h3 | h3
              · obtain ⟨rfl, -⟩ := Prod.mk.injEq _ _ _ _ ▸ h3
                exact absurd (h1 ▸ List.mem_map_of_mem (f := Prod.fst) hk) hd.1
              · exact ⟨l', h3, h4⟩

theorem mem_dictOf {a b : OptionTable} (ha : (a.map Prod.fst).Nodup) (hb : (b.map Prod.fst).Nodup) (n : Text) (l : Listing) :
    (n, l) ∈ dictOf (a ++ b) ↔ Listed a b n l := by
  rw [← lookup_mem (dictOf_nodup ha hb), dictOf_lookup ha hb, Listed, ← lookup_none, Option.or_eq_some_iff, lookup_mem hb,
    lookup_mem ha]

theorem mem_OptionsOf {cfg : Config} {op : Operation} {k : Keyset} {w : Which} {l : List Options}
    (h : OptionsOf cfg op k w = .ok l) {ks : KeySetOptions} (hks : cfg.keySetOptions.lookup k.purpose = some ks)
    (ha : ((ks.get w).map Prod.fst).Nodup) (hb : ((op.get w).map Prod.fst).Nodup) (o : Options) :
    o ∈ l ↔ Choice cfg (ks.get w) (op.get w) o := by
  unfold Choice optionNames
  rw [← dictOf_keys ha hb]
  simp only [← mem_dictOf ha hb]
  simp only [OptionsOf, Keyset.Options, hks, bind, Except.bind, pure, Except.pure] at h
  split_ifs at h with he
  · simp only [Except.ok.injEq] at h
    subst h
    simp only [he, List.mem_singleton, List.map_nil, List.map_eq_nil_iff]
    constructor
    · rintro rfl; simp
    · exact fun h => h.1
  · cases ht : allValues cfg (dictOf (ks.get w ++ op.get w)) with
    | error e => rw [ht] at h; cases h
    | ok tv =>
      rw [ht] at h
      simp only [Except.ok.injEq] at h
      subst h
      exact mem_product ht (dictOf_nodup ha hb) o

theorem OptionsOf_keySet {cfg : Config} {op : Operation} {k : Keyset} {w : Which} {l : List Options}
    (h : OptionsOf cfg op k w = .ok l) : ∃ ks, cfg.keySetOptions.lookup k.purpose = some ks := by
  simp only [OptionsOf, Keyset.Options] at h
  cases hks : cfg.keySetOptions.lookup k.purpose with
  | none => rw [hks] at h; cases h
  | some ks => exact ⟨ks, rfl⟩

theorem has_iff (l : Listing) (x : Text) : l.has x = true ↔ Covers l x := by
  cases l <;> simp [Listing.has, Covers]

theorem optionsMatch_iff (o : Options) (t : OptionTable) :
    optionsMatch o t = true ↔ ∀ n l, (n, l) ∈ t → n ≠ ['*'] → ∃ v, o.lookup n = some v ∧ Covers l v := by
  simp only [optionsMatch, Bool.not_eq_true', List.any_eq_false, Bool.and_eq_true, decide_eq_true_eq, not_and, Prod.forall]
  refine forall_congr' fun n => forall_congr' fun l => forall_congr' fun _ => forall_congr' fun _ => ?_
  cases h : o.lookup n with
  | none => simp
  | some v => simp [← has_iff]

theorem IsException_iff (cfg : Config) (i op name : Text) (o : Options) :
    IsException cfg i op name o = true ↔ IgnoredBy cfg i op name fun n => o.lookup n := by
  simp only [IsException, List.any_eq_true, Bool.and_eq_true, containsOrStar, Bool.or_eq_true, has_iff, optionsMatch_iff,
    IgnoredBy]
  refine exists_congr fun t => and_congr_right fun _ => ?_
  constructor
  · rintro ⟨⟨⟨h1, h2⟩, h3⟩, h4⟩; exact ⟨h1, h3, h2, h4⟩
  · rintro ⟨h1, h3, h2, h4⟩; exact ⟨⟨⟨h1, h2⟩, h3⟩, h4⟩

theorem mem_GetTestKeysets {cfg : Config} (hd : (cfg.algorithms.map Prod.fst).Nodup) {g : Keyset} {l : List Keyset}
    (h : GetTestKeysets cfg g = .ok l) (k : Keyset) :
    k ∈ l ↔ k.algorithm = g.algorithm ∧ k.size = g.size ∧ TestPurpose cfg g k.purpose := by
  obtain ⟨ka, ks, kp⟩ := k
  obtain ⟨ga, gs, gp⟩ := g
  have n1 : crypt ≠ encrypt := by decide
  have n2 : crypt ≠ sign := by decide
  have n3 : encrypt ≠ sign := by decide
  unfold TestPurpose
  change _ ↔ ka = ga ∧ ks = gs ∧ (gp = crypt ∧ kp = crypt ∨ gp = encrypt ∧ kp = crypt ∨
    gp = sign ∧ (kp = sign ∨ kp = verify ∧ ∃ a, (ga, a) ∈ cfg.algorithms ∧ a.asymmetric = true))
  simp only [GetTestKeysets] at h
  split_ifs at h with h1 h2 h3
  · simp only [Except.ok.injEq] at h
    subst h; subst h1
    simp [n1, n2]
  · simp only [Except.ok.injEq] at h
    subst h; subst h2
    simp [n1.symm, n3]
  · subst h3
    cases ha : cfg.algorithms.lookup ga with
    | none => rw [ha] at h; cases h
    | some a =>
      rw [ha] at h
      simp only [Except.ok.injEq] at h
      subst h
      simp only [← lookup_mem hd, ha, Option.some.injEq, exists_eq_left', n2.symm, n3.symm, false_and, false_or, true_and]
      cases a.asymmetric <;> simp
      tauto

/-- everything before the first underscore -/
theorem split_underscore {a b x y : Text} (ha : '_' ∉ a) (hb : '_' ∉ b) (h : a ++ '_' :: x = b ++ '_' :: y) : a = b ∧ x = y := by
  induction a generalizing b with
  | nil =>
    cases b with
    | nil => simpa using h
    | cons c b => simp at h hb; exact absurd h.1 (by tauto)
  | cons c a ih =>
    cases b with
    | nil => simp at h ha; exact absurd h.1.symm (by tauto)
    | cons d b =>
      simp only [List.cons_append, List.cons.injEq] at h
      simp only [List.mem_cons, not_or] at ha hb
      obtain ⟨rfl, h⟩ := h
      obtain ⟨rfl, h'⟩ := ih ha.2 hb.2 h
      exact ⟨rfl, h'⟩

theorem join_cons (a b : Text) (l : List Text) : join (a :: b :: l) = a ++ '_' :: join (b :: l) := by
  simp [join, List.intercalate]

theorem join_one (a : Text) : join [a] = a := by simp [join, List.intercalate]

theorem split_join {x y : Text} : ∀ {a b : List Text}, (∀ s ∈ a, '_' ∉ s) → (∀ s ∈ b, '_' ∉ s) → a.length = b.length →
    join a ++ '_' :: x = join b ++ '_' :: y → a = b ∧ x = y
  | [], [], _, _, _, h => by simpa [join, List.intercalate] using h
  | [s], [t], ha, hb, _, h => by
    rw [join_one, join_one] at h
    obtain ⟨rfl, h'⟩ := split_underscore (ha s (by simp)) (hb t (by simp)) h
    exact ⟨rfl, h'⟩
  | s :: s' :: a, t :: t' :: b, ha, hb, hl, h => by
    rw [join_cons, join_cons, List.append_assoc, List.append_assoc, List.cons_append, List.cons_append] at h
    obtain ⟨rfl, h'⟩ := split_underscore (ha s (by simp)) (hb t (by simp)) h
    obtain ⟨h1, h2⟩ := split_join (a := s' :: a) (b := t' :: b) (fun s hs => ha s (List.mem_cons_of_mem _ hs))
      (fun s hs => hb s (List.mem_cons_of_mem _ hs)) (by simpa using hl) h'
    exact ⟨by rw [h1], h2⟩
  | [], _ :: _, _, _, hl, _ => by simp at hl
  | _ :: _, [], _, _, hl, _ => by simp at hl
  | [_], _ :: _ :: _, _, _, hl, _ => by simp at hl
  | _ :: _ :: _, [_], _, _, hl, _ => by simp at hl

theorem join_inj {a b : List Text} (ha : ∀ s ∈ a, '_' ∉ s) (hb : ∀ s ∈ b, '_' ∉ s) (hl : a.length = b.length)
    (h : join a = join b) : a = b :=
  (split_join (x := []) (y := []) ha hb hl (by rw [h])).1

/-- a dict is known from its keys and its values -/
theorem pairs_ext {α β} : ∀ {a b : List (α × β)}, a.map Prod.fst = b.map Prod.fst → a.map Prod.snd = b.map Prod.snd → a = b
  | [], [], _, _ => rfl
  | [], _ :: _, h, _ => by simp at h
  | _ :: _, [], h, _ => by simp at h
  | (_, _) :: a, (_, _) :: b, h1, h2 => by
    simp only [List.map_cons, List.cons.injEq] at h1 h2
    obtain ⟨rfl, h1⟩ := h1
    obtain ⟨rfl, h2⟩ := h2
    rw [pairs_ext h1 h2]

/-- the last entry of each name stays -/
theorem foldl_tests (l : List Test) : ∀ (d : List (Text × Test)) (n : Text),
    (l.foldl (fun d t => assocSet d t.name t) d).lookup n =
      (l.reverse.find? fun t => t.name = n).or (d.lookup n) := by
  induction l with
  | nil => intro d n; simp
  | cons t l ih =>
    intro d n
    simp only [List.foldl_cons, List.reverse_cons, List.find?_append]
    rw [ih, assocSet_lookup]
    by_cases h : n = t.name
    · subst h
      cases l.reverse.find? fun u => u.name = t.name <;> simp
    · cases l.reverse.find? fun u => u.name = n <;> simp [h, show ¬ t.name = n from fun e => h e.symm]

theorem foldl_tests_nodup (l : List Test) : ∀ {d : List (Text × Test)}, (d.map Prod.fst).Nodup →
    ((l.foldl (fun d t => assocSet d t.name t) d).map Prod.fst).Nodup := by
  induction l with
  | nil => exact fun h => h
  | cons t l ih => exact fun h => ih (assocSet_nodup h _ _)

theorem find_last {l : List Test} {n : Text} {t : Test} :
    (l.reverse.find? fun t => t.name = n) = some t ↔ t.name = n ∧ LastNamed l t := by
  rw [List.find?_eq_some_iff_append]
  simp only [decide_eq_true_eq, Bool.not_eq_true', decide_eq_false_iff_not, LastNamed]
  constructor
  · rintro ⟨h, as, bs, hl, hb⟩
    refine ⟨h, bs.reverse, as.reverse, ?_, fun u hu => ?_⟩
    · have := congrArg List.reverse hl
      simpa using this
    · rw [h]; exact hb u (List.mem_reverse.1 hu)
  · rintro ⟨h, as, bs, rfl, hb⟩
    refine ⟨h, bs.reverse, as.reverse, by simp, fun u hu => ?_⟩
    rw [← h]; exact hb u (List.mem_reverse.1 hu)

end Verif.Harness
