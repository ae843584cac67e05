import Verif.Lemmas.Load
/-
Constructing Keyczar objects: exactly when it succeeds and what it gives.
-/
namespace Verif
open Spec (Entry KeySet firstOfEach)
variable (P : Prims)

/-- the reader's metadata and key files describe the key set `ks` -/
def Reader.Gives (r : Reader) (ks : KeySet) : Prop :=
  (∃ text kmd h, r.GetMetadata = .ok text ∧ KeyMetadata.Read text = .ok (kmd, h) ∧ kmd.view h = ks.view) ∧
  ∀ e ∈ ks.entries, r.Delivers P ks.type e.num e.key

/-- key sets that loading can produce -/
structure _root_.Verif.Spec.KeySet.Loadable (ks : KeySet) : Prop where
  view_wf : ks.view.WF
  valid : ks.Valid
  key_ok : ∀ e ∈ ks.entries, e.key.Ok ∧ e.key.type = ks.type ∧ ∃ hash, e.key.hashId P = .ok hash

variable {P}

theorem Reader.Gives_unique {r : Reader} {ks ks' : KeySet} (h : r.Gives P ks) (h' : r.Gives P ks') : ks = ks' := by
  obtain ⟨⟨text, kmd, hp, h1, h2, h3⟩, h4⟩ := h
  obtain ⟨⟨text', kmd', hp', h1', h2', h3'⟩, h4'⟩ := h'
  rw [h1] at h1'
  cases h1'
  rw [h2] at h2'
  cases h2'
  have hv := h3.symm.trans h3'
  obtain ⟨n, p, t, e, es⟩ := ks
  obtain ⟨n', p', t', e', es'⟩ := ks'
  simp only [KeySet.view, KeySet.View.mk.injEq] at hv
  obtain ⟨rfl, rfl, rfl, rfl, hes⟩ := hv
  congr 1
  simp only at h4 h4'
  clear h3 h3'
  induction es generalizing es' with
  | nil => cases es' with
    | nil => rfl
    | cons a t => simp at hes
  | cons a t' ih =>
    cases es' with
    | nil => simp at hes
    | cons b u =>
      simp only [List.map_cons, List.cons.injEq, KeyVersion.mk.injEq] at hes
      obtain ⟨⟨e1, e2, e3⟩, hes⟩ := hes
      obtain ⟨t1, g1, g2, _⟩ := h4 a (by simp)
      obtain ⟨t2, g1', g2', _⟩ := h4' b (by simp)
      rw [e1] at g1
      rw [g1] at g1'
      cases g1'
      rw [g2] at g2'
      have hab : a = b := by
        obtain ⟨_, _, _, ak⟩ := a
        obtain ⟨_, _, _, bk⟩ := b
        simp only at e1 e2 e3 g2'
        rw [e1, e2, e3, Except.ok.inj g2']
      rw [hab, ih (fun e he => h4 e (by simp [he])) u hes (fun e he => h4' e (by simp [he]))]

theorem zipWith_view {h : Heap} {l : List (Int × Nat)} {keys : List Key} (hl : l.length = keys.length) :
    (List.zipWith (fun p k => (⟨(h.obj p.2).num, (h.obj p.2).status, (h.obj p.2).exportable, k⟩ : Entry)) l keys).map
      (fun e => (⟨e.num, e.status, e.exportable⟩ : KeyVersion)) = l.map fun p => h.obj p.2 := by
  induction l generalizing keys with
  | nil => simp
  | cons a t ih =>
    cases keys with
    | nil => simp at hl
    | cons k ks =>
      simp only [List.zipWith_cons_cons, List.map_cons]
      rw [ih (by simpa using hl)]

theorem zipWith_primaries {h : Heap} {l : List (Int × Nat)} {keys : List Key} (hl : l.length = keys.length) :
    ((List.zipWith (fun p k => (⟨(h.obj p.2).num, (h.obj p.2).status, (h.obj p.2).exportable, k⟩ : Entry)) l keys).filter
      fun e => e.status = .PRIMARY).length = ((l.map Prod.snd).filter fun o => (h.obj o).status = .PRIMARY).length := by
  induction l generalizing keys with
  | nil => simp
  | cons a t ih =>
    cases keys with
    | nil => simp at hl
    | cons k ks =>
      simp only [List.zipWith_cons_cons, List.map_cons, List.filter_cons]
      have := ih (keys := ks) (by simpa using hl)
      split <;> simp_all

theorem zipWith_delivers {h : Heap} {l : List (Int × Nat)} {keys : List Key} {R : Int → Key → Prop}
    (hf : List.Forall₂ (fun p k => R (h.obj p.2).num k) l keys) :
    ∀ e ∈ List.zipWith (fun p k => (⟨(h.obj p.2).num, (h.obj p.2).status, (h.obj p.2).exportable, k⟩ : Entry)) l keys,
      R e.num e.key := by
  induction hf with
  | nil => simp
  | cons hab _ ih =>
    intro e he
    rw [List.zipWith_cons_cons] at he
    rcases List.mem_cons.mp he with rfl | he
    · exact hab
    · exact ih e he

/-- everything a successful construction guarantees -/
theorem Czar.init_ok {cls : CzarClass} {r : Reader} {c : Czar} (h : Czar.init P cls r = .ok c) :
    c.Inv P ∧ c.Fresh ∧ r.Gives P c.keySet ∧ c.keySet.Loadable P ∧
    cls.IsAcceptablePurpose c.keySet.purpose = true ∧
    (c.keySet.encrypted.truthy = true → r.isEncryptedReader = true) := by
  unfold Czar.init at h
  obtain ⟨text, h1, h⟩ := bind_ok h
  obtain ⟨⟨kmd, hp⟩, h2, h⟩ := bind_ok h
  simp only at h
  split at h
  · cases h
  · next hacc =>
    split at h
    · cases h
    · next henc =>
      obtain ⟨hm, _⟩ := KeyMetadata.Read_ok h2
      obtain ⟨keys, hk⟩ := loadKeys_ok h
      have hlen := Forall₂.length_eq' hk
      rw [loadKeys_readable r kmd.versions keys _ hk (by simpa [Czar.versions] using hm.onodup)] at h
      split at h
      · next hpr =>
        have h := Except.ok.inj h
        subst h
        simp only [Option.toList_none, List.nil_append] at hpr
        obtain ⟨hi, hf⟩ := loaded_inv hm hk hpr
        have hks := loaded_entries (P := P) hm hlen
        have hview : kmd.view hp = (loaded P ⟨hp, kmd, [], [], none⟩ kmd.versions keys).keySet.view := by
          rw [hks]
          unfold KeyMetadata.view KeySet.view
          simp only
          rw [zipWith_view hlen]
        refine ⟨hi, hf, ⟨⟨text, kmd, hp, h1, h2, hview⟩, ?_⟩, ⟨?_, hi.valid, ?_⟩, ?_, ?_⟩
        · rw [hks]; exact zipWith_delivers hk
        · rw [← hview]; exact KeyMetadata.Read_WF h2
        · rw [hks]
          intro e he
          obtain ⟨t, _, h4, h5⟩ := zipWith_delivers hk e he
          have := ReadKey_Ok h4
          exact ⟨this.1, this.2, h5⟩
        · rw [hks]; simpa using hacc
        · rw [hks]
          intro ht
          have ht : kmd.encrypted.truthy = true := ht
          simpa [ht] using henc
      · cases h

theorem map_view_length {l : List (Int × Nat)} {h : Heap} {es : List Entry}
    (hv : l.map (fun p => h.obj p.2) = es.map (fun e => (⟨e.num, e.status, e.exportable⟩ : KeyVersion))) :
    l.length = es.length := by simpa using congrArg List.length hv

theorem Forall₂_of_view {l : List (Int × Nat)} {h : Heap} {es : List Entry} {R : Int → Key → Prop}
    (hv : l.map (fun p => h.obj p.2) = es.map (fun e => (⟨e.num, e.status, e.exportable⟩ : KeyVersion)))
    (hR : ∀ e ∈ es, R e.num e.key) : List.Forall₂ (fun p k => R (h.obj p.2).num k) l (es.map Entry.key) := by
  induction l generalizing es with
  | nil => cases es with
    | nil => exact .nil
    | cons a t => simp at hv
  | cons a t ih =>
    cases es with
    | nil => simp at hv
    | cons e u =>
      simp only [List.map_cons, List.cons.injEq] at hv
      rw [List.map_cons]
      refine .cons ?_ (ih hv.2 fun e he => hR e (by simp [he]))
      rw [hv.1]
      exact hR e (by simp)

theorem zipWith_of_view {l : List (Int × Nat)} {h : Heap} {es : List Entry}
    (hv : l.map (fun p => h.obj p.2) = es.map (fun e => (⟨e.num, e.status, e.exportable⟩ : KeyVersion))) :
    List.zipWith (fun p k => (⟨(h.obj p.2).num, (h.obj p.2).status, (h.obj p.2).exportable, k⟩ : Entry)) l
      (es.map Entry.key) = es := by
  induction l generalizing es with
  | nil => cases es with
    | nil => rfl
    | cons a t => simp at hv
  | cons a t ih =>
    cases es with
    | nil => simp at hv
    | cons e u =>
      simp only [List.map_cons, List.cons.injEq] at hv
      simp only [List.map_cons, List.zipWith_cons_cons, ih hv.2, hv.1]

/-- what construction does when the reader describes a key set -/
theorem Czar.init_gives {cls : CzarClass} {r : Reader} {ks : KeySet} (h : r.Gives P ks) :
    if cls.IsAcceptablePurpose ks.purpose = true ∧ (ks.encrypted.truthy = true → r.isEncryptedReader = true) ∧
        ks.primaries.length ≤ 1
    then ∃ c, Czar.init P cls r = .ok c ∧ c.keySet = ks
    else Czar.init P cls r = .error .keyczarError := by
  obtain ⟨⟨text, kmd, hp, h1, h2, h3⟩, h4⟩ := h
  obtain ⟨hm, _⟩ := KeyMetadata.Read_ok h2
  obtain ⟨n, p, t, e, es⟩ := ks
  obtain ⟨n', p', t', e', vs⟩ := kmd
  simp only [KeyMetadata.view, KeySet.view, KeySet.View.mk.injEq] at h3
  obtain ⟨rfl, rfl, rfl, rfl, hv⟩ := h3
  have hlen := map_view_length hv
  have hd := Forall₂_of_view hv h4
  have hl2 : vs.length = (es.map Entry.key).length := by simpa using hlen
  have hpr : (Spec.KeySet.primaries ⟨n', p', t', e', es⟩).length =
      ((vs.map Prod.snd).filter fun o => (hp.obj o).status = .PRIMARY).length := by
    rw [← zipWith_primaries hl2, zipWith_of_view hv]
    rfl
  have hload := loadKeys_readable r vs (es.map Entry.key) ⟨hp, ⟨n', p', t', e', vs⟩, [], [], none⟩ hd
    (by simpa [Czar.versions] using hm.onodup)
  unfold Czar.init
  simp only [h1, h2, bind, Except.bind]
  rw [hpr]
  by_cases ha : cls.IsAcceptablePurpose p' = true
  · by_cases he : e'.truthy = true ∧ ¬ r.isEncryptedReader = true
    · rw [if_neg (by tauto), if_neg (by simp [ha]), if_pos he]
    · by_cases hq : ((vs.map Prod.snd).filter fun o => (hp.obj o).status = .PRIMARY).length ≤ 1
      · rw [if_pos (by tauto), if_neg (by simp [ha]), if_neg he, hload, if_pos (by simpa using hq)]
        refine ⟨_, rfl, ?_⟩
        rw [loaded_entries hm hl2]
        simp only
        rw [zipWith_of_view hv]
      · rw [if_neg (by tauto), if_neg (by simp [ha]), if_neg he, hload, if_neg (by simpa using hq)]
  · rw [if_neg (by tauto), if_pos (by simp [ha])]

/-- the exact success condition -/
theorem Czar.init_iff {cls : CzarClass} {r : Reader} {ks : KeySet} :
    (∃ c, Czar.init P cls r = .ok c ∧ c.keySet = ks) ↔
      r.Gives P ks ∧ cls.IsAcceptablePurpose ks.purpose = true ∧
      (ks.encrypted.truthy = true → r.isEncryptedReader = true) ∧ ks.primaries.length ≤ 1 := by
  constructor
  · rintro ⟨c, hc, rfl⟩
    obtain ⟨h1, h2, h3, h4, h5, h6⟩ := Czar.init_ok hc
    exact ⟨h3, h5, h6, h4.valid.primary⟩
  · rintro ⟨h, h1, h2, h3⟩
    have := Czar.init_gives (cls := cls) h
    rwa [if_pos ⟨h1, h2, h3⟩] at this

/-! ### looking up keys -/

theorem Czar.Fresh.mem_entries {c : Czar} (hi : c.Inv P) (hf : c.Fresh) {k : Key} :
    (∃ o, assocGet c.vkeys o = some k) ↔ ∃ e ∈ c.keySet.entries, e.key = k := by
  constructor
  · rintro ⟨o, ho⟩
    have hm : o ∈ c.versions := List.mem_map.mpr ⟨_, assocGet_mem ho, rfl⟩
    rw [hf] at hm
    obtain ⟨p, hp, rfl⟩ := List.mem_map.mp hm
    refine ⟨c.entryOf p, List.mem_map.mpr ⟨p, hp, rfl⟩, ?_⟩
    unfold Czar.entryOf
    simp [ho]
  · rintro ⟨e, he, rfl⟩
    obtain ⟨p, hp, rfl⟩ := List.mem_map.mp he
    obtain ⟨k, hk⟩ := hi.key_some hp
    refine ⟨p.2, ?_⟩
    unfold Czar.entryOf
    simp [hk]

/-- a lookup finds only keys with that identifier, and one if there is any -/
theorem Czar.GetKeyByHash_spec {c : Czar} (hi : c.Inv P) (hf : c.Fresh) (hash : Bytes) :
    (∃ e ∈ c.keySet.entries, e.key.hashId P = .ok hash ∧ c.GetKeyByHash hash = .ok e.key) ∨
    ((∀ e ∈ c.keySet.entries, e.key.hashId P ≠ .ok hash) ∧ c.GetKeyByHash hash = .error .keyNotFound) := by
  unfold Czar.GetKeyByHash
  cases hg : assocGet c.hkeys hash with
  | some k =>
    left
    obtain ⟨h1, h2⟩ := hi.hash_ok hash k hg
    obtain ⟨e, he, rfl⟩ := (hf.mem_entries hi).mp h2
    exact ⟨e, he, h1, rfl⟩
  | none =>
    right
    refine ⟨?_, rfl⟩
    intro e he hh
    obtain ⟨o, ho⟩ := (hf.mem_entries hi).mpr ⟨e, he, rfl⟩
    obtain ⟨h', h1, h2⟩ := hi.hashed _ (assocGet_mem ho)
    simp only [hh] at h1
    cases h1
    rw [hg] at h2
    cases h2

/-- key identifiers are pairwise distinct -/
def _root_.Verif.Spec.KeySet.Distinct (P : Prims) (ks : KeySet) : Prop :=
  ks.entries.Pairwise fun a b => a.key.hashId P ≠ b.key.hashId P

theorem Distinct.eq {ks : KeySet} (hd : ks.Distinct P) {a b : Entry} (ha : a ∈ ks.entries) (hb : b ∈ ks.entries)
    (h : a.key.hashId P = b.key.hashId P) : a = b := by
  unfold Spec.KeySet.Distinct at hd
  generalize ks.entries = l at *
  induction hd with
  | nil => cases ha
  | @cons x t hx _ ih =>
    rcases List.mem_cons.mp ha with rfl | ha' <;> rcases List.mem_cons.mp hb with rfl | hb'
    · rfl
    · exact absurd h (hx b hb')
    · exact absurd h.symm (hx a ha')
    · exact ih ha' hb'

theorem Czar.GetKeyByHash_distinct {c : Czar} (hi : c.Inv P) (hf : c.Fresh) (hd : c.keySet.Distinct P)
    {e : Entry} (he : e ∈ c.keySet.entries) {hash : Bytes} (hh : e.key.hashId P = .ok hash) :
    c.GetKeyByHash hash = .ok e.key := by
  rcases c.GetKeyByHash_spec hi hf hash with ⟨e', he', h1, h2⟩ | ⟨h1, _⟩
  · have : e = e' := Distinct.eq hd he he' (hh.trans h1.symm)
    rw [this, h2]
  · exact absurd hh (h1 e he)

/-- the primary key is the key of the primary version -/
theorem Czar.primaryKey_spec {c : Czar} (hi : c.Inv P) :
    c.primaryKey = match c.keySet.primaries with
      | [] => .error .keyNotFound
      | e :: _ => .ok e.key := by
  have hmem : ∀ e, e ∈ c.keySet.primaries ↔ e.status = .PRIMARY ∧ ∃ p ∈ c.metadata.versions, c.entryOf p = e := by
    intro e
    unfold Spec.KeySet.primaries Czar.keySet
    rw [List.mem_filter, List.mem_map, decide_eq_true_eq]
    tauto
  unfold Czar.primaryKey Czar.GetKeyByVersion
  cases hl : c.keySet.primaries with
  | nil =>
    simp only
    cases hp : c.primary with
    | none => rfl
    | some o =>
      simp only
      cases ho : assocGet c.vkeys o with
      | none => rfl
      | some k =>
        exfalso
        have hm : o ∈ c.versions := List.mem_map.mpr ⟨_, assocGet_mem ho, rfl⟩
        obtain ⟨h1, n, h2⟩ := hi.primary_is o hp hm
        have : c.entryOf (n, o) ∈ c.keySet.primaries := (hmem _).mpr ⟨h1, _, h2, rfl⟩
        rw [hl] at this
        cases this
  | cons e t =>
    simp only
    have he : e ∈ c.keySet.primaries := by rw [hl]; simp
    obtain ⟨hs, p, hp, rfl⟩ := (hmem e).mp he
    rw [hi.primary_of p hp hs]
    obtain ⟨k, hk⟩ := hi.key_some hp
    simp only [hk]
    unfold Czar.entryOf
    simp [hk]

end Verif
