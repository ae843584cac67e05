import Verif.Lemmas.Names
import Verif.Lemmas.Czar
import Verif.Lemmas.JsonWF
/-
Reading metadata and loading key sets.
-/
namespace Verif
open Spec (Entry KeySet firstOfEach)

/-! ### metadata documents -/

/-- the version records of a metadata object -/
def KeyMetadata.view (h : Heap) (kmd : KeyMetadata) : KeySet.View :=
  ⟨kmd.name, kmd.purpose, kmd.type, kmd.encrypted, kmd.versions.map fun p => h.obj p.2⟩

/-- the JSON document of a metadata object -/
def viewJson (v : KeySet.View) : Json :=
  jobj [("name", v.name), ("purpose", Json.ofString v.purpose.name),
    ("type", Json.ofString v.type.name), ("encrypted", v.encrypted),
    ("versions", .arr (v.versions.map KeyVersion.json))]

theorem KeyVersion.json_WF {v : KeyVersion} (h : v.exportable.WF) : v.json.WF := by
  unfold KeyVersion.json
  apply jobj_WF
  · simp
  · intro p hp
    simp at hp
    rcases hp with rfl | rfl | rfl
    · trivial
    · trivial
    · exact h

theorem mapM_loads (h : Heap) (l : List (Int × Nat)) (hw : ∀ p ∈ l, (h.obj p.2).exportable.WF) :
    l.mapM (fun p => loads (h.obj p.2).str) = .ok (l.map fun p => (h.obj p.2).json) := by
  induction l with
  | nil => rfl
  | cons a t ih =>
    rw [List.mapM_cons, show loads (h.obj a.2).str = .ok (h.obj a.2).json from
      loads_dumps _ (KeyVersion.json_WF (hw a (by simp))), ih (fun p hp => hw p (by simp [hp]))]
    rfl

theorem KeyMetadata.str_eq (h : Heap) (kmd : KeyMetadata)
    (hw : ∀ p ∈ kmd.versions, (h.obj p.2).exportable.WF) :
    kmd.str h = .ok (dumps (viewJson (kmd.view h))) := by
  unfold KeyMetadata.str
  rw [mapM_loads h _ hw]
  unfold viewJson KeyMetadata.view
  simp only [List.map_map]
  rfl

/-- what a parsed document says, before duplicates are dropped -/
def docOf (m : Json) : Py KeySet.View := do
  let name ← m.get "name"
  let purpose ← GetPurpose (← m.get "purpose")
  let type ← GetType (← m.get "type")
  let encrypted ← m.get "encrypted"
  let items ← jsonItems (← m.get "versions")
  let vs ← items.mapM KeyVersion.Read
  return ⟨name, purpose, type, encrypted, vs⟩

/-- adding a list of new KeyVersion objects -/
def addAll : List KeyVersion → Heap → KeyMetadata → KeyMetadata × Heap
  | [], h, kmd => (kmd, h)
  | v :: t, h, kmd => addAll t (h.alloc v) (kmd.AddVersion (h.alloc v) h.next)

theorem readVersions_eq (l : List Json) (h : Heap) (kmd : KeyMetadata) :
    readVersions l h kmd = (l.mapM KeyVersion.Read).map fun vs => addAll vs h kmd := by
  induction l generalizing h kmd with
  | nil => rfl
  | cons a t ih =>
    rw [readVersions, List.mapM_cons]
    cases hv : KeyVersion.Read a with
    | error e => rfl
    | ok v =>
      simp only [bind, Except.bind, ih]
      cases List.mapM KeyVersion.Read t <;> rfl

theorem KeyMetadata.Read_eq (text : Bytes) :
    KeyMetadata.Read text = do
      let d ← docOf (← loads text)
      return addAll d.versions Heap.empty ⟨d.name, d.purpose, d.type, d.encrypted, []⟩ := by
  unfold KeyMetadata.Read docOf
  simp only [readVersions_eq, bind, Except.bind, pure, Except.pure]
  cases loads text with
  | error e => rfl
  | ok m =>
    simp only
    cases m.get "name" with
    | error e => rfl
    | ok name =>
      simp only
      cases m.get "purpose" with
      | error e => rfl
      | ok p =>
        simp only
        cases GetPurpose p with
        | error e => rfl
        | ok p =>
          simp only
          cases m.get "type" with
          | error e => rfl
          | ok t =>
            simp only
            cases GetType t with
            | error e => rfl
            | ok t =>
              simp only
              cases m.get "encrypted" with
              | error e => rfl
              | ok enc =>
                simp only
                cases m.get "versions" with
                | error e => rfl
                | ok vs =>
                  simp only
                  cases jsonItems vs with
                  | error e => rfl
                  | ok items =>
                    simp only
                    cases List.mapM KeyVersion.Read items <;> rfl

/-- metadata objects whose version objects are live, distinct and correctly indexed -/
structure MetaOk (h : Heap) (kmd : KeyMetadata) : Prop where
  num : ∀ p ∈ kmd.versions, (h.obj p.2).num = p.1
  lt : ∀ p ∈ kmd.versions, p.2 < h.next
  nodup : (kmd.versions.map Prod.fst).Nodup
  onodup : (kmd.versions.map Prod.snd).Nodup

theorem MetaOk.alloc {h : Heap} {kmd : KeyMetadata} (hm : MetaOk h kmd) (v : KeyVersion) :
    MetaOk (h.alloc v) kmd where
  num := by
    intro p hp
    have := hm.lt p hp
    simp only [Heap.alloc]
    rw [if_neg (by omega)]
    exact hm.num p hp
  lt := by intro p hp; have := hm.lt p hp; simp only [Heap.alloc]; omega
  nodup := hm.nodup
  onodup := hm.onodup

theorem view_alloc {h : Heap} {kmd : KeyMetadata} (hm : MetaOk h kmd) (v : KeyVersion) :
    kmd.view (h.alloc v) = kmd.view h := by
  unfold KeyMetadata.view
  congr 1
  apply List.map_congr_left
  intro p hp
  have := hm.lt p hp
  simp only [Heap.alloc]
  rw [if_neg (by omega)]

theorem AddVersion_alloc {h : Heap} {kmd : KeyMetadata} (hm : MetaOk h kmd) (v : KeyVersion) :
    MetaOk (h.alloc v) (kmd.AddVersion (h.alloc v) h.next) ∧
    (kmd.AddVersion (h.alloc v) h.next).view (h.alloc v) =
      if v.num ∈ (kmd.view h).versions.map KeyVersion.num then kmd.view h
      else { kmd.view h with versions := (kmd.view h).versions ++ [v] } := by
  have hobj : (h.alloc v).obj h.next = v := by simp [Heap.alloc]
  have hmem : v.num ∈ (kmd.view h).versions.map KeyVersion.num ↔ v.num ∈ kmd.versions.map Prod.fst := by
    unfold KeyMetadata.view
    simp only [List.map_map]
    rw [show List.map (KeyVersion.num ∘ fun p : Int × Nat => h.obj p.2) kmd.versions = kmd.versions.map Prod.fst from
      List.map_congr_left fun p hp => hm.num p hp]
  unfold KeyMetadata.AddVersion
  simp only [hobj]
  cases hg : assocGet kmd.versions v.num with
  | some o =>
    simp only
    refine ⟨hm.alloc v, ?_⟩
    rw [if_pos (hmem.mpr (assocGet_isSome.mp (by rw [hg]; rfl)))]
    exact view_alloc hm v
  | none =>
    simp only
    have hnot := assocGet_none.mp hg
    rw [if_neg (fun x => hnot (hmem.mp x))]
    have hm' := hm.alloc v
    refine ⟨⟨?_, ?_, ?_, ?_⟩, ?_⟩
    · intro p hp
      rcases List.mem_append.mp hp with hp | hp
      · exact hm'.num p hp
      · simp at hp; subst hp; exact congrArg _ hobj
    · intro p hp
      rcases List.mem_append.mp hp with hp | hp
      · exact hm'.lt p hp
      · simp at hp; subst hp; simp [Heap.alloc]
    · simp only [List.map_append, List.map_cons, List.map_nil]
      rw [List.nodup_append]
      refine ⟨hm.nodup, by simp, ?_⟩
      intro a ha b hb
      simp at hb; subst hb
      rintro rfl
      exact hnot ha
    · simp only [List.map_append, List.map_cons, List.map_nil]
      rw [List.nodup_append]
      refine ⟨hm.onodup, by simp, ?_⟩
      intro a ha b hb
      simp at hb; subst hb
      obtain ⟨p, hp, rfl⟩ := List.mem_map.mp ha
      have := hm.lt p hp
      omega
    · have := view_alloc hm v
      unfold KeyMetadata.view at this ⊢
      simp only [KeySet.View.mk.injEq, true_and] at this
      simp only [List.map_append, List.map_cons, List.map_nil, this, hobj]

theorem addAll_spec (vs : List KeyVersion) {h : Heap} {kmd : KeyMetadata} (hm : MetaOk h kmd) :
    MetaOk (addAll vs h kmd).2 (addAll vs h kmd).1 ∧
    (addAll vs h kmd).1.view (addAll vs h kmd).2 = { kmd.view h with
      versions := (kmd.view h).versions ++
        (firstOfEach vs).filter (fun w => w.num ∉ (kmd.view h).versions.map KeyVersion.num) } := by
  induction vs generalizing h kmd with
  | nil => exact ⟨hm, by simp [addAll, firstOfEach]⟩
  | cons v t ih =>
    obtain ⟨h1, h2⟩ := AddVersion_alloc hm v
    obtain ⟨h3, h4⟩ := ih h1
    refine ⟨h3, ?_⟩
    rw [addAll, h4, h2, firstOfEach]
    split
    · next hin =>
      simp only [List.filter_cons, hin, not_true_eq_false, decide_false, Bool.false_eq_true, if_false,
        List.filter_filter]
      congr 2
      apply List.filter_congr
      intro w _
      by_cases e : w.num = v.num
      · simp [e] at hin ⊢; tauto
      · simp [e]
    · next hin =>
      simp only [List.filter_cons, hin, not_false_eq_true, decide_true, if_true,
        List.filter_filter, List.append_assoc, List.singleton_append]
      congr 3
      apply List.filter_congr
      intro w _
      simp only [List.map_append, List.map_cons, List.map_nil, List.mem_append, List.mem_singleton, not_or]
      rw [Bool.eq_iff_iff]
      simp only [decide_eq_true_eq, Bool.and_eq_true]

theorem MetaOk.empty (name : Json) (p : KeyPurpose) (t : KeyType) (e : Json) :
    MetaOk Heap.empty ⟨name, p, t, e, []⟩ := ⟨by simp, by simp, by simp, by simp⟩

/-- reading metadata: the records of the document, first of each number -/
theorem KeyMetadata.Read_ok {text : Bytes} {kmd : KeyMetadata} {h : Heap} (hr : KeyMetadata.Read text = .ok (kmd, h)) :
    MetaOk h kmd ∧ ∃ m d, loads text = .ok m ∧ docOf m = .ok d ∧
      kmd.view h = { d with versions := firstOfEach d.versions } := by
  rw [KeyMetadata.Read_eq] at hr
  obtain ⟨m, hl, hr⟩ := bind_ok hr
  obtain ⟨d, hd, hr⟩ := bind_ok hr
  have hr := Except.ok.inj hr
  obtain ⟨h1, h2⟩ := addAll_spec d.versions (MetaOk.empty d.name d.purpose d.type d.encrypted)
  rw [hr] at h1 h2
  refine ⟨h1, m, d, hl, hd, ?_⟩
  rw [h2]
  unfold KeyMetadata.view
  simp

theorem KeyMetadata.Read_of_doc {text : Bytes} {m : Json} {d : KeySet.View} (hl : loads text = .ok m)
    (hd : docOf m = .ok d) :
    ∃ kmd h, KeyMetadata.Read text = .ok (kmd, h) ∧ MetaOk h kmd ∧
      kmd.view h = { d with versions := firstOfEach d.versions } := by
  have hr : KeyMetadata.Read text =
      .ok (addAll d.versions Heap.empty ⟨d.name, d.purpose, d.type, d.encrypted, []⟩) := by
    rw [KeyMetadata.Read_eq, hl]
    show (docOf m >>= _) = _
    rw [hd]
    rfl
  obtain ⟨h1, h2⟩ := addAll_spec d.versions (MetaOk.empty d.name d.purpose d.type d.encrypted)
  refine ⟨_, _, hr, h1, ?_⟩
  rw [h2]
  unfold KeyMetadata.view
  simp

theorem KeyVersion.Read_json (v : KeyVersion) : KeyVersion.Read v.json = .ok v := by
  unfold KeyVersion.Read KeyVersion.json
  simp only [jget_cons, bind, Except.bind, pure, Except.pure]
  simp [GetStatus_name]

theorem mapM_Read_json (vs : List KeyVersion) : (vs.map KeyVersion.json).mapM KeyVersion.Read = .ok vs := by
  induction vs with
  | nil => rfl
  | cons a t ih =>
    rw [List.map_cons, List.mapM_cons, KeyVersion.Read_json, ih]
    rfl

theorem docOf_viewJson (v : KeySet.View) : docOf (viewJson v) = .ok v := by
  unfold docOf viewJson
  simp only [jget_cons, bind, Except.bind, pure, Except.pure]
  simp [GetPurpose_name, GetType_name, jsonItems, -List.mapM_map, mapM_Read_json]

/-- records that can be serialised -/
structure _root_.Verif.Spec.KeySet.View.WF (v : KeySet.View) : Prop where
  name : v.name.WF
  encrypted : v.encrypted.WF
  versions : ∀ x ∈ v.versions, x.exportable.WF

theorem WFElems_of {l : List Json} (h : ∀ j ∈ l, j.WF) : WFElems l := by
  induction l with
  | nil => trivial
  | cons a t ih => exact ⟨h a (by simp), ih fun j hj => h j (by simp [hj])⟩

theorem viewJson_WF {v : KeySet.View} (h : v.WF) : (viewJson v).WF := by
  unfold viewJson
  apply jobj_WF
  · simp
  · intro p hp
    simp at hp
    rcases hp with rfl | rfl | rfl | rfl | rfl
    · exact h.name
    · trivial
    · trivial
    · exact h.encrypted
    · apply WFElems_of
      intro j hj
      obtain ⟨x, hx, rfl⟩ := List.mem_map.mp hj
      exact KeyVersion.json_WF (h.versions x hx)

theorem firstOfEach_nodup {l : List KeyVersion} (h : (l.map KeyVersion.num).Nodup) : firstOfEach l = l := by
  induction l with
  | nil => rfl
  | cons a t ih =>
    rw [List.map_cons, List.nodup_cons] at h
    rw [firstOfEach, ih h.2]
    congr 1
    rw [List.filter_eq_self]
    intro w hw
    rw [decide_eq_true_eq]
    rintro e
    exact h.1 (by rw [← e]; exact List.mem_map.mpr ⟨w, hw, rfl⟩)

/-- reading back a document written from records with distinct numbers -/
theorem KeyMetadata.Read_viewJson {v : KeySet.View} (hw : v.WF) (hn : (v.versions.map KeyVersion.num).Nodup) :
    ∃ kmd h, KeyMetadata.Read (dumps (viewJson v)) = .ok (kmd, h) ∧ MetaOk h kmd ∧ kmd.view h = v := by
  obtain ⟨kmd, h, h1, h2, h3⟩ := KeyMetadata.Read_of_doc (loads_dumps _ (viewJson_WF hw)) (docOf_viewJson v)
  refine ⟨kmd, h, h1, h2, ?_⟩
  rw [h3, firstOfEach_nodup hn]

theorem mem_firstOfEach {l : List KeyVersion} {v : KeyVersion} (h : v ∈ firstOfEach l) : v ∈ l := by
  induction l with
  | nil => exact h
  | cons a t ih =>
    rw [firstOfEach] at h
    rcases List.mem_cons.mp h with rfl | h
    · simp
    · exact List.mem_cons_of_mem _ (ih (List.mem_filter.mp h).1)

theorem KeyVersion.Read_WF {j : Json} {v : KeyVersion} (hj : j.WF) (h : KeyVersion.Read j = .ok v) :
    v.exportable.WF := by
  unfold KeyVersion.Read at h
  obtain ⟨n, h1, h⟩ := bind_ok h
  obtain ⟨s, h2, h⟩ := bind_ok h
  obtain ⟨st, h3, h⟩ := bind_ok h
  obtain ⟨e, h4, h⟩ := bind_ok h
  have := get_WF hj h4
  split at h
  · cases h; exact this
  · cases h

theorem mapM_ok_mem {α β} {f : α → Py β} {l : List α} {r : List β} (h : l.mapM f = .ok r) :
    List.Forall₂ (fun a b => f a = .ok b) l r := by
  induction l generalizing r with
  | nil => cases h; exact .nil
  | cons a t ih =>
    rw [List.mapM_cons] at h
    obtain ⟨b, h1, h⟩ := bind_ok h
    obtain ⟨bs, h2, h⟩ := bind_ok h
    cases h
    exact .cons h1 (ih h2)

theorem jsonItems_WF {j : Json} {l : List Json} (hj : j.WF) (h : jsonItems j = .ok l) : WFElems l := by
  unfold jsonItems at h
  split at h
  · cases h; exact hj
  · split at h <;> cases h; trivial
  · split at h <;> cases h; trivial
  · cases h

theorem Forall₂_Read_WF {items : List Json} {vs : List KeyVersion}
    (hf : List.Forall₂ (fun a b => KeyVersion.Read a = .ok b) items vs) (hi : WFElems items) :
    ∀ x ∈ vs, x.exportable.WF := by
  induction hf with
  | nil => simp
  | cons hab _ ih =>
    intro x hx
    rcases List.mem_cons.mp hx with rfl | hx
    · exact KeyVersion.Read_WF hi.1 hab
    · exact ih hi.2 x hx

theorem docOf_WF {m : Json} {d : KeySet.View} (hm : m.WF) (h : docOf m = .ok d) : d.WF := by
  unfold docOf at h
  obtain ⟨name, h1, h⟩ := bind_ok h
  obtain ⟨p, h2, h⟩ := bind_ok h
  obtain ⟨p', h3, h⟩ := bind_ok h
  obtain ⟨t, h4, h⟩ := bind_ok h
  obtain ⟨t', h5, h⟩ := bind_ok h
  obtain ⟨enc, h6, h⟩ := bind_ok h
  obtain ⟨vs, h7, h⟩ := bind_ok h
  obtain ⟨items, h8, h⟩ := bind_ok h
  obtain ⟨vs', h9, h⟩ := bind_ok h
  cases h
  refine ⟨get_WF hm h1, get_WF hm h6, ?_⟩
  exact Forall₂_Read_WF (mapM_ok_mem h9) (jsonItems_WF (get_WF hm h7) h8)

theorem KeyMetadata.Read_WF {text : Bytes} {kmd : KeyMetadata} {h : Heap} (hr : KeyMetadata.Read text = .ok (kmd, h)) :
    (kmd.view h).WF := by
  obtain ⟨_, m, d, hl, hd, hv⟩ := KeyMetadata.Read_ok hr
  have := docOf_WF (loads_WF hl) hd
  rw [hv]
  exact ⟨this.name, this.encrypted, fun x hx => this.versions x (mem_firstOfEach hx)⟩


/-! ### loading keys -/
variable (P : Prims)

/-- the reader delivers key `k` for version number `n` -/
def Reader.Delivers (r : Reader) (t : KeyType) (n : Int) (k : Key) : Prop :=
  ∃ text, r.GetKey n = .ok text ∧ ReadKey t text = .ok k ∧ ∃ hash, k.hashId P = .ok hash

/-- identifier of a key (empty if it cannot be computed) -/
def Key.ident (k : Key) : Bytes := match k.hashId P with
  | .ok h => h
  | .error _ => []

/-- the object after loading `keys` for the version objects `l` -/
def loaded (c : Czar) (l : List (Int × Nat)) (keys : List Key) : Czar :=
  { c with
    primary := (c.primary.toList ++ (l.map Prod.snd).filter fun o => (c.heap.obj o).status = .PRIMARY).head?
    vkeys := c.vkeys ++ List.zip (l.map Prod.snd) keys
    hkeys := keys.foldl (fun m k => assocSet m (k.ident P) k) c.hkeys }

variable {P}

/-- loading when all key files are readable -/
theorem loadKeys_readable (r : Reader) (l : List (Int × Nat)) (keys : List Key) (c : Czar)
    (hr : List.Forall₂ (fun p k => r.Delivers P c.metadata.type (c.heap.obj p.2).num k) l keys)
    (hn : (c.versions ++ l.map Prod.snd).Nodup) :
    loadKeys P r l c =
      if (c.primary.toList ++ (l.map Prod.snd).filter fun o => (c.heap.obj o).status = .PRIMARY).length ≤ 1
      then .ok (loaded P c l keys) else .error .keyczarError := by
  induction l generalizing c keys with
  | nil =>
    cases hr
    have h1 : (c.primary.toList ++ List.filter (fun o => decide ((c.heap.obj o).status = .PRIMARY))
        (List.map Prod.snd ([] : List (Int × Nat)))).length ≤ 1 := by
      cases c.primary <;> simp
    rw [if_pos h1, loadKeys, loaded]
    congr 1
    cases c with
    | mk heap md vk hk pr => cases pr <;> simp
  | cons p t ih =>
    obtain ⟨n, o⟩ := p
    cases hr with
    | @cons _ k _ ks hd htl =>
    obtain ⟨text, h1, h2, hash, h3⟩ := hd
    have hid : k.ident P = hash := by unfold Key.ident; rw [h3]
    rw [List.map_cons] at hn
    have hov : o ∉ c.vkeys.map Prod.fst := by
      intro hx
      exact (List.nodup_append.mp hn).2.2 o hx o (by simp) rfl
    rw [loadKeys]
    simp only
    by_cases hs : (c.heap.obj o).status = .PRIMARY
    · rw [if_pos hs]
      cases hp : c.primary with
      | some q =>
        simp only [Option.isSome_some, if_true, bind, Except.bind]
        rw [if_neg]
        simp only [Option.toList_some, List.map_cons, List.length_append, List.length_singleton, List.filter_cons,
          hs, decide_true, if_true, List.length_cons]
        omega
      | none =>
        simp only [Option.isSome_none, Bool.false_eq_true, if_false, bind, Except.bind, h1, h2, h3]
        rw [assocSet_new hov, ih ks ⟨c.heap, c.metadata, c.vkeys ++ [(o, k)], assocSet c.hkeys hash k, some o⟩ htl]
        · simp only [List.map_cons, List.filter_cons, hs, decide_true, if_true, Option.toList_some,
            Option.toList_none, List.nil_append, List.singleton_append, loaded, List.foldl_cons, hid,
            List.zip_cons_cons, List.append_assoc, hp]
        · simp only [Czar.versions, List.map_append, List.map_cons, List.map_nil, List.append_assoc,
            List.singleton_append]
          exact hn
    · rw [if_neg hs]
      simp only [bind, Except.bind, h1, h2, h3]
      rw [assocSet_new hov, ih ks ⟨c.heap, c.metadata, c.vkeys ++ [(o, k)], assocSet c.hkeys hash k, c.primary⟩ htl]
      · simp only [List.map_cons, List.filter_cons, hs, decide_false, Bool.false_eq_true, if_false,
          List.singleton_append, loaded, List.foldl_cons, hid,
          List.zip_cons_cons, List.append_assoc]
      · simp only [Czar.versions, List.map_append, List.map_cons, List.map_nil, List.append_assoc,
          List.singleton_append]
        exact hn

/-- a successful load read every key -/
theorem loadKeys_ok {r : Reader} {l : List (Int × Nat)} {c c' : Czar} (h : loadKeys P r l c = .ok c') :
    ∃ keys, List.Forall₂ (fun p k => r.Delivers P c.metadata.type (c.heap.obj p.2).num k) l keys := by
  induction l generalizing c with
  | nil => exact ⟨[], .nil⟩
  | cons p t ih =>
    obtain ⟨n, o⟩ := p
    rw [loadKeys] at h
    simp only at h
    split at h
    · obtain ⟨pr, h0, h⟩ := bind_ok h
      obtain ⟨text, h1, h⟩ := bind_ok h
      obtain ⟨k, h2, h⟩ := bind_ok h
      obtain ⟨hash, h3, h⟩ := bind_ok h
      obtain ⟨ks, hks⟩ := ih h
      exact ⟨k :: ks, .cons ⟨text, h1, h2, hash, h3⟩ hks⟩
    · obtain ⟨pr, h0, h⟩ := bind_ok h
      obtain ⟨text, h1, h⟩ := bind_ok h
      obtain ⟨k, h2, h⟩ := bind_ok h
      obtain ⟨hash, h3, h⟩ := bind_ok h
      obtain ⟨ks, hks⟩ := ih h
      exact ⟨k :: ks, .cons ⟨text, h1, h2, hash, h3⟩ hks⟩

theorem foldl_assocSet_get {keys : List Key} {m : List (Bytes × Key)} {hs : Bytes} {k : Key}
    (h : assocGet (keys.foldl (fun m k => assocSet m (k.ident P) k) m) hs = some k) :
    (k ∈ keys ∧ k.ident P = hs) ∨ assocGet m hs = some k := by
  induction keys generalizing m with
  | nil => exact .inr h
  | cons a t ih =>
    rcases ih h with ⟨h1, h2⟩ | h1
    · exact .inl ⟨List.mem_cons_of_mem _ h1, h2⟩
    · rw [assocGet_set] at h1
      split at h1
      · next e => cases h1; exact .inl ⟨by simp, e⟩
      · exact .inr h1

theorem foldl_assocSet_mem {keys : List Key} {m : List (Bytes × Key)} {hs : Bytes}
    (h : (∃ k ∈ keys, k.ident P = hs) ∨ (assocGet m hs).isSome) :
    (assocGet (keys.foldl (fun m k => assocSet m (k.ident P) k) m) hs).isSome := by
  induction keys generalizing m with
  | nil =>
    rcases h with ⟨k, hk, _⟩ | h
    · cases hk
    · exact h
  | cons a t ih =>
    apply ih
    rw [assocGet_set]
    by_cases e : a.ident P = hs
    · right; rw [if_pos e]; rfl
    · rw [if_neg e]
      rcases h with ⟨k, hk, he⟩ | h
      · rcases List.mem_cons.mp hk with rfl | hk
        · exact absurd he e
        · exact .inl ⟨k, hk, he⟩
      · exact .inr h

/-- a freshly loaded object: `_keys` holds exactly the versions of the metadata -/
def Czar.Fresh (c : Czar) : Prop := c.versions = c.metadata.versions.map Prod.snd

theorem zip_map_fst {α β} {l : List α} {m : List β} (h : l.length = m.length) : (List.zip l m).map Prod.fst = l :=
  List.map_fst_zip (by omega)

theorem Forall₂.length_eq' {α β} {R : α → β → Prop} {l : List α} {m : List β} (h : List.Forall₂ R l m) :
    l.length = m.length := by induction h <;> simp_all

/-- key of the entry made by loading -/
theorem loaded_entries {h : Heap} {kmd : KeyMetadata} {keys : List Key} (hm : MetaOk h kmd)
    (hl : kmd.versions.length = keys.length) :
    (loaded P ⟨h, kmd, [], [], none⟩ kmd.versions keys).keySet =
      ⟨kmd.name, kmd.purpose, kmd.type, kmd.encrypted,
       List.zipWith (fun p k => (⟨(h.obj p.2).num, (h.obj p.2).status, (h.obj p.2).exportable, k⟩ : Entry))
         kmd.versions keys⟩ := by
  unfold Czar.keySet
  simp only [loaded]
  congr 1
  unfold Czar.entryOf
  simp only [List.nil_append]
  have key : ∀ (l : List (Int × Nat)) (ks : List Key), l.length = ks.length →
      (l.map Prod.snd).Nodup → (∀ p ∈ l, (h.obj p.2).num = p.1) → ∀ (pre : List (Nat × Key)),
      (∀ p ∈ l, p.2 ∉ pre.map Prod.fst) →
      l.map (fun p => (⟨p.1, (h.obj p.2).status, (h.obj p.2).exportable,
        (assocGet (pre ++ List.zip (l.map Prod.snd) ks) p.2).getD default⟩ : Entry)) =
      List.zipWith (fun p k => (⟨(h.obj p.2).num, (h.obj p.2).status, (h.obj p.2).exportable, k⟩ : Entry)) l ks := by
    intro l
    induction l with
    | nil => intro ks _ _ _ _ _; simp
    | cons a t ih =>
      intro ks hl hn hnum pre hpre
      cases ks with
      | nil => simp at hl
      | cons k ks =>
        obtain ⟨n, o⟩ := a
        simp only [List.map_cons, List.nodup_cons] at hn
        simp only [List.map_cons, List.zip_cons_cons, List.zipWith_cons_cons]
        congr 1
        · congr 1
          · exact (hnum (n, o) (by simp)).symm
          · rw [assocGet_append, assocGet_none.mpr (hpre (n, o) (by simp)), Option.none_or, assocGet_cons, if_pos rfl]
            rfl
        · have := ih ks (by simpa using hl) hn.2 (fun p hp => hnum p (by simp [hp])) (pre ++ [(o, k)]) (by
            intro p hp hx
            rw [List.map_append, List.mem_append] at hx
            rcases hx with hx | hx
            · exact hpre p (by simp [hp]) hx
            · simp at hx
              exact hn.1 (hx ▸ List.mem_map.mpr ⟨p, hp, rfl⟩))
          rw [List.append_assoc, List.singleton_append] at this
          exact this
  exact key kmd.versions keys hl hm.onodup hm.num [] (by simp)

theorem Forall₂.mem_right {α β} {R : α → β → Prop} {l : List α} {m : List β} (h : List.Forall₂ R l m) :
    ∀ b ∈ m, ∃ a ∈ l, R a b := by
  induction h with
  | nil => simp
  | cons hab _ ih =>
    intro b hb
    rcases List.mem_cons.mp hb with rfl | hb
    · exact ⟨_, by simp, hab⟩
    · obtain ⟨a, ha, h⟩ := ih b hb; exact ⟨a, by simp [ha], h⟩

/-- loading establishes the invariant -/
theorem loaded_inv {r : Reader} {h : Heap} {kmd : KeyMetadata} {keys : List Key} (hm : MetaOk h kmd)
    (hr : List.Forall₂ (fun p k => r.Delivers P kmd.type (h.obj p.2).num k) kmd.versions keys)
    (hp : ((kmd.versions.map Prod.snd).filter fun o => (h.obj o).status = .PRIMARY).length ≤ 1) :
    (loaded P ⟨h, kmd, [], [], none⟩ kmd.versions keys).Inv P ∧
    (loaded P ⟨h, kmd, [], [], none⟩ kmd.versions keys).Fresh := by
  have hlen := Forall₂.length_eq' hr
  have hvs : (loaded P ⟨h, kmd, [], [], none⟩ kmd.versions keys).versions = kmd.versions.map Prod.snd := by
    unfold Czar.versions
    simp only [loaded, List.nil_append]
    exact zip_map_fst (by simpa using hlen)
  have hid : ∀ k ∈ keys, ∃ hash, k.hashId P = .ok hash ∧ k.ident P = hash := by
    intro k hk
    obtain ⟨p, _, text, _, _, hash, h3⟩ := Forall₂.mem_right hr k hk
    exact ⟨hash, h3, by unfold Key.ident; rw [h3]⟩
  have hkey : ∀ k ∈ keys, ∃ o, assocGet (List.zip (kmd.versions.map Prod.snd) keys) o = some k := by
    intro k hk
    obtain ⟨i, hi, rfl⟩ := List.getElem_of_mem hk
    have hi' : i < kmd.versions.length := by omega
    refine ⟨(kmd.versions[i]).2, ?_⟩
    apply assocGet_of_mem
    · rw [zip_map_fst (by simpa using hlen)]; exact hm.onodup
    · rw [List.mem_iff_getElem]
      refine ⟨i, by simp; omega, ?_⟩
      simp
  have hzip : ∀ p ∈ List.zip (kmd.versions.map Prod.snd) keys, p.2 ∈ keys := by
    intro p hp
    exact (List.of_mem_zip (a := p.1) (b := p.2) hp).2
  have hprim : (loaded P ⟨h, kmd, [], [], none⟩ kmd.versions keys).primary =
      ((kmd.versions.map Prod.snd).filter fun o => (h.obj o).status = .PRIMARY).head? := rfl
  have hpm : ∀ o, (loaded P ⟨h, kmd, [], [], none⟩ kmd.versions keys).primary = some o →
      o ∈ kmd.versions.map Prod.snd ∧ (h.obj o).status = .PRIMARY := by
    intro o ho
    rw [hprim] at ho
    have := List.mem_of_mem_head? ho
    rw [List.mem_filter] at this
    exact ⟨this.1, of_decide_eq_true this.2⟩
  refine ⟨?_, hvs⟩
  constructor
  · exact hm.num
  · exact hm.nodup
  · intro p hp; rw [hvs]; exact List.mem_map.mpr ⟨p, hp, rfl⟩
  · rw [hvs]; exact hm.onodup
  · rw [hvs]
    intro o ho
    obtain ⟨p, hp, rfl⟩ := List.mem_map.mp ho
    exact hm.lt p hp
  · rw [hvs]
    intro o ho o' ho' e
    obtain ⟨p, hp, rfl⟩ := List.mem_map.mp ho
    obtain ⟨q, hq, rfl⟩ := List.mem_map.mp ho'
    have e' : (h.obj p.2).num = (h.obj q.2).num := e
    rw [hm.num p hp, hm.num q hq] at e'
    obtain ⟨pn, po⟩ := p
    obtain ⟨qn, qo⟩ := q
    simp only at e'
    subst e'
    have h1 := assocGet_of_mem hm.nodup hp
    rw [assocGet_of_mem hm.nodup hq] at h1
    exact (Option.some.inj h1).symm
  · intro o ho
    obtain ⟨p, hp, rfl⟩ := List.mem_map.mp (hpm o ho).1
    exact hm.lt p hp
  · intro p hp' e
    have hmem : p.2 ∈ (kmd.versions.map Prod.snd).filter fun o => (h.obj o).status = .PRIMARY :=
      List.mem_filter.mpr ⟨List.mem_map.mpr ⟨p, hp', rfl⟩, decide_eq_true e⟩
    rw [hprim]
    generalize (kmd.versions.map Prod.snd).filter (fun o => decide ((h.obj o).status = .PRIMARY)) = l at *
    match l, hp, hmem with
    | [a], _, hmem => simp at hmem; simp [hmem]
  · intro o ho _
    obtain ⟨h1, h2⟩ := hpm o ho
    obtain ⟨p, hp, rfl⟩ := List.mem_map.mp h1
    exact ⟨h2, p.1, hp⟩
  · intro hs k hk
    rcases foldl_assocSet_get hk with ⟨h1, h2⟩ | h1
    · obtain ⟨hash, h3, h4⟩ := hid k h1
      refine ⟨by rw [h3, ← h2, h4], ?_⟩
      obtain ⟨o, ho⟩ := hkey k h1
      exact ⟨o, by simpa [loaded] using ho⟩
    · cases h1
  · intro p hp'
    have hk := hzip p (by simpa [loaded] using hp')
    obtain ⟨hash, h3, h4⟩ := hid _ hk
    refine ⟨hash, h3, ?_⟩
    exact foldl_assocSet_mem (.inl ⟨p.2, hk, h4⟩)
  · intro p hp'
    have hk := hzip p (by simpa [loaded] using hp')
    obtain ⟨q, _, text, _, h2, _⟩ := Forall₂.mem_right hr p.2 hk
    exact ReadKey_Ok h2

/-! the names of keyinfo.py are the words of the file format -/
theorem statusWord_eq (s : KeyStatus) : Spec.statusWord s = s.name := by cases s <;> rfl
theorem purposeWord_eq (s : KeyPurpose) : Spec.purposeWord s = s.name := by cases s <;> rfl
theorem typeWord_eq (s : KeyType) : Spec.typeWord s = s.name := by cases s <;> rfl
theorem modeWord_eq (s : CipherMode) : Spec.modeWord s = s.name := by cases s <;> rfl

end Verif
