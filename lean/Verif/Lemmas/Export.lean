import Verif.Lemmas.History
import Verif.Spec.Export
/-
What `PublicKeyExport` writes.
-/
namespace Verif
open Spec (Entry KeySet IsPublicHalf Exports)
variable {P : Prims}

/-- the public half (of a private key) -/
def Key.half : Key → Key
  | .rsaPriv k => .rsaPub k.pub
  | .dsaPriv k => .dsaPub k.pub
  | k => k

/-- RSA_PRIV and DSA_PRIV -/
def KeyType.isPrivate : KeyType → Bool
  | .RSA_PRIV | .DSA_PRIV => true
  | _ => false

theorem Key.publicKey_eq {k : Key} (h : k.type.isPrivate = true) : k.publicKey = .ok k.half := by
  cases k <;> first | rfl | cases h

theorem Key.half_isHalf {k : Key} (h : k.type.isPrivate = true) : IsPublicHalf k k.half := by
  cases k <;> first | exact .rsa _ | exact .dsa _ | cases h

theorem Key.half_ok {k : Key} (h : k.Ok) : k.half.Ok := by
  cases k with
  | rsaPriv k => exact h.1
  | dsaPriv k => exact h.1
  | _ => exact h

theorem Key.half_hashId (k : Key) : k.half.hashId P = k.hashId P := by cases k <;> rfl

/-- the version the export makes for a version object -/
def Czar.publicEntry (c : Czar) (o : Nat) : Entry :=
  ⟨(c.heap.obj o).num, (c.heap.obj o).status, (c.heap.obj o).exportable,
    ((assocGet c.vkeys o).getD default).half⟩

/-- the file the export makes for a version object -/
def Czar.publicWrite (c : Czar) (dest : Loc) (o : Nat) : Effect :=
  .write dest (.key (c.heap.obj o).num) (dumps (c.publicEntry o).key.json)

theorem exportKeys_spec {dest : Loc} {c : Czar} (hp : ∀ p ∈ c.vkeys, p.2.type.isPrivate = true) (os : List Nat)
    (hos : ∀ o ∈ os, o ∈ c.versions) (kmd : KeyMetadata) {fs : FS} (hl : (fs dest).isSome = true) :
    exportKeys dest c os kmd fs = (.ok (os.foldl (fun m o => m.AddVersion c.heap o) kmd), os.map (c.publicWrite dest)) := by
  induction os generalizing kmd fs with
  | nil => rfl
  | cons o t ih =>
    obtain ⟨k, hk⟩ := Option.isSome_iff_exists.mp (assocGet_isSome.mpr (hos o (by simp)))
    have hpk := Key.publicKey_eq (hp _ (assocGet_mem hk))
    rw [exportKeys, Czar.GetKeyByVersion, hk]
    simp only
    rw [Cmd.lift_ok_bind, hpk, Cmd.lift_ok_bind, Key.str_eq, Cmd.lift_ok_bind, Cmd.bind_def, WriteFile_ok hl]
    simp only
    rw [ih (fun x hx => hos x (by simp [hx])) _ (by rw [applyAll_isSome]; exact hl)]
    simp [Czar.publicWrite, Czar.publicEntry, hk]

theorem Cmd.lift_bind {α β} (x : Py α) (f : α → Cmd β) (fs : FS) : (Cmd.lift x >>= f) fs =
    match x with
    | .error e => (.error e, [])
    | .ok a => f a fs := by
  cases x with
  | error e => rfl
  | ok a => rw [Cmd.lift_ok_bind]

/-- without the directory, nothing is exported -/
theorem PublicKeyExport_missing {env : Env} {c : Czar} {dest : Loc} {fs : FS} (hl : fs dest = none) :
    (∃ e, (c.PublicKeyExport env dest fs).1 = .error e) ∧ (c.PublicKeyExport env dest fs).2 = [] := by
  have hw : ∀ data f, WriteFile data dest f fs = (.error .keyczarError, []) := by
    intro data f
    unfold WriteFile
    rw [hl]; rfl
  unfold Czar.PublicKeyExport
  rw [Cmd.lift_bind]
  cases publicMetadata c.metadata with
  | error e => exact ⟨⟨e, rfl⟩, rfl⟩
  | ok kmd =>
    simp only
    rw [Cmd.bind_def]
    cases env.order c.versions with
    | nil =>
      rw [exportKeys]
      show (∃ e, ((Cmd.lift (kmd.str c.heap) >>= fun text => WriteFile text dest .metaFile) fs).1 = .error e) ∧
        ((Cmd.lift (kmd.str c.heap) >>= fun text => WriteFile text dest .metaFile) fs).2 = []
      rw [Cmd.lift_bind]
      cases kmd.str c.heap with
      | error e => exact ⟨⟨e, rfl⟩, rfl⟩
      | ok text => simp only; rw [hw]; exact ⟨⟨_, rfl⟩, rfl⟩
    | cons o t =>
      rw [exportKeys, Cmd.lift_bind]
      cases c.GetKeyByVersion (some o) with
      | error e => exact ⟨⟨e, rfl⟩, rfl⟩
      | ok k =>
        simp only
        rw [Cmd.lift_bind]
        cases k.publicKey with
        | error e => exact ⟨⟨e, rfl⟩, rfl⟩
        | ok k' =>
          simp only
          rw [Cmd.lift_bind]
          cases k'.str with
          | error e => exact ⟨⟨e, rfl⟩, rfl⟩
          | ok text => simp only; rw [Cmd.bind_def, hw]; exact ⟨⟨_, rfl⟩, rfl⟩

theorem foldl_AddVersion {h : Heap} (os : List Nat) (kmd : KeyMetadata)
    (hn : (kmd.versions.map Prod.fst ++ os.map fun o => (h.obj o).num).Nodup) :
    os.foldl (fun m o => m.AddVersion h o) kmd =
      { kmd with versions := kmd.versions ++ os.map fun o => ((h.obj o).num, o) } := by
  induction os generalizing kmd with
  | nil => simp
  | cons o t ih =>
    have hx : assocGet kmd.versions (h.obj o).num = none := by
      rw [← Option.not_isSome_iff_eq_none]
      intro hs
      exact (List.nodup_append.mp hn).2.2 _ (assocGet_isSome.mp hs) _ (by simp) rfl
    have ha : kmd.AddVersion h o = { kmd with versions := kmd.versions ++ [((h.obj o).num, o)] } := by
      unfold KeyMetadata.AddVersion
      simp only
      rw [hx]
    rw [List.foldl_cons, ih, ha]
    · simp
    · rw [ha]
      simpa using hn

/-- the exported key set, when version objects are visited in the order `os` -/
def Czar.publicSet (c : Czar) (purpose : KeyPurpose) (type : KeyType) (os : List Nat) : KeySet :=
  ⟨c.metadata.name, purpose, type, .bool false, os.map c.publicEntry⟩

theorem publicMetadata_ok {kmd m : KeyMetadata} (h : publicMetadata kmd = .ok m) :
    m = ⟨kmd.name, m.purpose, m.type, .bool false, []⟩ ∧ Exports kmd.type kmd.purpose m.type m.purpose := by
  unfold publicMetadata at h
  split at h
  · next hc => cases h; rw [hc.1, hc.2]; exact ⟨rfl, .dsa⟩
  · split at h
    · next hc => cases h; rw [hc.1, hc.2]; exact ⟨rfl, .rsaCrypt⟩
    · split at h
      · next hc => cases h; rw [hc.1, hc.2]; exact ⟨rfl, .rsaSign⟩
      · cases h

theorem publicMetadata_exports {kmd : KeyMetadata} {t : KeyType} {p : KeyPurpose} (h : Exports kmd.type kmd.purpose t p) :
    publicMetadata kmd = .ok ⟨kmd.name, p, t, .bool false, []⟩ := by
  obtain ⟨n, pu, ty, e, v⟩ := kmd
  simp only at h
  unfold publicMetadata
  cases h <;> simp

theorem publicMetadata_error {kmd : KeyMetadata} (h : ∀ t p, ¬ Exports kmd.type kmd.purpose t p) :
    publicMetadata kmd = .error .keyczarError := by
  cases hm : publicMetadata kmd with
  | ok m => exact absurd (publicMetadata_ok hm).2 (h _ _)
  | error e =>
    unfold publicMetadata at hm
    split at hm
    · cases hm
    · split at hm
      · cases hm
      · split at hm <;> cases hm
        rfl

theorem Exports.isPrivate {t : KeyType} {p : KeyPurpose} {t' : KeyType} {p' : KeyPurpose} (h : Exports t p t' p') :
    t.isPrivate = true := by cases h <;> rfl

/-- what the export writes -/
theorem Czar.PublicKeyExport_spec {env : Env} {c : Czar} (h : c.Inv P) (hw : ∀ o ∈ c.versions, (c.heap.obj o).exportable.WF)
    {t : KeyType} {p : KeyPurpose} (he : Exports c.metadata.type c.metadata.purpose t p) {dest : Loc} {fs : FS}
    (hl : (fs dest).isSome = true) :
    c.PublicKeyExport env dest fs = (.ok (), (env.order c.versions).map (c.publicWrite dest) ++
      [.write dest .metaFile (metaText (c.publicSet p t (env.order c.versions)))]) := by
  have hperm := env.order_perm c.versions
  have hpriv : ∀ q ∈ c.vkeys, q.2.type.isPrivate = true := fun q hq => by
    rw [(h.type_ok q hq).2]; exact Exports.isPrivate he
  have hnum : ((env.order c.versions).map fun o => (c.heap.obj o).num).Nodup := by
    refine List.Nodup.map_on ?_ (hperm.nodup_iff.mpr h.v_nodup)
    intro x hx y hy e
    exact h.v_num x (hperm.mem_iff.mp hx) y (hperm.mem_iff.mp hy) e
  unfold Czar.PublicKeyExport
  rw [publicMetadata_exports he, Cmd.lift_ok_bind, Cmd.bind_def,
    exportKeys_spec hpriv _ (fun o ho => hperm.mem_iff.mp ho) _ hl, foldl_AddVersion _ _ (by simpa using hnum)]
  simp only [List.nil_append]
  rw [KeyMetadata.str_eq, Cmd.lift_ok_bind, WriteFile_ok (by rw [applyAll_isSome]; exact hl)]
  · have : (KeyMetadata.mk c.metadata.name p t (.bool false)
        ((env.order c.versions).map fun o => ((c.heap.obj o).num, o))).view c.heap =
        (c.publicSet p t (env.order c.versions)).view := by
      unfold KeyMetadata.view Spec.KeySet.view Czar.publicSet
      simp [Czar.publicEntry]
    rw [this]
    rfl
  · intro q hq
    obtain ⟨o, ho, rfl⟩ := List.mem_map.mp hq
    exact hw o (hperm.mem_iff.mp ho)

end Verif
