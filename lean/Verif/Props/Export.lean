import Verif.Lemmas.Export
import Verif.Lemmas.ExampleAsym
import Verif.Props.Crash
/-
Public key export (C41, C64), the export part of C31, and addkey with a crypter that cannot encrypt (C65).
-/
namespace Verif.Props
open Verif Spec
variable (P : Prims)

variable {P} in
theorem Forall₂_publicEntry {c : Czar} (h : c.Inv P) {t : KeyType} {p : KeyPurpose}
    (he : Exports c.metadata.type c.metadata.purpose t p) (os : List Nat) (hos : ∀ o ∈ os, o ∈ c.versions) :
    List.Forall₂ Entry.PublicOf (os.map c.publicEntry)
      (os.map fun o => ⟨(c.heap.obj o).num, (c.heap.obj o).status, (c.heap.obj o).exportable,
        (assocGet c.vkeys o).getD default⟩) := by
  rw [List.forall₂_map_left_iff, List.forall₂_map_right_iff, List.forall₂_same]
  intro o ho
  obtain ⟨k, hk⟩ := Option.isSome_iff_exists.mp (assocGet_isSome.mpr (hos o ho))
  refine ⟨rfl, rfl, rfl, ?_⟩
  simp only [Czar.publicEntry, hk, Option.getD_some]
  apply Key.half_isHalf
  rw [(h.type_ok _ (assocGet_mem hk)).2]
  exact Exports.isPrivate he

variable {P} in
/-- the set exported by a freshly loaded object -/
theorem publicSet_of {c : Czar} (h : c.Inv P) (hf : c.Fresh) {t : KeyType} {p : KeyPurpose}
    (he : Exports c.metadata.type c.metadata.purpose t p) {os : List Nat} (hos : os.Perm c.versions) :
    (c.publicSet p t os).PublicOf c.keySet := by
  refine ⟨rfl, he, rfl, _, ?_, Forall₂_publicEntry h he os fun o ho => hos.mem_iff.mp ho⟩
  refine (hos.map _).trans ?_
  rw [hf, List.map_map]
  show List.Perm _ (c.metadata.versions.map c.entryOf)
  apply List.Perm.of_eq
  apply List.map_congr_left
  intro q hq
  simp only [Function.comp, Czar.entryOf]
  rw [h.meta_num q hq]

variable {P} in
theorem filter_forall₂ {l m : List Entry} (h : List.Forall₂ Entry.PublicOf l m) :
    List.Forall₂ Entry.PublicOf (l.filter fun e => e.status = .PRIMARY) (m.filter fun e => e.status = .PRIMARY) := by
  induction h with
  | nil => exact .nil
  | cons hab _ ih =>
    rw [List.filter_cons, List.filter_cons, hab.status]
    split
    · exact .cons hab ih
    · exact ih

theorem Forall₂_mem {α β : Type} {R : α → β → Prop} {l : List α} {m : List β} (h : List.Forall₂ R l m) {a : α} (ha : a ∈ l) :
    ∃ b ∈ m, R a b := by
  induction h with
  | nil => cases ha
  | cons hab _ ih =>
    rcases List.mem_cons.mp ha with rfl | ha
    · exact ⟨_, by simp, hab⟩
    · obtain ⟨b, hb, hr⟩ := ih ha
      exact ⟨b, by simp [hb], hr⟩

variable {P} in
theorem PublicOf.primaries {ks' ks : KeySet} (h : ks'.PublicOf ks) :
    ∃ es : List Entry, es.Perm ks.primaries ∧ List.Forall₂ Entry.PublicOf ks'.primaries es := by
  obtain ⟨es, h1, h2⟩ := h.entries
  exact ⟨_, h1.filter _, filter_forall₂ h2⟩

variable {P} in
theorem PublicOf.loadable {ks' ks : KeySet} (h : ks'.PublicOf ks) (hl : ks.Loadable P) : ks'.Loadable P := by
  obtain ⟨es, h1, h2⟩ := h.entries
  obtain ⟨ps, h3, h4⟩ := PublicOf.primaries h
  have hmap : ks'.entries.map Entry.num = es.map Entry.num := by
    clear h1 h3 h4 ps
    generalize ks'.entries = l at h2
    induction h2 with
    | nil => rfl
    | cons hab _ ih => rw [List.map_cons, List.map_cons, hab.num, ih]
  have hmem : ∀ e' ∈ ks'.entries, ∃ e ∈ ks.entries, e'.PublicOf e := by
    intro e' he'
    obtain ⟨e, h5, h6⟩ := Forall₂_mem h2 he'
    exact ⟨e, h1.mem_iff.mp h5, h6⟩
  refine ⟨⟨?_, ?_, ?_⟩, ⟨?_, ?_⟩, ?_⟩
  · rw [show ks'.view.name = ks'.name from rfl, h.name]; exact hl.view_wf.name
  · rw [show ks'.view.encrypted = ks'.encrypted from rfl, h.encrypted]; trivial
  · intro v hv
    obtain ⟨e', he', rfl⟩ := List.mem_map.mp hv
    obtain ⟨e, he, hpe⟩ := hmem e' he'
    rw [show (KeyVersion.mk e'.num e'.status e'.exportable).exportable = e'.exportable from rfl, hpe.exportable]
    exact hl.view_wf.versions ⟨e.num, e.status, e.exportable⟩ (List.mem_map.mpr ⟨e, he, rfl⟩)
  · rw [hmap]
    exact (h1.map _).nodup_iff.mpr hl.valid.nodup
  · rw [Forall₂.length_eq' h4, h3.length_eq]
    exact hl.valid.primary
  · intro e' he'
    obtain ⟨e, he, hpe⟩ := hmem e' he'
    obtain ⟨h5, h6, hash, h7⟩ := hl.key_ok e he
    have hk := h.kind
    have hh := hpe.key
    generalize e'.key = k' at hh
    generalize e.key = k at hh h5 h6 h7
    rw [← h6] at hk
    generalize ks'.type = t at hk ⊢
    generalize ks'.purpose = p at hk
    generalize ks.purpose = p' at hk
    cases hh with
    | rsa k => exact ⟨h5.1, by cases hk <;> rfl, hash, h7⟩
    | dsa k => exact ⟨h5.1, by cases hk <;> rfl, hash, h7⟩

variable {P} in
theorem export_holds {env : Env} {c : Czar} (hc : Loaded P c) {t : KeyType} {p : KeyPurpose}
    (he : Exports c.metadata.type c.metadata.purpose t p) {dest : Loc} {fs : FS} {d : Dir} (hd : fs dest = some d) :
    (c.PublicKeyExport env dest fs).1 = .ok () ∧
    ∃ d' ks', (c.PublicKeyExport env dest).after fs dest = some d' ∧
      Holds P none ((c.PublicKeyExport env dest).after fs) dest ks' ∧ ks'.PublicOf c.keySet ∧
      ∀ e ∈ c.keySet.entries, ∃ k, IsPublicHalf e.key k ∧ d' (.key e.num) = some (dumps k.json) := by
  have hw : ∀ o ∈ c.versions, (c.heap.obj o).exportable.WF := by
    intro o ho
    rw [hc.fresh] at ho
    obtain ⟨q, hq, rfl⟩ := List.mem_map.mp ho
    exact hc.loadable.view_wf.versions (c.heap.obj q.2) (by
      rw [← Czar.view_eq hc.inv]; exact List.mem_map.mpr ⟨q, hq, rfl⟩)
  have hperm := env.order_perm c.versions
  have hspec := Czar.PublicKeyExport_spec (env := env) hc.inv hw he (dest := dest) (fs := fs) (by rw [hd]; rfl)
  have hpub := publicSet_of hc.inv hc.fresh he hperm
  have hload := PublicOf.loadable hpub hc.loadable
  have hafter : (c.PublicKeyExport env dest).after fs dest = some (dirAfter (c.PublicKeyExport env dest fs).2 dest d) := by
    unfold Cmd.after
    rw [applyAll_at, hd]
    rfl
  have hfile : ∀ o ∈ env.order c.versions, dirAfter (c.PublicKeyExport env dest fs).2 dest d (.key (c.heap.obj o).num) =
      some (dumps (c.publicEntry o).key.json) := by
    intro o ho
    rw [hspec]
    have hbs : (env.order c.versions).map (c.publicWrite dest) =
        ((env.order c.versions).map fun o => (o, dumps (c.publicEntry o).key.json)).map (keyWrite dest c) := by
      rw [List.map_map]; rfl
    have hfst : ((env.order c.versions).map fun o => (o, dumps (c.publicEntry o).key.json)).map Prod.fst =
        env.order c.versions := by
      rw [List.map_map]; exact List.map_id _
    rw [dirAfter, touch_append, hbs]
    have := keyWrite_touch (l := dest) hc.inv
      (bs := (env.order c.versions).map fun o => (o, dumps (c.publicEntry o).key.json))
      (by rw [hfst]; exact hperm.nodup_iff.mpr hc.inv.v_nodup)
      (fun q hq => by
        obtain ⟨o', ho', rfl⟩ := List.mem_map.mp hq
        exact hperm.mem_iff.mp ho')
      (p := (o, dumps (c.publicEntry o).key.json)) (List.mem_map.mpr ⟨o, ho, rfl⟩)
    rw [this]
    simp [touch, Effect.loc, Effect.file]
  refine ⟨by rw [hspec], _, _, hafter, ?_, hpub, ?_⟩
  · refine Holds_iff.mpr ⟨_, hafter, ?_, fun h => (by cases h), hload.valid.primary⟩
    apply gives_of_files hload (enc := none) (rd := none) trivial
    · rw [hspec, dirAfter, touch_append]
      simp [touch, Effect.loc, Effect.file, Effect.content]
    · intro e hes
      obtain ⟨o, ho, rfl⟩ := List.mem_map.mp hes
      exact ⟨env.enc 0, _, rfl, hfile o ho⟩
  · intro e hes
    obtain ⟨q, hq, rfl⟩ := List.mem_map.mp hes
    obtain ⟨k, hk⟩ := hc.inv.key_some hq
    have hpriv : k.type.isPrivate = true := by
      rw [(hc.inv.type_ok _ (assocGet_mem hk)).2]
      exact Exports.isPrivate he
    have hkey : (c.entryOf q).key = k := by simp [Czar.entryOf, hk]
    refine ⟨k.half, by rw [hkey]; exact Key.half_isHalf hpriv, ?_⟩
    have := hfile q.2 (hperm.mem_iff.mpr (hc.inv.meta_mem q hq))
    rw [hc.inv.meta_num q hq] at this
    rw [show (c.entryOf q).num = q.1 from rfl, this]
    simp [Czar.publicEntry, hk]

/-! ## C41 -/

/-- C41: `pubkey` of a private key set with a public counterpart, into an existing directory, succeeds
and leaves there a key set with the public halves of all versions, the same numbers and statuses, the
same name, and the public type and purpose. -/
theorem C41_export (env : Env) (fs : FS) (l dest : Loc) (ks : KeySet) (h : Holds P none fs l ks) (t : KeyType)
    (p : KeyPurpose) (he : Exports ks.type ks.purpose t p) (d : Dir) (hd : fs dest = some d) :
    (PubKey P env (some l) (some dest) fs).1 = .ok () ∧
    ∃ d' ks', (PubKey P env (some l) (some dest)).after fs dest = some d' ∧
      Holds P none ((PubKey P env (some l) (some dest)).after fs) dest ks' ∧ ks'.PublicOf ks ∧
      ∀ e ∈ ks.entries, ∃ k, IsPublicHalf e.key k ∧ d' (.key e.num) = some (dumps k.json) := by
  obtain ⟨c, hc, rfl⟩ := h
  have heq : PubKey P env (some l) (some dest) fs = c.PublicKeyExport env dest fs := by
    unfold PubKey
    simp only
    rw [Cmd.bind_def, CreateGenericKeyczar_eq, hc]
    rfl
  unfold Cmd.after
  rw [heq]
  exact export_holds (load_loaded hc) he hd

/-- C41: key sets without a public counterpart, missing destinations and directories that do not load
are refused and nothing is written. -/
theorem C41_refuses (env : Env) (fs : FS) (l : Option Loc) (dest : Option Loc)
    (h : dest = none ∨ (∃ d, dest = some d ∧ fs d = none) ∨ l = none ∨
      (∃ l', l = some l' ∧ ∀ ks, Holds P none fs l' ks → ∀ t p, ¬ Exports ks.type ks.purpose t p)) :
    (∃ e, (PubKey P env l dest fs).1 = .error e) ∧ (PubKey P env l dest fs).2 = [] := by
  cases dest with
  | none => exact ⟨⟨_, rfl⟩, rfl⟩
  | some dest =>
    cases l with
    | none => exact ⟨⟨_, rfl⟩, rfl⟩
    | some l =>
      unfold PubKey
      simp only
      rw [Cmd.bind_def, CreateGenericKeyczar_eq]
      cases hc : load P none l fs with
      | error e => exact ⟨⟨_, rfl⟩, rfl⟩
      | ok c =>
        simp only [List.nil_append]
        show (∃ e, (c.PublicKeyExport env dest fs).1 = .error e) ∧ (c.PublicKeyExport env dest fs).2 = []
        by_cases hx : ∃ t p, Exports c.metadata.type c.metadata.purpose t p
        · obtain ⟨t, p, hx⟩ := hx
          rcases h with h | ⟨d, h, hd⟩ | h | ⟨l', h, hn⟩
          · cases h
          · cases h
            exact PublicKeyExport_missing hd
          · cases h
          · cases h
            exact absurd hx (hn _ ⟨c, hc, rfl⟩ t p)
        · unfold Czar.PublicKeyExport
          rw [publicMetadata_error fun t p ht => hx ⟨t, p, ht⟩]
          exact ⟨⟨_, rfl⟩, rfl⟩

/-- C41: every exported version has the identifier of the version it came from, so headers of
ciphertexts and signatures agree. -/
theorem C41_identifiers (H : Bytes → Bytes) (ks' ks : KeySet) (h : ks'.PublicOf ks) :
    (∀ e' ∈ ks'.entries, ∃ e ∈ ks.entries, e'.num = e.num ∧ ∀ id, KeyId H e'.key id ↔ KeyId H e.key id) ∧
    (∀ e ∈ ks.entries, ∃ e' ∈ ks'.entries, e'.num = e.num ∧ ∀ id, KeyId H e'.key id ↔ KeyId H e.key id) := by
  obtain ⟨es, h1, h2⟩ := h.entries
  have key : ∀ {e' e : Entry}, e'.PublicOf e → ∀ id, KeyId H e'.key id ↔ KeyId H e.key id := by
    intro e' e hp id
    have := hp.key
    generalize e'.key = k' at this ⊢
    generalize e.key = k at this ⊢
    cases this <;> rfl
  constructor
  · intro e' he'
    obtain ⟨e, he, hp⟩ := Forall₂_mem h2 he'
    exact ⟨e, h1.mem_iff.mp he, hp.num, key hp⟩
  · intro e he
    obtain ⟨e', he', hp⟩ := Forall₂_mem h2.flip (h1.mem_iff.mpr he)
    exact ⟨e', he', hp.num, key hp⟩

variable {P} in
theorem PublicOf.distinct {ks' ks : KeySet} (h : ks'.PublicOf ks) (hd : ks.Distinct P) : ks'.Distinct P := by
  obtain ⟨es, h1, h2⟩ := h.entries
  have hmap : (ks'.entries.map fun e => e.key.hashId P) = es.map fun e => e.key.hashId P := by
    clear h1
    generalize ks'.entries = l at h2
    induction h2 with
    | nil => rfl
    | @cons a b _ _ hab _ ih =>
      have : a.key.hashId P = b.key.hashId P := by
        have := hab.key
        generalize a.key = k' at this ⊢
        generalize b.key = k at this ⊢
        cases this <;> rfl
      rw [List.map_cons, List.map_cons, this, ih]
  have e1 : (ks.entries.map fun e => e.key.hashId P).Nodup := List.pairwise_map.mpr hd
  have e2 := (h1.map fun e : Entry => e.key.hashId P).nodup_iff.mpr e1
  rw [← hmap] at e2
  exact List.pairwise_map.mp e2

variable {P} in
theorem PublicOf.entry {ks' ks : KeySet} (h : ks'.PublicOf ks) {e : Entry} (he : e ∈ ks.entries) :
    ∃ e' ∈ ks'.entries, e'.PublicOf e := by
  obtain ⟨es, h1, h2⟩ := h.entries
  exact Forall₂_mem h2.flip (h1.mem_iff.mpr he)

/-- C41 (RSA signatures): what a private set with a usable PRIMARY key signs, the exported set verifies. -/
theorem C41_rsa_verifies (c c' : Czar) (hc : Loaded P c) (hc' : Loaded P c') (hpub : c'.keySet.PublicOf c.keySet)
    (hd : c.keySet.Distinct P) (e : Entry) (k : RsaPrivateKey) (hu : UsableRsa k) (hp : c.keySet.primaries = [e])
    (hk : e.key = .rsaPriv k) (enc : Option (Bytes → Bytes)) (dec : Option (Bytes → Py Bytes)) (hinv : Inverse enc dec)
    (rnd : Rand) (m : Bytes) : ∃ out, c.Sign P rnd m enc = .ok out ∧ c'.Verify P m out dec = .ok true := by
  obtain ⟨e', he', hpe⟩ := PublicOf.entry hpub (primary_mem hp).1
  have hh := hpe.key
  rw [hk] at hh
  refine C42_rsa P c c' hc hc' (PublicOf.distinct hpub hd) e e' k hu hp hk he' (.inr ?_) enc dec hinv rnd m
  generalize e'.key = k' at hh ⊢
  cases hh
  rfl

/-- C41 (DSA signatures): as C42_dsa. -/
theorem C41_dsa_verifies (c c' : Czar) (hc : Loaded P c) (hc' : Loaded P c') (hpub : c'.keySet.PublicOf c.keySet)
    (hd : c.keySet.Distinct P) (e : Entry) (k : DsaPrivateKey) (hv : DsaValid k.key) (hkp : k.pub.key = k.key.pub)
    (hq : 3 ≤ k.key.q) (hsize : (BigIntToBytes k.key.q).length < 2 ^ 32) (hp : c.keySet.primaries = [e])
    (hk : e.key = .dsaPriv k) (enc : Option (Bytes → Bytes)) (dec : Option (Bytes → Py Bytes)) (hinv : Inverse enc dec)
    (rnd : Rand) (m : Bytes) :
    ∃ out r s, c.Sign P rnd m enc = .ok out ∧
      k.key.sign (P.sha1 (plainPayload m)) (rnd.dsaK k.key.q) = .ok (r, s) ∧
      c'.Verify P m out dec = .ok (decide (r ≠ 0 ∧ s ≠ 0)) := by
  obtain ⟨e', he', hpe⟩ := PublicOf.entry hpub (primary_mem hp).1
  have hh := hpe.key
  rw [hk] at hh
  refine C42_dsa P c c' hc hc' (PublicOf.distinct hpub hd) e e' k hv hkp hq hsize hp hk he' (.inr ?_) enc dec hinv rnd m
  generalize e'.key = k' at hh ⊢
  cases hh
  rfl

/-- C41 (encryption): what the exported set encrypts, the private set decrypts (with the exception of
C48). -/
theorem C41_rsa_encrypts (c c' : Czar) (hc : Loaded P c) (hc' : Loaded P c') (hpub : c'.keySet.PublicOf c.keySet)
    (hd : c.keySet.Distinct P) (e : Entry) (k : RsaPrivateKey) (hp : c.keySet.primaries = [e])
    (hk : e.key = .rsaPriv k) (hv : RsaValid k.key) (hkp : k.pub.key = k.key.pub)
    (hlen : (BigIntToBytes k.key.n).length ≤ 2 ^ 32)
    (enc : Option (Bytes → Bytes)) (dec : Option (Bytes → Py Bytes)) (hinv : Inverse enc dec)
    (rnd : Rand) (m : Bytes) (hm : m.length + 42 ≤ (BigIntToBytes k.key.n).length) :
    ∃ out, c'.Encrypt P rnd m enc = .ok out ∧ c.Decrypt P out dec =
      if (strip0 (oaep P.sha1 (BigIntToBytes k.key.n).length (rnd.bytes 0 20) m)).length < 42
      then .error .keyczarError else .ok m := by
  obtain ⟨es, h1, h2⟩ := PublicOf.primaries hpub
  rw [hp] at h1
  rw [List.perm_singleton.mp h1] at h2
  generalize hps : c'.keySet.primaries = ps at h2
  cases h2 with
  | @cons e' _ _ _ hpe ht =>
    cases ht
    have hh := hpe.key
    rw [hk] at hh
    refine C22_rsa_round_trip P c' c hc' hc hd e' e k hps (.inr ?_) (primary_mem hp).1 hk hv hkp hlen enc dec hinv rnd m hm
    generalize e'.key = k' at hh ⊢
    cases hh
    rfl

variable {P} in
theorem loadKeys_meta {r : Reader} {l : List (Int × Nat)} {c c' : Czar} (h : loadKeys P r l c = .ok c') :
    c'.heap = c.heap ∧ c'.metadata = c.metadata := by
  induction l generalizing c with
  | nil => cases h; exact ⟨rfl, rfl⟩
  | cons p t ih =>
    obtain ⟨n, o⟩ := p
    rw [loadKeys] at h
    simp only at h
    split at h
    all_goals
      obtain ⟨pr, h0, h⟩ := bind_ok h
      obtain ⟨text, h1, h⟩ := bind_ok h
      obtain ⟨k, h2, h⟩ := bind_ok h
      obtain ⟨hash, h3, h⟩ := bind_ok h
      have := ih h
      exact this

variable {P} in
theorem init_meta {cls : CzarClass} {r : Reader} {c : Czar} (h : Czar.init P cls r = .ok c) :
    ∃ text, r.GetMetadata = .ok text ∧ KeyMetadata.Read text = .ok (c.metadata, c.heap) := by
  unfold Czar.init at h
  obtain ⟨text, h1, h⟩ := bind_ok h
  obtain ⟨⟨kmd, hp⟩, h2, h⟩ := bind_ok h
  simp only at h
  split at h
  · cases h
  · split at h
    · cases h
    · obtain ⟨h3, h4⟩ := loadKeys_meta h
      exact ⟨text, h1, by rw [h3, h4]; exact h2⟩

/-- C41: what `pubkey` writes depends only on the metadata file and the public halves of the keys: two
private key sets that agree on these are exported identically, so nothing else about the private keys
can be read off the exported files. -/
theorem C41_no_private_data (env : Env) (fs1 fs2 : FS) (l1 l2 dest : Loc) (d1 d2 : Dir) (ks1 ks2 : KeySet)
    (hd1 : fs1 l1 = some d1) (hd2 : fs2 l2 = some d2) (h1 : Holds P none fs1 l1 ks1) (h2 : Holds P none fs2 l2 ks2)
    (hm : d1 .metaFile = d2 .metaFile)
    (hk : List.Forall₂ (fun e1 e2 : Entry => ∃ k, IsPublicHalf e1.key k ∧ IsPublicHalf e2.key k) ks1.entries ks2.entries)
    (hx1 : (fs1 dest).isSome = true) (hx2 : (fs2 dest).isSome = true) :
    PubKey P env (some l1) (some dest) fs1 = PubKey P env (some l2) (some dest) fs2 := by
  obtain ⟨c1, hc1, rfl⟩ := h1
  obtain ⟨c2, hc2, rfl⟩ := h2
  have hl1 := load_loaded hc1
  have hl2 := load_loaded hc2
  obtain ⟨d1', hd1', hi1⟩ := load_some hc1
  obtain ⟨d2', hd2', hi2⟩ := load_some hc2
  rw [hd1] at hd1'
  rw [hd2] at hd2'
  cases hd1'
  cases hd2'
  obtain ⟨t1, ht1, hr1⟩ := init_meta hi1
  obtain ⟨t2, ht2, hr2⟩ := init_meta hi2
  rw [dirReader_meta, ReadFile] at ht1 ht2
  rw [hm, ht2] at ht1
  cases ht1
  rw [hr1] at hr2
  have hr := Except.ok.inj hr2
  have hmeta : c1.metadata = c2.metadata := congrArg Prod.fst hr
  have hheap : c1.heap = c2.heap := congrArg Prod.snd hr
  have hvers : c1.versions = c2.versions := by rw [hl1.fresh, hl2.fresh, hmeta]
  have heq : ∀ (fs : FS) (l : Loc) (c : Czar), load P none l fs = .ok c →
      PubKey P env (some l) (some dest) fs = c.PublicKeyExport env dest fs := by
    intro fs l c hc
    unfold PubKey
    simp only
    rw [Cmd.bind_def, CreateGenericKeyczar_eq, hc]
    rfl
  rw [heq fs1 l1 c1 hc1, heq fs2 l2 c2 hc2]
  have hpe : ∀ o ∈ c1.versions, c1.publicEntry o = c2.publicEntry o := by
    intro o ho
    rw [hl1.fresh] at ho
    obtain ⟨p, hp, rfl⟩ := List.mem_map.mp ho
    have hk' : List.Forall₂ (fun e1 e2 : Entry => ∃ k, IsPublicHalf e1.key k ∧ IsPublicHalf e2.key k)
        (c1.metadata.versions.map c1.entryOf) (c1.metadata.versions.map c2.entryOf) := by
      have := hk
      unfold Czar.keySet at this
      simp only at this
      rwa [← hmeta] at this
    rw [List.forall₂_map_left_iff, List.forall₂_map_right_iff, List.forall₂_same] at hk'
    obtain ⟨k, ha, hb⟩ := hk' p hp
    have half : ∀ {a b : Key}, IsPublicHalf a b → a.half = b := by intro a b h; cases h <;> rfl
    have e1 : ((assocGet c1.vkeys p.2).getD default).half = k := half ha
    have e2 : ((assocGet c2.vkeys p.2).getD default).half = k := half hb
    unfold Czar.publicEntry
    rw [e1, e2, hheap]
  have hw : ∀ o ∈ c1.versions, (c1.heap.obj o).exportable.WF := by
    intro o ho
    rw [hl1.fresh] at ho
    obtain ⟨q, hq, rfl⟩ := List.mem_map.mp ho
    exact hl1.loadable.view_wf.versions (c1.heap.obj q.2) (by
      rw [← Czar.view_eq hl1.inv]; exact List.mem_map.mpr ⟨q, hq, rfl⟩)
  by_cases hex : ∃ t p, Exports c1.metadata.type c1.metadata.purpose t p
  · obtain ⟨t, p, hex⟩ := hex
    rw [Czar.PublicKeyExport_spec hl1.inv hw hex hx1,
      Czar.PublicKeyExport_spec hl2.inv (by rw [← hvers, ← hheap]; exact hw) (by rw [← hmeta]; exact hex) hx2]
    have hmap : (env.order c1.versions).map c1.publicEntry = (env.order c1.versions).map c2.publicEntry :=
      List.map_congr_left fun o ho => hpe o ((env.order_perm _).mem_iff.mp ho)
    have hwr : (env.order c1.versions).map (c1.publicWrite dest) = (env.order c1.versions).map (c2.publicWrite dest) :=
      List.map_congr_left fun o ho => by
        unfold Czar.publicWrite
        rw [hpe o ((env.order_perm _).mem_iff.mp ho), hheap]
    rw [← hvers, hwr]
    unfold Czar.publicSet
    rw [hmap, hmeta]
  · unfold Czar.PublicKeyExport
    rw [← hmeta, publicMetadata_error fun t p ht => hex ⟨t, p, ht⟩]
    rfl

/-- example: testdata/dsa and testdata/rsa-sign are exported; the exported DSA set verifies the signature
of testdata/dsa/2.out -/
example : (PubKey realPrims Ex.env' (some [100]) (some [120]) Ex.disk2).1 = .ok () ∧
    (PubKey realPrims Ex.env (some [114]) (some [120]) Ex.disk2).1 = .ok () ∧
    Ex.isOk (PubKey realPrims Ex.env (some [104]) (some [120]) Ex.disk2).1 = false := by decide +kernel
example : (((PubKey realPrims Ex.env' (some [100]) (some [120])).after Ex.disk2 [120]).map fun d =>
    (Czar.init realPrims .verifier (FileReader d)).bind fun c =>
      c.Verify realPrims [84, 104, 105, 115, 32, 105, 115, 32, 115, 111, 109, 101, 32, 116, 101, 115, 116, 32, 100, 97, 116, 97]
        Ex.dsaOut2 (some Base64WSDecode)) = some (.ok true) := by decide +kernel

/-! ## C64 -/

/-- C64: `pubkey` does not look at the destination: whatever key set is there is replaced.  With the
private key set's own location as destination, the private keys are gone: afterwards the directory holds
only public keys, in the very files where the private ones were. -/
theorem C64_pubkey_overwrites (env : Env) (fs : FS) (l : Loc) (ks : KeySet) (h : Holds P none fs l ks) (t : KeyType)
    (p : KeyPurpose) (he : Exports ks.type ks.purpose t p) :
    (PubKey P env (some l) (some l) fs).1 = .ok () ∧
    ∃ d ks', (PubKey P env (some l) (some l)).after fs l = some d ∧
      Holds P none ((PubKey P env (some l) (some l)).after fs) l ks' ∧ ks'.PublicOf ks ∧
      ∀ e ∈ ks.entries, ∃ k, IsPublicHalf e.key k ∧ d (.key e.num) = some (dumps k.json) := by
  obtain ⟨d0, hd0, -⟩ := Holds_iff.mp h
  exact C41_export P env fs l l ks h t p he d0 hd0

/-- example: exporting testdata/dsa into itself -/
example : (PubKey realPrims Ex.env (some [100]) (some [100]) Ex.disk2).1 = .ok () := by decide +kernel

/-! ## C31 -/

/-- C31: `PublicKeyExport` on an object on which `Revoke` was called writes the same files as without
the `Revoke`: the revoked version is exported, in a key file and in the metadata. -/
theorem C31_object_still_exports (c : Czar) (hc : Loaded P c) (n : Int) (c' : Czar) (hr : c.Revoke n = (.ok (), c'))
    (env : Env) (dest : Loc) (fs : FS) (t : KeyType) (p : KeyPurpose)
    (he : Exports c.keySet.type c.keySet.purpose t p) (d : Dir) (hd : fs dest = some d) :
    (c'.PublicKeyExport env dest fs).1 = .ok () ∧
    ∃ ks', Holds P none ((c'.PublicKeyExport env dest).after fs) dest ks' ∧ ks'.PublicOf c.keySet ∧
      ∃ e ∈ ks'.entries, e.num = n := by
  have hspec := Czar.Revoke_spec hc.inv n
  cases hs : c.keySet.revoke n with
  | none => rw [hs] at hspec; rw [hspec] at hr; cases hr
  | some ks =>
    have hfind : ∃ e ∈ c.keySet.entries, e.num = n := by
      unfold KeySet.revoke at hs
      split at hs
      · cases hs
      · next e he =>
        unfold KeySet.find at he
        have hnum := List.find?_some he
        exact ⟨e, List.mem_of_find?_eq_some he, of_decide_eq_true hnum⟩
    have hmeta : ∃ vs, c' = { c with metadata := { c.metadata with versions := vs } } := by
      unfold Czar.Revoke at hr
      split at hr
      · cases hr
      · split at hr
        · split at hr
          · cases hr
          · next m hm =>
            cases hr
            unfold KeyMetadata.RemoveVersion at hm
            split at hm <;> cases hm
            exact ⟨_, rfl⟩
        · cases hr
    obtain ⟨vs, rfl⟩ := hmeta
    have hex : ∀ os kmd, exportKeys dest { c with metadata := { c.metadata with versions := vs } } os kmd =
        exportKeys dest c os kmd := by
      intro os
      induction os with
      | nil => intro kmd; rfl
      | cons o t ih =>
        intro kmd
        simp only [exportKeys, ih]
        rfl
    have heq : Czar.PublicKeyExport env { c with metadata := { c.metadata with versions := vs } } dest =
        c.PublicKeyExport env dest := by
      unfold Czar.PublicKeyExport
      simp only [hex]
      rfl
    rw [heq]
    obtain ⟨h1, d', ks', -, h3, h4, -⟩ := export_holds (env := env) hc he hd
    obtain ⟨e, hem, hen⟩ := hfind
    obtain ⟨e', he', hpe⟩ := PublicOf.entry h4 hem
    exact ⟨h1, ks', h3, h4, e', he', hpe.num.trans hen⟩

/-- example: version 1 of testdata/dsa, demoted and revoked in memory, is still exported -/
example : ((Czar.init realPrims .generic (FileReader (Ex.dir2 Ex.dsaMeta Ex.dsaKey1 Ex.dsaKey2))).bind fun c =>
    let c := ((c.Demote 1).2.Revoke 1).2
    .ok (c.metadata.versions.map Prod.fst,
      (c.PublicKeyExport Ex.env [120] Ex.disk2).2.map fun e => match e with
        | .write _ f _ => some f
        | .remove _ _ => none)) =
    .ok ([2], [some (.key 1), some (.key 2), some .metaFile]) := by decide +kernel

/-! ## C65 -/

variable {P} in
/-- a directory whose metadata lists a version without key file cannot be loaded, with any crypter -/
theorem no_load_of_missing {ks : KeySet} (hw : ks.view.WF) (hn : (ks.entries.map Entry.num).Nodup) {d : Dir}
    (hm : d .metaFile = some (metaText ks)) {e : Entry} (he : e ∈ ks.entries) (hk : d (.key e.num) = none)
    (rd : Option Czar) (cls : CzarClass) (c : Czar) : Czar.init P cls (readerFor P rd (FileReader d)) ≠ .ok c := by
  intro hc
  obtain ⟨-, -, hg, -⟩ := Czar.init_ok hc
  obtain ⟨kmd, h, h1, -, h3⟩ := KeyMetadata.Read_viewJson hw (by
    unfold Spec.KeySet.view
    rw [List.map_map]; exact hn)
  obtain ⟨⟨text, kmd', h', g1, g2, g3⟩, g4⟩ := hg
  rw [dirReader_meta, ReadFile, hm] at g1
  cases g1
  rw [show metaText ks = dumps (viewJson ks.view) from rfl, h1] at g2
  cases g2
  rw [h3] at g3
  have hv := congrArg KeySet.View.versions g3
  have : (⟨e.num, e.status, e.exportable⟩ : KeyVersion) ∈ c.keySet.view.versions := by
    rw [← hv]; exact List.mem_map.mpr ⟨e, he, rfl⟩
  obtain ⟨e', he', heq⟩ := List.mem_map.mp this
  obtain ⟨text, h5, h6, -⟩ := g4 e' he'
  have hnum : e'.num = e.num := congrArg KeyVersion.num heq
  rw [dirReader_key, ReadFile, hnum, hk] at h5
  cases rd <;> cases h5

/-- C65: `addkey --crypter` with a crypter key set that has no PRIMARY key (it can still decrypt the key
files) never succeeds.  Unless generating the key already fails, it overwrites the metadata, which then
lists the new version `n`, and fails with KeyNotFoundError before any key file is written: no crypter can
load the directory any more (assuming there was no stray file `n`). -/
theorem C65_addkey_without_primary (env : Env) (fs : FS) (l : Loc) (cr : Czar) (ks : KeySet)
    (h : Holds P (some cr) fs l ks) (hp : cr.primaryKey = .error .keyNotFound) (status : KeyStatus) (size : Int) :
    (∃ e, (AddKey P env (some l) status (some cr) size fs).1 = .error e) ∧
    ((AddKey P env (some l) status (some cr) size fs).2 ≠ [] →
      (AddKey P env (some l) status (some cr) size fs).1 = .error .keyNotFound ∧
      ∃ n text, (∀ e ∈ ks.entries, e.num < n) ∧
        (AddKey P env (some l) status (some cr) size fs).2 = [.write l .metaFile text] ∧
        ∀ d, fs l = some d → d (.key n) = none →
          ∃ d', (AddKey P env (some l) status (some cr) size).after fs l = some d' ∧
            ∀ rd cls c, Czar.init P cls (readerFor P rd (FileReader d')) ≠ .ok c) := by
  obtain ⟨c, hc, rfl⟩ := h
  have hld := load_loaded hc
  unfold Cmd.after
  rw [AddKey_eq]
  have hi := Op.run_inv hld.inv (.add env.gen env.fuel status (if size = -1 then none else some size))
  have hwf := run_wf hld.inv hld.loadable.view_wf (.add env.gen env.fuel status (if size = -1 then none else some size))
  unfold manage
  rw [hc]
  simp only [Bool.false_eq_true, if_false]
  cases ha : c.AddVersion P env.gen env.fuel status (if size = -1 then none else some size) with
  | mk r c' =>
    simp only [Op.run, ha] at hi hwf ⊢
    cases r with
    | error e => exact ⟨⟨e, rfl⟩, fun h => absurd rfl h⟩
    | ok u =>
      simp only
      obtain ⟨key, hash, j, -, -, -, -, h1, -⟩ := AddVersion_ok hld.inv ha
      have hnew : (⟨c.maxVersion + 1, status, .bool false, key⟩ : Entry) ∈ c'.keySet.entries := by
        rw [h1]; unfold KeySet.add; simp
      obtain ⟨bs, g1, g2, g3⟩ := Czar.Write_spec (env := env) hi hwf (l := l) (some cr) (fs := fs) (load_isSome hc)
      have hkt : ∀ rnd k, keyText P (some cr) rnd k = .error .keyNotFound := by
        intro rnd k
        show cr.Encrypt P rnd (dumps k.json) (some Base64WSEncode) = _
        unfold Czar.Encrypt
        rw [hp]
        rfl
      have hbs : bs = [] := by
        cases bs with
        | nil => rfl
        | cons q t =>
          obtain ⟨k, -, hk⟩ := g2 q (by simp)
          rw [hkt] at hk
          cases hk
      subst hbs
      have herr : (c'.Write P env l (some cr) fs).1 = .error .keyNotFound := by
        rcases g3 with ⟨-, g3⟩ | ⟨e, o, k, g3, -, -, g4⟩
        · exfalso
          obtain ⟨p, hpm, -⟩ := List.mem_map.mp hnew
          have := (env.order_perm c'.versions).mem_iff.mpr (hi.meta_mem p hpm)
          rw [← g3] at this
          cases this
        · rw [hkt] at g4
          cases g4
          exact g3
      refine ⟨⟨_, herr⟩, fun _ => ⟨herr, c.maxVersion + 1, _, ?_, g1, ?_⟩⟩
      · intro e he
        obtain ⟨p, hpm, rfl⟩ := List.mem_map.mp he
        have := c.maxVersion_ge p.2 (hld.inv.meta_mem p hpm)
        rw [hld.inv.meta_num p hpm] at this
        show p.1 < _
        omega
      · intro d hd hdn
        rw [g1]
        refine ⟨_, by rw [applyAll_at, hd]; rfl, fun rd cls => ?_⟩
        refine no_load_of_missing (ks := c'.keySet.stored true) (stored_wf hwf true) hi.valid.nodup ?_ hnew ?_ rd cls
        · simp [dirAfter, touch, Effect.loc, Effect.file, Effect.content]
        · simp only [dirAfter, touch, List.map_nil]
          simpa [Effect.file] using hdn

/-- example: testdata/hmac written encrypted under testdata/aes, then addkey with the AES set's PRIMARY
key demoted -/
def exLocked : Py (FS × Czar) := do
  let c ← Czar.init realPrims .generic (Ex.hmac .ACTIVE .PRIMARY)
  let cr ← Czar.init realPrims .crypter Ex.aes
  return ((c.Write realPrims Ex.env [120] (some cr)).after (Ex.disk .ACTIVE .PRIMARY), (cr.Demote 2).2)
example : exLocked.map (fun x => (Ex.isOk (load realPrims (some x.2) [120] x.1),
      decide (x.2.primaryKey = .error .keyNotFound),
      (AddKey realPrims Ex.env (some [120]) .ACTIVE (some x.2) (-1) x.1).2.length,
      Ex.isOk (load realPrims (some x.2) [120]
        ((AddKey realPrims Ex.env (some [120]) .ACTIVE (some x.2) (-1)).after x.1)))) =
    .ok (true, true, 1, false) := by decide +kernel

end Verif.Props
