import Verif.Model.Keyczart
import Verif.Lemmas.Init
/-
Effects of the disk model and of writing a key set.
-/
namespace Verif
open Spec (Entry KeySet)

/-! ### commands as computations -/
namespace Cmd
variable {α β : Type}

theorem bind_def (m : Cmd α) (f : α → Cmd β) (fs : FS) : (m >>= f) fs =
    match m fs with
    | (.error e, es) => (.error e, es)
    | (.ok a, es) => ((f a (applyAll fs es)).1, es ++ (f a (applyAll fs es)).2) := rfl

theorem pure_def (a : α) (fs : FS) : (pure a : Cmd α) fs = (.ok a, []) := rfl

theorem lift_ok_bind (a : α) (f : α → Cmd β) : (lift (.ok a) >>= f) = f a := by
  funext fs
  simp [bind_def, lift, applyAll]

theorem lift_error_bind (e : PyErr) (f : α → Cmd β) (fs : FS) : (lift (.error e) >>= f) fs = (.error e, []) := rfl

theorem look_bind (g : FS → Py α) (f : α → Cmd β) (fs : FS) : (look g >>= f) fs =
    match g fs with
    | .error e => (.error e, [])
    | .ok a => f a fs := by
  simp only [bind_def, look]
  cases g fs with
  | error e => rfl
  | ok a => simp [applyAll]

end Cmd

/-! ### effects -/

def Effect.loc : Effect → Loc
  | .write l _ _ => l
  | .remove l _ => l
def Effect.file : Effect → FileName
  | .write _ f _ => f
  | .remove _ f => f
/-- content of the file afterwards -/
def Effect.content : Effect → Option Bytes
  | .write _ _ b => some b
  | .remove _ _ => none

theorem Effect.apply_eq (fs : FS) (e : Effect) : e.apply fs = fs.set e.loc e.file e.content := by cases e <;> rfl

/-- what the last effect on a file leaves there, if there is one -/
def touch (es : List Effect) (l : Loc) (f : FileName) : Option (Option Bytes) :=
  match es with
  | [] => none
  | e :: t => (touch t l f).or (if e.loc = l ∧ e.file = f then some e.content else none)

theorem touch_append (a b : List Effect) (l : Loc) (f : FileName) :
    touch (a ++ b) l f = (touch b l f).or (touch a l f) := by
  induction a with
  | nil => simp [touch]
  | cons e t ih => simp only [List.cons_append, touch, ih, Option.or_assoc]

theorem touch_none {es : List Effect} {l : Loc} {f : FileName} :
    touch es l f = none ↔ ∀ e ∈ es, ¬ (e.loc = l ∧ e.file = f) := by
  induction es with
  | nil => simp [touch]
  | cons e t ih => simp [touch, ih]; tauto

theorem touch_mem {es : List Effect} {l : Loc} {f : FileName} {c : Option Bytes} (h : touch es l f = some c) :
    ∃ e ∈ es, e.loc = l ∧ e.file = f ∧ e.content = c := by
  induction es with
  | nil => simp [touch] at h
  | cons e t ih =>
    rw [touch, Option.or_eq_some_iff] at h
    rcases h with h | ⟨-, h⟩
    · obtain ⟨e', h1, h2⟩ := ih h
      exact ⟨e', List.mem_cons_of_mem _ h1, h2⟩
    · split at h
      · next hc => exact ⟨e, by simp, hc.1, hc.2, by simpa using h⟩
      · cases h

/-- a directory after effects -/
def dirAfter (es : List Effect) (l : Loc) (d : Dir) : Dir := fun f => (touch es l f).getD (d f)

theorem applyAll_at (fs : FS) (es : List Effect) (l : Loc) : applyAll fs es l = (fs l).map (dirAfter es l) := by
  induction es generalizing fs with
  | nil =>
    show fs l = _
    cases fs l <;> rfl
  | cons e t ih =>
    show applyAll (e.apply fs) t l = _
    rw [ih, Effect.apply_eq, FS.set]
    by_cases hl : l = e.loc
    · subst hl
      rw [if_pos rfl]
      cases fs e.loc with
      | none => rfl
      | some d =>
        simp only [Option.map_some, Option.some.injEq]
        funext f
        simp only [dirAfter, touch]
        cases touch t e.loc f with
        | some c => simp
        | none =>
          simp only [Option.getD_none, Option.none_or, true_and, Dir.set]
          by_cases hf : f = e.file
          · simp [hf]
          · rw [if_neg hf, if_neg (fun x => hf x.symm)]; rfl
    · rw [if_neg hl]
      congr 1
      funext d f
      simp only [dirAfter, touch]
      rw [if_neg (fun x => hl x.1.symm), Option.or_none]

theorem applyAll_append (fs : FS) (a b : List Effect) : applyAll fs (a ++ b) = applyAll (applyAll fs a) b := by
  simp [applyAll]

theorem applyAll_isSome (fs : FS) (es : List Effect) (l : Loc) : (applyAll fs es l).isSome = (fs l).isSome := by
  rw [applyAll_at]; simp

theorem applyAll_other {fs : FS} {es : List Effect} {l : Loc} (h : ∀ e ∈ es, e.loc ≠ l) :
    applyAll fs es l = fs l := by
  rw [applyAll_at]
  cases fs l with
  | none => rfl
  | some d =>
    simp only [Option.map_some, Option.some.injEq]
    funext f
    rw [dirAfter, touch_none.mpr (fun e he x => h e he x.1)]
    rfl

theorem WriteFile_ok {fs : FS} {l : Loc} (h : (fs l).isSome = true) (data : Bytes) (f : FileName) :
    WriteFile data l f fs = (.ok (), [.write l f data]) := by
  unfold WriteFile; rw [if_pos h]

/-! ### writing keys -/
section
variable (P : Prims)

/-- the text of a key file: the serialised key, encrypted if there is an encrypter -/
def keyText (enc : Option Czar) (rnd : Rand) (k : Key) : Py Bytes :=
  match enc with
  | none => .ok (dumps k.json)
  | some e => e.Encrypt P rnd (dumps k.json) (some Base64WSEncode)

variable {P}

theorem WriteKey_eq {fs : FS} {l : Loc} (hl : (fs l).isSome = true) (k : Key) (n : Int) (enc : Option Czar)
    (rnd : Rand) : WriteKey P l k n enc rnd fs =
      match keyText P enc rnd k with
      | .error e => (.error e, [])
      | .ok b => (.ok (), [.write l (.key n) b]) := by
  unfold WriteKey keyText
  rw [Key.str_eq, Cmd.lift_ok_bind]
  cases enc with
  | none => exact WriteFile_ok hl _ _
  | some e =>
    simp only
    cases e.Encrypt P rnd (dumps k.json) (some Base64WSEncode) with
    | error e => rfl
    | ok b => rw [Cmd.lift_ok_bind]; exact WriteFile_ok hl _ _

/-- the file `writeKeys` makes for a version object -/
def keyWrite (l : Loc) (c : Czar) (p : Nat × Bytes) : Effect := .write l (.key (c.heap.obj p.1).num) p.2

/-- `b` is what is written for version object `o` -/
def Czar.Writes (P : Prims) (c : Czar) (enc : Option Czar) (rnd : Nat → Rand) (o : Nat) (b : Bytes) : Prop :=
  ∃ k, assocGet c.vkeys o = some k ∧ keyText P enc (rnd o) k = .ok b

theorem writeKeys_spec {l : Loc} {c : Czar} {enc : Option Czar} {rnd : Nat → Rand} (os : List Nat)
    (hos : ∀ o ∈ os, o ∈ c.versions) {fs : FS} (hl : (fs l).isSome = true) :
    ∃ bs : List (Nat × Bytes), (writeKeys P l c enc rnd os fs).2 = bs.map (keyWrite l c) ∧
      (∀ p ∈ bs, c.Writes P enc rnd p.1 p.2) ∧
      (((writeKeys P l c enc rnd os fs).1 = .ok () ∧ bs.map Prod.fst = os) ∨
       ∃ e o k, (writeKeys P l c enc rnd os fs).1 = .error e ∧ bs.map Prod.fst ++ [o] <+: os ∧
         assocGet c.vkeys o = some k ∧ keyText P enc (rnd o) k = .error e) := by
  induction os generalizing fs with
  | nil => exact ⟨[], rfl, by simp, .inl ⟨rfl, rfl⟩⟩
  | cons o t ih =>
    have ho := assocGet_isSome.mpr (hos o (by simp))
    cases hk : assocGet c.vkeys o with
    | none => rw [hk] at ho; cases ho
    | some k =>
      rw [writeKeys, Czar.GetKeyByVersion, hk]
      simp only
      rw [Cmd.lift_ok_bind, Cmd.bind_def, WriteKey_eq hl]
      cases hb : keyText P enc (rnd o) k with
      | error e =>
        refine ⟨[], rfl, by simp, .inr ⟨e, o, k, rfl, ?_, hk, hb⟩⟩
        simp
      | ok b =>
        simp only
        obtain ⟨bs, h1, h2, h3⟩ := ih (fun x hx => hos x (by simp [hx]))
          (fs := applyAll fs [.write l (.key (c.heap.obj o).num) b]) (by rw [applyAll_isSome]; exact hl)
        refine ⟨(o, b) :: bs, ?_, ?_, ?_⟩
        · rw [h1]; rfl
        · intro p hp
          rcases List.mem_cons.mp hp with rfl | hp
          · exact ⟨k, hk, hb⟩
          · exact h2 p hp
        · rcases h3 with ⟨h3, h4⟩ | ⟨e, o', k', h3, h4, h5, h6⟩
          · exact .inl ⟨h3, by rw [List.map_cons, h4]⟩
          · refine .inr ⟨e, o', k', h3, ?_, h5, h6⟩
            rw [List.map_cons, List.cons_append]
            exact List.prefix_cons_inj o |>.mpr h4

/-- the key set as it is stored by `Write` -/
def _root_.Verif.Spec.KeySet.stored (ks : KeySet) (enc : Bool) : KeySet := { ks with encrypted := .bool enc }

/-- text of the metadata file for a key set -/
def metaText (ks : KeySet) : Bytes := dumps (viewJson ks.view)

theorem Czar.view_eq {c : Czar} (h : c.Inv P) : c.metadata.view c.heap = c.keySet.view := by
  unfold KeyMetadata.view Spec.KeySet.view Czar.keySet
  simp only [List.map_map]
  congr 1
  apply List.map_congr_left
  intro p hp
  simp only [Function.comp, Czar.entryOf]
  rw [← h.meta_num p hp]

theorem Czar.markEncrypted_keySet (c : Czar) (enc : Option Czar) :
    (c.markEncrypted enc).keySet = c.keySet.stored enc.isSome := rfl

theorem Czar.markEncrypted_inv {c : Czar} (h : c.Inv P) (enc : Option Czar) : (c.markEncrypted enc).Inv P :=
  ⟨h.meta_num, h.meta_nodup, h.meta_mem, h.v_nodup, h.v_lt, h.v_num, h.primary_lt, h.primary_of, h.primary_is,
    h.hash_ok, h.hashed, h.type_ok⟩

theorem stored_wf {ks : KeySet} (h : ks.view.WF) (b : Bool) : (ks.stored b).view.WF :=
  ⟨h.name, trivial, h.versions⟩

/-- everything `Write` does -/
theorem Czar.Write_spec {env : Env} {c : Czar} (h : c.Inv P) (hw : c.keySet.view.WF) {l : Loc} (enc : Option Czar)
    {fs : FS} (hl : (fs l).isSome = true) :
    ∃ bs : List (Nat × Bytes),
      (c.Write P env l enc fs).2 = .write l .metaFile (metaText (c.keySet.stored enc.isSome)) :: bs.map (keyWrite l c) ∧
      (∀ p ∈ bs, c.Writes P enc env.enc p.1 p.2) ∧
      (((c.Write P env l enc fs).1 = .ok () ∧ bs.map Prod.fst = env.order c.versions) ∨
       ∃ e o k, (c.Write P env l enc fs).1 = .error e ∧ bs.map Prod.fst ++ [o] <+: env.order c.versions ∧
         assocGet c.vkeys o = some k ∧ keyText P enc (env.enc o) k = .error e) := by
  have hi := Czar.markEncrypted_inv h enc
  have hm : (c.markEncrypted enc).metadata.str (c.markEncrypted enc).heap =
      .ok (metaText (c.keySet.stored enc.isSome)) := by
    rw [KeyMetadata.str_eq]
    · rw [Czar.view_eq hi]; rfl
    · intro p hp
      have := hw.versions (c.heap.obj p.2) (by
        rw [← Czar.view_eq h]
        exact List.mem_map.mpr ⟨p, hp, rfl⟩)
      exact this
  obtain ⟨bs, h1, h2, h3⟩ := writeKeys_spec (P := P) (l := l) (c := c.markEncrypted enc) (enc := enc) (rnd := env.enc)
    (env.order c.versions) (fun o ho => (env.order_perm _).mem_iff.mp ho)
    (fs := applyAll fs [.write l .metaFile (metaText (c.keySet.stored enc.isSome))])
    (by rw [applyAll_isSome]; exact hl)
  have hmeta : WriteMetadata l (c.markEncrypted enc).heap (c.markEncrypted enc).metadata true fs =
      (.ok (), [.write l .metaFile (metaText (c.keySet.stored enc.isSome))]) := by
    unfold WriteMetadata
    rw [if_neg (by simp), hm, Cmd.lift_ok_bind, WriteFile_ok hl]
  have heq : c.Write P env l enc fs = ((writeKeys P l (c.markEncrypted enc) enc env.enc (env.order c.versions)
      (applyAll fs [.write l .metaFile (metaText (c.keySet.stored enc.isSome))])).1,
      .write l .metaFile (metaText (c.keySet.stored enc.isSome)) ::
      (writeKeys P l (c.markEncrypted enc) enc env.enc (env.order c.versions)
      (applyAll fs [.write l .metaFile (metaText (c.keySet.stored enc.isSome))])).2) := by
    unfold Czar.Write
    rw [Cmd.bind_def, hmeta]
    rfl
  rw [heq]
  exact ⟨bs, congrArg _ h1, h2, h3⟩

end

/-! ### reading what was written -/
section
variable {P : Prims}

/-- files of version objects are different -/
theorem keyWrite_touch {l : Loc} {c : Czar} (h : c.Inv P) {bs : List (Nat × Bytes)}
    (hn : (bs.map Prod.fst).Nodup) (hv : ∀ p ∈ bs, p.1 ∈ c.versions) {p : Nat × Bytes} (hp : p ∈ bs) :
    touch (bs.map (keyWrite l c)) l (.key (c.heap.obj p.1).num) = some (some p.2) := by
  cases ht : touch (bs.map (keyWrite l c)) l (.key (c.heap.obj p.1).num) with
  | none =>
    exact absurd ⟨rfl, rfl⟩ (touch_none.mp ht (keyWrite l c p) (List.mem_map.mpr ⟨p, hp, rfl⟩))
  | some x =>
    obtain ⟨e, he, -, h2, h3⟩ := touch_mem ht
    obtain ⟨q, hq, rfl⟩ := List.mem_map.mp he
    have h2 : FileName.key (c.heap.obj q.1).num = .key (c.heap.obj p.1).num := h2
    have e1 := h.v_num _ (hv q hq) _ (hv p hp) (FileName.key.inj h2)
    have : q = p := List.inj_on_of_nodup_map hn hq hp e1
    rw [← h3, this]
    rfl

/-- the directory's reader with an optional crypter (keyczart.py:255-258) -/
abbrev dirReader (P : Prims) (cr : Option Czar) (d : Dir) : Reader := readerFor P cr (FileReader d)

theorem dirReader_meta (cr : Option Czar) (d : Dir) : (dirReader P cr d).GetMetadata = ReadFile d .metaFile := by
  cases cr <;> rfl

theorem dirReader_encrypted (cr : Option Czar) (d : Dir) : (dirReader P cr d).isEncryptedReader = cr.isSome := by
  cases cr <;> rfl

theorem dirReader_key (cr : Option Czar) (d : Dir) (n : Int) : (dirReader P cr d).GetKey n =
    match cr with
    | none => ReadFile d (.key n)
    | some e => (ReadFile d (.key n)).bind fun t => e.Decrypt P t (some Base64WSDecode) := by
  cases cr <;> rfl

/-- what `rd` reads back is what `enc` wrote -/
def Opens (P : Prims) (enc rd : Option Czar) : Prop :=
  match enc, rd with
  | none, none => True
  | some e, some r => ∀ rnd m out, e.Encrypt P rnd m (some Base64WSEncode) = .ok out →
      r.Decrypt P out (some Base64WSDecode) = .ok m
  | _, _ => False

theorem Opens.isSome {enc rd : Option Czar} (h : Opens P enc rd) : enc.isSome = rd.isSome := by
  cases enc <;> cases rd <;> first | rfl | exact h.elim

theorem Opens.read {enc rd : Option Czar} (h : Opens P enc rd) {rnd : Rand} {k : Key} {b : Bytes}
    (hb : keyText P enc rnd k = .ok b) {d : Dir} {n : Int} (hd : d (.key n) = some b) :
    (dirReader P rd d).GetKey n = .ok (dumps k.json) := by
  rw [dirReader_key]
  cases enc with
  | none => cases rd with
    | none => simp only [ReadFile, hd]; exact hb.symm ▸ rfl
    | some r => exact h.elim
  | some e => cases rd with
    | none => exact h.elim
    | some r => simp only [ReadFile, hd]; exact h rnd _ _ hb

/-- a directory with the right metadata file, and for each version a file written for its key,
describes the key set -/
theorem gives_of_files {ks : KeySet} (hl : ks.Loadable P) {enc rd : Option Czar} (ho : Opens P enc rd) {d : Dir}
    (hm : d .metaFile = some (metaText ks))
    (hk : ∀ e ∈ ks.entries, ∃ rnd b, keyText P enc rnd e.key = .ok b ∧ d (.key e.num) = some b) :
    (dirReader P rd d).Gives P ks := by
  refine ⟨?_, ?_⟩
  · obtain ⟨kmd, h, h1, -, h3⟩ := KeyMetadata.Read_viewJson hl.view_wf (by
      have := hl.valid.nodup
      unfold Spec.KeySet.view
      rw [List.map_map]; exact this)
    exact ⟨metaText ks, kmd, h, by rw [dirReader_meta, ReadFile, hm], h1, h3⟩
  · intro e he
    obtain ⟨rnd, b, h1, h2⟩ := hk e he
    obtain ⟨h3, h4, h5⟩ := hl.key_ok e he
    refine ⟨_, ho.read h1 h2, ?_, h5⟩
    rw [← h4]
    exact ReadKey_str e.key h3

theorem Czar.Inv.loadable {c : Czar} (h : c.Inv P) (hw : c.keySet.view.WF) : c.keySet.Loadable P := by
  refine ⟨hw, h.valid, ?_⟩
  intro e he
  obtain ⟨p, hp, rfl⟩ := List.mem_map.mp he
  obtain ⟨k, hk⟩ := Option.isSome_iff_exists.mp (assocGet_isSome.mpr (h.meta_mem p hp))
  have hm := assocGet_mem hk
  have : (c.entryOf p).key = k := by simp [Czar.entryOf, hk]
  rw [this]
  obtain ⟨h1, h2⟩ := h.type_ok _ hm
  obtain ⟨hh, h3, -⟩ := h.hashed _ hm
  exact ⟨h1, h2, hh, h3⟩

theorem Loadable_stored {ks : KeySet} (h : ks.Loadable P) (b : Bool) : (ks.stored b).Loadable P :=
  ⟨stored_wf h.view_wf b, ⟨h.valid.nodup, h.valid.primary⟩, h.key_ok⟩

theorem metaFile_touch {l : Loc} {c : Czar} {bs : List (Nat × Bytes)} {t : Bytes} :
    touch (.write l .metaFile t :: bs.map (keyWrite l c)) l .metaFile = some (some t) := by
  rw [touch, touch_none.mpr]
  · simp [Effect.loc, Effect.file, Effect.content]
  · intro e he
    obtain ⟨p, -, rfl⟩ := List.mem_map.mp he
    simp [keyWrite, Effect.file]

theorem keyFile_touch {l : Loc} {es : List Effect} {t : Bytes} {n : Int} :
    touch (.write l .metaFile t :: es) l (.key n) = touch es l (.key n) := by
  rw [touch]; simp [Effect.file]

/-- after a successful `Write` the directory describes the key set -/
theorem Czar.Write_gives {env : Env} {c : Czar} (h : c.Inv P) (hw : c.keySet.view.WF) {l : Loc} {enc rd : Option Czar}
    (ho : Opens P enc rd) {fs : FS} {d : Dir} (hl : fs l = some d) (hr : (c.Write P env l enc fs).1 = .ok ()) :
    (dirReader P rd (dirAfter (c.Write P env l enc fs).2 l d)).Gives P (c.keySet.stored enc.isSome) := by
  obtain ⟨bs, h1, h2, h3⟩ := Czar.Write_spec (env := env) h hw (l := l) enc (fs := fs) (by rw [hl]; rfl)
  rcases h3 with ⟨-, h3⟩ | ⟨e, o, k, h3, -⟩
  · have hperm := env.order_perm c.versions
    rw [← h3] at hperm
    have hn : (bs.map Prod.fst).Nodup := hperm.nodup_iff.mpr h.v_nodup
    apply gives_of_files (Loadable_stored (h.loadable hw) _) ho
    · rw [h1, dirAfter, metaFile_touch]; rfl
    · intro e he
      obtain ⟨p, hp, rfl⟩ := List.mem_map.mp he
      obtain ⟨q, hq, hq2⟩ := List.mem_map.mp (hperm.mem_iff.mpr (h.meta_mem p hp))
      obtain ⟨k, hk, hb⟩ := h2 q hq
      have hkey : (c.entryOf p).key = k := by simp [Czar.entryOf, ← hq2, hk]
      refine ⟨env.enc q.1, q.2, ?_, ?_⟩
      · rw [hkey]; exact hb
      · rw [h1, dirAfter, keyFile_touch]
        have hnum : (c.entryOf p).num = (c.heap.obj q.1).num := by
          rw [hq2]; exact (h.meta_num p hp).symm
        rw [hnum, keyWrite_touch h hn (fun p hp => hperm.mem_iff.mp (List.mem_map.mpr ⟨p, hp, rfl⟩)) hq]
        rfl
  · rw [hr] at h3; cases h3

/-- without encrypter, `Write` into an existing directory succeeds -/
theorem Czar.Write_plain {env : Env} {c : Czar} (h : c.Inv P) (hw : c.keySet.view.WF) {l : Loc} {fs : FS}
    (hl : (fs l).isSome = true) : (c.Write P env l none fs).1 = .ok () := by
  obtain ⟨bs, -, -, ⟨h3, -⟩ | ⟨e, o, k, -, -, -, h3⟩⟩ := Czar.Write_spec (env := env) h hw (l := l) none (fs := fs) hl
  · exact h3
  · cases h3

/-- `Write` only writes into its directory -/
theorem Czar.Write_loc {env : Env} {c : Czar} (h : c.Inv P) (hw : c.keySet.view.WF) {l : Loc} {enc : Option Czar} {fs : FS}
    (hl : (fs l).isSome = true) : ∀ e ∈ (c.Write P env l enc fs).2, e.loc = l := by
  obtain ⟨bs, h1, -⟩ := Czar.Write_spec (env := env) h hw (l := l) enc (fs := fs) hl
  rw [h1]
  intro e he
  rcases List.mem_cons.mp he with rfl | he
  · rfl
  · obtain ⟨p, -, rfl⟩ := List.mem_map.mp he
    rfl

end

end Verif
