import Verif.Lemmas.Disk
import Verif.Props.Management
/-
What the commands of keyczart.py do to directories.
-/
namespace Verif
open Spec (Entry KeySet)
open Props (Op Loaded)
variable {P : Prims}

/-! ### labels stay serialisable -/

theorem mapStatus_wf {ks : KeySet} (h : ks.view.WF) (f : Entry → KeyStatus) : (ks.mapStatus f).view.WF := by
  refine ⟨h.name, h.encrypted, ?_⟩
  intro x hx
  obtain ⟨e, he, rfl⟩ := List.mem_map.mp hx
  obtain ⟨e', he', rfl⟩ := List.mem_map.mp he
  exact h.versions ⟨e'.num, e'.status, e'.exportable⟩ (List.mem_map.mpr ⟨e', he', rfl⟩)

theorem promote_wf {ks ks' : KeySet} {n : Int} (h : ks.view.WF) (hp : ks.promote n = some ks') : ks'.view.WF := by
  unfold Spec.KeySet.promote at hp
  split at hp
  · cases hp
  · split at hp <;> cases hp <;> exact mapStatus_wf h _

theorem demote_wf {ks ks' : KeySet} {n : Int} (h : ks.view.WF) (hp : ks.demote n = some ks') : ks'.view.WF := by
  unfold Spec.KeySet.demote at hp
  split at hp
  · cases hp
  · split at hp <;> cases hp <;> exact mapStatus_wf h _

theorem revoke_wf {ks ks' : KeySet} {n : Int} (h : ks.view.WF) (hp : ks.revoke n = some ks') : ks'.view.WF := by
  unfold Spec.KeySet.revoke at hp
  split at hp
  · cases hp
  · split at hp
    · cases hp
      refine ⟨h.name, h.encrypted, ?_⟩
      intro x hx
      obtain ⟨e, he, rfl⟩ := List.mem_map.mp hx
      exact h.versions _ (List.mem_map.mpr ⟨e, (List.mem_filter.mp he).1, rfl⟩)
    · cases hp

theorem add_wf {ks : KeySet} (h : ks.view.WF) (n : Int) (s : KeyStatus) (k : Key) : (ks.add n s k).view.WF := by
  have key : ∀ old : KeySet, old.view.WF →
      ({ old with entries := old.entries ++ [⟨n, s, .bool false, k⟩] } : KeySet).view.WF := by
    intro old ho
    refine ⟨ho.name, ho.encrypted, ?_⟩
    intro x hx
    obtain ⟨e, he, rfl⟩ := List.mem_map.mp hx
    rcases List.mem_append.mp he with he | he
    · exact ho.versions _ (List.mem_map.mpr ⟨e, he, rfl⟩)
    · simp only [List.mem_singleton] at he
      subst he
      trivial
  unfold Spec.KeySet.add
  split
  · exact key _ (mapStatus_wf h _)
  · exact key _ h

theorem run_wf {c : Czar} (h : c.Inv P) (hw : c.keySet.view.WF) (op : Op) : (op.run P c).2.keySet.view.WF := by
  cases op with
  | promote n =>
    have := Czar.Promote_spec h n
    cases hs : c.keySet.promote n with
    | none => rw [hs] at this; simp only [Op.run, this]; exact hw
    | some ks =>
      rw [hs] at this
      obtain ⟨heap, pr, h1, h2, h3⟩ := this
      simp only [Op.run, h1, h2]
      exact promote_wf hw hs
  | demote n =>
    have := Czar.Demote_spec h n
    cases hs : c.keySet.demote n with
    | none => rw [hs] at this; simp only [Op.run, this]; exact hw
    | some ks =>
      rw [hs] at this
      obtain ⟨heap, pr, h1, h2, h3⟩ := this
      simp only [Op.run, h1, h2]
      exact demote_wf hw hs
  | revoke n =>
    have := Czar.Revoke_spec h n
    cases hs : c.keySet.revoke n with
    | none => rw [hs] at this; simp only [Op.run, this]; exact hw
    | some ks =>
      rw [hs] at this
      obtain ⟨m, h1, -, h2, h3⟩ := this
      simp only [Op.run, h1, h2]
      exact revoke_wf hw hs
  | add rnd fuel status size =>
    cases ha : c.AddVersion P rnd fuel status size with
    | mk r c' =>
      simp only [Op.run, ha]
      cases r with
      | error e =>
        rw [Czar.AddVersion_eq] at ha
        split at ha
        · cases ha; exact hw
        · split at ha
          · cases ha
            rw [Czar.addPrep_keySet h]
            split
            · exact mapStatus_wf hw _
            · exact hw
          · cases ha
      | ok u =>
        obtain ⟨key, hash, j, -, -, h2, h3, h1, -⟩ := Props.AddVersion_ok h ha
        rw [h1]
        exact add_wf hw _ _ _

theorem runAll_wf {c : Czar} (h : c.Inv P) (hw : c.keySet.view.WF) (ops : List Op) :
    (Props.runAll P c ops).keySet.view.WF := by
  unfold Props.runAll
  induction ops generalizing c with
  | nil => exact hw
  | cons op t ih => exact ih (Op.run_inv h op) (run_wf h hw op)

/-! ### loading a directory -/

/-- loading the directory at `l`, with an optional crypter for the key files -/
def load (P : Prims) (cr : Option Czar) (l : Loc) (fs : FS) : Py Czar :=
  match fs l with
  | none => .error .keyczarError
  | some d => Czar.init P .generic (dirReader P cr d)

theorem CreateGenericKeyczar_eq (cr : Option Czar) (l : Loc) (fs : FS) :
    CreateGenericKeyczar P (some l) cr fs = (load P cr l fs, []) := by
  show ((CreateReader l fs).bind fun r => Czar.init P .generic (readerFor P cr r), []) = _
  unfold load CreateReader
  cases fs l <;> rfl

theorem load_some {cr : Option Czar} {l : Loc} {fs : FS} {c : Czar} (h : load P cr l fs = .ok c) :
    ∃ d, fs l = some d ∧ Czar.init P .generic (dirReader P cr d) = .ok c := by
  unfold load at h
  split at h
  · cases h
  · next d hd => exact ⟨d, hd, h⟩

theorem load_loaded {cr : Option Czar} {l : Loc} {fs : FS} {c : Czar} (h : load P cr l fs = .ok c) : Loaded P c := by
  obtain ⟨d, -, h⟩ := load_some h
  exact ⟨_, _, h⟩

/-- the directory at `l` loads as the key set `ks` -/
def Holds (P : Prims) (cr : Option Czar) (fs : FS) (l : Loc) (ks : KeySet) : Prop :=
  ∃ c, load P cr l fs = .ok c ∧ c.keySet = ks

theorem Holds_iff {cr : Option Czar} {fs : FS} {l : Loc} {ks : KeySet} : Holds P cr fs l ks ↔
    ∃ d, fs l = some d ∧ (dirReader P cr d).Gives P ks ∧ (ks.encrypted.truthy = true → cr.isSome = true) ∧
      ks.primaries.length ≤ 1 := by
  constructor
  · rintro ⟨c, h, hk⟩
    obtain ⟨d, hd, h⟩ := load_some h
    obtain ⟨h1, -, h3, h4⟩ := Czar.init_iff.mp ⟨c, h, hk⟩
    exact ⟨d, hd, h1, by rwa [dirReader_encrypted] at h3, h4⟩
  · rintro ⟨d, hd, h1, h2, h3⟩
    obtain ⟨c, hc, hk⟩ := (Czar.init_iff (cls := .generic)).mpr ⟨h1, rfl, by rwa [dirReader_encrypted], h3⟩
    exact ⟨c, by unfold load; rw [hd]; exact hc, hk⟩

theorem Holds.unique {cr : Option Czar} {fs : FS} {l : Loc} {ks ks' : KeySet} (h : Holds P cr fs l ks)
    (h' : Holds P cr fs l ks') : ks = ks' := by
  obtain ⟨c, h1, rfl⟩ := h
  obtain ⟨c', h2, rfl⟩ := h'
  rw [h1] at h2
  cases h2
  rfl

theorem Holds.loadable {cr : Option Czar} {fs : FS} {l : Loc} {ks : KeySet} (h : Holds P cr fs l ks) :
    ks.Loadable P := by
  obtain ⟨c, h1, rfl⟩ := h
  exact (load_loaded h1).loadable

theorem Holds.other {cr : Option Czar} {fs : FS} {l : Loc} {ks : KeySet} (h : Holds P cr fs l ks)
    {es : List Effect} (he : ∀ e ∈ es, e.loc ≠ l) : Holds P cr (applyAll fs es) l ks := by
  obtain ⟨c, h1, h2⟩ := h
  refine ⟨c, ?_, h2⟩
  unfold load at h1 ⊢
  rw [applyAll_other he]
  exact h1

theorem stored_primaries (ks : KeySet) (b : Bool) : (ks.stored b).primaries = ks.primaries := rfl

/-- the directory after a successful `Write` -/
theorem Czar.Write_holds {env : Env} {c : Czar} (h : c.Inv P) (hw : c.keySet.view.WF) {l : Loc} {enc rd : Option Czar}
    (ho : Opens P enc rd) {fs : FS} (hl : (fs l).isSome = true) (hr : (c.Write P env l enc fs).1 = .ok ()) :
    Holds P rd (applyAll fs (c.Write P env l enc fs).2) l (c.keySet.stored enc.isSome) := by
  obtain ⟨d, hd⟩ := Option.isSome_iff_exists.mp hl
  refine Holds_iff.mpr ⟨_, by rw [applyAll_at, hd]; rfl, Czar.Write_gives h hw ho hd hr, ?_, h.valid.primary⟩
  intro ht
  rw [← ho.isSome]
  exact ht

/-! ### management commands -/

/-- common form of keyczart.py AddKey, Promote, Demote -/
def manage (P : Prims) (env : Env) (l : Loc) (cr : Option Czar) (bad : Bool) (op : Op) : Cmd Unit := fun fs =>
  match load P cr l fs with
  | .error e => (.error e, [])
  | .ok c =>
    if bad then (.error .keyczarError, [])
    else match (op.run P c).1 with
      | .error e => (.error e, [])
      | .ok _ => (op.run P c).2.Write P env l cr fs

theorem Update_eq (env : Env) (c : Czar) {l : Loc} (cr : Option Czar) {fs : FS} (h : (fs l).isSome = true) :
    UpdateGenericKeyczar P env c l cr fs = c.Write P env l cr fs := by
  unfold UpdateGenericKeyczar
  rw [Cmd.look_bind, CreateWriter, if_pos h]

theorem load_isSome {cr : Option Czar} {l : Loc} {fs : FS} {c : Czar} (h : load P cr l fs = .ok c) :
    (fs l).isSome = true := by
  obtain ⟨d, hd, -⟩ := load_some h
  rw [hd]; rfl

theorem AddKey_eq (env : Env) (l : Loc) (status : KeyStatus) (cr : Option Czar) (size : Int) :
    AddKey P env (some l) status cr size =
      manage P env l cr false (.add env.gen env.fuel status (if size = -1 then none else some size)) := by
  funext fs
  unfold AddKey manage
  rw [Cmd.bind_def, CreateGenericKeyczar_eq]
  cases hc : load P cr l fs with
  | error e => rfl
  | ok c =>
    simp only [Bool.false_eq_true, if_false]
    show (Cmd.lift (Op.run P c (.add env.gen env.fuel status (if size = -1 then none else some size))).1 >>= fun _ =>
      UpdateGenericKeyczar P env (Op.run P c (.add env.gen env.fuel status (if size = -1 then none else some size))).2 l
        cr) fs = _
    cases (Op.run P c (.add env.gen env.fuel status (if size = -1 then none else some size))).1 with
    | error e => rfl
    | ok u => rw [Cmd.lift_ok_bind, Update_eq _ _ _ (load_isSome hc)]

theorem ChangeStatus_eq (env : Env) (f : Czar → Int → Py Unit × Czar) (op : Int → Op)
    (hop : ∀ n c, (op n).run P c = f c n) (l : Loc) (n : Int) :
    ChangeStatus P env f (some l) n = manage P env l none (decide (n < 0)) (op n) := by
  funext fs
  unfold ChangeStatus manage
  rw [Cmd.bind_def, CreateGenericKeyczar_eq]
  cases hc : load P none l fs with
  | error e => rfl
  | ok c =>
    simp only [decide_eq_true_eq]
    by_cases hn : n < 0
    · simp only [if_pos hn]; rfl
    · simp only [if_neg hn, hop]
      show (Cmd.lift (f c n).1 >>= fun _ => UpdateGenericKeyczar P env (f c n).2 l none) fs = _
      cases (f c n).1 with
      | error e => rfl
      | ok u => rw [Cmd.lift_ok_bind, Update_eq _ _ _ (load_isSome hc)]

theorem Promote_eq (env : Env) (l : Loc) (n : Int) :
    Promote P env (some l) n = manage P env l none (decide (n < 0)) (.promote n) :=
  ChangeStatus_eq env _ Op.promote (fun _ _ => rfl) l n
theorem Demote_eq (env : Env) (l : Loc) (n : Int) :
    Demote P env (some l) n = manage P env l none (decide (n < 0)) (.demote n) :=
  ChangeStatus_eq env _ Op.demote (fun _ _ => rfl) l n

/-- outcome of a management command -/
theorem manage_ok {env : Env} {l : Loc} {cr : Option Czar} {bad : Bool} {op : Op} {fs : FS}
    (h : (manage P env l cr bad op fs).1 = .ok ()) :
    ∃ c, load P cr l fs = .ok c ∧ bad = false ∧ (op.run P c).1 = .ok () ∧
      manage P env l cr bad op fs = (op.run P c).2.Write P env l cr fs := by
  unfold manage at h ⊢
  cases hc : load P cr l fs with
  | error e => rw [hc] at h; cases h
  | ok c =>
    rw [hc] at h
    refine ⟨c, rfl, ?_⟩
    simp only at h ⊢
    cases bad with
    | true => cases h
    | false =>
      simp only [Bool.false_eq_true, if_false] at h ⊢
      cases hr : (op.run P c).1 with
      | error e => rw [hr] at h; cases h
      | ok u => exact ⟨trivial, rfl, rfl⟩

/-- a failing command without crypter has no effect -/
theorem manage_error {env : Env} {l : Loc} {bad : Bool} {op : Op} {fs : FS} {e : PyErr}
    (h : (manage P env l none bad op fs).1 = .error e) : (manage P env l none bad op fs).2 = [] := by
  unfold manage at h ⊢
  cases hc : load P none l fs with
  | error e => rfl
  | ok c =>
    simp only
    cases bad with
    | true => rfl
    | false =>
      simp only [hc, Bool.false_eq_true, if_false] at h ⊢
      cases hr : (op.run P c).1 with
      | error e => rfl
      | ok u =>
        rw [hr] at h
        simp only at h
        have hl := load_loaded hc
        rw [Czar.Write_plain (Op.run_inv hl.inv op) (run_wf hl.inv hl.loadable.view_wf op) (load_isSome hc)] at h
        cases h

/-- a successful command changes the directory to the new key set and nothing else -/
theorem manage_holds {env : Env} {l : Loc} {cr : Option Czar} {bad : Bool} {op : Op} {fs : FS}
    (ho : Opens P cr cr) (h : (manage P env l cr bad op fs).1 = .ok ()) :
    ∃ c, load P cr l fs = .ok c ∧ (op.run P c).1 = .ok () ∧
      Holds P cr (applyAll fs (manage P env l cr bad op fs).2) l ((op.run P c).2.keySet.stored cr.isSome) ∧
      ∀ e ∈ (manage P env l cr bad op fs).2, e.loc = l := by
  obtain ⟨c, hc, -, h2, h3⟩ := manage_ok h
  have hl := load_loaded hc
  have hi := Op.run_inv hl.inv op
  have hw := run_wf hl.inv hl.loadable.view_wf op
  rw [h3] at h ⊢
  exact ⟨c, hc, h2, Czar.Write_holds hi hw ho (load_isSome hc) h, Czar.Write_loc hi hw (load_isSome hc)⟩

theorem manage_loc {env : Env} {l : Loc} {cr : Option Czar} {bad : Bool} {op : Op} {fs : FS} :
    ∀ e ∈ (manage P env l cr bad op fs).2, e.loc = l := by
  unfold manage
  cases hc : load P cr l fs with
  | error e => simp
  | ok c =>
    simp only
    split
    · simp
    · cases hr : (op.run P c).1 with
      | error e => simp
      | ok u =>
        have hl := load_loaded hc
        exact Czar.Write_loc (Op.run_inv hl.inv op) (run_wf hl.inv hl.loadable.view_wf op) (load_isSome hc)

/-! ### revoke -/

/-- the file of a version object is written -/
theorem Czar.Write_file {env : Env} {c : Czar} (h : c.Inv P) (hw : c.keySet.view.WF) {l : Loc} {enc : Option Czar}
    {fs : FS} (hl : (fs l).isSome = true) (hr : (c.Write P env l enc fs).1 = .ok ()) {o : Nat} (ho : o ∈ c.versions) :
    ∃ k b, assocGet c.vkeys o = some k ∧ keyText P enc (env.enc o) k = .ok b ∧
      touch (c.Write P env l enc fs).2 l (.key (c.heap.obj o).num) = some (some b) := by
  obtain ⟨bs, h1, h2, h3⟩ := Czar.Write_spec (env := env) h hw (l := l) enc (fs := fs) hl
  rcases h3 with ⟨-, h3⟩ | ⟨e, o, k, h3, -⟩
  · have hperm := env.order_perm c.versions
    rw [← h3] at hperm
    have hn : (bs.map Prod.fst).Nodup := hperm.nodup_iff.mpr h.v_nodup
    obtain ⟨q, hq, rfl⟩ := List.mem_map.mp (hperm.mem_iff.mpr ho)
    obtain ⟨k, hk, hb⟩ := h2 q hq
    refine ⟨k, q.2, hk, hb, ?_⟩
    rw [h1, keyFile_touch, keyWrite_touch h hn (fun p hp => hperm.mem_iff.mp (List.mem_map.mpr ⟨p, hp, rfl⟩)) hq]
  · rw [hr] at h3; cases h3

/-- `Revoke` is a management command followed by the removal of the key file -/
theorem Revoke_eq (env : Env) (l : Loc) (n : Int) (fs : FS) :
    Revoke P env (some l) n fs =
      match manage P env l none (decide (n < 0)) (.revoke n) fs with
      | (.error e, es) => (.error e, es)
      | (.ok _, es) => (.ok (), es ++ [.remove l (.key n)]) := by
  unfold Revoke
  rw [Cmd.bind_def, ChangeStatus_eq (P := P) env Czar.Revoke Op.revoke (fun _ _ => rfl) l n]
  cases hm : manage P env l none (decide (n < 0)) (.revoke n) fs with
  | mk r es =>
    cases r with
    | error e => rfl
    | ok u =>
      have hok : (manage P env l none (decide (n < 0)) (.revoke n) fs).1 = .ok () := by rw [hm]
      obtain ⟨c, hc, -, hr, hw⟩ := manage_ok hok
      have hl := load_loaded hc
      have hls := load_isSome hc
      have hspec := Czar.Revoke_spec hl.inv n
      have hi := Op.run_inv hl.inv (.revoke n)
      have hwf := run_wf hl.inv hl.loadable.view_wf (.revoke n)
      have hver : ∃ o ∈ ((Op.revoke n).run P c).2.versions, (((Op.revoke n).run P c).2.heap.obj o).num = n := by
        cases hk : c.keySet.revoke n with
        | none =>
          rw [hk] at hspec
          rw [show (Op.revoke n).run P c = c.Revoke n from rfl, hspec] at hr
          cases hr
        | some ks =>
          rw [hk] at hspec
          obtain ⟨m, h1, -, -, -⟩ := hspec
          simp only [Op.run, h1]
          unfold Spec.KeySet.revoke at hk
          split at hk
          · cases hk
          · next e he =>
            unfold Spec.KeySet.find at he
            have hmem := List.mem_of_find?_eq_some he
            have hnum := List.find?_some he
            obtain ⟨p, hp, rfl⟩ := List.mem_map.mp hmem
            refine ⟨p.2, hl.inv.meta_mem p hp, ?_⟩
            show (c.heap.obj p.2).num = n
            rw [hl.inv.meta_num p hp]
            exact of_decide_eq_true hnum
      obtain ⟨o, ho, hnum⟩ := hver
      rw [hw] at hm hok
      obtain ⟨k, b, -, -, ht⟩ := Czar.Write_file (env := env) hi hwf (enc := none) hls hok ho
      rw [hnum, hm] at ht
      simp only [Option.getD_some]
      rw [Cmd.look_bind, CreateWriter, applyAll_isSome, if_pos hls]
      simp only
      obtain ⟨d, hd⟩ := Option.isSome_iff_exists.mp hls
      have hrm : RemoveFile l (.key n) (applyAll fs es) = (.ok (), [.remove l (.key n)]) := by
        unfold RemoveFile
        rw [applyAll_at, hd, if_pos]
        simp [dirAfter, ht]
      rw [hrm]

end Verif
