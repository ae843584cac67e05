import Verif.Model.GenKey
import Verif.Props.History
/-
Steps of the `genkey` command.
-/
namespace Verif
open Spec Props
variable {P : Prims}

/-- a sequence of commands that succeeds -/
theorem Cmd.seq_ok {α β} {m : Cmd α} {f : α → Cmd β} {fs : FS} {b : β} (h : ((m >>= f) fs).1 = .ok b) :
    ∃ a, (m fs).1 = .ok a ∧ (f a (m.after fs)).1 = .ok b ∧ (m >>= f).after fs = (f a).after (m.after fs) := by
  unfold Cmd.after
  rw [Cmd.bind_def] at h ⊢
  cases hm : m fs with
  | mk r es =>
    rw [hm] at h
    cases r with
    | error x => cases h
    | ok a => exact ⟨a, rfl, h, by rw [applyAll_append]⟩

theorem Cmd.seq_run {α β} {m : Cmd α} {f : α → Cmd β} {fs : FS} {a : α} (h : (m fs).1 = .ok a) :
    ((m >>= f) fs).1 = (f a (m.after fs)).1 ∧ (m >>= f).after fs = (f a).after (m.after fs) := by
  unfold Cmd.after
  rw [Cmd.bind_def]
  cases hm : m fs with
  | mk r es =>
    rw [hm] at h
    simp only at h
    subst h
    exact ⟨rfl, by rw [applyAll_append]⟩

theorem Cmd.look_after {α} (g : FS → Py α) (fs : FS) : (Cmd.look g).after fs = fs := rfl
theorem Cmd.lift_after {α} (x : Py α) (fs : FS) : (Cmd.lift x).after fs = fs := rfl

/-! ### emptying a directory -/

theorem RemoveFile_run {l : Loc} {f : FileName} {fs : FS} {d : Dir} (hd : fs l = some d) (hf : (d f).isSome = true) :
    RemoveFile l f fs = (.ok (), [.remove l f]) := by
  unfold RemoveFile
  rw [if_pos (by rw [hd]; exact hf)]

theorem removeFiles_run {l : Loc} (fl : List FileName) {fs : FS} {d : Dir} (hd : fs l = some d) (hn : fl.Nodup)
    (hf : ∀ f ∈ fl, (d f).isSome = true) :
    (removeFiles l fl fs).1 = .ok () ∧
    (removeFiles l fl).after fs l = some (fun f => if f ∈ fl then none else d f) ∧
    ∀ l' ≠ l, (removeFiles l fl).after fs l' = fs l' := by
  induction fl generalizing fs d with
  | nil =>
    refine ⟨rfl, ?_, fun _ _ => rfl⟩
    show fs l = _
    rw [hd]
    simp
  | cons f t ih =>
    have hr := RemoveFile_run hd (hf f (List.mem_cons_self ..))
    have h1 : (RemoveFile l f fs).1 = .ok () := by rw [hr]
    have ha : (RemoveFile l f).after fs = fs.set l f none := by unfold Cmd.after; rw [hr]; rfl
    obtain ⟨s1, s2⟩ := Cmd.seq_run (f := fun _ => removeFiles l t) h1
    have hd' : (RemoveFile l f).after fs l = some (d.set f none) := by rw [ha]; simp [FS.set, hd]
    obtain ⟨i1, i2, i3⟩ := ih hd' (List.nodup_cons.mp hn).2 (by
      intro g hg
      have : g ≠ f := fun e => (List.nodup_cons.mp hn).1 (e ▸ hg)
      simp only [Dir.set, this, if_false]
      exact hf g (List.mem_cons_of_mem _ hg))
    refine ⟨s1.trans i1, ?_, fun l' hl' => ?_⟩
    · show (RemoveFile l f >>= fun _ => removeFiles l t).after fs l = _
      rw [s2, i2]
      congr 1
      funext g
      simp only [Dir.set, List.mem_cons]
      by_cases h1 : g ∈ t
      · simp [h1]
      · by_cases h2 : g = f <;> simp [h1, h2]
    · show (RemoveFile l f >>= fun _ => removeFiles l t).after fs l' = _
      rw [s2, i3 l' hl', ha]
      simp [FS.set, hl']

/-- `Clean` empties a directory that exists -/
theorem Clean_run (env : GenEnv) {l : Loc} {fs : FS} {d : Dir} (hd : fs l = some d) (hf : d.Finite) :
    (Clean env.ls l fs).1 = .ok () ∧ (Clean env.ls l).after fs l = some (fun _ => none) ∧
    ∀ l' ≠ l, (Clean env.ls l).after fs l' = fs l' := by
  obtain ⟨h1, h2, h3⟩ := removeFiles_run (env.ls d) hd (env.ls_nodup d) (fun f hf' => (env.ls_mem d hf f).mp hf')
  have hr : Clean env.ls l fs = removeFiles l (env.ls d) fs := by
    unfold Clean
    rw [Cmd.look_bind, hd]
  have ha : (Clean env.ls l).after fs = (removeFiles l (env.ls d)).after fs := by unfold Cmd.after; rw [hr]
  rw [hr, ha]
  refine ⟨h1, ?_, h3⟩
  rw [h2]
  congr 1
  funext f
  split
  · rfl
  · next h =>
    rw [env.ls_mem d hf] at h
    simpa using h

/-- and fails, without effect, on one that does not -/
theorem Clean_missing (env : GenEnv) {l : Loc} {fs : FS} (hd : fs l = none) :
    Clean env.ls l fs = (.error .osError, []) := by
  unfold Clean
  rw [Cmd.look_bind, hd]

/-! ### the other steps -/

/-- without versions the key files do not matter -/
theorem Holds.empty_any {fs : FS} {l : Loc} {name : Json} {p : KeyPurpose} {t : KeyType}
    (h : Holds P none fs l (KeySet.empty name p t)) (cr : Option Czar) : Holds P cr fs l (KeySet.empty name p t) := by
  obtain ⟨d, h1, ⟨h2, -⟩, -, h4⟩ := Holds_iff.mp h
  refine Holds_iff.mpr ⟨d, h1, ⟨?_, by simp [KeySet.empty]⟩, by simp [KeySet.empty, Json.truthy], h4⟩
  rw [dirReader_meta] at h2 ⊢
  exact h2

theorem Write_files {env : Env} {c : Czar} (h : c.Inv P) (hw : c.keySet.view.WF) {l : Loc} {enc : Option Czar}
    {fs : FS} (hl : (fs l).isSome = true) {x : Effect} (hx : x ∈ (c.Write P env l enc fs).2) :
    x.file = .metaFile ∨ ∃ o ∈ c.versions, x.file = .key (c.heap.obj o).num := by
  obtain ⟨bs, h1, -, h3⟩ := Czar.Write_spec (env := env) h hw (l := l) enc (fs := fs) hl
  rw [h1] at hx
  rcases List.mem_cons.mp hx with rfl | hx
  · exact .inl rfl
  · obtain ⟨p, hp, rfl⟩ := List.mem_map.mp hx
    refine .inr ⟨p.1, ?_, rfl⟩
    have hm : p.1 ∈ bs.map Prod.fst := List.mem_map.mpr ⟨p, hp, rfl⟩
    rw [← (env.order_perm c.versions).mem_iff]
    rcases h3 with ⟨-, h3⟩ | ⟨e, o, k, -, h3, -⟩
    · rw [← h3]; exact hm
    · exact h3.subset (List.mem_append_left _ hm)

/-- every version with a key is a version of the metadata, when there are not more keys than versions -/
theorem versions_mem {c : Czar} (h : c.Inv P) (hlen : c.versions.length ≤ c.keySet.entries.length) {o : Nat}
    (ho : o ∈ c.versions) : ∃ e ∈ c.keySet.entries, e.num = (c.heap.obj o).num := by
  have hn : (c.metadata.versions.map Prod.snd).Nodup := by
    have h2 : c.metadata.versions.Nodup := List.Nodup.of_map _ h.meta_nodup
    exact h2.map_on fun p hp q hq e => h.oid_eq hp hq e
  have hs : c.metadata.versions.map Prod.snd ⊆ c.versions := by
    intro o ho
    obtain ⟨p, hp, rfl⟩ := List.mem_map.mp ho
    exact h.meta_mem p hp
  have hl : c.versions.length ≤ (c.metadata.versions.map Prod.snd).length := by
    have : c.keySet.entries.length = c.metadata.versions.length := by simp [Czar.keySet]
    rw [List.length_map]
    omega
  have hp := (List.Nodup.subperm hn hs).perm_of_length_le hl
  obtain ⟨p, hp, rfl⟩ := List.mem_map.mp (hp.mem_iff.mpr ho)
  exact ⟨c.entryOf p, List.mem_map.mpr ⟨p, hp, rfl⟩, (h.meta_num p hp).symm⟩

theorem entries_length {c : Czar} (hc : Loaded P c) : c.versions.length = c.keySet.entries.length := by
  have h1 : c.versions = c.metadata.versions.map Prod.snd := hc.fresh
  rw [h1]
  simp [Czar.keySet]

/-- what a successful addkey does to the directory -/
theorem AddKey_step_size {size : Int} {env : Env} {l : Loc} {cr : Option Czar} {fs : FS} {ks : KeySet} (ho : Opens P cr cr)
    (h : Holds P cr fs l ks) {m : Int} (hm : 0 ≤ m) (hle : ∀ e ∈ ks.entries, e.num ≤ m)
    (hex : m = 0 ∨ ∃ e ∈ ks.entries, e.num = m)
    (hok : (AddKey P env (some l) .PRIMARY cr size fs).1 = .ok ()) :
    ∃ key j, GenKey (env.gen j) ks.type (if size = -1 then none else some size) = .ok key ∧
      Holds P cr ((AddKey P env (some l) .PRIMARY cr size).after fs) l ((ks.add (m + 1) .PRIMARY key).stored cr.isSome) ∧
      (ks.Distinct P → (ks.add (m + 1) .PRIMARY key).Distinct P) ∧
      (∀ f d, fs l = some d → f ≠ .metaFile → f ≠ .key (m + 1) → (∀ e ∈ ks.entries, f ≠ .key e.num) →
        ∃ d', (AddKey P env (some l) .PRIMARY cr size).after fs l = some d' ∧ d' f = d f) ∧
      ∀ l' ≠ l, (AddKey P env (some l) .PRIMARY cr size).after fs l' = fs l' := by
  have heq : AddKey P env (some l) .PRIMARY cr size = manage P env l cr false (.add env.gen env.fuel .PRIMARY (if size = -1 then none else some size)) := by
    rw [AddKey_eq]
  rw [heq] at hok ⊢
  generalize (if size = -1 then none else some size) = sz at *
  unfold Cmd.after
  obtain ⟨c, hc, hk⟩ := h
  subst hk
  have hl := load_loaded hc
  obtain ⟨c', hc', h1, h2, h3⟩ := manage_holds ho hok
  rw [hc] at hc'
  cases hc'
  obtain ⟨c', hc', -, h4, h5⟩ := manage_ok hok
  rw [hc] at hc'
  cases hc'
  simp only [Op.run] at h1 h2 h5
  cases ha : c.AddVersion P env.gen env.fuel .PRIMARY sz with
  | mk r c1 =>
    rw [ha] at h1 h2 h5
    simp only at h1 h2 h5
    subst h1
    obtain ⟨key, hash, j, hg, hv, hh, hnew, hks, hi, hvk⟩ := AddVersion_ok hl.inv ha
    have hnum := AddVersion_number P hl ha m hm hle hex
    have hmax : c.maxVersion + 1 = m + 1 := by
      rw [hks] at hnum
      simpa [KeySet.add, KeySet.mapStatus, Function.comp_def] using hnum
    rw [hmax] at hks
    have hdist : c.keySet.Distinct P → c1.keySet.Distinct P := by
      intro hd
      have := run_distinct P hl.inv hd (.add env.gen env.fuel .PRIMARY sz)
      simp only [Op.run, ha] at this
      exact this
    rw [hks] at h2 hdist
    refine ⟨key, j, ?_, h2, hdist, ?_, fun l' hl' => applyAll_other fun e he => ?_⟩
    · rw [GenKey] at hg ⊢; exact hg
    · intro f d hd hf1 hf2 hf3
      refine ⟨_, by rw [applyAll_at, hd]; rfl, ?_⟩
      have ht : touch (manage P env l cr false (.add env.gen env.fuel .PRIMARY sz) fs).2 l f = none := by
        rw [touch_none]
        rintro x hx ⟨-, hxf⟩
        have hw : c1.keySet.view.WF := by
          have := run_wf hl.inv (hl.loadable.view_wf) (.add env.gen env.fuel .PRIMARY sz)
          simp only [Op.run, ha] at this
          exact this
        rw [h5] at hx
        rcases Write_files hi hw (load_isSome hc) hx with h | ⟨o, ho, h⟩
        · exact hf1 (hxf.symm.trans h)
        · obtain ⟨e, he, hen⟩ := versions_mem hi (by
            show (c1.vkeys.map Prod.fst).length ≤ _
            rw [hvk, hks]
            have := entries_length hl
            unfold Czar.versions at this
            simp [KeySet.add, KeySet.mapStatus]
            simpa using this.le) ho
          rw [← hen] at h
          rw [hks] at he
          simp only [KeySet.add, if_true, List.mem_append, List.mem_singleton, KeySet.mapStatus, List.mem_map] at he
          rcases he with ⟨e', he', rfl⟩ | rfl
          · exact hf3 e' he' (hxf.symm.trans h)
          · exact hf2 (hxf.symm.trans h)
      unfold dirAfter
      rw [ht]
      rfl
    · rw [h3 e he]
      exact fun e => hl' e.symm

/-- the same with the default size -/
theorem AddKey_step {env : Env} {l : Loc} {cr : Option Czar} {fs : FS} {ks : KeySet} (ho : Opens P cr cr)
    (h : Holds P cr fs l ks) {m : Int} (hm : 0 ≤ m) (hle : ∀ e ∈ ks.entries, e.num ≤ m)
    (hex : m = 0 ∨ ∃ e ∈ ks.entries, e.num = m)
    (hok : (AddKey P env (some l) .PRIMARY cr (-1) fs).1 = .ok ()) :
    ∃ key j, GenKey (env.gen j) ks.type none = .ok key ∧
      Holds P cr ((AddKey P env (some l) .PRIMARY cr (-1)).after fs) l ((ks.add (m + 1) .PRIMARY key).stored cr.isSome) ∧
      (ks.Distinct P → (ks.add (m + 1) .PRIMARY key).Distinct P) ∧
      (∀ f d, fs l = some d → f ≠ .metaFile → f ≠ .key (m + 1) → (∀ e ∈ ks.entries, f ≠ .key e.num) →
        ∃ d', (AddKey P env (some l) .PRIMARY cr (-1)).after fs l = some d' ∧ d' f = d f) ∧
      ∀ l' ≠ l, (AddKey P env (some l) .PRIMARY cr (-1)).after fs l' = fs l' :=
  AddKey_step_size ho h hm hle hex hok

/-- what a successful use of a key does -/
theorem UseKey_step {rnd : Rand} {purpose : KeyPurpose} {l : Loc} {f : FileName} {cr : Option Czar} {fs : FS} {d : Dir}
    (hd : fs l = some d) (hok : (UseKey P rnd purpose l f cr fs).1 = .ok ()) :
    ∃ out, useAnswer P rnd purpose (dirReader P cr d) = .ok out ∧
      (UseKey P rnd purpose l f cr).after fs = fs.set l f (some out) := by
  unfold Cmd.after
  unfold UseKey at hok ⊢
  have hr : CreateReader l fs = .ok (FileReader d) := by unfold CreateReader; rw [hd]
  rw [Cmd.look_bind, hr] at hok ⊢
  simp only at hok ⊢
  cases ha : useAnswer P rnd purpose (dirReader P cr d) with
  | error e =>
    rw [show useAnswer P rnd purpose (readerFor P cr (FileReader d)) = _ from ha, Cmd.lift_error_bind] at hok
    cases hok
  | ok out =>
    refine ⟨out, rfl, ?_⟩
    rw [Cmd.lift_ok_bind, WriteFile_ok (by rw [hd]; rfl)]
    rfl

end Verif
