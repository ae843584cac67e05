import Verif.Lemmas.History
import Verif.Props.Disk
/-
Directories after part of the effects of a command, or after the effects of two commands.
-/
namespace Verif
open Spec (Entry KeySet)
open Props (Op Loaded)
variable {P : Prims}

/-- a directory whose metadata file describes `ks` and whose key files can be read as its keys -/
theorem gives_of_reads {ks : KeySet} (hl : ks.Loadable P) {rd : Option Czar} {d : Dir}
    (hm : d .metaFile = some (metaText ks))
    (hk : ∀ e ∈ ks.entries, ∃ text, (dirReader P rd d).GetKey e.num = .ok text ∧ ReadKey ks.type text = .ok e.key) :
    (dirReader P rd d).Gives P ks := by
  refine ⟨?_, ?_⟩
  · obtain ⟨kmd, h, h1, -, h3⟩ := KeyMetadata.Read_viewJson hl.view_wf (by
      have := hl.valid.nodup
      unfold Spec.KeySet.view
      rw [List.map_map]; exact this)
    exact ⟨metaText ks, kmd, h, by rw [dirReader_meta, ReadFile, hm], h1, h3⟩
  · intro e he
    obtain ⟨text, h1, h2⟩ := hk e he
    obtain ⟨-, -, h5⟩ := hl.key_ok e he
    exact ⟨text, h1, h2, h5⟩

/-- all key files that `Write` without encrypter touches for a listed version contain its key -/
theorem Czar.Write_effect {env : Env} {c : Czar} (h : c.Inv P) (hw : c.keySet.view.WF) {l : Loc} {fs : FS}
    (hl : (fs l).isSome = true) {x : Effect} (hx : x ∈ (c.Write P env l none fs).2) :
    x = .write l .metaFile (metaText (c.keySet.stored false)) ∨
    ∃ o k, o ∈ c.versions ∧ assocGet c.vkeys o = some k ∧ x = .write l (.key (c.heap.obj o).num) (dumps k.json) ∧
      ∀ e ∈ c.keySet.entries, e.num = (c.heap.obj o).num → e.key = k := by
  obtain ⟨bs, h1, h2, -⟩ := Czar.Write_spec (env := env) h hw (l := l) none (fs := fs) hl
  rw [h1] at hx
  rcases List.mem_cons.mp hx with hx | hx
  · exact .inl hx
  · obtain ⟨p, hp, rfl⟩ := List.mem_map.mp hx
    obtain ⟨k, hk, hb⟩ := h2 p hp
    have hb : (Except.ok (dumps k.json) : Py Bytes) = .ok p.2 := hb
    have hb := Except.ok.inj hb
    have ho : p.1 ∈ c.versions := assocGet_isSome.mp (by rw [hk]; rfl)
    refine .inr ⟨p.1, k, ho, hk, by rw [hb]; rfl, ?_⟩
    intro e he hn
    obtain ⟨q, hq, rfl⟩ := List.mem_map.mp he
    have hq2 : q.2 = p.1 := h.v_num _ (h.meta_mem q hq) _ ho (by rw [h.meta_num q hq]; exact hn)
    show (assocGet c.vkeys q.2).getD _ = k
    rw [hq2, hk]
    rfl

/-- key files written by `Write` for listed versions, found by number -/
theorem Czar.Write_entry {env : Env} {c : Czar} (h : c.Inv P) (hw : c.keySet.view.WF) {l : Loc} {fs : FS}
    (hl : (fs l).isSome = true) {e : Entry} (he : e ∈ c.keySet.entries) {b : Bytes}
    (hx : .write l (.key e.num) b ∈ (c.Write P env l none fs).2) : b = dumps e.key.json := by
  rcases Czar.Write_effect h hw hl hx with hx | ⟨o, k, -, -, hx, hk⟩
  · cases hx
  · injection hx with _ hf hb
    rw [hb, hk e he (FileName.key.inj hf)]

/-- crash after a non-empty part `p` of the effects of a management command -/
theorem crash_holds {env : Env} {l : Loc} {fs : FS} {c : Czar} (hc : load P none l fs = .ok c) {op : Op}
    {p : List Effect} (hp : p <+: ((op.run P c).2.Write P env l none fs).2) (hne : p ≠ [])
    (hold : ∀ e ∈ (op.run P c).2.keySet.entries, (∃ b, .write l (.key e.num) b ∈ p) ∨
      ∃ e0 ∈ c.keySet.entries, e0.num = e.num ∧ e0.key = e.key)
    (ht : (op.run P c).2.keySet.type = c.keySet.type) :
    Holds P none (applyAll fs p) l ((op.run P c).2.keySet.stored false) := by
  have hl := load_loaded hc
  have hi := Op.run_inv hl.inv op
  have hw := run_wf hl.inv hl.loadable.view_wf op
  have hs := load_isSome hc
  obtain ⟨d, hd, hini⟩ := load_some hc
  obtain ⟨-, -, hg, -⟩ := Czar.init_ok hini
  obtain ⟨bs, h1, h2, -⟩ := Czar.Write_spec (env := env) hi hw (l := l) none (fs := fs) hs
  have hmem : ∀ x ∈ p, x ∈ ((op.run P c).2.Write P env l none fs).2 := fun x hx => hp.subset hx
  have hm : touch p l .metaFile = some (some (metaText ((op.run P c).2.keySet.stored false))) := by
    rw [h1] at hp
    cases p with
    | nil => exact absurd rfl hne
    | cons a q =>
      obtain ⟨rfl, hq⟩ := List.cons_prefix_cons.mp hp
      rw [touch, touch_none.mpr]
      · simp [Effect.loc, Effect.file, Effect.content]
      · intro e he
        obtain ⟨r, -, rfl⟩ := List.mem_map.mp (hq.subset he)
        simp [keyWrite, Effect.file]
  refine Holds_iff.mpr ⟨_, by rw [applyAll_at, hd]; rfl, ?_, (by intro h; cases h), hi.valid.primary⟩
  apply gives_of_reads (Loadable_stored (hi.loadable hw) false)
  · rw [dirAfter, hm]; rfl
  · intro e he
    have he : e ∈ (op.run P c).2.keySet.entries := he
    rw [dirReader_key]
    simp only [ReadFile]
    cases htc : touch p l (.key e.num) with
    | none =>
      simp only [dirAfter, htc, Option.getD_none]
      rcases hold e he with ⟨b, hb⟩ | ⟨e0, he0, hn0, hk0⟩
      · exact absurd ⟨rfl, rfl⟩ (touch_none.mp htc _ hb)
      · obtain ⟨text, g1, g2, -⟩ := hg.2 e0 he0
        rw [dirReader_key] at g1
        simp only [ReadFile, hn0] at g1
        refine ⟨text, g1, ?_⟩
        rw [show ((op.run P c).2.keySet.stored false).type = c.keySet.type from ht, ← hk0]
        exact g2
    | some x =>
      obtain ⟨y, hy, -, hf, hcn⟩ := touch_mem htc
      have : ∃ b, y = .write l (.key e.num) b ∧ x = some b := by
        rcases Czar.Write_effect hi hw hs (hmem y hy) with rfl | ⟨o, k, -, -, rfl, -⟩
        · cases hf
        · have hf : FileName.key ((op.run P c).2.heap.obj o).num = .key e.num := hf
          exact ⟨_, by rw [hf], hcn.symm⟩
      obtain ⟨b, rfl, rfl⟩ := this
      have hb := Czar.Write_entry hi hw hs he (hmem _ hy)
      simp only [dirAfter, htc, Option.getD_some]
      refine ⟨b, rfl, ?_⟩
      obtain ⟨g1, g2, -⟩ := (hi.loadable hw).key_ok e he
      rw [hb, show ((op.run P c).2.keySet.stored false).type = e.key.type from g2.symm]
      exact ReadKey_str e.key g1

end Verif
