import Verif.Spec.Mock
import Verif.Props.Export
import Verif.Props.History
import Verif.Lemmas.ExampleDisk
/-
Property theorems C73: what the unit tests observe through the mock key set is what happens on disk.
-/
namespace Verif.Props
open Verif Verif.Spec

variable {P : Prims}

theorem SameKeys.set {keys : List (Int × Key)} {d : Dir} (h : SameKeys keys d) (n : Int) (k : Key) {text : Bytes}
    (ht : k.str = .ok text) : SameKeys (assocSet keys n k) (d.set (.key n) (some text)) := by
  intro n'
  rw [assocGet_set]
  by_cases hn : n = n'
  · subst hn
    simp only [if_true]
    exact ⟨text, ht, by simp [Dir.set]⟩
  · rw [if_neg hn]
    have := h n'
    have hd : d.set (.key n) (some text) (.key n') = d (.key n') := by
      unfold Dir.set
      rw [if_neg (by simpa using fun e => hn e.symm)]
    rw [hd]
    exact this

theorem SameKeys.remove {keys : List (Int × Key)} {d : Dir} (h : SameKeys keys d) (n : Int) :
    SameKeys (keys.filter fun p => p.1 ≠ n) (d.set (.key n) none) := by
  have hf : ∀ n', assocGet (keys.filter fun p => p.1 ≠ n) n' = if n' = n then none else assocGet keys n' := by
    intro n'
    clear h
    induction keys with
    | nil => simp [assocGet_nil]
    | cons p t ih =>
      obtain ⟨a, b⟩ := p
      rw [List.filter_cons, assocGet_cons]
      by_cases ha : a = n
      · subst ha
        simp only [ne_eq, not_true_eq_false, decide_false, Bool.false_eq_true, if_false]
        rw [ih]
        by_cases h1 : n' = a
        · simp [h1]
        · rw [if_neg h1, if_neg h1, if_neg (fun e => h1 e.symm)]
      · simp only [ne_eq, ha, not_false_eq_true, decide_true, if_true]
        rw [assocGet_cons, ih]
        by_cases h1 : a = n'
        · subst h1; simp [ha]
        · simp [h1]
  intro n'
  rw [hf]
  by_cases hn : n' = n
  · subst hn; simp [Dir.set]
  · rw [if_neg hn]
    have := h n'
    have hd : d.set (.key n) none (.key n') = d (.key n') := by
      unfold Dir.set
      rw [if_neg (by simpa using hn)]
    rw [hd]
    exact this

theorem SameKeys.congr {keys : List (Int × Key)} {d d' : Dir} (h : SameKeys keys d) (he : ∀ n, d' (.key n) = d (.key n)) :
    SameKeys keys d' := by
  intro n
  have := h n
  rw [he]
  exact this

theorem SameKeys.isSome {keys : List (Int × Key)} {d : Dir} (h : SameKeys keys d) (n : Int) :
    (assocGet keys n).isSome = (d (.key n)).isSome := by
  have := h n
  cases hg : assocGet keys n with
  | none => rw [hg] at this; simp only at this; rw [this]; rfl
  | some k => rw [hg] at this; obtain ⟨t, -, ht⟩ := this; rw [ht]; rfl

/-- readers of a mock and its image agree -/
theorem _root_.Verif.Spec.Mirrors.reader {m : Mock} {d : Dir} (h : Mirrors m d) : MockReader m = FileReader d := by
  obtain ⟨text, h1, h2⟩ := h.same_meta
  unfold MockReader FileReader ReadFile
  congr 1
  · rw [h1, h2]
  · funext n
    have := h.same_keys n
    cases hg : assocGet m.keys n with
    | none => rw [hg] at this; simp only at this ⊢; rw [this]
    | some k => rw [hg] at this; obtain ⟨t, h3, h4⟩ := this; simp only; rw [h3, h4]

/-- writing one file -/
theorem applyAll_write {fs : FS} {l : Loc} {d : Dir} (hl : fs l = some d) (f : FileName) (b : Bytes) :
    applyAll fs [.write l f b] l = some (d.set f (some b)) := by
  show (fs.set l f (some b)) l = _
  unfold FS.set
  rw [if_pos rfl, hl]
  rfl

theorem setKeys_mirror (c : Czar) (l : Loc) (rnd : Nat → Rand) (os : List Nat) (m : Mock) (fs : FS) (d : Dir)
    (hl : fs l = some d) (hk : SameKeys m.keys d) :
    (mockSetKeys c os m).1 = (writeKeys P l c none rnd os fs).1 ∧
    (∃ d', applyAll fs (writeKeys P l c none rnd os fs).2 l = some d' ∧ SameKeys (mockSetKeys c os m).2.keys d' ∧
      d' .metaFile = d .metaFile) ∧
    ∃ keys, (mockSetKeys c os m).2 = { m with keys := keys } := by
  induction os generalizing m fs d with
  | nil => exact ⟨rfl, ⟨d, hl, hk, rfl⟩, m.keys, rfl⟩
  | cons o t ih =>
    unfold mockSetKeys writeKeys
    cases hg : c.GetKeyByVersion (some o) with
    | error e =>
      rw [Cmd.lift_error_bind]
      exact ⟨rfl, ⟨d, hl, hk, rfl⟩, m.keys, rfl⟩
    | ok key =>
      simp only [Cmd.lift_ok_bind]
      have hs := Key.str_eq key
      have hw : WriteKey P l key (c.heap.obj o).num none (rnd o) fs =
          (.ok (), [.write l (.key (c.heap.obj o).num) (dumps key.json)]) := by
        unfold WriteKey
        rw [hs]
        simp only [Cmd.lift_ok_bind]
        exact WriteFile_ok (by rw [hl]; rfl) _ _
      rw [Cmd.bind_def, hw]
      simp only
      obtain ⟨h1, ⟨d', h2, h3, h4⟩, keys, h5⟩ := ih (m.SetKey (c.heap.obj o).num key)
        (applyAll fs [.write l (.key (c.heap.obj o).num) (dumps key.json)]) _ (applyAll_write hl _ _)
        (SameKeys.set hk _ key hs)
      refine ⟨h1, ⟨d', ?_, h3, ?_⟩, keys, ?_⟩
      · rw [applyAll_append]; exact h2
      · rw [h4]; simp [Dir.set]
      · rw [h5]; rfl

theorem run_encrypted (c : Czar) (op : Op) : (op.run P c).2.metadata.encrypted = c.metadata.encrypted := by
  cases op with
  | promote n =>
    show (c.Promote n).2.metadata.encrypted = _
    unfold Czar.Promote
    split
    · rfl
    · split <;> rfl
  | demote n =>
    show (c.Demote n).2.metadata.encrypted = _
    unfold Czar.Demote
    split
    · rfl
    · split <;> rfl
  | revoke n =>
    show (c.Revoke n).2.metadata.encrypted = _
    unfold Czar.Revoke
    split
    · rfl
    · split
      · split
        · rfl
        · next m' hm =>
          unfold KeyMetadata.RemoveVersion at hm
          split at hm
          · cases hm
          · cases hm; rfl
      · rfl
  | add rnd fuel status size =>
    show (c.AddVersion P rnd fuel status size).2.metadata.encrypted = _
    rw [Czar.AddVersion_eq]
    split
    · rfl
    · split
      · exact congrArg _ (Czar.addPrep_fields c status).1
      · show ((c.addPrep status).metadata.AddVersion _ _).encrypted = _
        rw [(Czar.addPrep_fields c status).1]
        unfold KeyMetadata.AddVersion
        simp only
        split <;> rfl

theorem _root_.Verif.Spec.Mirrors.loaded {m : Mock} {d : Dir} (h : Mirrors m d) {c : Czar}
    (hc : Czar.init P .generic (MockReader m) = .ok c) : c.metadata.encrypted = .bool false := by
  obtain ⟨text, h1, h2⟩ := init_meta hc
  rw [show (MockReader m).GetMetadata = m.kmd.str m.heap from rfl, KeyMetadata.str_eq _ _ h.ok.exportable] at h1
  have h1 := Except.ok.inj h1
  subst h1
  obtain ⟨-, j, v, hj, hv, hview⟩ := KeyMetadata.Read_ok h2
  rw [loads_dumps _ (viewJson_WF ⟨h.ok.name, by rw [show (m.kmd.view m.heap).encrypted = m.kmd.encrypted from rfl, h.ok.plain]; trivial,
    fun x hx => by
      obtain ⟨p, hp, rfl⟩ := List.mem_map.mp hx
      exact h.ok.exportable p hp⟩)] at hj
  have hj := Except.ok.inj hj
  subst hj
  rw [docOf_viewJson] at hv
  have hv := Except.ok.inj hv
  subst hv
  have := congrArg KeySet.View.encrypted hview
  exact this.trans h.ok.plain

/-- one management command -/
theorem manage_mirror {env : Env} {l : Loc} {bad : Bool} {op : Op} {fs : FS} {d : Dir} {m : Mock} (hl : fs l = some d)
    (h : Mirrors m d) :
    (mockManage P env bad (op.run P) m).1 = (manage P env l none bad op fs).1 ∧
    (∃ d', applyAll fs (manage P env l none bad op fs).2 l = some d' ∧ Mirrors (mockManage P env bad (op.run P) m).2 d') ∧
    (mockManage P env bad (op.run P) m).2.pubkmd = m.pubkmd ∧
    (mockManage P env bad (op.run P) m).2.pubkeys = m.pubkeys := by
  have hload : load P none l fs = Czar.init P .generic (MockReader m) := by
    unfold load
    rw [hl, h.reader]
    rfl
  unfold mockManage manage
  rw [hload]
  have hsame : ∃ d', applyAll fs [] l = some d' ∧ Mirrors m d' := ⟨d, hl, h⟩
  cases hc : Czar.init P .generic (MockReader m) with
  | error e => exact ⟨rfl, hsame, rfl, rfl⟩
  | ok c =>
    simp only
    cases bad with
    | true => exact ⟨rfl, hsame, rfl, rfl⟩
    | false =>
      simp only [Bool.false_eq_true, if_false]
      cases hr : (op.run P c).1 with
      | error e => exact ⟨rfl, hsame, rfl, rfl⟩
      | ok u =>
        simp only
        have hload : Loaded P c := ⟨_, _, hc⟩
        have hi := Op.run_inv hload.inv op
        have hw := run_wf hload.inv hload.loadable.view_wf op
        have henc : (op.run P c).2.metadata.encrypted = .bool false := (run_encrypted c op).trans (h.loaded hc)
        generalize (op.run P c).2 = c' at *
        have hmark : c'.markEncrypted none = c' := by
          unfold Czar.markEncrypted
          cases c' with
          | mk hp md vk hk pr =>
            cases md
            simp only [Option.isSome_none] at henc ⊢
            rw [henc]
        have hexp : ∀ p ∈ c'.metadata.versions, (c'.heap.obj p.2).exportable.WF := by
          intro p hp
          refine hw.versions (c'.heap.obj p.2) ?_
          rw [← Czar.view_eq hi]
          exact List.mem_map.mpr ⟨p, hp, rfl⟩
        have hstr := KeyMetadata.str_eq c'.heap c'.metadata hexp
        have hmeta : WriteMetadata l c'.heap c'.metadata true fs =
            (.ok (), [.write l .metaFile (dumps (viewJson (c'.metadata.view c'.heap)))]) := by
          unfold WriteMetadata
          rw [if_neg (by simp), hstr, Cmd.lift_ok_bind, WriteFile_ok (by rw [hl]; rfl)]
        have heq : c'.Write P env l none fs =
            ((writeKeys P l c' none env.enc (env.order c'.versions)
              (applyAll fs [.write l .metaFile (dumps (viewJson (c'.metadata.view c'.heap)))])).1,
             [.write l .metaFile (dumps (viewJson (c'.metadata.view c'.heap)))] ++
              (writeKeys P l c' none env.enc (env.order c'.versions)
                (applyAll fs [.write l .metaFile (dumps (viewJson (c'.metadata.view c'.heap)))])).2) := by
          unfold Czar.Write
          rw [hmark]
          show (WriteMetadata l c'.heap c'.metadata true >>= fun _ => writeKeys P l c' none env.enc (env.order c'.versions)) fs = _
          rw [Cmd.bind_def, hmeta]
        have hl1 := applyAll_write hl .metaFile (dumps (viewJson (c'.metadata.view c'.heap)))
        obtain ⟨h1, ⟨d', h2, h3, h4⟩, keys, h5⟩ := setKeys_mirror (P := P) c' l env.enc (env.order c'.versions)
          { m with heap := c'.heap, kmd := c'.metadata } _ _ hl1
          (SameKeys.congr h.same_keys (fun n => by simp [Dir.set]))
        rw [heq]
        unfold mockUpdate
        refine ⟨h1, ⟨d', by rw [applyAll_append]; exact h2, ?_⟩, by rw [h5], by rw [h5]⟩
        rw [h5] at h3 ⊢
        refine ⟨⟨henc, ?_, hexp, hi.meta_num, hi.meta_nodup, fun p hp => hi.v_lt _ (hi.meta_mem p hp)⟩,
          ⟨_, hstr, by rw [h4]; simp [Dir.set]⟩, h3⟩
        have := hw.name
        rw [← Czar.view_eq hi] at this
        exact this

/-- C73: adding, promoting and demoting a key give the same outcome on a mock and on the directory that mirrors it, and
the directory mirrors the mock afterwards. -/
theorem C73_addkey (env : Env) (fs : FS) (l : Loc) (d : Dir) (m : Mock) (hl : fs l = some d) (h : Mirrors m d)
    (status : KeyStatus) (size : Int) :
    (mockAddKey P env status none size m).1 = (AddKey P env (some l) status none size fs).1 ∧
    ∃ d', (AddKey P env (some l) status none size).after fs l = some d' ∧
      Mirrors (mockAddKey P env status none size m).2 d' := by
  unfold Cmd.after
  rw [AddKey_eq]
  obtain ⟨h1, h2, -⟩ := manage_mirror (P := P) (env := env) (bad := false)
    (op := .add env.gen env.fuel status (if size = -1 then none else some size)) hl h
  exact ⟨h1, h2⟩

theorem C73_promote (env : Env) (fs : FS) (l : Loc) (d : Dir) (m : Mock) (hl : fs l = some d) (h : Mirrors m d) (n : Int) :
    (mockPromote P env n m).1 = (Promote P env (some l) n fs).1 ∧
    ∃ d', (Promote P env (some l) n).after fs l = some d' ∧ Mirrors (mockPromote P env n m).2 d' := by
  unfold Cmd.after
  rw [Promote_eq]
  obtain ⟨h1, h2, -⟩ := manage_mirror (P := P) (env := env) (bad := decide (n < 0)) (op := .promote n) hl h
  exact ⟨h1, h2⟩

theorem C73_demote (env : Env) (fs : FS) (l : Loc) (d : Dir) (m : Mock) (hl : fs l = some d) (h : Mirrors m d) (n : Int) :
    (mockDemote P env n m).1 = (Demote P env (some l) n fs).1 ∧
    ∃ d', (Demote P env (some l) n).after fs l = some d' ∧ Mirrors (mockDemote P env n m).2 d' := by
  unfold Cmd.after
  rw [Demote_eq]
  obtain ⟨h1, h2, -⟩ := manage_mirror (P := P) (env := env) (bad := decide (n < 0)) (op := .demote n) hl h
  exact ⟨h1, h2⟩

/-- the file that `revoke` removes is there -/
theorem Revoke_file {env : Env} {l : Loc} {n : Int} {fs : FS}
    (h : (manage P env l none (decide (n < 0)) (.revoke n) fs).1 = .ok ()) :
    ((applyAll fs (manage P env l none (decide (n < 0)) (.revoke n) fs).2 l).bind fun d => d (.key n)).isSome = true := by
  have hr := Revoke_eq (P := P) env l n fs
  unfold Revoke at hr
  rw [Cmd.bind_def, ChangeStatus_eq (P := P) env Czar.Revoke Op.revoke (fun _ _ => rfl) l n] at hr
  rcases hm : manage P env l none (decide (n < 0)) (.revoke n) fs with ⟨r, es⟩
  rw [hm] at hr h
  simp only at h
  subst h
  simp only at hr ⊢
  rw [Cmd.look_bind] at hr
  by_contra hno
  cases hw : CreateWriter ((some l).getD []) (applyAll fs es) with
  | error e => rw [hw] at hr; simp at hr
  | ok w =>
    have := CreateWriter_ok hw
    subst this
    rw [hw] at hr
    simp only [RemoveFile, hno] at hr
    simp at hr

/-- C73: the same for revoking. -/
theorem C73_revoke (env : Env) (fs : FS) (l : Loc) (d : Dir) (m : Mock) (hl : fs l = some d) (h : Mirrors m d) (n : Int) :
    (mockRevoke P env n m).1 = (Revoke P env (some l) n fs).1 ∧
    ∃ d', (Revoke P env (some l) n).after fs l = some d' ∧ Mirrors (mockRevoke P env n m).2 d' := by
  unfold Cmd.after
  rw [Revoke_eq]
  obtain ⟨h1, ⟨d', h2, h3⟩, -⟩ := manage_mirror (P := P) (env := env) (bad := decide (n < 0)) (op := .revoke n) hl h
  have hfile := Revoke_file (P := P) (env := env) (l := l) (n := n) (fs := fs)
  unfold mockRevoke
  change (mockManage P env (decide (n < 0)) (fun c => c.Revoke n) m).1 = _ at h1
  change Mirrors (mockManage P env (decide (n < 0)) (fun c => c.Revoke n) m).2 d' at h3
  rcases hq : mockManage P env (decide (n < 0)) (fun c => c.Revoke n) m with ⟨q, m'⟩
  rcases hm : manage P env l none (decide (n < 0)) (.revoke n) fs with ⟨r, es⟩
  rw [hq] at h1 h3
  rw [hm] at h1 h2 hfile
  simp only at h1 h2 h3 hfile
  subst h1
  cases q with
  | error e => exact ⟨rfl, d', h2, h3⟩
  | ok u =>
    simp only
    have hs := hfile rfl
    rw [h2] at hs
    simp only [Option.bind_some] at hs
    rw [← SameKeys.isSome h3.same_keys] at hs
    obtain ⟨k, hk⟩ := Option.isSome_iff_exists.mp hs
    unfold Mock.RemoveKey
    rw [hk]
    refine ⟨rfl, d'.set (.key n) none, ?_, ?_⟩
    · rw [applyAll_append]
      show ((applyAll fs es).set l (.key n) none) l = _
      unfold FS.set
      rw [if_pos rfl, h2]
      rfl
    · refine ⟨⟨h3.ok.plain, h3.ok.name, h3.ok.exportable, h3.ok.num, h3.ok.nodup, h3.ok.allocated⟩, ?_, SameKeys.remove h3.same_keys n⟩
      obtain ⟨text, t1, t2⟩ := h3.same_meta
      exact ⟨text, t1, by simpa [Dir.set] using t2⟩

theorem exportKeys_mirror (c : Czar) (dest : Loc) (os : List Nat) (kmd : KeyMetadata) (m : Mock) (fs : FS) (d : Dir)
    (hl : fs dest = some d) (hk : SameKeys m.pubkeys d) :
    (mockExport c os kmd m).1 = (exportKeys dest c os kmd fs).1 ∧
    (∃ d', applyAll fs (exportKeys dest c os kmd fs).2 dest = some d' ∧ SameKeys (mockExport c os kmd m).2.pubkeys d' ∧
      d' .metaFile = d .metaFile) ∧
    (∃ keys, (mockExport c os kmd m).2 = { m with pubkeys := keys }) ∧
    ∀ kmd', (mockExport c os kmd m).1 = .ok kmd' → ∀ p ∈ kmd'.versions, p ∈ kmd.versions ∨ p.2 ∈ os := by
  induction os generalizing kmd m fs d with
  | nil =>
    refine ⟨rfl, ⟨d, hl, hk, rfl⟩, ⟨m.pubkeys, rfl⟩, ?_⟩
    intro kmd' h p hp
    cases h
    exact .inl hp
  | cons o t ih =>
    have hfail : ∀ e, (∃ d', applyAll fs ((.error e, []) : Py KeyMetadata × List Effect).2 dest = some d' ∧
        SameKeys m.pubkeys d' ∧ d' .metaFile = d .metaFile) := fun _ => ⟨d, hl, hk, rfl⟩
    unfold mockExport exportKeys
    cases hg : c.GetKeyByVersion (some o) with
    | error e =>
      rw [Cmd.lift_error_bind]
      exact ⟨rfl, hfail e, ⟨m.pubkeys, rfl⟩, fun _ h => by cases h⟩
    | ok key =>
      rw [Cmd.lift_ok_bind]
      show (match key.publicKey with
        | .error e => ((.error e : Py KeyMetadata), m)
        | .ok pub => mockExport c t (kmd.AddVersion c.heap o) (m.SetPubKey (c.heap.obj o).num pub)).1 = _ ∧ _
      cases hp : key.publicKey with
      | error e =>
        rw [Cmd.lift_error_bind]
        have : (Except.ok key >>= fun x => x.publicKey : Py Key) = .error e := hp
        rw [this]
        exact ⟨rfl, hfail e, ⟨m.pubkeys, rfl⟩, fun _ h => by cases h⟩
      | ok pub =>
        have : (Except.ok key >>= fun x => x.publicKey : Py Key) = .ok pub := hp
        rw [Cmd.lift_ok_bind, this]
        have hs := Key.str_eq pub
        rw [hs, Cmd.lift_ok_bind, Cmd.bind_def, WriteFile_ok (by rw [hl]; rfl)]
        simp only
        obtain ⟨h1, ⟨d', h2, h3, h4⟩, ⟨keys, h5⟩, h6⟩ := ih (kmd.AddVersion c.heap o) (m.SetPubKey (c.heap.obj o).num pub)
          (applyAll fs [.write dest (.key (c.heap.obj o).num) (dumps pub.json)]) _ (applyAll_write hl _ _)
          (SameKeys.set hk _ pub hs)
        refine ⟨h1, ⟨d', ?_, h3, ?_⟩, ⟨keys, ?_⟩, ?_⟩
        · rw [applyAll_append]; exact h2
        · rw [h4]; simp [Dir.set]
        · rw [h5]; rfl
        · intro kmd' hk' p hpm
          rcases h6 kmd' hk' p hpm with h | h
          · unfold KeyMetadata.AddVersion at h
            simp only at h
            split at h
            · rcases List.mem_append.mp h with h | h
              · exact .inl h
              · rw [List.mem_singleton] at h
                subst h
                exact .inr (by simp)
            · exact .inl h
          · exact .inr (List.mem_cons_of_mem _ h)

/-- C73: exporting the public keys has the same outcome on a mock and on the directories that mirror it, puts the same files
into the destination as the mock has public keys, and leaves the key set alone. -/
theorem C73_pubkey (env : Env) (fs : FS) (l dest : Loc) (d d₂ : Dir) (m : Mock) (hl : fs l = some d) (h : Mirrors m d)
    (hd : fs dest = some d₂) (h₂ : MirrorsPublic m d₂) (hne : l ≠ dest) :
    (mockPubKey P env m).1 = (PubKey P env (some l) (some dest) fs).1 ∧
    (∃ d', (PubKey P env (some l) (some dest)).after fs l = some d' ∧ Mirrors (mockPubKey P env m).2 d') ∧
    ∃ d₂', (PubKey P env (some l) (some dest)).after fs dest = some d₂' ∧ MirrorsPublic (mockPubKey P env m).2 d₂' := by
  have hstay : (PubKey P env (some l) (some dest)).after fs l = some d := by
    rw [← hl]
    exact KCmd.after_other (P := P) (k := .pubkey env (some l) (some dest)) (by
      show some dest ≠ some l
      intro e
      exact hne (Option.some.inj e).symm)
  have hload : load P none l fs = Czar.init P .generic (MockReader m) := by
    unfold load
    rw [hl, h.reader]
    rfl
  have hrun : PubKey P env (some l) (some dest) fs =
      (match Czar.init P .generic (MockReader m) with
        | .error e => (.error e, [])
        | .ok c => c.PublicKeyExport env dest fs) := by
    unfold PubKey
    simp only
    rw [Cmd.bind_def, CreateGenericKeyczar_eq, hload]
    cases Czar.init P .generic (MockReader m) with
    | error e => rfl
    | ok c => simp [applyAll]
  rw [hstay]
  unfold Cmd.after
  rw [hrun]
  unfold mockPubKey
  cases hc : Czar.init P .generic (MockReader m) with
  | error e => exact ⟨rfl, ⟨d, rfl, h⟩, d₂, hd, h₂⟩
  | ok c =>
    simp only
    unfold Czar.PublicKeyExport
    cases hp : publicMetadata c.metadata with
    | error e => rw [Cmd.lift_error_bind]; exact ⟨rfl, ⟨d, rfl, h⟩, d₂, hd, h₂⟩
    | ok kmd =>
      rw [Cmd.lift_ok_bind, Cmd.bind_def]
      simp only
      obtain ⟨h1, ⟨d', h2, h3, h4⟩, ⟨keys, h5⟩, h6⟩ := exportKeys_mirror c dest (env.order c.versions) kmd m fs d₂ hd h₂.same_keys
      rcases hq : mockExport c (env.order c.versions) kmd m with ⟨q, m'⟩
      rcases hm : exportKeys dest c (env.order c.versions) kmd fs with ⟨r, es⟩
      rw [hq] at h1 h3 h5 h6
      rw [hm] at h1 h2
      simp only at h1 h2 h3 h5 h6
      subst h1
      have hM : Mirrors m' d := by
        rw [h5]
        exact ⟨⟨h.ok.plain, h.ok.name, h.ok.exportable, h.ok.num, h.ok.nodup, h.ok.allocated⟩, h.same_meta, h.same_keys⟩
      cases q with
      | error e =>
        refine ⟨rfl, ⟨d, rfl, hM⟩, d', h2, h3, ?_⟩
        rw [h5, h4]
        have := h₂.same_meta
        simp only
        cases hk : m.pubkmd with
        | none => rw [hk] at this; exact this
        | some hk' =>
          rw [hk] at this
          obtain ⟨t, t1, t2⟩ := this
          exact ⟨t, t1, by rw [h4]; exact t2⟩
      | ok kmd' =>
        simp only
        have hloaded : Loaded P c := ⟨_, _, hc⟩
        have hexp : ∀ p ∈ kmd'.versions, (c.heap.obj p.2).exportable.WF := by
          intro p hp'
          have hmem : p.2 ∈ env.order c.versions := by
            rcases h6 kmd' rfl p hp' with h | h
            · exfalso
              unfold publicMetadata at hp
              split at hp
              · cases hp; cases h
              · split at hp
                · cases hp; cases h
                · split at hp
                  · cases hp; cases h
                  · cases hp
            · exact h
          have hmem := (env.order_perm _).mem_iff.mp hmem
          refine hloaded.loadable.view_wf.versions (c.heap.obj p.2) ?_
          rw [← Czar.view_eq hloaded.inv]
          have hfresh : c.versions = c.metadata.versions.map Prod.snd := hloaded.fresh
          rw [hfresh] at hmem
          obtain ⟨q', hq', he⟩ := List.mem_map.mp hmem
          exact List.mem_map.mpr ⟨q', hq', by rw [← he]⟩
        have hstr := KeyMetadata.str_eq c.heap kmd' hexp
        rw [hstr, Cmd.lift_ok_bind, WriteFile_ok (by rw [h2]; rfl)]
        refine ⟨rfl, ⟨d, rfl, ?_⟩, d'.set .metaFile (some (dumps (viewJson (kmd'.view c.heap)))), ?_, ?_, ?_⟩
        · exact ⟨⟨hM.ok.plain, hM.ok.name, hM.ok.exportable, hM.ok.num, hM.ok.nodup, hM.ok.allocated⟩, hM.same_meta, hM.same_keys⟩
        · rw [applyAll_append]
          exact applyAll_write h2 _ _
        · exact SameKeys.congr h3 (fun n => by simp [Dir.set])
        · exact ⟨_, hstr, by simp [Dir.set]⟩

theorem Mock_pub_of_manage {env : Env} {bad : Bool} {op : Op} {m : Mock} :
    (mockManage P env bad (op.run P) m).2.pubkmd = m.pubkmd ∧ (mockManage P env bad (op.run P) m).2.pubkeys = m.pubkeys := by
  have hset : ∀ (c : Czar) (os : List Nat) (m : Mock), (mockSetKeys c os m).2.pubkmd = m.pubkmd ∧
      (mockSetKeys c os m).2.pubkeys = m.pubkeys := by
    intro c os
    induction os with
    | nil => intro m; exact ⟨rfl, rfl⟩
    | cons o t ih =>
      intro m
      unfold mockSetKeys
      cases c.GetKeyByVersion (some o) with
      | error e => exact ⟨rfl, rfl⟩
      | ok k => exact ih _
  unfold mockManage
  cases Czar.init P .generic (MockReader m) with
  | error e => exact ⟨rfl, rfl⟩
  | ok c =>
    simp only
    split
    · exact ⟨rfl, rfl⟩
    · cases (op.run P c).1 with
      | error e => exact ⟨rfl, rfl⟩
      | ok u => exact hset _ _ _

theorem MirrorsPublic.congr {m m' : Mock} {d : Dir} (h : MirrorsPublic m d) (h1 : m'.pubkmd = m.pubkmd)
    (h2 : m'.pubkeys = m.pubkeys) : MirrorsPublic m' d := by
  refine ⟨by rw [h2]; exact h.same_keys, ?_⟩
  rw [h1]
  exact h.same_meta

/-- C73: starting a key set has the same outcome on a mock and on a directory without metadata, and the directory mirrors
the mock if it succeeds. -/
theorem C73_create (fs : FS) (l : Loc) (d : Dir) (m : Mock) (hl : fs l = some d) (hm : d .metaFile = none)
    (hk : SameKeys m.keys d) (name : Json) (hn : name.WF) (purpose : Option KeyPurpose) (asym : Option Bytes) :
    (mockCreate name purpose asym m).1 = (Create (some l) name purpose asym fs).1 ∧
    (∀ e, (mockCreate name purpose asym m).1 = .error e →
      (mockCreate name purpose asym m).2 = m ∧ (Create (some l) name purpose asym).after fs = fs) ∧
    ((mockCreate name purpose asym m).1 = .ok () →
      ∃ d', (Create (some l) name purpose asym).after fs l = some d' ∧ Mirrors (mockCreate name purpose asym m).2 d') := by
  unfold Cmd.after mockCreate Create
  simp only
  cases createType purpose asym with
  | error e =>
    rw [Cmd.lift_error_bind]
    exact ⟨rfl, fun _ _ => ⟨rfl, rfl⟩, fun h => by cases h⟩
  | ok t =>
    rw [Cmd.lift_ok_bind, Cmd.look_bind]
    have hw : CreateWriter l fs = .ok l := by
      unfold CreateWriter
      rw [hl]
      rfl
    rw [hw]
    simp only
    have hstr := KeyMetadata.str_eq Heap.empty ⟨name, t.1, t.2, .bool false, []⟩ (fun p hp => by cases hp)
    have hmeta : WriteMetadata l Heap.empty ⟨name, t.1, t.2, .bool false, []⟩ false fs =
        (.ok (), [.write l .metaFile (dumps (viewJson (KeyMetadata.view Heap.empty ⟨name, t.1, t.2, .bool false, []⟩)))]) := by
      unfold WriteMetadata
      rw [if_neg (by rw [hl]; simp [hm]), hstr, Cmd.lift_ok_bind, WriteFile_ok (by rw [hl]; rfl)]
    rw [hmeta]
    refine ⟨rfl, fun e h => (by cases h), fun _ => ⟨_, applyAll_write hl _ _, ?_⟩⟩
    exact ⟨⟨rfl, hn, fun p hp => (by cases hp), fun p hp => (by cases hp), List.nodup_nil, fun p hp => by cases hp⟩,
      ⟨_, hstr, by simp [Dir.set]⟩, SameKeys.congr hk (fun n => by simp [Dir.set])⟩

/-- C73: one command. -/
theorem C73_step (fs : FS) (l dest : Loc) (d d₂ : Dir) (m : Mock) (hl : fs l = some d) (h : Mirrors m d)
    (hd : fs dest = some d₂) (h₂ : MirrorsPublic m d₂) (hne : l ≠ dest) (k : KCmd) (hk : PlainCmd l dest k) :
    (mockRun P k m).1 = (k.run P fs).1 ∧
    (∃ d', (k.run P).after fs l = some d' ∧ Mirrors (mockRun P k m).2 d') ∧
    ∃ d₂', (k.run P).after fs dest = some d₂' ∧ MirrorsPublic (mockRun P k m).2 d₂' := by
  have hother : k.target = some l → (k.run P).after fs dest = some d₂ := by
    intro ht
    rw [← hd]
    exact KCmd.after_other (P := P) (by rw [ht]; intro e; exact hne (Option.some.inj e))
  cases k with
  | create loc name purpose asym => exact hk.elim
  | addkey env loc status cr size =>
    obtain ⟨rfl, rfl⟩ := hk
    obtain ⟨h1, h3⟩ := C73_addkey (P := P) env fs l d m hl h status size
    have hp := Mock_pub_of_manage (P := P) (env := env) (bad := false) (m := m)
      (op := .add env.gen env.fuel status (if size = -1 then none else some size))
    exact ⟨h1, h3, d₂, hother rfl, MirrorsPublic.congr h₂ hp.1 hp.2⟩
  | pubkey env loc dest' =>
    obtain ⟨rfl, rfl⟩ := hk
    exact C73_pubkey (P := P) env fs l dest d d₂ m hl h hd h₂ hne
  | promote env loc n =>
    cases hk
    obtain ⟨h1, h3⟩ := C73_promote (P := P) env fs l d m hl h n
    have hp := Mock_pub_of_manage (P := P) (env := env) (bad := decide (n < 0)) (m := m) (op := .promote n)
    exact ⟨h1, h3, d₂, hother rfl, MirrorsPublic.congr h₂ hp.1 hp.2⟩
  | demote env loc n =>
    cases hk
    obtain ⟨h1, h3⟩ := C73_demote (P := P) env fs l d m hl h n
    have hp := Mock_pub_of_manage (P := P) (env := env) (bad := decide (n < 0)) (m := m) (op := .demote n)
    exact ⟨h1, h3, d₂, hother rfl, MirrorsPublic.congr h₂ hp.1 hp.2⟩
  | revoke env loc n =>
    cases hk
    obtain ⟨h1, h3⟩ := C73_revoke (P := P) env fs l d m hl h n
    have hp := Mock_pub_of_manage (P := P) (env := env) (bad := decide (n < 0)) (m := m) (op := .revoke n)
    refine ⟨h1, h3, d₂, hother rfl, ?_⟩
    change MirrorsPublic (mockRevoke P env n m).2 d₂
    change (mockManage P env (decide (n < 0)) (fun c => c.Revoke n) m).2.pubkmd = _ ∧
      (mockManage P env (decide (n < 0)) (fun c => c.Revoke n) m).2.pubkeys = _ at hp
    unfold mockRevoke
    rcases hq : mockManage P env (decide (n < 0)) (fun c => c.Revoke n) m with ⟨q, m'⟩
    rw [hq] at hp
    cases q with
    | error e => exact MirrorsPublic.congr h₂ hp.1 hp.2
    | ok u =>
      simp only
      unfold Mock.RemoveKey
      split
      · exact MirrorsPublic.congr h₂ hp.1 hp.2
      · exact MirrorsPublic.congr h₂ hp.1 hp.2

/-- C73: any sequence of commands without a crypter gives the same outcomes, error for error, on a mock and on disk, and the
directories mirror the mock at the end. -/
theorem C73_history (fs : FS) (l dest : Loc) (d d₂ : Dir) (m : Mock) (hl : fs l = some d) (h : Mirrors m d)
    (hd : fs dest = some d₂) (h₂ : MirrorsPublic m d₂) (hne : l ≠ dest) (ks : List KCmd) (hk : ∀ k ∈ ks, PlainCmd l dest k) :
    (mockOutcomes P ks m).1 = diskOutcomes P ks fs ∧
    (∃ d', history P fs ks l = some d' ∧ Mirrors (mockOutcomes P ks m).2 d') ∧
    ∃ d₂', history P fs ks dest = some d₂' ∧ MirrorsPublic (mockOutcomes P ks m).2 d₂' := by
  induction ks generalizing fs d d₂ m with
  | nil => exact ⟨rfl, ⟨d, hl, h⟩, d₂, hd, h₂⟩
  | cons k t ih =>
    obtain ⟨h1, ⟨d', h3, h4⟩, d₂', h5, h6⟩ := C73_step (P := P) fs l dest d d₂ m hl h hd h₂ hne k (hk k (by simp))
    obtain ⟨g1, g2, g3⟩ := ih _ d' d₂' _ h3 h4 h5 h6 (fun k' hk' => hk k' (by simp [hk']))
    exact ⟨by unfold mockOutcomes diskOutcomes; rw [h1, g1], g2, g3⟩

/-- C73: key sets are read alike from a mock and from the directory that mirrors it, by every class. -/
theorem C73_reads (m : Mock) (d : Dir) (h : Mirrors m d) (cls : CzarClass) :
    Czar.init P cls (MockReader m) = Czar.init P cls (FileReader d) := by rw [h.reader]

/-- C73: the exported key sets are read alike as well, once there is one. -/
theorem C73_reads_public (m : Mock) (d : Dir) (h : MirrorsPublic m d) (hp : Heap) (kmd : KeyMetadata)
    (hk : m.pubkmd = some (hp, kmd)) (cls : CzarClass) :
    Czar.init P cls (MockReader { m with heap := hp, kmd := kmd, keys := m.pubkeys }) = Czar.init P cls (FileReader d) := by
  have hm := h.same_meta
  rw [hk] at hm
  obtain ⟨text, h1, h2⟩ := hm
  congr 1
  unfold MockReader FileReader ReadFile
  congr 1
  · simp only at h1 ⊢; rw [h1, h2]
  · funext n
    have := h.same_keys n
    cases hg : assocGet m.pubkeys n with
    | none => rw [hg] at this; simp only at this ⊢; rw [this]
    | some k => rw [hg] at this; obtain ⟨t, h3, h4⟩ := this; simp only; rw [h3, h4]

/-- C73, the limits: over an existing key set `create` is refused on disk, and on a mock throws the metadata away. -/
theorem C73_create_again (fs : FS) (l : Loc) (d : Dir) (m : Mock) (hl : fs l = some d) (h : Mirrors m d)
    (name : Json) (purpose : Option KeyPurpose) (asym : Option Bytes) (t : KeyPurpose × KeyType)
    (ht : createType purpose asym = .ok t) :
    Create (some l) name purpose asym fs = (.error .keyczarError, []) ∧
    (mockCreate name purpose asym m).1 = .ok () ∧ (mockCreate name purpose asym m).2.kmd.versions = [] ∧
    (mockCreate name purpose asym m).2.keys = m.keys := by
  obtain ⟨text, -, h2⟩ := h.same_meta
  unfold mockCreate Create
  simp only
  rw [ht, Cmd.lift_ok_bind, Cmd.look_bind]
  have hw : CreateWriter l fs = .ok l := by
    unfold CreateWriter
    rw [hl]
    rfl
  rw [hw]
  refine ⟨?_, rfl, rfl, rfl⟩
  simp only
  unfold WriteMetadata
  rw [if_pos (by rw [hl]; simp [h2])]

/-- C73, the limits: on a mock a crypter changes nothing … -/
theorem C73_crypter_unused (env : Env) (status : KeyStatus) (cr : Czar) (size : Int) (m : Mock) :
    mockAddKey P env status (some cr) size m = mockAddKey P env status none size m := rfl

/-- … so what a mock holds is never the image of a directory marked as encrypted. -/
theorem C73_never_encrypted (fs : FS) (l : Loc) (d : Dir) (hl : fs l = some d) (hf : Flagged fs l) (m : Mock) :
    ¬ Mirrors m d := by
  intro h
  obtain ⟨d', text, h1, h2, h3⟩ := hf
  rw [hl] at h1
  cases h1
  obtain ⟨text', t1, t2⟩ := h.same_meta
  rw [h2] at t2
  have t2 := Option.some.inj t2
  subst t2
  rw [KeyMetadata.str_eq _ _ h.ok.exportable] at t1
  have t1 := Except.ok.inj t1
  obtain ⟨f, e, g1, g2, g3⟩ := h3
  rw [← t1, loads_dumps _ (viewJson_WF ⟨h.ok.name, by rw [show (m.kmd.view m.heap).encrypted = m.kmd.encrypted from rfl, h.ok.plain]; trivial,
    fun x hx => by
      obtain ⟨p, hp, rfl⟩ := List.mem_map.mp hx
      exact h.ok.exportable p hp⟩)] at g1
  have hfield : ∀ v : KeySet.View, viewJson v = .obj f → dictGet f "encrypted".toList = some v.encrypted := by
    intro v hv
    unfold viewJson at hv
    cases hv
    simp [dictGet]
  rw [hfield _ (Except.ok.inj g1), show (m.kmd.view m.heap).encrypted = m.kmd.encrypted from rfl, h.ok.plain] at g2
  cases g2
  cases g3

/-- C73: every unencrypted mock has a directory that mirrors it. -/
theorem C73_image (m : Mock) (h : PlainMock m) : ∃ d, Mirrors m d := by
  refine ⟨fun f => match f with
    | .metaFile => some (dumps (viewJson (m.kmd.view m.heap)))
    | .key n => (assocGet m.keys n).map fun k => dumps k.json
    | .other _ => none, h, ⟨_, KeyMetadata.str_eq _ _ h.exportable, rfl⟩, fun n => ?_⟩
  cases hg : assocGet m.keys n with
  | none => simp [hg]
  | some k => exact ⟨_, Key.str_eq k, by simp [hg]⟩

/-- C73: the mocks that unit tests build are such: new ones … -/
theorem C73_new (name : Json) (purpose : KeyPurpose) (type : KeyType) (hn : name.WF) :
    PlainMock (Mock.new name purpose type (.bool false)) :=
  ⟨rfl, hn, fun p hp => (by cases hp), fun p hp => (by cases hp), List.nodup_nil, fun p hp => by cases hp⟩

/-- … and those with keys added by the utility method. -/
theorem C73_add (m m' : Mock) (h : PlainMock m) (rnd : Rand) (n : Int) (status : KeyStatus) (size : Option Int)
    (ha : m.AddKey rnd n status size = .ok m') :
    PlainMock m' ∧ m'.ExistsVersion n = true ∧ (m.GetStatus n = .error .keyczarError → m'.GetStatus n = .ok status) := by
  unfold Mock.AddKey at ha
  cases hk : GenKey rnd m.kmd.type size with
  | error e => rw [hk] at ha; cases ha
  | ok key =>
    rw [hk] at ha
    change Except.ok _ = _ at ha
    have ha := Except.ok.inj ha
    subst ha
    have hobj : ∀ p ∈ m.kmd.versions, (m.heap.alloc ⟨n, status, .bool false⟩).obj p.2 = m.heap.obj p.2 := by
      intro p hp
      have := h.allocated p hp
      unfold Heap.alloc
      simp only
      rw [if_neg (by omega)]
    have hnew : (m.heap.alloc ⟨n, status, .bool false⟩).obj m.heap.next = ⟨n, status, .bool false⟩ := by
      simp [Heap.alloc]
    have hnext : (m.heap.alloc ⟨n, status, .bool false⟩).next = m.heap.next + 1 := rfl
    have hcase : (m.kmd.AddVersion (m.heap.alloc ⟨n, status, .bool false⟩) m.heap.next = m.kmd ∧ (assocGet m.kmd.versions n).isSome) ∨
        (m.kmd.AddVersion (m.heap.alloc ⟨n, status, .bool false⟩) m.heap.next =
          { m.kmd with versions := m.kmd.versions ++ [(n, m.heap.next)] } ∧ assocGet m.kmd.versions n = none) := by
      unfold KeyMetadata.AddVersion
      rw [hnew]
      simp only
      cases hg : assocGet m.kmd.versions n with
      | none => exact .inr ⟨rfl, rfl⟩
      | some o => exact .inl ⟨rfl, rfl⟩
    refine ⟨?_, ?_, ?_⟩
    · rcases hcase with ⟨hc, -⟩ | ⟨hc, hg⟩
      · rw [hc]
        exact ⟨h.plain, h.name, fun p hp => (by simp only; rw [hobj p hp]; exact h.exportable p hp),
          fun p hp => (by simp only; rw [hobj p hp]; exact h.num p hp), h.nodup,
          fun p hp => by simp only; rw [hnext]; exact Nat.lt_succ_of_lt (h.allocated p hp)⟩
      · rw [hc]
        refine ⟨h.plain, h.name, ?_, ?_, ?_, ?_⟩
        · intro p hp
          rcases List.mem_append.mp hp with hp | hp
          · simp only; rw [hobj p hp]; exact h.exportable p hp
          · rw [List.mem_singleton] at hp; subst hp; simp only; rw [hnew]; trivial
        · intro p hp
          rcases List.mem_append.mp hp with hp | hp
          · simp only; rw [hobj p hp]; exact h.num p hp
          · rw [List.mem_singleton] at hp; subst hp; simp only; rw [hnew]
        · simp only [List.map_append, List.map_cons, List.map_nil]
          rw [List.nodup_append]
          refine ⟨h.nodup, by simp, ?_⟩
          intro a hmem b hb
          rw [List.mem_singleton] at hb
          subst hb
          rintro rfl
          have := assocGet_isSome.mpr hmem
          rw [hg] at this
          cases this
        · intro p hp
          simp only; rw [hnext]
          rcases List.mem_append.mp hp with hp | hp
          · exact Nat.lt_succ_of_lt (h.allocated p hp)
          · rw [List.mem_singleton] at hp; subst hp; exact Nat.lt_succ_self _
    · unfold Mock.ExistsVersion
      simp only
      rw [assocGet_set, if_pos rfl]
      rfl
    · intro hs
      rcases hcase with ⟨hc, hg⟩ | ⟨hc, hg⟩
      · exfalso
        obtain ⟨o, ho⟩ := Option.isSome_iff_exists.mp hg
        unfold Mock.GetStatus KeyMetadata.GetVersion at hs
        rw [ho] at hs
        cases hs
      · unfold Mock.GetStatus
        simp only
        rw [hc]
        unfold KeyMetadata.GetVersion
        simp only
        rw [assocGet_append, hg]
        simp only [assocGet_cons, if_true, Option.none_or]
        show Except.ok _ = _
        rw [hnew]

/-- C73: what the tests look at is what is on disk: which keys exist … -/
theorem C73_exists (m : Mock) (d : Dir) (h : Mirrors m d) (n : Int) : m.ExistsVersion n = (d (.key n)).isSome :=
  SameKeys.isSome h.same_keys n

/-- … and the status of each version, as read from the directory. -/
theorem C73_status (m : Mock) (d : Dir) (h : Mirrors m d) (cls : CzarClass) (c : Czar)
    (hc : Czar.init P cls (FileReader d) = .ok c) (n : Int) (s : KeyStatus) :
    m.GetStatus n = .ok s ↔ ∃ e ∈ c.keySet.entries, e.num = n ∧ e.status = s := by
  rw [← h.reader] at hc
  have hloaded : Loaded P c := ⟨_, _, hc⟩
  obtain ⟨text, h1, h2⟩ := init_meta hc
  rw [show (MockReader m).GetMetadata = m.kmd.str m.heap from rfl, KeyMetadata.str_eq _ _ h.ok.exportable] at h1
  have h1 := Except.ok.inj h1
  subst h1
  obtain ⟨-, j, v, hj, hv, hview⟩ := KeyMetadata.Read_ok h2
  rw [loads_dumps _ (viewJson_WF ⟨h.ok.name, by rw [show (m.kmd.view m.heap).encrypted = m.kmd.encrypted from rfl, h.ok.plain]; trivial,
    fun x hx => by
      obtain ⟨p, hp, rfl⟩ := List.mem_map.mp hx
      exact h.ok.exportable p hp⟩)] at hj
  have hj := Except.ok.inj hj
  subst hj
  rw [docOf_viewJson] at hv
  have hv := Except.ok.inj hv
  subst hv
  have hvers := congrArg KeySet.View.versions (Czar.view_eq hloaded.inv)
  rw [hview] at hvers
  simp only at hvers
  rw [firstOfEach_nodup (by
    have : (m.kmd.view m.heap).versions.map KeyVersion.num = m.kmd.versions.map Prod.fst := by
      unfold KeyMetadata.view
      simp only [List.map_map]
      exact List.map_congr_left fun p hp => h.ok.num p hp
    rw [this]
    exact h.ok.nodup)] at hvers
  have hmem : ∀ kv : KeyVersion, kv ∈ c.keySet.view.versions ↔ ∃ e ∈ c.keySet.entries, kv = ⟨e.num, e.status, e.exportable⟩ := by
    intro kv
    unfold KeySet.view
    simp only [List.mem_map]
    exact ⟨fun ⟨e, he, hk⟩ => ⟨e, he, hk.symm⟩, fun ⟨e, he, hk⟩ => ⟨e, he, hk.symm⟩⟩
  have hstat : m.GetStatus n = .ok s ↔ ∃ kv ∈ c.keySet.view.versions, kv.num = n ∧ kv.status = s := by
    rw [← hvers]
    unfold Mock.GetStatus KeyMetadata.GetVersion
    cases hg : assocGet m.kmd.versions n with
    | none =>
      constructor
      · intro hx; cases hx
      · rintro ⟨kv, hkv, hn, -⟩
        obtain ⟨p, hp, rfl⟩ := List.mem_map.mp hkv
        rw [h.ok.num p hp] at hn
        have := assocGet_isSome.mpr (List.mem_map.mpr ⟨p, hp, hn⟩)
        rw [hg] at this
        cases this
    | some o =>
      have ho := assocGet_mem hg
      constructor
      · intro hx
        have hx := Except.ok.inj hx
        exact ⟨_, List.mem_map.mpr ⟨_, ho, rfl⟩, h.ok.num _ ho, hx⟩
      · rintro ⟨kv, hkv, hn, hs⟩
        obtain ⟨p, hp, rfl⟩ := List.mem_map.mp hkv
        rw [h.ok.num p hp] at hn
        have : assocGet m.kmd.versions p.1 = some p.2 := assocGet_of_mem h.ok.nodup hp
        rw [hn, hg] at this
        cases this
        exact congrArg _ hs
  rw [hstat]
  constructor
  · rintro ⟨kv, hkv, hn, hs⟩
    obtain ⟨e, he, rfl⟩ := (hmem kv).mp hkv
    exact ⟨e, he, hn, hs⟩
  · rintro ⟨e, he, hn, hs⟩
    exact ⟨_, (hmem _).mpr ⟨e, he, rfl⟩, hn, hs⟩

/-! ### examples -/

/-- the commands of a life of a key set: two keys, rotation, an export (refused for HMAC), revocation; the promotion of
version 7, the removal of an active key and an export fail -/
def exMockCmds : List KCmd :=
  [.addkey Ex.env (some [108]) .ACTIVE none (-1), .promote Ex.env (some [108]) 1, .addkey Ex.env' (some [108]) .PRIMARY none (-1),
   .promote Ex.env' (some [108]) 7, .revoke Ex.env (some [108]) 2, .pubkey Ex.env (some [108]) (some [112]),
   .demote Ex.env' (some [108]) 1, .revoke Ex.env (some [108]) 1]

/-- the mock after `create`, and two directories that mirror it -/
def exMock : Mock := Mock.new (.str ['T', 'e', 's', 't']) .SIGN_AND_VERIFY .HMAC_SHA1 (.bool false)
def exMockFS : FS := fun l =>
  if l = [108] then some fun f => if f = .metaFile then some (dumps (viewJson (exMock.kmd.view exMock.heap))) else none
  else if l = [112] then some fun _ => none
  else none

/-- example: the hypotheses of C73_history hold -/
example : ∃ d d₂, exMockFS [108] = some d ∧ Mirrors exMock d ∧ exMockFS [112] = some d₂ ∧ MirrorsPublic exMock d₂ ∧
    ∀ k ∈ exMockCmds, PlainCmd [108] [112] k := by
  refine ⟨_, _, rfl, ⟨C73_new _ _ _ trivial, ⟨_, KeyMetadata.str_eq _ _ (fun p hp => by cases hp), rfl⟩, fun n => ?_⟩,
    rfl, ⟨fun n => rfl, rfl⟩, ?_⟩
  · show (if FileName.key n = .metaFile then _ else none) = none
    rw [if_neg (by simp)]
  · intro k hk
    simp only [exMockCmds, List.mem_cons, List.not_mem_nil, or_false] at hk
    rcases hk with rfl | rfl | rfl | rfl | rfl | rfl | rfl | rfl <;> first | exact ⟨rfl, rfl⟩ | rfl

/-- example: what happens -/
example : (mockOutcomes realPrims exMockCmds exMock).1.map Ex.isOk = [true, true, true, false, false, false, true, true] ∧
    (mockOutcomes realPrims exMockCmds exMock).2.keys.map Prod.fst = [2] := by decide +kernel

/-- example: the start of keyczart_test.py — versions 42, 77 and 99, of which 99 is inactive -/
example : (do
    let m ← exMock.AddKey Ex.rnd 42 .PRIMARY none
    let m ← m.AddKey Ex.rnd' 77 .ACTIVE none
    let m ← m.AddKey Ex.rnd 99 .INACTIVE none
    let (r, m') := mockRevoke realPrims Ex.env 99 m
    r
    return (m.ExistsVersion 99, m'.ExistsVersion 99, (← m'.GetStatus 42), m'.keys.length)) =
      (.ok (true, false, .PRIMARY, 2) : Py (Bool × Bool × KeyStatus × Nat)) := by decide +kernel

/-- example: `create` twice -/
example : createType (some .SIGN_AND_VERIFY) none = .ok (.SIGN_AND_VERIFY, .HMAC_SHA1) := rfl

/-- example: a directory that says encrypted -/
example : Ex.isOk (load realPrims none [101] (Ex.disk .ACTIVE .PRIMARY)) = false := by decide +kernel

end Verif.Props
