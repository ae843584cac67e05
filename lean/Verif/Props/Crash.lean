import Verif.Lemmas.Crash
import Verif.Props.History
/-
Property theorems C39, C40: crashes and concurrent commands.
-/
namespace Verif.Props
open Verif Spec
variable (P : Prims)

/-! ## C39 -/

variable {P} in
theorem manage_prefix {env : Env} {l : Loc} {bad : Bool} {op : Op} {fs : FS} {c : Czar} (hc : load P none l fs = .ok c)
    {p : List Effect} (hp : p <+: (manage P env l none bad op fs).2) (hne : p ≠ []) :
    bad = false ∧ (op.run P c).1 = .ok () ∧ p <+: ((op.run P c).2.Write P env l none fs).2 := by
  unfold manage at hp
  rw [hc] at hp
  simp only at hp
  cases bad with
  | true => exact absurd (List.prefix_nil.mp hp) hne
  | false =>
    simp only [Bool.false_eq_true, if_false] at hp
    cases hr : (op.run P c).1 with
    | error e => rw [hr] at hp; exact absurd (List.prefix_nil.mp hp) hne
    | ok u => rw [hr] at hp; exact ⟨rfl, rfl, hp⟩

/-- C39: when single file writes are atomic, a crash after any number of effects of `promote` leaves a
directory that loads as the old or as the new key set. -/
theorem C39_promote (env : Env) (fs : FS) (l : Loc) (ks : KeySet) (h : Holds P none fs l ks) (n : Int)
    (p : List Effect) (hp : p <+: (Promote P env (some l) n fs).2) :
    Holds P none (applyAll fs p) l ks ∨
    ∃ ks', ks.promote n = some ks' ∧ Holds P none (applyAll fs p) l { ks' with encrypted := .bool false } := by
  by_cases hne : p = []
  · subst hne; exact .inl h
  · rw [Promote_eq] at hp
    obtain ⟨c, hc, rfl⟩ := h
    obtain ⟨-, h2, h3⟩ := manage_prefix hc hp hne
    have hspec := Czar.Promote_spec (load_loaded hc).inv n
    cases hs : c.keySet.promote n with
    | none =>
      rw [hs] at hspec
      rw [show (Op.promote n).run P c = c.Promote n from rfl, hspec] at h2
      cases h2
    | some ks' =>
      rw [hs] at hspec
      obtain ⟨heap, pr, h4, h5, -⟩ := hspec
      have h4 : ((Op.promote n).run P c).2.keySet = ks' := by rw [← h5]; exact congrArg (fun x => x.2.keySet) h4
      refine .inr ⟨ks', rfl, ?_⟩
      rw [← h4]
      obtain ⟨-, kt, kk⟩ := Keeps.promote (out := fun _ => False) hs
      refine crash_holds hc h3 hne ?_ (by rw [h4]; exact kt)
      rw [h4]
      intro e he
      have : ∃ e0 ∈ c.keySet.entries, e0.num = e.num ∧ e0.key = e.key := by
        unfold KeySet.promote at hs
        split at hs
        · cases hs
        · split at hs <;> cases hs <;> (obtain ⟨e0, h0, rfl⟩ := List.mem_map.mp he; exact ⟨e0, h0, rfl, rfl⟩)
      exact .inr this

/-- C39: likewise `demote`. -/
theorem C39_demote (env : Env) (fs : FS) (l : Loc) (ks : KeySet) (h : Holds P none fs l ks) (n : Int)
    (p : List Effect) (hp : p <+: (Demote P env (some l) n fs).2) :
    Holds P none (applyAll fs p) l ks ∨
    ∃ ks', ks.demote n = some ks' ∧ Holds P none (applyAll fs p) l { ks' with encrypted := .bool false } := by
  by_cases hne : p = []
  · subst hne; exact .inl h
  · rw [Demote_eq] at hp
    obtain ⟨c, hc, rfl⟩ := h
    obtain ⟨-, h2, h3⟩ := manage_prefix hc hp hne
    have hspec := Czar.Demote_spec (load_loaded hc).inv n
    cases hs : c.keySet.demote n with
    | none =>
      rw [hs] at hspec
      rw [show (Op.demote n).run P c = c.Demote n from rfl, hspec] at h2
      cases h2
    | some ks' =>
      rw [hs] at hspec
      obtain ⟨heap, pr, h4, h5, -⟩ := hspec
      have h4 : ((Op.demote n).run P c).2.keySet = ks' := by rw [← h5]; exact congrArg (fun x => x.2.keySet) h4
      refine .inr ⟨ks', rfl, ?_⟩
      rw [← h4]
      obtain ⟨-, kt, kk⟩ := Keeps.demote (out := fun _ => False) hs
      refine crash_holds hc h3 hne ?_ (by rw [h4]; exact kt)
      rw [h4]
      intro e he
      have : ∃ e0 ∈ c.keySet.entries, e0.num = e.num ∧ e0.key = e.key := by
        unfold KeySet.demote at hs
        split at hs
        · cases hs
        · split at hs <;> cases hs <;> (obtain ⟨e0, h0, rfl⟩ := List.mem_map.mp he; exact ⟨e0, h0, rfl, rfl⟩)
      exact .inr this

/-- C39: likewise `revoke` (including its final removal of the key file). -/
theorem C39_revoke (env : Env) (fs : FS) (l : Loc) (ks : KeySet) (h : Holds P none fs l ks) (n : Int)
    (p : List Effect) (hp : p <+: (Revoke P env (some l) n fs).2) :
    Holds P none (applyAll fs p) l ks ∨
    ∃ ks', ks.revoke n = some ks' ∧ Holds P none (applyAll fs p) l { ks' with encrypted := .bool false } := by
  have hfull := C38_revoke P env fs l ks h n
  by_cases hne : p = []
  · subst hne; exact .inl h
  · obtain ⟨c, hc, rfl⟩ := h
    have hcase : p <+: (manage P env l none (decide (n < 0)) (.revoke n) fs).2 ∨
        (p = (Revoke P env (some l) n fs).2 ∧ (Revoke P env (some l) n fs).1 = .ok ()) := by
      rw [Revoke_eq] at hp ⊢
      cases hm : manage P env l none (decide (n < 0)) (.revoke n) fs with
      | mk r es =>
        rw [hm] at hp
        cases r with
        | error e => exact .inl hp
        | ok u =>
          rcases List.prefix_concat_iff.mp hp with h | h
          · exact .inr ⟨h, rfl⟩
          · exact .inl h
    rcases hcase with hp | ⟨rfl, hok⟩
    swap
    · split at hfull
      · rw [hfull] at hok; cases hok
      · next ks' hks =>
        split at hks
        · cases hks
        · exact .inr ⟨ks', hks, hfull.2.1⟩
    obtain ⟨-, h2, h3⟩ := manage_prefix hc hp hne
    have hspec := Czar.Revoke_spec (load_loaded hc).inv n
    cases hs : c.keySet.revoke n with
    | none =>
      rw [hs] at hspec
      rw [show (Op.revoke n).run P c = c.Revoke n from rfl, hspec] at h2
      cases h2
    | some ks' =>
      rw [hs] at hspec
      obtain ⟨m, h4, -, h5, -⟩ := hspec
      have h4 : ((Op.revoke n).run P c).2.keySet = ks' := by rw [← h5]; exact congrArg (fun x => x.2.keySet) h4
      refine .inr ⟨ks', rfl, ?_⟩
      rw [← h4]
      obtain ⟨-, kt, kk⟩ := Keeps.revoke hs
      refine crash_holds hc h3 hne ?_ (by rw [h4]; exact kt)
      rw [h4]
      intro e he
      have : ∃ e0 ∈ c.keySet.entries, e0.num = e.num ∧ e0.key = e.key := by
        unfold KeySet.revoke at hs
        split at hs
        · cases hs
        · split at hs <;> cases hs
          exact ⟨e, (List.mem_filter.mp he).1, rfl, rfl⟩
      exact .inr this

variable {P}

theorem ReadKey_empty (t : KeyType) (k : Key) : ReadKey t [] ≠ .ok k := by
  cases t <;> (intro h; cases h)

/-- a directory whose metadata lists a version without usable key file cannot be loaded -/
theorem no_load_of_key {ks : KeySet} (hw : ks.view.WF) (hn : (ks.entries.map Entry.num).Nodup) {d : Dir}
    (hm : d .metaFile = some (metaText ks)) {e : Entry} (he : e ∈ ks.entries)
    (hk : d (.key e.num) = none ∨ d (.key e.num) = some []) (cls : CzarClass) (c : Czar) :
    Czar.init P cls (FileReader d) ≠ .ok c := by
  intro hc
  obtain ⟨-, -, hg, -⟩ := Czar.init_ok hc
  obtain ⟨kmd, h, h1, -, h3⟩ := KeyMetadata.Read_viewJson hw (by
    unfold Spec.KeySet.view
    rw [List.map_map]; exact hn)
  obtain ⟨⟨text, kmd', h', g1, g2, g3⟩, g4⟩ := hg
  have g1 : ReadFile d .metaFile = .ok text := g1
  rw [ReadFile, hm] at g1
  cases g1
  rw [show metaText ks = dumps (viewJson ks.view) from rfl, h1] at g2
  cases g2
  rw [h3] at g3
  have hv := congrArg KeySet.View.versions g3
  have : (⟨e.num, e.status, e.exportable⟩ : KeyVersion) ∈ c.keySet.view.versions := by
    rw [← hv]; exact List.mem_map.mpr ⟨e, he, rfl⟩
  obtain ⟨e', he', heq⟩ := List.mem_map.mp this
  obtain ⟨text, h5, h6, -⟩ := g4 e' he'
  have hnum : e'.num = e.num := congrArg KeyVersion.num heq
  have h5 : ReadFile d (.key e'.num) = .ok text := h5
  rw [ReadFile, hnum] at h5
  rcases hk with hk | hk
  · rw [hk] at h5; cases h5
  · rw [hk] at h5; cases h5; exact ReadKey_empty _ _ h6

/-- a directory with an empty metadata file cannot be loaded -/
theorem no_load_of_meta {d : Dir} (hm : d .metaFile = some []) (cls : CzarClass) (c : Czar) :
    Czar.init P cls (FileReader d) ≠ .ok c := by
  intro hc
  obtain ⟨-, -, ⟨⟨text, kmd', h', g1, g2, -⟩, -⟩, -⟩ := Czar.init_ok hc
  have g1 : ReadFile d .metaFile = .ok text := g1
  rw [ReadFile, hm] at g1
  cases g1
  cases g2

variable (P)

/-- C39: what an interruption can leave of some effects: the first ones completely, and possibly the
beginning of the data of the next write (`open(…, 'w')` empties the file first) -/
inductive Crash : List Effect → List Effect → Prop
  | before (p q : List Effect) : Crash (p ++ q) p
  | during (p q : List Effect) (l : Loc) (f : FileName) (data part : Bytes) (h : part <+: data) :
      Crash (p ++ .write l f data :: q) (p ++ [.write l f part])

/-- C39 fails for non-atomic writes: every successful promote, demote, revoke or addkey without
crypter can be interrupted so that nothing can load the directory any more (empty metadata). -/
theorem C39_torn_metadata (k : KCmd) (fs : FS) (l : Loc) (hl : k.loc = some l) (hc : k.crypter = none)
    (hk : (∀ loc name p a, k ≠ .create loc name p a) ∧ ∀ env loc dest, k ≠ .pubkey env loc dest)
    (hok : (k.run P fs).1 = .ok ()) :
    ∃ es', Crash (k.run P fs).2 es' ∧ ∃ d, applyAll fs es' l = some d ∧
      ∀ cls c, Czar.init P cls (FileReader d) ≠ .ok c := by
  have key : ∀ env bad op, (manage P env l none bad op fs).1 = .ok () → (fs l).isSome = true ∧ ∃ text q,
      (manage P env l none bad op fs).2 = .write l .metaFile text :: q := by
    intro env bad op h
    obtain ⟨c, hc, -, -, h3⟩ := manage_ok h
    have hld := load_loaded hc
    obtain ⟨bs, h4, -⟩ := Czar.Write_spec (env := env) (Op.run_inv hld.inv op)
      (run_wf hld.inv hld.loadable.view_wf op) (l := l) none (fs := fs) (load_isSome hc)
    exact ⟨load_isSome hc, _, _, by rw [h3, h4]⟩
  have : (fs l).isSome = true ∧ ∃ text q, (k.run P fs).2 = .write l .metaFile text :: q := by
    cases k with
    | create loc name p a => exact absurd rfl (hk.1 _ _ _ _)
    | pubkey env loc dest => exact absurd rfl (hk.2 _ _ _)
    | addkey env loc status cr size =>
      cases hl; cases hc
      simp only [KCmd.run, AddKey_eq] at hok ⊢
      exact key _ _ _ hok
    | promote env loc n => cases hl; simp only [KCmd.run, Promote_eq] at hok ⊢; exact key _ _ _ hok
    | demote env loc n => cases hl; simp only [KCmd.run, Demote_eq] at hok ⊢; exact key _ _ _ hok
    | revoke env loc n =>
      cases hl
      simp only [KCmd.run, Revoke_eq] at hok ⊢
      have := key env (decide (n < 0)) (.revoke n)
      cases hm : manage P env l none (decide (n < 0)) (.revoke n) fs with
      | mk r es =>
        rw [hm] at hok this
        cases r with
        | error e => cases hok
        | ok u =>
          obtain ⟨h1, text, q, h2⟩ := this rfl
          simp only at h2
          exact ⟨h1, text, q ++ [.remove l (.key n)], by rw [h2]; rfl⟩
  obtain ⟨hs, text, q, hq⟩ := this
  obtain ⟨d, hd⟩ := Option.isSome_iff_exists.mp hs
  refine ⟨[.write l .metaFile []], by rw [hq]; exact Crash.during [] q l .metaFile text [] (List.nil_prefix), _,
    by rw [applyAll_at, hd]; rfl, ?_⟩
  apply no_load_of_meta
  simp [dirAfter, touch, Effect.loc, Effect.file, Effect.content]

/-- C39 fails for non-atomic writes: a successful `promote` can be interrupted while it rewrites the
file of any version, which leaves that key file empty and the set unloadable: the key is lost. -/
theorem C39_torn_key (env : Env) (fs : FS) (l : Loc) (ks : KeySet) (h : Holds P none fs l ks) (n : Int)
    (hok : (Promote P env (some l) n fs).1 = .ok ()) (e : Entry) (he : e ∈ ks.entries) :
    ∃ es', Crash (Promote P env (some l) n fs).2 es' ∧ ∃ d, applyAll fs es' l = some d ∧ d (.key e.num) = some [] ∧
      ∀ cls c, Czar.init P cls (FileReader d) ≠ .ok c := by
  rw [Promote_eq] at hok ⊢
  obtain ⟨c, hc, rfl⟩ := h
  obtain ⟨c', hc', -, hr, hw⟩ := manage_ok hok
  rw [hc] at hc'
  cases hc'
  have hld := load_loaded hc
  have hi := Op.run_inv hld.inv (.promote n)
  have hwf := run_wf hld.inv hld.loadable.view_wf (.promote n)
  rw [hw] at hok ⊢
  have hspec := Czar.Promote_spec hld.inv n
  cases hs : c.keySet.promote n with
  | none =>
    rw [hs] at hspec
    rw [show (Op.promote n).run P c = c.Promote n from rfl, hspec] at hr
    cases hr
  | some ks' =>
    rw [hs] at hspec
    obtain ⟨heap, pr, h4, h5, -⟩ := hspec
    have h4 : ((Op.promote n).run P c).2.keySet = ks' := by rw [← h5]; exact congrArg (fun x => x.2.keySet) h4
    obtain ⟨-, -, kk⟩ := Keeps.promote (out := fun _ => False) hs
    rcases kk e he with hf | ⟨e', he', hn', hk'⟩
    · exact hf.elim
    rw [← h4] at he'
    obtain ⟨p, hp, hpe⟩ := List.mem_map.mp he'
    obtain ⟨bs, g1, g2, -⟩ := Czar.Write_spec (env := env) hi hwf (l := l) none (fs := fs) (load_isSome hc)
    obtain ⟨k, b, -, -, ht⟩ := Czar.Write_file (env := env) hi hwf (enc := none) (load_isSome hc) hok
      (hi.meta_mem p hp)
    have hnum : (((Op.promote n).run P c).2.heap.obj p.2).num = e.num := by
      rw [hi.meta_num p hp, ← hn', ← hpe]; rfl
    rw [hnum, g1, keyFile_touch] at ht
    obtain ⟨x, hx, hxl, hxf, hxc⟩ := touch_mem ht
    obtain ⟨q, hq, rfl⟩ := List.mem_map.mp hx
    obtain ⟨b1, b2, rfl⟩ := List.append_of_mem hq
    obtain ⟨d, hd⟩ := Option.isSome_iff_exists.mp (load_isSome hc)
    have hxf : FileName.key (((Op.promote n).run P c).2.heap.obj q.1).num = .key e.num := hxf
    refine ⟨.write l .metaFile (metaText (((Op.promote n).run P c).2.keySet.stored false)) ::
      b1.map (keyWrite l ((Op.promote n).run P c).2) ++ [.write l (.key e.num) []], ?_, _, by rw [applyAll_at, hd]; rfl, ?_, ?_⟩
    · rw [g1, List.map_append, List.map_cons, ← List.cons_append]
      have : keyWrite l ((Op.promote n).run P c).2 q = .write l (.key e.num) q.2 := by rw [keyWrite, hxf]
      rw [this]
      exact Crash.during _ _ _ _ _ _ (List.nil_prefix)
    · rw [dirAfter, touch_append]
      simp [touch, Effect.loc, Effect.file, Effect.content]
    · refine no_load_of_key (ks := ((Op.promote n).run P c).2.keySet.stored false) (stored_wf hwf false) hi.valid.nodup
        ?_ (e := e') he' (.inr ?_)
      · rw [dirAfter, touch_append, metaFile_touch]
        simp [touch, Effect.file]
      · rw [hn', dirAfter, touch_append]
        simp [touch, Effect.loc, Effect.file, Effect.content]

/-- C39 fails for `addkey` even with atomic writes: with `n` the new version number (no stray file of
that name), any crash after the metadata was written and before the new key's file was written
leaves a directory that nothing can load; otherwise it loads as the old or the new set. -/
theorem C39_addkey (env : Env) (fs : FS) (l : Loc) (ks : KeySet) (h : Holds P none fs l ks) (status : KeyStatus)
    (size : Int) (hok : (AddKey P env (some l) status none size fs).1 = .ok ()) :
    ∃ n key, Holds P none ((AddKey P env (some l) status none size).after fs) l
        { ks.add n status key with encrypted := .bool false } ∧
      ∀ p, p <+: (AddKey P env (some l) status none size fs).2 →
        (p = [] ∧ Holds P none (applyAll fs p) l ks) ∨
        ((∃ b, .write l (.key n) b ∈ p) ∧ Holds P none (applyAll fs p) l { ks.add n status key with encrypted := .bool false }) ∨
        (p ≠ [] ∧ (∀ b, .write l (.key n) b ∉ p) ∧ ∀ d, fs l = some d → d (.key n) = none →
          ∃ d', applyAll fs p l = some d' ∧ ∀ cls c, Czar.init P cls (FileReader d') ≠ .ok c) := by
  obtain ⟨c, hc, rfl⟩ := h
  unfold Cmd.after
  rw [AddKey_eq] at hok ⊢
  obtain ⟨c', hc', -, hr, hw⟩ := manage_ok hok
  rw [hc] at hc'
  cases hc'
  have hld := load_loaded hc
  have hi := Op.run_inv hld.inv (.add env.gen env.fuel status (if size = -1 then none else some size))
  have hwf := run_wf hld.inv hld.loadable.view_wf (.add env.gen env.fuel status (if size = -1 then none else some size))
  rw [hw] at hok ⊢
  obtain ⟨key, hks⟩ : ∃ key, ((Op.add env.gen env.fuel status (if size = -1 then none else some size)).run P c).2.keySet =
      c.keySet.add (c.maxVersion + 1) status key := by
    cases ha : c.AddVersion P env.gen env.fuel status (if size = -1 then none else some size) with
    | mk r c' =>
      simp only [Op.run, ha] at hr ⊢
      subst hr
      obtain ⟨key, hash, j, -, -, -, -, h1, -⟩ := AddVersion_ok hld.inv ha
      exact ⟨key, h1⟩
  generalize hop : Op.add env.gen env.fuel status (if size = -1 then none else some size) = op at *
  have hnew : (⟨c.maxVersion + 1, status, .bool false, key⟩ : Entry) ∈ (op.run P c).2.keySet.entries := by
    rw [hks]; unfold KeySet.add; simp
  refine ⟨c.maxVersion + 1, key, ?_, ?_⟩
  · have := Czar.Write_holds (P := P) (env := env) (enc := none) (rd := none) hi hwf trivial (load_isSome hc) hok
    rw [hks] at this
    exact this
  · intro p hp
    by_cases hne : p = []
    · subst hne; exact .inl ⟨rfl, c, hc, rfl⟩
    · by_cases hb : ∃ b, .write l (.key (c.maxVersion + 1)) b ∈ p
      · refine .inr (.inl ⟨hb, ?_⟩)
        have := crash_holds hc hp hne ?_ (by rw [hks]; unfold KeySet.add; split <;> rfl)
        · rw [hks] at this; exact this
        · rw [hks]
          intro e he
          unfold KeySet.add at he
          rcases List.mem_append.mp he with he | he
          · right
            split at he
            · obtain ⟨e0, h0, rfl⟩ := List.mem_map.mp he; exact ⟨e0, h0, rfl, rfl⟩
            · exact ⟨e, he, rfl, rfl⟩
          · rw [List.mem_singleton] at he
            subst he
            exact .inl hb
      · have hb : ∀ b, .write l (.key (c.maxVersion + 1)) b ∉ p := fun b hx => hb ⟨b, hx⟩
        refine .inr (.inr ⟨hne, hb, fun d hd hdn => ⟨_, by rw [applyAll_at, hd]; rfl, ?_⟩⟩)
        obtain ⟨bs, g1, -⟩ := Czar.Write_spec (env := env) hi hwf (l := l) none (fs := fs) (load_isSome hc)
        rw [g1] at hp
        refine no_load_of_key (ks := (op.run P c).2.keySet.stored false) (stored_wf hwf false) hi.valid.nodup ?_ hnew (.inl ?_)
        · cases p with
          | nil => exact absurd rfl hne
          | cons a q =>
            obtain ⟨rfl, hq⟩ := List.cons_prefix_cons.mp hp
            rw [dirAfter, touch, touch_none.mpr]
            · simp [Effect.loc, Effect.file, Effect.content]
            · intro e he
              obtain ⟨r, -, rfl⟩ := List.mem_map.mp (hq.subset he)
              simp [keyWrite, Effect.file]
        · rw [dirAfter, touch_none.mpr]
          · simpa using hdn
          · rintro x hx ⟨-, hxf⟩
            rcases List.mem_cons.mp (hp.subset hx) with rfl | hx'
            · cases hxf
            · obtain ⟨r, -, rfl⟩ := List.mem_map.mp hx'
              have hxf : FileName.key ((op.run P c).2.heap.obj r.1).num = .key (c.maxVersion + 1) := hxf
              rw [keyWrite, hxf] at hx
              exact hb _ hx

/-- example: addkey to testdata/hmac interrupted after its first write -/
example : (AddKey realPrims Ex.env (some [104]) .ACTIVE none (-1) (Ex.disk .ACTIVE .PRIMARY)).1 = .ok () ∧
    Ex.isOk (load realPrims none [104] (applyAll (Ex.disk .ACTIVE .PRIMARY)
      ((AddKey realPrims Ex.env (some [104]) .ACTIVE none (-1) (Ex.disk .ACTIVE .PRIMARY)).2.take 1))) = false ∧
    Ex.isOk (load realPrims none [104] (applyAll (Ex.disk .ACTIVE .PRIMARY)
      ((AddKey realPrims Ex.env (some [104]) .ACTIVE none (-1) (Ex.disk .ACTIVE .PRIMARY)).2))) = true := by decide +kernel

/-! ## C40 -/

/-- `c` contains the elements of `a` and of `b`, each in their order -/
inductive Interleave {α : Type} : List α → List α → List α → Prop
  | nil : Interleave [] [] []
  | left {x : α} {a b c : List α} : Interleave a b c → Interleave (x :: a) b (x :: c)
  | right {x : α} {a b c : List α} : Interleave a b c → Interleave a (x :: b) (x :: c)

theorem Interleave.mem {α : Type} {a b c : List α} (h : Interleave a b c) (x : α) : x ∈ c ↔ x ∈ a ∨ x ∈ b := by
  induction h with
  | nil => simp
  | left _ ih => simp [ih, or_assoc]
  | right _ ih => simp [ih]; tauto

theorem add_view {ks : KeySet} {n : Int} {s : KeyStatus} {k k' : Key} : (ks.add n s k).view = (ks.add n s k').view := by
  unfold KeySet.add KeySet.view
  split <;> simp

/-- C40: two `addkey` commands without crypter that both start from the same directory and both
succeed choose the same version number `n`; after any interleaving of their file writes the
directory loads as the old set plus ONE version `n`, with the status of one of the commands and the
key of one of them (not necessarily the same one). -/
theorem C40_lost_key (env1 env2 : Env) (fs : FS) (l : Loc) (ks : KeySet) (h : Holds P none fs l ks)
    (s1 s2 : KeyStatus) (size1 size2 : Int)
    (hok1 : (AddKey P env1 (some l) s1 none size1 fs).1 = .ok ())
    (hok2 : (AddKey P env2 (some l) s2 none size2 fs).1 = .ok ()) :
    ∃ n k1 k2,
      Holds P none ((AddKey P env1 (some l) s1 none size1).after fs) l { ks.add n s1 k1 with encrypted := .bool false } ∧
      Holds P none ((AddKey P env2 (some l) s2 none size2).after fs) l { ks.add n s2 k2 with encrypted := .bool false } ∧
      ∀ es, Interleave (AddKey P env1 (some l) s1 none size1 fs).2 (AddKey P env2 (some l) s2 none size2 fs).2 es →
        ∃ s k, (s = s1 ∨ s = s2) ∧ (k = k1 ∨ k = k2) ∧
          Holds P none (applyAll fs es) l { ks.add n s k with encrypted := .bool false } := by
  obtain ⟨c, hc, rfl⟩ := h
  have hld := load_loaded hc
  have hs := load_isSome hc
  obtain ⟨d, hd⟩ := Option.isSome_iff_exists.mp hs
  have key : ∀ env s size, (AddKey P env (some l) s none size fs).1 = .ok () → ∃ (c' : Czar) (k : Key),
      c'.Inv P ∧ c'.keySet.view.WF ∧ c'.keySet = c.keySet.add (c.maxVersion + 1) s k ∧
      AddKey P env (some l) s none size fs = c'.Write P env l none fs := by
    intro env s size hok
    rw [AddKey_eq] at hok ⊢
    obtain ⟨c', hc', -, hr, hw⟩ := manage_ok hok
    rw [hc] at hc'
    cases hc'
    have hi := Op.run_inv hld.inv (.add env.gen env.fuel s (if size = -1 then none else some size))
    have hwf := run_wf hld.inv hld.loadable.view_wf (.add env.gen env.fuel s (if size = -1 then none else some size))
    cases ha : c.AddVersion P env.gen env.fuel s (if size = -1 then none else some size) with
    | mk r c' =>
      simp only [Op.run, ha] at hr hi hwf hw
      subst hr
      obtain ⟨key, hash, j, -, -, -, -, h1, -⟩ := AddVersion_ok hld.inv ha
      exact ⟨c', key, hi, hwf, h1, hw⟩
  obtain ⟨c1, k1, i1, w1, e1, r1⟩ := key env1 s1 size1 hok1
  obtain ⟨c2, k2, i2, w2, e2, r2⟩ := key env2 s2 size2 hok2
  rw [r1] at hok1
  rw [r2] at hok2
  unfold Cmd.after
  rw [r1, r2]
  refine ⟨c.maxVersion + 1, k1, k2, ?_, ?_, ?_⟩
  · have := Czar.Write_holds (P := P) (env := env1) (enc := none) (rd := none) i1 w1 trivial hs hok1
    rw [e1] at this; exact this
  · have := Czar.Write_holds (P := P) (env := env2) (enc := none) (rd := none) i2 w2 trivial hs hok2
    rw [e2] at this; exact this
  intro es hes
  have hmem : ∀ x ∈ es, x ∈ (c1.Write P env1 l none fs).2 ∨ x ∈ (c2.Write P env2 l none fs).2 :=
    fun x hx => (hes.mem x).mp hx
  obtain ⟨b1, g1, -⟩ := Czar.Write_spec (env := env1) i1 w1 (l := l) none (fs := fs) hs
  obtain ⟨b2, g2, -⟩ := Czar.Write_spec (env := env2) i2 w2 (l := l) none (fs := fs) hs
  -- metadata
  have hmeta : ∃ s, (s = s1 ∨ s = s2) ∧ (∀ k, touch es l .metaFile =
      some (some (metaText ((c.keySet.add (c.maxVersion + 1) s k).stored false)))) ∧
      ∀ k, (c.keySet.add (c.maxVersion + 1) s k).primaries.length ≤ 1 := by
    have text : ∀ s k k', metaText ((c.keySet.add (c.maxVersion + 1) s k).stored false) =
        metaText ((c.keySet.add (c.maxVersion + 1) s k').stored false) := by
      intro s k k'
      unfold metaText
      congr 2
      have := add_view (ks := c.keySet) (n := c.maxVersion + 1) (s := s) (k := k) (k' := k')
      show ({ (c.keySet.add (c.maxVersion + 1) s k).view with encrypted := .bool false } : KeySet.View) =
        { (c.keySet.add (c.maxVersion + 1) s k').view with encrypted := .bool false }
      rw [this]
    have prim : ∀ s k k', (c.keySet.add (c.maxVersion + 1) s k).primaries.length =
        (c.keySet.add (c.maxVersion + 1) s k').primaries.length := by
      intro s k k'
      unfold KeySet.add KeySet.primaries
      split
      · simp only [List.filter_append, List.length_append]; congr 1; simp only [List.filter_cons, List.filter_nil]; split <;> rfl
      · simp only [List.filter_append, List.length_append]; congr 1; simp only [List.filter_cons, List.filter_nil]; split <;> rfl
    cases ht : touch es l .metaFile with
    | none =>
      refine absurd ⟨rfl, rfl⟩ (touch_none.mp ht (.write l .metaFile (metaText (c1.keySet.stored false))) ?_)
      rw [hes.mem, g1]
      exact .inl (by simp)
    | some x =>
      obtain ⟨y, hy, -, hf, hcn⟩ := touch_mem ht
      rcases hmem y hy with hy | hy
      · rcases Czar.Write_effect i1 w1 hs hy with rfl | ⟨o, k, -, -, rfl, -⟩
        · refine ⟨s1, .inl rfl, fun k => ?_, fun k => ?_⟩
          · rw [← hcn, text s1 k k1, ← e1]; rfl
          · rw [prim s1 k k1, ← e1]; exact i1.valid.primary
        · cases hf
      · rcases Czar.Write_effect i2 w2 hs hy with rfl | ⟨o, k, -, -, rfl, -⟩
        · refine ⟨s2, .inr rfl, fun k => ?_, fun k => ?_⟩
          · rw [← hcn, text s2 k k2, ← e2]; rfl
          · rw [prim s2 k k2, ← e2]; exact i2.valid.primary
        · cases hf
  -- key files
  have new1 : (⟨c.maxVersion + 1, s1, .bool false, k1⟩ : Entry) ∈ c1.keySet.entries := by
    rw [e1]; unfold KeySet.add; simp
  have new2 : (⟨c.maxVersion + 1, s2, .bool false, k2⟩ : Entry) ∈ c2.keySet.entries := by
    rw [e2]; unfold KeySet.add; simp
  have wr : ∀ y ∈ es, ∀ m, y.file = .key m → ∃ b, y = .write l (.key m) b := by
    intro y hy m hm
    rcases hmem y hy with hy | hy
    · rcases Czar.Write_effect i1 w1 hs hy with rfl | ⟨o, k, -, -, rfl, -⟩
      · cases hm
      · have hm : FileName.key (c1.heap.obj o).num = .key m := hm
        exact ⟨_, by rw [hm]⟩
    · rcases Czar.Write_effect i2 w2 hs hy with rfl | ⟨o, k, -, -, rfl, -⟩
      · cases hm
      · have hm : FileName.key (c2.heap.obj o).num = .key m := hm
        exact ⟨_, by rw [hm]⟩
  have hkey : ∃ k, (k = k1 ∨ k = k2) ∧ touch es l (.key (c.maxVersion + 1)) = some (some (dumps k.json)) := by
    cases ht : touch es l (.key (c.maxVersion + 1)) with
    | none =>
      obtain ⟨p, hp, hpe⟩ := List.mem_map.mp new1
      obtain ⟨k, b, -, -, hb⟩ := Czar.Write_file (env := env1) i1 w1 (enc := none) hs hok1 (i1.meta_mem p hp)
      have hnum : (c1.heap.obj p.2).num = c.maxVersion + 1 := by
        rw [i1.meta_num p hp]; exact congrArg Entry.num hpe
      obtain ⟨x, hx, hx1, hx2, -⟩ := touch_mem hb
      rw [hnum] at hx2
      exact absurd ⟨hx1, hx2⟩ (touch_none.mp ht x ((hes.mem x).mpr (.inl hx)))
    | some x =>
      obtain ⟨y, hy, -, hf, hcn⟩ := touch_mem ht
      obtain ⟨b, rfl⟩ := wr y hy _ hf
      rcases hmem _ hy with hy | hy
      · have := Czar.Write_entry i1 w1 hs new1 hy
        exact ⟨k1, .inl rfl, by rw [← hcn, this]; rfl⟩
      · have := Czar.Write_entry i2 w2 hs new2 hy
        exact ⟨k2, .inr rfl, by rw [← hcn, this]; rfl⟩
  have old : ∀ e ∈ c.keySet.entries, (∃ x ∈ c1.keySet.entries, x.num = e.num ∧ x.key = e.key) ∧
      ∃ x ∈ c2.keySet.entries, x.num = e.num ∧ x.key = e.key := by
    intro e he
    rw [e1, e2]
    constructor
    · rcases (Keeps.add (fun _ => False) c.keySet (c.maxVersion + 1) s1 k1).2.2 e he with h | h
      · exact h.elim
      · exact h
    · rcases (Keeps.add (fun _ => False) c.keySet (c.maxVersion + 1) s2 k2).2.2 e he with h | h
      · exact h.elim
      · exact h
  obtain ⟨s, hs1, ht, hpr⟩ := hmeta
  obtain ⟨k, hk1, hk⟩ := hkey
  have hty : ∀ s k, (c.keySet.add (c.maxVersion + 1) s k).type = c.keySet.type := by
    intro s k; unfold KeySet.add; split <;> rfl
  -- entries of the result
  have hent : ∀ e ∈ (c.keySet.add (c.maxVersion + 1) s k).entries,
      (∃ e0 ∈ c.keySet.entries, e0.num = e.num ∧ e0.key = e.key) ∨ (e.num = c.maxVersion + 1 ∧ e.key = k) := by
    intro e he
    unfold KeySet.add at he
    rcases List.mem_append.mp he with he | he
    · left
      split at he
      · obtain ⟨e0, h0, rfl⟩ := List.mem_map.mp he; exact ⟨e0, h0, rfl, rfl⟩
      · exact ⟨e, he, rfl, rfl⟩
    · rw [List.mem_singleton] at he
      subst he
      exact .inr ⟨rfl, rfl⟩
  have hkok : k.Ok ∧ k.type = c.keySet.type ∧ ∃ hash, k.hashId P = .ok hash := by
    rcases hk1 with rfl | rfl
    · have := (i1.loadable w1).key_ok _ new1
      rw [e1, hty] at this
      exact this
    · have := (i2.loadable w2).key_ok _ new2
      rw [e2, hty] at this
      exact this
  have hlo : (c.keySet.add (c.maxVersion + 1) s k).Loadable P := by
    refine ⟨add_wf hld.loadable.view_wf _ _ _, ⟨?_, hpr k⟩, ?_⟩
    · have := i1.valid.nodup
      rw [e1] at this
      have hnums : ∀ s k, ((c.keySet.add (c.maxVersion + 1) s k).entries.map Entry.num) =
          c.keySet.entries.map Entry.num ++ [c.maxVersion + 1] := by
        intro s k
        unfold KeySet.add
        split <;> simp [KeySet.mapStatus]
      rw [hnums] at this ⊢
      exact this
    · intro e he
      rw [hty]
      rcases hent e he with ⟨e0, h0, -, hk0⟩ | ⟨-, hk0⟩
      · rw [← hk0]; exact hld.loadable.key_ok e0 h0
      · rw [hk0]; exact hkok
  refine ⟨s, k, hs1, hk1, Holds_iff.mpr ⟨_, by rw [applyAll_at, hd]; rfl, ?_, (by intro h; cases h), hpr k⟩⟩
  apply gives_of_reads (Loadable_stored hlo false)
  · rw [dirAfter, ht k]; rfl
  · intro e he
    rw [dirReader_key]
    simp only [ReadFile]
    rw [show ((c.keySet.add (c.maxVersion + 1) s k).stored false).type = c.keySet.type from hty s k]
    rcases hent e he with ⟨e0, h0, hn0, hk0⟩ | ⟨hn0, hk0⟩
    · obtain ⟨⟨x1, hx1, hxn1, hxk1⟩, x2, hx2, hxn2, hxk2⟩ := old e0 h0
      obtain ⟨o1, o2, -⟩ := hld.loadable.key_ok e0 h0
      cases htc : touch es l (.key e.num) with
      | none =>
        obtain ⟨d', hd', hini⟩ := load_some hc
        rw [hd] at hd'
        cases hd'
        obtain ⟨-, -, hg, -⟩ := Czar.init_ok hini
        obtain ⟨text, q1, q2, -⟩ := hg.2 e0 h0
        rw [dirReader_key] at q1
        simp only [ReadFile, hn0] at q1
        refine ⟨text, by simp only [dirAfter, htc, Option.getD_none]; exact q1, by rw [← hk0]; exact q2⟩
      | some x =>
        obtain ⟨y, hy, -, hf, hcn⟩ := touch_mem htc
        obtain ⟨b, rfl⟩ := wr y hy _ hf
        have hb : b = dumps e.key.json := by
          rcases hmem _ hy with hy | hy
          · rw [← hn0, ← hxn1] at hy
            rw [Czar.Write_entry i1 w1 hs hx1 hy, hxk1, hk0]
          · rw [← hn0, ← hxn2] at hy
            rw [Czar.Write_entry i2 w2 hs hx2 hy, hxk2, hk0]
        have hcn : some b = x := hcn
        subst hcn
        simp only [dirAfter, htc, Option.getD_some]
        refine ⟨b, rfl, ?_⟩
        rw [hb, ← hk0, ← o2]
        exact ReadKey_str e0.key o1
    · simp only [dirAfter, hn0, hk, Option.getD_some]
      refine ⟨_, rfl, ?_⟩
      rw [hk0, ← hkok.2.1]
      exact ReadKey_str k hkok.1

/-- example: two addkeys to testdata/hmac that make different keys -/
example : (AddKey realPrims Ex.env (some [104]) .ACTIVE none (-1) (Ex.disk .ACTIVE .PRIMARY)).1 = .ok () ∧
    (AddKey realPrims Ex.env' (some [104]) .PRIMARY none (-1) (Ex.disk .ACTIVE .PRIMARY)).1 = .ok () ∧
    (AddKey realPrims Ex.env (some [104]) .ACTIVE none (-1) (Ex.disk .ACTIVE .PRIMARY)).2 ≠
      (AddKey realPrims Ex.env' (some [104]) .ACTIVE none (-1) (Ex.disk .ACTIVE .PRIMARY)).2 := by decide +kernel

end Verif.Props
