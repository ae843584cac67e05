import Verif.Props.Crash
import Verif.Spec.Recover
import Verif.Lemmas.ExampleDisk
/-
Property theorems C95: key set directories that an interrupted command has left unusable.
-/
namespace Verif.Props
open Verif Spec
variable (P : Prims)

/-! ## C95 -/

/-- C95: what someone does who repairs a directory by hand: write the metadata file -/
def repair (fs : FS) (l : Loc) (text : Bytes) : FS := applyAll fs [.write l .metaFile text]

variable {P} in
theorem repair_at {fs : FS} {l : Loc} {text : Bytes} {d : Dir} (h : fs l = some d) :
    repair fs l text l = some fun f => if f = .metaFile then some text else d f := by
  unfold repair
  rw [applyAll_at, h]
  simp only [Option.map_some]
  congr 1
  funext f
  by_cases hf : f = .metaFile
  · subst hf; simp [dirAfter, touch, Effect.loc, Effect.file, Effect.content]
  · have hf' : FileName.metaFile ≠ f := fun h => hf h.symm
    simp [dirAfter, touch, Effect.loc, Effect.file, hf, hf']

/-- C95: no command gets a directory out of a state in which it has a metadata file but cannot be loaded: every command
on that location fails and changes nothing, and `create` does so although there is no usable key set. -/
theorem C95_stuck (k : KCmd) (fs : FS) (l : Loc) (d : Dir) (text : Bytes) (hl : k.loc = some l) (hd : fs l = some d)
    (hm : d .metaFile = some text) (hno : ∀ c, load P k.crypter l fs ≠ .ok c) :
    ∃ e, k.run P fs = (.error e, []) := by
  have key : ∀ env bad op, ∃ e, manage P env l k.crypter bad op fs = (.error e, []) := by
    intro env bad op
    unfold manage
    cases h : load P k.crypter l fs with
    | error e => exact ⟨e, rfl⟩
    | ok c => exact absurd h (hno c)
  cases k with
  | create loc name purpose asym => cases hl; exact ⟨_, C36_never_overwrites fs l d text hd hm name purpose asym⟩
  | addkey env loc status cr size =>
    cases hl
    simp only [KCmd.run, AddKey_eq]
    exact key _ _ _
  | pubkey env loc dest =>
    cases hl
    cases dest with
    | none => exact ⟨_, rfl⟩
    | some dest =>
      simp only [KCmd.run, PubKey]
      rw [Cmd.bind_def, CreateGenericKeyczar_eq]
      cases h : load P none l fs with
      | error e => exact ⟨e, rfl⟩
      | ok c => exact absurd h (hno c)
  | promote env loc n => cases hl; simp only [KCmd.run, Promote_eq]; exact key _ _ _
  | demote env loc n => cases hl; simp only [KCmd.run, Demote_eq]; exact key _ _ _
  | revoke env loc n =>
    cases hl
    simp only [KCmd.run, Revoke_eq]
    obtain ⟨e, he⟩ := key env (decide (n < 0)) (.revoke n)
    simp only [KCmd.crypter] at he
    rw [he]
    exact ⟨e, rfl⟩

/-- example: testdata/hmac after a `promote` that was interrupted when it had emptied the metadata file: another promote,
addkey, pubkey and create fail -/
example : let fs : FS := applyAll (Ex.disk .ACTIVE .PRIMARY) [.write [104] .metaFile []]
    (Promote realPrims Ex.env (some [104]) 1 fs).1 = .error .valueError ∧
    Ex.isOk (AddKey realPrims Ex.env (some [104]) .ACTIVE none (-1) fs).1 = false ∧
    Ex.isOk (PubKey realPrims Ex.env (some [104]) (some [120]) fs).1 = false ∧
    (Create (some [104]) (.str []) (some .SIGN_AND_VERIFY) none fs).1 = .error .keyczarError := by decide +kernel

/-- C95: so no sequence of commands does, in whatever directories, unless one of them exports a public key set to it. -/
theorem C95_stuck_forever (hist : List KCmd) (fs : FS) (l : Loc) (d : Dir) (text : Bytes) (hd : fs l = some d)
    (hm : d .metaFile = some text) (hno : ∀ cr c, load P cr l fs ≠ .ok c)
    (hk : ∀ k ∈ hist, ∀ env loc, k ≠ .pubkey env loc (some l)) : history P fs hist l = some d := by
  induction hist generalizing fs with
  | nil => exact hd
  | cons k t ih =>
    rw [history_cons]
    have h1 : (k.run P).after fs l = fs l := by
      by_cases ht : k.target = some l
      · have hloc : k.loc = some l := by
          cases k with
          | pubkey env loc dest => cases ht; exact absurd rfl (hk _ (by simp) env loc)
          | _ => exact ht
        obtain ⟨e, he⟩ := C95_stuck P k fs l d text hloc hd hm (hno _)
        unfold Cmd.after
        rw [he]
        rfl
      · exact KCmd.after_other ht
    apply ih _ (by rw [h1, hd])
    · intro cr c h
      unfold load at h
      rw [h1] at h
      exact hno cr c h
    · exact fun k hk' => hk k (List.mem_cons_of_mem _ hk')

/-- C95: an empty metadata file — what an interrupted write of it can leave (C39) — is such a state, whatever crypter is
tried. -/
theorem C95_empty_metadata (fs : FS) (l : Loc) (d : Dir) (hd : fs l = some d) (hm : d .metaFile = some [])
    (cr : Option Czar) (c : Czar) : load P cr l fs ≠ .ok c := by
  intro hc
  obtain ⟨d', hd', hini⟩ := load_some hc
  rw [hd] at hd'
  cases hd'
  obtain ⟨-, -, ⟨⟨text, kmd', h', g1, g2, -⟩, -⟩, -⟩ := Czar.init_ok hini
  rw [dirReader_meta, ReadFile, hm] at g1
  cases g1
  cases g2

variable {P} in
/-- effects of a management command on the files of the versions that were there before -/
theorem manage_effect {env : Env} {l : Loc} {bad : Bool} {op : Op} {fs : FS} {c : Czar} (hc : load P none l fs = .ok c)
    {x : Effect} (hx : x ∈ (manage P env l none bad op fs).2) :
    ∃ f b, x = .write l f b ∧ ∀ e ∈ c.keySet.entries, f = .key e.num → b = dumps e.key.json := by
  have hne : (manage P env l none bad op fs).2 ≠ [] := by intro h; rw [h] at hx; cases hx
  obtain ⟨-, h2, h3⟩ := manage_prefix hc (List.prefix_refl _) hne
  have hx := h3.subset hx
  have hl := load_loaded hc
  have hi := Op.run_inv hl.inv op
  have hw := run_wf hl.inv hl.loadable.view_wf op
  have hs := load_isSome hc
  rcases Czar.Write_effect hi hw hs hx with rfl | ⟨o, k, ho, hk, rfl, hkey⟩
  · exact ⟨_, _, rfl, fun e _ h => by cases h⟩
  · refine ⟨_, _, rfl, fun e he hf => ?_⟩
    have hf := FileName.key.inj hf
    have keeps : ∀ ks', (op.run P c).2.keySet = ks' → Keeps (fun _ => False) c.keySet ks' → k = e.key := by
      intro ks' h4 hkeep
      rcases hkeep.2.2 e he with h | ⟨e', he', hn', hk'⟩
      · exact h.elim
      · rw [← hk']
        exact (hkey e' (by rw [h4]; exact he') (by rw [hn', hf])).symm
    have : k = e.key := by
      cases op with
      | promote n =>
        have hspec := Czar.Promote_spec hl.inv n
        cases hs : c.keySet.promote n with
        | none =>
          rw [hs] at hspec
          rw [show (Op.promote n).run P c = c.Promote n from rfl, hspec] at h2
          cases h2
        | some ks' =>
          rw [hs] at hspec
          obtain ⟨heap, pr, h4, h5, -⟩ := hspec
          exact keeps ks' (by rw [← h5]; exact congrArg (fun x => x.2.keySet) h4) (Keeps.promote hs)
      | demote n =>
        have hspec := Czar.Demote_spec hl.inv n
        cases hs : c.keySet.demote n with
        | none =>
          rw [hs] at hspec
          rw [show (Op.demote n).run P c = c.Demote n from rfl, hspec] at h2
          cases h2
        | some ks' =>
          rw [hs] at hspec
          obtain ⟨heap, pr, h4, h5, -⟩ := hspec
          exact keeps ks' (by rw [← h5]; exact congrArg (fun x => x.2.keySet) h4) (Keeps.demote hs)
      | add gen fuel status size =>
        cases ha : c.AddVersion P gen fuel status size with
        | mk r c' =>
          simp only [Op.run, ha] at h2 keeps
          subst h2
          obtain ⟨key, hash, j, -, -, -, -, h1, -⟩ := AddVersion_ok hl.inv ha
          exact keeps _ h1 (Keeps.add _ _ _ _ _)
      | revoke n =>
        have hspec := Czar.Revoke_spec hl.inv n
        cases hs : c.keySet.revoke n with
        | none =>
          rw [hs] at hspec
          rw [show (Op.revoke n).run P c = c.Revoke n from rfl, hspec] at h2
          cases h2
        | some ks' =>
          rw [hs] at hspec
          obtain ⟨m, h4, -⟩ := hspec
          rw [show (Op.revoke n).run P c = c.Revoke n from rfl, h4] at ho hk hf
          obtain ⟨q, hq, rfl⟩ := List.mem_map.mp he
          have hq2 : q.2 = o := hl.inv.v_num _ (hl.inv.meta_mem q hq) _ ho (by rw [hl.inv.meta_num q hq]; exact hf.symm)
          show k = (assocGet c.vkeys q.2).getD _
          rw [hq2, show assocGet c.vkeys o = some k from hk]
          rfl
    rw [this]

/-- effects that leave the files of the versions other than `lost` readable -/
def Keep (l : Loc) (ks : KeySet) (lost : Option Int) (x : Effect) : Prop :=
  ∀ e ∈ ks.entries, some e.num ≠ lost → x.loc = l → x.file = .key e.num → x.content = some (dumps e.key.json)

variable {P} in
/-- the key files after effects that keep them -/
theorem keep_reads {fs : FS} {l : Loc} {ks : KeySet} (h : Holds P none fs l ks) {lost : Option Int} {es : List Effect}
    (hes : ∀ x ∈ es, Keep l ks lost x) :
    ∃ d, fs l = some d ∧ (∃ text, d .metaFile = some text) ∧ ∀ text d', repair (applyAll fs es) l text l = some d' →
      d' .metaFile = some text ∧
      ∀ e ∈ ks.entries, some e.num ≠ lost → (dirReader P none d').Delivers P ks.type e.num e.key := by
  obtain ⟨c, hc, rfl⟩ := h
  have hld := load_loaded hc
  obtain ⟨d, hd, hini⟩ := load_some hc
  obtain ⟨-, -, hg, -⟩ := Czar.init_ok hini
  refine ⟨d, hd, ?_, ?_⟩
  · obtain ⟨⟨text, -, -, h1, -⟩, -⟩ := hg
    rw [dirReader_meta, ReadFile] at h1
    cases hm : d .metaFile with
    | none => rw [hm] at h1; cases h1
    | some t => exact ⟨t, rfl⟩
  · intro text d' hd'
    rw [repair_at (d := dirAfter es l d) (by rw [applyAll_at, hd]; rfl)] at hd'
    cases hd'
    refine ⟨by simp, fun e he hlost => ?_⟩
    obtain ⟨t, g1, g2, g3⟩ := hg.2 e he
    cases ht : touch es l (.key e.num) with
    | none =>
      refine ⟨t, ?_, g2, g3⟩
      rw [dirReader_key] at g1 ⊢
      simp only [ReadFile] at g1 ⊢
      simp only [reduceCtorEq, if_false, dirAfter, ht, Option.getD_none]
      exact g1
    | some x =>
      obtain ⟨y, hy, hyl, hyf, hyc⟩ := touch_mem ht
      have := hes y hy e he hlost hyl hyf
      rw [hyc] at this
      subst this
      refine ⟨dumps e.key.json, ?_, ?_, g3⟩
      · rw [dirReader_key]
        simp [ReadFile, dirAfter, ht]
      · obtain ⟨k1, k2, -⟩ := hld.loadable.key_ok e he
        rw [← k2]
        exact ReadKey_str e.key k1

variable {P} in
theorem command_effects {k : KCmd} {fs : FS} {l : Loc} {ks : KeySet} (hl : k.loc = some l) (hc : k.crypter = none)
    (hk : (∀ loc name p a, k ≠ .create loc name p a) ∧ ∀ env loc dest, k ≠ .pubkey env loc dest)
    (h : Holds P none fs l ks) :
    ∃ a r, (k.run P fs).2 = a ++ r ∧ (∀ x ∈ a, Keep l ks none x ∧ ∃ f b, x = .write l f b) ∧
      (r = [] ∨ ∃ n, r = [.remove l (.key n)]) := by
  obtain ⟨c, hld, rfl⟩ := h
  have key : ∀ env bad op, ∀ x ∈ (manage P env l none bad op fs).2, Keep l c.keySet none x ∧ ∃ f b, x = .write l f b := by
    intro env bad op x hx
    obtain ⟨f, b, rfl, hb⟩ := manage_effect hld hx
    refine ⟨fun e he _ _ hf => ?_, f, b, rfl⟩
    exact congrArg some (hb e he hf)
  cases k with
  | create loc name p a => exact absurd rfl (hk.1 _ _ _ _)
  | pubkey env loc dest => exact absurd rfl (hk.2 _ _ _)
  | addkey env loc status cr size =>
    cases hl; cases hc
    simp only [KCmd.run, AddKey_eq]
    exact ⟨_, [], (List.append_nil _).symm, key _ _ _, .inl rfl⟩
  | promote env loc n =>
    cases hl; simp only [KCmd.run, Promote_eq]; exact ⟨_, [], (List.append_nil _).symm, key _ _ _, .inl rfl⟩
  | demote env loc n =>
    cases hl; simp only [KCmd.run, Demote_eq]; exact ⟨_, [], (List.append_nil _).symm, key _ _ _, .inl rfl⟩
  | revoke env loc n =>
    cases hl
    simp only [KCmd.run, Revoke_eq]
    have := key env (decide (n < 0)) (.revoke n)
    cases hm : manage P env l none (decide (n < 0)) (.revoke n) fs with
    | mk r es =>
      rw [hm] at this
      cases r with
      | error e => exact ⟨es, [], (List.append_nil _).symm, this, .inl rfl⟩
      | ok u => exact ⟨es, [.remove l (.key n)], rfl, this, .inr ⟨n, rfl⟩⟩

/-- C95: after a command that was interrupted between two effects and has not removed anything yet, putting the old
metadata file back gives the old key set back. -/
theorem C95_restored (k : KCmd) (fs : FS) (l : Loc) (ks : KeySet) (h : Holds P none fs l ks) (hl : k.loc = some l)
    (hc : k.crypter = none)
    (hk : (∀ loc name p a, k ≠ .create loc name p a) ∧ ∀ env loc dest, k ≠ .pubkey env loc dest)
    (p : List Effect) (hp : p <+: (k.run P fs).2) (hr : ∀ n, .remove l (.key n) ∉ p) :
    ∃ d text, fs l = some d ∧ d .metaFile = some text ∧ Holds P none (repair (applyAll fs p) l text) l ks := by
  obtain ⟨a, r, h1, h2, h3⟩ := command_effects hl hc hk h
  have hes : ∀ x ∈ p, Keep l ks none x := by
    intro x hx
    have := hp.subset hx
    rw [h1, List.mem_append] at this
    rcases this with hx' | hx'
    · exact (h2 x hx').1
    · rcases h3 with rfl | ⟨n, rfl⟩
      · cases hx'
      · rw [List.mem_singleton] at hx'
        subst hx'
        exact absurd hx (hr n)
  obtain ⟨d, hd, ⟨text, ht⟩, hrep⟩ := keep_reads h hes
  refine ⟨d, text, hd, ht, ?_⟩
  have hd' := repair_at (l := l) (text := text) (fs := applyAll fs p) (d := dirAfter p l d) (by rw [applyAll_at, hd]; rfl)
  obtain ⟨hm, hkeys⟩ := hrep text _ hd'
  obtain ⟨d0, hd0, hg, henc, hprim⟩ := Holds_iff.mp h
  rw [hd] at hd0
  cases hd0
  refine Holds_iff.mpr ⟨_, hd', ⟨?_, fun e he => hkeys e he (by simp)⟩, henc, hprim⟩
  obtain ⟨⟨t, kmd, hp', g1, g2, g3⟩, -⟩ := hg
  refine ⟨t, kmd, hp', ?_, g2, g3⟩
  rw [dirReader_meta, ReadFile] at g1 ⊢
  rw [hm]
  rw [ht] at g1
  exact g1

/-- C95: whatever an interruption leaves of a command — a write half done, or the removal done — all versions but at most
one can be recovered by writing metadata for them by hand. The exception is the version whose key file was being written
or has been removed. -/
theorem C95_salvaged (k : KCmd) (fs : FS) (l : Loc) (ks : KeySet) (h : Holds P none fs l ks) (hl : k.loc = some l)
    (hc : k.crypter = none)
    (hk : (∀ loc name p a, k ≠ .create loc name p a) ∧ ∀ env loc dest, k ≠ .pubkey env loc dest)
    (es : List Effect) (hes : Crash (k.run P fs).2 es) :
    ∃ lost, Holds P none (repair (applyAll fs es) l (metaText (ks.without lost))) l (ks.without lost) ∧
      ∀ m, lost = some m → .remove l (.key m) ∈ es ∨ ∃ p part, es = p ++ [.write l (.key m) part] := by
  obtain ⟨a, r, h1, h2, h3⟩ := command_effects hl hc hk h
  have hfrom : ∀ lost, (∀ x ∈ es, Keep l ks lost x) →
      Holds P none (repair (applyAll fs es) l (metaText (ks.without lost))) l (ks.without lost) := by
    intro lost hkeep
    obtain ⟨d, hd, -, hrep⟩ := keep_reads h hkeep
    have hd' := repair_at (l := l) (text := metaText (ks.without lost)) (fs := applyAll fs es) (d := dirAfter es l d)
      (by rw [applyAll_at, hd]; rfl)
    obtain ⟨hm, hkeys⟩ := hrep _ _ hd'
    obtain ⟨d0, hd0, hg, henc, hprim⟩ := Holds_iff.mp h
    obtain ⟨c, hc', rfl⟩ := h
    have hld := (load_loaded hc').loadable
    have hprim' : (c.keySet.without lost).primaries.length ≤ 1 := by
      refine le_trans (List.Sublist.length_le ?_) hprim
      exact List.Sublist.filter _ List.filter_sublist
    refine Holds_iff.mpr ⟨_, hd', gives_of_reads ⟨⟨?_, ?_, ?_⟩, ⟨?_, hprim'⟩, ?_⟩ hm ?_, henc, hprim'⟩
    · exact hld.view_wf.name
    · exact hld.view_wf.encrypted
    · intro x hx
      obtain ⟨e, he, rfl⟩ := List.mem_map.mp hx
      exact hld.view_wf.versions _ (List.mem_map.mpr ⟨e, (List.mem_filter.mp he).1, rfl⟩)
    · exact List.Nodup.sublist (List.Sublist.map _ List.filter_sublist) hld.valid.nodup
    · exact fun e he => hld.key_ok e (List.mem_filter.mp he).1
    · intro e he
      obtain ⟨he1, he2⟩ := List.mem_filter.mp he
      obtain ⟨t, g1, g2, -⟩ := hkeys e he1 (by simpa using he2)
      exact ⟨t, g1, g2⟩
  have weaken : ∀ lost x, Keep l ks none x → Keep l ks lost x := fun lost x hx e he _ => hx e he (by simp)
  rw [h1] at hes
  generalize hall : a ++ r = all at hes
  cases hes with
  | before p q =>
    have hp : ∀ x ∈ es, x ∈ a ∨ x ∈ r := fun x hx => List.mem_append.mp (by rw [hall]; exact List.mem_append_left _ hx)
    rcases h3 with rfl | ⟨n, rfl⟩
    · refine ⟨none, hfrom none fun x hx => ?_, by simp⟩
      rcases hp x hx with hx | hx
      · exact (h2 x hx).1
      · cases hx
    · by_cases hrem : .remove l (.key n) ∈ es
      · refine ⟨some n, hfrom _ fun x hx => ?_, ?_⟩
        · rcases hp x hx with hx | hx
          · exact weaken _ _ (h2 x hx).1
          · rw [List.mem_singleton] at hx
            subst hx
            intro e he hne _ hf
            exact absurd (by rw [FileName.key.inj hf]) hne
        · intro m hm
          cases hm
          exact .inl hrem
      · refine ⟨none, hfrom none fun x hx => ?_, by simp⟩
        rcases hp x hx with hx' | hx'
        · exact (h2 x hx').1
        · rw [List.mem_singleton] at hx'
          subst hx'
          exact absurd hx hrem
  | during p q l' f data part hpart =>
    have hp : ∀ x ∈ p ++ [.write l' f data], x ∈ a := by
      have hpre : p ++ [.write l' f data] <+: a := by
        have hpre : p ++ [.write l' f data] <+: a ++ r := by rw [hall]; exact ⟨q, by simp⟩
        rcases h3 with rfl | ⟨n, rfl⟩
        · rwa [List.append_nil] at hpre
        · rcases List.prefix_concat_iff.mp hpre with heq | hpre
          · have := congrArg List.getLast? heq
            simp at this
          · exact hpre
      exact fun x hx => hpre.subset hx
    cases f with
    | key m =>
      refine ⟨some m, hfrom _ fun x hx => ?_, ?_⟩
      · rcases List.mem_append.mp hx with hx | hx
        · exact weaken _ _ (h2 x (hp x (List.mem_append_left _ hx))).1
        · rw [List.mem_singleton] at hx
          subst hx
          intro e he hne _ hf
          exact absurd (by rw [FileName.key.inj hf]) hne
      · intro m' hm
        cases hm
        obtain ⟨-, f, b, hfb⟩ := h2 _ (hp (.write l' (.key m) data) (by simp))
        injection hfb with h4
        exact .inr ⟨p, part, by rw [h4]⟩
    | _ =>
      refine ⟨none, hfrom none fun x hx => ?_, by simp⟩
      rcases List.mem_append.mp hx with hx | hx
      · exact (h2 x (hp x (List.mem_append_left _ hx))).1
      · rw [List.mem_singleton] at hx
        subst hx
        intro e he hne _ hf
        cases hf

/-- C95: a version whose key file is missing or was left empty is lost: no metadata makes the directory load with it, under
any crypter. -/
theorem C95_lost (fs : FS) (l : Loc) (d : Dir) (hd : fs l = some d) (n : Int)
    (hk : d (.key n) = none ∨ d (.key n) = some []) (text : Bytes) (cr : Option Czar) (ks : KeySet)
    (h : Holds P cr (repair fs l text) l ks) : ∀ e ∈ ks.entries, e.num ≠ n := by
  intro e he hn
  obtain ⟨d', hd', hg, -⟩ := Holds_iff.mp h
  rw [repair_at hd] at hd'
  cases hd'
  obtain ⟨t, g1, g2, -⟩ := hg.2 e he
  rw [dirReader_key, hn] at g1
  have hf : ∀ x, ReadFile (fun f => if f = .metaFile then some text else d f) (.key n) = .ok x → x = [] := by
    intro x hx
    simp only [ReadFile, reduceCtorEq, if_false] at hx
    rcases hk with hk | hk <;> rw [hk] at hx <;> cases hx
    rfl
  cases cr with
  | none =>
    rw [hf t g1] at g2
    exact ReadKey_empty _ _ g2
  | some e =>
    simp only at g1
    cases hr : ReadFile (fun f => if f = .metaFile then some text else d f) (.key n) with
    | error er => rw [hr] at g1; cases g1
    | ok x =>
      rw [hr, hf x hr] at g1
      cases g1

/-- example: testdata/hmac, promotion of version 1 interrupted while the first key file is written. The set does not load
any more, not even with the old metadata; with metadata for version 2 alone it does. -/
example : let fs := Ex.disk .ACTIVE .PRIMARY
    let es := (Promote realPrims Ex.env (some [104]) 1 fs).2
    let torn := applyAll fs (es.take 1 ++ [.write [104] (.key 1) []])
    es[1]?.map Effect.file = some (.key 1) ∧ Ex.isOk (load realPrims none [104] fs) = true ∧
    Ex.isOk (load realPrims none [104] torn) = false ∧
    Ex.isOk (load realPrims none [104] (repair torn [104] (Ex.hmacMeta .ACTIVE .PRIMARY))) = false ∧
    ((load realPrims none [104] fs).toOption.map fun c =>
      Ex.isOk (load realPrims none [104] (repair torn [104] (metaText (c.keySet.without (some 1)))))) = some true := by
  decide +kernel

/-- C95: starting over with `create` in a directory whose metadata file is gone but whose key files are still there does
not bring the old keys back: the first key added takes number 1 and overwrites the file of the old version 1. -/
theorem C95_overwritten (env : Env) (fs : FS) (l : Loc) (d : Dir) (hd : fs l = some d) (hm : d .metaFile = none)
    (name : Json) (hn : name.WF) (purpose : Option KeyPurpose) (asym : Option Bytes) (p : KeyPurpose) (t : KeyType)
    (hnew : NewType purpose asym p t) (status : KeyStatus) (size : Int)
    (hok : (AddKey P env (some l) status none size ((Create (some l) name purpose asym).after fs)).1 = .ok ()) :
    ∃ key j sz, GenKey (env.gen j) t (some sz) = .ok key ∧
      ∃ d', (AddKey P env (some l) status none size).after ((Create (some l) name purpose asym).after fs) l = some d' ∧
        d' (.key 1) = some (dumps key.json) := by
  obtain ⟨text, -, c, hc, hks⟩ := C36_creates_empty P fs l d hd hm name hn purpose asym p t hnew
  generalize (Create (some l) name purpose asym).after fs = fs1 at *
  unfold Cmd.after
  rw [AddKey_eq] at hok ⊢
  generalize (if size = -1 then none else some size) = sz at *
  obtain ⟨c', hc', -, hr, hw⟩ := manage_ok hok
  rw [hc] at hc'
  cases hc'
  rw [hw] at hok ⊢
  have hl := load_loaded hc
  have hwf := run_wf hl.inv hl.loadable.view_wf (.add env.gen env.fuel status sz)
  cases ha : c.AddVersion P env.gen env.fuel status sz with
  | mk r c1 =>
    simp only [Op.run, ha] at hr hok hwf ⊢
    subst hr
    obtain ⟨key, hash, j, hg, -, -, -, h1, hi, -⟩ := AddVersion_ok hl.inv ha
    have hnum := AddVersion_number P hl ha 0 (le_refl _) (by simp [hks, KeySet.empty]) (.inl rfl)
    rw [hks] at h1
    have hent : c1.keySet.entries = [⟨c.maxVersion + 1, status, .bool false, key⟩] := by
      rw [h1]; unfold KeySet.add KeySet.empty KeySet.mapStatus; split <;> rfl
    rw [hent, hks] at hnum
    have hone : c.maxVersion + 1 = 1 := by simpa [KeySet.empty] using hnum
    rw [hone] at hent
    have hmem : (⟨1, status, .bool false, key⟩ : Entry) ∈ c1.keySet.entries := by rw [hent]; simp
    obtain ⟨q, hq, hqe⟩ := List.mem_map.mp hmem
    obtain ⟨k, b, hk, hb, ht⟩ := Czar.Write_file (env := env) hi hwf (enc := none) (load_isSome hc) hok (hi.meta_mem q hq)
    have hqn : (c1.heap.obj q.2).num = 1 := by
      rw [hi.meta_num q hq]; exact congrArg Entry.num hqe
    have hqk : k = key := by
      have : (assocGet c1.vkeys q.2).getD _ = key := congrArg Entry.key hqe
      rw [hk] at this
      exact this
    rw [hqn] at ht
    subst hqk
    cases hb
    obtain ⟨d1, hd1⟩ := Option.isSome_iff_exists.mp (load_isSome hc)
    refine ⟨k, j, _, by rw [← show c.keySet.type = t by rw [hks]; rfl]; exact hg, _, by rw [applyAll_at, hd1]; rfl, ?_⟩
    rw [dirAfter, ht]
    rfl

/-- example: a directory with testdata/hmac's key files but without metadata, after create and addkey -/
example : let fs : FS := fun l => if l = [104] then
      some (fun f => if f = .metaFile then none else Ex.dir2 [] Ex.hmacKey1 Ex.hmacKey2 f) else none
    let fs1 := (Create (some [104]) (.str []) (some .SIGN_AND_VERIFY) none).after fs
    (AddKey realPrims Ex.env (some [104]) .PRIMARY none (-1) fs1).1 = .ok () ∧
    (((AddKey realPrims Ex.env (some [104]) .PRIMARY none (-1)).after fs1 [104]).bind fun d => d (.key 1)) ≠
      some Ex.hmacKey1 ∧
    (((AddKey realPrims Ex.env (some [104]) .PRIMARY none (-1)).after fs1 [104]).bind fun d => d (.key 2)) =
      some Ex.hmacKey2 := by decide +kernel

end Verif.Props
