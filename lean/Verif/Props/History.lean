import Verif.Lemmas.History
import Verif.Props.Disk
/-
Property theorems C31, C32, C37: what sequences of keyczart commands do to a key set directory.
-/
namespace Verif.Props
open Verif Spec
variable (P : Prims)

/-! ## C37 -/

/-- this metadata text is a JSON object whose field "encrypted" is true (in Python's sense) -/
def SaysEncrypted (text : Bytes) : Prop :=
  ∃ f e, loads text = .ok (.obj f) ∧ dictGet f "encrypted".toList = some e ∧ e.truthy = true

/-- the directory has metadata that says encrypted -/
def Flagged (fs : FS) (l : Loc) : Prop := ∃ d text, fs l = some d ∧ d .metaFile = some text ∧ SaysEncrypted text

variable {P}

theorem SaysEncrypted.view {text : Bytes} (hs : SaysEncrypted text) {kmd : KeyMetadata} {h : Heap}
    (hr : KeyMetadata.Read text = .ok (kmd, h)) : kmd.encrypted.truthy = true := by
  obtain ⟨f, e, h1, h2, h3⟩ := hs
  obtain ⟨-, m, d, hl, hd, hv⟩ := KeyMetadata.Read_ok hr
  rw [h1] at hl
  cases hl
  have : kmd.encrypted = d.encrypted := congrArg KeySet.View.encrypted hv
  rw [this]
  unfold docOf at hd
  obtain ⟨name, -, hd⟩ := bind_ok hd
  obtain ⟨p, -, hd⟩ := bind_ok hd
  obtain ⟨p', -, hd⟩ := bind_ok hd
  obtain ⟨t, -, hd⟩ := bind_ok hd
  obtain ⟨t', -, hd⟩ := bind_ok hd
  obtain ⟨enc, h6, hd⟩ := bind_ok hd
  obtain ⟨vs, -, hd⟩ := bind_ok hd
  obtain ⟨items, -, hd⟩ := bind_ok hd
  obtain ⟨vs', -, hd⟩ := bind_ok hd
  cases hd
  rw [Json.get, h2] at h6
  cases h6
  exact h3

theorem SaysEncrypted.no_load {text : Bytes} (hs : SaysEncrypted text) {fs : FS} {l : Loc} {d : Dir}
    (hd : fs l = some d) (hm : d .metaFile = some text) (c : Czar) : load P none l fs ≠ .ok c := by
  intro hc
  obtain ⟨d', hd', hi⟩ := load_some hc
  rw [hd] at hd'
  cases hd'
  have hm' : (dirReader P none d).GetMetadata = .ok text := by rw [dirReader_meta, ReadFile, hm]
  cases hr : KeyMetadata.Read text with
  | error e => unfold Czar.init at hi; rw [hm'] at hi; simp only [bind, Except.bind, hr] at hi; cases hi
  | ok x =>
    have := C20_rejected_before_keys P .generic (dirReader P none d) text x.1 x.2 hm' hr ((truthy_iff _).1 (hs.view hr)) rfl
      (dirReader P none d).GetKey
    rw [show ({ dirReader P none d with GetKey := (dirReader P none d).GetKey } : Reader) = dirReader P none d from rfl,
      hi] at this
    cases this

theorem manage_no_load {env : Env} {l : Loc} {cr : Option Czar} {bad : Bool} {op : Op} {fs : FS}
    (h : ∀ c, load P cr l fs ≠ .ok c) : ∃ e, manage P env l cr bad op fs = (.error e, []) := by
  unfold manage
  cases hc : load P cr l fs with
  | error e => exact ⟨e, rfl⟩
  | ok c => exact absurd hc (h c)

/-- commands that cannot load the key set, apart from `create` -/
theorem KCmd.run_no_load {k : KCmd} {fs : FS} {l : Loc} (hk : k.loc = some l) (hnc : ∀ name p a, k ≠ .create (some l) name p a)
    (h : ∀ c, load P k.crypter l fs ≠ .ok c) : ∃ e, k.run P fs = (.error e, []) := by
  cases k with
  | create loc name purpose asym => cases hk; exact absurd rfl (hnc _ _ _)
  | addkey env loc status cr size =>
    cases hk
    simp only [KCmd.run, AddKey_eq]
    exact manage_no_load h
  | pubkey env loc dest =>
    cases hk
    cases dest with
    | none => exact ⟨_, rfl⟩
    | some d =>
      simp only [KCmd.run, PubKey]
      rw [Cmd.bind_def, CreateGenericKeyczar_eq]
      cases hc : load P none l fs with
      | error e => exact ⟨e, rfl⟩
      | ok c => exact absurd hc (h c)
  | promote env loc n => cases hk; simp only [KCmd.run, Promote_eq]; exact manage_no_load h
  | demote env loc n => cases hk; simp only [KCmd.run, Demote_eq]; exact manage_no_load h
  | revoke env loc n =>
    cases hk
    simp only [KCmd.run, Revoke_eq]
    obtain ⟨e, he⟩ := manage_no_load (env := env) (bad := decide (n < 0)) (op := .revoke n) (cr := none) h
    rw [he]
    exact ⟨e, rfl⟩

variable (P)

/-- C37: every command without crypter whose location says encrypted raises and has no effect. -/
theorem C37_refused_without_crypter (k : KCmd) (fs : FS) (l : Loc) (hk : k.loc = some l) (hc : k.crypter = none)
    (hf : Flagged fs l) : ∃ e, k.run P fs = (.error e, []) := by
  obtain ⟨d, text, hd, hm, hs⟩ := hf
  by_cases hnc : ∃ name p a, k = .create (some l) name p a
  · obtain ⟨name, p, a, rfl⟩ := hnc
    exact ⟨_, C36_never_overwrites fs l d text hd hm name p a⟩
  · refine KCmd.run_no_load hk (fun name p a h => hnc ⟨name, p, a, h⟩) ?_
    rw [hc]
    exact hs.no_load hd hm

variable {P} in
theorem says_metaText {ks : KeySet} (h : ks.view.WF) : SaysEncrypted (metaText (ks.stored true)) := by
  refine ⟨_, .bool true, loads_dumps _ (viewJson_WF (stored_wf h true)), ?_, rfl⟩
  simp [dictGet, Spec.KeySet.view, Spec.KeySet.stored]

/-- C37: a command with crypter writes only metadata that says encrypted and key files that are
outputs of the crypter's `Encrypt`, whether it succeeds or fails. -/
theorem C37_with_crypter (k : KCmd) (fs : FS) (cr : Czar) (hc : k.crypter = some cr) :
    ∀ e ∈ (k.run P fs).2, ∃ l, k.loc = some l ∧ ((∃ text, e = .write l .metaFile text ∧ SaysEncrypted text) ∨
      ∃ n rnd m b, e = .write l (.key n) b ∧ cr.Encrypt P rnd m (some Base64WSEncode) = .ok b) := by
  cases k with
  | addkey env loc status cr' size =>
    cases hc
    cases loc with
    | none => intro e he; cases he
    | some l =>
      intro e he
      refine ⟨l, rfl, ?_⟩
      simp only [KCmd.run, AddKey_eq] at he
      unfold manage at he
      cases hl : load P (some cr) l fs with
      | error x => rw [hl] at he; cases he
      | ok c =>
        rw [hl] at he
        simp only [Bool.false_eq_true, if_false] at he
        split at he
        · cases he
        · have hld := load_loaded hl
          have hi := Op.run_inv hld.inv (.add env.gen env.fuel status (if size = -1 then none else some size))
          have hw := run_wf hld.inv hld.loadable.view_wf (.add env.gen env.fuel status (if size = -1 then none else some size))
          obtain ⟨bs, h1, h2, -⟩ := Czar.Write_spec (env := env) hi hw (l := l) (some cr) (fs := fs) (load_isSome hl)
          rw [h1] at he
          rcases List.mem_cons.mp he with rfl | he
          · exact .inl ⟨_, rfl, says_metaText hw⟩
          · obtain ⟨p, hp, rfl⟩ := List.mem_map.mp he
            obtain ⟨k, -, hb⟩ := h2 p hp
            exact .inr ⟨_, _, _, _, rfl, hb⟩
  | _ => cases hc

/-- C37 for histories: start with a directory that says encrypted and run any commands; only
`pubkey --destination` from elsewhere is excluded (it overwrites its destination, see C64).
Afterwards the metadata still says encrypted and every file is either untouched, or metadata that
says encrypted, or the output of `Encrypt` of a crypter given to one of the commands. -/
theorem C37_history (hs : List KCmd) (fs : FS) (l : Loc) (d : Dir) (hd : fs l = some d) (hf : Flagged fs l)
    (hp : ∀ k ∈ hs, k.target = some l → k.loc = some l) :
    Flagged (history P fs hs) l ∧ ∃ d', history P fs hs l = some d' ∧ ∀ f, d' f = d f ∨
      (f = .metaFile ∧ ∃ text, d' f = some text ∧ SaysEncrypted text) ∨
      ∃ n, f = .key n ∧ ∃ k ∈ hs, ∃ cr, k.crypter = some cr ∧ ∃ rnd m b,
        cr.Encrypt P rnd m (some Base64WSEncode) = .ok b ∧ d' f = some b := by
  induction hs generalizing fs d with
  | nil => exact ⟨hf, d, hd, fun f => .inl rfl⟩
  | cons k t ih =>
    rw [history_cons]
    have step : ∃ d1, (k.run P).after fs l = some d1 ∧ Flagged ((k.run P).after fs) l ∧ ∀ f, d1 f = d f ∨
      (f = .metaFile ∧ ∃ text, d1 f = some text ∧ SaysEncrypted text) ∨
      ∃ n, f = .key n ∧ ∃ cr, k.crypter = some cr ∧ ∃ rnd m b,
        cr.Encrypt P rnd m (some Base64WSEncode) = .ok b ∧ d1 f = some b := by
      by_cases ht : k.target = some l
      · have hk := hp k (by simp) ht
        cases hc : k.crypter with
        | none =>
          obtain ⟨e, he⟩ := C37_refused_without_crypter P k fs l hk hc hf
          have : (k.run P).after fs = fs := by unfold Cmd.after; rw [he]; rfl
          rw [this]
          exact ⟨d, hd, hf, fun f => .inl rfl⟩
        | some cr =>
          have hw := C37_with_crypter P k fs cr hc
          have hfile : ∀ f c, touch (k.run P fs).2 l f = some c →
              (f = .metaFile ∧ ∃ text, c = some text ∧ SaysEncrypted text) ∨ ∃ n, f = .key n ∧ ∃ rnd m b,
                cr.Encrypt P rnd m (some Base64WSEncode) = .ok b ∧ c = some b := by
            intro f c htc
            obtain ⟨e, he, -, h2, h3⟩ := touch_mem htc
            obtain ⟨l', -, ⟨text, rfl, h4⟩ | ⟨n, rnd, m, b, rfl, h4⟩⟩ := hw e he
            · exact .inl ⟨h2.symm, text, h3.symm, h4⟩
            · exact .inr ⟨n, h2.symm, rnd, m, b, h4, h3.symm⟩
          have h1 : (k.run P).after fs l = some (dirAfter (k.run P fs).2 l d) := by
            unfold Cmd.after; rw [applyAll_at, hd]; rfl
          refine ⟨_, h1, ?_, ?_⟩
          · obtain ⟨d0, text, hd0, hm, hsay⟩ := hf
            rw [hd] at hd0
            cases hd0
            cases htm : touch (k.run P fs).2 l .metaFile with
            | none => exact ⟨_, text, h1, by simp [dirAfter, htm, hm], hsay⟩
            | some c =>
              rcases hfile _ _ htm with ⟨-, text', rfl, h4⟩ | ⟨n, h, -⟩
              · exact ⟨_, text', h1, by simp [dirAfter, htm], h4⟩
              · cases h
          · intro f
            cases htf : touch (k.run P fs).2 l f with
            | none => exact .inl (by simp [dirAfter, htf])
            | some c =>
              rcases hfile _ _ htf with ⟨h, text', rfl, h4⟩ | ⟨n, h, rnd, m, b, h4, rfl⟩
              · exact .inr (.inl ⟨h, text', by simp [dirAfter, htf], h4⟩)
              · exact .inr (.inr ⟨n, h, cr, rfl, rnd, m, b, h4, by simp [dirAfter, htf]⟩)
      · refine ⟨d, by rw [KCmd.after_other ht, hd], ?_, fun f => .inl rfl⟩
        obtain ⟨d0, text, hd0, h⟩ := hf
        exact ⟨d0, text, by rw [KCmd.after_other ht, hd0], h⟩
    obtain ⟨d1, h1, h2, h3⟩ := step
    obtain ⟨h4, d', h5, h6⟩ := ih ((k.run P).after fs) d1 h1 h2 (fun k' hk' => hp k' (by simp [hk']))
    refine ⟨h4, d', h5, fun f => ?_⟩
    rcases h6 f with h | h | ⟨n, hn, k', hk', h⟩
    · rcases h3 f with h' | ⟨hm, text, h', h''⟩ | ⟨n, hn, cr, hcr, rnd, m, b, hb, h'⟩
      · exact .inl (h.trans h')
      · exact .inr (.inl ⟨hm, text, h.trans h', h''⟩)
      · exact .inr (.inr ⟨n, hn, k, by simp, cr, hcr, rnd, m, b, hb, h.trans h'⟩)
    · exact .inr (.inl h)
    · exact .inr (.inr ⟨n, hn, k', by simp [hk'], h⟩)

/-- example: directory "e" says encrypted; promote and addkey without crypter are refused -/
example : (Promote realPrims Ex.env (some [101]) 1 (Ex.disk .ACTIVE .PRIMARY)).2 = [] ∧
    (AddKey realPrims Ex.env (some [101]) .ACTIVE none (-1) (Ex.disk .ACTIVE .PRIMARY)).2 = [] := by decide +kernel
/-- example: after `addkey --crypter` into the empty set "n", promote without crypter is refused -/
example : (Czar.init realPrims .crypter Ex.aes).map (fun cr =>
      let fs := history realPrims (Ex.disk .ACTIVE .PRIMARY) [.addkey Ex.env (some [110]) .ACTIVE (some cr) (-1)]
      ((AddKey realPrims Ex.env (some [110]) .ACTIVE (some cr) (-1) (Ex.disk .ACTIVE .PRIMARY)).2.length,
        (Promote realPrims Ex.env (some [110]) 1 fs).2.length)) = .ok (2, 0) := by decide +kernel

/-! ## C31 -/

/-- C31: after a successful `revoke` of version `n` its key file is gone and every class that accepts
the purpose loads the directory as the old key set without version `n` (other versions unchanged). -/
theorem C31_revoked (env : Env) (fs : FS) (l : Loc) (ks : KeySet) (h : Holds P none fs l ks) (n : Int)
    (hok : (Revoke P env (some l) n fs).1 = .ok ()) :
    ∃ e d', e ∈ ks.entries ∧ e.num = n ∧ e.status = .INACTIVE ∧ (Revoke P env (some l) n).after fs l = some d' ∧
      d' (.key n) = none ∧
      (∀ cls, ks.purpose ∈ purposes cls → Ex.isOk (Czar.init P cls (FileReader d')) = true) ∧
      ∀ cls c, Czar.init P cls (FileReader d') = .ok c → c.keySet =
        { ks with encrypted := .bool false, entries := ks.entries.filter fun x => x.num ≠ n } := by
  have hr := C38_revoke P env fs l ks h n
  by_cases hn : n < 0
  · rw [if_pos hn] at hr
    simp only at hr
    rw [hr] at hok
    cases hok
  · rw [if_neg hn] at hr
    cases hs : ks.revoke n with
    | none => rw [hs] at hr; simp only at hr; rw [hr] at hok; cases hok
    | some ks' =>
      rw [hs] at hr
      obtain ⟨-, h2, d', hd', hk⟩ := hr
      unfold KeySet.revoke at hs
      split at hs
      · cases hs
      · next e he =>
        split at hs
        · next hst =>
          cases hs
          unfold KeySet.find at he
          have hnum := List.find?_some he
          obtain ⟨d2, hd2, hg, -, hpr⟩ := Holds_iff.mp h2
          rw [hd'] at hd2
          cases hd2
          refine ⟨e, d', List.mem_of_find?_eq_some he, of_decide_eq_true hnum, hst, hd', hk, ?_, ?_⟩
          · intro cls hcls
            obtain ⟨c, hc, -⟩ := C19_accepted_loads P cls _ _ hg hcls (by intro ht; cases ht) hpr
            rw [show FileReader d' = dirReader P none d' from rfl, hc]
            rfl
          · intro cls c hc
            obtain ⟨-, -, h3, -⟩ := Czar.init_ok hc
            exact Reader.Gives_unique h3 hg
        · cases hs

/-- C31: with distinct identifiers, everything newly loaded from the directory raises KeyNotFoundError
for each input that starts with the header of the revoked key. -/
theorem C31_unknown_afterwards (env : Env) (fs : FS) (l : Loc) (ks : KeySet) (h : Holds P none fs l ks)
    (hd : ks.Distinct P) (n : Int) (hok : (Revoke P env (some l) n fs).1 = .ok ()) (e : Entry)
    (he : e ∈ ks.entries) (hn : e.num = n) (id : Bytes) (hid : KeyId P.sha1 e.key id) (d' : Dir)
    (hd' : (Revoke P env (some l) n).after fs l = some d') (cls : CzarClass) (c : Czar)
    (hc : Czar.init P cls (FileReader d') = .ok c) (input rest msg : Bytes) (dec : Option (Bytes → Py Bytes))
    (hi : Decodes dec input (header id ++ rest)) :
    c.Decrypt P input dec = .error .keyNotFound ∧ c.Verify P msg input dec = .error .keyNotFound := by
  obtain ⟨e0, d0, -, -, -, h1, -, -, h2⟩ := C31_revoked P env fs l ks h n hok
  rw [hd'] at h1
  cases h1
  have hks := h2 cls c hc
  obtain ⟨hlen, hh⟩ := (KeyId_iff P _ _).mp hid
  refine C23_unknown_key P cls _ c hc input id rest msg dec hlen hi ?_
  rw [hks]
  intro e' he' heq
  obtain ⟨hm, hne⟩ := List.mem_filter.mp he'
  have : e' = e := Distinct.eq hd hm he (heq.trans hh.symm)
  subst this
  simp [hn] at hne

/-- C31: in particular for every ciphertext and signature made with the revoked key. -/
theorem C31_outputs_rejected (env : Env) (fs : FS) (l : Loc) (ks : KeySet) (h : Holds P none fs l ks)
    (hd : ks.Distinct P) (n : Int) (hok : (Revoke P env (some l) n fs).1 = .ok ()) (e : Entry)
    (he : e ∈ ks.entries) (hn : e.num = n) (d' : Dir)
    (hd' : (Revoke P env (some l) n).after fs l = some d') (cls : CzarClass) (c : Czar)
    (hc : Czar.init P cls (FileReader d') = .ok c) (maker : Czar) (hm : Loaded P maker) (e' : Entry)
    (hp : maker.keySet.primaries = [e']) (hk : e'.key = e.key) (rnd : Rand) (m out : Bytes) :
    (maker.Encrypt P rnd m none = .ok out → c.Decrypt P out none = .error .keyNotFound) ∧
    (maker.Sign P rnd m none = .ok out → c.Verify P m out none = .error .keyNotFound) := by
  have key : (∃ x id rest, x ∈ maker.keySet.entries ∧ x.status = .PRIMARY ∧ KeyId P.sha1 x.key id ∧ id.length = 4 ∧
      out = header id ++ rest) → c.Decrypt P out none = .error .keyNotFound ∧
      c.Verify P m out none = .error .keyNotFound := by
    rintro ⟨x, id, rest, hx, hs, hid, -, rfl⟩
    have : x ∈ maker.keySet.primaries := List.mem_filter.mpr ⟨hx, by simp [hs]⟩
    rw [hp, List.mem_singleton] at this
    subst this
    rw [hk] at hid
    exact C31_unknown_afterwards P env fs l ks h hd n hok e he hn id hid d' hd' cls c hc _ rest m none rfl
  exact ⟨fun h => (key (C21_encrypt_header P maker hm rnd m out h)).1,
    fun h => (key (C21_sign_header P maker hm rnd m out h)).2⟩

/-- C31: `GenericKeyczar.Revoke` alone does not do this: `Write` on the same object still writes the
revoked key's file (and metadata without it). -/
theorem C31_object_still_writes (c : Czar) (hc : Loaded P c) (n : Int) (c' : Czar) (hr : c.Revoke n = (.ok (), c'))
    (env : Env) (l : Loc) (fs : FS) (hl : (fs l).isSome = true) :
    ∃ e, e ∈ c.keySet.entries ∧ e.num = n ∧ (∀ x ∈ c'.keySet.entries, x.num ≠ n) ∧
      (c'.Write P env l none fs).1 = .ok () ∧
      ∃ d, (c'.Write P env l none).after fs l = some d ∧ d (.key n) = some (dumps e.key.json) ∧
        d .metaFile = some (dumps (metaDoc { c'.keySet.view with encrypted := .bool false })) := by
  have hspec := Czar.Revoke_spec hc.inv n
  have hi : c'.Inv P := by have := Op.run_inv hc.inv (.revoke n); rwa [show (Op.revoke n).run P c = c.Revoke n from rfl, hr] at this
  have hw : c'.keySet.view.WF := by
    have := run_wf hc.inv hc.loadable.view_wf (.revoke n)
    rwa [show (Op.revoke n).run P c = c.Revoke n from rfl, hr] at this
  have hok := Czar.Write_plain (P := P) (env := env) hi hw hl
  cases hs : c.keySet.revoke n with
  | none => rw [hs] at hspec; rw [hspec] at hr; cases hr
  | some ks =>
    rw [hs] at hspec
    obtain ⟨m, h1, -, h2, -⟩ := hspec
    rw [hr] at h1
    cases h1
    unfold KeySet.revoke at hs
    split at hs
    · cases hs
    · next e he =>
      split at hs
      · cases hs
        unfold KeySet.find at he
        have hmem := List.mem_of_find?_eq_some he
        have hnum := List.find?_some he
        replace hnum : e.num = n := of_decide_eq_true hnum
        obtain ⟨p, hp, hpe⟩ := List.mem_map.mp hmem
        have ho := hc.inv.meta_mem p hp
        obtain ⟨d, hd⟩ := Option.isSome_iff_exists.mp hl
        obtain ⟨k, b, hk, hb, ht⟩ := Czar.Write_file (env := env) hi hw (enc := none) hl hok (o := p.2) ho
        have hke : k = e.key := by
          rw [← hpe]
          show k = (assocGet c.vkeys p.2).getD _
          rw [show assocGet c.vkeys p.2 = some k from hk]
          rfl
        have hnn : (c.heap.obj p.2).num = n := by
          rw [hc.inv.meta_num p hp, ← hnum, ← hpe]
          rfl
        refine ⟨e, hmem, hnum, ?_, hok, _, by unfold Cmd.after; rw [applyAll_at, hd]; rfl, ?_, ?_⟩
        · intro x hx
          rw [h2] at hx
          simpa using (List.mem_filter.mp hx).2
        · have ht' : touch (({ c with metadata := m } : Czar).Write P env l none fs).2 l (.key n) = some (some b) := by
            rw [← hnn]; exact ht
          rw [dirAfter, ht', ← hke]
          have hb : Except.ok (dumps k.json) = (Except.ok b : Py Bytes) := hb
          cases hb
          rfl
        · obtain ⟨bs, h3, -⟩ := Czar.Write_spec (env := env) hi hw (l := l) none (fs := fs) hl
          rw [dirAfter, h3, metaFile_touch]
          rfl
      · cases hs

example : (Revoke realPrims Ex.env (some [104]) 1 (Ex.disk .INACTIVE .PRIMARY)).1 = .ok () := by decide +kernel
example : (Czar.init realPrims .generic (Ex.hmac .INACTIVE .PRIMARY)).map (fun c => Ex.isOk (c.Revoke 1).1) = .ok true := by
  decide +kernel

/-! ## C32 -/

/-- the crypter, if any, can encrypt everything and decrypt what it encrypted -/
def GoodCrypter (rd : Option Czar) : Prop :=
  Opens P rd rd ∧ ∀ cr, rd = some cr → ∀ rnd m, ∃ out, cr.Encrypt P rnd m (some Base64WSEncode) = .ok out

/-- commands considered: anything in other directories; in `l` everything but exports into it, and
keys are added with the crypter of the key set -/
def Proper (l : Loc) (rd : Option Czar) (k : KCmd) : Prop :=
  (∀ env loc, k ≠ .pubkey env loc (some l)) ∧
  ∀ env status cr size, k = .addkey env (some l) status cr size → cr = rd

/-- some command of the history revoked version `n` -/
def RevokedIn (l : Loc) (n : Int) : FS → List KCmd → Prop
  | _, [] => False
  | fs, k :: t => (∃ env, k = .revoke env (some l) n ∧ (k.run P fs).1 = .ok ()) ∨
      RevokedIn l n ((k.run P).after fs) t

variable {P}

/-- every entry but those with numbers in `out` is kept with its number and key -/
def Keeps (out : Int → Prop) (ks ks' : KeySet) : Prop :=
  ks'.purpose = ks.purpose ∧ ks'.type = ks.type ∧
  ∀ e ∈ ks.entries, out e.num ∨ ∃ e' ∈ ks'.entries, e'.num = e.num ∧ e'.key = e.key

theorem Keeps.mapStatus (out : Int → Prop) (ks : KeySet) (f : Entry → KeyStatus) : Keeps out ks (ks.mapStatus f) :=
  ⟨rfl, rfl, fun e he => .inr ⟨{ e with status := f e }, List.mem_map.mpr ⟨e, he, rfl⟩, rfl, rfl⟩⟩

theorem Keeps.promote {out : Int → Prop} {ks ks' : KeySet} {n : Int} (h : ks.promote n = some ks') : Keeps out ks ks' := by
  unfold KeySet.promote at h
  split at h
  · cases h
  · split at h <;> cases h <;> exact Keeps.mapStatus _ _ _

theorem Keeps.demote {out : Int → Prop} {ks ks' : KeySet} {n : Int} (h : ks.demote n = some ks') : Keeps out ks ks' := by
  unfold KeySet.demote at h
  split at h
  · cases h
  · split at h <;> cases h <;> exact Keeps.mapStatus _ _ _

theorem Keeps.revoke {ks ks' : KeySet} {n : Int} (h : ks.revoke n = some ks') : Keeps (· = n) ks ks' := by
  unfold KeySet.revoke at h
  split at h
  · cases h
  · split at h
    · cases h
      refine ⟨rfl, rfl, fun e he => ?_⟩
      by_cases hn : e.num = n
      · exact .inl hn
      · exact .inr ⟨e, List.mem_filter.mpr ⟨he, by simpa using hn⟩, rfl, rfl⟩
    · cases h

theorem Keeps.add (out : Int → Prop) (ks : KeySet) (n : Int) (s : KeyStatus) (k : Key) : Keeps out ks (ks.add n s k) := by
  unfold KeySet.add
  split
  · refine ⟨rfl, rfl, fun e he => .inr ⟨{ e with status := if e.status = .PRIMARY then .ACTIVE else e.status }, ?_, rfl, rfl⟩⟩
    exact List.mem_append_left _ (List.mem_map.mpr ⟨e, he, rfl⟩)
  · exact ⟨rfl, rfl, fun e he => .inr ⟨e, List.mem_append_left _ he, rfl, rfl⟩⟩

theorem Keeps.stored {out : Int → Prop} {ks ks' : KeySet} (h : Keeps out ks ks') (b : Bool) :
    Keeps out ks (ks'.stored b) := h

theorem Keeps.refl (out : Int → Prop) (ks : KeySet) : Keeps out ks ks :=
  ⟨rfl, rfl, fun e he => .inr ⟨e, he, rfl, rfl⟩⟩

theorem _root_.Verif.Holds.not_plain {rd : Option Czar} {fs : FS} {l : Loc} {ks : KeySet} (h : Holds P rd fs l ks)
    (he : ks.encrypted.truthy = true) (c : Czar) : load P none l fs ≠ .ok c := by
  intro hc
  obtain ⟨d, hd, hg, -⟩ := Holds_iff.mp h
  obtain ⟨d', hd', hg', henc, -⟩ := Holds_iff.mp ⟨c, hc, rfl⟩
  rw [hd] at hd'
  cases hd'
  obtain ⟨⟨text, kmd, hp, h1, h2, h3⟩, -⟩ := hg
  obtain ⟨⟨text', kmd', hp', h1', h2', h3'⟩, -⟩ := hg'
  rw [dirReader_meta] at h1 h1'
  rw [h1] at h1'
  cases h1'
  rw [h2] at h2'
  cases h2'
  have : ks.encrypted = c.keySet.encrypted := by
    have := h3.symm.trans h3'
    exact congrArg KeySet.View.encrypted this
  rw [this] at he
  exact absurd (henc he) (by simp)

theorem _root_.Verif.Holds.meta_exists {rd : Option Czar} {fs : FS} {l : Loc} {ks : KeySet} (h : Holds P rd fs l ks) :
    ∃ d text, fs l = some d ∧ d .metaFile = some text := by
  obtain ⟨d, hd, ⟨⟨text, kmd, hp, h1, -⟩, -⟩, -⟩ := Holds_iff.mp h
  rw [dirReader_meta, ReadFile] at h1
  cases hm : d .metaFile with
  | none => rw [hm] at h1; cases h1
  | some t => exact ⟨d, t, hd, hm⟩

/-- with a good crypter a failing addkey has no effect -/
theorem manage_good {env : Env} {l : Loc} {rd : Option Czar} (hg : GoodCrypter P rd) {bad : Bool} {op : Op} {fs : FS}
    {e : PyErr} (h : (manage P env l rd bad op fs).1 = .error e) : (manage P env l rd bad op fs).2 = [] := by
  unfold manage at h ⊢
  cases hc : load P rd l fs with
  | error e => rfl
  | ok c =>
    simp only
    cases bad with
    | true => rfl
    | false =>
      simp only [hc, Bool.false_eq_true, if_false] at h ⊢
      cases hr : (op.run P c).1 with
      | error e => rfl
      | ok u =>
        rw [hr] at h
        simp only at h
        have hl := load_loaded hc
        obtain ⟨bs, -, -, ⟨h3, -⟩ | ⟨x, o, k', -, -, -, h3⟩⟩ := Czar.Write_spec (env := env) (Op.run_inv hl.inv op)
          (run_wf hl.inv hl.loadable.view_wf op) (l := l) rd (fs := fs) (load_isSome hc)
        · rw [h3] at h; cases h
        · cases rd with
          | none => cases h3
          | some cr =>
            obtain ⟨out, ho⟩ := hg.2 cr rfl (env.enc o) (dumps k'.json)
            rw [show keyText P (some cr) (env.enc o) k' = cr.Encrypt P (env.enc o) (dumps k'.json) (some Base64WSEncode)
              from rfl, ho] at h3
            cases h3

/-- one command -/
theorem KCmd.keeps {k : KCmd} {fs : FS} {l : Loc} {rd : Option Czar} {ks : KeySet} (hg : GoodCrypter P rd)
    (hk : Proper l rd k) (h : Holds P rd fs l ks) (hd : ks.Distinct P)
    (he : rd.isSome = true → ks.encrypted.truthy = true) :
    ∃ ks', Holds P rd ((k.run P).after fs) l ks' ∧ ks'.Distinct P ∧ (rd.isSome = true → ks'.encrypted.truthy = true) ∧
      Keeps (fun n => ∃ env, k = .revoke env (some l) n ∧ (k.run P fs).1 = .ok ()) ks ks' := by
  have same : (k.run P).after fs l = fs l → ∃ ks', Holds P rd ((k.run P).after fs) l ks' ∧ ks'.Distinct P ∧
      (rd.isSome = true → ks'.encrypted.truthy = true) ∧
      Keeps (fun n => ∃ env, k = .revoke env (some l) n ∧ (k.run P fs).1 = .ok ()) ks ks' := by
    intro hs
    refine ⟨ks, ?_, hd, he, Keeps.refl _ _⟩
    obtain ⟨c, h1, h2⟩ := h
    exact ⟨c, by unfold load at h1 ⊢; rw [hs]; exact h1, h2⟩
  have noeff : (k.run P fs).2 = [] → (k.run P).after fs l = fs l := by
    intro h; unfold Cmd.after; rw [h]; rfl
  by_cases ht : k.target = some l
  swap
  · exact same (KCmd.after_other ht)
  -- status changes without crypter
  have plain : k.crypter = none →
      (∀ nm p a, k ≠ .create (some l) nm p a) → k.loc = some l →
      (rd = none → k.run P fs = (.error .keyczarError, []) ∨ ∃ ks',
        Holds P none ((k.run P).after fs) l { ks' with encrypted := .bool false } ∧ ks'.Distinct P ∧
            Keeps (fun n => ∃ env, k = .revoke env (some l) n ∧ (k.run P fs).1 = .ok ()) ks ks') →
      ∃ ks', Holds P rd ((k.run P).after fs) l ks' ∧ ks'.Distinct P ∧
      (rd.isSome = true → ks'.encrypted.truthy = true) ∧
      Keeps (fun n => ∃ env, k = .revoke env (some l) n ∧ (k.run P fs).1 = .ok ()) ks ks' := by
    intro hc hnc hloc hspec
    cases rd with
    | some cr =>
      obtain ⟨e, her⟩ := KCmd.run_no_load (P := P) (fs := fs) hloc hnc (by rw [hc]; exact h.not_plain (he rfl))
      exact same (noeff (by rw [her]))
    | none =>
      rcases hspec rfl with hs | ⟨ks', h2, h3, h4⟩
      · exact same (noeff (by rw [hs]))
      · exact ⟨_, h2, h3, by simp, h4⟩
  cases k with
  | create loc name purpose asym =>
    cases ht
    obtain ⟨d, text, h1, h2⟩ := h.meta_exists
    exact same (noeff (by simp only [KCmd.run]; rw [C36_never_overwrites fs l d text h1 h2]))
  | pubkey env loc dest => cases ht; exact absurd rfl (hk.1 env loc)
  | addkey env loc status cr size =>
    cases ht
    cases hk.2 env status cr size rfl
    cases hm : (manage P env l rd false (.add env.gen env.fuel status (if size = -1 then none else some size)) fs).1 with
    | error e =>
      refine same (noeff ?_)
      simp only [KCmd.run, AddKey_eq]
      exact manage_good hg hm
    | ok u =>
      obtain ⟨c, hc, hr, hh, -⟩ := manage_holds hg.1 hm
      obtain ⟨c', hc', rfl⟩ := h
      rw [hc] at hc'
      cases hc'
      have hl := load_loaded hc
      refine ⟨(Op.run P c (.add env.gen env.fuel status (if size = -1 then none else some size))).2.keySet.stored rd.isSome,
        by simp only [KCmd.run, AddKey_eq]; exact hh,
        run_distinct P hl.inv hd (.add env.gen env.fuel status (if size = -1 then none else some size)), ?_, ?_⟩
      · intro hs; rw [hs]; trivial
      · refine Keeps.stored ?_ _
        cases ha : c.AddVersion P env.gen env.fuel status (if size = -1 then none else some size) with
        | mk r c' =>
          simp only [Op.run, ha] at hr ⊢
          subst hr
          obtain ⟨key, hash, j, -, -, -, -, h1, -⟩ := AddVersion_ok hl.inv ha
          rw [h1]
          exact Keeps.add _ _ _ _ _
  | promote env loc n =>
    cases ht
    refine plain rfl (by simp) rfl fun hrd => ?_
    subst hrd
    have := C38_promote P env fs l ks h n
    split at this
    · exact .inl this
    · next ks' hks =>
      refine .inr ⟨ks', this.2, ?_, ?_⟩
      · split at hks
        · cases hks
        · rw [Distinct_keys] at hd ⊢
          rw [promote_keys hks]; exact hd
      · split at hks
        · cases hks
        · exact Keeps.promote hks
  | demote env loc n =>
    cases ht
    refine plain rfl (by simp) rfl fun hrd => ?_
    subst hrd
    have := C38_demote P env fs l ks h n
    split at this
    · exact .inl this
    · next ks' hks =>
      refine .inr ⟨ks', this.2, ?_, ?_⟩
      · split at hks
        · cases hks
        · rw [Distinct_keys] at hd ⊢
          unfold KeySet.demote at hks
          split at hks
          · cases hks
          · split at hks <;> cases hks <;> (rw [keys_mapStatus]; exact hd)
      · split at hks
        · cases hks
        · exact Keeps.demote hks
  | revoke env loc n =>
    cases ht
    refine plain rfl (by simp) rfl fun hrd => ?_
    subst hrd
    have := C38_revoke P env fs l ks h n
    split at this
    · exact .inl this
    · next ks' hks =>
      refine .inr ⟨ks', this.2.1, ?_, ?_⟩
      · split at hks
        · cases hks
        · unfold KeySet.revoke at hks
          split at hks
          · cases hks
          · split at hks
            · cases hks
              exact List.Pairwise.filter _ hd
            · cases hks
      · split at hks
        · cases hks
        · obtain ⟨a, b, hkeep⟩ := Keeps.revoke hks
          refine ⟨a, b, fun e hem => ?_⟩
          rcases hkeep e hem with hn | hx
          · exact .inl ⟨env, by rw [hn], this.1⟩
          · exact .inr hx

variable (P)

/-- C32: after any history of proper commands the directory still loads, with distinct identifiers,
and contains every version that was not revoked, with the same number and key. -/
theorem C32_versions_survive (l : Loc) (rd : Option Czar) (hg : GoodCrypter P rd) (hs : List KCmd)
    (hp : ∀ k ∈ hs, Proper l rd k) (fs : FS) (ks : KeySet) (h : Holds P rd fs l ks) (hd : ks.Distinct P)
    (he : rd.isSome = true → ks.encrypted.truthy = true) :
    ∃ ks', Holds P rd (history P fs hs) l ks' ∧ ks'.Distinct P ∧ ks'.purpose = ks.purpose ∧ ks'.type = ks.type ∧
      ∀ e ∈ ks.entries, RevokedIn P l e.num fs hs ∨ ∃ e' ∈ ks'.entries, e'.num = e.num ∧ e'.key = e.key := by
  induction hs generalizing fs ks with
  | nil => exact ⟨ks, h, hd, rfl, rfl, fun e he => .inr ⟨e, he, rfl, rfl⟩⟩
  | cons k t ih =>
    obtain ⟨ks1, h1, h2, h3, h4, h5, h6⟩ := KCmd.keeps hg (hp k (by simp)) h hd he
    obtain ⟨ks', g1, g2, g3, g4, g5⟩ := ih (fun k' hk' => hp k' (by simp [hk'])) _ ks1 h1 h2 h3
    refine ⟨ks', g1, g2, g3.trans h4, g4.trans h5, fun e hem => ?_⟩
    rcases h6 e hem with hr | ⟨e1, he1, hn1, hk1⟩
    · exact .inl (.inl hr)
    · rcases g5 e1 he1 with hr | ⟨e2, he2, hn2, hk2⟩
      · rw [hn1] at hr; exact .inl (.inr hr)
      · exact .inr ⟨e2, he2, hn2.trans hn1, hk2.trans hk1⟩

variable {P} in
/-- what is loaded from a directory that holds `ks` -/
theorem _root_.Verif.Holds.loaded {rd : Option Czar} {fs : FS} {l : Loc} {ks : KeySet} (h : Holds P rd fs l ks) {cls : CzarClass}
    {d : Dir} {c : Czar} (hd : fs l = some d) (hc : Czar.init P cls (readerFor P rd (FileReader d)) = .ok c) :
    c.keySet = ks := by
  obtain ⟨d', hd', hg, -⟩ := Holds_iff.mp h
  rw [hd] at hd'
  cases hd'
  obtain ⟨-, -, h3, -⟩ := Czar.init_ok hc
  exact Reader.Gives_unique h3 hg

/-- C32 (AES): a ciphertext made by an object loaded from the directory is decrypted to the message by
every object loaded from it after any history that does not revoke the version that made it. -/
theorem C32_aes (l : Loc) (rd : Option Czar) (hg : GoodCrypter P rd) (hs : List KCmd)
    (hp : ∀ k ∈ hs, Proper l rd k) (fs : FS) (d : Dir) (hd : fs l = some d) (cls : CzarClass) (c : Czar)
    (hc : Czar.init P cls (readerFor P rd (FileReader d)) = .ok c) (hdist : c.keySet.Distinct P)
    (he : rd.isSome = true → c.keySet.encrypted.truthy = true) (e : Entry) (k : AesKey)
    (hprim : c.keySet.primaries = [e]) (hk : e.key = .aes k)
    (enc : Option (Bytes → Bytes)) (dec : Option (Bytes → Py Bytes)) (hinv : Inverse enc dec)
    (rnd : Rand) (m out : Bytes) (ho : c.Encrypt P rnd m enc = .ok out) (hnr : ¬ RevokedIn P l e.num fs hs)
    (d' : Dir) (hd' : history P fs hs l = some d') (cls' : CzarClass) (c' : Czar)
    (hc' : Czar.init P cls' (readerFor P rd (FileReader d')) = .ok c') : c'.Decrypt P out dec = .ok m := by
  obtain ⟨hi, hf, hgv, hlo, hacc, henc⟩ := Czar.init_ok hc
  have hh : Holds P rd fs l c.keySet := Holds_iff.mpr ⟨d, hd, hgv, by
    have := henc; rwa [show readerFor P rd (FileReader d) = dirReader P rd d from rfl, dirReader_encrypted] at this,
    hlo.valid.primary⟩
  obtain ⟨ks', g1, g2, -, -, g5⟩ := C32_versions_survive P l rd hg hs hp fs _ hh hdist he
  rcases g5 e (primary_mem hprim).1 with hr | ⟨e', he', -, hk'⟩
  · exact absurd hr hnr
  · have hks := g1.loaded hd' hc'
    rw [← hks] at g2 he'
    exact C22_aes_round_trip P c c' ⟨_, _, hc⟩ ⟨_, _, hc'⟩ g2 e e' k hprim hk he' (hk'.trans hk) enc dec hinv rnd m out ho

/-- C32 (signatures): after such a history verification gives for every old signature what the old
version's own key gives for it; in particular HMAC and RSA signatures are accepted (C13, C50). -/
theorem C32_signatures (l : Loc) (rd : Option Czar) (hg : GoodCrypter P rd) (hs : List KCmd)
    (hp : ∀ k ∈ hs, Proper l rd k) (fs : FS) (d : Dir) (hd : fs l = some d) (cls : CzarClass) (c : Czar)
    (hc : Czar.init P cls (readerFor P rd (FileReader d)) = .ok c) (hdist : c.keySet.Distinct P)
    (he : rd.isSome = true → c.keySet.encrypted.truthy = true) (e : Entry)
    (hprim : c.keySet.primaries = [e])
    (enc : Option (Bytes → Bytes)) (dec : Option (Bytes → Py Bytes)) (hinv : Inverse enc dec)
    (rnd : Rand) (m out : Bytes) (ho : c.Sign P rnd m enc = .ok out) (hnr : ¬ RevokedIn P l e.num fs hs)
    (d' : Dir) (hd' : history P fs hs l = some d') (cls' : CzarClass) (c' : Czar)
    (hc' : Czar.init P cls' (readerFor P rd (FileReader d')) = .ok c') :
    (∃ sig, e.key.Sign P rnd (plainPayload m) = .ok sig ∧
      c'.Verify P m out dec = e.key.Verify P (plainPayload m) sig) ∧
    ((∃ k, e.key = .hmac k) ∨ (∃ k, e.key = .rsaPriv k ∧ UsableRsa k) → c'.Verify P m out dec = .ok true) := by
  obtain ⟨hi, hf, hgv, hlo, hacc, henc⟩ := Czar.init_ok hc
  have hh : Holds P rd fs l c.keySet := Holds_iff.mpr ⟨d, hd, hgv, by
    have := henc; rwa [show readerFor P rd (FileReader d) = dirReader P rd d from rfl, dirReader_encrypted] at this,
    hlo.valid.primary⟩
  obtain ⟨ks', g1, g2, -, -, g5⟩ := C32_versions_survive P l rd hg hs hp fs _ hh hdist he
  rcases g5 e (primary_mem hprim).1 with hr | ⟨e', he', -, hk'⟩
  · exact absurd hr hnr
  · have hks := g1.loaded hd' hc'
    rw [← hks] at g2 he'
    have hl : Loaded P c := ⟨_, _, hc⟩
    have hl' : Loaded P c' := ⟨_, _, hc'⟩
    constructor
    · obtain ⟨id, hid⟩ := hl.keyId (primary_mem hprim).1
      have ho' := ho
      rw [Sign_eq P hl hprim hid] at ho'
      cases hsg : e.key.Sign P rnd (plainPayload m) with
      | error x => rw [hsg] at ho'; cases ho'
      | ok sig =>
        obtain ⟨out', h1, h2⟩ := sign_verify P hl hl' g2 hprim he' (by rw [hk']; exact fun _ h => h) hinv hsg
        rw [ho] at h1
        cases h1
        exact ⟨sig, rfl, by rw [h2, hk']⟩
    · rintro (⟨k, hk⟩ | ⟨k, hk, hu⟩)
      · obtain ⟨out', h1, h2⟩ := C42_hmac P c c' hl hl' g2 e e' k hprim hk he' (hk'.trans hk) enc dec hinv rnd m
        rw [ho] at h1
        cases h1
        exact h2
      · obtain ⟨out', h1, h2⟩ := C42_rsa P c c' hl hl' g2 e e' k hu hprim hk he' (.inl (hk'.trans hk)) enc dec hinv rnd m
        rw [ho] at h1
        cases h1
        exact h2

/-- C32: a loaded AES set with distinct identifiers and a usable primary key is a good crypter. -/
theorem C32_good_crypter (cr : Czar) (h : Loaded P cr) (hd : cr.keySet.Distinct P) (e : Entry) (k : AesKey)
    (kb hb : Bytes) (hp : cr.keySet.primaries = [e]) (hk : e.key = .aes k) (hu : UsableAes k kb hb) :
    GoodCrypter P (some cr) :=
  ⟨C33_aes_opens P cr cr h h hd e e k hp hk (primary_mem hp).1 hk, fun cr' hcr rnd m => by
    cases hcr
    exact C22_aes_encrypts P cr h e k kb hb hp hk hu (some Base64WSEncode) rnd m⟩

/-- example: testdata/aes through a history of rotations (two of them failing) still decrypts a
ciphertext of the old primary version 2 -/
example : (Czar.init realPrims .crypter Ex.aes).map (fun c =>
    let fs := history realPrims (Ex.disk .ACTIVE .PRIMARY) [.addkey Ex.env (some [97]) .PRIMARY none (-1),
      .promote Ex.env' (some [97]) 7, .demote Ex.env (some [97]) 2, .revoke Ex.env (some [97]) 1]
    (c.Encrypt realPrims Ex.rnd [1, 2, 3] none).bind fun out =>
      (load realPrims none [97] fs).bind fun c' => (c'.Decrypt realPrims out none).map fun m =>
        (m, c'.keySet.entries.map fun e => (e.num, e.status))) =
    .ok (.ok ([1, 2, 3], [(1, .ACTIVE), (2, .INACTIVE), (3, .PRIMARY)])) := by decide +kernel

end Verif.Props
