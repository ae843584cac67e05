import Verif.Props.Concurrent
import Verif.Props.Crypters
import Verif.Props.History
/-
C75: applications that load a key set while keyczart commands run on it.
-/
namespace Verif.Props
open Verif Spec
variable (P : Prims)

section
variable {P} {l : Loc} {rd : Option Czar} {ks : KeySet} {lim : Int → Prop}

/-- what an application may find has a good past -/
theorem Seen_past (h : Holds P rd fs l ks) (he : ks.encrypted.truthy = rd.isSome) (hg : GoodCrypter P rd)
    {cmds : List KCmd} (hc : ∀ k ∈ cmds, Allowed l rd lim k) (hlim : ∀ e ∈ ks.entries, lim e.num) {seen : FS}
    (hs : World.Seen P ⟨fs, cmds.map Proc.waiting⟩ seen) :
    ∃ past : List FS, (∀ g ∈ past, (∃ w, World.Steps P ⟨fs, cmds.map Proc.waiting⟩ w ∧ w.fs = g) ∧
      ∃ d, g l = some d ∧ DirGood rd ks lim P d) ∧ Mixed past seen := by
  obtain ⟨past, h1, h2⟩ := hs
  refine ⟨past, fun g hgm => ⟨h1 g hgm, ?_⟩, h2⟩
  obtain ⟨w, hw, rfl⟩ := h1 g hgm
  refine ((WorldGood.start h he ?_ hlim).steps hg hw).dirGood
  intro p hp
  obtain ⟨k, hk, rfl⟩ := List.mem_map.mp hp
  exact ⟨k, rfl, hc k hk⟩

/-- loading what an application has found -/
theorem init_mixed {past : List FS} (hp : ∀ g ∈ past, ∃ d, g l = some d ∧ DirGood rd ks lim P d) {seen : FS} (hm : Mixed past seen)
    {d : Dir} (hd : seen l = some d) {cls : CzarClass} {c : Czar}
    (hini : Czar.init P cls (readerFor P rd (FileReader d)) = .ok c) :
    ViewGood rd ks lim c.keySet.view ∧ (∃ g ∈ past, ∃ d', g l = some d' ∧ MetaIs d' c.keySet.view) ∧
      ∀ e ∈ ks.entries, ∃ e' ∈ c.keySet.entries, e'.num = e.num ∧ e'.key = e.key := by
  have hini : Czar.init P cls (dirReader P rd d) = .ok c := hini
  obtain ⟨-, -, hg, -⟩ := Czar.init_ok hini
  have hmx := hm l
  rw [hd] at hmx
  have hv : ViewGood rd ks lim c.keySet.view ∧ ∃ g ∈ past, ∃ d', g l = some d' ∧ MetaIs d' c.keySet.view := by
    obtain ⟨g, hgp, d', hg1, hg2⟩ := hmx .metaFile
    obtain ⟨d'', hg3, ⟨v, ⟨text, kmd, h, t1, t2, t3⟩, hv⟩, -⟩ := hp g hgp
    rw [hg1] at hg3; cases hg3
    obtain ⟨⟨text', kmd', h', s1, s2, s3⟩, -⟩ := hg
    rw [dirReader_meta, ReadFile, hg2, t1] at s1
    cases s1
    rw [t2] at s2; cases s2
    exact ⟨by rw [← s3, t3]; exact hv, g, hgp, d', hg1, text, kmd, h, t1, t2, s3⟩
  refine ⟨hv.1, hv.2, fun e he => ?_⟩
  obtain ⟨x, hx, hxn⟩ := List.mem_map.mp (hv.1.old e he)
  obtain ⟨e', he', rfl⟩ := List.mem_map.mp hx
  have hxn : e'.num = e.num := hxn
  refine ⟨e', he', hxn, ?_⟩
  obtain ⟨g, hgp, d', hg1, hg2⟩ := hmx (.key e.num)
  obtain ⟨d'', hg3, -, hgood⟩ := hp g hgp
  rw [hg1] at hg3; cases hg3
  have h1 := hg.2 e' he'
  rw [hxn, Delivers_congr hg2, show c.keySet.type = ks.type from hv.1.type] at h1
  exact Delivers_unique h1 (hgood e he)

/-- commands that neither add nor remove a version in the directory -/
def Steady (l : Loc) (rd : Option Czar) (k : KCmd) : Prop :=
  Harmless l rd k ∧ ∀ env status cr size, k ≠ .addkey env (some l) status cr size

/-- C75: while create, promote, demote, exports and commands in other directories run, loading the key set always
succeeds, at whatever moments the files are read.  The application gets all versions with their keys and no others. -/
theorem C75_loads (fs : FS) (h : Holds P rd fs l ks) (he : ks.encrypted.truthy = rd.isSome) (hg : GoodCrypter P rd)
    (cmds : List KCmd) (hc : ∀ k ∈ cmds, Steady l rd k) (seen : FS)
    (hs : World.Seen P ⟨fs, cmds.map Proc.waiting⟩ seen) (cls : CzarClass) (hp : ks.purpose ∈ purposes cls) :
    ∃ d c, seen l = some d ∧ Czar.init P cls (readerFor P rd (FileReader d)) = .ok c ∧
      c.keySet.purpose = ks.purpose ∧ c.keySet.type = ks.type ∧
      (∀ e ∈ ks.entries, ∃ e' ∈ c.keySet.entries, e'.num = e.num ∧ e'.key = e.key) ∧
      ∀ e' ∈ c.keySet.entries, ∃ e ∈ ks.entries, e'.num = e.num ∧ e'.key = e.key := by
  obtain ⟨past, hpast, hm⟩ := Seen_past (lim := fun n => ∃ e ∈ ks.entries, e.num = n) h he hg
    (fun k hk => ⟨(hc k hk).1, .inr (hc k hk).2⟩) (fun e he => ⟨e, he, rfl⟩) hs
  have hgood : ∀ g ∈ past, ∃ d, g l = some d ∧ DirGood rd ks (fun n => ∃ e ∈ ks.entries, e.num = n) P d := fun g hgm => (hpast g hgm).2
  have hmx := hm l
  cases hd : seen l with
  | none =>
    rw [hd] at hmx
    obtain ⟨g, hgp, hg1⟩ := hmx
    obtain ⟨d, hg2, -⟩ := hgood g hgp
    rw [hg1] at hg2; cases hg2
  | some d =>
    rw [hd] at hmx
    -- the metadata
    obtain ⟨g, hgp, d', hg1, hg2⟩ := hmx .metaFile
    obtain ⟨d'', hg3, ⟨v, ⟨text, kmd, hh, t1, t2, t3⟩, hv⟩, -⟩ := hgood g hgp
    rw [hg1] at hg3; cases hg3
    -- the keys
    have hkey : ∀ e ∈ ks.entries, (dirReader P rd d).Delivers P ks.type e.num e.key := by
      intro e hem
      obtain ⟨g, hgp, d', hg1, hg2⟩ := hmx (.key e.num)
      obtain ⟨d'', hg3, -, hk⟩ := hgood g hgp
      rw [hg1] at hg3; cases hg3
      rw [Delivers_congr hg2]
      exact hk e hem
    have hdel : ∀ n ∈ v.versions.map KeyVersion.num, ∃ k, (dirReader P rd d).Delivers P ks.type n k := by
      intro n hn
      obtain ⟨e, hem, rfl⟩ := hv.only n hn
      exact ⟨_, hkey e hem⟩
    classical
    let key : Int → Key := fun n =>
      if hn : ∃ k, (dirReader P rd d).Delivers P ks.type n k then hn.choose else .hmac ⟨[], 0⟩
    have hkd : ∀ n ∈ v.versions.map KeyVersion.num, (dirReader P rd d).Delivers P ks.type n (key n) := by
      intro n hn
      have := hdel n hn
      simp only [key, dif_pos this]
      exact this.choose_spec
    let ks' : KeySet := ⟨v.name, v.purpose, v.type, v.encrypted, v.versions.map fun x => ⟨x.num, x.status, x.exportable, key x.num⟩⟩
    have hview : ks'.view = v := by
      simp only [ks', KeySet.view, List.map_map]
      show KeySet.View.mk v.name v.purpose v.type v.encrypted (v.versions.map fun x => x) = v
      rw [List.map_id']
    have hgives : (dirReader P rd d).Gives P ks' := by
      refine ⟨⟨text, kmd, hh, ?_, t2, ?_⟩, ?_⟩
      · rw [dirReader_meta, ReadFile, hg2, t1]
      · rw [hview, t3]
      · intro e hem
        obtain ⟨x, hx, rfl⟩ := List.mem_map.mp hem
        show (dirReader P rd d).Delivers P v.type x.num (key x.num)
        rw [hv.type]
        exact hkd _ (List.mem_map.mpr ⟨x, hx, rfl⟩)
    obtain ⟨c, hini, hks⟩ := C19_accepted_loads P cls (dirReader P rd d) ks' hgives
      (by rw [show ks'.purpose = ks.purpose from hv.purpose]; exact hp)
      (fun ht => by rw [dirReader_encrypted, ← hv.enc]; exact ht)
      (by rw [← primaries_view, hview]; exact hv.primary)
    refine ⟨d, c, rfl, hini, by rw [hks]; exact hv.purpose, by rw [hks]; exact hv.type, ?_, ?_⟩
    · exact (init_mixed hgood hm hd hini).2.2
    · intro e' he'
      rw [hks] at he'
      obtain ⟨x, hx, rfl⟩ := List.mem_map.mp he'
      have hxm : x.num ∈ v.versions.map KeyVersion.num := List.mem_map.mpr ⟨x, hx, rfl⟩
      obtain ⟨e, hem, hen⟩ := hv.only x.num hxm
      refine ⟨e, hem, hen.symm, ?_⟩
      have h1 := hkd _ hxm
      rw [← hen] at h1
      show key x.num = e.key
      rw [← hen]
      exact Delivers_unique h1 (hkey e hem)

/-- the same keys under the same numbers: identifiers stay distinct -/
theorem Distinct_of_same {ks ks' : KeySet} (hd : ks.Distinct P) (hn : (ks'.entries.map Entry.num).Nodup)
    (h : ∀ e' ∈ ks'.entries, ∃ e ∈ ks.entries, e'.num = e.num ∧ e'.key = e.key) : ks'.Distinct P := by
  unfold Spec.KeySet.Distinct
  rw [List.Nodup, List.pairwise_map] at hn
  refine hn.imp_of_mem fun {a b} ha hb hab heq => ?_
  obtain ⟨a', ha', hna, hka⟩ := h a ha
  obtain ⟨b', hb', hnb, hkb⟩ := h b hb
  rw [hka, hkb] at heq
  have := Distinct.eq hd ha' hb' heq
  subst this
  exact hab (hna.trans hnb.symm)

/-- C75: with addkey among the commands loading may fail; when it succeeds every version there was before is there with
its key, and the statuses are those of metadata that were in the directory at one time. -/
theorem C75_old_keys (fs : FS) (h : Holds P rd fs l ks) (he : ks.encrypted.truthy = rd.isSome) (hg : GoodCrypter P rd)
    (cmds : List KCmd) (hc : ∀ k ∈ cmds, Harmless l rd k) (seen : FS)
    (hs : World.Seen P ⟨fs, cmds.map Proc.waiting⟩ seen) (d : Dir) (hd : seen l = some d) (cls : CzarClass) (c : Czar)
    (hi : Czar.init P cls (readerFor P rd (FileReader d)) = .ok c) :
    c.keySet.purpose = ks.purpose ∧ c.keySet.type = ks.type ∧
      (∃ w d', World.Steps P ⟨fs, cmds.map Proc.waiting⟩ w ∧ w.fs l = some d' ∧ MetaIs d' c.keySet.view) ∧
      ∀ e ∈ ks.entries, ∃ e' ∈ c.keySet.entries, e'.num = e.num ∧ e'.key = e.key := by
  obtain ⟨past, hpast, hm⟩ := Seen_past (lim := fun _ => True) h he hg
    (fun k hk => ⟨hc k hk, .inl fun _ => trivial⟩) (fun _ _ => trivial) hs
  obtain ⟨h1, ⟨g, hgm, d', h2, h3⟩, h4⟩ := init_mixed (fun g hgm => (hpast g hgm).2) hm hd hi
  obtain ⟨⟨w, hw, rfl⟩, -⟩ := hpast g hgm
  exact ⟨h1.purpose, h1.type, ⟨w, d', hw, h2, h3⟩, h4⟩

/-- C75: what one application encrypts under a key that was in the set from the start, every other application
decrypts, whenever the two load the set. -/
theorem C75_aes (fs : FS) (h : Holds P rd fs l ks) (he : ks.encrypted.truthy = rd.isSome) (hg : GoodCrypter P rd)
    (cmds : List KCmd) (hc : ∀ k ∈ cmds, Harmless l rd k) (seen seen' : FS)
    (hs : World.Seen P ⟨fs, cmds.map Proc.waiting⟩ seen) (hs' : World.Seen P ⟨fs, cmds.map Proc.waiting⟩ seen')
    (d d' : Dir) (hd : seen l = some d) (hd' : seen' l = some d') (cls cls' : CzarClass) (c c' : Czar)
    (hi : Czar.init P cls (readerFor P rd (FileReader d)) = .ok c)
    (hi' : Czar.init P cls' (readerFor P rd (FileReader d')) = .ok c') (hdist : c'.keySet.Distinct P)
    (e : Entry) (k : AesKey) (hp : c.keySet.primaries = [e]) (hk : e.key = .aes k)
    (hold : ∃ e0 ∈ ks.entries, e0.num = e.num)
    (enc : Option (Bytes → Bytes)) (dec : Option (Bytes → Py Bytes)) (hinv : Inverse enc dec)
    (rnd : Rand) (m out : Bytes) (ho : c.Encrypt P rnd m enc = .ok out) : c'.Decrypt P out dec = .ok m := by
  obtain ⟨e0, he0, hn0⟩ := hold
  obtain ⟨-, -, -, h1⟩ := C75_old_keys fs h he hg cmds hc seen hs d hd cls c hi
  obtain ⟨-, -, -, h2⟩ := C75_old_keys fs h he hg cmds hc seen' hs' d' hd' cls' c' hi'
  obtain ⟨e1, he1, hn1, hk1⟩ := h1 e0 he0
  obtain ⟨e2, he2, hn2, hk2⟩ := h2 e0 he0
  have hl : Loaded P c := ⟨_, _, hi⟩
  have : e1 = e := by
    have hnd := hl.loadable.valid.nodup
    exact List.inj_on_of_nodup_map hnd he1 (primary_mem hp).1 (hn1.trans hn0)
  subst this
  exact C22_aes_round_trip P c c' hl ⟨_, _, hi'⟩ hdist e1 e2 k hp hk he2 (by rw [hk2, ← hk1, hk]) enc dec hinv rnd m out ho

/-- C75: the same for signatures: every other application gets for them what the signing key itself gives; HMAC and RSA
signatures are accepted. -/
theorem C75_signatures (fs : FS) (h : Holds P rd fs l ks) (he : ks.encrypted.truthy = rd.isSome) (hg : GoodCrypter P rd)
    (cmds : List KCmd) (hc : ∀ k ∈ cmds, Harmless l rd k) (seen seen' : FS)
    (hs : World.Seen P ⟨fs, cmds.map Proc.waiting⟩ seen) (hs' : World.Seen P ⟨fs, cmds.map Proc.waiting⟩ seen')
    (d d' : Dir) (hd : seen l = some d) (hd' : seen' l = some d') (cls cls' : CzarClass) (c c' : Czar)
    (hi : Czar.init P cls (readerFor P rd (FileReader d)) = .ok c)
    (hi' : Czar.init P cls' (readerFor P rd (FileReader d')) = .ok c') (hdist : c'.keySet.Distinct P)
    (e : Entry) (hp : c.keySet.primaries = [e]) (hold : ∃ e0 ∈ ks.entries, e0.num = e.num)
    (enc : Option (Bytes → Bytes)) (dec : Option (Bytes → Py Bytes)) (hinv : Inverse enc dec)
    (rnd : Rand) (m out : Bytes) (ho : c.Sign P rnd m enc = .ok out) :
    (∃ sig, e.key.Sign P rnd (plainPayload m) = .ok sig ∧
      c'.Verify P m out dec = e.key.Verify P (plainPayload m) sig) ∧
    ((∃ k, e.key = .hmac k) ∨ (∃ k, e.key = .rsaPriv k ∧ UsableRsa k) → c'.Verify P m out dec = .ok true) := by
  obtain ⟨e0, he0, hn0⟩ := hold
  obtain ⟨-, -, -, h1⟩ := C75_old_keys fs h he hg cmds hc seen hs d hd cls c hi
  obtain ⟨-, -, -, h2⟩ := C75_old_keys fs h he hg cmds hc seen' hs' d' hd' cls' c' hi'
  obtain ⟨e1, he1, hn1, hk1⟩ := h1 e0 he0
  obtain ⟨e2, he2, hn2, hk2⟩ := h2 e0 he0
  have hl : Loaded P c := ⟨_, _, hi⟩
  have hl' : Loaded P c' := ⟨_, _, hi'⟩
  have : e1 = e := List.inj_on_of_nodup_map hl.loadable.valid.nodup he1 (primary_mem hp).1 (hn1.trans hn0)
  subst this
  have hk' : e2.key = e1.key := hk2.trans hk1.symm
  constructor
  · obtain ⟨id, hid⟩ := hl.keyId (primary_mem hp).1
    have ho' := ho
    rw [Sign_eq P hl hp hid] at ho'
    cases hsg : e1.key.Sign P rnd (plainPayload m) with
    | error x => rw [hsg] at ho'; cases ho'
    | ok sig =>
      obtain ⟨out', g1, g2⟩ := sign_verify P hl hl' hdist hp he2 (by rw [hk']; exact fun _ h => h) hinv hsg
      rw [ho] at g1
      cases g1
      exact ⟨sig, rfl, by rw [g2, hk']⟩
  · rintro (⟨k, hk⟩ | ⟨k, hk, hu⟩)
    · obtain ⟨out', g1, g2⟩ := C42_hmac P c c' hl hl' hdist e1 e2 k hp hk he2 (hk'.trans hk) enc dec hinv rnd m
      rw [ho] at g1
      cases g1
      exact g2
    · obtain ⟨out', g1, g2⟩ := C42_rsa P c c' hl hl' hdist e1 e2 k hu hp hk he2 (.inl (hk'.trans hk)) enc dec hinv rnd m
      rw [ho] at g1
      cases g1
      exact g2

/-- C75: while versions are only promoted and demoted nothing else is needed: a key set with distinct identifiers loads
at any two moments, and the second object decrypts all that the first one encrypts, in either direction of time. -/
theorem C75_rotation (fs : FS) (h : Holds P rd fs l ks) (he : ks.encrypted.truthy = rd.isSome) (hg : GoodCrypter P rd)
    (hdist : ks.Distinct P) (cmds : List KCmd) (hc : ∀ k ∈ cmds, Steady l rd k) (seen seen' : FS)
    (hs : World.Seen P ⟨fs, cmds.map Proc.waiting⟩ seen) (hs' : World.Seen P ⟨fs, cmds.map Proc.waiting⟩ seen')
    (cls cls' : CzarClass) (hcls : ks.purpose ∈ purposes cls) (hcls' : ks.purpose ∈ purposes cls') :
    ∃ d d' c c', seen l = some d ∧ seen' l = some d' ∧ Czar.init P cls (readerFor P rd (FileReader d)) = .ok c ∧
      Czar.init P cls' (readerFor P rd (FileReader d')) = .ok c' ∧
      ∀ (e : Entry) (k : AesKey), c.keySet.primaries = [e] → e.key = .aes k →
        ∀ (enc : Option (Bytes → Bytes)) (dec : Option (Bytes → Py Bytes)), Inverse enc dec →
        ∀ (rnd : Rand) (m out : Bytes), c.Encrypt P rnd m enc = .ok out → c'.Decrypt P out dec = .ok m := by
  obtain ⟨d, c, h1, h2, -, -, -, h3⟩ := C75_loads fs h he hg cmds hc seen hs cls hcls
  obtain ⟨d', c', h1', h2', -, -, -, h3'⟩ := C75_loads fs h he hg cmds hc seen' hs' cls' hcls'
  refine ⟨d, d', c, c', h1, h1', h2, h2', ?_⟩
  intro e k hp hk enc dec hinv rnd m out ho
  have hl' : Loaded P c' := ⟨_, _, h2'⟩
  obtain ⟨e0, he0, hn0, -⟩ := h3 e (primary_mem hp).1
  exact C75_aes fs h he hg cmds (fun k hk => (hc k hk).1) seen seen' hs hs' d d' h1 h1' cls cls' c c' h2 h2'
    (Distinct_of_same hdist hl'.loadable.valid.nodup h3') e k hp hk ⟨e0, he0, hn0.symm⟩ enc dec hinv rnd m out ho

/-! ### what goes wrong with addkey and revoke -/

theorem steps_alone (fs : FS) (k : KCmd) : World.Steps P ⟨fs, [.waiting k]⟩ ⟨fs, [.writing (k.run P fs).2]⟩ :=
  .tail _ ⟨fs, [.reading k [fs]]⟩ _ (.tail _ _ _ (.refl _) (.start fs [] [] k)) (.decide fs fs [] [] k [fs] (mixed_self fs))

theorem steps_prefix (fs : FS) (es es' : List Effect) :
    World.Steps P ⟨fs, [.writing (es ++ es')]⟩ ⟨applyAll fs es, [.writing es']⟩ :=
  steps_effects fs [] [] (by intro p hp; cases hp) (by intro p hp; cases hp) es es'

/-- C75: during every successful addkey there is a moment (metadata written, key file not yet) at which no class can
load the set; `n` is the number of the new version. -/
theorem C75_addkey_window (fs : FS) (h : Holds P none fs l ks) (env : Env) (status : KeyStatus) (size : Int)
    (hok : ((KCmd.addkey env (some l) status none size).run P fs).1 = .ok ()) :
    ∃ n key w w' d', World.Steps P ⟨fs, [.waiting (.addkey env (some l) status none size)]⟩ w ∧ World.Steps P w w' ∧ w'.Done ∧
      Holds P none w'.fs l { ks.add n status key with encrypted := .bool false } ∧ w.fs l = some d' ∧
      ∀ d, fs l = some d → d (.key n) = none → ∀ cls c, Czar.init P cls (FileReader d') ≠ .ok c := by
  have hok' : (AddKey P env (some l) status none size fs).1 = .ok () := hok
  obtain ⟨x, es, hx, hes⟩ : ∃ t es, (AddKey P env (some l) status none size fs).2 = .write l .metaFile t :: es ∧ True := by
    rw [AddKey_eq] at hok' ⊢
    obtain ⟨c, hc, -, hr, hw⟩ := manage_ok hok'
    have hld := load_loaded hc
    obtain ⟨bs, h1, -⟩ := Czar.Write_spec (env := env)
      (Op.run_inv hld.inv (.add env.gen env.fuel status (if size = -1 then none else some size)))
      (run_wf hld.inv hld.loadable.view_wf (.add env.gen env.fuel status (if size = -1 then none else some size)))
      (l := l) none (fs := fs) (load_isSome hc)
    rw [hw, h1]
    exact ⟨_, _, rfl, trivial⟩
  obtain ⟨n, key, h1, h2⟩ := C39_addkey P env fs l ks h status size hok'
  obtain ⟨d, hd, -⟩ := Holds_iff.mp h
  have s1 := steps_alone (P := P) fs (.addkey env (some l) status none size)
  have hrun : ((KCmd.addkey env (some l) status none size).run P fs).2 = [.write l .metaFile x] ++ es := hx
  rw [hrun] at s1
  have s2 := steps_prefix (P := P) fs [.write l .metaFile x] es
  have s3 := steps_prefix (P := P) (applyAll fs [.write l .metaFile x]) es []
  rw [List.append_nil] at s3
  refine ⟨n, key, _, _, dirAfter [.write l .metaFile x] l d, s1.trans s2, s3, ?_, ?_, ?_, ?_⟩
  · intro p hp
    simpa using hp
  · have : applyAll (applyAll fs [.write l .metaFile x]) es = (AddKey P env (some l) status none size).after fs := by
      unfold Cmd.after
      rw [hx]; rfl
    dsimp only
    rw [this]
    exact h1
  · dsimp only
    rw [applyAll_at, hd]; rfl
  · intro d0 hd0 hnone cls c
    rcases h2 [.write l .metaFile x] (by rw [hx]; exact ⟨es, rfl⟩) with ⟨hf, -⟩ | ⟨⟨b, hb⟩, -⟩ | ⟨-, -, h3⟩
    · cases hf
    · cases List.mem_singleton.mp hb
    · obtain ⟨d', hd', h4⟩ := h3 d0 hd0 hnone
      rw [applyAll_at, hd] at hd'
      cases hd'
      exact h4 cls c

/-- C75: an application that reads the metadata before a successful revoke and the key files after it fails. -/
theorem C75_revoke_window (fs : FS) (h : Holds P none fs l ks) (env : Env) (n : Int)
    (hok : ((KCmd.revoke env (some l) n).run P fs).1 = .ok ()) :
    ∃ w d d', World.Steps P ⟨fs, [.waiting (.revoke env (some l) n)]⟩ w ∧ w.Done ∧ fs l = some d ∧ w.fs l = some d' ∧
      ∀ cls c, Czar.init P cls (FileReader fun f => if f = .metaFile then d f else d' f) ≠ .ok c := by
  obtain ⟨⟨e, he, hen⟩, es, hes⟩ := revoke_effects h hok
  obtain ⟨d, hd, hg, -⟩ := Holds_iff.mp h
  have s1 := steps_alone (P := P) fs (.revoke env (some l) n)
  have s2 := steps_prefix (P := P) fs ((KCmd.revoke env (some l) n).run P fs).2 []
  rw [List.append_nil] at s2
  refine ⟨_, d, dirAfter ((KCmd.revoke env (some l) n).run P fs).2 l d, s1.trans s2, ?_, hd, ?_, ?_⟩
  · intro p hp
    simpa using hp
  · dsimp only
    rw [applyAll_at, hd]; rfl
  · intro cls c hc
    obtain ⟨-, -, ⟨⟨text, kmd, hh, g1, g2, g3⟩, g4⟩, -⟩ := Czar.init_ok hc
    obtain ⟨⟨text', kmd', hh', t1, t2, t3⟩, -⟩ := hg
    rw [dirReader_meta, ReadFile] at t1
    have g1 : ReadFile _ .metaFile = .ok text := g1
    rw [ReadFile] at g1
    rw [g1] at t1
    cases t1
    rw [g2] at t2
    cases t2
    have hv := congrArg KeySet.View.versions (g3.symm.trans t3)
    have : (⟨e.num, e.status, e.exportable⟩ : KeyVersion) ∈ c.keySet.view.versions := by
      rw [hv]; exact List.mem_map.mpr ⟨e, he, rfl⟩
    obtain ⟨e', he', heq⟩ := List.mem_map.mp this
    obtain ⟨text, h5, -⟩ := g4 e' he'
    have hnum : e'.num = n := (congrArg KeyVersion.num heq).trans hen
    simp [FileReader, ReadFile, hnum, hes, dirAfter, touch_append, touch, Effect.loc, Effect.file, Effect.content] at h5

/-- C75: two addkeys that start from the same directory, the first with status primary: what an application encrypts in
between, with the new key of the first, the final set does not decrypt (the two new keys have different identifiers). -/
theorem C75_lost_output (fs : FS) (h : Holds P none fs l ks) (hdist : ks.Distinct P) (env1 env2 : Env) (s2 : KeyStatus)
    (size1 size2 : Int) (hok1 : ((KCmd.addkey env1 (some l) .PRIMARY none size1).run P fs).1 = .ok ())
    (hok2 : ((KCmd.addkey env2 (some l) s2 none size2).run P fs).1 = .ok ()) :
    ∃ n k1 k2 w w', World.Steps P ⟨fs, [.waiting (.addkey env1 (some l) .PRIMARY none size1),
        .waiting (.addkey env2 (some l) s2 none size2)]⟩ w ∧ World.Steps P w w' ∧ w'.Done ∧
      Holds P none w.fs l { ks.add n .PRIMARY k1 with encrypted := .bool false } ∧
      Holds P none w'.fs l { ks.add n s2 k2 with encrypted := .bool false } ∧
      (k1.hashId P ≠ k2.hashId P → ∀ d d' cls cls' c c', w.fs l = some d → w'.fs l = some d' →
        Czar.init P cls (FileReader d) = .ok c → Czar.init P cls' (FileReader d') = .ok c' →
        ∀ rnd m out, c.Encrypt P rnd m none = .ok out → c'.Decrypt P out none = .error .keyNotFound) := by
  obtain ⟨n, k1, k2, h1, h2, -⟩ := C40_lost_key P env1 env2 fs l ks h .PRIMARY s2 size1 size2 hok1 hok2
  obtain ⟨ks', -, -, -, h4, h5, h6⟩ := manages_effects h (k := .addkey env2 (some l) s2 none size2)
    (.inr (.inr ⟨_, _, _, rfl⟩)) hok2
  have hks' : ks' = { ks.add n s2 k2 with encrypted := .bool false } := h5.unique h2
  subst hks'
  obtain ⟨d, hd, -⟩ := Holds_iff.mp h
  have hq : ∀ es, Quiet [.writing es] := by intro es p hp; cases List.mem_singleton.mp hp; simp
  have hn : Quiet [] := by intro p hp; cases hp
  have t1 := steps_read (P := P) fs (.addkey env1 (some l) .PRIMARY none size1) (.addkey env2 (some l) s2 none size2)
  have t2 := steps_effects (P := P) fs [] [.writing ((KCmd.addkey env2 (some l) s2 none size2).run P fs).2] hn (hq _)
    ((KCmd.addkey env1 (some l) .PRIMARY none size1).run P fs).2 []
  have t3 := steps_effects (P := P) (applyAll fs ((KCmd.addkey env1 (some l) .PRIMARY none size1).run P fs).2) [.writing []] []
    (hq _) hn ((KCmd.addkey env2 (some l) s2 none size2).run P fs).2 []
  rw [List.append_nil] at t2 t3
  have hfin : Holds P none (applyAll (applyAll fs ((KCmd.addkey env1 (some l) .PRIMARY none size1).run P fs).2)
      ((KCmd.addkey env2 (some l) s2 none size2).run P fs).2) l { ks.add n s2 k2 with encrypted := .bool false } := by
    refine Holds_congr h5 (d := dirAfter ((KCmd.addkey env2 (some l) s2 none size2).run P fs).2 l d)
      (d' := dirAfter ((KCmd.addkey env2 (some l) s2 none size2).run P fs).2 l
        (dirAfter ((KCmd.addkey env1 (some l) .PRIMARY none size1).run P fs).2 l d))
      (by rw [applyAll_at, hd]; rfl) (by rw [applyAll_at, applyAll_at, hd]; rfl) ?_ ?_
    · simp only [dirAfter, h4, Option.getD_some]
    · intro x hx
      obtain ⟨y, hy⟩ := Option.ne_none_iff_exists'.mp (h6 x hx)
      simp only [dirAfter, hy, Option.getD_some]
  refine ⟨n, k1, k2, _, _, t1.trans t2, t3, ?_, h1, hfin, ?_⟩
  · intro p hp
    simpa using hp
  · intro hne d1 d2 cls cls' c c' hd1 hd2 hc hc' rnd m out ho
    have e1 : c.keySet = _ := Holds.loaded (rd := none) h1 hd1 hc
    have e2 : c'.keySet = _ := Holds.loaded (rd := none) hfin hd2 hc'
    -- identifiers of the first new set
    obtain ⟨ks1, g1, g2, -⟩ := C32_versions_survive P l none ⟨trivial, by simp⟩ [.addkey env1 (some l) .PRIMARY none size1]
      (by
        intro k hk
        cases List.mem_singleton.mp hk
        exact ⟨by simp, by rintro _ _ _ _ ⟨⟩; rfl⟩) fs ks h hdist (by simp)
    have hks1 : ks1 = { ks.add n .PRIMARY k1 with encrypted := .bool false } := Holds.unique g1 h1
    rw [hks1] at g2
    obtain ⟨e, id, rest, he, hst, hid, hlen, hout⟩ := C21_encrypt_header P c ⟨_, _, hc⟩ rnd m out ho
    have hidk := ((KeyId_iff P e.key id).mp hid).2
    rw [e1] at he
    have hek : e = ⟨n, .PRIMARY, .bool false, k1⟩ := by
      simp only [KeySet.add, if_true, List.mem_append, List.mem_singleton] at he
      rcases he with he | he
      · obtain ⟨x, -, rfl⟩ := List.mem_map.mp he
        exfalso
        simp only at hst
        split at hst
        · cases hst
        · contradiction
      · exact he
    have hnew : (⟨n, .PRIMARY, .bool false, k1⟩ : Entry) ∈ (ks.add n .PRIMARY k1).entries := by
      simp [KeySet.add]
    subst hek
    refine (C23_unknown_key P cls' _ c' hc' out id rest m none hlen hout ?_).1
    intro x hx hxid
    rw [e2] at hx
    have hxk : x.key = k2 ∨ ∃ y ∈ ks.entries, x.num = y.num ∧ x.key = y.key := by
      simp only [KeySet.add, List.mem_append, List.mem_singleton] at hx
      rcases hx with hx | rfl
      · right
        split at hx
        · obtain ⟨y, hy, rfl⟩ := List.mem_map.mp hx
          exact ⟨y, hy, rfl, rfl⟩
        · exact ⟨x, hx, rfl, rfl⟩
      · exact .inl rfl
    rcases hxk with hxk | ⟨y, hy, hyn, hyk⟩
    · rw [hxk] at hxid
      exact hne (hidk.trans hxid.symm)
    · obtain ⟨-, -, hkeep⟩ := Keeps.add (fun _ => False) ks n .PRIMARY k1
      rcases hkeep y hy with hf | ⟨z, hz, hzn, hzk⟩
      · exact hf
      · have hzz := Distinct.eq g2 hz hnew (by rw [hzk, ← hyk, hxid, hidk])
        have hnum : y.num = n := by rw [← hzn, hzz]
        have hnd : ((ks.add n .PRIMARY k1).entries.map Entry.num).Nodup := by
          obtain ⟨cc, hcc, hcc'⟩ := h1
          have := (load_loaded hcc).loadable.valid.nodup
          rw [hcc'] at this
          exact this
        simp only [KeySet.add, if_true, List.map_append, List.map_cons, List.map_nil, List.nodup_append] at hnd
        refine hnd.2.2 n ?_ n (by simp) rfl
        rw [← hnum]
        refine List.mem_map.mpr ⟨_, List.mem_map.mpr ⟨y, hy, rfl⟩, rfl⟩

/-- example: the hypotheses of `C75_rotation` hold of testdata/aes on disk while 1 is promoted, and 2 demoted -/
example : (∃ ks, Holds realPrims none (Ex.disk .ACTIVE .PRIMARY) [97] ks ∧ ks.encrypted.truthy = (none : Option Czar).isSome ∧
      ks.Distinct realPrims ∧ ks.purpose ∈ purposes .crypter) ∧ GoodCrypter realPrims none ∧
    ∀ k ∈ [KCmd.promote Ex.env (some [97]) 1, .demote Ex.env' (some [97]) 2], Steady [97] none k := by
  refine ⟨?_, ⟨trivial, by simp⟩, ?_⟩
  · have h : (match load realPrims none [97] (Ex.disk .ACTIVE .PRIMARY) with
        | .ok c => decide (c.keySet.encrypted.truthy = false) && (decide (c.keySet.purpose ∈ purposes .crypter) &&
            decide ((c.keySet.entries.map fun e => e.key.hashId realPrims).Nodup))
        | .error _ => false) = true := by decide +kernel
    cases hc : load realPrims none [97] (Ex.disk .ACTIVE .PRIMARY) with
    | error e => rw [hc] at h; cases h
    | ok c =>
      rw [hc] at h
      simp only [Bool.and_eq_true, decide_eq_true_eq] at h
      refine ⟨_, ⟨c, hc, rfl⟩, h.1, ?_, h.2.1⟩
      have := h.2.2
      rwa [List.Nodup, List.pairwise_map] at this
  · intro k hk
    rcases List.mem_cons.mp hk with rfl | hk
    · exact ⟨⟨by simp, by simp, by simp⟩, by simp⟩
    · cases List.mem_singleton.mp hk
      exact ⟨⟨by simp, by simp, by simp⟩, by simp⟩

/-- example: there the metadata of the end with the key files of the start, which give another primary version: what this
object encrypts the object of the start decrypts -/
example : (match Ex.disk .ACTIVE .PRIMARY [97],
      (((KCmd.promote Ex.env (some [97]) 1).run realPrims).after (Ex.disk .ACTIVE .PRIMARY)) [97] with
    | some d, some d' =>
      (match Czar.init realPrims .crypter (FileReader d),
        Czar.init realPrims .crypter (FileReader fun f => if f = .metaFile then d' f else d f) with
      | .ok c, .ok c' => c'.keySet.primaries.map Entry.num != c.keySet.primaries.map Entry.num &&
          decide ((c'.Encrypt realPrims Ex.rnd [1, 2] none).bind (fun out => c.Decrypt realPrims out none) = .ok [1, 2])
      | _, _ => false)
    | _, _ => false) = true := by decide +kernel

/-- example: the hypotheses of `C75_addkey_window` and `C75_revoke_window` -/
example : ((KCmd.addkey Ex.env (some [97]) .ACTIVE none (-1)).run realPrims (Ex.disk .ACTIVE .PRIMARY)).1 = .ok () ∧
    (Ex.disk .ACTIVE .PRIMARY [97]).bind (fun d => d (.key 3)) = none ∧
    ((KCmd.revoke Ex.env' (some [104]) 1).run realPrims (Ex.disk .INACTIVE .PRIMARY)).1 = .ok () ∧
    Ex.isOk (load realPrims none [104] (Ex.disk .INACTIVE .PRIMARY)) = true := by decide +kernel

/-- example: two addkeys as in `C75_lost_output`, and the message that is lost -/
example : ((KCmd.addkey Ex.env (some [97]) .PRIMARY none (-1)).run realPrims (Ex.disk .ACTIVE .PRIMARY)).1 = .ok () ∧
    ((KCmd.addkey Ex.env' (some [97]) .ACTIVE none (-1)).run realPrims (Ex.disk .ACTIVE .PRIMARY)).1 = .ok () ∧
    (let fs1 := applyAll (Ex.disk .ACTIVE .PRIMARY)
        ((KCmd.addkey Ex.env (some [97]) .PRIMARY none (-1)).run realPrims (Ex.disk .ACTIVE .PRIMARY)).2
     let fs2 := applyAll fs1 ((KCmd.addkey Ex.env' (some [97]) .ACTIVE none (-1)).run realPrims (Ex.disk .ACTIVE .PRIMARY)).2
     match load realPrims none [97] fs1, load realPrims none [97] fs2 with
     | .ok c, .ok c' => (c.Encrypt realPrims Ex.rnd [1, 2] none).bind fun out => c'.Decrypt realPrims out none
     | _, _ => .ok []) = .error .keyNotFound := by decide +kernel

end

end Verif.Props
