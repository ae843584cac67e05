import Verif.Model.Concurrent
import Verif.Props.Crash
import Verif.Props.Export
/-
C69: any number of keyczart processes at the same time.
-/
namespace Verif.Props
open Verif Spec
variable (P : Prims)

/-! ## C69 -/

/-- commands that may run at the same time: anything in other directories; in `l` create, addkey (with the crypter of the
key set), promote, demote, and exports from it -/
def Harmless (l : Loc) (rd : Option Czar) (k : KCmd) : Prop :=
  (∀ env loc, k ≠ .pubkey env loc (some l)) ∧ (∀ env n, k ≠ .revoke env (some l) n) ∧
  ∀ env status cr size, k = .addkey env (some l) status cr size → cr = rd

/-- and stay within the version numbers `lim`: addkey only if all numbers are allowed -/
def Allowed (l : Loc) (rd : Option Czar) (lim : Int → Prop) (k : KCmd) : Prop :=
  Harmless l rd k ∧ ((∀ n, lim n) ∨ ∀ env status cr size, k ≠ .addkey env (some l) status cr size)

section
variable {P}
variable (l : Loc) (rd : Option Czar) (ks : KeySet) (lim : Int → Prop)

/-- metadata that any of the processes may write -/
structure ViewGood (v : KeySet.View) : Prop where
  wf : v.WF
  nodup : (v.versions.map KeyVersion.num).Nodup
  primary : (v.versions.filter fun x => x.status = .PRIMARY).length ≤ 1
  purpose : v.purpose = ks.purpose
  type : v.type = ks.type
  enc : v.encrypted.truthy = rd.isSome
  old : ∀ e ∈ ks.entries, e.num ∈ v.versions.map KeyVersion.num
  only : ∀ n ∈ v.versions.map KeyVersion.num, lim n

/-- the metadata file says `v` -/
def MetaIs (d : Dir) (v : KeySet.View) : Prop :=
  ∃ text kmd h, d .metaFile = some text ∧ KeyMetadata.Read text = .ok (kmd, h) ∧ kmd.view h = v

/-- what is true of the directory at all times -/
def DirGood (P : Prims) (d : Dir) : Prop :=
  (∃ v, MetaIs d v ∧ ViewGood rd ks lim v) ∧ ∀ e ∈ ks.entries, (dirReader P rd d).Delivers P ks.type e.num e.key

/-- a write of a key file -/
def KeyWrite (P : Prims) (x : Effect) : Prop :=
  ∃ n b k rnd, x = .write l (.key n) b ∧ keyText P rd rnd k = .ok b ∧ k.Ok ∧ k.type = ks.type ∧
    (∃ hash, k.hashId P = .ok hash) ∧ ∀ e ∈ ks.entries, e.num = n → e.key = k

/-- an effect of one of the processes on the directory; a metadata write lists only versions in `av` -/
def GoodEffect (P : Prims) (av : Int → Prop) (x : Effect) : Prop :=
  x.loc ≠ l ∨ KeyWrite l rd ks P x ∨
  ∃ v, x = .write l .metaFile (dumps (viewJson v)) ∧ ViewGood rd ks lim v ∧ ∀ n ∈ v.versions.map KeyVersion.num, av n

/-- the key file can be read or is going to be written -/
def Avail (P : Prims) (d : Dir) (ps : List Proc) (n : Int) : Prop :=
  (∃ k, (dirReader P rd d).Delivers P ks.type n k) ∨ ∃ es, .writing es ∈ ps ∧ ∃ b, .write l (.key n) b ∈ es

/-- the invariant -/
structure WorldGood (P : Prims) (w : World) : Prop where
  dir : ∃ d, w.fs l = some d ∧ (∃ v, MetaIs d v ∧ ViewGood rd ks lim v ∧
      ∀ n ∈ v.versions.map KeyVersion.num, Avail l rd ks P d w.procs n) ∧
    (∀ e ∈ ks.entries, (dirReader P rd d).Delivers P ks.type e.num e.key) ∧
    ∀ es, .writing es ∈ w.procs → ∀ x ∈ es, GoodEffect l rd ks lim P (Avail l rd ks P d w.procs) x
  waiting : ∀ k, .waiting k ∈ w.procs → Allowed l rd lim k
  reading : ∀ k past, .reading k past ∈ w.procs → Allowed l rd lim k ∧
    ∀ g ∈ past, ∃ d, g l = some d ∧ DirGood rd ks lim P d

variable {l rd ks lim}

theorem Delivers_unique {r : Reader} {t : KeyType} {n : Int} {k k' : Key} (h : r.Delivers P t n k) (h' : r.Delivers P t n k') :
    k = k' := by
  obtain ⟨a, h1, h2, -⟩ := h
  obtain ⟨b, g1, g2, -⟩ := h'
  rw [h1] at g1; cases g1
  rw [h2] at g2; cases g2
  rfl

theorem Delivers_congr {d d' : Dir} {t : KeyType} {n : Int} {k : Key} (h : d (.key n) = d' (.key n)) :
    (dirReader P rd d).Delivers P t n k ↔ (dirReader P rd d').Delivers P t n k := by
  unfold Reader.Delivers
  rw [dirReader_key, dirReader_key, ReadFile, ReadFile, h]

theorem KeyWrite.delivers (ho : Opens P rd rd) {x : Effect} (h : KeyWrite l rd ks P x) (d : Dir) :
    ∃ n k, x.file = .key n ∧ (∀ e ∈ ks.entries, e.num = n → e.key = k) ∧
      (dirReader P rd (d.set x.file x.content)).Delivers P ks.type n k := by
  obtain ⟨n, b, k, rnd, rfl, h1, h2, h3, h4, h5⟩ := h
  refine ⟨n, k, rfl, h5, dumps k.json, ?_, ?_, h4⟩
  · exact ho.read h1 (by simp [Dir.set, Effect.file, Effect.content])
  · rw [← h3]; exact ReadKey_str k h2

/-- loading what a process has read -/
theorem load_mixed {past : List FS} (hp : ∀ g ∈ past, ∃ d, g l = some d ∧ DirGood rd ks lim P d) {seen : FS} (hm : Mixed past seen)
    {cr : Option Czar} {c : Czar} (hc : load P cr l seen = .ok c) (hcr : cr = none ∨ cr = rd) :
    cr = rd ∧ ViewGood rd ks lim c.keySet.view ∧ ∀ e ∈ ks.entries, ∃ e' ∈ c.keySet.entries, e'.num = e.num ∧ e'.key = e.key := by
  obtain ⟨d, hd, hini⟩ := load_some hc
  obtain ⟨-, -, hg, -, -, henc⟩ := Czar.init_ok hini
  have hmx := hm l
  rw [hd] at hmx
  have hv : ViewGood rd ks lim c.keySet.view := by
    obtain ⟨g, hgp, d', hg1, hg2⟩ := hmx .metaFile
    obtain ⟨d'', hg3, ⟨v, ⟨text, kmd, h, t1, t2, t3⟩, hv⟩, -⟩ := hp g hgp
    rw [hg1] at hg3; cases hg3
    obtain ⟨⟨text', kmd', h', s1, s2, s3⟩, -⟩ := hg
    rw [dirReader_meta, ReadFile, hg2, t1] at s1
    cases s1
    rw [t2] at s2; cases s2
    rw [← s3, t3]; exact hv
  have hcr' : cr = rd := by
    rcases hcr with rfl | h
    · cases rd with
      | none => rfl
      | some x =>
        have := henc hv.enc
        rw [dirReader_encrypted] at this; cases this
    · exact h
  subst hcr'
  refine ⟨rfl, hv, fun e he => ?_⟩
  obtain ⟨x, hx, hxn⟩ := List.mem_map.mp (hv.old e he)
  obtain ⟨e', he', rfl⟩ := List.mem_map.mp hx
  have hxn : e'.num = e.num := hxn
  refine ⟨e', he', hxn, ?_⟩
  obtain ⟨g, hgp, d', hg1, hg2⟩ := hmx (.key e.num)
  obtain ⟨d'', hg3, -, hgood⟩ := hp g hgp
  rw [hg1] at hg3; cases hg3
  have h1 := hg.2 e' he'
  rw [hxn, Delivers_congr hg2, show c.keySet.type = ks.type from hv.type] at h1
  exact Delivers_unique h1 (hgood e he)

/-- adding, promoting and demoting keep purpose, type and versions -/
theorem run_keeps {c : Czar} (h : c.Inv P) {op : Op} (hop : ∀ n, op ≠ .revoke n) (hr : (op.run P c).1 = .ok ()) :
    Keeps (fun _ => False) c.keySet (op.run P c).2.keySet := by
  cases op with
  | promote n =>
    have := Czar.Promote_spec h n
    cases hs : c.keySet.promote n with
    | none => rw [hs] at this; simp only [Op.run, this]; exact Keeps.refl _ _
    | some ks' =>
      rw [hs] at this
      obtain ⟨heap, pr, h1, h2, -⟩ := this
      simp only [Op.run, h1, h2]
      exact Keeps.promote hs
  | demote n =>
    have := Czar.Demote_spec h n
    cases hs : c.keySet.demote n with
    | none => rw [hs] at this; simp only [Op.run, this]; exact Keeps.refl _ _
    | some ks' =>
      rw [hs] at this
      obtain ⟨heap, pr, h1, h2, -⟩ := this
      simp only [Op.run, h1, h2]
      exact Keeps.demote hs
  | revoke n => exact absurd rfl (hop n)
  | add rnd fuel status size =>
    cases ha : c.AddVersion P rnd fuel status size with
    | mk r c' =>
      simp only [Op.run, ha] at hr ⊢
      subst hr
      obtain ⟨key, hash, j, -, -, -, -, h1, -⟩ := AddVersion_ok h ha
      rw [h1]
      exact Keeps.add _ _ _ _ _

theorem promote_nums {ks ks' : KeySet} {n : Int} (h : ks.promote n = some ks') :
    ks'.entries.map Entry.num = ks.entries.map Entry.num := by
  unfold KeySet.promote at h
  split at h
  · cases h
  · split at h <;> cases h <;> simp [KeySet.mapStatus, Function.comp_def]

theorem demote_nums {ks ks' : KeySet} {n : Int} (h : ks.demote n = some ks') :
    ks'.entries.map Entry.num = ks.entries.map Entry.num := by
  unfold KeySet.demote at h
  split at h
  · cases h
  · split at h <;> cases h <;> simp [KeySet.mapStatus, Function.comp_def]

/-- promoting and demoting add no versions -/
theorem run_nums {c : Czar} (h : c.Inv P) {op : Op} (hop : ∀ n, op ≠ .revoke n)
    (hadd : ∀ rnd fuel status size, op ≠ .add rnd fuel status size) :
    (op.run P c).2.keySet.entries.map Entry.num = c.keySet.entries.map Entry.num := by
  cases op with
  | promote n =>
    have := Czar.Promote_spec h n
    cases hs : c.keySet.promote n with
    | none => rw [hs] at this; simp only [Op.run, this]
    | some ks' =>
      rw [hs] at this
      obtain ⟨heap, pr, h1, h2, -⟩ := this
      simp only [Op.run, h1, h2]
      exact promote_nums hs
  | demote n =>
    have := Czar.Demote_spec h n
    cases hs : c.keySet.demote n with
    | none => rw [hs] at this; simp only [Op.run, this]
    | some ks' =>
      rw [hs] at this
      obtain ⟨heap, pr, h1, h2, -⟩ := this
      simp only [Op.run, h1, h2]
      exact demote_nums hs
  | revoke n => exact absurd rfl (hop n)
  | add rnd fuel status size => exact absurd rfl (hadd rnd fuel status size)

theorem primaries_view (ks : KeySet) : (ks.view.versions.filter fun x => x.status = .PRIMARY).length = ks.primaries.length := by
  unfold KeySet.view KeySet.primaries
  rw [List.filter_map, List.length_map]
  rfl

theorem manage_effects (hg : GoodCrypter P rd) {past : List FS} (hp : ∀ g ∈ past, ∃ d, g l = some d ∧ DirGood rd ks lim P d)
    {seen : FS} (hm : Mixed past seen) {env : Env} {cr : Option Czar} (hcr : cr = none ∨ cr = rd) {bad : Bool} {op : Op}
    (hop : ∀ n, op ≠ .revoke n) (hlim : (∀ n, lim n) ∨ ∀ rnd fuel status size, op ≠ .add rnd fuel status size) (x : Effect) (hx : x ∈ (manage P env l cr bad op seen).2) :
    GoodEffect l rd ks lim P (fun n => ∃ b, .write l (.key n) b ∈ (manage P env l cr bad op seen).2) x := by
  by_cases hne : ∃ c, load P cr l seen = .ok c
  swap
  · obtain ⟨e, he⟩ := manage_no_load (env := env) (bad := bad) (op := op) (fun c hc => hne ⟨c, hc⟩)
    rw [he] at hx; cases hx
  obtain ⟨c0, hc0⟩ := hne
  obtain ⟨rfl, hv, hold⟩ := load_mixed hp hm hc0 hcr
  cases hok : (manage P env l cr bad op seen).1 with
  | error e => rw [manage_good hg hok] at hx; cases hx
  | ok u =>
    obtain ⟨c, hc, -, hr, hw⟩ := manage_ok hok
    rw [hc0] at hc; cases hc
    have hl := load_loaded hc0
    have hi := Op.run_inv hl.inv op
    have hwf := run_wf hl.inv hl.loadable.view_wf op
    have hs := load_isSome hc0
    obtain ⟨hk1, hk2, hk3⟩ := run_keeps hl.inv hop hr
    rw [hw] at hx hok ⊢
    obtain ⟨bs, h1, h2, -⟩ := Czar.Write_spec (env := env) hi hwf (l := l) cr (fs := seen) hs
    have hx' := hx
    rw [h1] at hx'
    rcases List.mem_cons.mp hx' with hx' | hx'
    · refine .inr (.inr ⟨_, hx', ?_, ?_⟩)
      · refine ⟨stored_wf hwf _, ?_, ?_, ?_, ?_, ?_, ?_, ?_⟩
        · have := hi.valid.nodup
          show (((op.run P c0).2.keySet.entries.map _).map KeyVersion.num).Nodup
          rw [List.map_map]; exact this
        · rw [primaries_view]; exact hi.valid.primary
        · exact hk1.trans hv.purpose
        · exact hk2.trans hv.type
        · show (Json.bool cr.isSome).truthy = cr.isSome
          cases cr <;> rfl
        · intro e he
          obtain ⟨e1, he1, hn1, -⟩ := hold e he
          rcases hk3 e1 he1 with hf | ⟨e2, he2, hn2, -⟩
          · exact hf.elim
          · show e.num ∈ ((op.run P c0).2.keySet.entries.map _).map KeyVersion.num
            rw [List.map_map]
            exact List.mem_map.mpr ⟨e2, he2, hn2.trans hn1⟩
        · intro n hn
          rcases hlim with hlim | hlim
          · exact hlim n
          · have hn : n ∈ ((op.run P c0).2.keySet.entries.map fun e => (⟨e.num, e.status, e.exportable⟩ : KeyVersion)).map KeyVersion.num := hn
            rw [List.map_map] at hn
            have hn : n ∈ (op.run P c0).2.keySet.entries.map Entry.num := hn
            rw [run_nums hl.inv hop hlim] at hn
            refine hv.only n ?_
            show n ∈ (c0.keySet.entries.map fun e => (⟨e.num, e.status, e.exportable⟩ : KeyVersion)).map KeyVersion.num
            rw [List.map_map]
            exact hn
      · intro n hn
        have hn : n ∈ ((op.run P c0).2.keySet.entries.map fun e => (⟨e.num, e.status, e.exportable⟩ : KeyVersion)).map KeyVersion.num := hn
        rw [List.map_map] at hn
        obtain ⟨e, he, rfl⟩ := List.mem_map.mp hn
        obtain ⟨p, hpm, rfl⟩ := List.mem_map.mp he
        obtain ⟨k, b, -, -, ht⟩ := Czar.Write_file (env := env) hi hwf (enc := cr) hs hok (hi.meta_mem p hpm)
        obtain ⟨y, hy, hyl, hyf, hyc⟩ := touch_mem ht
        refine ⟨b, ?_⟩
        have : y = .write l (.key ((op.run P c0).2.entryOf p).num) b := by
          cases y with
          | write l' f' b' =>
            cases hyl; cases hyc
            have hyf : f' = _ := hyf
            rw [hyf, hi.meta_num p hpm]; rfl
          | remove l' f' => cases hyc
        exact this ▸ hy
    · obtain ⟨p, hpb, rfl⟩ := List.mem_map.mp hx'
      obtain ⟨k, hk, hb⟩ := h2 p hpb
      have hmem := assocGet_mem hk
      obtain ⟨t1, t2⟩ := hi.type_ok _ hmem
      obtain ⟨hh, t3, -⟩ := hi.hashed _ hmem
      refine .inr (.inl ⟨_, p.2, k, _, rfl, hb, t1, ?_, ⟨hh, t3⟩, ?_⟩)
      · exact t2.trans (hk2.trans hv.type)
      · intro e he hn
        obtain ⟨e1, he1, hn1, hk1'⟩ := hold e he
        rcases hk3 e1 he1 with hf | ⟨e2, he2, hn2, hk2'⟩
        · exact hf.elim
        · obtain ⟨q, hq, rfl⟩ := List.mem_map.mp he2
          have ho : p.1 ∈ (op.run P c0).2.versions := assocGet_isSome.mp (by rw [hk]; rfl)
          have hq2 : q.2 = p.1 := hi.v_num _ (hi.meta_mem q hq) _ ho (by
            rw [hi.meta_num q hq]
            exact (hn2.trans hn1).trans hn)
          rw [← hk1', ← hk2']
          show (assocGet (op.run P c0).2.vkeys q.2).getD _ = k
          rw [hq2, hk]; rfl

theorem run_effects (hg : GoodCrypter P rd) {past : List FS} (hp : ∀ g ∈ past, ∃ d, g l = some d ∧ DirGood rd ks lim P d)
    {seen : FS} (hm : Mixed past seen) {k : KCmd} (hk : Allowed l rd lim k) (x : Effect) (hx : x ∈ (k.run P seen).2) :
    GoodEffect l rd ks lim P (fun n => ∃ b, .write l (.key n) b ∈ (k.run P seen).2) x := by
  by_cases ht : k.target = some l
  swap
  · refine .inl fun h => ht ?_
    rw [k.run_loc seen x hx, h]
  cases k with
  | create loc name purpose asym =>
    cases ht
    have hmx := hm l
    cases hs : seen l with
    | none =>
      rw [hs] at hmx
      obtain ⟨g, hgp, hg1⟩ := hmx
      obtain ⟨d, hg2, -⟩ := hp g hgp
      rw [hg1] at hg2; cases hg2
    | some d =>
      rw [hs] at hmx
      obtain ⟨g, hgp, d', hg1, hg2⟩ := hmx .metaFile
      obtain ⟨d'', hg3, ⟨v, ⟨text, kmd, h, t1, -⟩, -⟩, -⟩ := hp g hgp
      rw [hg1] at hg3; cases hg3
      simp only [KCmd.run] at hx
      rw [C36_never_overwrites seen l d text hs (by rw [hg2, t1])] at hx
      cases hx
  | pubkey env loc dest => cases ht; exact absurd rfl (hk.1.1 env loc)
  | addkey env loc status cr size =>
    cases ht
    cases hk.1.2.2 env status cr size rfl
    simp only [KCmd.run, AddKey_eq] at hx ⊢
    exact manage_effects hg hp hm (.inr rfl) (by simp) (.inl (hk.2.resolve_right fun h => h env status _ size rfl)) x hx
  | promote env loc n =>
    cases ht
    simp only [KCmd.run, Promote_eq] at hx ⊢
    exact manage_effects hg hp hm (.inl rfl) (by simp) (.inr (by simp)) x hx
  | demote env loc n =>
    cases ht
    simp only [KCmd.run, Demote_eq] at hx ⊢
    exact manage_effects hg hp hm (.inl rfl) (by simp) (.inr (by simp)) x hx
  | revoke env loc n => cases ht; exact absurd rfl (hk.1.2.1 env n)

theorem GoodEffect.mono {av av' : Int → Prop} (h : ∀ n, av n → av' n) {x : Effect} (hx : GoodEffect l rd ks lim P av x) :
    GoodEffect l rd ks lim P av' x := by
  rcases hx with h1 | h1 | ⟨v, h1, h2, h3⟩
  · exact .inl h1
  · exact .inr (.inl h1)
  · exact .inr (.inr ⟨v, h1, h2, fun n hn => h n (h3 n hn)⟩)

theorem Avail.mono {d : Dir} {ps ps' : List Proc} (h : ∀ es, Proc.writing es ∈ ps → .writing es ∈ ps') {n : Int}
    (ha : Avail l rd ks P d ps n) : Avail l rd ks P d ps' n := by
  rcases ha with ha | ⟨es, h1, h2⟩
  · exact .inl ha
  · exact .inr ⟨es, h es h1, h2⟩

theorem note_writing {fs : FS} {ps : List Proc} {es : List Effect} :
    Proc.writing es ∈ ps.map (Proc.note fs) ↔ .writing es ∈ ps := by
  rw [List.mem_map]
  constructor
  · rintro ⟨p, hp, h⟩
    cases p <;> simp only [Proc.note, reduceCtorEq] at h
    exact h ▸ hp
  · exact fun h => ⟨_, h, rfl⟩

theorem note_waiting {fs : FS} {ps : List Proc} {k : KCmd} :
    Proc.waiting k ∈ ps.map (Proc.note fs) ↔ .waiting k ∈ ps := by
  rw [List.mem_map]
  constructor
  · rintro ⟨p, hp, h⟩
    cases p <;> simp only [Proc.note, reduceCtorEq] at h
    exact h ▸ hp
  · exact fun h => ⟨_, h, rfl⟩

theorem note_reading {fs : FS} {ps : List Proc} {k : KCmd} {past : List FS} (h : Proc.reading k past ∈ ps.map (Proc.note fs)) :
    ∃ past', past = fs :: past' ∧ .reading k past' ∈ ps := by
  obtain ⟨p, hp, h⟩ := List.mem_map.mp h
  cases p <;> simp only [Proc.note, reduceCtorEq, Proc.reading.injEq] at h
  obtain ⟨rfl, rfl⟩ := h
  exact ⟨_, rfl, hp⟩

theorem WorldGood.dirGood {w : World} (h : WorldGood l rd ks lim P w) : ∃ d, w.fs l = some d ∧ DirGood rd ks lim P d := by
  obtain ⟨d, hd, ⟨v, h1, h2, -⟩, h3, -⟩ := h.dir
  exact ⟨d, hd, ⟨v, h1, h2⟩, h3⟩

theorem WorldGood.step (hg : GoodCrypter P rd) {w w' : World} (h : WorldGood l rd ks lim P w) (hs : World.Step P w w') :
    WorldGood l rd ks lim P w' := by
  cases hs with
  | start fs a b k =>
    have hw : ∀ es, Proc.writing es ∈ a ++ .reading k [fs] :: b ↔ Proc.writing es ∈ a ++ .waiting k :: b := by simp
    have hdg := h.dirGood
    obtain ⟨d, hd, ⟨v, h1, h2, h3⟩, h4, h5⟩ := h.dir
    refine ⟨⟨d, hd, ⟨v, h1, h2, fun n hn => (h3 n hn).mono fun es => (hw es).mpr⟩, h4, fun es hes x hx => ?_⟩, ?_, ?_⟩
    · exact (h5 es ((hw es).mp hes) x hx).mono fun n hn => hn.mono fun es => (hw es).mpr
    · intro k' hk'
      refine h.waiting k' ?_
      simp only [List.mem_append, List.mem_cons, reduceCtorEq, false_or] at hk' ⊢
      exact hk'.imp id .inr
    · intro k' past hk'
      simp only [List.mem_append, List.mem_cons, Proc.reading.injEq] at hk'
      rcases hk' with hk' | ⟨rfl, rfl⟩ | hk'
      · exact h.reading k' past (by simp [hk'])
      · refine ⟨h.waiting k' (by simp), fun g hgm => ?_⟩
        cases List.mem_singleton.mp hgm
        exact hdg
      · exact h.reading k' past (by simp [hk'])
  | decide fs seen a b k past hm =>
    obtain ⟨hk, hp⟩ := h.reading k past (by simp)
    have hw : ∀ es, Proc.writing es ∈ a ++ .reading k past :: b → Proc.writing es ∈ a ++ .writing (k.run P seen).2 :: b := by
      intro es hes
      simp only [List.mem_append, List.mem_cons, reduceCtorEq, false_or] at hes ⊢
      exact hes.imp id .inr
    obtain ⟨d, hd, ⟨v, h1, h2, h3⟩, h4, h5⟩ := h.dir
    refine ⟨⟨d, hd, ⟨v, h1, h2, fun n hn => (h3 n hn).mono hw⟩, h4, fun es hes x hx => ?_⟩, ?_, ?_⟩
    · have : es = (k.run P seen).2 ∨ Proc.writing es ∈ a ++ .reading k past :: b := by
        simp only [List.mem_append, List.mem_cons, reduceCtorEq, false_or, Proc.writing.injEq] at hes ⊢
        rcases hes with hes | hes | hes
        · exact .inr (.inl hes)
        · exact .inl hes
        · exact .inr (.inr hes)
      rcases this with rfl | hes
      · refine (run_effects hg hp hm hk x hx).mono fun n hn => .inr ⟨_, by simp, hn⟩
      · exact (h5 es hes x hx).mono fun n hn => hn.mono hw
    · intro k' hk'
      refine h.waiting k' ?_
      simp only [List.mem_append, List.mem_cons, reduceCtorEq, false_or] at hk' ⊢
      exact hk'
    · intro k' past' hk'
      refine h.reading k' past' ?_
      simp only [List.mem_append, List.mem_cons, reduceCtorEq, false_or] at hk' ⊢
      exact hk'.imp id .inr
  | effect fs a b x es =>
    obtain ⟨d, hd, ⟨v, h1, h2, h3⟩, h4, h5⟩ := h.dir
    have hd : fs l = some d := hd
    -- the directory afterwards, and what stays available
    have key : ∃ d', x.apply fs l = some d' ∧ (∃ v', MetaIs d' v' ∧ ViewGood rd ks lim v' ∧
          ∀ n ∈ v'.versions.map KeyVersion.num, Avail l rd ks P d (a ++ .writing (x :: es) :: b) n) ∧
        (∀ e ∈ ks.entries, (dirReader P rd d').Delivers P ks.type e.num e.key) ∧
        (∀ n k, (dirReader P rd d).Delivers P ks.type n k → ∃ k', (dirReader P rd d').Delivers P ks.type n k') ∧
        ∀ n c, x = .write l (.key n) c → ∃ k', (dirReader P rd d').Delivers P ks.type n k' := by
      have hx := h5 (x :: es) (by simp) x (by simp)
      rw [Effect.apply_eq, FS.set]
      by_cases hxl : l = x.loc
      swap
      · rw [if_neg hxl]
        refine ⟨d, hd, ⟨v, h1, h2, h3⟩, h4, fun n k hk => ⟨k, hk⟩, ?_⟩
        rintro n c rfl
        exact absurd rfl hxl
      rw [if_pos hxl, ← hxl, hd]
      refine ⟨_, rfl, ?_⟩
      rcases hx with hx | hx | ⟨v', rfl, g1, g2⟩
      · exact absurd hxl.symm hx
      · obtain ⟨n, k, hf, hn, hdel⟩ := hx.delivers hg.1 d
        have hsame : ∀ m, m ≠ n → d (.key m) = d.set x.file x.content (.key m) := by
          intro m hm
          rw [Dir.set, if_neg]
          rw [hf]; intro e; cases e; exact hm rfl
        refine ⟨⟨v, ?_, h2, h3⟩, ?_, ?_, ?_⟩
        · obtain ⟨text, kmd, hh, t1, t2, t3⟩ := h1
          refine ⟨text, kmd, hh, ?_, t2, t3⟩
          simp only [Dir.set]
          rw [if_neg (by rw [hf]; intro e; cases e)]
          exact t1
        · intro e he
          by_cases hen : e.num = n
          · rw [hn e he hen, hen]; exact hdel
          · rw [← Delivers_congr (hsame _ hen)]; exact h4 e he
        · intro m k' hk'
          by_cases hmn : m = n
          · subst hmn; exact ⟨_, hdel⟩
          · exact ⟨k', by rw [← Delivers_congr (hsame _ hmn)]; exact hk'⟩
        · rintro m c rfl
          cases hf
          exact ⟨_, hdel⟩
      · have hsame : ∀ m, d (.key m) = d.set .metaFile (some (dumps (viewJson v'))) (.key m) := by
          intro m
          simp [Dir.set]
        refine ⟨⟨v', ?_, g1, g2⟩, ?_, ?_, ?_⟩
        · obtain ⟨kmd, hh, t1, -, t3⟩ := KeyMetadata.Read_viewJson g1.wf g1.nodup
          exact ⟨_, kmd, hh, by simp [Dir.set, Effect.file, Effect.content], t1, t3⟩
        · intro e he
          have := h4 e he
          rwa [Delivers_congr (hsame _)] at this
        · intro m k' hk'
          rw [Delivers_congr (hsame _)] at hk'
          exact ⟨k', hk'⟩
        · intro m c hmc; cases hmc
    obtain ⟨d', hd', ⟨v', e1, e2, e3⟩, e4, e5, e6⟩ := key
    have hav : ∀ n, Avail l rd ks P d (a ++ .writing (x :: es) :: b) n →
        Avail l rd ks P d' ((a ++ .writing es :: b).map (Proc.note (x.apply fs))) n := by
      rintro n (⟨k, hk⟩ | ⟨es', hes', c, hc⟩)
      · exact .inl (e5 n k hk)
      · simp only [List.mem_append, List.mem_cons, Proc.writing.injEq] at hes'
        rcases hes' with hes' | rfl | hes'
        · exact .inr ⟨es', note_writing.mpr (by simp [hes']), c, hc⟩
        · rcases List.mem_cons.mp hc with hc | hc
          · exact .inl (e6 n c hc.symm)
          · exact .inr ⟨es, note_writing.mpr (by simp), c, hc⟩
        · exact .inr ⟨es', note_writing.mpr (by simp [hes']), c, hc⟩
    refine ⟨⟨d', hd', ⟨v', e1, e2, fun n hn => hav n (e3 n hn)⟩, e4, fun es' hes' y hy => ?_⟩, ?_, ?_⟩
    · have hes' := note_writing.mp hes'
      simp only [List.mem_append, List.mem_cons, Proc.writing.injEq] at hes'
      rcases hes' with hes' | rfl | hes'
      · exact (h5 es' (by simp [hes']) y hy).mono hav
      · exact (h5 (x :: es') (by simp) y (by simp [hy])).mono hav
      · exact (h5 es' (by simp [hes']) y hy).mono hav
    · intro k hk
      have hk := note_waiting.mp hk
      refine h.waiting k ?_
      simp only [List.mem_append, List.mem_cons, reduceCtorEq, false_or] at hk ⊢
      exact hk
    · intro k past hk
      obtain ⟨past', rfl, hk'⟩ := note_reading hk
      obtain ⟨r1, r2⟩ := h.reading k past' (by
        simp only [List.mem_append, List.mem_cons, reduceCtorEq, false_or] at hk' ⊢
        exact hk')
      refine ⟨r1, fun g hgm => ?_⟩
      rcases List.mem_cons.mp hgm with rfl | hgm
      · exact ⟨d', hd', ⟨v', e1, e2⟩, e4⟩
      · exact r2 g hgm

theorem WorldGood.steps (hg : GoodCrypter P rd) {w w' : World} (h : WorldGood l rd ks lim P w) (hs : World.Steps P w w') :
    WorldGood l rd ks lim P w' := by
  induction hs with
  | refl => exact h
  | tail _ _ _ hst ih => exact ih.step hg hst

theorem WorldGood.start {fs : FS} (h : Holds P rd fs l ks) (he : ks.encrypted.truthy = rd.isSome) {procs : List Proc}
    (hp : ∀ p ∈ procs, ∃ k, p = .waiting k ∧ Allowed l rd lim k)
    (hlim : ∀ e ∈ ks.entries, lim e.num) : WorldGood l rd ks lim P ⟨fs, procs⟩ := by
  have hld : ks.Loadable P := by
    obtain ⟨c, hc, rfl⟩ := h
    exact (load_loaded hc).loadable
  obtain ⟨d, hd, ⟨⟨text, kmd, hh, t1, t2, t3⟩, hk⟩, -, hpr⟩ := Holds_iff.mp h
  have hv : ks.view.versions.map KeyVersion.num = ks.entries.map Entry.num := by
    unfold KeySet.view
    rw [List.map_map]; rfl
  have hnw : ∀ es, ¬ Proc.writing es ∈ procs := by
    intro es hes
    obtain ⟨k, hk, -⟩ := hp _ hes
    cases hk
  refine ⟨⟨d, hd, ⟨ks.view, ⟨text, kmd, hh, ?_, t2, t3⟩, ⟨hld.view_wf, ?_, ?_, rfl, rfl, he, ?_, ?_⟩, ?_⟩, hk, ?_⟩, ?_, ?_⟩
  · rw [dirReader_meta, ReadFile] at t1
    cases hdm : d .metaFile with
    | none => rw [hdm] at t1; cases t1
    | some x => rw [hdm] at t1; cases t1; rfl
  · rw [hv]; exact hld.valid.nodup
  · rw [primaries_view]; exact hpr
  · intro e hem
    rw [hv]; exact List.mem_map.mpr ⟨e, hem, rfl⟩
  · intro n hn
    rw [hv] at hn
    obtain ⟨e, hem, rfl⟩ := List.mem_map.mp hn
    exact hlim e hem
  · intro n hn
    rw [hv] at hn
    obtain ⟨e, hem, rfl⟩ := List.mem_map.mp hn
    exact .inl ⟨_, hk e hem⟩
  · intro es hes; exact absurd hes (hnw es)
  · intro k hkm
    obtain ⟨k', e, hh⟩ := hp _ hkm
    cases e; exact hh
  · intro k past hkm
    obtain ⟨k', e, hh⟩ := hp _ hkm
    cases e

theorem WorldGood.finish {w : World} (h : WorldGood l rd ks lim P w) (hd : w.Done) :
    ∃ ks', Holds P rd w.fs l ks' ∧ ks'.purpose = ks.purpose ∧ ks'.type = ks.type ∧
      ∀ e ∈ ks.entries, ∃ e' ∈ ks'.entries, e'.num = e.num ∧ e'.key = e.key := by
  obtain ⟨d, hfs, ⟨v, ⟨text, kmd, hh, t1, t2, t3⟩, hv, hav⟩, hold, -⟩ := h.dir
  have hdel : ∀ n ∈ v.versions.map KeyVersion.num, ∃ k, (dirReader P rd d).Delivers P ks.type n k := by
    intro n hn
    rcases hav n hn with h | ⟨es, hes, c, hc⟩
    · exact h
    · cases hd _ hes; cases hc
  classical
  let key : Int → Key := fun n =>
    if hn : ∃ k, (dirReader P rd d).Delivers P ks.type n k then hn.choose else .hmac ⟨[], 0⟩
  have hkey : ∀ n ∈ v.versions.map KeyVersion.num, (dirReader P rd d).Delivers P ks.type n (key n) := by
    intro n hn
    have := hdel n hn
    simp only [key, dif_pos this]
    exact this.choose_spec
  let ks' : KeySet := ⟨v.name, v.purpose, v.type, v.encrypted, v.versions.map fun x => ⟨x.num, x.status, x.exportable, key x.num⟩⟩
  have hview : ks'.view = v := by
    simp only [ks', KeySet.view, List.map_map]
    show KeySet.View.mk v.name v.purpose v.type v.encrypted (v.versions.map fun x => x) = v
    rw [List.map_id']
  refine ⟨ks', Holds_iff.mpr ⟨d, hfs, ⟨⟨text, kmd, hh, ?_, t2, ?_⟩, ?_⟩, ?_, ?_⟩, hv.purpose, hv.type, ?_⟩
  · rw [dirReader_meta, ReadFile, t1]
  · rw [hview, t3]
  · intro e he
    obtain ⟨x, hx, rfl⟩ := List.mem_map.mp he
    show (dirReader P rd d).Delivers P v.type x.num (key x.num)
    rw [hv.type]
    exact hkey _ (List.mem_map.mpr ⟨x, hx, rfl⟩)
  · intro ht
    rw [← hv.enc]; exact ht
  · rw [← primaries_view, hview]; exact hv.primary
  · intro e he
    obtain ⟨x, hx, hxn⟩ := List.mem_map.mp (hv.old e he)
    refine ⟨_, List.mem_map.mpr ⟨x, hx, rfl⟩, hxn, ?_⟩
    show key x.num = e.key
    have h1 := hkey x.num (List.mem_map.mpr ⟨x, hx, rfl⟩)
    rw [hxn] at h1 ⊢
    exact Delivers_unique h1 (hold e he)

/-- C69: any number of processes, each running create, addkey, promote, demote or an export, or any command in another
directory, at the same time: however their reads and writes interleave, when all have finished the directory loads, has
the same purpose and type, and every version that was in the set before is still there with the same key. -/
theorem C69_survives (fs : FS) (h : Holds P rd fs l ks) (he : ks.encrypted.truthy = rd.isSome) (hg : GoodCrypter P rd)
    (cmds : List KCmd) (hc : ∀ k ∈ cmds, Harmless l rd k) (w : World)
    (hs : World.Steps P ⟨fs, cmds.map Proc.waiting⟩ w) (hd : w.Done) :
    ∃ ks', Holds P rd w.fs l ks' ∧ ks'.purpose = ks.purpose ∧ ks'.type = ks.type ∧
      ∀ e ∈ ks.entries, ∃ e' ∈ ks'.entries, e'.num = e.num ∧ e'.key = e.key := by
  refine ((WorldGood.start (lim := fun _ => True) h he ?_ fun _ _ => trivial).steps hg hs).finish hd
  intro p hp
  obtain ⟨k, hk, rfl⟩ := List.mem_map.mp hp
  exact ⟨k, rfl, hc k hk, .inl fun _ => trivial⟩

/-! ### processes one after the other are a special case -/

theorem mixed_self (fs : FS) : Mixed [fs] fs := by
  intro l
  cases h : fs l with
  | none => exact ⟨fs, by simp, h⟩
  | some d => exact fun f => ⟨fs, by simp, d, h, rfl⟩

theorem _root_.Verif.World.Steps.trans {u v w : World} (h : World.Steps P u v) (h' : World.Steps P v w) : World.Steps P u w := by
  induction h' with
  | refl => exact h
  | tail _ _ _ hs ih => exact .tail _ _ _ ih hs

/-- no process is reading -/
def Quiet (ps : List Proc) : Prop := ∀ p ∈ ps, ∀ k past, p ≠ .reading k past

theorem Quiet.note {ps : List Proc} (h : Quiet ps) (fs : FS) : ps.map (Proc.note fs) = ps := by
  conv_rhs => rw [← List.map_id ps]
  refine List.map_congr_left fun p hp => ?_
  cases p with
  | reading k past => exact absurd rfl (h _ hp k past)
  | _ => rfl

/-- a process does some of its effects while the others pause -/
theorem steps_effects (fs : FS) (a b : List Proc) (ha : Quiet a) (hb : Quiet b) (es es' : List Effect) :
    World.Steps P ⟨fs, a ++ .writing (es ++ es') :: b⟩ ⟨applyAll fs es, a ++ .writing es' :: b⟩ := by
  induction es generalizing fs with
  | nil => exact .refl _
  | cons x t ih =>
    have h1 := World.Step.effect (P := P) fs a b x (t ++ es')
    rw [List.map_append, List.map_cons, ha.note, hb.note] at h1
    exact World.Steps.trans (.tail _ _ _ (.refl _) h1) (ih (x.apply fs))

/-- two processes have read the same disk -/
theorem steps_read (fs : FS) (k k' : KCmd) :
    World.Steps P ⟨fs, [.waiting k, .waiting k']⟩ ⟨fs, [.writing (k.run P fs).2, .writing (k'.run P fs).2]⟩ := by
  refine .tail _ ⟨fs, [.writing (k.run P fs).2, .reading k' [fs]]⟩ _ (.tail _ ⟨fs, [.writing (k.run P fs).2, .waiting k']⟩ _
    (.tail _ ⟨fs, [.reading k [fs], .waiting k']⟩ _ (.tail _ _ _ (.refl _) ?_) ?_) ?_) ?_
  · exact .start fs [] [.waiting k'] k
  · exact .decide fs fs [] [.waiting k'] k [fs] (mixed_self fs)
  · exact .start fs [.writing (k.run P fs).2] [] k'
  · exact .decide fs fs [.writing (k.run P fs).2] [] k' [fs] (mixed_self fs)

/-- a management command other than revoke on an unencrypted set -/
def Manages (l : Loc) (k : KCmd) : Prop :=
  (∃ env m, k = .promote env (some l) m) ∨ (∃ env m, k = .demote env (some l) m) ∨
  ∃ env s size, k = .addkey env (some l) s none size

/-- what such a command writes: metadata with all the versions there were -/
theorem manages_effects {fs : FS} (h : Holds P none fs l ks) {k : KCmd} (hk : Manages l k) (hok : (k.run P fs).1 = .ok ()) :
    ∃ ks', ks'.view.WF ∧ (ks'.entries.map Entry.num).Nodup ∧ Keeps (fun _ => False) ks ks' ∧
      touch (k.run P fs).2 l .metaFile = some (some (metaText ks')) ∧ Holds P none (applyAll fs (k.run P fs).2) l ks' ∧
      ∀ e ∈ ks'.entries, touch (k.run P fs).2 l (.key e.num) ≠ none := by
  have main : ∀ env bad op, (∀ n, op ≠ Op.revoke n) → k.run P fs = manage P env l none bad op fs → ∃ ks', ks'.view.WF ∧
      (ks'.entries.map Entry.num).Nodup ∧ Keeps (fun _ => False) ks ks' ∧
      touch (k.run P fs).2 l .metaFile = some (some (metaText ks')) ∧ Holds P none (applyAll fs (k.run P fs).2) l ks' ∧
      ∀ e ∈ ks'.entries, touch (k.run P fs).2 l (.key e.num) ≠ none := by
    intro env bad op hop hrun
    rw [hrun] at hok ⊢
    obtain ⟨c, hc, -, hr, hw⟩ := manage_ok hok
    obtain ⟨c', hc', rfl⟩ := h
    rw [hc] at hc'; cases hc'
    have hl := load_loaded hc
    have hi := Op.run_inv hl.inv op
    have hwf := run_wf hl.inv hl.loadable.view_wf op
    have hs := load_isSome hc
    rw [hw] at hok ⊢
    refine ⟨(op.run P c).2.keySet.stored false, stored_wf hwf _, hi.valid.nodup, (run_keeps hl.inv hop hr).stored _, ?_,
      Czar.Write_holds (enc := none) (rd := none) hi hwf trivial hs hok, ?_⟩
    · obtain ⟨bs, h1, -⟩ := Czar.Write_spec (env := env) hi hwf (l := l) none (fs := fs) hs
      rw [h1, touch]
      have : touch (bs.map (keyWrite l (op.run P c).2)) l .metaFile = none := by
        rw [touch_none]
        intro y hy
        obtain ⟨p, -, rfl⟩ := List.mem_map.mp hy
        rintro ⟨-, hf⟩; cases hf
      rw [this]
      simp [Effect.loc, Effect.file, Effect.content]
    · intro e he
      obtain ⟨p, hpm, rfl⟩ := List.mem_map.mp he
      obtain ⟨k, b, -, -, ht⟩ := Czar.Write_file (env := env) hi hwf (enc := none) hs hok (hi.meta_mem p hpm)
      rw [hi.meta_num p hpm] at ht
      intro hn
      have hn : touch _ l (.key p.1) = none := hn
      rw [ht] at hn; cases hn
  rcases hk with ⟨env, m, rfl⟩ | ⟨env, m, rfl⟩ | ⟨env, s, size, rfl⟩
  · exact main env (decide (m < 0)) (.promote m) (by simp) (by simp only [KCmd.run, Promote_eq])
  · exact main env (decide (m < 0)) (.demote m) (by simp) (by simp only [KCmd.run, Demote_eq])
  · exact main env _ (.add env.gen env.fuel s (if size = -1 then none else some size)) (by simp)
      (by simp only [KCmd.run, AddKey_eq]; rfl)

theorem revoke_effects {fs : FS} (h : Holds P none fs l ks) {env : Env} {n : Int}
    (hr : ((KCmd.revoke env (some l) n).run P fs).1 = .ok ()) :
    (∃ e ∈ ks.entries, e.num = n) ∧ ∃ es, ((KCmd.revoke env (some l) n).run P fs).2 = es ++ [.remove l (.key n)] := by
  simp only [KCmd.run, Revoke_eq] at hr ⊢
  cases hm : manage P env l none (decide (n < 0)) (.revoke n) fs with
  | mk r es =>
    rw [hm] at hr
    cases r with
    | error e => cases hr
    | ok u =>
      refine ⟨?_, es, rfl⟩
      obtain ⟨c, hc, -, hrun, -⟩ := manage_ok (show (manage P env l none (decide (n < 0)) (.revoke n) fs).1 = .ok () by rw [hm])
      obtain ⟨c', hc', rfl⟩ := h
      rw [hc] at hc'; cases hc'
      have := Czar.Revoke_spec (load_loaded hc).inv n
      cases hk : c.keySet.revoke n with
      | none => rw [hk] at this; simp only [Op.run, this] at hrun; cases hrun
      | some ks' =>
        unfold KeySet.revoke at hk
        cases hf : c.keySet.find n with
        | none => rw [hf] at hk; cases hk
        | some e => exact ⟨e, List.mem_of_find?_eq_some hf, by simpa using List.find?_some hf⟩

theorem Holds_congr {fs fs' : FS} (h : Holds P rd fs l ks) {d d' : Dir} (hd : fs l = some d) (hd' : fs' l = some d')
    (hm : d' .metaFile = d .metaFile) (hk : ∀ e ∈ ks.entries, d' (.key e.num) = d (.key e.num)) : Holds P rd fs' l ks := by
  obtain ⟨d1, h1, ⟨⟨text, kmd, hh, t1, t2, t3⟩, h2⟩, h3, h4⟩ := Holds_iff.mp h
  rw [hd] at h1; cases h1
  refine Holds_iff.mpr ⟨d', hd', ⟨⟨text, kmd, hh, ?_, t2, t3⟩, fun e he => ?_⟩, h3, h4⟩
  · rw [dirReader_meta, ReadFile] at t1 ⊢
    rw [hm]; exact t1
  · rw [Delivers_congr (hk e he)]; exact h2 e he

/-- C69: revoke is different.  If a revoke and any successful promote, demote or addkey start from the same directory,
there is an execution after which the directory cannot be loaded any more: the other command writes its metadata, which
lists the version, before revoke removes the key file. -/
theorem C69_revoke_breaks (fs : FS) (h : Holds P none fs l ks) (k : KCmd) (hk : Manages l k) (hok : (k.run P fs).1 = .ok ())
    (env : Env) (n : Int) (hr : ((KCmd.revoke env (some l) n).run P fs).1 = .ok ()) :
    ∃ w, World.Steps P ⟨fs, [.waiting k, .waiting (.revoke env (some l) n)]⟩ w ∧ w.Done ∧
      ∀ rd c, load P rd l w.fs ≠ .ok c := by
  obtain ⟨⟨e, he, hen⟩, es, hes⟩ := revoke_effects h hr
  obtain ⟨ks', h1, h2, ⟨-, -, h3⟩, h4, -, -⟩ := manages_effects h hk hok
  obtain ⟨d, hd, -⟩ := Holds_iff.mp h
  have hq : ∀ es, Quiet [.writing es] := by intro es p hp; cases List.mem_singleton.mp hp; simp
  have hn : Quiet [] := by intro p hp; cases hp
  have s1 := steps_read (P := P) fs k (.revoke env (some l) n)
  rw [hes] at s1
  have s2 := steps_effects (P := P) fs [.writing (k.run P fs).2] [] (hq _) hn es [.remove l (.key n)]
  have s3 := steps_effects (P := P) (applyAll fs es) [] [.writing [.remove l (.key n)]] hn (hq _) (k.run P fs).2 []
  rw [List.append_nil] at s3
  have s4 := steps_effects (P := P) (applyAll (applyAll fs es) (k.run P fs).2) [.writing []] [] (hq _) hn [.remove l (.key n)] []
  refine ⟨_, s1.trans (s2.trans (s3.trans s4)), ?_, ?_⟩
  · intro p hp
    simpa using hp
  · intro rd c hc
    have hfs : applyAll (applyAll (applyAll fs es) (k.run P fs).2) [.remove l (.key n)] l =
        some (dirAfter [.remove l (.key n)] l (dirAfter (k.run P fs).2 l (dirAfter es l d))) := by
      rw [applyAll_at, applyAll_at, applyAll_at, hd]; rfl
    obtain ⟨d', hd', hini⟩ := load_some hc
    cases hfs.symm.trans hd'
    rcases h3 e he with hf | ⟨e', he', hn', -⟩
    · exact hf
    refine no_load_of_missing h1 h2 ?_ he' ?_ rd _ c hini
    · simp only [dirAfter, h4, touch, Effect.loc, Effect.file]
      simp
    · simp [dirAfter, touch, Effect.loc, Effect.file, Effect.content, hn', hen]

/-- C69: and there is an execution in which both succeed and the revoked key is still in the set. -/
theorem C69_revoke_undone (fs : FS) (h : Holds P none fs l ks) (k : KCmd) (hk : Manages l k) (hok : (k.run P fs).1 = .ok ())
    (env : Env) (n : Int) (hr : ((KCmd.revoke env (some l) n).run P fs).1 = .ok ()) :
    ∃ w, World.Steps P ⟨fs, [.waiting k, .waiting (.revoke env (some l) n)]⟩ w ∧ w.Done ∧
      ∃ ks', Holds P none w.fs l ks' ∧ ∃ e ∈ ks.entries, e.num = n ∧ ∃ e' ∈ ks'.entries, e'.num = n ∧ e'.key = e.key := by
  obtain ⟨⟨e, he, hen⟩, -⟩ := revoke_effects h hr
  obtain ⟨ks', h1, h2, ⟨-, -, h3⟩, h4, h5, h6⟩ := manages_effects h hk hok
  obtain ⟨d, hd, -⟩ := Holds_iff.mp h
  have hq : ∀ es, Quiet [.writing es] := by intro es p hp; cases List.mem_singleton.mp hp; simp
  have hn : Quiet [] := by intro p hp; cases hp
  have s1 := steps_read (P := P) fs k (.revoke env (some l) n)
  have s2 := steps_effects (P := P) fs [.writing (k.run P fs).2] [] (hq _) hn ((KCmd.revoke env (some l) n).run P fs).2 []
  have s3 := steps_effects (P := P) (applyAll fs ((KCmd.revoke env (some l) n).run P fs).2) [] [.writing []] hn (hq _)
    (k.run P fs).2 []
  rw [List.append_nil] at s2 s3
  refine ⟨_, s1.trans (s2.trans s3), ?_, ks', ?_, e, he, hen, ?_⟩
  · intro p hp
    simpa using hp
  · refine Holds_congr h5 (d := dirAfter (k.run P fs).2 l d)
      (d' := dirAfter (k.run P fs).2 l (dirAfter ((KCmd.revoke env (some l) n).run P fs).2 l d))
      (by rw [applyAll_at, hd]; rfl) (by dsimp only; rw [applyAll_at, applyAll_at, hd]; rfl) ?_ ?_
    · simp only [dirAfter, h4, Option.getD_some]
    · intro x hx
      obtain ⟨y, hy⟩ := Option.ne_none_iff_exists'.mp (h6 x hx)
      simp only [dirAfter, hy, Option.getD_some]
  · rcases h3 e he with hf | ⟨e', he', hn', hk'⟩
    · exact hf.elim
    · exact ⟨e', he', hn'.trans hen, hk'⟩

/-- example: the hypotheses of `C69_survives` hold of the set "h" without crypter, for an addkey and a promote, and
there is an execution that ends -/
example : (∃ ks, Holds realPrims none (Ex.disk .ACTIVE .PRIMARY) [104] ks ∧ ks.encrypted.truthy = (none : Option Czar).isSome) ∧
    GoodCrypter realPrims none ∧
    (∀ k ∈ [KCmd.addkey Ex.env (some [104]) .PRIMARY none (-1), .promote Ex.env' (some [104]) 1], Harmless [104] none k) ∧
    ∃ w, World.Steps realPrims ⟨Ex.disk .ACTIVE .PRIMARY,
      [KCmd.addkey Ex.env (some [104]) .PRIMARY none (-1), .promote Ex.env' (some [104]) 1].map Proc.waiting⟩ w ∧ w.Done := by
  refine ⟨?_, ⟨trivial, by simp⟩, ?_, ?_⟩
  · have h : (match load realPrims none [104] (Ex.disk .ACTIVE .PRIMARY) with
        | .ok c => decide (c.keySet.encrypted.truthy = false)
        | .error _ => false) = true := by decide +kernel
    cases hc : load realPrims none [104] (Ex.disk .ACTIVE .PRIMARY) with
    | error e => rw [hc] at h; cases h
    | ok c =>
      rw [hc] at h
      exact ⟨_, ⟨c, hc, rfl⟩, by simpa using h⟩
  · intro k hk
    rcases List.mem_cons.mp hk with rfl | hk
    · exact ⟨by simp, by simp, by rintro _ _ _ _ ⟨⟩; rfl⟩
    · cases List.mem_singleton.mp hk
      exact ⟨by simp, by simp, by simp⟩
  · have hq : ∀ es, Quiet [.writing es] := by intro es p hp; cases List.mem_singleton.mp hp; simp
    have hn : Quiet [] := by intro p hp; cases hp
    have s2 := fun fs es es' => steps_effects (P := realPrims) fs [.writing es] [] (hq _) hn es' []
    have s3 := fun fs es => steps_effects (P := realPrims) fs [] [.writing []] hn (hq _) es []
    simp only [List.append_nil] at s2 s3
    refine ⟨_, (steps_read _ _ _).trans ((s2 _ _ _).trans (s3 _ _)), ?_⟩
    intro p hp
    simpa using hp

/-- example: demote and revoke of the set "h" both succeed from the same directory -/
example : ((KCmd.demote Ex.env (some [104]) 2).run realPrims (Ex.disk .INACTIVE .PRIMARY)).1 = .ok () ∧
    ((KCmd.revoke Ex.env' (some [104]) 1).run realPrims (Ex.disk .INACTIVE .PRIMARY)).1 = .ok () ∧
    Ex.isOk (load realPrims none [104] (Ex.disk .INACTIVE .PRIMARY)) = true := by decide +kernel

end
end Verif.Props
