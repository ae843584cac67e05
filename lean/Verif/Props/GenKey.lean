import Verif.Lemmas.GenKey
import Verif.Spec.GenKey
import Verif.Props.Concurrent
import Mathlib.Tactic.FinCases
/-
C70: the `genkey` command.
-/
namespace Verif.Props
open Verif Spec
variable (P : Prims)

/-- A test directory: it loads (through a decrypting reader if there is a crypter) as a set of two keys of the default
size with different identifiers, and holds, besides the files of the set, one output of each key. -/
structure TestDir (env : GenEnv) (name : Bytes) (cr : Option Czar) (p : KeyPurpose) (t : KeyType) (d : Dir)
    (k1 k2 : Key) (out1 out2 : Bytes) : Prop where
  loads : Loads P (readerFor P cr (FileReader d)) (twoKeys p t cr.isSome k1 k2)
  distinct : (twoKeys p t cr.isSome k1 k2).Distinct P
  gen1 : ∃ j, GenKey ((env.add name 0).gen j) t none = .ok k1
  gen2 : ∃ j, GenKey ((env.add name 1).gen j) t none = .ok k2
  files : ∀ f, (d f).isSome = true ↔ f ∈ [.metaFile, .key 1, .key 2, .other (bstr "1.out"), .other (bstr "2.out")]
  file1 : d (.other (bstr "1.out")) = some out1
  file2 : d (.other (bstr "2.out")) = some out2
  made1 : MadeBy P p (bstr "This is some test data") (env.use name 0) k1 out1
  made2 : MadeBy P p (bstr "This is some test data") (env.use name 1) k2 out2

variable {P}

theorem useAnswer_made {rnd : Rand} {p : KeyPurpose} (hp : p = .DECRYPT_AND_ENCRYPT ∨ p = .SIGN_AND_VERIFY) {r : Reader}
    {ks : KeySet} (hks : Loads P r ks) {e : Entry} (he : ks.primaries = [e]) {out : Bytes}
    (h : useAnswer P rnd p r = .ok out) : MadeBy P p testMsg rnd e.key out := by
  have main : ∀ cls c, Czar.init P cls r = .ok c → c.keySet = ks := by
    intro cls c hc
    obtain ⟨c', hc', rfl⟩ := hks
    exact Reader.Gives_unique (Czar.init_ok hc).2.2.1 (Czar.init_ok hc').2.2.1
  rcases hp with rfl | rfl
  · unfold useAnswer at h
    simp only at h
    obtain ⟨c, hc, h⟩ := bind_ok h
    have := main _ _ hc
    exact ⟨c, e, ⟨_, _, hc⟩, by rw [this, he], rfl, fun _ => h, (by intro h; exact absurd h (by decide))⟩
  · unfold useAnswer at h
    simp only at h
    obtain ⟨c, hc, h⟩ := bind_ok h
    have := main _ _ hc
    exact ⟨c, e, ⟨_, _, hc⟩, by rw [this, he], rfl, (by intro h; exact absurd h (by decide)), fun _ => h⟩

theorem Holds.loads {cr : Option Czar} {fs : FS} {l : Loc} {ks : KeySet} (h : Holds P cr fs l ks) {d : Dir}
    (hd : fs l = some d) : Loads P (readerFor P cr (FileReader d)) ks := by
  obtain ⟨c, hc, hk⟩ := h
  obtain ⟨d', hd', hc⟩ := load_some hc
  rw [hd] at hd'
  cases hd'
  exact ⟨c, hc, hk⟩

theorem Holds.files {cr : Option Czar} {fs : FS} {l : Loc} {ks : KeySet} (h : Holds P cr fs l ks) {d : Dir}
    (hd : fs l = some d) : (d .metaFile).isSome = true ∧ ∀ e ∈ ks.entries, (d (.key e.num)).isSome = true := by
  obtain ⟨d1, h1, ⟨⟨text, kmd, hh, t1, t2, t3⟩, h2⟩, h3, h4⟩ := Holds_iff.mp h
  rw [hd] at h1
  cases h1
  constructor
  · rw [dirReader_meta, ReadFile] at t1
    cases hm : d .metaFile with
    | none => rw [hm] at t1; cases t1
    | some _ => rfl
  · intro e he
    obtain ⟨text, h5, h6, -⟩ := h2 e he
    rw [dirReader_key, ReadFile] at h5
    cases hm : d (.key e.num) with
    | none => rw [hm] at h5; cases cr <;> cases h5
    | some _ => rfl

/-- one key set -/
theorem genRow_ok {env : GenEnv} {loc : Loc} {row : KeySetRow} {fs : FS} {p : KeyPurpose} {t : KeyType} {d0 : Dir}
    (hp : row.purpose = p) (hp' : p = .DECRYPT_AND_ENCRYPT ∨ p = .SIGN_AND_VERIFY)
    (ht : NewType (some p) row.asymmetric p t) (hd0 : fs (pathJoin loc row.name) = some d0)
    (hfin : d0.Finite) {cr : Option Czar} (hcr : rowCrypter P loc row.crypter fs = (.ok cr, [])) (ho : Opens P cr cr)
    (hok : (genRow P env loc row fs).1 = .ok ()) :
    (∃ d k1 k2 out1 out2, (genRow P env loc row).after fs (pathJoin loc row.name) = some d ∧
      TestDir P env row.name cr p t d k1 k2 out1 out2) ∧
    ∀ l' ≠ pathJoin loc row.name, (genRow P env loc row).after fs l' = fs l' := by
  unfold genRow at hok ⊢
  simp only [hp] at hok ⊢
  generalize hl : pathJoin loc row.name = l at *
  obtain ⟨cr', e1, hok, e2⟩ := Cmd.seq_ok hok
  have hcr1 : cr' = cr := by rw [hcr] at e1; exact (Except.ok.inj e1).symm
  subst hcr1
  have ha : (rowCrypter P loc row.crypter).after fs = fs := by unfold Cmd.after; rw [hcr]; rfl
  rw [ha] at hok e2
  rw [e2]
  clear e1 e2 ha
  -- empty the directory
  obtain ⟨c1, c2, c3⟩ := Clean_run env hd0 hfin
  obtain ⟨_u, _a, hok, e2⟩ := Cmd.seq_ok hok
  rw [e2]
  clear e2
  generalize (Clean env.ls l).after fs = fs1 at *
  -- create
  obtain ⟨text, r1, r2⟩ := C36_creates_empty P fs1 l _ c2 rfl (Json.ofString "Test") trivial (some p) row.asymmetric p t ht
  obtain ⟨_u, _a, hok, e2⟩ := Cmd.seq_ok hok
  rw [e2]
  clear e2
  have hd2 : (Create (some l) (Json.ofString "Test") (some p) row.asymmetric).after fs1 l
      = some (Dir.set (fun _ => none) .metaFile (some text)) := by
    unfold Cmd.after
    rw [r1]
    simp [applyAll, Effect.apply, FS.set, c2]
  have hl2 : ∀ l' ≠ l, (Create (some l) (Json.ofString "Test") (some p) row.asymmetric).after fs1 l' = fs1 l' := by
    intro l' hl'
    unfold Cmd.after
    rw [r1]
    simp [applyAll, Effect.apply, FS.set, hl']
  generalize (Create (some l) (Json.ofString "Test") (some p) row.asymmetric).after fs1 = fs2 at *
  -- the first key
  obtain ⟨_u, a1, hok, e2⟩ := Cmd.seq_ok hok
  rw [e2]
  clear e2
  obtain ⟨k1, j1, g1, h3, d3, f3, l3⟩ := AddKey_step ho (r2.empty_any cr') (m := 0) (by decide) (by simp [KeySet.empty])
    (.inl rfl) a1
  generalize (AddKey P (env.add row.name 0) (some l) .PRIMARY cr' (-1)).after fs2 = fs3 at *
  obtain ⟨D3, hD3, -⟩ := Holds_iff.mp h3
  have hf3 : ∀ f, f ≠ .metaFile → f ≠ .key 1 → D3 f = none := by
    intro f hf1 hf2
    obtain ⟨d', h1, h2⟩ := f3 f _ hd2 hf1 hf2 (by simp [KeySet.empty])
    rw [hD3] at h1
    cases h1
    rw [h2]
    simp [Dir.set, hf1]
  -- the first use
  obtain ⟨_u, a1, hok, e2⟩ := Cmd.seq_ok hok
  rw [e2]
  clear e2
  obtain ⟨out1, u1, u2⟩ := UseKey_step hD3 a1
  rw [u2] at hok ⊢
  have hm1 := useAnswer_made hp' (Holds.loads h3 hD3) (e := ⟨1, .PRIMARY, .bool false, k1⟩) rfl u1
  have hD4 : (fs3.set l (.other (bstr "1.out")) (some out1)) l = some (D3.set (.other (bstr "1.out")) (some out1)) := by
    simp [FS.set, hD3]
  have h4 := Holds_congr h3 hD3 hD4 (by simp [Dir.set]) (by intro e _; simp [Dir.set])
  have l4 : ∀ l' ≠ l, (fs3.set l (.other (bstr "1.out")) (some out1)) l' = fs3 l' := by
    intro l' hl'
    simp [FS.set, hl']
  generalize fs3.set l (.other (bstr "1.out")) (some out1) = fs4 at *
  -- the second key
  obtain ⟨_u, a1, hok, e2⟩ := Cmd.seq_ok hok
  rw [e2]
  clear e2
  obtain ⟨k2, j2, g2, h5, d5, f5, l5⟩ := AddKey_step ho h4 (m := 1) (by decide)
    (by simp [KeySet.empty, KeySet.add, KeySet.stored, KeySet.mapStatus]) (.inr ⟨⟨1, .PRIMARY, .bool false, k1⟩,
      by simp [KeySet.empty, KeySet.add, KeySet.stored, KeySet.mapStatus], rfl⟩) a1
  generalize (AddKey P (env.add row.name 1) (some l) .PRIMARY cr' (-1)).after fs4 = fs5 at *
  obtain ⟨D5, hD5, -⟩ := Holds_iff.mp h5
  have hf5 : ∀ f, f ≠ .metaFile → f ≠ .key 2 → f ≠ .key 1 → D5 f = D3.set (.other (bstr "1.out")) (some out1) f := by
    intro f hf1 hf2 hf3
    obtain ⟨d', h1, h2⟩ := f5 f _ hD4 hf1 hf2 (by
      simpa [KeySet.empty, KeySet.add, KeySet.stored, KeySet.mapStatus] using hf3)
    rw [hD5] at h1
    cases h1
    exact h2
  -- the second use
  obtain ⟨out2, u3, u4⟩ := UseKey_step hD5 hok
  rw [u4]
  have hm2 := useAnswer_made hp' (Holds.loads h5 hD5) (e := ⟨2, .PRIMARY, .bool false, k2⟩) rfl u3
  have hD6 : (fs5.set l (.other (bstr "2.out")) (some out2)) l = some (D5.set (.other (bstr "2.out")) (some out2)) := by
    simp [FS.set, hD5]
  have h6 := Holds_congr h5 hD5 hD6 (by simp [Dir.set]) (by intro e _; simp [Dir.set])
  refine ⟨⟨_, k1, k2, out1, out2, hD6, ?_⟩, ?_⟩
  · have hdist : (twoKeys p t cr'.isSome k1 k2).Distinct P := by
      have := d5 (d3 (by simp [KeySet.Distinct, KeySet.empty]))
      exact this
    have hg := Holds_iff.mp h6
    refine ⟨Holds.loads h6 hD6, hdist, ⟨j1, g1⟩, ⟨j2, g2⟩, ?_, ?_, ?_, hm1, hm2⟩
    · obtain ⟨q1, q2⟩ := Holds.files h5 hD5
      have q3 := q2 ⟨1, .ACTIVE, .bool false, k1⟩ (by
        simp [KeySet.empty, KeySet.add, KeySet.stored, KeySet.mapStatus])
      have q4 := q2 ⟨2, .PRIMARY, .bool false, k2⟩ (by
        simp [KeySet.empty, KeySet.add, KeySet.stored, KeySet.mapStatus])
      intro f
      by_cases f1 : f = .metaFile
      · subst f1; simpa [Dir.set] using q1
      by_cases f2 : f = .key 1
      · subst f2; simpa [Dir.set] using q3
      by_cases f3 : f = .key 2
      · subst f3; simpa [Dir.set] using q4
      by_cases f4 : f = .other (bstr "2.out")
      · simp [Dir.set, f4]
      have f5 := hf5 f f1 f3 f2
      simp only [Dir.set, f4, if_false] at f5 ⊢
      by_cases f6 : f = .other (bstr "1.out")
      · subst f6; rw [f5]; simp
      · simp [f5, f6, f1, f2, f3, f4, hf3 f f1 f2]
    · rw [Dir.set, if_neg (by decide), hf5 _ (by simp) (by simp) (by simp)]
      simp [Dir.set]
    · simp [Dir.set]
  · intro l' hl'
    simp only [FS.set, hl', if_false]
    rw [l5 l' hl', l4 l' hl', l3 l' hl', hl2 l' hl', c3 l' hl']

/-! ### where the command writes -/

theorem removeFiles_loc (l : Loc) (fl : List FileName) (fs : FS) : ∀ e ∈ (removeFiles l fl fs).2, e.loc = l := by
  induction fl generalizing fs with
  | nil => intro e he; cases he
  | cons f t ih =>
    rw [removeFiles]
    refine bind_effects ?_ fun _ _ => ih _
    unfold RemoveFile
    split
    · simp [Effect.loc]
    · simp

theorem run_loc' {k : KCmd} {l : Loc} (hk : k.target = some l) (fs : FS) : ∀ e ∈ (k.run P fs).2, e.loc = l := by
  intro e he
  have := k.run_loc fs e he
  rw [hk] at this
  exact (Option.some.inj this).symm

theorem CreateReader_effects (l : Loc) (fs : FS) : (Cmd.look (CreateReader l) fs).2 = [] := rfl

theorem UseKey_loc (rnd : Rand) (p : KeyPurpose) (l : Loc) (f : FileName) (cr : Option Czar) (fs : FS) :
    ∀ e ∈ (UseKey P rnd p l f cr fs).2, e.loc = l := by
  unfold UseKey
  refine bind_effects (by simp [look_effects]) fun r _ => ?_
  exact bind_effects (by simp [lift_effects]) fun a _ => WriteFile_loc _ _ _ _

theorem genRow_loc (env : GenEnv) (loc : Loc) (row : KeySetRow) (fs : FS) :
    ∀ e ∈ (genRow P env loc row fs).2, e.loc = pathJoin loc row.name := by
  unfold genRow
  refine bind_effects ?_ fun cr _ => ?_
  · cases row.crypter with
    | none => intro e he; cases he
    | some n =>
      refine bind_effects (by simp [CreateCrypter, look_effects]) fun cr _ => ?_
      intro e he; cases he
  refine bind_effects ?_ fun _ _ => ?_
  · exact bind_effects (by simp [look_effects]) fun d _ => removeFiles_loc _ _ _
  refine bind_effects (run_loc' (P := P) (k := .create _ _ _ _) rfl _) fun _ _ => ?_
  refine bind_effects (run_loc' (P := P) (k := .addkey _ _ _ _ _) rfl _) fun _ _ => ?_
  refine bind_effects (UseKey_loc _ _ _ _ _ _) fun _ _ => ?_
  refine bind_effects (run_loc' (P := P) (k := .addkey _ _ _ _ _) rfl _) fun _ _ => ?_
  exact UseKey_loc _ _ _ _ _ _

theorem genRows_loc (env : GenEnv) (loc : Loc) (rows : List KeySetRow) (fs : FS) :
    ∀ e ∈ (genRows P env loc rows fs).2, ∃ row ∈ rows, e.loc = pathJoin loc row.name := by
  induction rows generalizing fs with
  | nil => intro e he; cases he
  | cons row t ih =>
    rw [genRows]
    refine bind_effects ?_ fun _ _ => ?_
    · exact fun e he => ⟨row, List.mem_cons_self .., genRow_loc env loc row fs e he⟩
    · intro e he
      obtain ⟨r, h1, h2⟩ := ih _ e he
      exact ⟨r, List.mem_cons_of_mem _ h1, h2⟩

theorem genExports_loc (env : GenEnv) (loc : Loc) (names : List Bytes) (fs : FS) :
    ∀ e ∈ (genExports P env loc names fs).2, ∃ n ∈ names, e.loc = pathJoin loc (n ++ bstr ".public") := by
  induction names generalizing fs with
  | nil => intro e he; cases he
  | cons n t ih =>
    rw [genExports]
    refine bind_effects ?_ fun _ _ => ?_
    · exact fun e he => ⟨n, List.mem_cons_self .., run_loc' (P := P) (k := .pubkey _ _ _) rfl fs e he⟩
    · intro e he
      obtain ⟨r, h1, h2⟩ := ih _ e he
      exact ⟨r, List.mem_cons_of_mem _ h1, h2⟩

theorem pathJoin_inj {loc a b : Bytes} (h : pathJoin loc a = pathJoin loc b) : a = b := by
  unfold pathJoin at h
  split at h
  · exact List.append_cancel_left h
  · exact List.cons.inj (List.append_cancel_left h) |>.2

theorem after_of_loc {α} {m : Cmd α} {fs : FS} {Q : Loc → Prop} (h : ∀ e ∈ (m fs).2, Q e.loc) {l : Loc} (hl : ¬ Q l) :
    m.after fs l = fs l :=
  applyAll_other fun e he hh => hl (hh ▸ h e he)

/-! ### the rows of the table -/

theorem genRow_isSome {env : GenEnv} {loc : Loc} {row : KeySetRow} {fs : FS} (hok : (genRow P env loc row fs).1 = .ok ()) :
    ∃ d, fs (pathJoin loc row.name) = some d := by
  cases hd : fs (pathJoin loc row.name) with
  | some d => exact ⟨d, rfl⟩
  | none =>
    unfold genRow at hok
    obtain ⟨cr, e1, hok, e2⟩ := Cmd.seq_ok hok
    have ha : (rowCrypter P loc row.crypter).after fs = fs := by
      cases row.crypter with
      | none => rfl
      | some n =>
        unfold Cmd.after
        have : ∀ e ∈ (rowCrypter P loc (some n) fs).2, False := by
          refine bind_effects (by simp [CreateCrypter, look_effects]) fun cr _ => ?_
          intro e he; cases he
        rw [List.eq_nil_iff_forall_not_mem.mpr this]
        rfl
    rw [ha] at hok
    obtain ⟨_u, e1, -⟩ := Cmd.seq_ok hok
    rw [Clean_missing env hd] at e1
    cases e1

theorem genRow_plain {env : GenEnv} {loc : Loc} {row : KeySetRow} {fs : FS} {p : KeyPurpose} {t : KeyType}
    (hp : row.purpose = p) (hp' : p = .DECRYPT_AND_ENCRYPT ∨ p = .SIGN_AND_VERIFY)
    (ht : NewType (some p) row.asymmetric p t) (hcr : row.crypter = none)
    (hfin : ∀ d, fs (pathJoin loc row.name) = some d → d.Finite)
    (hok : (genRow P env loc row fs).1 = .ok ()) :
    ∃ d k1 k2 out1 out2, (genRow P env loc row).after fs (pathJoin loc row.name) = some d ∧
      TestDir P env row.name none p t d k1 k2 out1 out2 := by
  obtain ⟨d0, hd0⟩ := genRow_isSome hok
  exact (genRow_ok hp hp' ht hd0 (hfin d0 hd0) (cr := none) (by rw [hcr]; rfl) trivial hok).1

/-- the row whose key files are encrypted -/
theorem genRow_crypted {env : GenEnv} {loc : Loc} {row : KeySetRow} {fs : FS} {p : KeyPurpose} {t : KeyType} {n : Bytes}
    (hp : row.purpose = p) (hp' : p = .DECRYPT_AND_ENCRYPT ∨ p = .SIGN_AND_VERIFY)
    (ht : NewType (some p) row.asymmetric p t) (hcr : row.crypter = some n)
    (hfin : ∀ d, fs (pathJoin loc row.name) = some d → d.Finite)
    (hok : (genRow P env loc row fs).1 = .ok ()) {da : Dir} (hda : fs (pathJoin loc n) = some da)
    (ho : ∀ cr, Czar.init P .crypter (FileReader da) = .ok cr → Opens P (some cr) (some cr)) :
    ∃ cr, Czar.init P .crypter (FileReader da) = .ok cr ∧
    ∃ d k1 k2 out1 out2, (genRow P env loc row).after fs (pathJoin loc row.name) = some d ∧
      TestDir P env row.name (some cr) p t d k1 k2 out1 out2 := by
  obtain ⟨d0, hd0⟩ := genRow_isSome hok
  have hrun : rowCrypter P loc row.crypter fs =
      ((Czar.init P .crypter (FileReader da)).map some, []) := by
    rw [hcr, rowCrypter, CreateCrypter, Cmd.look_bind]
    have hr : CreateReader (pathJoin loc n) fs = .ok (FileReader da) := by unfold CreateReader; rw [hda]
    rw [hr]
    simp only [bind, Except.bind]
    cases Czar.init P .crypter (FileReader da) <;> rfl
  cases hc : Czar.init P .crypter (FileReader da) with
  | error e =>
    unfold genRow at hok
    obtain ⟨cr, e1, -⟩ := Cmd.seq_ok hok
    rw [hrun, hc] at e1
    cases e1
  | ok cr =>
    rw [hc] at hrun
    exact ⟨cr, rfl, (genRow_ok hp hp' ht hd0 (hfin d0 hd0) (cr := some cr) hrun (ho cr hc) hok).1⟩

/-- what is loaded from a directory of test keys -/
theorem TestDir.loaded {env : GenEnv} {name : Bytes} {cr : Option Czar} {p : KeyPurpose} {t : KeyType} {d : Dir}
    {k1 k2 : Key} {o1 o2 : Bytes} (h : TestDir P env name cr p t d k1 k2 o1 o2) {cls : CzarClass} {c : Czar}
    (hc : Czar.init P cls (readerFor P cr (FileReader d)) = .ok c) :
    Loaded P c ∧ c.keySet = twoKeys p t cr.isSome k1 k2 ∧ c.keySet.Distinct P := by
  obtain ⟨c', hc', hk⟩ := h.loads
  have : c.keySet = c'.keySet := Reader.Gives_unique (Czar.init_ok hc).2.2.1 (Czar.init_ok hc').2.2.1
  rw [hk] at this
  exact ⟨⟨_, _, hc⟩, this, this ▸ h.distinct⟩

theorem GenKey_aes {rnd : Rand} {k : Key} (h : GenKey rnd .AES none = .ok k) : ∃ a, k = .aes a := by
  cases h
  exact ⟨_, rfl⟩

theorem TestDir.opens {env : GenEnv} {name : Bytes} {p : KeyPurpose} {d : Dir}
    {k1 k2 : Key} {o1 o2 : Bytes} (h : TestDir P env name none p .AES d k1 k2 o1 o2) {cr : Czar}
    (hc : Czar.init P .crypter (FileReader d) = .ok cr) : Opens P (some cr) (some cr) := by
  obtain ⟨h1, h2, h3⟩ := h.loaded (cls := .crypter) (c := cr) hc
  obtain ⟨j, hj⟩ := h.gen2
  obtain ⟨a, rfl⟩ := GenKey_aes hj
  exact C33_aes_opens P cr cr h1 h1 h3 ⟨2, .PRIMARY, .bool false, .aes a⟩ ⟨2, .PRIMARY, .bool false, .aes a⟩ a
    (by rw [h2]; rfl) rfl (by rw [h2]; simp [twoKeys]) rfl

theorem genRow_others {env : GenEnv} {loc : Loc} {row : KeySetRow} {fs : FS} {n : Bytes} (hn : n ≠ row.name) :
    (genRow P env loc row).after fs (pathJoin loc n) = fs (pathJoin loc n) :=
  after_of_loc (Q := (· = pathJoin loc row.name)) (genRow_loc env loc row fs) fun h => hn (pathJoin_inj h)

theorem genRows_others {env : GenEnv} {loc : Loc} {rows : List KeySetRow} {fs : FS} {n : Bytes}
    (hn : ∀ row ∈ rows, n ≠ row.name) : (genRows P env loc rows).after fs (pathJoin loc n) = fs (pathJoin loc n) :=
  after_of_loc (Q := fun l => ∃ row ∈ rows, l = pathJoin loc row.name) (genRows_loc env loc rows fs)
    fun ⟨row, h1, h2⟩ => hn row h1 (pathJoin_inj h2)

theorem genExports_others {env : GenEnv} {loc : Loc} {names : List Bytes} {fs : FS} {n : Bytes}
    (hn : ∀ m ∈ names, n ≠ m ++ bstr ".public") :
    (genExports P env loc names).after fs (pathJoin loc n) = fs (pathJoin loc n) :=
  after_of_loc (Q := fun l => ∃ m ∈ names, l = pathJoin loc (m ++ bstr ".public")) (genExports_loc env loc names fs)
    fun ⟨m, h1, h2⟩ => hn m h1 (pathJoin_inj h2)

/-- a row without crypter, with the set it makes -/
def PlainRow (row : KeySetRow) (t : KeyType) : Prop :=
  (row.purpose = .DECRYPT_AND_ENCRYPT ∨ row.purpose = .SIGN_AND_VERIFY) ∧
  NewType (some row.purpose) row.asymmetric row.purpose t ∧ row.crypter = none

theorem genRows_plain {env : GenEnv} {loc : Loc} {rows : List KeySetRow} {fs : FS}
    (hn : (rows.map KeySetRow.name).Nodup)
    (hfin : ∀ row ∈ rows, ∀ d, fs (pathJoin loc row.name) = some d → d.Finite)
    (hok : (genRows P env loc rows fs).1 = .ok ()) :
    ∀ row ∈ rows, ∀ t, PlainRow row t → ∃ d k1 k2 out1 out2,
      (genRows P env loc rows).after fs (pathJoin loc row.name) = some d ∧
      TestDir P env row.name none row.purpose t d k1 k2 out1 out2 := by
  induction rows generalizing fs with
  | nil => intro row h; cases h
  | cons r rows ih =>
    rw [genRows] at hok ⊢
    obtain ⟨_u, h1, h2, h3⟩ := Cmd.seq_ok hok
    have hnd := List.nodup_cons.mp hn
    have hne : ∀ row ∈ rows, r.name ≠ row.name := fun row hr e => hnd.1 (e ▸ List.mem_map_of_mem hr)
    intro row hrow t ht
    rw [h3]
    rcases List.mem_cons.mp hrow with rfl | hrow
    · obtain ⟨d, k1, k2, o1, o2, q1, q2⟩ := genRow_plain rfl ht.1 ht.2.1 ht.2.2
        (hfin _ (List.mem_cons_self ..)) h1
      refine ⟨d, k1, k2, o1, o2, ?_, q2⟩
      rw [genRows_others hne, q1]
    · refine ih hnd.2 ?_ h2 row hrow t ht
      intro row hr d hd
      rw [genRow_others (hne row hr).symm] at hd
      exact hfin row (List.mem_cons_of_mem _ hr) d hd

theorem Loads.holds {fs : FS} {l : Loc} {d : Dir} (hd : fs l = some d) {ks : KeySet} (h : Loads P (FileReader d) ks) :
    Holds P none fs l ks := by
  obtain ⟨c, h1, h2⟩ := h
  refine ⟨c, ?_, h2⟩
  unfold load
  rw [hd]
  exact h1

theorem export_step {env : Env} {fs : FS} {l dest : Loc} {d : Dir} (hd : fs l = some d)
    {ks : KeySet} (h : Loads P (FileReader d) ks) {p : KeyPurpose} {t : KeyType} (he : Exports ks.type ks.purpose t p)
    (hok : (PubKey P env (some l) (some dest) fs).1 = .ok ()) :
    ∃ d' ks', (PubKey P env (some l) (some dest)).after fs dest = some d' ∧ Loads P (FileReader d') ks' ∧ ks'.PublicOf ks := by
  cases hdd : fs dest with
  | none =>
    obtain ⟨⟨e, h1⟩, -⟩ := C41_refuses P env fs (some l) (some dest) (.inr (.inl ⟨dest, rfl, hdd⟩))
    rw [h1] at hok
    cases hok
  | some d0 =>
    obtain ⟨-, d', ks', h1, h2, h3, -⟩ := C41_export P env fs l dest ks (Loads.holds hd h) t p he d0 hdd
    exact ⟨d', ks', h1, Holds.loads h2 h1, h3⟩

theorem pubkey_others {env : Env} {fs : FS} {loc : Loc} {n m : Bytes} {l : Option Loc} (hn : n ≠ m) :
    (PubKey P env l (some (pathJoin loc m))).after fs (pathJoin loc n) = fs (pathJoin loc n) :=
  after_of_loc (Q := (· = pathJoin loc m)) (run_loc' (P := P) (k := .pubkey _ _ _) rfl fs) fun h => hn (pathJoin_inj h)

theorem isRsa_rsa : IsRsa (bstr "rsa") := ⟨114, 115, 97, by decide, by decide, by decide, by decide⟩

theorem not_isRsa_dsa : ¬ IsRsa (bstr "dsa") := by
  rintro ⟨x, y, z, h, hx, -⟩
  have : x = 100 := (List.cons.inj (h.symm.trans (show bstr "dsa" = [100, 115, 97] by decide))).1
  subst this
  exact absurd hx (by decide)

/-- the six rows -/
theorem KEYSETS_ok (env : GenEnv) (loc : Loc) (fs : FS)
    (hfin : ∀ name p t x, TestRow name p t x → ∀ d, fs (pathJoin loc name) = some d → d.Finite)
    (hrows : (genRows P env loc KEYSETS fs).1 = .ok ()) :
    ∃ da cr, (genRows P env loc KEYSETS).after fs (pathJoin loc (bstr "aes")) = some da ∧
      Czar.init P .crypter (FileReader da) = .ok cr ∧ Opens P (some cr) (some cr) ∧
      (∀ name p t x, TestRow name p t x → ∃ d k1 k2 out1 out2,
        (genRows P env loc KEYSETS).after fs (pathJoin loc name) = some d ∧
        TestDir P env name (if x then some cr else none) p t d k1 k2 out1 out2) := by
  unfold KEYSETS at hrows ⊢
  rw [genRows] at hrows ⊢
  obtain ⟨_u, h1, h2, h3⟩ := Cmd.seq_ok hrows
  rw [h3]
  clear h3
  obtain ⟨da, k1, k2, o1, o2, q1, q2⟩ := genRow_plain (P := P) (env := env) (loc := loc)
    (p := .DECRYPT_AND_ENCRYPT) (t := .AES) rfl (.inl rfl) .aes rfl (hfin _ _ _ _ .aes) h1
  have f1 : ∀ n, n ≠ bstr "aes" → (genRow P env loc ⟨bstr "aes", .DECRYPT_AND_ENCRYPT, none, none⟩).after fs
      (pathJoin loc n) = fs (pathJoin loc n) := fun n hn => genRow_others hn
  generalize (genRow P env loc ⟨bstr "aes", .DECRYPT_AND_ENCRYPT, none, none⟩).after fs = fs1 at *
  rw [genRows] at h2 ⊢
  obtain ⟨_u, h3, h4, h5⟩ := Cmd.seq_ok h2
  rw [h5]
  clear h5
  obtain ⟨cr, hcr, db, k1', k2', o1', o2', q3, q4⟩ := genRow_crypted (P := P) (env := env) (loc := loc)
    (p := .DECRYPT_AND_ENCRYPT) (t := .AES) rfl (.inl rfl) .aes rfl
    (by
      intro d hd
      rw [f1 _ (by decide)] at hd
      exact hfin _ _ _ _ .aesCrypted d hd) h3 q1 (fun cr hc => q2.opens hc)
  have f2 : ∀ n, n ≠ bstr "aes-crypted" → (genRow P env loc
      ⟨bstr "aes-crypted", .DECRYPT_AND_ENCRYPT, none, some (bstr "aes")⟩).after fs1
      (pathJoin loc n) = fs1 (pathJoin loc n) := fun n hn => genRow_others hn
  simp only at q3 q4
  generalize (genRow P env loc ⟨bstr "aes-crypted", .DECRYPT_AND_ENCRYPT, none, some (bstr "aes")⟩).after fs1 = fs2 at *
  have hrest := genRows_plain (by decide) (by
    intro row hrow d hd
    have hf : fs2 (pathJoin loc row.name) = fs (pathJoin loc row.name) := by
      fin_cases hrow <;> rw [f2 _ (by decide), f1 _ (by decide)]
    rw [hf] at hd
    fin_cases hrow
    · exact hfin _ _ _ _ .hmac d hd
    · exact hfin _ _ _ _ .rsa d hd
    · exact hfin _ _ _ _ .rsaSign d hd
    · exact hfin _ _ _ _ .dsa d hd) h4
  have haes := genRows_others (P := P) (env := env) (loc := loc) (fs := fs2) (n := bstr "aes")
    (rows := [⟨bstr "hmac", .SIGN_AND_VERIFY, none, none⟩, ⟨bstr "rsa", .DECRYPT_AND_ENCRYPT, some (bstr "rsa"), none⟩,
      ⟨bstr "rsa-sign", .SIGN_AND_VERIFY, some (bstr "rsa"), none⟩,
      ⟨bstr "dsa", .SIGN_AND_VERIFY, some (bstr "dsa"), none⟩]) (by decide)
  have hcrypted := genRows_others (P := P) (env := env) (loc := loc) (fs := fs2) (n := bstr "aes-crypted")
    (rows := [⟨bstr "hmac", .SIGN_AND_VERIFY, none, none⟩, ⟨bstr "rsa", .DECRYPT_AND_ENCRYPT, some (bstr "rsa"), none⟩,
      ⟨bstr "rsa-sign", .SIGN_AND_VERIFY, some (bstr "rsa"), none⟩,
      ⟨bstr "dsa", .SIGN_AND_VERIFY, some (bstr "dsa"), none⟩]) (by decide)
  have ha : fs2 (pathJoin loc (bstr "aes")) = some da := by rw [f2 _ (by decide)]; exact q1
  refine ⟨da, cr, by rw [haes, ha], hcr, q2.opens hcr, ?_⟩
  intro name p t x hx
  cases hx with
  | aes => exact ⟨da, k1, k2, o1, o2, by rw [haes, ha], q2⟩
  | aesCrypted => exact ⟨db, k1', k2', o1', o2', by rw [hcrypted, q3], q4⟩
  | hmac =>
    exact hrest ⟨bstr "hmac", .SIGN_AND_VERIFY, none, none⟩ (by simp) _ ⟨.inr rfl, .hmac, rfl⟩
  | rsa =>
    exact hrest ⟨bstr "rsa", .DECRYPT_AND_ENCRYPT, some (bstr "rsa"), none⟩ (by simp) _ ⟨.inl rfl, .rsaCrypt, rfl⟩
  | rsaSign =>
    exact hrest ⟨bstr "rsa-sign", .SIGN_AND_VERIFY, some (bstr "rsa"), none⟩ (by simp) _
      ⟨.inr rfl, .rsaSign isRsa_rsa, rfl⟩
  | dsa =>
    exact hrest ⟨bstr "dsa", .SIGN_AND_VERIFY, some (bstr "dsa"), none⟩ (by simp) _
      ⟨.inr rfl, .dsa not_isRsa_dsa, rfl⟩

/-- C70: when `genkey` succeeds, the directory of each of the six rows holds the two test keys and their outputs,
those of `aes-crypted` readable with the Crypter loaded from `aes`, and `dsa.public` and `rsa-sign.public` hold the
public key sets of `dsa` and `rsa-sign`. -/
theorem C70_generates (env : GenEnv) (loc : Loc) (fs : FS)
    (hfin : ∀ name p t x, TestRow name p t x → ∀ d, fs (pathJoin loc name) = some d → d.Finite)
    (hok : (GenKeySet P env (some loc) fs).1 = .ok ()) :
    ∃ da cr, (GenKeySet P env (some loc)).after fs (pathJoin loc (bstr "aes")) = some da ∧
      Czar.init P .crypter (FileReader da) = .ok cr ∧ Opens P (some cr) (some cr) ∧
      (∀ name p t x, TestRow name p t x → ∃ d k1 k2 out1 out2,
        (GenKeySet P env (some loc)).after fs (pathJoin loc name) = some d ∧
        TestDir P env name (if x then some cr else none) p t d k1 k2 out1 out2) ∧
      ∀ name ∈ [bstr "dsa", bstr "rsa-sign"], ∀ d ks,
        (GenKeySet P env (some loc)).after fs (pathJoin loc name) = some d → Loads P (FileReader d) ks →
        ∃ d' ks', (GenKeySet P env (some loc)).after fs (pathJoin loc (name ++ bstr ".public")) = some d' ∧
          Loads P (FileReader d') ks' ∧ ks'.PublicOf ks := by
  unfold GenKeySet at hok ⊢
  simp only at hok ⊢
  obtain ⟨_u, hrows, hexp, hafter⟩ := Cmd.seq_ok hok
  rw [hafter]
  -- the rows
  have hkeep : ∀ name p t x, TestRow name p t x →
      (genExports P env loc [bstr "dsa", bstr "rsa-sign"]).after ((genRows P env loc KEYSETS).after fs) (pathJoin loc name)
        = (genRows P env loc KEYSETS).after fs (pathJoin loc name) := by
    intro name p t x hx
    apply genExports_others
    cases hx <;> decide
  obtain ⟨da, cr, m1, m2, m3, m4⟩ := KEYSETS_ok env loc fs hfin hrows
  refine ⟨da, cr, ?_, m2, m3, ?_, ?_⟩
  · rw [hkeep _ _ _ _ .aes]; exact m1
  · intro name p t x hx
    rw [hkeep _ _ _ _ hx]
    exact m4 _ _ _ _ hx
  -- the exports
  · obtain ⟨d1, a1, a2, a3, a4, a5, a6⟩ := m4 _ _ _ _ .dsa
    obtain ⟨d2, b1, b2, b3, b4, b5, b6⟩ := m4 _ _ _ _ .rsaSign
    have hk1 := hkeep _ _ _ _ .dsa
    have hk2 := hkeep _ _ _ _ .rsaSign
    generalize (genRows P env loc KEYSETS).after fs = fs1 at *
    have huniq : ∀ {d ks ks'}, Loads P (FileReader d) ks → Loads P (FileReader d) ks' → ks = ks' := by
      rintro d ks ks' ⟨c, hc, rfl⟩ ⟨c', hc', rfl⟩
      exact Reader.Gives_unique (Czar.init_ok hc).2.2.1 (Czar.init_ok hc').2.2.1
    rw [genExports] at hexp hk1 hk2 ⊢
    obtain ⟨_u, e1, e2, e3⟩ := Cmd.seq_ok hexp
    rw [e3] at hk1 hk2 ⊢
    obtain ⟨p1, s1, r1, r2, r3⟩ := export_step (ks := twoKeys .SIGN_AND_VERIFY .DSA_PRIV false a1 a2) a5 a6.loads .dsa e1
    have f1 : ∀ n, n ≠ bstr "dsa" ++ bstr ".public" → (PubKey P (env.pub (bstr "dsa")) (some (pathJoin loc (bstr "dsa")))
        (some (pathJoin loc (bstr "dsa" ++ bstr ".public")))).after fs1 (pathJoin loc n) = fs1 (pathJoin loc n) :=
      fun n hn => pubkey_others hn
    generalize (PubKey P (env.pub (bstr "dsa")) (some (pathJoin loc (bstr "dsa")))
        (some (pathJoin loc (bstr "dsa" ++ bstr ".public")))).after fs1 = fs2 at *
    rw [genExports] at e2 hk1 hk2 ⊢
    obtain ⟨_u, e4, e5, e6⟩ := Cmd.seq_ok e2
    rw [e6] at hk1 hk2 ⊢
    obtain ⟨p2, s2, r4, r5, r6⟩ := export_step (ks := twoKeys .SIGN_AND_VERIFY .RSA_PRIV false b1 b2)
      (by rw [f1 _ (by decide)]; exact b5) b6.loads .rsaSign e4
    have f2 : ∀ n, n ≠ bstr "rsa-sign" ++ bstr ".public" → (PubKey P (env.pub (bstr "rsa-sign"))
        (some (pathJoin loc (bstr "rsa-sign"))) (some (pathJoin loc (bstr "rsa-sign" ++ bstr ".public")))).after fs2
        (pathJoin loc n) = fs2 (pathJoin loc n) := fun n hn => pubkey_others hn
    intro name hname d ks hd hks
    rcases List.mem_cons.mp hname with rfl | hname
    · rw [hk1, a5] at hd
      cases hd
      rw [huniq hks a6.loads]
      exact ⟨p1, s1, (f2 _ (by decide)).trans r1, r2, r3⟩
    · rw [List.mem_singleton] at hname
      subst hname
      rw [hk2, b5] at hd
      cases hd
      rw [huniq hks b6.loads]
      exact ⟨p2, s2, r4, r5, r6⟩

end Verif.Props
