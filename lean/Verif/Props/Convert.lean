import Verif.Lemmas.Convert
import Verif.Model.Aes
/-
C100: the script that converts key sets of old versions of the C++ implementation.
-/
namespace Verif.Props
open Verif Verif.Convert
open Verif.Spec (zeroCzar)

/-! ### single keys -/

/-- C100: a key file read by the library is read after the conversion as well, as the key with a zero byte before each of
its numbers. -/
theorem C100_key (t : KeyType) (text new : Bytes) (k : Key) (h : newText text = .ok new)
    (hk : ReadKey t text = .ok k) : ReadKey t new = .ok (Spec.withZeros k) := ReadKey_newText h hk

/-- C100: the text the library writes for a key, of any type, becomes the text it writes for the key with the zero
bytes. -/
theorem C100_text (k : Key) : ∃ text, k.str = .ok text ∧ newText text = (Spec.withZeros k).str := newText_str k

/-- C100: the identifier stays. -/
theorem C100_identifier (P : Prims) (k : Key) : (Spec.withZeros k).hashId P = k.hashId P := hashId_withZeros P k

/-- C100: so does everything the key computes. -/
theorem C100_use (P : Prims) (k : Key) :
    (Spec.withZeros k).type = k.type ∧ (Spec.withZeros k).size = k.size ∧
    (∀ rnd data, (Spec.withZeros k).Encrypt P rnd data = k.Encrypt P rnd data) ∧
    (∀ input, (Spec.withZeros k).Decrypt P input = k.Decrypt P input) ∧
    (∀ rnd msg, (Spec.withZeros k).Sign P rnd msg = k.Sign P rnd msg) ∧
    (∀ msg sig, (Spec.withZeros k).Verify P msg sig = k.Verify P msg sig) := by
  cases k <;> exact ⟨rfl, rfl, fun _ _ => rfl, fun _ => rfl, fun _ _ => rfl, fun _ _ => rfl⟩

/-! ### the script on the disk -/

/-- the version numbers listed by metadata -/
def Listed (items : List Json) (n : Int) : Prop := ∃ v ∈ items, versionNumber v = .ok n

theorem rewriteKey_ok {src dst : Loc} {n : Int} {fs : FS} {s : Dir} (hs : fs src = some s) (hd : (fs dst).isSome)
    (h : (rewriteKey src dst n fs).1 = .ok ()) :
    ∃ text new, s (.key n) = some text ∧ newText text = .ok new ∧
      (rewriteKey src dst n fs).2 = [.write dst (.key n) new] := by
  unfold rewriteKey Cmd.andThen readFile Cmd.look Cmd.lift writeFile at h ⊢
  simp only [hs, Option.bind_some] at h ⊢
  cases ht : s (.key n) with
  | none => rw [ht] at h; cases h
  | some text =>
    rw [ht] at h
    simp only at h ⊢
    cases hn : newText text with
    | error e => rw [hn] at h; cases h
    | ok new =>
      refine ⟨text, new, rfl, hn, ?_⟩
      simp [applyAll, hd]

theorem rewriteKeys_ok {src dst : Loc} (hne : src ≠ dst) (items : List Json) : ∀ {fs : FS} {s d : Dir},
    fs src = some s → fs dst = some d → (rewriteKeys src dst items fs).1 = .ok () →
    (rewriteKeys src dst items).after fs src = some s ∧
    ∃ d', (rewriteKeys src dst items).after fs dst = some d' ∧
      (∀ n, Listed items n → ∃ text new, s (.key n) = some text ∧ newText text = .ok new ∧ d' (.key n) = some new) ∧
      (∀ f, (∀ n, Listed items n → f ≠ .key n) → d' f = d f) ∧
      (∀ l, l ≠ dst → (rewriteKeys src dst items).after fs l = fs l) := by
  induction items with
  | nil =>
    intro fs s d hs hd _
    refine ⟨hs, d, hd, ?_, fun _ _ => rfl, fun _ _ => rfl⟩
    rintro n ⟨v, hv, _⟩
    cases hv
  | cons v t ih =>
    intro fs s d hs hd h
    unfold Cmd.after at ih ⊢
    rw [rewriteKeys] at h ⊢
    unfold Cmd.andThen Cmd.lift at h ⊢
    cases hv : versionNumber v with
    | error e => rw [hv] at h; cases h
    | ok n =>
      rw [hv] at h
      simp only [applyAll, List.foldl_nil, List.nil_append] at h ⊢
      cases hk : rewriteKey src dst n fs with
      | mk r es =>
        rw [hk] at h
        cases r with
        | error e => cases h
        | ok u =>
          obtain ⟨text, new, h1, h2, h3⟩ := rewriteKey_ok (n := n) hs (by rw [hd]; rfl) (by rw [hk])
          rw [hk] at h3
          simp only at h3
          subst h3
          simp only [List.foldl_cons, List.foldl_nil, Effect.apply, List.singleton_append] at h ⊢
          have e1 : fs.set dst (.key n) (some new) src = some s := by unfold FS.set; rw [if_neg hne, hs]
          have e2 : fs.set dst (.key n) (some new) dst = some (d.set (.key n) (some new)) := by
            unfold FS.set; rw [if_pos rfl, hd]; rfl
          obtain ⟨i1, d', i2, i3, i4, i5⟩ := ih e1 e2 h
          refine ⟨i1, d', i2, ?_, ?_, ?_⟩
          · rintro m ⟨w, hw, hm⟩
            by_cases hl : Listed t m
            · exact i3 m hl
            · rcases List.mem_cons.mp hw with rfl | hw
              · rw [hv] at hm
                obtain rfl := Except.ok.inj hm
                refine ⟨text, new, h1, h2, ?_⟩
                rw [i4 (.key n)]
                · unfold Dir.set; rw [if_pos rfl]
                · rintro m hm heq
                  obtain rfl := FileName.key.inj heq
                  exact hl hm
              · exact absurd ⟨w, hw, hm⟩ hl
          · intro f hf
            rw [i4 f fun m ⟨w, hw, hm⟩ => hf m ⟨w, by simp [hw], hm⟩]
            unfold Dir.set
            rw [if_neg (hf n ⟨v, by simp, hv⟩)]
          · intro l hl
            refine (i5 l hl).trans ?_
            unfold FS.set
            rw [if_neg hl]

/-- C100: what a run without exception leaves behind: in the destination the metadata of the source, byte for byte, and
the new text of every listed key; nothing else changes, and the source in particular does not. -/
theorem C100_disk {src dst : Loc} {fs : FS} {s d : Dir} (hne : src ≠ dst) (hs : fs src = some s) (hd : fs dst = some d)
    (h : (doit src dst fs).1 = .ok ()) :
    ∃ text items d', s .metaFile = some text ∧ metaItems text = .ok items ∧
      (doit src dst).after fs dst = some d' ∧ d' .metaFile = some text ∧
      (∀ n, Listed items n → ∃ key new, s (.key n) = some key ∧ newText key = .ok new ∧ d' (.key n) = some new) ∧
      (∀ f, f ≠ .metaFile → (∀ n, Listed items n → f ≠ .key n) → d' f = d f) ∧
      (∀ l, l ≠ dst → (doit src dst).after fs l = fs l) := by
  have hcond : (fs src).isSome ∧ (fs dst).isSome := by simp [hs, hd]
  unfold doit at h
  rw [if_pos hcond] at h
  have ha : (doit src dst).after fs = (iterateMeta src dst).after fs := by
    unfold Cmd.after doit; rw [if_pos hcond]
  rw [ha]
  unfold Cmd.after
  unfold iterateMeta readFile at h ⊢
  unfold Cmd.andThen Cmd.look Cmd.lift at h ⊢
  simp only [hs, Option.bind_some] at h ⊢
  cases ht : s .metaFile with
  | none => rw [ht] at h; cases h
  | some text =>
    rw [ht] at h
    simp only at h ⊢
    cases hi : metaItems text with
    | error e => rw [hi] at h; cases h
    | ok items =>
      rw [hi] at h
      simp only [applyAll, List.foldl_nil, List.nil_append] at h ⊢
      cases hk : rewriteKeys src dst items fs with
      | mk r es =>
        rw [hk] at h
        cases r with
        | error e => cases h
        | ok u =>
          obtain ⟨i1, d', i2, i3, i4, i5⟩ := rewriteKeys_ok hne items hs hd (by rw [hk])
          unfold Cmd.after applyAll at i1 i2 i5
          rw [hk] at i1 i2 i5
          simp only at i1 i2 i5
          refine ⟨text, items, d'.set .metaFile (some text), rfl, hi, ?_, ?_, ?_, ?_, ?_⟩
          · simp only [writeFile, i2, Option.isSome_some, if_true, List.foldl_append, List.foldl_cons, List.foldl_nil,
              Effect.apply, FS.set, Option.map_some]
          · unfold Dir.set; rw [if_pos rfl]
          · intro n hn
            obtain ⟨key, new, a, b, c⟩ := i3 n hn
            exact ⟨key, new, a, b, by unfold Dir.set; rw [if_neg (by simp)]; exact c⟩
          · intro f hf hl
            unfold Dir.set
            rw [if_neg hf, i4 f hl]
          · intro l hl
            simp only [writeFile, i2, Option.isSome_some, if_true, List.foldl_append, List.foldl_cons, List.foldl_nil,
              Effect.apply, FS.set]
            rw [if_neg hl, i5 l hl]

theorem andThen_effects {α β : Type} {p : Effect → Prop} {m : Cmd α} {f : α → Cmd β}
    (hm : ∀ fs, ∀ e ∈ (m fs).2, p e) (hf : ∀ a fs, ∀ e ∈ (f a fs).2, p e) : ∀ fs, ∀ e ∈ (m.andThen f fs).2, p e := by
  intro fs e he
  unfold Cmd.andThen at he
  have hm := hm fs
  cases hk : m fs with
  | mk r es =>
    rw [hk] at he hm
    cases r with
    | error x => exact hm e he
    | ok a =>
      rcases List.mem_append.mp he with he | he
      · exact hm e he
      · exact hf a _ e he

theorem rewriteKeys_effects (src dst : Loc) (items : List Json) : ∀ fs : FS, ∀ e ∈ (rewriteKeys src dst items fs).2,
    ∃ n new, e = .write dst (.key n) new := by
  have nothing : ∀ {α : Type} {x : Py α} {p : Effect → Prop}, ∀ e ∈ (x, ([] : List Effect)).2, p e :=
    fun e he => nomatch he
  induction items with
  | nil => exact fun _ => nothing
  | cons v t ih =>
    rw [rewriteKeys]
    refine andThen_effects (fun _ => nothing) fun n => andThen_effects ?_ fun _ => ih
    refine andThen_effects (fun _ => nothing) fun text => andThen_effects (fun _ => nothing) fun new fs e he => ?_
    unfold writeFile at he
    split at he
    · exact ⟨n, new, List.mem_singleton.mp he⟩
    · cases he

/-- C100: the metadata of the destination is written last, after every key it lists: whenever the script stops early, by
an exception or a crash between two writes, the destination has the metadata it had before. -/
theorem C100_meta_last (src dst : Loc) (fs : FS) :
    ∃ ks : List Effect, (∀ e ∈ ks, ∃ n new, e = .write dst (.key n) new) ∧
      ((doit src dst fs).2 = ks ∨
        ∃ text, (fs src).bind (· .metaFile) = some text ∧ (doit src dst fs).1 = .ok () ∧
          (doit src dst fs).2 = ks ++ [.write dst .metaFile text]) := by
  unfold doit
  split
  · unfold iterateMeta Cmd.andThen readFile Cmd.look Cmd.lift
    simp only
    cases ht : (fs src).bind (· .metaFile) with
    | none => exact ⟨[], by simp, .inl rfl⟩
    | some text =>
      simp only
      cases hi : metaItems text with
      | error e => exact ⟨[], by simp, .inl rfl⟩
      | ok items =>
        simp only [applyAll, List.foldl_nil, List.nil_append]
        have he := rewriteKeys_effects src dst items fs
        cases hk : rewriteKeys src dst items fs with
        | mk r es =>
          rw [hk] at he
          refine ⟨es, he, ?_⟩
          cases r with
          | error e => exact .inl rfl
          | ok u =>
            simp only [writeFile]
            split
            · exact .inr ⟨text, rfl, rfl, rfl⟩
            · exact .inl (List.append_nil es)
  · exact ⟨[], by simp, .inl rfl⟩

/-- C100: the script succeeds when the metadata lists numbers and every listed key file can be rewritten. -/
theorem C100_succeeds {src dst : Loc} {fs : FS} {s : Dir} {text : Bytes} {items : List Json} (hne : src ≠ dst)
    (hs : fs src = some s) (hd : (fs dst).isSome) (ht : s .metaFile = some text) (hi : metaItems text = .ok items)
    (hv : ∀ v ∈ items, ∃ n key new, versionNumber v = .ok n ∧ s (.key n) = some key ∧ newText key = .ok new) :
    (doit src dst fs).1 = .ok () := by
  have keys : ∀ (items : List Json) (fs : FS), fs src = some s → (fs dst).isSome →
      (∀ v ∈ items, ∃ n key new, versionNumber v = .ok n ∧ s (.key n) = some key ∧ newText key = .ok new) →
      (rewriteKeys src dst items fs).1 = .ok () ∧ (applyAll fs (rewriteKeys src dst items fs).2 dst).isSome := by
    intro items
    induction items with
    | nil => exact fun fs _ hd _ => ⟨rfl, hd⟩
    | cons v t ih =>
      intro fs hs hd hv
      obtain ⟨n, key, new, h1, h2, h3⟩ := hv v (by simp)
      have hk : rewriteKey src dst n fs = (.ok (), [.write dst (.key n) new]) := by
        unfold rewriteKey Cmd.andThen readFile Cmd.look Cmd.lift writeFile
        simp [hs, h2, h3, applyAll, hd]
      obtain ⟨i1, i2⟩ := ih (fs.set dst (.key n) (some new)) (by unfold FS.set; rw [if_neg hne, hs])
        (by unfold FS.set; rw [if_pos rfl]; simpa using hd) fun v hv' => hv v (by simp [hv'])
      rw [rewriteKeys]
      unfold Cmd.andThen Cmd.lift
      simp only [h1, applyAll, List.foldl_nil, List.nil_append, hk, List.foldl_cons, Effect.apply,
        List.singleton_append]
      exact ⟨i1, i2⟩
  obtain ⟨k1, k2⟩ := keys items fs hs hd hv
  unfold doit
  rw [if_pos ⟨by simp [hs], hd⟩]
  unfold iterateMeta Cmd.andThen readFile Cmd.look Cmd.lift
  simp only [hs, Option.bind_some, ht, hi, applyAll, List.foldl_nil, List.nil_append]
  cases hk : rewriteKeys src dst items fs with
  | mk r es =>
    rw [hk] at k1 k2
    simp only at k1 k2
    subst k1
    unfold applyAll at k2
    simp [writeFile, k2]

/-! ### loading the converted set -/

theorem assocSet_map {α β γ : Type} [DecidableEq α] (f : β → γ) (l : List (α × β)) (k : α) (v : β) :
    assocSet (l.map fun p => (p.1, f p.2)) k (f v) = (assocSet l k v).map fun p => (p.1, f p.2) := by
  induction l with
  | nil => rfl
  | cons a t ih =>
    simp only [List.map_cons, assocSet]
    split
    · rfl
    · rw [ih]; rfl

theorem loadKeys_convert (P : Prims) {r r' : Reader} (l : List (Int × Nat)) : ∀ {c c' : Czar},
    (∀ p ∈ l, ∀ text, r.GetKey (c.heap.obj p.2).num = .ok text →
      ∃ new, newText text = .ok new ∧ r'.GetKey (c.heap.obj p.2).num = .ok new) →
    loadKeys P r l c = .ok c' → loadKeys P r' l (zeroCzar c) = .ok (zeroCzar c') := by
  induction l with
  | nil =>
    intro c c' _ h
    obtain rfl := Except.ok.inj h
    rfl
  | cons p t ih =>
    obtain ⟨m, o⟩ := p
    intro c c' hr h
    rw [loadKeys] at h
    simp only at h
    have main : ∀ (pr : Option Nat),
        (do
          let key ← ReadKey c.metadata.type (← r.GetKey (c.heap.obj o).num)
          let hash ← key.hashId P
          loadKeys P r t { c with primary := pr
                                  vkeys := assocSet c.vkeys o key
                                  hkeys := assocSet c.hkeys hash key }) = .ok c' →
        (do
          let key ← ReadKey c.metadata.type (← r'.GetKey (c.heap.obj o).num)
          let hash ← key.hashId P
          loadKeys P r' t { zeroCzar c with primary := pr
                                            vkeys := assocSet (zeroCzar c).vkeys o key
                                            hkeys := assocSet (zeroCzar c).hkeys hash key }) =
          .ok (zeroCzar c') := by
      intro pr h
      obtain ⟨text, h1, h⟩ := bind_ok h
      obtain ⟨k, h2, h⟩ := bind_ok h
      obtain ⟨hash, h3, h⟩ := bind_ok h
      obtain ⟨new, g1, g2⟩ := hr (m, o) (by simp) text h1
      have g3 := ReadKey_newText g1 h2
      have g4 : (Spec.withZeros k).hashId P = .ok hash := by rw [hashId_withZeros]; exact h3
      simp only [bind, Except.bind, g2, g3, g4]
      have := ih (c := ⟨c.heap, c.metadata, assocSet c.vkeys o k, assocSet c.hkeys hash k, pr⟩)
        (fun p hp => hr p (by simp [hp])) h
      rw [← this]
      unfold zeroCzar
      simp only [assocSet_map]
    rw [loadKeys]
    simp only
    split at h
    · next hs =>
      rw [if_pos (show ((zeroCzar c).heap.obj o).status = .PRIMARY from hs)]
      obtain ⟨pr, h0, h⟩ := bind_ok h
      rw [show (zeroCzar c).primary = c.primary from rfl, h0]
      exact main pr h
    · next hs =>
      rw [if_neg (show ¬ ((zeroCzar c).heap.obj o).status = .PRIMARY from hs)]
      obtain ⟨pr, h0, h⟩ := bind_ok h
      obtain rfl := Except.ok.inj h0
      exact main _ h

theorem mapM_mem_right {α β} {f : α → Py β} {l : List α} {r : List β} (h : l.mapM f = .ok r) {b : β} (hb : b ∈ r) :
    ∃ a ∈ l, f a = .ok b := by
  induction l generalizing r with
  | nil => obtain rfl := Except.ok.inj h; cases hb
  | cons a t ih =>
    rw [List.mapM_cons] at h
    obtain ⟨x, h1, h⟩ := bind_ok h
    obtain ⟨xs, h2, h⟩ := bind_ok h
    obtain rfl := Except.ok.inj h
    rcases List.mem_cons.mp hb with rfl | hb
    · exact ⟨a, by simp, h1⟩
    · obtain ⟨a', ha, e⟩ := ih h2 hb
      exact ⟨a', by simp [ha], e⟩

/-- the script and the library see the same version numbers -/
theorem listed_of_meta {text : Bytes} {items : List Json} {kmd : KeyMetadata} {h : Heap}
    (hm : KeyMetadata.Read text = .ok (kmd, h)) (hi : metaItems text = .ok items) {p : Int × Nat}
    (hp : p ∈ kmd.versions) : Listed items (h.obj p.2).num := by
  obtain ⟨_, m, d, hl, hd, hv⟩ := KeyMetadata.Read_ok hm
  unfold metaItems at hi
  obtain ⟨m', e1, hi⟩ := bind_ok hi
  obtain rfl := Except.ok.inj (hl.symm.trans e1)
  unfold docOf at hd
  obtain ⟨_, _, hd⟩ := bind_ok hd
  obtain ⟨_, _, hd⟩ := bind_ok hd
  obtain ⟨_, _, hd⟩ := bind_ok hd
  obtain ⟨_, _, hd⟩ := bind_ok hd
  obtain ⟨_, _, hd⟩ := bind_ok hd
  obtain ⟨_, _, hd⟩ := bind_ok hd
  obtain ⟨vv, e2, hd⟩ := bind_ok hd
  obtain ⟨its, e3, hd⟩ := bind_ok hd
  obtain ⟨vs, e4, hd⟩ := bind_ok hd
  obtain rfl := Except.ok.inj hd
  obtain ⟨vv', f2, hi⟩ := bind_ok hi
  obtain rfl := Except.ok.inj (e2.symm.trans f2)
  obtain rfl := Except.ok.inj (e3.symm.trans hi)
  have hmem : h.obj p.2 ∈ (kmd.view h).versions := List.mem_map.mpr ⟨p, hp, rfl⟩
  rw [hv] at hmem
  obtain ⟨j, hj, hr⟩ := mapM_mem_right e4 (mem_firstOfEach hmem)
  refine ⟨j, hj, ?_⟩
  unfold KeyVersion.Read at hr
  obtain ⟨n, r1, hr⟩ := bind_ok hr
  obtain ⟨sv, _, hr⟩ := bind_ok hr
  obtain ⟨st, _, hr⟩ := bind_ok hr
  obtain ⟨ex, _, hr⟩ := bind_ok hr
  unfold versionNumber
  cases n with
  | num n =>
    have := Except.ok.inj hr
    rw [← this]
    simp only [bind, Except.bind, r1]
    rfl
  | _ => cases hr

/-- C100: whatever class of the library opens the source opens the destination after the conversion, with the same
metadata, the same primary key and, under the same version numbers and identifiers, the same keys with a zero byte before
each number. -/
theorem C100_load (P : Prims) (cls : CzarClass) {src dst : Loc} {fs : FS} {s d : Dir} {c : Czar} (hne : src ≠ dst)
    (hs : fs src = some s) (hd : fs dst = some d) (h : (doit src dst fs).1 = .ok ())
    (hc : Czar.init P cls (FileReader s) = .ok c) :
    ∃ d', (doit src dst).after fs dst = some d' ∧ Czar.init P cls (FileReader d') = .ok (zeroCzar c) := by
  obtain ⟨text, items, d', h1, h2, h3, h4, h5, _, _⟩ := C100_disk hne hs hd h
  refine ⟨d', h3, ?_⟩
  have m1 : (FileReader s).GetMetadata = .ok text := by simp [FileReader, ReadFile, h1]
  have m2 : (FileReader d').GetMetadata = .ok text := by simp [FileReader, ReadFile, h4]
  unfold Czar.init at hc ⊢
  rw [m1] at hc
  rw [m2]
  obtain ⟨_, e, hc⟩ := bind_ok hc
  obtain rfl := Except.ok.inj e
  obtain ⟨⟨kmd, heap⟩, hm, hc⟩ := bind_ok hc
  simp only [bind, Except.bind, hm]
  simp only at hc
  split at hc
  · cases hc
  · next hp =>
    rw [if_neg hp]
    split at hc
    · cases hc
    · next he =>
      rw [if_neg (show ¬ (kmd.encrypted.truthy = true ∧ ¬ (FileReader d').isEncryptedReader = true) from he)]
      refine loadKeys_convert P kmd.versions ?_ hc
      intro p hp key hk
      obtain ⟨key', new, a, b, c⟩ := h5 _ (listed_of_meta hm h2 hp)
      refine ⟨new, ?_, by simp [FileReader, ReadFile, c]⟩
      simp only [FileReader, ReadFile, a] at hk
      obtain rfl := Except.ok.inj hk
      exact b

/-- C100: encrypted key sets are not converted.  Their key files are texts that encode a string beginning with a zero byte
(the format version), and such a text is not JSON. -/
theorem C100_encrypted (b : Bytes) : newText (Base64WSEncode (0 :: b)) = .error .valueError := by
  have h : ∃ t, Base64WSEncode (0 :: b) = 65 :: t := by
    match b with
    | [] => exact ⟨_, rfl⟩
    | [x] => exact ⟨_, by rw [WSE_two]; rfl⟩
    | x :: y :: t => exact ⟨_, by rw [WSE_three]; rfl⟩
  obtain ⟨t, h⟩ := h
  rw [h]
  have : loads (65 :: t) = .error .valueError := by
    unfold loads
    rw [show 2 * (65 :: t : Bytes).length + 1 = (2 * (65 :: t : Bytes).length) + 1 from rfl, parseVal,
      skipWs_cons _ _ (by decide)]
    rfl
  unfold newText
  rw [this]
  rfl

/-- C100: the command line.  With fewer than two arguments the script raises IndexError and touches nothing; further
arguments are ignored; when one of the first two is not a directory it ends without an exception, having done nothing. -/
theorem C100_main (args : List Loc) (fs : FS) :
    (args.length < 2 → convertMain args fs = (.error .indexError, [])) ∧
    (∀ src dst rest, args = src :: dst :: rest → convertMain args fs = doit src dst fs ∧
      (fs src = none ∨ fs dst = none → convertMain args fs = (.ok (), []))) := by
  constructor
  · intro h
    match args, h with
    | [], _ => rfl
    | [_], _ => rfl
  · rintro src dst rest rfl
    have e : convertMain (src :: dst :: rest) fs = doit src dst fs := by
      unfold convertMain Cmd.andThen Cmd.lift pyIndex
      simp only [List.getElem?_cons_zero, List.getElem?_cons_succ, applyAll, List.foldl_nil, List.nil_append]
    refine ⟨e, fun h => ?_⟩
    rw [e]
    unfold doit
    rw [if_neg]
    rcases h with h | h <;> simp [h]

/-! ### an example -/

/-- metadata of a set with one RSA public key of version 1 -/
def exMeta : Bytes := dumps (jobj [("name", .str "old".toList), ("purpose", .str "VERIFY".toList),
  ("type", .str "RSA_PUB".toList), ("encrypted", .bool false), ("versions", .arr [jobj [("versionNumber", .num 1),
  ("status", .str "PRIMARY".toList), ("exportable", .bool false)]])])

/-- its key file, as the old versions wrote it: the first byte of the modulus is 0x8f -/
def exKey : Bytes := dumps (jobj [("modulus", jb64 [0x8f, 3, 0x11]), ("publicExponent", jb64 [1, 0, 1]),
  ("size", .num 1024)])

def exNew : Bytes := dumps (jobj [("modulus", jb64 [0, 0x8f, 3, 0x11]), ("publicExponent", jb64 [0, 1, 0, 1]),
  ("size", .num 1024)])

/-- the key set in directory 1, an empty directory 2 -/
def exFS : FS := fun l =>
  if l = [1] then some fun f => match f with
    | .metaFile => some exMeta
    | .key 1 => some exKey
    | _ => none
  else if l = [2] then some fun _ => none else none

example : newText exKey = .ok exNew ∧ exNew ≠ exKey ∧ (ReadKey .RSA_PUB exKey).toOption.isSome := by decide +kernel

example : (doit [1] [2] exFS).1 = .ok () ∧
    (doit [1] [2] exFS).2 = [.write [2] (.key 1) exNew, .write [2] .metaFile exMeta] := by decide +kernel

example : ∃ s, exFS [1] = some s ∧ (Czar.init realPrims .verifier (FileReader s)).toOption.isSome :=
  ⟨_, rfl, by decide +kernel⟩

example : (metaItems exMeta).map (·.map versionNumber) = .ok [.ok 1] := by decide +kernel

/-- three arguments: converted all the same; a directory that does not exist: nothing happens -/
example : (convertMain [[1], [2], [3]] exFS).2.length = 2 ∧ (convertMain [[1], [3]] exFS).2 = [] ∧ (convertMain [[1], [3]] exFS).1 = .ok () := by
  decide +kernel

/-- a text with a line break: read by the library, refused by the script -/
example : Base64WSDecode [65, 66, 10] = .ok [0] ∧ b64Decode [65, 66, 10] = .error .typeError := by decide +kernel

end Verif.Props
