import Verif.Props.Interop
import Verif.Props.CommandLine
import Verif.Props.GenKeyExample
/-
C77: the key sets that interop.py asks for (`_Create` and `_CreateEncrypted`, interop.py:306-372) are those on which
`generate` and `test` work.
-/
namespace Verif.Props
open Verif Spec

variable {P : Prims}

theorem textList_ok {x : List Json} {argv : List Bytes} (h : List.Forall₂ (fun v b => Json.toBytes v = .ok b) x argv) :
    textList x = .ok argv := by
  induction h with
  | nil => rfl
  | cons h1 _ ih => simp only [textList, h1, ih, bind, Except.bind]; rfl

theorem mainAll_of {genEnv : GenEnv} {env : Env} {argv : List Bytes} {fs : FS} {cmd : Command} {V : Flag → Option Bytes}
    (h : Parsed argv cmd V) (hc : cmd ≠ .genkey) : mainAll P genEnv env argv fs = main P env argv fs := by
  refine (C70_main P genEnv env argv fs).2 fun rest e => ?_
  have h1 := h.head
  rw [e] at h1
  have h2 : commandName cmd = bstr "genkey" := (Option.some.inj h1).symm
  cases cmd <;> first | exact hc rfl | exact absurd h2 (by decide)

theorem commands_cons {env : InteropEnv} {i : Nat} {j : Json} {t : List Json} {argv : List Bytes}
    (h : ∃ x, j = .arr x ∧ List.Forall₂ (fun v b => Json.toBytes v = .ok b) x argv) :
    interopCommands P env i (j :: t) =
      (mainAll P env.gen (env.cmd i) argv >>= fun _ => interopCommands P env (i + 1) t) := by
  obtain ⟨x, rfl, h⟩ := h
  show (Cmd.lift (textList x) >>= fun argv => mainAll P env.gen (env.cmd i) argv >>= fun _ => _) = _
  rw [textList_ok h, Cmd.lift_ok]

theorem create_entry {env : InteropEnv} {fs : FS} {text : Bytes} {cmds : List (List Bytes)} (h : CreateText text cmds) :
    ∃ l, List.Forall₂ (fun j argv => ∃ x, j = .arr x ∧ List.Forall₂ (fun v b => Json.toBytes v = .ok b) x argv) l cmds ∧
      interopMain P env [text] fs = (interopCommands P env 0 l >>= fun _ => pure []) fs := by
  obtain ⟨args, l, h1, h2, h3, h4⟩ := h
  refine ⟨l, h4, ?_⟩
  unfold interopMain
  rw [if_neg (by simp)]
  simp only [h1, Cmd.lift_ok, contains_of_get h2, h2]
  rw [if_neg (by decide), if_pos (by decide)]
  simp only [h3, Cmd.lift_ok]

theorem create_step {fs : FS} {l : Loc} {d : Dir} (hd : fs l = some d) (hm : d .metaFile = none) {name : Json}
    (hn : name.WF) {po : Option KeyPurpose} {asym : Option Bytes} {p : KeyPurpose} {t : KeyType}
    (hnew : NewType po asym p t) :
    Holds P none ((Create (some l) name po asym).after fs) l (KeySet.empty name p t) ∧
      ∀ l' ≠ l, (Create (some l) name po asym).after fs l' = fs l' := by
  obtain ⟨text, r1, r2⟩ := C36_creates_empty P fs l d hd hm name hn po asym p t hnew
  refine ⟨r2, fun l' hl' => ?_⟩
  unfold Cmd.after
  rw [r1]
  simp [applyAll, Effect.apply, FS.set, hl']

theorem create_cmd {env : InteropEnv} {i : Nat} {fs : FS} {argv : List Bytes} {l : Loc} {n : List Char}
    {p : KeyPurpose} {t : KeyType} (h : CreateArgs argv l n p t) : ∃ po a, NewType po a p t ∧
      mainAll P env.gen (env.cmd i) argv fs = Create (some l) (.str n) po a fs := by
  obtain ⟨V, po, h1, h2, h3, h4, h5, h6, h7⟩ := h
  exact ⟨po, _, h6, by rw [mainAll_of h1 (by simp), C60_create P _ h1 h3 h4 h5 h7, h2]⟩

theorem add_cmd {env : InteropEnv} {i : Nat} {fs : FS} {argv : List Bytes} {l : Loc} {size : Int}
    (h : AddArgs argv l size none) :
    mainAll P env.gen (env.cmd i) argv fs = AddKey P (env.cmd i) (some l) .PRIMARY none size fs := by
  obtain ⟨V, n, h1, h2, h3, h4, h5, h6⟩ := h
  rw [mainAll_of h1 (by simp), C60_addkey P _ h1 h3 h4 h5 h6, h2]

theorem add_crypter_cmd {env : InteropEnv} {i : Nat} {fs : FS} {argv : List Bytes} {l cl : Loc} {size : Int}
    (h : AddArgs argv l size (some cl)) {d : Dir} (hd : fs cl = some d) {cr : Czar}
    (hc : Czar.init P .crypter (FileReader d) = .ok cr) :
    mainAll P env.gen (env.cmd i) argv fs = AddKey P (env.cmd i) (some l) .PRIMARY (some cr) size fs := by
  obtain ⟨V, n, h1, h2, h3, h4, h5, h6⟩ := h
  have : (CreateCrypter P cl fs).1 = .ok cr := by
    unfold CreateCrypter
    show (do Czar.init P .crypter (← CreateReader cl fs)) = _
    unfold CreateReader
    rw [hd]
    exact hc
  rw [mainAll_of h1 (by simp), C60_addkey_crypter P _ h1 h3 h4 h5 h6, h2, this]

theorem pub_cmd {env : InteropEnv} {i : Nat} {fs : FS} {argv : List Bytes} {l dest : Loc} (h : PubArgs argv l dest) :
    mainAll P env.gen (env.cmd i) argv fs = PubKey P (env.cmd i) (some l) (some dest) fs := by
  obtain ⟨V, h1, h2, h3, h4, h5⟩ := h
  rw [mainAll_of h1 (by simp), C60_pubkey P _ h1 h3 h4, h2, h5]

/-- a generated key is good if it is valid -/
theorem generated_good {rnd : Rand} {t : KeyType} {size : Option Int} {k : Key} (h : GenKey rnd t size = .ok k)
    (hv : ValidKey k) : GoodKey k := by
  unfold GenKey at h
  simp only at h
  by_cases hs : t.IsValidSize (size.getD t.defaultSize) = true
  swap
  · rw [if_pos hs] at h
    cases h
  rw [if_neg (fun hn => hn hs)] at h
  cases t with
  | AES =>
    cases h
    generalize size.getD (KeyType.AES.defaultSize : Int) = z at hs
    have hz0 : 0 ≤ z := by
      simp [KeyType.IsValidSize, KeyType.sizes] at hs
      omega
    exact ⟨_, _, generated_aes_usable rnd z.toNat (by rw [Int.toNat_of_nonneg hz0]; exact hs)⟩
  | HMAC_SHA1 => cases h; trivial
  | DSA_PRIV => cases h; exact hv
  | RSA_PRIV => cases h; exact hv
  | DSA_PUB => cases h
  | RSA_PUB => cases h

theorem after_congr {α} {m m' : Cmd α} {fs : FS} (h : m fs = m' fs) : m.after fs = m'.after fs := by
  unfold Cmd.after
  rw [h]

abbrev sizeArg (size : Int) : Option Int := if size = -1 then none else some size

/-- the relation between the list of commands in the JSON text and the commands -/
abbrev IsCommand (j : Json) (argv : List Bytes) : Prop :=
  ∃ x, j = .arr x ∧ List.Forall₂ (fun v b => Json.toBytes v = .ok b) x argv

theorem create_then {env : InteropEnv} {i : Nat} {fs : FS} {l : Loc} {d : Dir} (hd : fs l = some d)
    (hm : d .metaFile = none) {n : List Char} {p : KeyPurpose} {t : KeyType} {c : List Bytes} {j : Json} (hj : IsCommand j c)
    (h : CreateArgs c l n p t) {rest : List Json} (hok : (interopCommands P env i (j :: rest) fs).1 = .ok ()) :
    ∃ fs', (interopCommands P env (i + 1) rest fs').1 = .ok () ∧
      (interopCommands P env i (j :: rest)).after fs = (interopCommands P env (i + 1) rest).after fs' ∧
      Holds P none fs' l (KeySet.empty (.str n) p t) ∧ ∀ l' ≠ l, fs' l' = fs l' := by
  rw [commands_cons hj] at hok ⊢
  obtain ⟨_, -, h2, h3⟩ := Cmd.seq_ok hok
  obtain ⟨po, a, h4, h5⟩ := create_cmd (env := env) (i := i) (fs := fs) (P := P) h
  obtain ⟨h6, h7⟩ := create_step (P := P) hd hm (name := .str n) trivial h4
  rw [after_congr h5] at h2 h3
  exact ⟨_, h2, h3, h6, h7⟩

theorem add_then {env : InteropEnv} {i : Nat} {fs : FS} {l : Loc} {cr : Option Czar} (ho : Opens P cr cr) {ks : KeySet}
    (hh : Holds P cr fs l ks) {m : Int} (hm : 0 ≤ m) (hle : ∀ e ∈ ks.entries, e.num ≤ m)
    (hex : m = 0 ∨ ∃ e ∈ ks.entries, e.num = m) {size : Int} {a : List Bytes} {j : Json} (hj : IsCommand j a)
    (h : mainAll P env.gen (env.cmd i) a fs = AddKey P (env.cmd i) (some l) .PRIMARY cr size fs) {rest : List Json}
    (hok : (interopCommands P env i (j :: rest) fs).1 = .ok ()) :
    ∃ fs' k g, (interopCommands P env (i + 1) rest fs').1 = .ok () ∧
      (interopCommands P env i (j :: rest)).after fs = (interopCommands P env (i + 1) rest).after fs' ∧
      GenKey ((env.cmd i).gen g) ks.type (sizeArg size) = .ok k ∧
      Holds P cr fs' l ((ks.add (m + 1) .PRIMARY k).stored cr.isSome) ∧
      (ks.Distinct P → (ks.add (m + 1) .PRIMARY k).Distinct P) ∧ ∀ l' ≠ l, fs' l' = fs l' := by
  rw [commands_cons hj] at hok ⊢
  obtain ⟨_, h1, h2, h3⟩ := Cmd.seq_ok hok
  rw [h] at h1
  rw [after_congr h] at h2 h3
  obtain ⟨k, g, h4, h5, h6, -, h7⟩ := AddKey_step_size ho hh hm hle hex h1
  exact ⟨_, k, g, h2, h3, h4, h5, h6, h7⟩

theorem pair_then {env : InteropEnv} {i : Nat} {fs : FS} {l : Loc} {d : Dir} (hd : fs l = some d)
    (hm : d .metaFile = none) {n : List Char} {p : KeyPurpose} {t : KeyType} {c a b : List Bytes} {j1 j2 j3 : Json}
    (hj1 : IsCommand j1 c) (hj2 : IsCommand j2 a) (hj3 : IsCommand j3 b) {size : Int}
    (hc : CreateArgs c l n p t) (ha : AddArgs a l size none) (hb : AddArgs b l size none) {rest : List Json}
    (hok : (interopCommands P env i (j1 :: j2 :: j3 :: rest) fs).1 = .ok ()) :
    ∃ fs' k1 k2 g1 g2, (interopCommands P env (i + 3) rest fs').1 = .ok () ∧
      (interopCommands P env i (j1 :: j2 :: j3 :: rest)).after fs = (interopCommands P env (i + 3) rest).after fs' ∧
      GenKey ((env.cmd (i + 1)).gen g1) t (sizeArg size) = .ok k1 ∧
      GenKey ((env.cmd (i + 2)).gen g2) t (sizeArg size) = .ok k2 ∧
      Holds P none fs' l (pairKeys (.str n) p t false k1 k2) ∧ (pairKeys (.str n) p t false k1 k2).Distinct P ∧
      ∀ l' ≠ l, fs' l' = fs l' := by
  obtain ⟨fs1, o1, e1, r1, l1⟩ := create_then hd hm hj1 hc hok
  obtain ⟨fs2, k1, g1, o2, e2, s2, r2, d2, l2⟩ := add_then (cr := none) trivial r1 (m := 0) (by decide)
    (by simp [KeySet.empty]) (.inl rfl) hj2 (add_cmd ha) o1
  obtain ⟨fs3, k2, g2, o3, e3, s3, r3, d3, l3⟩ := add_then (cr := none) trivial r2 (m := 1) (by decide)
    (by simp [KeySet.empty, KeySet.add, KeySet.stored, KeySet.mapStatus]) (.inr ⟨⟨1, .PRIMARY, .bool false, k1⟩,
      by simp [KeySet.empty, KeySet.add, KeySet.stored, KeySet.mapStatus], rfl⟩) hj3 (add_cmd hb) o2
  refine ⟨fs3, k1, k2, g1, g2, o3, by rw [e1, e2, e3], s2, s3, r3, ?_, fun l' h => by rw [l3 l' h, l2 l' h, l1 l' h]⟩
  exact d3 (d2 (by simp [KeySet.Distinct, KeySet.empty]))

theorem pair_good {rnd rnd' : Rand} {n : Json} {p : KeyPurpose} {t : KeyType} {z : Option Int} {enc : Bool} {k1 k2 : Key}
    (h1 : GenKey rnd t z = .ok k1) (h2 : GenKey rnd' t z = .ok k2) (hd : (pairKeys n p t enc k1 k2).Distinct P)
    (v1 : ValidKey k1) (v2 : ValidKey k2) {types : List KeyType} (ht : t ∈ types) :
    GoodSet P p types (pairKeys n p t enc k1 k2) := by
  refine ⟨rfl, ht, rfl, hd, fun e he => ?_⟩
  rcases List.mem_cons.mp he with rfl | he
  · exact generated_good h1 v1
  · rw [List.mem_singleton.mp he]
    exact generated_good h2 v2

theorem onDisk_of {fs : FS} {path name pub : Bytes} {ks : KeySet} (h : Holds P none fs (pathJoin path (name ++ pub)) ks) :
    OnDisk P fs path name [] pub ks := by
  obtain ⟨d, hd, -⟩ := Holds_iff.mp h
  exact ⟨d, by rw [List.append_nil]; exact hd, .inl ⟨rfl, Holds.loads h hd⟩⟩

/-- C77: interop.py:306-322 `_Create` without a public key.  If the command succeeds on an empty directory, the key set
`algorithm` is on the disk with two keys of the size asked for; if these are valid (only RSA and DSA keys can fail to be)
the set is one on which the operations work, and no other directory has changed. -/
theorem C77_create (env : InteropEnv) (fs : FS) (path name : Bytes) (d : Dir) (hd : fs (pathJoin path name) = some d)
    (hm : d .metaFile = none) (n : List Char) (p : KeyPurpose) (t : KeyType) (size : Int) (c a : List Bytes)
    (hc : CreateArgs c (pathJoin path name) n p t) (ha : AddArgs a (pathJoin path name) size none) (text out : Bytes)
    (ht : CreateText text [c, a, a]) (hok : (interopMain P env [text] fs).1 = .ok out) :
    ∃ k1 k2 g1 g2, GenKey ((env.cmd 1).gen g1) t (sizeArg size) = .ok k1 ∧
      GenKey ((env.cmd 2).gen g2) t (sizeArg size) = .ok k2 ∧
      OnDisk P ((interopMain P env [text]).after fs) path name [] [] (pairKeys (.str n) p t false k1 k2) ∧
      (ValidKey k1 → ValidKey k2 → ∀ types, t ∈ types → GoodSet P p types (pairKeys (.str n) p t false k1 k2)) ∧
      ∀ l ≠ pathJoin path name, (interopMain P env [text]).after fs l = fs l := by
  obtain ⟨l, hl, he⟩ := create_entry (P := P) (env := env) (fs := fs) ht
  rw [he] at hok
  rw [after_congr he]
  obtain ⟨_, h1, -, h3⟩ := Cmd.seq_ok hok
  match l, hl with
  | [j1, j2, j3], .cons q1 (.cons q2 (.cons q3 .nil)) =>
    obtain ⟨fs', k1, k2, g1, g2, o, e, s1, s2, hh, hd', hf⟩ := pair_then hd hm q1 q2 q3 hc ha ha h1
    have e' : (interopCommands P env 0 [j1, j2, j3] >>= fun _ => (pure [] : Cmd Bytes)).after fs = fs' := by
      rw [h3]
      exact e
    rw [e']
    exact ⟨k1, k2, g1, g2, s1, s2, onDisk_of (by rw [List.append_nil]; exact hh),
      fun v1 v2 types htt => pair_good s1 s2 hd' v1 v2 htt, hf⟩

/-- C77: the same with the public key set, which is the public counterpart of the key set. -/
theorem C77_create_public (env : InteropEnv) (fs : FS) (path name : Bytes) (d : Dir)
    (hd : fs (pathJoin path name) = some d) (hm : d .metaFile = none) (n : List Char) (p : KeyPurpose) (t : KeyType)
    (t' : KeyType) (p' : KeyPurpose) (hx : Exports t p t' p') (size : Int) (c a b : List Bytes)
    (hc : CreateArgs c (pathJoin path name) n p t) (ha : AddArgs a (pathJoin path name) size none)
    (hb : PubArgs b (pathJoin path name) (pathJoin path name ++ bstr "public")) (text out : Bytes)
    (ht : CreateText text [c, a, a, b]) (hok : (interopMain P env [text] fs).1 = .ok out) :
    ∃ k1 k2 g1 g2 ks', GenKey ((env.cmd 1).gen g1) t (sizeArg size) = .ok k1 ∧
      GenKey ((env.cmd 2).gen g2) t (sizeArg size) = .ok k2 ∧
      OnDisk P ((interopMain P env [text]).after fs) path name [] [] (pairKeys (.str n) p t false k1 k2) ∧
      OnDisk P ((interopMain P env [text]).after fs) path name [] (bstr "public") ks' ∧
      ks'.PublicOf (pairKeys (.str n) p t false k1 k2) ∧
      (ValidKey k1 → ValidKey k2 → ∀ types, t ∈ types → GoodSet P p types (pairKeys (.str n) p t false k1 k2)) ∧
      ∀ l ≠ pathJoin path name, l ≠ pathJoin path (name ++ bstr "public") →
        (interopMain P env [text]).after fs l = fs l := by
  have hp : pathJoin path name ++ bstr "public" = pathJoin path (name ++ bstr "public") := by
    unfold pathJoin
    split <;> simp
  rw [hp] at hb
  obtain ⟨l, hl, he⟩ := create_entry (P := P) (env := env) (fs := fs) ht
  rw [he] at hok
  rw [after_congr he]
  obtain ⟨_, h1, -, h3⟩ := Cmd.seq_ok hok
  match l, hl with
  | [j1, j2, j3, j4], .cons q1 (.cons q2 (.cons q3 (.cons q4 .nil))) =>
    obtain ⟨fs', k1, k2, g1, g2, o, e, s1, s2, hh, hd', hf⟩ := pair_then hd hm q1 q2 q3 hc ha ha h1
    rw [commands_cons q4] at o e
    obtain ⟨_, o1, o2, o3⟩ := Cmd.seq_ok o
    have hpub := pub_cmd (P := P) (env := env) (i := 3) (fs := fs') hb
    rw [show 0 + 3 = 3 from rfl] at *
    rw [hpub] at o1
    have e' : (interopCommands P env 0 [j1, j2, j3, j4] >>= fun _ => (pure [] : Cmd Bytes)).after fs =
        (PubKey P (env.cmd 3) (some (pathJoin path name)) (some (pathJoin path (name ++ bstr "public")))).after fs' := by
      rw [h3]
      show (interopCommands P env 0 [j1, j2, j3, j4]).after fs = _
      rw [e, o3, after_congr hpub]
      rfl
    rw [e']
    obtain ⟨D, hD, -⟩ := Holds_iff.mp hh
    obtain ⟨d', ks', x1, x2, x3⟩ := export_step hD (Holds.loads hh hD) hx o1
    have hne : pathJoin path name ≠ pathJoin path (name ++ bstr "public") := fun h => by
      have := congrArg List.length (pathJoin_inj h)
      rw [List.length_append] at this
      exact absurd this (by show ¬ name.length = name.length + 6; omega)
    have hother : ∀ l ≠ pathJoin path (name ++ bstr "public"),
        (PubKey P (env.cmd 3) (some (pathJoin path name)) (some (pathJoin path (name ++ bstr "public")))).after fs' l = fs' l :=
      fun l hl => after_of_loc (Q := (· = pathJoin path (name ++ bstr "public")))
        (run_loc' (P := P) (k := .pubkey _ _ _) rfl fs') hl
    refine ⟨k1, k2, g1, g2, ks', s1, s2, ⟨D, ?_, .inl ⟨rfl, Holds.loads hh hD⟩⟩, ⟨d', ?_, .inl ⟨rfl, x2⟩⟩, x3,
      fun v1 v2 types htt => pair_good s1 s2 hd' v1 v2 htt, fun l h1 h2 => ?_⟩
    · rw [List.append_nil, List.append_nil, hother _ hne, hD]
    · rw [List.append_nil, x1]
    · rw [hother l h2, hf l h1]

/-- C77: interop.py:324-340 `_CreateEncrypted`.  With a crypter of AES keys on the disk, the key set is on the disk with
one key, encrypted with that crypter. -/
theorem C77_create_encrypted (env : InteropEnv) (fs : FS) (path name crypted : Bytes) (hne : crypted ≠ [])
    (hnn : name ≠ []) (d : Dir) (hd : fs (pathJoin path (name ++ crypted)) = some d) (hm : d .metaFile = none)
    (kc : KeySet) (hk : OnDisk P fs path crypted [] [] kc) (hg : GoodSet P .DECRYPT_AND_ENCRYPT [.AES] kc)
    (n : List Char) (p : KeyPurpose) (t : KeyType) (size : Int) (c a : List Bytes)
    (hc : CreateArgs c (pathJoin path (name ++ crypted)) n p t)
    (ha : AddArgs a (pathJoin path (name ++ crypted)) size (some (pathJoin path crypted))) (text out : Bytes)
    (ht : CreateText text [c, a]) (hok : (interopMain P env [text] fs).1 = .ok out) :
    ∃ k g, GenKey ((env.cmd 1).gen g) t (sizeArg size) = .ok k ∧
      OnDisk P ((interopMain P env [text]).after fs) path name crypted [] (oneKey (.str n) p t true k) ∧
      (ValidKey k → ∀ types, t ∈ types → GoodSet P p types (oneKey (.str n) p t true k)) ∧
      ∀ l ≠ pathJoin path (name ++ crypted), (interopMain P env [text]).after fs l = fs l := by
  obtain ⟨dc, hdc, ⟨-, hk⟩ | ⟨hx, -⟩⟩ := hk
  swap
  · exact absurd rfl hx
  simp only [List.append_nil] at hdc
  have hcl : pathJoin path crypted ≠ pathJoin path (name ++ crypted) := fun h => by
    have := congrArg List.length (pathJoin_inj h)
    rw [List.length_append] at this
    exact hnn (List.length_eq_zero_iff.mp (by omega))
  obtain ⟨cr, c1, c2, c3⟩ := loads_opens hk (cls := .crypter) (by rw [hg.purpose]; rfl)
  have ho : Opens P (some cr) (some cr) := by
    obtain ⟨e, hpe⟩ := List.length_eq_one_iff.mp hg.primary
    have hmem : e ∈ kc.entries := (List.mem_filter.mp
      (show e ∈ kc.entries.filter _ from (show e ∈ kc.primaries by rw [hpe]; exact List.mem_singleton_self e))).1
    have hty : e.key.type = .AES := by
      have h1 := (c2.loadable.key_ok e (by rw [c3]; exact hmem)).2.1
      rw [h1, c3]
      exact List.mem_singleton.mp hg.type
    have hka : ∃ x, e.key = .aes x := by
      generalize e.key = k at hty
      cases k <;> first | exact ⟨_, rfl⟩ | cases hty
    obtain ⟨x, hke⟩ := hka
    exact C33_aes_opens P cr cr c2 c2 (by rw [c3]; exact hg.distinct) e e x (by rw [c3]; exact hpe) hke
      (by rw [c3]; exact hmem) hke
  obtain ⟨l, hl, he⟩ := create_entry (P := P) (env := env) (fs := fs) ht
  rw [he] at hok
  rw [after_congr he]
  obtain ⟨_, h1, -, h3⟩ := Cmd.seq_ok hok
  match l, hl with
  | [j1, j2], .cons q1 (.cons q2 .nil) =>
    obtain ⟨fs1, o1, e1, r1, l1⟩ := create_then hd hm q1 hc h1
    obtain ⟨fs2, k, g, o2, e2, s2, r2, d2, l2⟩ := add_then ho (r1.empty_any (some cr)) (m := 0) (by decide)
      (by simp [KeySet.empty]) (.inl rfl) q2 (add_crypter_cmd ha (by rw [l1 _ hcl]; exact hdc) c1) o1
    have e' : (interopCommands P env 0 [j1, j2] >>= fun _ => (pure [] : Cmd Bytes)).after fs = fs2 := by
      rw [h3]
      show (interopCommands P env 0 [j1, j2]).after fs = _
      rw [e1, e2]
      rfl
    rw [e']
    obtain ⟨D, hD, -⟩ := Holds_iff.mp r2
    refine ⟨k, g, s2, ⟨D, by rw [List.append_nil]; exact hD, .inr ⟨hne, dc, cr, ?_, c1, Holds.loads r2 hD⟩⟩,
      fun v types htt => ⟨rfl, htt, rfl, ?_, fun e he => ?_⟩, fun l hl => by rw [l2 l hl, l1 l hl]⟩
    · rw [l2 _ hcl, l1 _ hcl, hdc]
    · exact d2 (by simp [KeySet.Distinct, KeySet.empty])
    · rw [List.mem_singleton.mp he]
      exact generated_good s2 v

end Verif.Props
