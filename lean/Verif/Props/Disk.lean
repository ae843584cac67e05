import Verif.Lemmas.Commands
import Verif.Lemmas.ExampleDisk
/-
Property theorems C31, C33, C36-C38: key sets on disk and the keyczart commands.
-/
namespace Verif.Props
open Verif Spec
variable (P : Prims)

/-! ## C33 -/

/-- C33: writing any reachable key set (also one with failed calls, or revocations since it was
loaded) and loading the directory with any class that accepts its purpose gives the same name,
purpose, type and versions (number, status, key); only the `encrypted` mark is set according to
whether an encrypter was given.  `rd` must be able to open what `enc` encrypted. -/
theorem C33_write_load (c : Czar) (hc : Loaded P c) (ops : List Op) (env : Env) (l : Loc) (enc rd : Option Czar)
    (ho : Opens P enc rd) (fs : FS) (hl : (fs l).isSome = true)
    (hr : ((runAll P c ops).Write P env l enc fs).1 = .ok ()) (cls : CzarClass)
    (hcls : (runAll P c ops).keySet.purpose ∈ purposes cls) :
    ∃ d c', ((runAll P c ops).Write P env l enc).after fs l = some d ∧
      Czar.init P cls (readerFor P rd (FileReader d)) = .ok c' ∧
      c'.keySet = { (runAll P c ops).keySet with encrypted := .bool enc.isSome } := by
  have hi := runAll_inv hc.inv ops
  have hw := runAll_wf hc.inv hc.loadable.view_wf ops
  obtain ⟨d, hd⟩ := Option.isSome_iff_exists.mp hl
  have h1 : ((runAll P c ops).Write P env l enc).after fs l =
      some (dirAfter ((runAll P c ops).Write P env l enc fs).2 l d) := by
    show applyAll fs _ l = _
    rw [applyAll_at, hd]; rfl
  have hg := Czar.Write_gives hi hw ho hd hr
  obtain ⟨c', h2, h3⟩ := C19_accepted_loads P cls _ _ hg hcls
    (by intro ht; rw [dirReader_encrypted, ← ho.isSome]; exact ht) hi.valid.primary
  exact ⟨_, c', h1, h2, h3⟩

/-- C33: without encrypter writing into an existing directory always succeeds. -/
theorem C33_plain_succeeds (c : Czar) (hc : Loaded P c) (ops : List Op) (env : Env) (l : Loc) (fs : FS)
    (hl : (fs l).isSome = true) : ((runAll P c ops).Write P env l none fs).1 = .ok () :=
  Czar.Write_plain (runAll_inv hc.inv ops) (runAll_wf hc.inv hc.loadable.view_wf ops) hl

/-- C33: a key set encrypted by an AES key set can be opened by every loaded key set that contains
the encrypting key and has distinct identifiers (in particular by the same one). -/
theorem C33_aes_opens (cr cr' : Czar) (h : Loaded P cr) (h' : Loaded P cr') (hd : cr'.keySet.Distinct P)
    (e e' : Entry) (k : AesKey) (hp : cr.keySet.primaries = [e]) (hk : e.key = .aes k)
    (he' : e' ∈ cr'.keySet.entries) (hk' : e'.key = .aes k) : Opens P (some cr) (some cr') :=
  fun rnd m out ho => C22_aes_round_trip P cr cr' h h' hd e e' k hp hk he' hk' (some Base64WSEncode)
    (some Base64WSDecode) inverse_base64 rnd m out ho

/-- C33: and writing with a usable AES encrypter always succeeds. -/
theorem C33_aes_succeeds (c : Czar) (hc : Loaded P c) (ops : List Op) (env : Env) (l : Loc) (fs : FS)
    (hl : (fs l).isSome = true) (cr : Czar) (h : Loaded P cr) (e : Entry) (k : AesKey) (kb hb : Bytes)
    (hp : cr.keySet.primaries = [e]) (hk : e.key = .aes k) (hu : UsableAes k kb hb) :
    ((runAll P c ops).Write P env l (some cr) fs).1 = .ok () := by
  obtain ⟨bs, -, -, ⟨h3, -⟩ | ⟨x, o, k', -, -, -, h3⟩⟩ := Czar.Write_spec (env := env) (runAll_inv hc.inv ops)
    (runAll_wf hc.inv hc.loadable.view_wf ops) (l := l) (some cr) (fs := fs) hl
  · exact h3
  · obtain ⟨out, h4⟩ := C22_aes_encrypts P cr h e k kb hb hp hk hu (some Base64WSEncode) (env.enc o) (dumps k'.json)
    rw [show keyText P (some cr) (env.enc o) k' = cr.Encrypt P (env.enc o) (dumps k'.json) (some Base64WSEncode)
      from rfl, h4] at h3
    cases h3

/-- example: testdata/hmac, with version 1 promoted, written encrypted under testdata/aes into an
empty directory and loaded back -/
example : ((Czar.init realPrims .generic (Ex.hmac .ACTIVE .PRIMARY)).bind fun c =>
    (Czar.init realPrims .crypter Ex.aes).bind fun cr =>
      let c := runAll realPrims c [.promote 1]
      let w := c.Write realPrims Ex.env' [120] (some cr)
      w (Ex.disk .ACTIVE .PRIMARY) |>.1.bind fun _ =>
      (load realPrims (some cr) [120] (w.after (Ex.disk .ACTIVE .PRIMARY))).map fun c' =>
        (c'.keySet.entries.map fun e => (e.num, e.status), c'.keySet.encrypted.truthy)) =
    .ok ([(1, .PRIMARY), (2, .ACTIVE)], true) := by decide +kernel

/-! ## C36 -/

/-- "rsa" in any letter case -/
def IsRsa (b : Bytes) : Prop :=
  ∃ x y z, b = [x, y, z] ∧ (x = 114 ∨ x = 82) ∧ (y = 115 ∨ y = 83) ∧ (z = 97 ∨ z = 65)

/-- the documented type of a new key set (usage text keyczart.py:221-230 and comments in `Create`):
HMAC or AES without `asymmetric`; RSA for crypt or when it says rsa; DSA for other signing keys -/
inductive NewType : Option KeyPurpose → Option Bytes → KeyPurpose → KeyType → Prop
  | hmac : NewType (some .SIGN_AND_VERIFY) none .SIGN_AND_VERIFY .HMAC_SHA1
  | rsaSign {a : Bytes} : IsRsa a → NewType (some .SIGN_AND_VERIFY) (some a) .SIGN_AND_VERIFY .RSA_PRIV
  | dsa {a : Bytes} : ¬ IsRsa a → NewType (some .SIGN_AND_VERIFY) (some a) .SIGN_AND_VERIFY .DSA_PRIV
  | aes : NewType (some .DECRYPT_AND_ENCRYPT) none .DECRYPT_AND_ENCRYPT .AES
  | rsaCrypt {a : Bytes} : NewType (some .DECRYPT_AND_ENCRYPT) (some a) .DECRYPT_AND_ENCRYPT .RSA_PRIV

theorem lower_rsa (x : UInt8) : ((if 65 ≤ x ∧ x ≤ 90 then x + 32 else x) = 114 ↔ x = 114 ∨ x = 82) ∧
    ((if 65 ≤ x ∧ x ≤ 90 then x + 32 else x) = 115 ↔ x = 115 ∨ x = 83) ∧
    ((if 65 ≤ x ∧ x ≤ 90 then x + 32 else x) = 97 ↔ x = 97 ∨ x = 65) := by
  revert x
  have : ∀ n : Fin 256, let x := UInt8.ofFin n
    ((if 65 ≤ x ∧ x ≤ 90 then x + 32 else x) = 114 ↔ x = 114 ∨ x = 82) ∧
    ((if 65 ≤ x ∧ x ≤ 90 then x + 32 else x) = 115 ↔ x = 115 ∨ x = 83) ∧
    ((if 65 ≤ x ∧ x ≤ 90 then x + 32 else x) = 97 ↔ x = 97 ∨ x = 65) := by decide +kernel
  intro x
  exact this x.toFin

theorem isRsa_iff (b : Bytes) : lowerBytes b = bstr "rsa" ↔ IsRsa b := by
  have h : bstr "rsa" = [114, 115, 97] := by decide
  rw [h]
  unfold lowerBytes IsRsa
  match b with
  | [] => simp
  | [x] => simp
  | [x, y] => simp
  | [x, y, z] =>
    simp only [List.map_cons, List.map_nil, List.cons.injEq, and_true]
    rw [(lower_rsa x).1, (lower_rsa y).2.1, (lower_rsa z).2.2]
    constructor
    · intro h; exact ⟨x, y, z, ⟨rfl, rfl, rfl⟩, h⟩
    · rintro ⟨x', y', z', ⟨rfl, rfl, rfl⟩, h⟩; exact h
  | x :: y :: z :: w :: t => simp

theorem createType_iff (purpose : Option KeyPurpose) (asym : Option Bytes) (p : KeyPurpose) (t : KeyType) :
    createType purpose asym = .ok (p, t) ↔ NewType purpose asym p t := by
  constructor
  · intro h
    unfold createType at h
    split at h
    · split at h
      · cases h; exact .hmac
      · split at h
        · next hr => cases h; exact .rsaSign ((isRsa_iff _).mp hr)
        · next hr => cases h; exact .dsa fun x => hr ((isRsa_iff _).mpr x)
    · split at h
      · cases h; exact .aes
      · cases h; exact .rsaCrypt
    · cases h
  · intro h
    cases h with
    | hmac => rfl
    | rsaSign h => unfold createType; simp only; rw [if_pos ((isRsa_iff _).mpr h)]
    | dsa h => unfold createType; simp only; rw [if_neg fun x => h ((isRsa_iff _).mp x)]
    | aes => rfl
    | rsaCrypt => rfl

theorem createType_error {purpose : Option KeyPurpose} {asym : Option Bytes} {e : PyErr}
    (h : createType purpose asym = .error e) : e = .keyczarError := by
  unfold createType at h
  split at h
  · split at h
    · cases h
    · split at h <;> cases h
  · split at h <;> cases h
  · cases h; rfl

/-- C36: `create` in a directory that has a metadata file raises KeyczarError and changes nothing,
whatever the flags. -/
theorem C36_never_overwrites (fs : FS) (l : Loc) (d : Dir) (old : Bytes) (hd : fs l = some d)
    (hm : d .metaFile = some old) (name : Json) (purpose : Option KeyPurpose) (asym : Option Bytes) :
    Create (some l) name purpose asym fs = (.error .keyczarError, []) := by
  unfold Create
  simp only
  cases ht : createType purpose asym with
  | error e => rw [createType_error ht]; rfl
  | ok t =>
    rw [Cmd.lift_ok_bind, Cmd.look_bind, CreateWriter, if_pos (by rw [hd]; rfl)]
    simp only [WriteMetadata]
    rw [if_pos (by simp [hd, hm])]

/-- C36: in a directory without metadata file `create` writes exactly one file, with which the
directory loads as an empty unencrypted key set of the documented type. -/
theorem C36_creates_empty (fs : FS) (l : Loc) (d : Dir) (hd : fs l = some d) (hm : d .metaFile = none)
    (name : Json) (hn : name.WF) (purpose : Option KeyPurpose) (asym : Option Bytes) (p : KeyPurpose) (t : KeyType)
    (hnew : NewType purpose asym p t) :
    ∃ text, Create (some l) name purpose asym fs = (.ok (), [.write l .metaFile text]) ∧
      Holds P none ((Create (some l) name purpose asym).after fs) l (KeySet.empty name p t) := by
  have hstr : KeyMetadata.str Heap.empty ⟨name, p, t, .bool false, []⟩ = .ok (metaText (KeySet.empty name p t)) :=
    KeyMetadata.str_eq _ _ (by simp)
  have hrun : Create (some l) name purpose asym fs =
      (.ok (), [.write l .metaFile (metaText (KeySet.empty name p t))]) := by
    unfold Create
    simp only
    rw [(createType_iff _ _ _ _).mpr hnew, Cmd.lift_ok_bind, Cmd.look_bind, CreateWriter, if_pos (by rw [hd]; rfl)]
    simp only [WriteMetadata]
    rw [if_neg (by simp [hd, hm]), hstr, Cmd.lift_ok_bind, WriteFile_ok (by rw [hd]; rfl)]
  refine ⟨_, hrun, ?_⟩
  have hlo : (KeySet.empty name p t).Loadable P := by
    refine ⟨⟨hn, trivial, by simp [KeySet.empty, KeySet.view]⟩, ⟨?_, ?_⟩, ?_⟩ <;> simp [KeySet.empty, KeySet.primaries]
  refine Holds_iff.mpr ⟨_, by unfold Cmd.after; rw [hrun, applyAll_at, hd]; rfl, ?_, ?_, ?_⟩
  · apply gives_of_files (enc := none) (rd := none) hlo trivial
    · simp [dirAfter, touch, Effect.loc, Effect.file, Effect.content]
    · simp [KeySet.empty]
  · intro h; simp [KeySet.empty, Json.truthy] at h
  · simp [KeySet.empty, KeySet.primaries]

/-- C36: other flags, and locations that do not exist, are refused with KeyczarError and no effect. -/
theorem C36_refuses (fs : FS) (loc : Option Loc) (name : Json) (purpose : Option KeyPurpose) (asym : Option Bytes)
    (h : (∀ p t, ¬ NewType purpose asym p t) ∨ ∀ l, loc = some l → fs l = none) :
    Create loc name purpose asym fs = (.error .keyczarError, []) := by
  unfold Create
  cases loc with
  | none => rfl
  | some l =>
    simp only
    cases ht : createType purpose asym with
    | error e => rw [createType_error ht]; rfl
    | ok t =>
      obtain ⟨p, t⟩ := t
      rcases h with h | h
      · exact absurd ((createType_iff _ _ _ _).mp ht) (h p t)
      · rw [Cmd.lift_ok_bind, Cmd.look_bind, CreateWriter, if_neg (by rw [h l rfl]; simp)]

example : NewType (some .SIGN_AND_VERIFY) (some (bstr "RsA")) .SIGN_AND_VERIFY .RSA_PRIV :=
  .rsaSign ⟨82, 115, 65, by decide, by decide, by decide, by decide⟩
example : Create (some [104]) .null (some .SIGN_AND_VERIFY) none (Ex.disk .ACTIVE .PRIMARY) = (.error .keyczarError, [])
    ∧ (Create (some [120]) .null (some .SIGN_AND_VERIFY) none (Ex.disk .ACTIVE .PRIMARY)).1 = .ok () := by
  decide +kernel

/-! ## C38 -/

/-- C38: `promote` with a negative or unknown version number or a PRIMARY version raises KeyczarError
and has no effect; otherwise it changes the directory to the specified key set. -/
theorem C38_promote (env : Env) (fs : FS) (l : Loc) (ks : KeySet) (h : Holds P none fs l ks) (n : Int) :
    match (if n < 0 then none else ks.promote n) with
    | none => Promote P env (some l) n fs = (.error .keyczarError, [])
    | some ks' => (Promote P env (some l) n fs).1 = .ok () ∧
        Holds P none ((Promote P env (some l) n).after fs) l { ks' with encrypted := .bool false } := by
  obtain ⟨c, hc, rfl⟩ := h
  have hl := load_loaded hc
  have hspec := Czar.Promote_spec hl.inv n
  have heq : manage P env l none (decide (n < 0)) (.promote n) fs = if n < 0 then (.error .keyczarError, [])
      else match (c.Promote n).1 with
        | .error e => (.error e, [])
        | .ok _ => (c.Promote n).2.Write P env l none fs := by
    unfold manage
    rw [hc]
    simp only [decide_eq_true_eq]
    rfl
  unfold Cmd.after
  rw [Promote_eq]
  by_cases hn : n < 0
  · simp only [if_pos hn]
    rw [heq, if_pos hn]
  · simp only [if_neg hn]
    cases hs : c.keySet.promote n with
    | none =>
      rw [hs] at hspec
      simp only
      rw [heq, if_neg hn, hspec]
    | some ks' =>
      rw [hs] at hspec
      obtain ⟨heap, pr, h1, h2, h3⟩ := hspec
      rw [heq, if_neg hn, h1]
      have hw : ({ c with heap := heap, primary := pr } : Czar).keySet.view.WF := by
        rw [h2]; exact promote_wf hl.loadable.view_wf hs
      have hp := Czar.Write_plain (P := P) (env := env) h3 hw (load_isSome hc)
      refine ⟨hp, ?_⟩
      have := Czar.Write_holds (P := P) (env := env) (enc := none) (rd := none) h3 hw trivial (load_isSome hc) hp
      rw [h2] at this
      exact this

/-- C38: likewise `demote`. -/
theorem C38_demote (env : Env) (fs : FS) (l : Loc) (ks : KeySet) (h : Holds P none fs l ks) (n : Int) :
    match (if n < 0 then none else ks.demote n) with
    | none => Demote P env (some l) n fs = (.error .keyczarError, [])
    | some ks' => (Demote P env (some l) n fs).1 = .ok () ∧
        Holds P none ((Demote P env (some l) n).after fs) l { ks' with encrypted := .bool false } := by
  obtain ⟨c, hc, rfl⟩ := h
  have hl := load_loaded hc
  have hspec := Czar.Demote_spec hl.inv n
  have heq : manage P env l none (decide (n < 0)) (.demote n) fs = if n < 0 then (.error .keyczarError, [])
      else match (c.Demote n).1 with
        | .error e => (.error e, [])
        | .ok _ => (c.Demote n).2.Write P env l none fs := by
    unfold manage
    rw [hc]
    simp only [decide_eq_true_eq]
    rfl
  unfold Cmd.after
  rw [Demote_eq]
  by_cases hn : n < 0
  · simp only [if_pos hn]
    rw [heq, if_pos hn]
  · simp only [if_neg hn]
    cases hs : c.keySet.demote n with
    | none =>
      rw [hs] at hspec
      simp only
      rw [heq, if_neg hn, hspec]
    | some ks' =>
      rw [hs] at hspec
      obtain ⟨heap, pr, h1, h2, h3⟩ := hspec
      rw [heq, if_neg hn, h1]
      have hw : ({ c with heap := heap, primary := pr } : Czar).keySet.view.WF := by
        rw [h2]; exact demote_wf hl.loadable.view_wf hs
      have hp := Czar.Write_plain (P := P) (env := env) h3 hw (load_isSome hc)
      refine ⟨hp, ?_⟩
      have := Czar.Write_holds (P := P) (env := env) (enc := none) (rd := none) h3 hw trivial (load_isSome hc) hp
      rw [h2] at this
      exact this

/-- a directory's reader delivers the same when files it does not look at change -/
theorem Gives_congr {rd : Option Czar} {d d' : Dir} {ks : KeySet} (h : (dirReader P rd d).Gives P ks)
    (hm : d' .metaFile = d .metaFile) (hk : ∀ e ∈ ks.entries, d' (.key e.num) = d (.key e.num)) :
    (dirReader P rd d').Gives P ks := by
  refine ⟨?_, ?_⟩
  · obtain ⟨text, kmd, hp, h1, h2⟩ := h.1
    refine ⟨text, kmd, hp, ?_, h2⟩
    rw [dirReader_meta] at h1 ⊢
    rw [← h1, ReadFile, hm]; rfl
  · intro e he
    obtain ⟨text, h1, h2⟩ := h.2 e he
    refine ⟨text, ?_, h2⟩
    rw [dirReader_key] at h1 ⊢
    have : ReadFile d' (.key e.num) = ReadFile d (.key e.num) := by unfold ReadFile; rw [hk e he]
    rw [this]
    exact h1

/-- C38: removing a file takes away that file and nothing else; a file that is not there (or whose directory is not) is
an `OSError`, and nothing happens. -/
theorem C38_remove (l : Loc) (f : FileName) (fs : FS) :
    (∀ d text, fs l = some d → d f = some text →
      (RemoveFile l f fs).1 = .ok () ∧
      (∃ d', (RemoveFile l f).after fs l = some d' ∧ d' f = none ∧ ∀ f', f' ≠ f → d' f' = d f') ∧
      ∀ l', l' ≠ l → (RemoveFile l f).after fs l' = fs l') ∧
    ((∀ d, fs l = some d → d f = none) → RemoveFile l f fs = (.error .osError, [])) := by
  constructor
  · intro d text hd hf
    have hr : RemoveFile l f fs = (.ok (), [.remove l f]) := by simp [RemoveFile, hd, hf]
    refine ⟨by rw [hr], ⟨d.set f none, ?_, by simp [Dir.set], fun f' h => by simp [Dir.set, h]⟩, fun l' h => ?_⟩
    · unfold Cmd.after; rw [hr]; simp [applyAll, Effect.apply, FS.set, hd]
    · unfold Cmd.after; rw [hr]; simp [applyAll, Effect.apply, FS.set, h]
  · intro h
    unfold RemoveFile
    cases hd : fs l with
    | none => rfl
    | some d => simp [h d hd]

/-- example: the key file of version 2 is there once -/
example : let fs : FS := fun l => if l = [97] then some (fun f => if f = .key 2 then some [120] else none) else none
    (RemoveFile [97] (.key 2) fs).1 = .ok () ∧
    (RemoveFile [97] (.key 2) ((RemoveFile [97] (.key 2)).after fs)).1 = .error .osError ∧
    (RemoveFile [98] (.key 2) fs).1 = .error .osError := by decide +kernel

/-- C38: likewise `revoke`, which also removes the version's key file and nothing else. -/
theorem C38_revoke (env : Env) (fs : FS) (l : Loc) (ks : KeySet) (h : Holds P none fs l ks) (n : Int) :
    match (if n < 0 then none else ks.revoke n) with
    | none => Revoke P env (some l) n fs = (.error .keyczarError, [])
    | some ks' => (Revoke P env (some l) n fs).1 = .ok () ∧
        Holds P none ((Revoke P env (some l) n).after fs) l { ks' with encrypted := .bool false } ∧
        ∃ d, (Revoke P env (some l) n).after fs l = some d ∧ d (.key n) = none := by
  obtain ⟨c, hc, rfl⟩ := h
  have hl := load_loaded hc
  have hspec := Czar.Revoke_spec hl.inv n
  have heq : manage P env l none (decide (n < 0)) (.revoke n) fs = if n < 0 then (.error .keyczarError, [])
      else match (c.Revoke n).1 with
        | .error e => (.error e, [])
        | .ok _ => (c.Revoke n).2.Write P env l none fs := by
    unfold manage
    rw [hc]
    simp only [decide_eq_true_eq]
    rfl
  unfold Cmd.after
  rw [Revoke_eq, heq]
  by_cases hn : n < 0
  · simp only [if_pos hn]
  · simp only [if_neg hn]
    cases hs : c.keySet.revoke n with
    | none =>
      rw [hs] at hspec
      simp only
      rw [hspec]
    | some ks' =>
      rw [hs] at hspec
      obtain ⟨m, h1, -, h2, h3⟩ := hspec
      rw [h1]
      have hw : ({ c with metadata := m } : Czar).keySet.view.WF := by
        rw [h2]; exact revoke_wf hl.loadable.view_wf hs
      have hp := Czar.Write_plain (P := P) (env := env) h3 hw (load_isSome hc)
      have hh := Czar.Write_holds (P := P) (env := env) (enc := none) (rd := none) h3 hw trivial (load_isSome hc) hp
      rw [h2] at hh
      obtain ⟨d, hd, hg, henc, hpr⟩ := Holds_iff.mp hh
      cases hwr : ({ c with metadata := m } : Czar).Write P env l none fs with
      | mk r es =>
        rw [hwr] at hp hd hh
        simp only at hp
        subst hp
        simp only
        have hd2 : applyAll fs (es ++ [.remove l (.key n)]) l = some (dirAfter [.remove l (.key n)] l d) := by
          rw [applyAll_append, applyAll_at, hd]; rfl
        refine ⟨trivial, Holds_iff.mpr ⟨_, hd2, ?_, henc, hpr⟩, _, hd2, ?_⟩
        · refine Gives_congr P hg ?_ ?_
          · simp [dirAfter, touch, Effect.file]
          · intro e he
            have hne : e.num ≠ n := by
              unfold KeySet.revoke at hs
              split at hs
              · cases hs
              · split at hs
                · cases hs
                  have := (List.mem_filter.mp he).2
                  simpa using this
                · cases hs
            simp [dirAfter, touch, Effect.file, Effect.loc, Ne.symm hne]
        · simp [dirAfter, touch, Effect.file, Effect.loc, Effect.content]

/-- C38: whatever the directory contains (also when it cannot be loaded), promote, demote, revoke and
addkey without crypter have no effect at all when they raise anything. -/
theorem C38_failure_has_no_effect (env : Env) (fs : FS) (loc : Option Loc) (n : Int) (status : KeyStatus) (size : Int) :
    ((Promote P env loc n fs).1 = .ok () ∨ (Promote P env loc n fs).2 = []) ∧
    ((Demote P env loc n fs).1 = .ok () ∨ (Demote P env loc n fs).2 = []) ∧
    ((Revoke P env loc n fs).1 = .ok () ∨ (Revoke P env loc n fs).2 = []) ∧
    ((AddKey P env loc status none size fs).1 = .ok () ∨ (AddKey P env loc status none size fs).2 = []) := by
  cases loc with
  | none => exact ⟨.inr rfl, .inr rfl, .inr rfl, .inr rfl⟩
  | some l =>
    have key : ∀ bad op, (manage P env l none bad op fs).1 = .ok () ∨ (manage P env l none bad op fs).2 = [] := by
      intro bad op
      cases hm : (manage P env l none bad op fs).1 with
      | ok u => exact .inl rfl
      | error e => exact .inr (manage_error hm)
    refine ⟨?_, ?_, ?_, ?_⟩
    · rw [Promote_eq]; exact key _ _
    · rw [Demote_eq]; exact key _ _
    · rw [Revoke_eq]
      have := key (decide (n < 0)) (.revoke n)
      cases hm : manage P env l none (decide (n < 0)) (.revoke n) fs with
      | mk r es =>
        rw [hm] at this
        cases r with
        | error e => rcases this with h | h <;> [cases h; exact .inr h]
        | ok u => exact .inl rfl
    · rw [AddKey_eq]; exact key _ _

/-- C38: `addkey` with an unsupported size raises KeyczarError and has no effect, also with a crypter. -/
theorem C38_addkey_bad_size (env : Env) (fs : FS) (l : Loc) (cr : Option Czar) (ks : KeySet) (h : Holds P cr fs l ks)
    (status : KeyStatus) (size : Int) (h1 : size ≠ -1) (hs : ∀ s ∈ ks.type.sizes, (s : Int) ≠ size) :
    AddKey P env (some l) status cr size fs = (.error .keyczarError, []) := by
  obtain ⟨c, hc, rfl⟩ := h
  rw [AddKey_eq]
  unfold manage
  rw [hc]
  simp only [Bool.false_eq_true, if_false, if_neg h1]
  have := C29_bad_size P c env.gen env.fuel status size hs
  simp only [Op.run, this]

/-- C38: missing or non-existing locations. -/
theorem C38_no_location (env : Env) (fs : FS) (n : Int) (status : KeyStatus) (size : Int) (cr : Option Czar)
    (loc : Option Loc) (h : ∀ l, loc = some l → fs l = none) :
    Promote P env loc n fs = (.error .keyczarError, []) ∧ Demote P env loc n fs = (.error .keyczarError, []) ∧
    Revoke P env loc n fs = (.error .keyczarError, []) ∧
    AddKey P env loc status cr size fs = (.error .keyczarError, []) := by
  cases loc with
  | none => exact ⟨rfl, rfl, rfl, rfl⟩
  | some l =>
    have key : ∀ cr bad op, manage P env l cr bad op fs = (.error .keyczarError, []) := by
      intro cr bad op
      unfold manage load
      rw [h l rfl]
    rw [Promote_eq, Demote_eq, Revoke_eq, AddKey_eq, key, key, key, key]
    exact ⟨rfl, rfl, rfl, rfl⟩

/-- example: testdata/hmac: promote 2 (PRIMARY), promote 3, demote -1, revoke 1 (ACTIVE) fail;
promote 1 and demote 1 do not -/
example : (Promote realPrims Ex.env (some [104]) 2 (Ex.disk .ACTIVE .PRIMARY)) = (.error .keyczarError, []) ∧
    (Promote realPrims Ex.env (some [104]) 3 (Ex.disk .ACTIVE .PRIMARY)) = (.error .keyczarError, []) ∧
    (Demote realPrims Ex.env (some [104]) (-1) (Ex.disk .ACTIVE .PRIMARY)) = (.error .keyczarError, []) ∧
    (Revoke realPrims Ex.env (some [104]) 1 (Ex.disk .ACTIVE .PRIMARY)) = (.error .keyczarError, []) ∧
    (AddKey realPrims Ex.env (some [104]) .ACTIVE none 255 (Ex.disk .ACTIVE .PRIMARY)) = (.error .keyczarError, []) ∧
    (Promote realPrims Ex.env (some [104]) 1 (Ex.disk .ACTIVE .PRIMARY)).2.length = 3 ∧
    (Revoke realPrims Ex.env (some [104]) 1 (Ex.disk .INACTIVE .PRIMARY)).2.length = 4 := by decide +kernel

end Verif.Props
