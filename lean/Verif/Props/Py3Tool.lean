import Verif.Model.Py3Tool
import Verif.Props.Py3
/-
C85: under Python 3 the library and the tool fail closed.  For any files, any inputs and any history of commands nothing is
ever encrypted, decrypted, signed or accepted, and no key is ever written.
-/
namespace Verif.Props
open Verif.Py3

/-! ## Specification -/

/-- the call raised an exception -/
def Raised {α : Type} (r : Py α) : Prop := ∃ e, r = .error e

/-- the directory has nothing new: files of numbers and other names are as they were or gone, the metadata file is as it was
or gone or the text of a set without versions -/
def NothingNewIn (dump : Meta → Text) (d d' : Dir) : Prop :=
  (∀ n, n ≠ .metadata → d' n = d n ∨ d' n = none) ∧
  (d' .metadata = d .metadata ∨ d' .metadata = none ∨ ∃ m : Meta, m.versions = [] ∧ d' .metadata = some (dump m))

/-- no directory came or went, and none has anything new -/
def NothingNew (dump : Meta → Text) (fs fs' : FS) : Prop :=
  ∀ l, match fs l, fs' l with
    | none, none => True
    | some d, some d' => NothingNewIn dump d d'
    | _, _ => False

/-- a key set that can be opened: a readable metadata file without versions, of an acceptable purpose, and a crypter if it
says it is encrypted -/
def Opens (parse : Text → Py Meta) (fs : FS) (loc : Text) (accepts : Purpose → Bool) (withCrypter : Bool) (m : Meta) : Prop :=
  ∃ d t, fs loc = some d ∧ d .metadata = some t ∧ parse t = .ok m ∧ accepts m.purpose = true ∧
    (m.encrypted = true → withCrypter = true) ∧ m.versions = []

/-! ## Opening -/

private theorem bind_err {α β : Type} (e : PyErr) (f : α → Py β) : (Except.error e >>= f) = .error e := rfl
private theorem bind_val {α β : Type} (a : α) (f : α → Py β) : ((Except.ok a : Py α) >>= f) = f a := rfl

/-- Exactly the key sets without versions can be opened, by any class, with or without a crypter; the object has no key. -/
theorem C85_open (W : World) (loc : Text) (accepts : Purpose → Bool) (crypter : Option Py3.Czar) (fs : FS) (m : Meta)
    (c : Py3.Czar) : Open W loc accepts crypter fs = .ok (m, c) ↔
      Opens W.parse fs loc accepts crypter.isSome m ∧ c = ⟨[], [], none⟩ := by
  unfold Open Opens located ReadFile
  rcases hd : fs loc with _ | d
  · simp [bind_err]
  rcases ht : d .metadata with _ | t
  · simp [bind_err, bind_val, ht]
  rcases hm : W.parse t with e | m'
  · simp only [bind_val, ht, hm, bind_err, Option.some.injEq, reduceCtorEq, false_iff]
    rintro ⟨⟨d1, t1, rfl, h2, h3, -⟩, -⟩
    rw [ht] at h2; cases h2; rw [hm] at h3; cases h3
  simp only [bind_val, ht, hm]
  generalize hr : (fun v : Version => _) = read
  generalize hk : (if accepts m'.purpose = false then _ else _ : Py (List Version)) = checks
  have key := C62_load (W.env 0) checks read
  constructor
  · intro h
    rcases hl : load (W.env 0) checks read with e | c'
    · rw [hl] at h; cases h
    · rw [hl] at h; cases h
      obtain ⟨h1, h2⟩ := (key c).1 hl
      refine ⟨⟨d, t, rfl, ht, hm, ?_⟩, h2⟩
      rw [← hk] at h1
      cases ha : accepts m.purpose <;> simp only [ha, if_true, reduceCtorEq, Bool.true_eq_false, if_false] at h1
      cases he : m.encrypted <;> cases crypter <;> simp_all
  · rintro ⟨⟨d1, t1, h1, h2, h3, h4, h5, h6⟩, rfl⟩
    cases h1; rw [ht] at h2; cases h2; rw [hm] at h3; cases h3
    have : checks = .ok [] := by
      rw [← hk]
      cases he : m.encrypted <;> cases crypter <;> simp_all
    rw [(key _).2 ⟨this, rfl⟩]
    rfl

/-! ## Operations -/

/-- A header is never recognised, by any object, whatever keys it has. -/
theorem C85_header (W : World) (c : Py3.Czar) (h : Val) : Raised (c.ParseHeader W h) := by
  unfold Czar.ParseHeader Raised
  rcases ordHead h with e | v
  · exact ⟨e, rfl⟩
  rw [bind_val]
  split
  · exact ⟨_, rfl⟩
  rcases Py3.sliceFrom 1 h with e | s
  · exact ⟨e, rfl⟩
  rw [bind_val, C62_encode]
  exact ⟨_, rfl⟩

/-- Nothing is decrypted, by any object: not even by one that had keys. -/
theorem C85_decrypt (W : World) (c : Py3.Czar) (v : Val) (decoder : Option (Val → Py Val)) :
    Raised (c.Decrypt W v decoder) := by
  unfold Czar.Decrypt Raised
  rcases coded decoder v with e | data
  · exact ⟨e, rfl⟩
  rcases hn : len data with e | n
  · exact ⟨e, by simp only [bind_val, hn, bind_err]⟩
  simp only [bind_val, hn]
  split
  · exact ⟨_, rfl⟩
  rcases Py3.sliceTo 5 data with e | s
  · exact ⟨e, rfl⟩
  obtain ⟨e, he⟩ := C85_header W c s
  rw [bind_val, he]
  exact ⟨e, rfl⟩

private theorem internalVerify (W : World) (c : Py3.Czar) (h s d n : Val) : Raised (c.InternalVerify W h s d n) := by
  unfold Czar.InternalVerify
  obtain ⟨e, he⟩ := C85_header W c h
  rw [he]
  exact ⟨e, rfl⟩

/-- No signature is accepted or rejected: verification raises, by any object. -/
theorem C85_verify (W : World) (c : Py3.Czar) (data sig : Val) (decoder : Option (Val → Py Val)) :
    Raised (c.Verify W data sig decoder) := by
  unfold Czar.Verify Raised
  rcases coded decoder sig with e | sig
  · exact ⟨e, rfl⟩
  rcases hn : len sig with e | n
  · exact ⟨e, by simp only [bind_val, hn, bind_err]⟩
  simp only [bind_val, hn]
  split
  · exact ⟨_, rfl⟩
  rcases Py3.sliceTo 5 sig with e | s
  · exact ⟨e, rfl⟩
  rcases Py3.sliceFrom 5 sig with e | s'
  · exact ⟨e, rfl⟩
  exact internalVerify W c _ _ _ _

/-- The same for attached signatures. -/
theorem C85_attached_verify (W : World) (c : Py3.Czar) (unpack : Val → Py (Val × Val)) (signed nonce : Val)
    (decoder : Option (Val → Py Val)) : Raised (c.AttachedVerify W unpack signed nonce decoder) := by
  unfold Czar.AttachedVerify Raised
  rcases coded decoder signed with e | d
  · exact ⟨e, rfl⟩
  rcases hn : unpack d with e | ⟨a, b⟩
  · exact ⟨e, by simp only [bind_val, hn, bind_err]⟩
  simp only [bind_val, hn]
  rcases Py3.sliceTo 5 d with e | s
  · exact ⟨e, rfl⟩
  obtain ⟨e, he⟩ := internalVerify W c s b a nonce
  rw [bind_val, he]
  exact ⟨e, rfl⟩

/-- No signature with a header is made, by any object: not even by one that had keys. -/
theorem C85_sign_any (W : World) (c : Py3.Czar) (data nonce : Val) (encoder : Option (Val → Py Val)) :
    Raised (c.Sign W data encoder) ∧ Raised (c.AttachedSign W data nonce encoder) := by
  have hh : ∀ k, Raised (header W k) := fun k => by
    unfold header
    obtain ⟨e, he⟩ := C62_identifier (W.env 0) k
    rw [he]
    exact ⟨e, rfl⟩
  unfold Czar.Sign Czar.AttachedSign Raised
  rcases c.primaryKey with e | k
  · exact ⟨⟨e, rfl⟩, ⟨e, rfl⟩⟩
  obtain ⟨e, he⟩ := hh k
  simp only [bind_val, he, bind_err]
  exact ⟨⟨e, rfl⟩, ⟨e, rfl⟩⟩

/-- An opened key set has no primary key: encryption and every kind of signing raise `KeyNotFoundError`, and the unversioned
verifier accepts no signature. -/
theorem C85_use (W : World) (loc : Text) (accepts : Purpose → Bool) (crypter : Option Py3.Czar) (fs : FS) (m : Meta)
    (c : Py3.Czar) (h : Open W loc accepts crypter fs = .ok (m, c)) (data nonce sig : Val)
    (f : Option (Val → Py Val)) :
    c.Encrypt W data f = .error .keyNotFound ∧ c.Sign W data f = .error .keyNotFound ∧
    c.AttachedSign W data nonce f = .error .keyNotFound ∧ c.UnversionedSign W data f = .error .keyNotFound ∧
    c.UnversionedVerify W data sig f ≠ .ok true := by
  obtain ⟨-, rfl⟩ := (C85_open W loc accepts crypter fs m c).1 h
  refine ⟨rfl, rfl, rfl, rfl, ?_⟩
  unfold Czar.UnversionedVerify
  rcases coded f sig with e | s
  · simp [bind_err]
  · simp [bind_val, verifyAny]

/-- No session is begun, and none is taken up. -/
theorem C85_sessions (W : World) (pack : Key → Py Val) (unpack : Val → Py Key) (c : Py3.Czar) (material : Val) :
    SessionEncrypter W pack c = .error .typeError ∧ Raised (SessionDecrypter W unpack c material) := by
  constructor
  · unfold SessionEncrypter SessionNew
    rw [C62_generate_symmetric (W.env 0) .AES (.inl rfl) 128 (by decide)]
    rfl
  · unfold SessionDecrypter
    obtain ⟨e, he⟩ := C85_decrypt W c material (some Py3.Base64WSDecode)
    rw [he]
    exact ⟨e, rfl⟩

/-! ## Commands -/

private theorem cmd_bind {α β : Type} (x : Cmd α) (f : α → Cmd β) (fs : FS) :
    (x >>= f) fs = match x fs with
      | (.error e, fs') => (.error e, fs')
      | (.ok a, fs') => f a fs' := rfl

private theorem look_err {α β : Type} (g : FS → Py α) (f : α → Cmd β) (fs : FS) (e : PyErr) (h : g fs = .error e) :
    (look g >>= f) fs = (.error e, fs) := by
  rw [cmd_bind]; simp [look, h]

private theorem look_ok {α β : Type} (g : FS → Py α) (f : α → Cmd β) (fs : FS) (a : α) (h : g fs = .ok a) :
    (look g >>= f) fs = f a fs := by
  rw [cmd_bind]; simp [look, h]

private theorem generic (W : World) (loc : Option Text) (crypter : Option Py3.Czar) (fs : FS) :
    (∃ e, CreateGeneric W loc crypter fs = (.error e, fs)) ∨
    ∃ l m, loc = some l ∧ Opens W.parse fs l (fun _ => true) crypter.isSome m ∧
      CreateGeneric W loc crypter fs = (.ok (l, m, ⟨[], [], none⟩), fs) := by
  cases loc with
  | none => exact .inl ⟨_, rfl⟩
  | some l =>
    unfold CreateGeneric
    rcases ho : Open W l genericAccepts crypter fs with e | ⟨m, c⟩
    · exact .inl ⟨e, look_err _ _ _ _ ho⟩
    · obtain ⟨h1, rfl⟩ := (C85_open W l _ crypter fs m c).1 ho
      exact .inr ⟨l, m, rfl, h1, look_ok _ _ _ _ ho⟩

/-- Adding a key raises and leaves the files as they were, whatever set, status, size and crypter are given. -/
theorem C85_addkey (W : World) (loc : Option Text) (status : Status) (crypter : Option Py3.Czar) (size : Int) (fs : FS) :
    ∃ e, AddKey W loc status crypter size fs = (.error e, fs) := by
  unfold AddKey
  rw [cmd_bind]
  rcases generic W loc crypter fs with ⟨e, h⟩ | ⟨l, m, -, -, h⟩
  · exact ⟨e, by rw [h]⟩
  rw [h]
  dsimp only
  obtain ⟨e, he⟩ := C62_add W.env m.type ⟨[], [], none⟩
    (Ver.toVersion ⟨m.versions.foldl (fun a v => max a v.number) 0 + 1, status⟩)
    (if size = -1 then none else some size.toNat) W.fuel
  exact ⟨e, look_err _ _ _ _ he⟩

private theorem change_fails (W : World) (f : Meta → Int → Py Meta)
    (hf : ∀ m n, m.versions = [] → f m n = .error .keyczarError) (loc : Option Text) (n : Int) (fs : FS) :
    ∃ e, change W f loc n fs = (.error e, fs) := by
  unfold change
  rw [cmd_bind]
  rcases generic W loc none fs with ⟨e, h⟩ | ⟨l, m, -, ⟨_, _, _, _, _, _, _, hv⟩, h⟩
  · exact ⟨e, by rw [h]⟩
  rw [h]
  dsimp only
  split
  · exact ⟨_, rfl⟩
  · exact ⟨_, look_err _ _ _ _ (hf m n hv)⟩

private theorem noVersion (m : Meta) (n : Int) (h : m.versions = []) : m.GetVersion n = .error .keyczarError := by
  simp [Meta.GetVersion, h]

/-- So do promoting, demoting and revoking. -/
theorem C85_status (W : World) (loc : Option Text) (n : Int) (fs : FS) :
    (∃ e, (Command.promote loc n).run W fs = (.error e, fs)) ∧ (∃ e, (Command.demote loc n).run W fs = (.error e, fs)) ∧
    ∃ e, (Command.revoke loc n).run W fs = (.error e, fs) := by
  refine ⟨?_, ?_, ?_⟩
  · obtain ⟨e, h⟩ := change_fails W Meta.Promote (fun m n h => by simp [Meta.Promote, noVersion m n h, bind_err]) loc n fs
    exact ⟨e, by simp only [Command.run, cmd_bind, h]⟩
  · obtain ⟨e, h⟩ := change_fails W Meta.Demote (fun m n h => by simp [Meta.Demote, noVersion m n h, bind_err]) loc n fs
    exact ⟨e, by simp only [Command.run, cmd_bind, h]⟩
  · obtain ⟨e, h⟩ := change_fails W Meta.Revoke (fun m n h => by simp [Meta.Revoke, noVersion m n h, bind_err]) loc n fs
    exact ⟨e, by simp only [Command.run, Revoke, cmd_bind, h]⟩

/-- What creating a set does: in a directory without a metadata file it writes the metadata of a set without versions; in
every other case it raises and leaves the files as they were. -/
theorem C85_create (W : World) (loc : Option Text) (name : Text) (purpose : Option Purpose) (asymmetric : Option Text)
    (fs : FS) :
    (∃ e, Create W loc name purpose asymmetric fs = (.error e, fs)) ∨
    ∃ l d m, loc = some l ∧ fs l = some d ∧ d .metadata = none ∧ newMeta name purpose asymmetric = .ok m ∧
      m.versions = [] ∧
      Create W loc name purpose asymmetric fs = (.ok (), fs.put l (d.put .metadata (some (W.dump m)))) := by
  cases loc with
  | none => exact .inl ⟨_, rfl⟩
  | some l =>
    unfold Create
    rcases hm : newMeta name purpose asymmetric with e | m
    · exact .inl ⟨e, look_err _ _ _ _ rfl⟩
    have hv : m.versions = [] := by
      unfold newMeta at hm
      split at hm <;> (try split at hm) <;> (try split at hm) <;> cases hm <;> rfl
    dsimp only
    rw [look_ok (fun _ => .ok m) _ _ m rfl]
    rcases hd : fs l with _ | d
    · exact .inl ⟨_, look_err _ _ _ _ (by simp [located, hd]; rfl)⟩
    rw [look_ok _ _ _ () (by simp [located, hd])]
    rcases ht : d .metadata with _ | t
    · rw [look_ok _ _ _ () (by simp [absent, hd, ht])]
      exact .inr ⟨l, d, m, rfl, hd, ht, rfl, hv, by simp [WriteFile, hd]⟩
    · exact .inl ⟨_, look_err _ _ _ _ (by simp [absent, hd, ht]; rfl)⟩

/-- What exporting public keys does: from an asymmetric set without versions it writes the metadata of a public set without
versions; in every other case it raises and leaves the files as they were. -/
theorem C85_pubkey (W : World) (loc dest : Option Text) (fs : FS) :
    (∃ e, PubKey W loc dest fs = (.error e, fs)) ∨
    ∃ l t m p d, loc = some l ∧ dest = some t ∧ Opens W.parse fs l (fun _ => true) false m ∧ publicMeta m = .ok p ∧
      fs t = some d ∧ p.versions = [] ∧
      PubKey W loc dest fs = (.ok (), fs.put t (d.put .metadata (some (W.dump p)))) := by
  cases dest with
  | none => exact .inl ⟨_, rfl⟩
  | some t =>
    unfold PubKey
    dsimp only
    rw [cmd_bind]
    rcases generic W loc none fs with ⟨e, h⟩ | ⟨l, m, hl, ho, h⟩
    · exact .inl ⟨e, by rw [h]⟩
    rw [h]
    dsimp only
    rcases hp : publicMeta m with e | p
    · exact .inl ⟨e, look_err _ _ _ _ rfl⟩
    have hv : p.versions = [] := by
      unfold publicMeta at hp
      split at hp <;> cases hp <;> rfl
    have hmv : m.versions = [] := by obtain ⟨_, _, _, _, _, _, _, h⟩ := ho; exact h
    have hpe : ({ p with versions := m.versions } : Meta) = p := by rw [hmv, ← hv]
    rw [look_ok (fun _ => .ok p) _ _ p rfl, hpe]
    rcases hd : fs t with _ | d
    · refine .inl ⟨.keyczarError, ?_⟩
      change WriteFile (.str (W.dump p)) t .metadata fs = _
      simp [WriteFile, hd]
    · refine .inr ⟨l, t, m, p, d, hl, rfl, ho, hp, hd, hv, ?_⟩
      change WriteFile (.str (W.dump p)) t .metadata fs = _
      simp [WriteFile, hd]

/-- What generating the test sets does: it never succeeds.  If the directory `aes` exists, all its files are deleted before
the exception and the metadata of a set without versions is put in their place; otherwise no file changes. -/
theorem C85_genkey (W : World) (loc : Option Text) (fs : FS) :
    ((∀ l, loc = some l → fs (pathJoin l (txt "aes")) = none) ∧ ∃ e, GenKeySet W loc fs = (.error e, fs)) ∨
    ∃ l d e, loc = some l ∧ fs (pathJoin l (txt "aes")) = some d ∧
      GenKeySet W loc fs = (.error e, fs.put (pathJoin l (txt "aes")) fun n =>
        if n = .metadata then some (W.dump ⟨txt "Test", .DECRYPT_AND_ENCRYPT, .AES, false, []⟩) else none) := by
  cases loc with
  | none => exact .inl ⟨nofun, _, rfl⟩
  | some l =>
    unfold GenKeySet
    dsimp only
    rw [cmd_bind]
    unfold KEYSETS genSets
    rw [cmd_bind]
    unfold genSet
    dsimp only
    rw [cmd_bind]
    simp only [pure]
    rw [cmd_bind]
    unfold Clean
    rcases hd : fs (pathJoin l (txt "aes")) with _ | d
    · exact .inl ⟨fun l' h => by cases h; exact hd, _, rfl⟩
    right
    dsimp only
    rw [cmd_bind]
    generalize hF : fs.put (pathJoin l (txt "aes")) (fun _ => none) = F
    have hFl : F (pathJoin l (txt "aes")) = some fun _ => none := by rw [← hF]; simp [FS.put]
    rcases C85_create W (some (pathJoin l (txt "aes"))) (txt "Test") (some .DECRYPT_AND_ENCRYPT) none F with ⟨e, h⟩ | h
    · exfalso
      revert h
      simp [Create, newMeta, cmd_bind, look, located, absent, WriteFile, hFl]
    obtain ⟨l', d', m, hl, hd', -, hm, -, h⟩ := h
    cases hl
    rw [hFl] at hd'; cases hd'
    cases hm
    rw [h]
    dsimp only
    rw [cmd_bind]
    obtain ⟨e, he⟩ := C85_addkey W (some (pathJoin l (txt "aes"))) .PRIMARY none (-1)
      (F.put (pathJoin l (txt "aes")) (Dir.put (fun _ => none) .metadata
        (some (W.dump ⟨txt "Test", .DECRYPT_AND_ENCRYPT, .AES, false, []⟩))))
    rw [he]
    refine ⟨l, d, e, rfl, hd, ?_⟩
    dsimp only
    rw [← hF]
    congr 1
    funext k
    simp only [FS.put]
    split
    · rfl
    · rfl

/-- The sets that can be created are created: a purpose of two, a directory, no metadata file in it. -/
theorem C85_creates (W : World) (l name : Text) (p : Purpose) (hp : p = .SIGN_AND_VERIFY ∨ p = .DECRYPT_AND_ENCRYPT)
    (asymmetric : Option Text) (fs : FS) (d : Dir) (hd : fs l = some d) (hm : d .metadata = none) :
    ∃ t : KType, Create W (some l) name (some p) asymmetric fs =
      (.ok (), fs.put l (d.put .metadata (some (W.dump ⟨name, p, t, false, []⟩)))) := by
  have hn : ∃ t : KType, newMeta name (some p) asymmetric = .ok ⟨name, p, t, false, []⟩ := by
    rcases hp with rfl | rfl
    · cases asymmetric with
      | none => exact ⟨_, rfl⟩
      | some a =>
        unfold newMeta
        dsimp only
        split
        · exact ⟨_, rfl⟩
        · exact ⟨_, rfl⟩
    · cases asymmetric <;> exact ⟨_, rfl⟩
  obtain ⟨t, ht⟩ := hn
  refine ⟨t, ?_⟩
  simp [Create, ht, cmd_bind, look, located, absent, WriteFile, hd, hm]

/-- The public sets that can be exported are exported. -/
theorem C85_exports (W : World) (l t : Text) (m p : Meta) (fs : FS) (d : Dir)
    (ho : Opens W.parse fs l (fun _ => true) false m) (hp : publicMeta m = .ok p) (hd : fs t = some d) :
    PubKey W (some l) (some t) fs = (.ok (), fs.put t (d.put .metadata (some (W.dump p)))) := by
  have h1 : Open W l genericAccepts none fs = .ok (m, ⟨[], [], none⟩) := (C85_open W l _ none fs m _).2 ⟨ho, rfl⟩
  have hv : p.versions = [] := by
    unfold publicMeta at hp
    split at hp <;> cases hp <;> rfl
  have hmv : m.versions = [] := by obtain ⟨_, _, _, _, _, _, _, h⟩ := ho; exact h
  have hpe : ({ p with versions := m.versions } : Meta) = p := by rw [hmv, ← hv]
  unfold PubKey CreateGeneric
  dsimp only
  rw [cmd_bind, cmd_bind]
  simp only [look, h1]
  change ((look fun _ => publicMeta m) >>= fun p => exportKeys W t [] >>= fun _ =>
    WriteFile (.str (W.dump { p with versions := m.versions })) t .metadata) fs = _
  rw [look_ok _ _ _ p hp, hpe]
  change WriteFile (.str (W.dump p)) t .metadata fs = _
  simp [WriteFile, hd]

/-- Generating the test sets destroys the keys of an existing set `aes`. -/
theorem C85_destroys (W : World) (l : Text) (fs : FS) (d : Dir) (hd : fs (pathJoin l (txt "aes")) = some d) (n : Int) :
    ∃ d', ((Command.genkey (some l)).run W fs).2 (pathJoin l (txt "aes")) = some d' ∧ d' (.number n) = none := by
  rcases C85_genkey W (some l) fs with ⟨hn, -⟩ | ⟨l', d', e, hl, -, h⟩
  · rw [hn l rfl] at hd; cases hd
  · cases hl
    simp only [Command.run, h, FS.put, if_true, Option.some.injEq, exists_eq_left']
    simp

/-! ## Histories -/

theorem nothingNewIn_refl (dump : Meta → Text) (d : Dir) : NothingNewIn dump d d := ⟨fun _ _ => .inl rfl, .inl rfl⟩

theorem nothingNew_refl (dump : Meta → Text) (fs : FS) : NothingNew dump fs fs := by
  intro l
  cases fs l with
  | none => trivial
  | some d => exact nothingNewIn_refl dump d

theorem NothingNewIn.trans {dump : Meta → Text} {a b c : Dir} (h : NothingNewIn dump a b) (h' : NothingNewIn dump b c) :
    NothingNewIn dump a c := by
  refine ⟨fun n hn => ?_, ?_⟩
  · rcases h'.1 n hn with e | e
    · rw [e]; exact h.1 n hn
    · exact .inr e
  · rcases h'.2 with e | e | e
    · rw [e]; exact h.2
    · exact .inr (.inl e)
    · exact .inr (.inr e)

theorem NothingNew.trans {dump : Meta → Text} {a b c : FS} (h : NothingNew dump a b) (h' : NothingNew dump b c) :
    NothingNew dump a c := by
  intro l
  have h1 := h l
  have h2 := h' l
  rcases ha : a l with _ | da <;> rcases hb : b l with _ | db <;> rcases hc : c l with _ | dc <;>
    simp only [ha, hb, hc] at h1 h2 ⊢
  exact h1.trans h2

private theorem put_new (dump : Meta → Text) (fs : FS) (l : Text) (d d' : Dir) (h : fs l = some d)
    (hd : NothingNewIn dump d d') : NothingNew dump fs (fs.put l d') := by
  intro k
  unfold FS.put
  by_cases e : k = l
  · subst e
    simp only [h, if_true]
    exact hd
  · simp only [if_neg e]
    exact nothingNew_refl dump fs k

private theorem meta_new (dump : Meta → Text) (d : Dir) (m : Meta) (hm : m.versions = []) :
    NothingNewIn dump d (d.put .metadata (some (dump m))) := by
  refine ⟨fun n hn => .inl ?_, .inr (.inr ⟨m, hm, ?_⟩)⟩
  · simp [Dir.put, hn]
  · simp [Dir.put]

/-- No command writes a key: after it every directory has at most the files it had before, with the same contents, and
perhaps the metadata of a set without versions. -/
theorem C85_command (W : World) (c : Command) (fs : FS) : NothingNew W.dump fs (c.run W fs).2 := by
  cases c with
  | create loc name purpose asymmetric =>
    rcases C85_create W loc name purpose asymmetric fs with ⟨e, h⟩ | ⟨l, d, m, -, hd, -, -, hv, h⟩
    · simp only [Command.run, h]; exact nothingNew_refl _ _
    · simp only [Command.run, h]; exact put_new _ _ _ _ _ hd (meta_new _ _ _ hv)
  | addkey loc status crypter size =>
    have key : ∃ e, (Command.addkey loc status crypter size).run W fs = (.error e, fs) := by
      unfold Command.run
      cases crypter with
      | none => exact C85_addkey W loc status none size fs
      | some cl =>
        dsimp only
        unfold CreateCrypter
        rcases ho : Open W cl crypterAccepts none fs with e | ⟨m, c⟩
        · exact ⟨e, by rw [cmd_bind, cmd_bind]; simp only [look, ho]⟩
        · obtain ⟨e, he⟩ := C85_addkey W loc status (some c) size fs
          exact ⟨e, by
            rw [cmd_bind, cmd_bind]
            simp only [look, ho]
            exact he⟩
    obtain ⟨e, h⟩ := key
    rw [h]; exact nothingNew_refl _ _
  | pubkey loc dest =>
    rcases C85_pubkey W loc dest fs with ⟨e, h⟩ | ⟨l, t, m, p, d, -, -, -, -, hd, hv, h⟩
    · simp only [Command.run, h]; exact nothingNew_refl _ _
    · simp only [Command.run, h]; exact put_new _ _ _ _ _ hd (meta_new _ _ _ hv)
  | promote loc n =>
    obtain ⟨e, h⟩ := (C85_status W loc n fs).1
    rw [h]; exact nothingNew_refl _ _
  | demote loc n =>
    obtain ⟨e, h⟩ := (C85_status W loc n fs).2.1
    rw [h]; exact nothingNew_refl _ _
  | revoke loc n =>
    obtain ⟨e, h⟩ := (C85_status W loc n fs).2.2
    rw [h]; exact nothingNew_refl _ _
  | genkey loc =>
    rcases C85_genkey W loc fs with ⟨-, e, h⟩ | ⟨l, d, e, -, hd, h⟩
    · simp only [Command.run, h]; exact nothingNew_refl _ _
    · simp only [Command.run, h]
      refine put_new _ _ _ _ _ hd ⟨fun n hn => .inr (by simp [hn]), .inr (.inr
        ⟨⟨txt "Test", .DECRYPT_AND_ENCRYPT, .AES, false, []⟩, rfl, if_pos rfl⟩)⟩

/-- So it is after any number of commands, whatever each of them raised. -/
theorem C85_history (W : World) (cs : List Command) (fs : FS) : NothingNew W.dump fs (history W cs fs) := by
  induction cs generalizing fs with
  | nil => exact nothingNew_refl _ _
  | cons c cs ih => exact (C85_command W c fs).trans (ih _)

/-- From files without a key file no history of commands leads to one. -/
theorem C85_no_keys (W : World) (cs : List Command) (fs : FS) (h : ∀ l d n, fs l = some d → d (.number n) = none)
    (l : Text) (d : Dir) (n : Int) (hd : history W cs fs l = some d) : d (.number n) = none := by
  have := C85_history W cs fs l
  rcases hl : fs l with _ | d0
  · simp only [hl, hd] at this
  · simp only [hl, hd] at this
    rcases this.1 (.number n) (by simp) with e | e
    · rw [e]; exact h l d0 n hl
    · exact e

/-! ## Instances -/

namespace ExPy3

/-- a world in which the text of an empty AES set is `[1]`, of an empty RSA set `[2]`, of its public set `[3]`, and `[9]` is a
set with a primary version -/
def world : World where
  parse t :=
    if t = [1] then .ok ⟨txt "Test", .DECRYPT_AND_ENCRYPT, .AES, false, []⟩
    else if t = [2] then .ok ⟨txt "Test", .SIGN_AND_VERIFY, .RSA_PRIV, false, []⟩
    else if t = [9] then .ok ⟨txt "Test", .DECRYPT_AND_ENCRYPT, .AES, false, [⟨1, .PRIMARY⟩]⟩
    else .error .valueError
  dump m := match m.type with | .AES => [1] | .RSA_PRIV => [2] | .RSA_PUB => [3] | _ => [4]
  readKey _ _ := .ok (.hmac (.str []))
  showKey _ := [7]
  showPublic _ := .ok [8]
  encrypt _ v := .ok v
  sign _ v := .ok v
  decrypt _ v := .ok v
  verify _ _ _ := .ok true
  env _ := ⟨fun _ => [], fun b => b, fun n => List.replicate n 0, fun _ => .ok (3, 5, 7, 11), fun _ => .ok (15, 3)⟩
  fuel := 3

/-- `k/aes` holds a set with one key, `k/new` and `k/pub` are empty -/
def files : FS := fun l =>
  if l = txt "k/aes" then some fun n => if n = .metadata then some [9] else if n = .number 1 then some [7] else none
  else if l = txt "k/new" ∨ l = txt "k/pub" then some fun _ => none
  else none

/-- a set with a key cannot be opened; an empty one can, and its `Encrypt` raises -/
example : Open world (txt "k/aes") genericAccepts none files = .error .typeError := by rfl
example : ((Command.create (some (txt "k/new")) (txt "N") (some .SIGN_AND_VERIFY) (some (txt "RSA"))).run world files).1
    = .ok () := by decide
/-- creating, exporting: the only files written are two metadata files -/
example : (fun fs : FS => ((fs (txt "k/new")).map fun d => (d .metadata, d (.number 1)),
      (fs (txt "k/pub")).map fun d => (d .metadata, d (.number 1))))
    (history world [.create (some (txt "k/new")) (txt "N") (some .SIGN_AND_VERIFY) (some (txt "RSA")),
      .addkey (some (txt "k/new")) .PRIMARY none (-1), .promote (some (txt "k/new")) 1,
      .pubkey (some (txt "k/new")) (some (txt "k/pub"))] files)
    = (some (some [2], none), some (some [3], none)) := by decide
/-- generating the test sets destroys the key that was there, and raises -/
example : (fun r : Py Unit × FS => (r.1, (r.2 (txt "k/aes")).map fun d => (d .metadata, d (.number 1))))
    ((Command.genkey (some (txt "k"))).run world files) = (.error .typeError, some (some [1], none)) := by decide
/-- the hypothesis of `C85_use` is met -/
example : ∃ m c, Open world (txt "k/new") genericAccepts none
    (history world [.create (some (txt "k/new")) (txt "N") (some .SIGN_AND_VERIFY) (some (txt "RSA"))] files) = .ok (m, c) :=
  ⟨⟨txt "Test", .SIGN_AND_VERIFY, .RSA_PRIV, false, []⟩, ⟨[], [], none⟩, by
    rw [C85_open]; exact ⟨⟨_, [2], rfl, rfl, rfl, rfl, by decide, rfl⟩, rfl⟩⟩
/-- the hypotheses of `C85_creates`, `C85_exports` and `C85_destroys` are met -/
example : files (txt "k/new") = some fun _ => none := rfl
example : publicMeta ⟨txt "Test", .SIGN_AND_VERIFY, .RSA_PRIV, false, []⟩ = .ok ⟨txt "Test", .VERIFY, .RSA_PUB, false, []⟩ := rfl
example : Opens world.parse (files.put (txt "k/new") fun _ => some [2]) (txt "k/new") (fun _ => true) false
    ⟨txt "Test", .SIGN_AND_VERIFY, .RSA_PRIV, false, []⟩ := ⟨_, [2], rfl, rfl, rfl, rfl, by decide, rfl⟩
example : (files (pathJoin (txt "k") (txt "aes"))).isSome := by decide
/-- the hypothesis of `C85_no_keys` is met -/
example : ∀ l d n, (fun l => if l = txt "k" then some fun _ => none else none : FS) l = some d → d (.number n) = none := by
  intro l d n h
  dsimp only at h
  split at h <;> cases h
  rfl

end ExPy3

end Verif.Props
