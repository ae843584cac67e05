import Verif.Model.Py3
/-
The Python 3 reading of keyczart.py and of the operations of keyczar.py, over files holding text.  Reading and writing of
JSON, and the methods of keys, are arbitrary functions: no theorem depends on what they do.
-/
namespace Verif.Py3

/-- text -/
abbrev Text := List Nat

/-- keyinfo.py:81-83 -/
inductive Status where
  | PRIMARY | ACTIVE | INACTIVE
deriving DecidableEq, Repr

/-- keyinfo.py:101-104 -/
inductive Purpose where
  | DECRYPT_AND_ENCRYPT | ENCRYPT | SIGN_AND_VERIFY | VERIFY
deriving DecidableEq, Repr

/-- keydata.py:119-123 `KeyVersion`: the number and the status -/
structure Ver where
  number : Int
  status : Status
deriving DecidableEq, Repr

/-- keydata.py:34-41 `KeyMetadata` -/
structure Meta where
  name : Text
  purpose : Purpose
  type : KType
  encrypted : Bool
  versions : List Ver
deriving DecidableEq, Repr

/-- names of files in a directory: "meta", numbers, others -/
inductive Name where
  | metadata
  | number (n : Int)
  | other (s : Text)
deriving DecidableEq, Repr

abbrev Dir := Name → Option Text
/-- the directories that exist -/
abbrev FS := Text → Option Dir

/-- what the commands are run against: JSON, key files, the methods of keys and the environments of `Py3.lean` (one for
every generated key) -/
structure World where
  /-- `KeyMetadata.Read(text)` (keydata.py:101-117) -/
  parse : Text → Py Meta
  /-- `str(metadata)` (keydata.py:43-48) -/
  dump : Meta → Text
  /-- `keys.ReadKey(type, text)` (keys.py:94-115) -/
  readKey : KType → Val → Py Key
  /-- `str(key)` -/
  showKey : Key → Text
  /-- `str(key.public_key)`, where there is one -/
  showPublic : Key → Py Text
  /-- `key.Encrypt`, `Sign`, `Decrypt`, `Verify` -/
  encrypt : Key → Val → Py Val
  sign : Key → Val → Py Val
  decrypt : Key → Val → Py Val
  verify : Key → Val → Val → Py Bool
  env : Nat → Env
  fuel : Nat

variable (W : World)

/-! ### operations of a loaded key set -/

/-- `a + b` -/
def add : Val → Val → Py Val
  | .str a, .str b => .ok (.str (a ++ b))
  | .bytes a, .bytes b => .ok (.bytes (a ++ b))
  | .int a, .int b => .ok (.int (a + b))
  | _, _ => .error .typeError

/-- `v[:n]` -/
def sliceTo (n : Nat) : Val → Py Val
  | .str s => .ok (.str (s.take n))
  | .bytes b => .ok (.bytes (b.take n))
  | _ => .error .typeError

/-- `v[n:]` -/
def sliceFrom (n : Nat) : Val → Py Val
  | .str s => .ok (.str (s.drop n))
  | .bytes b => .ok (.bytes (b.drop n))
  | _ => .error .typeError

/-- `ord(v[0])`; an element of a bytes value is an integer, which `ord` refuses -/
def ordHead : Val → Py Nat
  | .str (c :: _) => .ok c
  | .str [] => .error .indexError
  | .bytes [] => .error .indexError
  | _ => .error .typeError

/-- keyczar.py:111-126 `GetKey` of a hash identifier -/
def Czar.GetKey (c : Czar) (h : Val) : Py Key :=
  match c.hashes.find? fun x => x.1 == h with
  | some x => .ok x.2
  | none => .error .keyNotFound

/-- keyczar.py:71-72 `primary_key`, which is `GetKey(self.primary_version)`; None is no key of the dictionary -/
def Czar.primaryKey (c : Czar) : Py Key :=
  match c.primary with
  | none => .error .keyNotFound
  | some v =>
    match c.versions.find? fun x => x.1 == v with
    | some x => .ok x.2
    | none => .error .keyNotFound

/-- keyczar.py:77-93 `_ParseHeader` -/
def Czar.ParseHeader (c : Czar) (header : Val) : Py Key := do
  let version ← ordHead header
  if version ≠ 0 then .error (.badVersion version)
  else c.GetKey (← Base64WSEncode (W.env 0) (← sliceFrom 1 header))

/-- `encoder(v) if encoder else v` -/
def coded (f : Option (Val → Py Val)) (v : Val) : Py Val :=
  match f with
  | some f => f v
  | none => .ok v

/-- keyczar.py:320-340 `Encrypter.Encrypt` -/
def Czar.Encrypt (c : Czar) (data : Val) (encoder : Option (Val → Py Val)) : Py Val := do
  let key ← c.primaryKey
  coded encoder (← W.encrypt key data)

/-- keyczar.py:511-535 `Crypter.Decrypt` -/
def Czar.Decrypt (c : Czar) (ciphertext : Val) (decoder : Option (Val → Py Val)) : Py Val := do
  let data ← coded decoder ciphertext
  let n ← len data
  if n < 5 then .error (.shortCiphertext n)
  else
    let key ← c.ParseHeader W (← sliceTo 5 data)
    W.decrypt key data

/-- util.py:400-408 `PackByteArray`: `struct.pack` gives bytes, which can only be added to bytes; the empty string for None.
The `struct.error` for lengths from 2^31 on is left out. -/
def PackByteArray : Val → Py Val
  | .none => .ok (.str [])
  | .str _ => .error .typeError
  | .bytes b => .ok (.bytes ([(b.length / 2 ^ 24), b.length / 2 ^ 16, b.length / 2 ^ 8, b.length].map UInt8.ofNat ++ b))
  | _ => .error .typeError

/-- keyczar.py:435-437 `__InternalVerify` -/
def Czar.InternalVerify (c : Czar) (header signature data nonce : Val) : Py Bool := do
  let key ← c.ParseHeader W header
  let payload ← add (← add data (← PackByteArray nonce)) (.str [0])
  W.verify key payload signature

/-- keyczar.py:390-406 `Verifier.Verify` -/
def Czar.Verify (c : Czar) (data sig : Val) (decoder : Option (Val → Py Val)) : Py Bool := do
  let sig ← coded decoder sig
  let n ← len sig
  if n < 5 then .error (.shortSignature n)
  else c.InternalVerify W (← sliceTo 5 sig) (← sliceFrom 5 sig) data .none

/-- keyczar.py:408-433 `AttachedVerify`; `unpack` is `util.UnpackByteArray(decoded_data, HEADER_SIZE)` with the rest of the
data -/
def Czar.AttachedVerify (c : Czar) (unpack : Val → Py (Val × Val)) (signed nonce : Val) (decoder : Option (Val → Py Val)) :
    Py (Option Val) := do
  let decoded ← coded decoder signed
  let (data, signature) ← unpack decoded
  if ← c.InternalVerify W (← sliceTo 5 decoded) signature data nonce then .ok (some data) else .ok none

/-- keyczar.py:462-487 `UnversionedVerifier.Verify` -/
def verifyAny (data sig : Val) : List Key → Py Bool
  | [] => .ok false
  | k :: ks => do if ← W.verify k data sig then .ok true else verifyAny data sig ks

def Czar.UnversionedVerify (c : Czar) (data sig : Val) (decoder : Option (Val → Py Val)) : Py Bool := do
  let sig ← coded decoder sig
  verifyAny W data sig (c.versions.map Prod.snd)

/-- keys.py:157-159 `Header`: `chr(VERSION) + Base64WSDecode(self.hash_id)` -/
def header (k : Key) : Py Val := do
  add (.str [0]) (← Base64WSDecode (← k.hash_id (W.env 0)))

/-- keyczar.py:624-628 `__InternalSign` -/
def Czar.InternalSign (c : Czar) (data nonce : Val) : Py Val := do
  let key ← c.primaryKey
  W.sign key (← add (← add data (← PackByteArray nonce)) (.str [0]))

/-- keyczar.py:587-600 `Signer.Sign` -/
def Czar.Sign (c : Czar) (data : Val) (encoder : Option (Val → Py Val)) : Py Val := do
  let key ← c.primaryKey
  coded encoder (← add (← header W key) (← c.InternalSign W data .none))

/-- keyczar.py:602-622 `AttachedSign` -/
def Czar.AttachedSign (c : Czar) (data nonce : Val) (encoder : Option (Val → Py Val)) : Py Val := do
  let key ← c.primaryKey
  coded encoder (← add (← add (← header W key) (← PackByteArray data)) (← c.InternalSign W data nonce))

/-- keyczar.py:654-671 `UnversionedSigner.Sign` -/
def Czar.UnversionedSign (c : Czar) (data : Val) (encoder : Option (Val → Py Val)) : Py Val := do
  let key ← c.primaryKey
  coded encoder (← W.sign key data)

/-- keyczar.py:683-689 `_Session.New`: the generated key (the nonce is not followed) -/
def SessionNew : Py Key := GenKey (W.env 0) .AES 128

/-- keyczar.py:765-767, 807-810: `SessionEncrypter(encrypter)`, `SignedSessionEncrypter(encrypter, signer)`: the session
material; `pack` is `packed_key` or `json` -/
def SessionEncrypter (pack : Key → Py Val) (c : Czar) : Py (Key × Val) := do
  let key ← SessionNew W
  let material ← c.Encrypt W (← pack key) (some (Base64WSEncode (W.env 0)))
  .ok (key, material)

/-- keyczar.py:790-791, 831-833: `SessionDecrypter(crypter, material)`, `SignedSessionDecrypter`; `unpack` is `LoadPackedKey`
or `LoadJsonSession` -/
def SessionDecrypter (unpack : Val → Py Key) (c : Czar) (material : Val) : Py Key := do
  unpack (← c.Decrypt W material (some Base64WSDecode))

/-! ### files -/

/-- a command: what it returns or raises, and the files afterwards.  Files stay as they are when an exception is raised. -/
def Cmd (α : Type) := FS → Py α × FS

instance : Monad Cmd where
  pure a := fun fs => (.ok a, fs)
  bind x f := fun fs =>
    match x fs with
    | (.error e, fs') => (.error e, fs')
    | (.ok a, fs') => f a fs'

/-- a step that changes no file -/
def look {α : Type} (f : FS → Py α) : Cmd α := fun fs => (f fs, fs)

/-- raise -/
def fail {α : Type} (e : PyErr) : Cmd α := fun fs => (.error e, fs)

def FS.put (fs : FS) (loc : Text) (d : Dir) : FS := fun l => if l = loc then some d else fs l
def Dir.put (d : Dir) (n : Name) (t : Option Text) : Dir := fun m => if m = n then t else d m

/-- util.py:465-480 `ReadFile` -/
def ReadFile (fs : FS) (loc : Text) (n : Name) : Py Text :=
  match fs loc with
  | none => .error .keyczarError
  | some d =>
    match d n with
    | none => .error .keyczarError
    | some t => .ok t

/-- util.py:446-463 `WriteFile`: `open(loc, "w")` has emptied the file when `write` refuses bytes -/
def WriteFile (v : Val) (loc : Text) (n : Name) : Cmd Unit := fun fs =>
  match fs loc with
  | none => (.error .keyczarError, fs)
  | some d =>
    match v with
    | .str t => (.ok (), fs.put loc (d.put n (some t)))
    | _ => (.error .typeError, fs.put loc (d.put n (some [])))

/-- `os.path.exists(location)` in `CreateReader` and `CreateWriter` (readers.py:30-44, 111-116, writers.py:26-39, 142-150).
Every location is a directory. -/
def located (fs : FS) (loc : Text) : Py Unit :=
  match fs loc with
  | some _ => .ok ()
  | none => .error .keyczarError

/-! ### loading -/

/-- a version for the loop of `Keyczar.__init__` -/
def Ver.toVersion (v : Ver) : Version := ⟨v.number, v.status == .PRIMARY⟩

/-- keyczar.py:43-66 `Keyczar.__init__` with a FileReader (readers.py:95-116), or an EncryptedReader over it
(readers.py:141-152).  `accepts` is `IsAcceptablePurpose`. -/
def Open (loc : Text) (accepts : Purpose → Bool) (crypter : Option Czar) (fs : FS) : Py (Meta × Czar) := do
  located fs loc
  let m ← W.parse (← ReadFile fs loc .metadata)
  let checks : Py (List Version) :=
    if accepts m.purpose = false then .error .keyczarError
    else if m.encrypted && crypter.isNone then .error .keyczarError
    else .ok (m.versions.map Ver.toVersion)
  let c ← load (W.env 0) checks fun v => do
    let t ← ReadFile fs loc (.number v.number)
    match crypter with
    | none => W.readKey m.type (.str t)
    | some cr => W.readKey m.type (← cr.Decrypt W (.str t) (some Base64WSDecode))
  .ok (m, c)

/-- keyczar.py:141-143 -/
def genericAccepts : Purpose → Bool := fun _ => true
/-- keyczar.py:507-509 -/
def crypterAccepts (p : Purpose) : Bool := p == .DECRYPT_AND_ENCRYPT
/-- keyczar.py:583-585 -/
def signerAccepts (p : Purpose) : Bool := p == .SIGN_AND_VERIFY

/-! ### commands -/

/-- keydata.py:84-99 `GetVersion` -/
def Meta.GetVersion (m : Meta) (n : Int) : Py Ver :=
  match m.versions.find? fun v => v.number == n with
  | some v => .ok v
  | none => .error .keyczarError

/-- the version numbered `n` gets status `s` -/
def Meta.set (m : Meta) (n : Int) (s : Status) : Meta :=
  { m with versions := m.versions.map fun v => if v.number = n then ⟨n, s⟩ else v }

/-- the primary version becomes active -/
def Meta.dethrone (m : Meta) : Meta :=
  { m with versions := m.versions.map fun v => if v.status = .PRIMARY then ⟨v.number, .ACTIVE⟩ else v }

/-- keyczar.py:194-215 `Promote` -/
def Meta.Promote (m : Meta) (n : Int) : Py Meta := do
  match (← m.GetVersion n).status with
  | .PRIMARY => .error .keyczarError
  | .ACTIVE => .ok (m.dethrone.set n .PRIMARY)
  | .INACTIVE => .ok (m.set n .ACTIVE)

/-- keyczar.py:217-236 `Demote` -/
def Meta.Demote (m : Meta) (n : Int) : Py Meta := do
  match (← m.GetVersion n).status with
  | .PRIMARY => .ok (m.set n .ACTIVE)
  | .ACTIVE => .ok (m.set n .INACTIVE)
  | .INACTIVE => .error .keyczarError

/-- keyczar.py:238-251 `Revoke` -/
def Meta.Revoke (m : Meta) (n : Int) : Py Meta := do
  match (← m.GetVersion n).status with
  | .INACTIVE => .ok { m with versions := m.versions.filter fun v => v.number ≠ n }
  | _ => .error .keyczarError

/-- keyczar.py:296-297, writers.py:119-127: the loop of `Write` -/
def writeKeys (loc : Text) (encrypter : Option Czar) : List (Version × Key) → Cmd Unit
  | [] => pure ()
  | (v, k) :: rest => do
    let out ← match encrypter with
      | none => pure (.str (W.showKey k))
      | some e => look fun _ => e.Encrypt W (.str (W.showKey k)) (some (Base64WSEncode (W.env 0)))
    WriteFile out loc (.number v.number)
    writeKeys loc encrypter rest

/-- keyczart.py:264-274 `UpdateGenericKeyczar` with keyczar.py:278-297 `Write` -/
def Update (m : Meta) (c : Czar) (loc : Text) (encrypter : Option Czar) : Cmd Unit := do
  look fun fs => located fs loc
  WriteFile (.str (W.dump { m with encrypted := encrypter.isSome })) loc .metadata
  writeKeys W loc encrypter c.versions

/-- `s.lower()` as far as the comparison with "rsa" goes -/
def lower (s : Text) : Text := s.map fun c => if 65 ≤ c ∧ c ≤ 90 then c + 32 else c

/-- ASCII text -/
def txt (s : String) : Text := s.toList.map Char.toNat

/-- keyczart.py:96-110: the metadata of a new set -/
def newMeta (name : Text) (purpose : Option Purpose) (asymmetric : Option Text) : Py Meta :=
  match purpose with
  | some .SIGN_AND_VERIFY =>
    match asymmetric with
    | none => .ok ⟨name, .SIGN_AND_VERIFY, .HMAC_SHA1, false, []⟩
    | some a =>
      if lower a = txt "rsa" then .ok ⟨name, .SIGN_AND_VERIFY, .RSA_PRIV, false, []⟩
      else .ok ⟨name, .SIGN_AND_VERIFY, .DSA_PRIV, false, []⟩
  | some .DECRYPT_AND_ENCRYPT =>
    match asymmetric with
    | none => .ok ⟨name, .DECRYPT_AND_ENCRYPT, .AES, false, []⟩
    | some _ => .ok ⟨name, .DECRYPT_AND_ENCRYPT, .RSA_PRIV, false, []⟩
  | _ => .error .keyczarError

/-- `d` has a file with this name -/
def absent (fs : FS) (loc : Text) (n : Name) : Py Unit :=
  match (fs loc).bind fun d => d n with
  | some _ => .error .keyczarError
  | none => .ok ()

/-- keyczart.py:92-119 `Create`, writers.py:109-117 `WriteMetadata(kmd, overwrite=False)` -/
def Create (loc : Option Text) (name : Text) (purpose : Option Purpose) (asymmetric : Option Text) : Cmd Unit :=
  match loc with
  | none => fail .keyczarError
  | some loc => do
    let m ← look fun _ => newMeta name purpose asymmetric
    look fun fs => located fs loc
    look fun fs => absent fs loc .metadata
    WriteFile (.str (W.dump m)) loc .metadata

/-- keyczart.py:248-262 `CreateGenericKeyczar` -/
def CreateGeneric (loc : Option Text) (crypter : Option Czar) : Cmd (Text × Meta × Czar) :=
  match loc with
  | none => fail .keyczarError
  | some loc => do
    let (m, c) ← look (Open W loc genericAccepts crypter)
    pure (loc, m, c)

/-- keyczart.py:121-126 `AddKey`; keyczar.py:168-179: the number and the status of the new version -/
def AddKey (loc : Option Text) (status : Status) (crypter : Option Czar) (size : Int) : Cmd Unit := do
  let (loc, m, c) ← CreateGeneric W loc crypter
  let v : Ver := ⟨m.versions.foldl (fun a v => max a v.number) 0 + 1, status⟩
  let c' ← look fun _ => AddVersion W.env m.type c v.toVersion (if size = -1 then none else some size.toNat) W.fuel
  let m' := if status = .PRIMARY then m.dethrone else m
  Update W { m' with versions := m'.versions ++ [v] } c' loc crypter

/-- keyczar.py:257-265: the metadata of the exported set -/
def publicMeta (m : Meta) : Py Meta :=
  match m.type, m.purpose with
  | .DSA_PRIV, .SIGN_AND_VERIFY => .ok ⟨m.name, .VERIFY, .DSA_PUB, false, []⟩
  | .RSA_PRIV, .DECRYPT_AND_ENCRYPT => .ok ⟨m.name, .ENCRYPT, .RSA_PUB, false, []⟩
  | .RSA_PRIV, .SIGN_AND_VERIFY => .ok ⟨m.name, .VERIFY, .RSA_PUB, false, []⟩
  | _, _ => .error .keyczarError

/-- keyczar.py:266-272: the loop of `PublicKeyExport` -/
def exportKeys (dest : Text) : List (Version × Key) → Cmd Unit
  | [] => pure ()
  | (v, k) :: rest => do
    let t ← look fun _ => W.showPublic k
    WriteFile (.str t) dest (.number v.number)
    exportKeys dest rest

/-- keyczart.py:128-132 `PubKey`, keyczar.py:253-276 `PublicKeyExport` -/
def PubKey (loc dest : Option Text) : Cmd Unit :=
  match dest with
  | none => fail .keyczarError
  | some dest => do
    let (_, m, c) ← CreateGeneric W loc none
    let p ← look fun _ => publicMeta m
    exportKeys W dest c.versions
    WriteFile (.str (W.dump { p with versions := m.versions })) dest .metadata

/-- keyczart.py:134-153: `Promote`, `Demote` and `Revoke` without the removal -/
def change (f : Meta → Int → Py Meta) (loc : Option Text) (n : Int) : Cmd Text := do
  let (loc, m, c) ← CreateGeneric W loc none
  if n < 0 then fail .keyczarError
  else do
    let m' ← look fun _ => f m n
    Update W m' c loc none
    pure loc

/-- keyczart.py:148-161 `Revoke`, writers.py:129-133 `Remove` -/
def Revoke (loc : Option Text) (n : Int) : Cmd Unit := do
  let loc ← change W Meta.Revoke loc n
  look fun fs => located fs loc
  fun fs =>
    match fs loc with
    | none => (.error .osError, fs)
    | some d =>
      match d (.number n) with
      | none => (.error .osError, fs)
      | some _ => (.ok (), fs.put loc (d.put (.number n) none))

/-- keyczart.py:189-193 `Clean`.  Directories within the directory are other locations. -/
def Clean (loc : Text) : Cmd Unit := fun fs =>
  match fs loc with
  | none => (.error .osError, fs)
  | some _ => (.ok (), fs.put loc fun _ => none)

/-- keyczart.py:163-165 `_CreateCrypter` -/
def CreateCrypter (loc : Text) : Cmd Czar := do
  let (_, c) ← look (Open W loc crypterAccepts none)
  pure c

/-- keyczart.py:195-207 `UseKey` -/
def UseKey (purpose : Purpose) (loc : Text) (dest : Name) (crypter : Option Czar) : Cmd Unit := do
  let answer ← match purpose with
    | .DECRYPT_AND_ENCRYPT => look fun fs => do
      let (_, c) ← Open W loc crypterAccepts crypter fs
      c.Encrypt W (.str (txt "This is some test data")) (some (Base64WSEncode (W.env 0)))
    | .SIGN_AND_VERIFY => look fun fs => do
      let (_, c) ← Open W loc signerAccepts crypter fs
      c.Sign W (.str (txt "This is some test data")) (some (Base64WSEncode (W.env 0)))
    | _ => pure (.str [])
  WriteFile answer loc dest

/-- `os.path.join(loc, name)` for a name that does not begin with a slash -/
def pathJoin (loc name : Text) : Text :=
  if loc = [] ∨ loc.getLast? = some 47 then loc ++ name else loc ++ [47] ++ name

/-- keyczart.py:33-38 `KEYSETS` -/
def KEYSETS : List (Text × Purpose × Option Text × Option Text) :=
  [(txt "aes", .DECRYPT_AND_ENCRYPT, none, none), (txt "aes-crypted", .DECRYPT_AND_ENCRYPT, none, some (txt "aes")),
   (txt "hmac", .SIGN_AND_VERIFY, none, none), (txt "rsa", .DECRYPT_AND_ENCRYPT, some (txt "rsa"), none),
   (txt "rsa-sign", .SIGN_AND_VERIFY, some (txt "rsa"), none), (txt "dsa", .SIGN_AND_VERIFY, some (txt "dsa"), none)]

/-- keyczart.py:171-179: one turn of the loop of `GenKeySet` -/
def genSet (loc : Text) (s : Text × Purpose × Option Text × Option Text) : Cmd Unit := do
  let dir := pathJoin loc s.1
  let crypter ← match s.2.2.2 with
    | none => pure none
    | some c => do pure (some (← CreateCrypter W (pathJoin loc c)))
  Clean dir
  Create W (some dir) (txt "Test") (some s.2.1) s.2.2.1
  AddKey W (some dir) .PRIMARY crypter (-1)
  UseKey W s.2.1 dir (.other (txt "1.out")) crypter
  AddKey W (some dir) .PRIMARY crypter (-1)
  UseKey W s.2.1 dir (.other (txt "2.out")) crypter

/-- keyczart.py:169-179 -/
def genSets (loc : Text) : List (Text × Purpose × Option Text × Option Text) → Cmd Unit
  | [] => pure ()
  | s :: rest => do
    genSet W loc s
    genSets loc rest

/-- keyczart.py:167-187 `GenKeySet`; `os.path.join(None, …)` is a `TypeError` -/
def GenKeySet (loc : Option Text) : Cmd Unit :=
  match loc with
  | none => fail .typeError
  | some loc => do
    genSets W loc KEYSETS
    PubKey W (some (pathJoin loc (txt "dsa"))) (some (pathJoin loc (txt "dsa.public")))
    PubKey W (some (pathJoin loc (txt "rsa-sign"))) (some (pathJoin loc (txt "rsa-sign.public")))

/-- keyczart.py:306-328: the commands of `main` with the values of their flags -/
inductive Command where
  | create (loc : Option Text) (name : Text) (purpose : Option Purpose) (asymmetric : Option Text)
  | addkey (loc : Option Text) (status : Status) (crypter : Option Text) (size : Int)
  | pubkey (loc dest : Option Text)
  | promote (loc : Option Text) (n : Int)
  | demote (loc : Option Text) (n : Int)
  | revoke (loc : Option Text) (n : Int)
  | genkey (loc : Option Text)

/-- keyczart.py:306-328 -/
def Command.run : Command → Cmd Unit
  | .create loc name purpose asymmetric => Create W loc name purpose asymmetric
  | .addkey loc status crypter size => do
    let crypter ← match crypter with
      | none => pure none
      | some c => do pure (some (← CreateCrypter W c))
    AddKey W loc status crypter size
  | .pubkey loc dest => PubKey W loc dest
  | .promote loc n => do
    let _ ← change W Meta.Promote loc n
    pure ()
  | .demote loc n => do
    let _ ← change W Meta.Demote loc n
    pure ()
  | .revoke loc n => Revoke W loc n
  | .genkey loc => GenKeySet W loc

/-- one command after another, whatever each of them raises -/
def history : List Command → FS → FS
  | [], fs => fs
  | c :: rest, fs => history rest (c.run W fs).2

end Verif.Py3
