import Verif.Model.Keyczar
/-
Model of key sets on disk: readers.py FileReader, writers.py FileWriter, keyczar.py Write and
PublicKeyExport, and the command line tool keyczart.py.

Simplifications.
* A location is a string; different strings are different directories (no links, no relative
  paths), and a location holds plain files only.  A location that exists but is a plain file is
  treated like a missing one.
* Opening, reading and writing a file in an existing directory succeed (no permissions, no full
  disk).  Interrupted and concurrent commands are described by the list of effects.
* Only `FileReader`/`FileWriter` accept locations (no extra backends, util.py `ImportBackends`).
* The `mock` paths of keyczart.py (for unit tests only) are in Model/Mock; here `mock` is None.
* Messages and the printed usage text are not modelled.
-/
namespace Verif

/-! ### the file system -/

/-- Names of files in a key set directory: `"meta"`, `str(version_number)`, or any other name. -/
inductive FileName where
  | metaFile
  | key (n : Int)
  | other (name : Bytes)
deriving DecidableEq, Repr

/-- A directory: contents of the files that exist. -/
abbrev Dir := FileName → Option Bytes

abbrev Loc := Bytes

/-- The directories that exist. -/
abbrev FS := Loc → Option Dir

/-- What a command does to the disk. -/
inductive Effect where
  | write (l : Loc) (f : FileName) (data : Bytes)
  | remove (l : Loc) (f : FileName)
deriving DecidableEq, Repr

/-- a directory after replacing one file -/
def Dir.set (d : Dir) (f : FileName) (content : Option Bytes) : Dir :=
  fun f' => if f' = f then content else d f'

/-- a file system after replacing one file of an existing directory -/
def FS.set (fs : FS) (l : Loc) (f : FileName) (content : Option Bytes) : FS :=
  fun l' => if l' = l then (fs l).map fun d => d.set f content else fs l'

def Effect.apply (fs : FS) : Effect → FS
  | .write l f data => fs.set l f (some data)
  | .remove l f => fs.set l f none

def applyAll (fs : FS) (es : List Effect) : FS := es.foldl Effect.apply fs

/-- A computation that reads and changes the disk: its outcome, and its effects in order (an
exception does not undo earlier effects). -/
def Cmd (α : Type) := FS → Py α × List Effect

namespace Cmd
variable {α β : Type}

def ret (a : α) : Cmd α := fun _ => (.ok a, [])

def andThen (m : Cmd α) (f : α → Cmd β) : Cmd β := fun fs =>
  match m fs with
  | (.error e, es) => (.error e, es)
  | (.ok a, es) => ((f a (applyAll fs es)).1, es ++ (f a (applyAll fs es)).2)

instance : Monad Cmd where
  pure := ret
  bind := andThen

/-- a computation without effects -/
def lift (x : Py α) : Cmd α := fun _ => (x, [])

/-- looking at the disk -/
def look (f : FS → Py α) : Cmd α := fun fs => (f fs, [])

/-- the disk after the command -/
def after (m : Cmd α) (fs : FS) : FS := applyAll fs (m fs).2

end Cmd

/-- util.py:446-463 `WriteFile`: `open` fails when the directory does not exist -/
def WriteFile (data : Bytes) (l : Loc) (f : FileName) : Cmd Unit := fun fs =>
  if (fs l).isSome then (.ok (), [.write l f data]) else (.error .keyczarError, [])

/-- util.py:465-480 `ReadFile` -/
def ReadFile (d : Dir) (f : FileName) : Py Bytes :=
  match d f with
  | some b => .ok b
  | none => .error .keyczarError

/-- readers.py:95-116 `FileReader` -/
def FileReader (d : Dir) : Reader :=
  { GetMetadata := ReadFile d .metaFile
    GetKey := fun n => ReadFile d (.key n)
    isEncryptedReader := false }

/-- readers.py:30-44 `CreateReader` -/
def CreateReader (l : Loc) (fs : FS) : Py Reader :=
  match fs l with
  | some d => .ok (FileReader d)
  | none => .error .keyczarError

/-- writers.py:26-39 `CreateWriter`; the writer is its location -/
def CreateWriter (l : Loc) (fs : FS) : Py Loc :=
  if (fs l).isSome then .ok l else .error .keyczarError

/-- writers.py:109-117 `FileWriter.WriteMetadata` -/
def WriteMetadata (l : Loc) (h : Heap) (kmd : KeyMetadata) (overwrite : Bool) : Cmd Unit := fun fs =>
  if ¬ overwrite ∧ ((fs l).bind fun d => d .metaFile).isSome then (.error .keyczarError, [])
  else (do WriteFile (← Cmd.lift (kmd.str h)) l .metaFile : Cmd Unit) fs

/-- writers.py:129-133 `FileWriter.Remove`: `os.remove` of a missing file raises OSError -/
def RemoveFile (l : Loc) (f : FileName) : Cmd Unit := fun fs =>
  if ((fs l).bind fun d => d f).isSome then (.ok (), [.remove l f]) else (.error .osError, [])

/-- Choices outside the program: random bytes for key generation (by round) and for encrypting key
files (by version object), and the order in which `dict` yields its keys. -/
structure Env where
  gen : Nat → Rand
  fuel : Nat
  enc : Nat → Rand
  order : List Nat → List Nat
  order_perm : ∀ l, (order l).Perm l

variable (P : Prims)

/-- writers.py:119-127 `FileWriter.WriteKey` -/
def WriteKey (l : Loc) (key : Key) (n : Int) (encrypter : Option Czar) (rnd : Rand) : Cmd Unit := do
  let text ← Cmd.lift key.str
  match encrypter with
  | none => WriteFile text l (.key n)
  | some c => do
    let out ← Cmd.lift (c.Encrypt P rnd text (some Base64WSEncode))
    WriteFile out l (.key n)

/-- the loop of keyczar.py:296-297 -/
def writeKeys (l : Loc) (c : Czar) (encrypter : Option Czar) (rnd : Nat → Rand) : List Nat → Cmd Unit
  | [] => pure ()
  | o :: t => do
    let key ← Cmd.lift (c.GetKeyByVersion (some o))
    WriteKey P l key (c.heap.obj o).num encrypter (rnd o)
    writeKeys l c encrypter rnd t

/-- keyczar.py:294 -/
def Czar.markEncrypted (c : Czar) (encrypter : Option Czar) : Czar :=
  { c with metadata := { c.metadata with encrypted := .bool encrypter.isSome } }

/-- keyczar.py:278-297 `Write` with a FileWriter for `l` -/
def Czar.Write (env : Env) (c : Czar) (l : Loc) (encrypter : Option Czar) : Cmd Unit := do
  let c := c.markEncrypted encrypter
  WriteMetadata l c.heap c.metadata true
  writeKeys P l c encrypter env.enc (env.order c.versions)

/-- keys.py:614, 632, 710 attribute `public_key` (only private keys have one) -/
def Key.publicKey : Key → Py Key
  | .rsaPriv k => .ok (.rsaPub k.pub)
  | .dsaPriv k => .ok (.dsaPub k.pub)
  | _ => .error .attributeError

/-- keyczar.py:255-266: the metadata of the exported key set -/
def publicMetadata (kmd : KeyMetadata) : Py KeyMetadata :=
  if kmd.type = .DSA_PRIV ∧ kmd.purpose = .SIGN_AND_VERIFY then
    .ok ⟨kmd.name, .VERIFY, .DSA_PUB, .bool false, []⟩
  else if kmd.type = .RSA_PRIV ∧ kmd.purpose = .DECRYPT_AND_ENCRYPT then
    .ok ⟨kmd.name, .ENCRYPT, .RSA_PUB, .bool false, []⟩
  else if kmd.type = .RSA_PRIV ∧ kmd.purpose = .SIGN_AND_VERIFY then
    .ok ⟨kmd.name, .VERIFY, .RSA_PUB, .bool false, []⟩
  else .error .keyczarError

/-- the loop of keyczar.py:267-273 -/
def exportKeys (dest : Loc) (c : Czar) : List Nat → KeyMetadata → Cmd KeyMetadata
  | [], pubkmd => pure pubkmd
  | o :: t, pubkmd => do
    let key ← Cmd.lift (c.GetKeyByVersion (some o))
    let pub ← Cmd.lift key.publicKey
    let text ← Cmd.lift pub.str
    WriteFile text dest (.key (c.heap.obj o).num)
    exportKeys dest c t (pubkmd.AddVersion c.heap o)

/-- keyczar.py:253-276 `PublicKeyExport` -/
def Czar.PublicKeyExport (env : Env) (c : Czar) (dest : Loc) : Cmd Unit := do
  let pubkmd ← Cmd.lift (publicMetadata c.metadata)
  let pubkmd ← exportKeys dest c (env.order c.versions) pubkmd
  let text ← Cmd.lift (pubkmd.str c.heap)
  WriteFile text dest .metaFile

/-! ### keyczart.py -/

/-- reader for a directory, decrypting key files if a crypter is given (keyczart.py:255-258) -/
def readerFor (crypter : Option Czar) (r : Reader) : Reader :=
  match crypter with
  | none => r
  | some cr => EncryptedReader P r cr

/-- keyczart.py:248-262 `CreateGenericKeyczar` -/
def CreateGenericKeyczar (loc : Option Loc) (crypter : Option Czar) : Cmd Czar :=
  match loc with
  | none => Cmd.lift (.error .keyczarError)
  | some l => Cmd.look fun fs => do
    let r ← CreateReader l fs
    Czar.init P .generic (readerFor P crypter r)

/-- keyczart.py:264-274 `UpdateGenericKeyczar` -/
def UpdateGenericKeyczar (env : Env) (c : Czar) (l : Loc) (encrypter : Option Czar) : Cmd Unit := do
  let w ← Cmd.look (CreateWriter l)
  c.Write P env w encrypter

/-- `str.lower()` on ASCII -/
def lowerBytes (b : Bytes) : Bytes := b.map fun c => if 65 ≤ c ∧ c ≤ 90 then c + 32 else c

/-- keyczart.py:96-110: purpose and type of a new key set; `asymmetric` is the flag's value -/
def createType (purpose : Option KeyPurpose) (asymmetric : Option Bytes) : Py (KeyPurpose × KeyType) :=
  match purpose with
  | some .SIGN_AND_VERIFY =>
    match asymmetric with
    | none => .ok (.SIGN_AND_VERIFY, .HMAC_SHA1)
    | some a => if lowerBytes a = bstr "rsa" then .ok (.SIGN_AND_VERIFY, .RSA_PRIV)
        else .ok (.SIGN_AND_VERIFY, .DSA_PRIV)
  | some .DECRYPT_AND_ENCRYPT =>
    match asymmetric with
    | none => .ok (.DECRYPT_AND_ENCRYPT, .AES)
    | some _ => .ok (.DECRYPT_AND_ENCRYPT, .RSA_PRIV)
  | _ => .error .keyczarError

/-- keyczart.py:92-119 `Create` -/
def Create (loc : Option Loc) (name : Json) (purpose : Option KeyPurpose) (asymmetric : Option Bytes) :
    Cmd Unit :=
  match loc with
  | none => Cmd.lift (.error .keyczarError)
  | some l => do
    let type ← Cmd.lift (createType purpose asymmetric)
    let w ← Cmd.look (CreateWriter l)
    WriteMetadata w Heap.empty ⟨name, type.1, type.2, .bool false, []⟩ false

/-- keyczart.py:92-119 `Create` with a name that `json.dumps` cannot decode, raising `e`: that happens in
`str(metadata)` (writers.py:117), after all checks and before the file is opened -/
def CreateUndecodable (loc : Option Loc) (e : PyErr) (purpose : Option KeyPurpose) (asymmetric : Option Bytes) :
    Cmd Unit :=
  match loc with
  | none => Cmd.lift (.error .keyczarError)
  | some l => do
    let _ ← Cmd.lift (createType purpose asymmetric)
    let w ← Cmd.look (CreateWriter l)
    Cmd.look fun fs => if ((fs w).bind fun d => d .metaFile).isSome then .error .keyczarError else .error e

/-- keyczart.py:121-126 `AddKey` -/
def AddKey (env : Env) (loc : Option Loc) (status : KeyStatus) (crypter : Option Czar) (size : Int) :
    Cmd Unit := do
  let c ← CreateGenericKeyczar P loc crypter
  let (r, c) := c.AddVersion P env.gen env.fuel status (if size = -1 then none else some size)
  Cmd.lift r
  UpdateGenericKeyczar P env c (loc.getD []) crypter

/-- keyczart.py:128-132 `PubKey` -/
def PubKey (env : Env) (loc dest : Option Loc) : Cmd Unit :=
  match dest with
  | none => Cmd.lift (.error .keyczarError)
  | some dest => do
    let c ← CreateGenericKeyczar P loc none
    c.PublicKeyExport env dest

/-- keyczart.py:134-146: `Promote` and `Demote` (`op` is the method called) -/
def ChangeStatus (env : Env) (op : Czar → Int → Py Unit × Czar) (loc : Option Loc) (num : Int) : Cmd Unit := do
  let c ← CreateGenericKeyczar P loc none
  if num < 0 then Cmd.lift (.error .keyczarError)
  else
    let (r, c) := op c num
    Cmd.lift r
    UpdateGenericKeyczar P env c (loc.getD []) none

/-- keyczart.py:134-139 -/
def Promote (env : Env) (loc : Option Loc) (num : Int) : Cmd Unit :=
  ChangeStatus P env Czar.Promote loc num

/-- keyczart.py:141-146 -/
def Demote (env : Env) (loc : Option Loc) (num : Int) : Cmd Unit :=
  ChangeStatus P env Czar.Demote loc num

/-- keyczart.py:148-161 `Revoke` -/
def Revoke (env : Env) (loc : Option Loc) (num : Int) : Cmd Unit := do
  ChangeStatus P env Czar.Revoke loc num
  let w ← Cmd.look (CreateWriter (loc.getD []))
  RemoveFile w (.key num)

/-- keyczart.py:163-165 `_CreateCrypter` -/
def CreateCrypter (l : Loc) : Cmd Czar := Cmd.look fun fs => do
  Czar.init P .crypter (← CreateReader l fs)

/-! ### the command line -/

/-- keyczart.py:53-68 -/
inductive Command where
  | create | addkey | pubkey | promote | demote | revoke | genkey
deriving DecidableEq, Repr

/-- keyczart.py:70-84 -/
inductive Flag where
  | location | name | size | status | purpose | destination | version | asymmetric | crypter
deriving DecidableEq, Repr

/-- keyczart.py:60-68 `GetCommand` -/
def GetCommand (b : Bytes) : Py Command :=
  match [("create", Command.create), ("addkey", .addkey), ("pubkey", .pubkey), ("promote", .promote),
    ("demote", .demote), ("revoke", .revoke), ("genkey", .genkey)].find? (fun p => bstr p.1 = b) with
  | some p => .ok p.2
  | none => .error .keyczarError

/-- keyczart.py:86-90 `GetFlag` -/
def GetFlag (b : Bytes) : Py Flag :=
  match [("location", Flag.location), ("name", .name), ("size", .size), ("status", .status),
    ("purpose", .purpose), ("destination", .destination), ("version", .version),
    ("asymmetric", .asymmetric), ("crypter", .crypter)].find? (fun p => bstr p.1 = b) with
  | some p => .ok p.2
  | none => .error .keyczarError

/-- `s.split(c)` -/
def splitOn (c : UInt8) : Bytes → List Bytes
  | [] => [[]]
  | x :: t => if x = c then [] :: splitOn c t
    else match splitOn c t with
      | [] => [[x]]
      | w :: ws => (x :: w) :: ws

/-- the flag loop of keyczart.py:287-295; badly formed flags are reported and skipped -/
def parseFlags : List Bytes → List (Flag × Bytes) → Py (List (Flag × Bytes))
  | [], fl => .ok fl
  | arg :: t, fl =>
    match arg with
    | 45 :: 45 :: rest =>
      match splitOn 61 rest with
      | [flag, val] => do
        let f ← GetFlag flag
        parseFlags t (assocSet fl f val)
      | _ => parseFlags t fl
    | _ => parseFlags t fl

/-- the characters that `int()` skips at both ends -/
def isSpaceByte (c : UInt8) : Bool := c = 32 || (9 ≤ c && c ≤ 13)

def stripSpace (b : Bytes) : Bytes :=
  ((b.dropWhile isSpaceByte).reverse.dropWhile isSpaceByte).reverse

/-- value of a non-empty string of decimal digits -/
def decimalVal (b : Bytes) : Option Nat :=
  if b ≠ [] ∧ b.all (fun c => 48 ≤ c && c ≤ 57) then some (b.foldl (fun n c => 10 * n + (c.toNat - 48)) 0)
  else none

/-- `int(s)`: `none` is ValueError.  White space between sign and digits is accepted by some Python
versions and not modelled. -/
def pyInt (b : Bytes) : Py (Option Int) :=
  match stripSpace b with
  | [] => .ok none
  | c :: t =>
    if c = 43 ∨ c = 45 then
      (match t with
      | [] => .ok none
      | d :: _ => if isSpaceByte d then .error .unmodelled
        else .ok ((decimalVal t).map fun n => if c = 45 then -(n : Int) else n))
    else .ok ((decimalVal (c :: t)).map Int.ofNat)

/-- keyczart.py:297-303: version and size, `none` where the name stays unbound -/
def parseNumbers (fl : List (Flag × Bytes)) : Py (Option Int × Option Int) := do
  let version ← (match assocGet fl .version with
    | none => .ok (some (-1))
    | some b => pyInt b)
  match version with
  | none => return (none, none)
  | some v => do
    let size ← (match assocGet fl .size with
      | none => .ok (some (-1))
      | some b => pyInt b)
    return (some v, size)

/-- use of a possibly unbound local variable -/
def useVar (x : Option Int) : Py Int :=
  match x with
  | some v => .ok v
  | none => .error .unboundLocal

/-- `str.upper()` on ASCII -/
def upperBytes (b : Bytes) : Bytes := b.map fun c => if 97 ≤ c ∧ c ≤ 122 then c - 32 else c

/-- keyczart.py:308-310 -/
def purposeFlag (b : Option Bytes) : Option KeyPurpose :=
  if b = some (bstr "crypt") then some .DECRYPT_AND_ENCRYPT
  else if b = some (bstr "sign") then some .SIGN_AND_VERIFY
  else none

/-- keyczart.py:304-328: running the command; `genkey` (which only makes test data) is left out -/
def dispatch (env : Env) (fl : List (Flag × Bytes)) (nums : Option Int × Option Int) (cmd : Command) : Cmd Unit :=
  let loc := assocGet fl .location
  match cmd with
  | .create =>
    match decodeUtf8 ((assocGet fl .name).getD (bstr "Test")) with
    | .ok name => Create loc (.str name) (purposeFlag (assocGet fl .purpose)) (assocGet fl .asymmetric)
    | .error e => CreateUndecodable loc e (purposeFlag (assocGet fl .purpose)) (assocGet fl .asymmetric)
  | .addkey => do
    let status ← Cmd.lift (GetStatus (Json.ofBytes (upperBytes ((assocGet fl .status).getD (bstr "ACTIVE")))))
    match assocGet fl .crypter with
    | some cl => do
      let crypter ← CreateCrypter P cl
      let size ← Cmd.lift (useVar nums.2)
      AddKey P env loc status (some crypter) size
    | none => do
      let size ← Cmd.lift (useVar nums.2)
      AddKey P env loc status none size
  | .pubkey => PubKey P env loc (assocGet fl .destination)
  | .promote => do Promote P env loc (← Cmd.lift (useVar nums.1))
  | .demote => do Demote P env loc (← Cmd.lift (useVar nums.1))
  | .revoke => do Revoke P env loc (← Cmd.lift (useVar nums.1))
  | .genkey => Cmd.lift (.error .unmodelled)

/-- keyczart.py:280-303 `main` -/
def main (env : Env) (argv : List Bytes) : Cmd Unit :=
  match argv with
  | [] => pure ()
  | name :: rest => do
    let cmd ← Cmd.lift (GetCommand name)
    let fl ← Cmd.lift (parseFlags (name :: rest) [])
    let nums ← Cmd.lift (parseNumbers fl)
    dispatch P env fl nums cmd

end Verif
