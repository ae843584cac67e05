import Verif.Model.Keys
/-
python/src/keyczar/keydata.py, the readers of readers.py (as values) and the Keyczar classes of
keyczar.py lines 40-672 (without the stream factories, which are in Model/Stream.lean).

`KeyVersion` objects are mutable and shared (metadata, `_keys` and `primary_version` refer to the
same object), so they live in a heap and are referred to by object number.
Python dicts are insertion-ordered association lists (Python ≥ 3.7; the order only matters for
which of several errors is raised first and for the order of file writes).
-/
namespace Verif

/-! ### keydata.py -/

/-- keydata.py:119-149 `KeyVersion`.  The version number must be an integer (other JSON values are
outside the model); `exportable` may be any JSON value. -/
structure KeyVersion where
  num : Int
  status : KeyStatus
  exportable : Json
deriving Repr

/-- The `KeyVersion` objects created so far; `obj o` for `o < next`. -/
structure Heap where
  next : Nat
  obj : Nat → KeyVersion

def Heap.empty : Heap := ⟨0, fun _ => ⟨0, .INACTIVE, .null⟩⟩

/-- `KeyVersion(v, s, export)`: a new object -/
def Heap.alloc (h : Heap) (v : KeyVersion) : Heap :=
  ⟨h.next + 1, fun o => if o = h.next then v else h.obj o⟩

/-- keydata.py:125-129: assignment to `status` (never a false value) -/
def Heap.setStatus (h : Heap) (o : Nat) (s : KeyStatus) : Heap :=
  ⟨h.next, fun o' => if o' = o then { h.obj o with status := s } else h.obj o'⟩

/-- keydata.py:34-39 `KeyMetadata`: `name` and `encrypted` may be any JSON value; `versions` is the
private dict from version numbers to KeyVersion objects. -/
structure KeyMetadata where
  name : Json
  purpose : KeyPurpose
  type : KeyType
  encrypted : Json
  versions : List (Int × Nat)
deriving Repr

/-- Python truth value of a JSON value -/
def Json.truthy : Json → Bool
  | .null => false
  | .bool b => b
  | .num n => n ≠ 0
  | .str s => s ≠ []
  | .arr l => !l.isEmpty
  | .obj l => !l.isEmpty

/-- dict lookup with integer (or object number) keys -/
def assocGet {α β} [DecidableEq α] (l : List (α × β)) (k : α) : Option β :=
  (l.find? fun p => p.1 = k).map Prod.snd

/-- dict assignment -/
def assocSet {α β} [DecidableEq α] (l : List (α × β)) (k : α) (v : β) : List (α × β) :=
  match l with
  | [] => [(k, v)]
  | (k', v') :: t => if k' = k then (k, v) :: t else (k', v') :: assocSet t k v

/-- keydata.py:131-134 `str(version)`, before `json.dumps` -/
def KeyVersion.json (v : KeyVersion) : Json :=
  jobj [("versionNumber", .num v.num), ("status", Json.ofString v.status.name),
    ("exportable", v.exportable)]

/-- keydata.py:131-134 -/
def KeyVersion.str (v : KeyVersion) : Bytes := dumps v.json

/-- keydata.py:43-48 `str(kmd)` -/
def KeyMetadata.str (h : Heap) (kmd : KeyMetadata) : Py Bytes := do
  let vs ← kmd.versions.mapM fun p => loads (h.obj p.2).str
  return dumps (jobj [("name", kmd.name), ("purpose", Json.ofString kmd.purpose.name),
    ("type", Json.ofString kmd.type.name), ("encrypted", kmd.encrypted), ("versions", .arr vs)])

/-- keydata.py:50-65 `AddVersion` (object `o`) -/
def KeyMetadata.AddVersion (h : Heap) (kmd : KeyMetadata) (o : Nat) : KeyMetadata :=
  let num := (h.obj o).num
  match assocGet kmd.versions num with
  | none => { kmd with versions := kmd.versions ++ [(num, o)] }
  | some _ => kmd

/-- keydata.py:67-82 `RemoveVersion` -/
def KeyMetadata.RemoveVersion (kmd : KeyMetadata) (num : Int) : Py KeyMetadata :=
  match assocGet kmd.versions num with
  | none => .error .keyczarError
  | some _ => .ok { kmd with versions := kmd.versions.filter fun p => p.1 ≠ num }

/-- keydata.py:84-99 `GetVersion` -/
def KeyMetadata.GetVersion (kmd : KeyMetadata) (num : Int) : Py Nat :=
  match assocGet kmd.versions num with
  | none => .error .keyczarError
  | some o => .ok o

/-- keydata.py:136-149 `KeyVersion.Read` -/
def KeyVersion.Read (j : Json) : Py KeyVersion := do
  let n ← j.get "versionNumber"
  let s ← GetStatus (← j.get "status")
  let e ← j.get "exportable"
  match n with
  | .num n => return ⟨n, s, e⟩
  | _ => .error .unmodelled

/-- `for version in meta['versions']`: the items of an iterable JSON value.  Iterating over the
characters or keys of a non-empty string or dict makes `version['versionNumber']` raise TypeError. -/
def jsonItems : Json → Py (List Json)
  | .arr l => .ok l
  | .str s => if s = [] then .ok [] else .error .typeError
  | .obj l => if l.isEmpty then .ok [] else .error .typeError
  | _ => .error .typeError

/-- the loop of keydata.py:115-116 -/
def readVersions : List Json → Heap → KeyMetadata → Py (KeyMetadata × Heap)
  | [], h, kmd => .ok (kmd, h)
  | j :: t, h, kmd => do
    let v ← KeyVersion.Read j
    let h' := h.alloc v
    readVersions t h' (kmd.AddVersion h' h.next)

/-- keydata.py:101-117 `KeyMetadata.Read` -/
def KeyMetadata.Read (text : Bytes) : Py (KeyMetadata × Heap) := do
  let m ← loads text
  let name ← m.get "name"
  let purpose ← GetPurpose (← m.get "purpose")
  let type ← GetType (← m.get "type")
  let encrypted ← m.get "encrypted"
  let items ← jsonItems (← m.get "versions")
  readVersions items Heap.empty ⟨name, purpose, type, encrypted, []⟩

/-! ### Readers as values -/

/-- readers.py:46-93: what a `Reader` returns, and whether it is an `EncryptedReader`.  The answers
do not change while a key set is being loaded. -/
structure Reader where
  GetMetadata : Py Bytes
  GetKey : Int → Py Bytes
  isEncryptedReader : Bool

/-! ### keyczar.py -/

/-- The concrete classes. `keyczar` is the base class (keyczar.py:40). -/
inductive CzarClass where
  | keyczar | generic | encrypter | crypter | verifier | signer | unversionedVerifier
  | unversionedSigner
deriving DecidableEq, Repr

/-- keyczar.py:108, 141, 316, 386, 458, 507, 583, 650 -/
def CzarClass.IsAcceptablePurpose : CzarClass → KeyPurpose → Bool
  | .keyczar, _ => false  -- returns None
  | .generic, _ => true
  | .encrypter, p => p = .ENCRYPT || p = .DECRYPT_AND_ENCRYPT
  | .verifier, p => p = .VERIFY || p = .SIGN_AND_VERIFY
  | .unversionedVerifier, p => p = .VERIFY || p = .SIGN_AND_VERIFY
  | .crypter, p => p = .DECRYPT_AND_ENCRYPT
  | .signer, p => p = .SIGN_AND_VERIFY
  | .unversionedSigner, p => p = .SIGN_AND_VERIFY

/-- A Keyczar object.  `_keys` is one dict with KeyVersion and hash string keys; the model keeps
the two kinds of entries apart (`vkeys`, `hkeys`).  `default_size` is `metadata.type.default_size`
and never changes. -/
structure Czar where
  heap : Heap
  metadata : KeyMetadata
  vkeys : List (Nat × Key)
  hkeys : List (Bytes × Key)
  primary : Option Nat

variable (P : Prims)

/-- the loop of keyczar.py:57-66 -/
def loadKeys (r : Reader) : List (Int × Nat) → Czar → Py Czar
  | [], c => .ok c
  | (_, o) :: t, c => do
    let v := c.heap.obj o
    let primary ← if v.status = .PRIMARY then
        (if c.primary.isSome then .error .keyczarError else .ok (some o))
      else .ok c.primary
    let key ← ReadKey c.metadata.type (← r.GetKey v.num)
    let hash ← key.hashId P
    loadKeys r t { c with primary := primary
                          vkeys := assocSet c.vkeys o key
                          hkeys := assocSet c.hkeys hash key }

/-- keyczar.py:43-66 `Keyczar.__init__` -/
def Czar.init (cls : CzarClass) (r : Reader) : Py Czar := do
  let (metadata, heap) ← KeyMetadata.Read (← r.GetMetadata)
  if ¬ cls.IsAcceptablePurpose metadata.purpose then .error .keyczarError
  else if metadata.encrypted.truthy ∧ ¬ r.isEncryptedReader then .error .keyczarError
  else loadKeys P r metadata.versions ⟨heap, metadata, [], [], none⟩

/-- keyczar.py:68-70 `versions`: the KeyVersion objects that are keys of `_keys` -/
def Czar.versions (c : Czar) : List Nat := c.vkeys.map Prod.fst

/-- keyczar.py:111-126 `GetKey` with a hash string -/
def Czar.GetKeyByHash (c : Czar) (hash : Bytes) : Py Key :=
  match assocGet c.hkeys hash with
  | some k => .ok k
  | none => .error .keyNotFound

/-- keyczar.py:111-126 `GetKey` with a KeyVersion or None (`None` is never a key of `_keys`) -/
def Czar.GetKeyByVersion (c : Czar) (o : Option Nat) : Py Key :=
  match o with
  | none => .error .keyNotFound
  | some o => match assocGet c.vkeys o with
    | some k => .ok k
    | none => .error .keyNotFound

/-- keyczar.py:71-72 -/
def Czar.primaryKey (c : Czar) : Py Key := c.GetKeyByVersion c.primary

/-- keyczar.py:77-93 `_ParseHeader` -/
def Czar.ParseHeader (c : Czar) (header : Bytes) : Py Key :=
  match header with
  | [] => .error .indexError
  | v :: _ =>
    if v.toNat ≠ VERSION then .error (.badVersion v.toNat)
    else c.GetKeyByHash (Base64WSEncode (sliceFrom header 1))

/-- keyczar.py:128-130 `_AddKey` -/
def Czar.AddKeyObj (c : Czar) (o : Nat) (key : Key) (hash : Bytes) : Czar :=
  { c with vkeys := assocSet c.vkeys o key
           hkeys := assocSet c.hkeys hash key
           metadata := c.metadata.AddVersion c.heap o }

/-! ### GenericKeyczar -/

/-- keyczar.py:168-171: the maximum version number (at least 0) -/
def Czar.maxVersion (c : Czar) : Int :=
  c.versions.foldl (fun m o => if m < (c.heap.obj o).num then (c.heap.obj o).num else m) 0

/-- keyczar.py:187-190: generate until the identifier is new; the `i`-th round uses the randomness
`rnd i`.  `diverged` if all rounds collide. -/
def genLoop (c : Czar) (size : Int) (rnd : Nat → Rand) : (fuel : Nat) → Nat → Py (Key × Bytes)
  | 0, _ => .error .diverged
  | fuel + 1, i => do
    let key ← GenKey (rnd i) c.metadata.type (some size)
    let hash ← key.hashId P
    match assocGet c.hkeys hash with
    | none => return (key, hash)
    | some _ => genLoop c size rnd fuel (i + 1)

/-- keyczar.py:145-192 `GenericKeyczar.AddVersion`.  Returns the outcome and the object afterwards
(an exception can leave it modified). -/
def Czar.AddVersion (c : Czar) (rnd : Nat → Rand) (fuel : Nat) (status : KeyStatus) (size : Option Int) :
    Py Unit × Czar :=
  let size := size.getD c.metadata.type.defaultSize
  if ¬ c.metadata.type.IsValidSize size then (.error .keyczarError, c)
  else
    let o := c.heap.next
    let heap := c.heap.alloc ⟨c.maxVersion + 1, status, .bool false⟩
    let c1 : Czar :=
      if status = .PRIMARY then
        { c with heap := (match c.primary with
                          | some p => heap.setStatus p .ACTIVE
                          | none => heap)
                 primary := some o }
      else { c with heap := heap }
    match genLoop P c1 size rnd fuel 0 with
    | .error e => (.error e, c1)
    | .ok (key, hash) => (.ok (), c1.AddKeyObj o key hash)

/-- keyczar.py:194-215 `Promote` -/
def Czar.Promote (c : Czar) (num : Int) : Py Unit × Czar :=
  match c.metadata.GetVersion num with
  | .error e => (.error e, c)
  | .ok o =>
    match (c.heap.obj o).status with
    | .PRIMARY => (.error .keyczarError, c)
    | .ACTIVE =>
      let heap := c.heap.setStatus o .PRIMARY
      let heap := match c.primary with
        | some p => heap.setStatus p .ACTIVE
        | none => heap
      (.ok (), { c with heap := heap, primary := some o })
    | .INACTIVE => (.ok (), { c with heap := c.heap.setStatus o .ACTIVE })

/-- keyczar.py:217-236 `Demote` -/
def Czar.Demote (c : Czar) (num : Int) : Py Unit × Czar :=
  match c.metadata.GetVersion num with
  | .error e => (.error e, c)
  | .ok o =>
    match (c.heap.obj o).status with
    | .PRIMARY => (.ok (), { c with heap := c.heap.setStatus o .ACTIVE, primary := none })
    | .ACTIVE => (.ok (), { c with heap := c.heap.setStatus o .INACTIVE })
    | .INACTIVE => (.error .keyczarError, c)

/-- keyczar.py:238-251 `Revoke` -/
def Czar.Revoke (c : Czar) (num : Int) : Py Unit × Czar :=
  match c.metadata.GetVersion num with
  | .error e => (.error e, c)
  | .ok o =>
    match (c.heap.obj o).status with
    | .INACTIVE =>
      match c.metadata.RemoveVersion num with
      | .error e => (.error e, c)
      | .ok m => (.ok (), { c with metadata := m })
    | _ => (.error .keyczarError, c)

/-- `decoder(input) if decoder else input`, used in keyczar.py:403, 426, 480, 524 -/
def decodeWith (decoder : Option (Bytes → Py Bytes)) (input : Bytes) : Py Bytes :=
  match decoder with
  | some f => f input
  | none => .ok input

/-! ### Encrypter, Crypter -/

/-- keyczar.py:320-340 `Encrypt`; the encoder is `Base64WSEncode` by default, or `none`.
`primary_key` raises before the `None` test, so `NoPrimaryKeyError` is unreachable. -/
def Czar.Encrypt (c : Czar) (rnd : Rand) (data : Bytes) (encoder : Option (Bytes → Bytes)) : Py Bytes := do
  let key ← c.primaryKey
  let ciphertext ← key.Encrypt P rnd data
  return match encoder with
    | some f => f ciphertext
    | none => ciphertext

/-- keyczar.py:511-535 `Decrypt` -/
def Czar.Decrypt (c : Czar) (ciphertext : Bytes) (decoder : Option (Bytes → Py Bytes)) : Py Bytes := do
  let data ← decodeWith decoder ciphertext
  if data.length < HEADER_SIZE then .error (.shortCiphertext data.length)
  else do
    let key ← c.ParseHeader (sliceTo data HEADER_SIZE)
    key.Decrypt P data

/-! ### Verifier, Signer -/

/-- keyczar.py:435-437 `__InternalVerify` -/
def Czar.InternalVerify (c : Czar) (header signature data : Bytes) (nonce : Option Bytes) : Py Bool := do
  let key ← c.ParseHeader header
  let n ← PackByteArray nonce
  key.Verify P (data ++ n ++ VERSION_BYTE) signature

/-- keyczar.py:390-406 `Verify` -/
def Czar.Verify (c : Czar) (data sig : Bytes) (decoder : Option (Bytes → Py Bytes)) : Py Bool := do
  let sigBytes ← decodeWith decoder sig
  if sigBytes.length < HEADER_SIZE then .error (.shortSignature sigBytes.length)
  else c.InternalVerify P (sliceTo sigBytes HEADER_SIZE) (sliceFrom sigBytes HEADER_SIZE) data none

/-- keyczar.py:408-433 `AttachedVerify`; `none` is Python's None -/
def Czar.AttachedVerify (c : Czar) (signed nonce : Bytes) (decoder : Option (Bytes → Py Bytes)) :
    Py (Option Bytes) := do
  let decoded ← decodeWith decoder signed
  let (data, offset) ← UnpackByteArray decoded HEADER_SIZE
  let signature := sliceFrom decoded offset
  if (← c.InternalVerify P (sliceTo decoded HEADER_SIZE) signature data (some nonce)) then return some data
  else return none

/-- keyczar.py:624-628 `__InternalSign` -/
def Czar.InternalSign (c : Czar) (rnd : Rand) (data : Bytes) (nonce : Option Bytes) : Py Bytes := do
  let key ← c.primaryKey
  let n ← PackByteArray nonce
  key.Sign P rnd (data ++ n ++ VERSION_BYTE)

/-- keyczar.py:587-600 `Sign` -/
def Czar.Sign (c : Czar) (rnd : Rand) (data : Bytes) (encoder : Option (Bytes → Bytes)) : Py Bytes := do
  let header ← (← c.primaryKey).Header P
  let signature := header ++ (← c.InternalSign P rnd data none)
  return match encoder with
    | some f => f signature
    | none => signature

/-- keyczar.py:602-621 `AttachedSign` -/
def Czar.AttachedSign (c : Czar) (rnd : Rand) (data nonce : Bytes) (encoder : Option (Bytes → Bytes)) :
    Py Bytes := do
  let header ← (← c.primaryKey).Header P
  let packed ← PackByteArray (some data)
  let signature := header ++ packed ++ (← c.InternalSign P rnd data (some nonce))
  return match encoder with
    | some f => f signature
    | none => signature

/-- the loop of keyczar.py:479-487 -/
def verifyAny (msg sig : Bytes) : List Key → Py Bool
  | [] => .ok false
  | k :: t => do
    if (← k.Verify P msg sig) then return true else verifyAny msg sig t

/-- keyczar.py:462-487 `UnversionedVerifier.Verify` -/
def Czar.UnversionedVerify (c : Czar) (data sig : Bytes) (decoder : Option (Bytes → Py Bytes)) : Py Bool := do
  let sigBytes ← decodeWith decoder sig
  verifyAny P data sigBytes (c.vkeys.map Prod.snd)

/-- keyczar.py:654-671 `UnversionedSigner.Sign` -/
def Czar.UnversionedSign (c : Czar) (rnd : Rand) (data : Bytes) (encoder : Option (Bytes → Bytes)) :
    Py Bytes := do
  let key ← c.primaryKey
  let signature ← key.Sign P rnd data
  return match encoder with
    | some f => f signature
    | none => signature

/-! ### Readers of readers.py -/

/-- readers.py:118-139 `StaticKeyReader(key, purpose)` -/
def StaticKeyReader (key : Key) (purpose : KeyPurpose) : Reader :=
  let h := Heap.empty.alloc ⟨1, .PRIMARY, .bool false⟩
  let meta_ := KeyMetadata.AddVersion h ⟨Json.ofString "Imported", purpose, key.type, .bool false, []⟩ 0
  { GetMetadata := meta_.str h
    GetKey := fun _ => key.str
    isEncryptedReader := false }

/-- readers.py:141-156 `EncryptedReader(reader, crypter)` -/
def EncryptedReader (r : Reader) (crypter : Czar) : Reader :=
  { GetMetadata := r.GetMetadata
    GetKey := fun n => do crypter.Decrypt P (← r.GetKey n) (some Base64WSDecode)
    isEncryptedReader := true }

end Verif
