import Verif.Model.GenKey
import Verif.Spec.GenKey
import Verif.Spec.Export
import Verif.Spec.Oaep
import Verif.Spec.CommandLine
import Verif.Props.Signatures
import Verif.Props.Disk
/-
Specification of the interoperability tests (C77): an output made with a key set is accepted by the same key set, or by
its public or private counterpart.
-/
namespace Verif.Spec
open Verif Props

/-- Under the directory `path`, the key set `ks` is stored as `name ++ crypted ++ pub`; if `crypted` is not empty the key
files are encrypted with the key set stored as `crypted`. -/
def OnDisk (P : Prims) (fs : FS) (path name crypted pub : Bytes) (ks : KeySet) : Prop :=
  ∃ d, fs (pathJoin path (name ++ crypted ++ pub)) = some d ∧
    (crypted = [] ∧ Loads P (FileReader d) ks ∨
     crypted ≠ [] ∧ ∃ d' cr, fs (pathJoin path crypted) = some d' ∧ Czar.init P .crypter (FileReader d') = .ok cr ∧
       Loads P (EncryptedReader P (FileReader d) cr) ks)

/-- keys that the operations can use: as generated, or valid -/
def GoodKey : Key → Prop
  | .aes k => ∃ kb hb, UsableAes k kb hb
  | .hmac _ => True
  | .rsaPriv k => UsableRsa k
  | .dsaPriv k => DsaValid k.key ∧ k.pub.key = k.key.pub ∧ 3 ≤ k.key.q ∧ (BigIntToBytes k.key.q).length < 2 ^ 32
  | _ => False

/-- a set of good keys with a primary key and different identifiers -/
structure GoodSet (P : Prims) (p : KeyPurpose) (types : List KeyType) (ks : KeySet) : Prop where
  purpose : ks.purpose = p
  type : ks.type ∈ types
  primary : ks.primaries.length = 1
  distinct : ks.Distinct P
  good : ∀ e ∈ ks.entries, GoodKey e.key

/-- a DSA signature with two nonzero numbers; the others have no such exception -/
def FairSign (P : Prims) (rnd : Rand) (payload : Bytes) : Key → Prop
  | .dsaPriv k => ∀ r s, k.key.sign (P.sha1 payload) (rnd.dsaK k.key.q) = .ok (r, s) → r ≠ 0 ∧ s ≠ 0
  | _ => True

/-- RSA: the message fits the modulus -/
def Fits (m : Nat) : Key → Prop
  | .rsaPriv k => m + 42 ≤ (BigIntToBytes k.key.n).length
  | _ => True

/-- RSA: the padded message does not begin with so many zeros that decryption fails (C48) -/
def FairCrypt (P : Prims) (rnd : Rand) (m : Bytes) : Key → Prop
  | .rsaPriv k => 42 ≤ (strip0 (oaep P.sha1 (BigIntToBytes k.key.n).length (rnd.bytes 0 20) m)).length
  | _ => True

/-- the option `k` is the text `b` -/
def HasText (options : Json) (k : String) (b : Bytes) : Prop := ∃ v, options.get k = .ok v ∧ v.toBytes = .ok b

/-- the option `pubKey` is the text `b`, or it is missing and `b` is empty -/
def PubText (options : Json) (b : Bytes) : Prop :=
  ∃ l, options = .obj l ∧ match dictGet l "pubKey".toList with
    | none => b = []
    | some v => v.toBytes = .ok b

/-- the types of signing keys -/
def signTypes : List KeyType := [.HMAC_SHA1, .RSA_PRIV, .DSA_PRIV]
/-- the types of keys of crypters -/
def cryptTypes : List KeyType := [.AES, .RSA_PRIV]

/-- A case of the signing operations: `Generate` reads the private key set `ks` from the disk `fs`, `Test` reads `ks` or
its public counterpart `ks'` from the disk `fs'`.  The class is "verifier" if the set is public. -/
structure SignCase (P : Prims) (fs fs' : FS) (keyPath algorithm gOptions tOptions testData : Json)
    (path name crypted pub m : Bytes) (ks ks' : KeySet) : Prop where
  pathText : keyPath.toBytes = .ok path
  nameText : algorithm.toBytes = .ok name
  dataText : testData.toBytes = .ok m
  encoding : ∃ v, gOptions.get "encoding" = .ok v
  cryptedText : HasText gOptions "cryptedKeySet" crypted
  gPub : PubText gOptions []
  tPub : PubText tOptions pub
  cls : ∃ v, tOptions.get "class" = .ok v ∧ (ks' = ks ∨ v = .str "verifier".toList)
  gSet : OnDisk P fs path name crypted [] ks
  tSet : OnDisk P fs' path name crypted pub ks'
  same : ks' = ks ∨ ks'.PublicOf ks
  good : GoodSet P .SIGN_AND_VERIFY signTypes ks

/-- A case of the encryption operation: `Generate` reads the key set `ks` or its public counterpart `kg`, `Test` reads
`ks`.  The class is not "crypter" if the set is public. -/
structure CryptCase (P : Prims) (fs fs' : FS) (keyPath algorithm gOptions tOptions testData : Json)
    (path name crypted pub m : Bytes) (kg ks : KeySet) : Prop where
  pathText : keyPath.toBytes = .ok path
  nameText : algorithm.toBytes = .ok name
  dataText : testData.toBytes = .ok m
  encoding : ∃ v, gOptions.get "encoding" = .ok v
  cryptedText : HasText gOptions "cryptedKeySet" crypted
  gPub : PubText gOptions pub
  tPub : PubText tOptions []
  cls : ∃ v, gOptions.get "class" = .ok v ∧ (kg = ks ∨ v ≠ .str "crypter".toList)
  gSet : OnDisk P fs path name crypted pub kg
  tSet : OnDisk P fs' path name crypted [] ks
  same : kg = ks ∨ kg.PublicOf ks
  good : GoodSet P .DECRYPT_AND_ENCRYPT cryptTypes ks

/-- A case of the signed session operation: as `CryptCase` with an Encrypter, and a key set `ss` of signing keys, stored
as `signer`, which both sides read. -/
structure SessionCase (P : Prims) (fs fs' : FS) (keyPath algorithm gOptions tOptions testData : Json)
    (path name signer crypted pub m : Bytes) (kg ks ss : KeySet) : Prop where
  pathText : keyPath.toBytes = .ok path
  nameText : algorithm.toBytes = .ok name
  dataText : testData.toBytes = .ok m
  cryptedText : HasText gOptions "cryptedKeySet" crypted
  signerText : HasText gOptions "signer" signer
  gPub : PubText gOptions pub
  tPub : PubText tOptions []
  gSet : OnDisk P fs path name crypted pub kg
  tSet : OnDisk P fs' path name crypted [] ks
  gSign : OnDisk P fs path signer crypted [] ss
  tSign : OnDisk P fs' path signer crypted [] ss
  same : kg = ks ∨ kg.PublicOf ks
  good : GoodSet P .DECRYPT_AND_ENCRYPT cryptTypes ks
  goodSign : GoodSet P .SIGN_AND_VERIFY signTypes ss

/-! ### creating the key sets -/

/-- a key set with one version -/
def oneKey (name : Json) (p : KeyPurpose) (t : KeyType) (encrypted : Bool) (k : Key) : KeySet :=
  ⟨name, p, t, .bool encrypted, [⟨1, .PRIMARY, .bool false, k⟩]⟩

/-- a key set with two versions, the newer one primary -/
def pairKeys (name : Json) (p : KeyPurpose) (t : KeyType) (encrypted : Bool) (k1 k2 : Key) : KeySet :=
  ⟨name, p, t, .bool encrypted, [⟨1, .ACTIVE, .bool false, k1⟩, ⟨2, .PRIMARY, .bool false, k2⟩]⟩

/-- `argv` is "create" with the location `l`, the name `name` and flags that choose the purpose `p` and the type `t` -/
def CreateArgs (argv : List Bytes) (l : Loc) (name : List Char) (p : KeyPurpose) (t : KeyType) : Prop :=
  ∃ V po, Parsed argv .create V ∧ V .location = some l ∧ Clear (V .version) ∧ Clear (V .size) ∧
    PurposeFlag (V .purpose) po ∧ NewType po (V .asymmetric) p t ∧ NameFlag (V .name) name

/-- `argv` is "addkey" with the location `l`, the status primary, the size `size` (-1: none) and the crypter `crypter` -/
def AddArgs (argv : List Bytes) (l : Loc) (size : Int) (crypter : Option Loc) : Prop :=
  ∃ V n, Parsed argv .addkey V ∧ V .location = some l ∧ NumFlag (V .version) n ∧ NumFlag (V .size) size ∧
    StatusFlag (V .status) .PRIMARY ∧ V .crypter = crypter

/-- `argv` is "pubkey" with the location `l` and the destination `dest` -/
def PubArgs (argv : List Bytes) (l dest : Loc) : Prop :=
  ∃ V, Parsed argv .pubkey V ∧ V .location = some l ∧ Clear (V .version) ∧ Clear (V .size) ∧ V .destination = some dest

/-- `text` is the argument that asks interop_test.py to run the commands `cmds` -/
def CreateText (text : Bytes) (cmds : List (List Bytes)) : Prop :=
  ∃ args l, loads text = .ok (.obj args) ∧ Json.get (.obj args) "command" = .ok (.str "create".toList) ∧
    Json.get (.obj args) "keyczartCommands" = .ok (.arr l) ∧
    List.Forall₂ (fun j argv => ∃ x, j = .arr x ∧ List.Forall₂ (fun v b => Json.toBytes v = .ok b) x argv) l cmds

/-- a valid RSA or DSA key; nothing is asked of the others -/
def ValidKey : Key → Prop
  | .rsaPriv k => UsableRsa k
  | .dsaPriv k => DsaValid k.key ∧ k.pub.key = k.key.pub ∧ 3 ≤ k.key.q ∧ (BigIntToBytes k.key.q).length < 2 ^ 32
  | _ => True

/-- `c` holds the key set that the algorithm name and the options name on the disk -/
def NamedSet (P : Prims) (fs : FS) (path : Bytes) (algorithm options pubOptions : Json) (c : Czar) : Prop :=
  Loaded P c ∧ ∃ name crypted pub, algorithm.toBytes = .ok name ∧ HasText options "cryptedKeySet" crypted ∧
    PubText pubOptions pub ∧ OnDisk P fs path name crypted pub c.keySet

/-- the decoder that goes with the option `encoding` -/
def CodedBy (options : Json) (dec : Option (Bytes → Py Bytes)) : Prop :=
  ∃ v, options.get "encoding" = .ok v ∧ (v = .str "encoded".toList ∧ dec = some Base64WSDecode ∨
    v ≠ .str "encoded".toList ∧ dec = none)

end Verif.Spec
