import Verif.Model.Keyczar
import Mathlib.Data.List.Forall2
/-
Independent specification of key sets and of the key management operations (C18-C33): a key set is
a list of versions, each with a number, a status and a key; operations are the documented ones
(doc strings of keyczar.py:145-251 and the usage text keyczart.py:221-243).
-/
namespace Verif.Spec
open Verif

/-- one version of a key set -/
structure Entry where
  num : Int
  status : KeyStatus
  exportable : Json
  key : Key

/-- the JSON values that do not count as "yes" (Python's truth value testing) -/
inductive Falsy : Json → Prop
  | null : Falsy .null
  | no : Falsy (.bool false)
  | zero : Falsy (.num 0)
  | noText : Falsy (.str [])
  | noItems : Falsy (.arr [])
  | noFields : Falsy (.obj [])

/-- a key set -/
structure KeySet where
  name : Json
  purpose : KeyPurpose
  type : KeyType
  encrypted : Json
  entries : List Entry

namespace KeySet

/-- the version with a given number -/
def find (ks : KeySet) (n : Int) : Option Entry := ks.entries.find? fun e => e.num = n

/-- apply a status change to every version -/
def mapStatus (ks : KeySet) (f : Entry → KeyStatus) : KeySet :=
  { ks with entries := ks.entries.map fun e => { e with status := f e } }

/-- "Active keys are promoted to primary (which demotes any existing primary key to active). Keys
scheduled for revocation are promoted to be active."  Primary keys and unknown versions: error. -/
def promote (ks : KeySet) (n : Int) : Option KeySet :=
  match ks.find n with
  | none => none
  | some e =>
    match e.status with
    | .PRIMARY => none
    | .ACTIVE => some (ks.mapStatus fun x =>
        if x.num = n then .PRIMARY else if x.status = .PRIMARY then .ACTIVE else x.status)
    | .INACTIVE => some (ks.mapStatus fun x => if x.num = n then .ACTIVE else x.status)

/-- "Primary keys are demoted to active. Active keys are scheduled for revocation." -/
def demote (ks : KeySet) (n : Int) : Option KeySet :=
  match ks.find n with
  | none => none
  | some e =>
    match e.status with
    | .PRIMARY => some (ks.mapStatus fun x => if x.num = n then .ACTIVE else x.status)
    | .ACTIVE => some (ks.mapStatus fun x => if x.num = n then .INACTIVE else x.status)
    | .INACTIVE => none

/-- "Revokes the key of the given version number. This key must have been scheduled for
revocation." -/
def revoke (ks : KeySet) (n : Int) : Option KeySet :=
  match ks.find n with
  | none => none
  | some e =>
    match e.status with
    | .INACTIVE => some { ks with entries := ks.entries.filter fun x => x.num ≠ n }
    | _ => none

/-- adding a version at the end; a new primary key turns the old one active -/
def add (ks : KeySet) (n : Int) (s : KeyStatus) (k : Key) : KeySet :=
  let old := if s = .PRIMARY then ks.mapStatus fun x => if x.status = .PRIMARY then .ACTIVE else x.status
    else ks
  { old with entries := old.entries ++ [⟨n, s, .bool false, k⟩] }

/-- the primary versions -/
def primaries (ks : KeySet) : List Entry := ks.entries.filter fun e => e.status = .PRIMARY

/-- version numbers are distinct and at most one version is primary -/
structure Valid (ks : KeySet) : Prop where
  nodup : (ks.entries.map Entry.num).Nodup
  primary : ks.primaries.length ≤ 1

/-- key identifiers (as computed by `f`) are pairwise distinct -/
def DistinctIds {ι} (f : Key → ι) (ks : KeySet) : Prop := (ks.entries.map fun e => f e.key).Nodup

/-- the empty key set -/
def empty (name : Json) (p : KeyPurpose) (t : KeyType) : KeySet := ⟨name, p, t, .bool false, []⟩

/-- everything but the keys -/
structure View where
  name : Json
  purpose : KeyPurpose
  type : KeyType
  encrypted : Json
  versions : List KeyVersion

/-- the version records of a key set -/
def view (ks : KeySet) : View :=
  ⟨ks.name, ks.purpose, ks.type, ks.encrypted, ks.entries.map fun e => ⟨e.num, e.status, e.exportable⟩⟩

end KeySet

/-- of several records with the same version number keep the first -/
def firstOfEach : List KeyVersion → List KeyVersion
  | [] => []
  | v :: t => v :: (firstOfEach t).filter fun w => w.num ≠ v.num

/-- the words of the file format for a status, a purpose, a type and a cipher mode -/
def statusWord : KeyStatus → String
  | .PRIMARY => "PRIMARY" | .ACTIVE => "ACTIVE" | .INACTIVE => "INACTIVE"
def purposeWord : KeyPurpose → String
  | .DECRYPT_AND_ENCRYPT => "DECRYPT_AND_ENCRYPT" | .ENCRYPT => "ENCRYPT" | .SIGN_AND_VERIFY => "SIGN_AND_VERIFY"
  | .VERIFY => "VERIFY"
def typeWord : KeyType → String
  | .AES => "AES" | .HMAC_SHA1 => "HMAC_SHA1" | .DSA_PRIV => "DSA_PRIV" | .DSA_PUB => "DSA_PUB"
  | .RSA_PRIV => "RSA_PRIV" | .RSA_PUB => "RSA_PUB"
def modeWord : CipherMode → String
  | .CBC => "CBC" | .CTR => "CTR" | .ECB => "ECB" | .DET_CBC => "DET_CBC"

/-- the JSON object `j` is a version record with these fields (in any order, with any others) -/
def VersionSays (j : Json) (v : KeyVersion) : Prop :=
  ∃ f, j = .obj f ∧ dictGet f "versionNumber".toList = some (.num v.num) ∧
    dictGet f "status".toList = some (Json.ofString (statusWord v.status)) ∧
    dictGet f "exportable".toList = some v.exportable

/-- the JSON object `j` is a metadata document with these fields -/
def MetaSays (j : Json) (v : KeySet.View) : Prop :=
  ∃ f l, j = .obj f ∧ dictGet f "name".toList = some v.name ∧
    dictGet f "purpose".toList = some (Json.ofString (purposeWord v.purpose)) ∧
    dictGet f "type".toList = some (Json.ofString (typeWord v.type)) ∧
    dictGet f "encrypted".toList = some v.encrypted ∧
    dictGet f "versions".toList = some (.arr l) ∧ List.Forall₂ VersionSays l v.versions

/-- the documented purposes of each class (keyczar.py class doc strings and README) -/
def purposes : CzarClass → List KeyPurpose
  | .keyczar => []
  | .generic => [.DECRYPT_AND_ENCRYPT, .ENCRYPT, .SIGN_AND_VERIFY, .VERIFY]
  | .encrypter => [.ENCRYPT, .DECRYPT_AND_ENCRYPT]
  | .crypter => [.DECRYPT_AND_ENCRYPT]
  | .verifier | .unversionedVerifier => [.VERIFY, .SIGN_AND_VERIFY]
  | .signer | .unversionedSigner => [.SIGN_AND_VERIFY]

end Verif.Spec
