import Verif.Spec.KeySet
/-
What can be wrong with a metadata document, and which exception tells of it.  Written from the file format and
from Python's rules for dictionaries only: a missing item raises KeyError, indexing something that is not a
dictionary raises TypeError, and so does looking up a list or a dictionary in a table.
-/
namespace Verif.Spec
open Verif

/-- the JSON value is a dictionary whose item `k` is `v` -/
def HasField (j : Json) (k : String) (v : Json) : Prop := ∃ f, j = .obj f ∧ dictGet f k.toList = some v

/-- asking for the item `k` fails -/
inductive FieldFault (j : Json) (k : String) : PyErr → Prop
  | missing (f) : j = .obj f → dictGet f k.toList = none → FieldFault j k .keyError
  | notDict : (∀ f, j ≠ .obj f) → FieldFault j k .typeError

/-- the value is not one of the names -/
inductive NameFault (names : List String) (j : Json) : PyErr → Prop
  | list (l) : j = .arr l → NameFault names j .typeError
  | dict (f) : j = .obj f → NameFault names j .typeError
  | other : (∀ l, j ≠ .arr l) → (∀ f, j ≠ .obj f) → (∀ n ∈ names, j ≠ .str n.toList) → NameFault names j .keyczarError

/-- the documented names -/
def typeNames : List String := ["AES", "HMAC_SHA1", "DSA_PRIV", "DSA_PUB", "RSA_PRIV", "RSA_PUB"]
def statusNames : List String := ["PRIMARY", "ACTIVE", "INACTIVE"]
def purposeNames : List String := ["DECRYPT_AND_ENCRYPT", "ENCRYPT", "SIGN_AND_VERIFY", "VERIFY"]
def modeNames : List String := ["CBC", "CTR", "ECB", "DET_CBC"]

/-- the first thing wrong with a version record.  A version number that is not an integer is outside the model. -/
inductive VersionFault (j : Json) : PyErr → Prop
  | number {e} : FieldFault j "versionNumber" e → VersionFault j e
  | status {n e} : HasField j "versionNumber" n → FieldFault j "status" e → VersionFault j e
  | statusName {n s e} : HasField j "versionNumber" n → HasField j "status" s → NameFault statusNames s e →
      VersionFault j e
  | exportable {n s e} : HasField j "versionNumber" n → HasField j "status" s → s ∈ statusNames.map Json.ofString →
      FieldFault j "exportable" e → VersionFault j e
  | numberKind {n s x} : HasField j "versionNumber" n → HasField j "status" s →
      s ∈ statusNames.map Json.ofString → HasField j "exportable" x → (∀ i, n ≠ .num i) → VersionFault j .unmodelled

/-- the value can be gone through without finding anything -/
def NothingIn (j : Json) : Prop := j = .arr [] ∨ j = .str [] ∨ j = .obj []

/-- the first thing wrong with the list of version records -/
inductive VersionsFault (j : Json) : PyErr → Prop
  | kind : (∀ l, j ≠ .arr l) → ¬ NothingIn j → VersionsFault j .typeError
  | item {l₁ x l₂ e} : j = .arr (l₁ ++ x :: l₂) → (∀ y ∈ l₁, ∃ v, VersionSays y v) → VersionFault x e →
      VersionsFault j e

/-- the first thing wrong with a metadata document, in the order in which its items are read -/
inductive MetaFault (j : Json) : PyErr → Prop
  | name {e} : FieldFault j "name" e → MetaFault j e
  | purpose {n e} : HasField j "name" n → FieldFault j "purpose" e → MetaFault j e
  | purposeName {n p e} : HasField j "name" n → HasField j "purpose" p → NameFault purposeNames p e → MetaFault j e
  | type {n p e} : HasField j "name" n → HasField j "purpose" p → p ∈ purposeNames.map Json.ofString →
      FieldFault j "type" e → MetaFault j e
  | typeName {n p t e} : HasField j "name" n → HasField j "purpose" p → p ∈ purposeNames.map Json.ofString →
      HasField j "type" t → NameFault typeNames t e → MetaFault j e
  | encrypted {n p t e} : HasField j "name" n → HasField j "purpose" p → p ∈ purposeNames.map Json.ofString →
      HasField j "type" t → t ∈ typeNames.map Json.ofString → FieldFault j "encrypted" e → MetaFault j e
  | versions {n p t x e} : HasField j "name" n → HasField j "purpose" p → p ∈ purposeNames.map Json.ofString →
      HasField j "type" t → t ∈ typeNames.map Json.ofString → HasField j "encrypted" x →
      FieldFault j "versions" e → MetaFault j e
  | records {n p t x l e} : HasField j "name" n → HasField j "purpose" p → p ∈ purposeNames.map Json.ofString →
      HasField j "type" t → t ∈ typeNames.map Json.ofString → HasField j "encrypted" x →
      HasField j "versions" l → VersionsFault l e → MetaFault j e

/-- a document that says `v`, where an empty string or dictionary may stand for the empty list of versions -/
def MetaAccepts (j : Json) (v : KeySet.View) : Prop :=
  MetaSays j v ∨ (v.versions = [] ∧ ∃ l, NothingIn l ∧ HasField j "name" v.name ∧
    HasField j "purpose" (Json.ofString (purposeWord v.purpose)) ∧ HasField j "type" (Json.ofString (typeWord v.type)) ∧
    HasField j "encrypted" v.encrypted ∧ HasField j "versions" l)

/-! ### Key files -/

/-- the item is a string of plain characters: these bytes -/
def TextField (j : Json) (k : String) (b : Bytes) : Prop :=
  ∃ s, HasField j k (.str s) ∧ s.all plainChar ∧ b = s.map fun c => UInt8.ofNat c.toNat

/-- the item is the Base64 text of these bytes -/
def B64Field (j : Json) (k : String) (b : Bytes) : Prop := ∃ t, TextField j k t ∧ Base64WSDecode t = .ok b

/-- the size of a key: the item `size` if it is one of the sizes, whatever it is otherwise the first of them -/
def SizeField (j : Json) (sizes : List Nat) (n : Nat) : Prop :=
  ∃ v, HasField j "size" v ∧
    ((n ∈ sizes ∧ v = .num n) ∨ ((∀ s ∈ sizes, v ≠ .num s) ∧ sizes.head? = some n))

structure HmacSays (j : Json) (k : HmacKey) : Prop where
  string : TextField j "hmacKeyString" k.keyString
  size : SizeField j [256] k.size

structure AesSays (j : Json) (k : AesKey) : Prop where
  string : TextField j "aesKeyString" k.keyString
  hmac : ∃ h, HasField j "hmacKey" h ∧ HmacSays h k.hmacKey
  mode : HasField j "mode" (Json.ofString "CBC")
  size : SizeField j [128, 192, 256] k.size

structure DsaPubSays (j : Json) (k : DsaPublicKey) : Prop where
  p : B64Field j "p" k.p
  q : B64Field j "q" k.q
  g : B64Field j "g" k.g
  y : B64Field j "y" k.y
  size : SizeField j [1024] k.size
  key : k.key = ⟨BytesToLong k.y, BytesToLong k.g, BytesToLong k.p, BytesToLong k.q⟩

structure DsaPrivSays (j : Json) (k : DsaPrivateKey) : Prop where
  pub : ∃ h, HasField j "publicKey" h ∧ DsaPubSays h k.pub
  x : B64Field j "x" k.x
  size : SizeField j [1024] k.size
  key : k.key = ⟨BytesToLong k.pub.y, BytesToLong k.pub.g, BytesToLong k.pub.p, BytesToLong k.pub.q, BytesToLong k.x⟩

structure RsaPubSays (j : Json) (k : RsaPublicKey) : Prop where
  modulus : B64Field j "modulus" k.modulus
  publicExponent : B64Field j "publicExponent" k.publicExponent
  size : SizeField j [2048, 4096, 1024, 768, 512] k.size
  key : k.key = ⟨BytesToLong k.modulus, BytesToLong k.publicExponent⟩

/-- the private key object gets the two primes in the order Q, P -/
structure RsaPrivSays (j : Json) (k : RsaPrivateKey) : Prop where
  pub : ∃ h, HasField j "publicKey" h ∧ RsaPubSays h k.pub
  privateExponent : B64Field j "privateExponent" k.privateExponent
  primeP : B64Field j "primeP" k.primeP
  primeQ : B64Field j "primeQ" k.primeQ
  primeExponentP : B64Field j "primeExponentP" k.primeExponentP
  primeExponentQ : B64Field j "primeExponentQ" k.primeExponentQ
  crtCoefficient : B64Field j "crtCoefficient" k.crtCoefficient
  size : SizeField j [2048, 4096, 1024, 768, 512] k.size
  key : k.key = ⟨BytesToLong k.pub.modulus, BytesToLong k.pub.publicExponent, BytesToLong k.privateExponent,
    BytesToLong k.primeQ, BytesToLong k.primeP, BytesToLong k.crtCoefficient⟩

/-- the document is that of this key of this type.  Nothing relates the items to one another: neither sizes to
lengths nor primes to moduli. -/
inductive KeySays (j : Json) : KeyType → Key → Prop
  | aes {k} : AesSays j k → KeySays j .AES (.aes k)
  | hmac {k} : HmacSays j k → KeySays j .HMAC_SHA1 (.hmac k)
  | dsaPriv {k} : DsaPrivSays j k → KeySays j .DSA_PRIV (.dsaPriv k)
  | dsaPub {k} : DsaPubSays j k → KeySays j .DSA_PUB (.dsaPub k)
  | rsaPriv {k} : RsaPrivSays j k → KeySays j .RSA_PRIV (.rsaPriv k)
  | rsaPub {k} : RsaPubSays j k → KeySays j .RSA_PUB (.rsaPub k)

end Verif.Spec
