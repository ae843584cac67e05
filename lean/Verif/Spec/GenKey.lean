import Verif.Spec.KeySet
import Verif.Props.Crypters
/-
Specification of the test key sets that `keyczart genkey` makes (C70).
-/
namespace Verif.Spec
open Verif Props

/-- the six key sets: directory name, purpose, type, and whether the key files are encrypted with the set `aes` -/
inductive TestRow : Bytes → KeyPurpose → KeyType → Bool → Prop
  | aes : TestRow (bstr "aes") .DECRYPT_AND_ENCRYPT .AES false
  | aesCrypted : TestRow (bstr "aes-crypted") .DECRYPT_AND_ENCRYPT .AES true
  | hmac : TestRow (bstr "hmac") .SIGN_AND_VERIFY .HMAC_SHA1 false
  | rsa : TestRow (bstr "rsa") .DECRYPT_AND_ENCRYPT .RSA_PRIV false
  | rsaSign : TestRow (bstr "rsa-sign") .SIGN_AND_VERIFY .RSA_PRIV false
  | dsa : TestRow (bstr "dsa") .SIGN_AND_VERIFY .DSA_PRIV false

/-- the two versions of a test key set: the older one active, the newer one primary -/
def twoKeys (p : KeyPurpose) (t : KeyType) (encrypted : Bool) (k1 k2 : Key) : KeySet :=
  ⟨.str "Test".toList, p, t, .bool encrypted, [⟨1, .ACTIVE, .bool false, k1⟩, ⟨2, .PRIMARY, .bool false, k2⟩]⟩

/-- a reader for a directory loads as the key set `ks` -/
def Loads (P : Prims) (r : Reader) (ks : KeySet) : Prop := ∃ c, Czar.init P .generic r = .ok c ∧ c.keySet = ks

/-- `out` is what a key set object with primary key `k` gives for the message -/
def MadeBy (P : Prims) (p : KeyPurpose) (m : Bytes) (rnd : Rand) (k : Key) (out : Bytes) : Prop :=
  ∃ c e, Loaded P c ∧ c.keySet.primaries = [e] ∧ e.key = k ∧
    (p = .DECRYPT_AND_ENCRYPT → c.Encrypt P rnd m (some Base64WSEncode) = .ok out) ∧
    (p = .SIGN_AND_VERIFY → c.Sign P rnd m (some Base64WSEncode) = .ok out)

end Verif.Spec
