import Verif.Spec.KeySet
/-
Independent specification of public key export (C41): keyczar.py:253-276, doc string "Export the
public keys corresponding to our key set", and the usage text of keyczart pubkey.
-/
namespace Verif.Spec
open Verif

/-- the public half of a private key -/
inductive IsPublicHalf : Key → Key → Prop
  | rsa (k : RsaPrivateKey) : IsPublicHalf (.rsaPriv k) (.rsaPub k.pub)
  | dsa (k : DsaPrivateKey) : IsPublicHalf (.dsaPriv k) (.dsaPub k.pub)

/-- which key sets have a public counterpart, and of what type and purpose -/
inductive Exports : KeyType → KeyPurpose → KeyType → KeyPurpose → Prop
  | dsa : Exports .DSA_PRIV .SIGN_AND_VERIFY .DSA_PUB .VERIFY
  | rsaCrypt : Exports .RSA_PRIV .DECRYPT_AND_ENCRYPT .RSA_PUB .ENCRYPT
  | rsaSign : Exports .RSA_PRIV .SIGN_AND_VERIFY .RSA_PUB .VERIFY

/-- `e'` is the public version of `e` -/
structure Entry.PublicOf (e' e : Entry) : Prop where
  num : e'.num = e.num
  status : e'.status = e.status
  exportable : e'.exportable = e.exportable
  key : IsPublicHalf e.key e'.key

/-- `ks'` consists of the public versions of `ks`, in some order -/
structure KeySet.PublicOf (ks' ks : KeySet) : Prop where
  name : ks'.name = ks.name
  kind : Exports ks.type ks.purpose ks'.type ks'.purpose
  encrypted : ks'.encrypted = .bool false
  entries : ∃ es : List Entry, es.Perm ks.entries ∧ List.Forall₂ Entry.PublicOf ks'.entries es

end Verif.Spec
