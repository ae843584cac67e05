import Verif.Spec.Accepts
import Verif.Spec.KeyId
/-
Independent specification for C89: what was signed or encrypted before, and what a forgery is.
-/
namespace Verif.Spec
open Verif

/-- what a program asked a key set to sign -/
inductive Request where
  | plain (m : Bytes)
  | attached (m nonce : Bytes)
  | unversioned (m : Bytes)

/-- the byte string that is signed for a request -/
def Request.text : Request → Bytes
  | .plain m => m ++ [0]
  | .attached m nonce => m ++ lengthPrefixed nonce ++ [0]
  | .unversioned m => m

/-- two keys, public or private, that have the same signatures -/
def SameSignatures (H : Bytes → Bytes) (range : Bool) (k k' : Key) : Prop :=
  ∀ msg sig, SignatureFor H range k msg sig ↔ SignatureFor H range k' msg sig

/-- `signed`: which keys signed which requests.  A signature of `text` under `k` is a forgery if none of the requests signed
with `k`, or with another key that has the same signatures, was a request to sign `text`. -/
def Forgery (H : Bytes → Bytes) (range : Bool) (signed : List (Key × Request)) (k : Key) (text sig : Bytes) : Prop :=
  SignatureFor H range k text sig ∧ ∀ p ∈ signed, SameSignatures H range p.1 k → p.2.text ≠ text

/-- `macs`: which HMAC keys were applied to which texts.  `text` and `tag` are a forgery of a MAC if the tag is right and
the text is new. -/
def MacForgery (H : Bytes → Bytes) (macs : List (Bytes × Bytes)) (hb text tag : Bytes) : Prop :=
  tag = hmac H hb text ∧ (hb, text) ∉ macs

end Verif.Spec
