import Verif.Spec.Forgery
/-
Specification for C96: the three ways in which keyczar signs with the same keys (`Request`, and `Request.text` for what is
signed: Spec/Forgery).
-/
namespace Verif.Spec.Request
open Verif

/-- the length fields of attached signatures have 31 bits -/
def Fits : Request → Prop
  | attached m nonce => m.length < 2 ^ 31 ∧ nonce.length < 2 ^ 31
  | _ => True

/-- a discipline for programs that use a key set in all three ways: nonces have `n` bytes; messages signed without a nonce
do not end with the length `n` and `n` more bytes; messages signed without a header do not end with a zero byte -/
def Disciplined (n : Nat) : Request → Prop
  | plain m => ∀ x y, y.length = n → m ≠ x ++ lengthPrefixed y
  | attached _ nonce => nonce.length = n
  | unversioned m => ∀ x, m ≠ x ++ [0]

end Verif.Spec.Request
