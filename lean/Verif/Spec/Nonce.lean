import Verif.Spec.Forgery
import Verif.Spec.Dsa
import Mathlib.Data.Int.ModEq
/-
Independent specification for C91: what somebody can compute who sees signatures and knows something about the numbers that
were drawn for them.
-/
namespace Verif.Spec
open Verif

/-- the bytes of an answer that are the signature -/
def signaturePart : Request → Bytes → Bytes
  | .plain _, out => out.drop 5
  | .attached m _, out => out.drop (9 + m.length)
  | .unversioned _, out => out

/-- the digest of the text that is signed, as a number -/
def Request.digest (H : Bytes → Bytes) (q : Request) : Int := bigEndian (H q.text)

/-- The candidate for the private number of a DSA key of order `q`, when (r, s) is a signature of digest `z` and the number
`n` was drawn for it; `w` is an inverse of r modulo q. -/
def secretFromDraw (w n z s : Int) : Int := w * (s * n - z)

/-- The candidate for the private number of a DSA key of order `q`, when (r, s₁) and (r, s₂) are signatures of digests z₁
and z₂ made with the same drawn number; `w` is an inverse of r * (s₁ - s₂) modulo q. -/
def secretFromTwo (w z₁ s₁ z₂ s₂ : Int) : Int := w * (s₂ * z₁ - s₁ * z₂)

/-- `w` is an inverse of `a` modulo `q` -/
def IsInverse (q : Nat) (w a : Int) : Prop := w * a ≡ 1 [ZMOD q]

end Verif.Spec
