import Verif.Spec.KeyId
import Verif.Spec.KeySet
/-
Independent specification for C93: of several versions whose keys have the same identifier, one is seen.
-/
namespace Verif.Spec
open Verif

/-- a choice of one version for every identifier that occurs -/
structure Seen (H : Bytes → Bytes) (all seen : List Entry) : Prop where
  sub : seen.Sublist all
  one : ∀ e ∈ seen, ∀ e' ∈ seen, ∀ id, KeyId H e.key id → KeyId H e'.key id → e = e'
  some : ∀ e ∈ all, ∀ id, KeyId H e.key id → ∃ e' ∈ seen, KeyId H e'.key id

end Verif.Spec
