import Verif.Spec.KeyId
/-
Independent specification for C81: how a blob with an attached signature is cut into data and signature.
-/
namespace Verif.Spec
open Verif

/-- `AttachedForm id data sig blob`: the reader of attached signatures takes `data` and `sig` out of `blob`, which begins
with the header for `id` and a length field of four bytes. -/
inductive AttachedForm (id : Bytes) : Bytes → Bytes → Bytes → Prop
  /-- as `AttachedSign` makes it: the field is the length of the data -/
  | normal (data sig : Bytes) : data.length < 2 ^ 31 → AttachedForm id data sig (header id ++ lengthPrefixed data ++ sig)
  /-- the field is negative, -9 less the length of the signature: it counts from the end -/
  | fromEnd (data sig : Bytes) : sig ≠ [] → sig.length + 9 ≤ 2 ^ 31 →
      AttachedForm id data sig (header id ++ i2osp4 (2 ^ 32 - 9 - sig.length) ++ data ++ sig)
  /-- the field is greater than the length of what follows: no signature -/
  | beyond (data : Bytes) (n : Nat) : data.length < n → n < 2 ^ 31 →
      AttachedForm id data [] (header id ++ i2osp4 n ++ data)
  /-- the field is between -9 and -1: no data, and the signature begins before the end of the field -/
  | before (rest : Bytes) (n : Nat) : 1 ≤ n → n ≤ 9 →
      AttachedForm id [] ((header id ++ i2osp4 (2 ^ 32 - n) ++ rest).drop (9 - n)) (header id ++ i2osp4 (2 ^ 32 - n) ++ rest)
  /-- the field counts from the end further than the end of the field: no data, and the signature begins before it -/
  | over (rest : Bytes) (t : Nat) : rest.length < t → 9 + t ≤ 2 ^ 31 →
      AttachedForm id [] ((header id ++ i2osp4 (2 ^ 32 - 9 - t) ++ rest).drop (9 + rest.length - t))
        (header id ++ i2osp4 (2 ^ 32 - 9 - t) ++ rest)

end Verif.Spec
