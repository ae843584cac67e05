import Verif.Spec.Crypto
import Verif.Spec.KeyId
/-
Independent specification for C83: ciphertexts of AES keys as byte strings.
-/
namespace Verif.Spec
open Verif

/-- `data` is the header for `id`, the initialization vector, the CBC encryption of the blocks `ps`, and the HMAC of all this -/
def AesText (H : Bytes → Bytes) (E : Bytes → Bytes) (hb id iv : Bytes) (ps : List Bytes) (data : Bytes) : Prop :=
  ∃ cs, iv.length = 16 ∧ AllBlocks ps ∧ AllBlocks cs ∧ Cbc E iv ps cs ∧
    data = header id ++ iv ++ cs.flatten ++ hmac H hb (header id ++ iv ++ cs.flatten)

/-- what is left when as many bytes are dropped as the last byte says; nothing, if it says zero -/
def Unpadded (padded m : Bytes) : Prop :=
  ∃ init n, padded = init ++ [n] ∧ m = if n = 0 then [] else padded.take (padded.length - n.toNat)

end Verif.Spec
