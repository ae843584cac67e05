import Verif.Spec.Leak
/-
Independent specification for C94: what cipher block chaining gives when ciphertext blocks are decrypted one by one.
-/
namespace Verif.Spec
open Verif

/-- the decryption of each block, combined with the block before it, or with the initialization vector for the first -/
def opened (D : Bytes → Bytes) (iv : Bytes) (cs : List Bytes) : List Bytes :=
  List.zipWith (fun c before => xorBlock (D c) before) cs (iv :: cs)

end Verif.Spec
