import Verif.Spec.Asym
/-
Independent specification for C74: what a decoder of OAEP blocks can be given.
-/
namespace Verif.Spec
open Verif

/-- PKCS#1 v2.1 section 7.1.1 steps 2e-2h: a data block masked with a seed, without the leading zero byte. -/
def oaepMask (H : Bytes → Bytes) (seed DB : Bytes) : Bytes :=
  let maskedDB := xor DB (mgf1 H seed DB.length)
  xor seed (mgf1 H maskedDB 20) ++ maskedDB

/-- `em` of `k` bytes hides the data block `DB`: as in PKCS#1, one zero byte and then the masked seed and block;
or with no zero byte, `DB` one byte longer and the first byte of the masked seed not zero. -/
def Hides (H : Bytes → Bytes) (em seed DB : Bytes) : Prop :=
  seed.length = 20 ∧
    (em = 0 :: oaepMask H seed DB ∨ em = oaepMask H seed DB ∧ em.head? ≠ some 0)

end Verif.Spec
