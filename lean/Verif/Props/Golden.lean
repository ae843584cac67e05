import Verif.Lemmas.GoldenData
import Verif.Model.Aes
/-
The model run by the kernel on the outputs recorded in /repo/python/testdata (written by tools/gen_golden.py).  These
are tests of the model against what the real program did, not proofs of properties.  More, RSA
among them, in tools/golden.lean.txt.
-/
namespace Verif.Golden
open Verif

/-- load a set and decrypt two texts -/
def crypt (d : Dir) (a b : Bytes) : Py (Bytes × Bytes) := do
  let c ← Czar.init realPrims .crypter (FileReader d)
  return (← c.Decrypt realPrims a (some Base64WSDecode), ← c.Decrypt realPrims b (some Base64WSDecode))

/-- load a set and verify two signatures of the message, and one of another message -/
def verify (d : Dir) (a b : Bytes) : Py (List Bool) := do
  let c ← Czar.init realPrims .verifier (FileReader d)
  [(msg, a), (msg, b), (msg ++ [46], a)].mapM fun p => c.Verify realPrims p.1 p.2 (some Base64WSDecode)

/-- sign the message anew: HMAC signatures do not depend on chance -/
def sign (d : Dir) : Py Bytes := do
  let c ← Czar.init realPrims .signer (FileReader d)
  c.Sign realPrims Ex.rnd msg (some Base64WSEncode)

example : crypt pyAes pyAesOut1 pyAesOut2 = .ok (msg, msg) := by decide +kernel
example : verify pyHmac pyHmacOut1 pyHmacOut2 = .ok [true, true, false] := by decide +kernel
example : sign pyHmac = .ok pyHmacOut2 := by decide +kernel
example : verify pyDsa pyDsaOut1 pyDsaOut2 = .ok [true, true, false] := by decide +kernel

end Verif.Golden
