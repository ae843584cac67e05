import Verif.Spec.KeyId
import Verif.Model.Session
/-
Independent specification for C86: packed session keys as byte strings.
-/
namespace Verif.Spec
open Verif

/-- a four-byte field as a signed number: 2^31 and more stand for negative numbers -/
def Signed4 (field : Bytes) (n : Int) : Prop :=
  ∃ u, u < 2 ^ 32 ∧ field = i2osp4 u ∧ n = if u < 2 ^ 31 then (u : Int) else (u : Int) - 2 ^ 32

/-- `PackedForm kb hb data`: a session with AES key `kb` and HMAC key `hb` is taken out of `data`, which begins with four bytes
that do not matter and a signed length field.  `pre` is what comes before the second length field. -/
inductive PackedForm : Bytes → Bytes → Bytes → Prop
  /-- the first field says where the second one is, counting from the start; this may be within or before the first field.
  The second field is the length of the HMAC key. -/
  | forward (count field rest pre hb : Bytes) : count.length = 4 → Signed4 field ((pre.length : Int) - 8) →
      count ++ field ++ rest = pre ++ lengthPrefixed hb → hb.length < 2 ^ 31 →
      PackedForm (pre.drop 8) hb (count ++ field ++ rest)
  /-- the first field is negative, -12 less the length of the HMAC key, which counts from the end; the second field is the
  length of everything and of the HMAC key together. -/
  | backward (count field rest pre hb : Bytes) : count.length = 4 → Signed4 field (-12 - (hb.length : Int)) →
      count ++ field ++ rest = pre ++ i2osp4 (pre.length + 4 + 2 * hb.length) ++ hb → hb ≠ [] →
      pre.length + 4 + 2 * hb.length < 2 ^ 31 →
      PackedForm (pre.drop 8) hb (count ++ field ++ rest)

/-- the session object: the keys in Base64, their sizes in bits if these are allowed and the default sizes otherwise, no nonce -/
def SessionSays (kb hb : Bytes) (s : Session) : Prop :=
  s = ⟨⟨Base64WSEncode kb, ⟨Base64WSEncode hb, 256⟩, if kb.length = 24 then 192 else if kb.length = 32 then 256 else 128⟩, none⟩

end Verif.Spec
