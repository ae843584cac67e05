import Verif.Model.Deprecated
import Verif.Props.Encodings
/-
C01, C03 for the deprecated names.
-/
namespace Verif.Props
open Verif Spec

/-- C01: the deprecated names can be mixed with the new ones. -/
theorem C01_deprecated (s : Bytes) :
    Decode (Encode s) = .ok s ∧ Base64WSDecode (Encode s) = .ok s ∧ Decode (Base64WSEncode s) = .ok s :=
  ⟨C01_round_trip s, C01_round_trip s, C01_round_trip s⟩

/-- C03: `Decode` ignores what `Base64WSDecode` ignores and fails in the same way. -/
theorem C03_deprecated (s t : Bytes) (h : InsertBlanks s t) :
    Decode t = Decode s ∧ ((∃ b, Decode s = .ok b) ∨ Decode s = .error .base64Decoding) :=
  ⟨C03_blanks_ignored s t h, C03_only_failure s⟩

example : InsertBlanks (bstr "QUJD") (bstr "QUJD\n") ∧ Decode (bstr "QUJD\n") = .ok (bstr "ABC") :=
  ⟨.keep _ (.keep _ (.keep _ (.keep _ (.blank _ (.inr (.inr rfl)) .nil)))), by decide +kernel⟩

end Verif.Props
