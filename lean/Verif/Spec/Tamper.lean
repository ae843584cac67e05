import Verif.Spec.Json
import Verif.Spec.Faults
import Verif.Spec.KeyId
import Verif.Model.Keyczar
/-
Independent specification for C92: what the files in the directory of a key set say, and what it means that a file holds a
key sealed with another key set.
-/
namespace Verif.Spec
open Verif

/-- the text is a metadata document that says `v`; of several records with the same number the first counts -/
def MetaText (text : Bytes) (v : KeySet.View) : Prop :=
  ∃ j w, Says text j ∧ MetaAccepts j w ∧ v = { w with versions := firstOfEach w.versions }

/-- the text is the document of the key `k` of type `t`, and the key has an identifier -/
def KeyText (H : Bytes → Bytes) (t : KeyType) (text : Bytes) (k : Key) : Prop :=
  (∃ j, Says text j ∧ KeySays j t k) ∧ ∃ id, KeyId H k id

/-- the crypter decrypts the file, written in Base64, to the document of the key -/
def SealedKey (P : Prims) (crypter : Czar) (t : KeyType) (file : Bytes) (k : Key) : Prop :=
  ∃ text, crypter.Decrypt P file (some Base64WSDecode) = .ok text ∧ KeyText P.sha1 t text k

end Verif.Spec
