import Verif.Model.Mock
import Verif.Lemmas.History
/-
When a directory is the image of a mock key set.
-/
namespace Verif.Spec
open Verif

/-- the directory has exactly the key files of the dictionary -/
def SameKeys (keys : List (Int × Key)) (d : Dir) : Prop :=
  ∀ n, match assocGet keys n with
    | none => d (.key n) = none
    | some k => ∃ text, k.str = .ok text ∧ d (.key n) = some text

/-- the metadata file is the text of the metadata -/
def SameMeta (h : Heap) (kmd : KeyMetadata) (d : Dir) : Prop :=
  ∃ text, kmd.str h = .ok text ∧ d .metaFile = some text

/-- the mock is not marked as encrypted, holds values that JSON can carry, and lists versions under their numbers -/
structure PlainMock (m : Mock) : Prop where
  plain : m.kmd.encrypted = .bool false
  name : m.kmd.name.WF
  exportable : ∀ p ∈ m.kmd.versions, (m.heap.obj p.2).exportable.WF
  num : ∀ p ∈ m.kmd.versions, (m.heap.obj p.2).num = p.1
  nodup : (m.kmd.versions.map Prod.fst).Nodup
  allocated : ∀ p ∈ m.kmd.versions, p.2 < m.heap.next

/-- the directory is the image of the mock -/
structure Mirrors (m : Mock) (d : Dir) : Prop where
  ok : PlainMock m
  same_meta : SameMeta m.heap m.kmd d
  same_keys : SameKeys m.keys d

/-- the directory is the image of what the mock has as exported key set -/
structure MirrorsPublic (m : Mock) (d : Dir) : Prop where
  same_keys : SameKeys m.pubkeys d
  same_meta : match m.pubkmd with
    | none => d .metaFile = none
    | some hk => SameMeta hk.1 hk.2 d

/-- the command as the unit tests run it -/
def mockRun (P : Prims) : KCmd → MockCmd
  | .create _ name purpose asym => mockCreate name purpose asym
  | .addkey env _ status cr size => mockAddKey P env status cr size
  | .pubkey env _ _ => mockPubKey P env
  | .promote env _ n => mockPromote P env n
  | .demote env _ n => mockDemote P env n
  | .revoke env _ n => mockRevoke P env n

/-- a command on the unencrypted key set at `l` that does not start a new one; exports go to `dest` -/
def PlainCmd (l dest : Loc) : KCmd → Prop
  | .create _ _ _ _ => False
  | .addkey _ loc _ cr _ => loc = some l ∧ cr = none
  | .pubkey _ loc d => loc = some l ∧ d = some dest
  | .promote _ loc _ => loc = some l
  | .demote _ loc _ => loc = some l
  | .revoke _ loc _ => loc = some l

/-- the outcomes of a sequence of commands on the disk -/
def diskOutcomes (P : Prims) : List KCmd → FS → List (Py Unit)
  | [], _ => []
  | k :: t, fs => (k.run P fs).1 :: diskOutcomes P t ((k.run P).after fs)

/-- the outcomes of a sequence of commands on the mock, and the mock afterwards -/
def mockOutcomes (P : Prims) : List KCmd → Mock → List (Py Unit) × Mock
  | [], m => ([], m)
  | k :: t, m => ((mockRun P k m).1 :: (mockOutcomes P t (mockRun P k m).2).1, (mockOutcomes P t (mockRun P k m).2).2)

end Verif.Spec
