import Verif.Spec.KeySet
/-
Specification for C95: what is left of a key set when one version is gone.
-/
namespace Verif.Spec

/-- the key set without the version `lost` (if any) -/
def KeySet.without (ks : KeySet) (lost : Option Int) : KeySet :=
  { ks with entries := ks.entries.filter fun e => some e.num ≠ lost }

end Verif.Spec
