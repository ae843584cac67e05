import Verif.Model.HarnessMain
import Verif.Spec.Harness
/-
The command line of interop.py as its usage text describes it, and the options there are for an operation (C99).
-/
namespace Verif.Spec
open Harness

/-- the two flags -/
inductive RunFlag where
  | create
  | verbose
deriving DecidableEq, Repr

/-- a flag on the command line -/
def RunFlag.text : RunFlag → Text → Text
  | .create, v => "--create=".toList ++ v
  | .verbose, v => "--verbose=".toList ++ v

/-- flags on the command line; the values have no equals sign -/
def FlagArgs (flags : List (RunFlag × Text)) (args : List Text) : Prop :=
  args = flags.map (fun p => p.1.text p.2) ∧ ∀ p ∈ flags, '=' ∉ p.2

/-- the value given last, or the default -/
def lastOf (flags : List (RunFlag × Text)) (f : RunFlag) (default : Text) : Text :=
  ((flags.filter fun p => p.1 = f).getLast?.map Prod.snd).getD default

/-- yes or no -/
def yn (b : Bool) : Text := if b then "y".toList else "n".toList

/-- `k` is a key set for the operation (for encryption also the public part) -/
def KeysetFor (cfg : Config) (op : Operation) (k : Keyset) : Prop :=
  ∃ a, (k.algorithm, a) ∈ cfg.algorithms ∧ a.purpose = op.keytype ∧ k.size ∈ a.keySizes ∧
    (k.purpose = a.purpose ∨ a.purpose = "crypt".toList ∧ a.asymmetric = true ∧ k.purpose = "encrypt".toList)

/-- some choice of options for making an output has the value `v` for the option `n` -/
def GenerateOption (cfg : Config) (op : Operation) (n v : Text) : Prop :=
  ∃ k o c, KeysetFor cfg op k ∧ (k.purpose, o) ∈ cfg.keySetOptions ∧ Choice cfg o.generateOptions op.generateOptions c ∧
    (n, v) ∈ c

/-- some choice of options for testing an output has the value `v` for the option `n` -/
def TestOption (cfg : Config) (op : Operation) (n v : Text) : Prop :=
  ∃ k p o c, KeysetFor cfg op k ∧ TestPurpose cfg k p ∧ (p, o) ∈ cfg.keySetOptions ∧
    Choice cfg o.testOptions op.testOptions c ∧ (n, v) ∈ c

/-- the table shows the value `v` for the option `n` of the operation `op` -/
def Shows (t : Table) (op n v : Text) : Prop := ∃ d vs, (op, d) ∈ t ∧ (n, vs) ∈ d ∧ v ∈ vs

/-- all calls of a list are answered -/
def Answered {α} (f : Nat → α → Py Bytes) (l : List α) : Prop := ∀ i a, l[i]? = some a → ∃ out, f i a = .ok out

end Verif.Spec
