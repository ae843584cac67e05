import Verif.Model.Harness
/-
interop/interop.py: the command line, the exit status, and the display of the options.

Simplifications, beyond those of Model/Harness: a set is a list without repetitions; what is printed is left out, except
the tables of `DisplayOptions` and the results of the tests.
-/
namespace Verif.Harness

/-- `s.split("=")` -/
def splitEq : Text → List Text
  | [] => [[]]
  | c :: t =>
    if c = '=' then [] :: splitEq t
    else match splitEq t with
      | [] => [[c]]
      | h :: r => (c :: h) :: r

/-- what `main` sets out to do -/
inductive Action where
  | usage
  | display
  | options
  | run (create verbose : Bool)
deriving DecidableEq, Repr

/-- interop.py:540-566 `main`: the loop over the arguments, with the flags so far, and the test after it -/
def mainFrom : (create verbose : Text) → List Text → Action
  | create, verbose, [] =>
    if create ∉ ["y".toList, "n".toList] ∨ verbose ∉ ["y".toList, "n".toList] then .usage
    else .run (decide (create = "y".toList)) (decide (verbose = "y".toList))
  | create, verbose, arg :: rest =>
    if arg = "display".toList then .display
    else if arg = "options".toList then .options
    else if "--".toList.isPrefixOf arg then
      let arg := arg.drop 2
      if arg = "help".toList ∨ arg = "h".toList then .usage
      else match splitEq arg with
        | [flag, val] =>
          if flag = "create".toList then mainFrom val verbose rest
          else if flag = "verbose".toList then mainFrom create val rest
          else .usage
        | _ => .usage
    else .usage

/-- interop.py:538-539 -/
def parseArgs (argv : List Text) : Action := mainFrom "y".toList "n".toList argv

/-- a table printed by `DisplayOptions`: for each operation, for each option, the values -/
abbrev Table := List (Text × List (Text × List Text))

/-- interop.py:489-491: one option of a choice is entered in the dict of an operation -/
def addValue (d : List (Text × List Text)) (o : Text × Text) : List (Text × List Text) :=
  assocSet d o.1 (((d.lookup o.1).getD []).insert o.2)

/-- interop.py:487-491 -/
def addChoices (d : List (Text × List Text)) (l : List Options) : List (Text × List Text) :=
  l.foldl (fun d o => o.foldl addValue d) d

variable (cfg : Config)

/-- interop.py:473-514 `DisplayOptions`: the tables for the generate options and the test options.  The entries for an
operation are made while it is visited, and an operation is visited once. -/
def DisplayOptions : Py (Table × Table) := do
  let rows ← collect (fun operation => do
    let parts ← collect (fun keyset => do
      let generate ← OptionsOf cfg operation.2 keyset .generateOptions
      let test ← collect (fun testKeyset => OptionsOf cfg operation.2 testKeyset .testOptions)
        (← GetTestKeysets cfg keyset)
      return [(generate, test)]) (GetGenerateKeysets cfg operation.2.keytype)
    if parts = [] then return []
    else return [(operation.1, addChoices [] (parts.flatMap Prod.fst), addChoices [] (parts.flatMap Prod.snd))])
    cfg.operations
  return (rows.map fun r => (r.1, r.2.1), rows.map fun r => (r.1, r.2.2))

/-- the calls of `CreateKeys`, each with the directories made before it; `create n c` is what call number `n` answers -/
def callAll (create : Nat → Creation → Py Bytes) : Nat → List Creation → Py Unit
  | _, [] => .ok ()
  | n, c :: rest => do
    let _ ← create n c
    callAll create (n + 1) rest

/-- how the program ends: the exit status, and the tests run with what they said -/
structure Ending where
  status : Nat
  results : List (Text × Bool)
deriving DecidableEq, Repr

/-- interop.py:538-581 `main` and `sys.exit`: the status is 1 for `Usage()` and for an exception, 0 for None.  `RunTests`
(520-522) does not look at the result of the runner; `test t` tells whether the test `t` passes. -/
def program (create : Nat → Creation → Py Bytes) (generate : Nat → Planned → Py Bytes) (test : Test → Bool)
    (argv : List Text) : Ending :=
  match parseArgs argv with
  | .usage => ⟨1, []⟩
  | .display => match DisplayTests cfg with
    | .ok _ => ⟨0, []⟩
    | .error _ => ⟨1, []⟩
  | .options => match DisplayOptions cfg with
    | .ok _ => ⟨0, []⟩
    | .error _ => ⟨1, []⟩
  | .run doCreate _ =>
    match (if doCreate then callAll create 0 (CreateKeys cfg) else .ok ()) with
    | .error _ => ⟨1, []⟩
    | .ok _ => match RunTests cfg generate with
      | .error _ => ⟨1, []⟩
      | .ok ts => ⟨0, ts.map fun t => (t.1, test t.2)⟩

end Verif.Harness
