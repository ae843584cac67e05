-- prints, for every theorem Cnn_... in Verif.Props, the constants of Verif it depends on
-- usage: cp tools/deps.lean.txt /tmp/deps.lean; cd lean; lake env lean /tmp/deps.lean
import Verif
open Lean

def inVerif (env : Environment) (n : Name) : Bool :=
  match env.getModuleIdxFor? n with
  | some i => (`Verif).isPrefixOf env.header.moduleNames[i.toNat]!
  | none => false

partial def visit (env : Environment) (n : Name) (seen : NameSet) : NameSet :=
  if seen.contains n || !inVerif env n then seen
  else
    let seen := seen.insert n
    match env.find? n with
    | none => seen
    | some ci =>
      let used := ci.type.getUsedConstants ++ (ci.value? (allowOpaque := true)).elim #[] Expr.getUsedConstants
      used.foldl (fun s m => visit env m s) seen

run_meta do
  let env ← getEnv
  let names := env.constants.fold (init := #[]) fun acc n ci =>
    match ci, n with
    | .thmInfo _, .str p s => if p == `Verif.Props && s.startsWith "C" && (s.toList[1]?.elim false Char.isDigit) then acc.push n else acc
    | _, _ => acc
  for n in names do
    let deps := (visit env n {}).toList.map toString
    IO.println s!"{n}\t{" ".intercalate deps}"
