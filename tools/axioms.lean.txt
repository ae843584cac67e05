-- prints, for every theorem Cnn_... in Verif.Props, the axioms it depends on
-- usage: cp tools/axioms.lean.txt /tmp/axioms.lean; cd lean; lake env lean /tmp/axioms.lean
import Verif
open Lean

run_meta do
  let env ← getEnv
  let names := env.constants.fold (init := #[]) fun acc n ci =>
    match ci, n with
    | .thmInfo _, .str p s => if p == `Verif.Props && s.startsWith "C" && (s.toList[1]?.elim false Char.isDigit) then acc.push n else acc
    | _, _ => acc
  for n in names.qsort (fun a b => a.toString < b.toString) do
    let ax ← collectAxioms n
    let ax := (ax.map toString).qsort (· < ·)
    let .str _ s := n | continue
    IO.println s!"{s}: {", ".intercalate ax.toList}"
