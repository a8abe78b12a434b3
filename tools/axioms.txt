/- Prints, for every property theorem, the axioms it depends on.  Run in lean/:  lake env lean ../tools/axioms.txt -/
import Lean
import Verif
open Lean Elab Command
run_cmd do
  let env ← getEnv
  let mut out := #[]
  for (n, ci) in env.constants.map₁.toList do
    if (`OidcOp).isPrefixOf n && (ci matches .thmInfo _) then
      match n with
      | .str _ s =>
        if s.startsWith "C" && s.length > 4 && (s.toList[1]!).isDigit && (s.toList[2]!).isDigit && s.toList.contains '_' then
          let ax ← liftCoreM (collectAxioms n)
          out := out.push (s ++ " " ++ ", ".intercalate (ax.toList.map toString))
      | _ => pure ()
  for l in out.qsort (· < ·) do IO.println l
