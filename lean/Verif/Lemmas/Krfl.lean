import Lean.Elab.Tactic.Basic
import Lean.Meta.AppBuilder
/-!
A tactic that closes an equation by `Eq.refl` and leaves it to the kernel to check that both sides compute to the same.
-/
namespace Funge
open Lean Elab Tactic Meta

/-- `Eq.refl`, checked by the kernel only: the elaborator would take too long over the computation. -/
elab "krfl" : tactic => do
  let g ← getMainGoal
  match (← instantiateMVars (← g.getType)).consumeMData.eq? with
  | some (_, a, _) => g.assign (← mkEqRefl a)
  | none => throwError "not an equation"

end Funge
