import Lean.Elab.Tactic.Basic

/-! `kernel_rfl` closes a goal `a = b` with `Eq.refl a` and leaves it to the kernel to compute that both sides are the same. -/

namespace Asn1go.Tests

open Lean Elab Tactic in
/-- Closes `a = b` with `Eq.refl a`, unchecked by the elaborator; the kernel checks it with the declaration. -/
elab "kernel_rfl" : tactic => do
  let goal ← getMainGoal
  let some (type, lhs, _) := (← instantiateMVars (← goal.getType)).eq? | throwError "not an equation"
  goal.assign (mkApp2 (mkConst ``Eq.refl [← Meta.getLevel type]) type lhs)
  replaceMainGoal []

end Asn1go.Tests
