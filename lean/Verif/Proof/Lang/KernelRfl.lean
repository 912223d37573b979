import Lean.Elab.Tactic

/-! # `rfl` by the kernel -/

namespace Verif.Lang

open Lean Elab Meta Tactic in
/-- `rfl`, with the check left to the kernel alone. -/
elab "kernel_rfl" : tactic => do
  let g ← getMainGoal
  let t ← instantiateMVars (← g.getType)
  let some (α, a, _) := t.consumeMData.eq? | throwError "not an equation"
  let u ← getLevel α
  g.assign (mkApp2 (mkConst ``Eq.refl [u]) α a)

end Verif.Lang
