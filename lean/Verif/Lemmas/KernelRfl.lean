import Lean.Elab.Tactic.Basic
/-
A tactic for equations that hold by computation, also if there are variables in them that the computation does not look at.
-/
open Lean Elab Tactic Meta in
/-- Closes `a = b` with `Eq.refl a`; that the two sides are the same is left to the kernel to check. -/
elab "kernel_rfl" : tactic => do
  let g ← getMainGoal
  let t ← instantiateMVars (← g.getType)
  match t.getAppFnArgs with
  | (``Eq, #[α, a, _]) => g.assign (mkApp2 (mkConst ``Eq.refl [← getLevel α]) α a)
  | _ => throwError "not an equation"
