import Lean.Elab.Tactic.Basic
import Lean.Meta.Tactic.Util

/-! # Reflexivity, left to the kernel

`krfl` closes `a = b` with `Eq.refl a` without comparing the two sides itself: the kernel does, when it checks the
declaration, and rejects the declaration if they are not equal by definition. It saves the elaborator's slow comparison
of the large tables of the examples. -/

open Lean Elab Tactic in
/-- Close `a = b` by `Eq.refl a`, to be checked by the kernel. -/
elab "krfl" : tactic => do
  let g ← getMainGoal
  let t ← instantiateMVars (← g.getType)
  let some (α, a, _) := t.consumeMData.eq? | throwError "krfl: not an equation"
  if t.hasExprMVar then throwError "krfl: metavariables"
  let u ← Meta.getLevel α
  g.assign (mkApp2 (mkConst ``Eq.refl [u]) α a)
  replaceMainGoal []
