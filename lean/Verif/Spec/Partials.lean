import Mathlib.Analysis.Calculus.Deriv.Basic

/-! # Specification: exact partial derivatives

OpenMDAO components declare, for every output (or residual) `o` and every variable `i`, a partial
derivative; pairs that are not declared are taken to be zero. The declaration is exact at a point
when each entry is the derivative of the output with respect to that one variable. -/

namespace PyCycle

/-- `J` is the exact Jacobian of `f` at `x`. -/
def ExactPartials {ι ω : Type} [DecidableEq ι] (f : (ι → ℝ) → ω → ℝ) (J : (ι → ℝ) → ω → ι → ℝ)
    (x : ι → ℝ) : Prop :=
  ∀ (o : ω) (i : ι), HasDerivAt (fun t => f (Function.update x i t) o) (J x o i) (x i)

end PyCycle
