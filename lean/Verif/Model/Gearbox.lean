import Mathlib.Data.Real.Basic

/-! # `Gearbox` (pycycle/elements/gearbox.py:4-90) -/

namespace PyCycle.Gear

/-- All variables, inputs and outputs (gearbox.py:15-33). `trq_base` is an input and `gear_ratio`
an output in design mode, and the other way round off-design. -/
inductive V | N_in | N_out | eff | trq_in | trq_out | trq_base | gear_ratio
  deriving DecidableEq

/-- The residuals. `state` belongs to the mode's third output: `gear_ratio` in design mode,
`trq_base` off-design. -/
inductive R | state | trq_in | trq_out
  deriving DecidableEq

/-- `solve_nonlinear` (gearbox.py:45-55): the new values of all variables. -/
noncomputable def solve (design : Bool) (x : V → ℝ) : V → ℝ :=
  if design then fun
    | .gear_ratio => x .N_out / x .N_in
    | .trq_in => -x .trq_base * x .eff * x .N_out / x .N_in
    | .trq_out => x .trq_base
    | v => x v
  else fun
    | .trq_in => -x .trq_base * x .eff * x .gear_ratio
    | .trq_out => x .trq_base
    | v => x v

/-- `apply_nonlinear` (gearbox.py:57-69). -/
noncomputable def resid (design : Bool) (x : V → ℝ) : R → ℝ
  | .state => if design then x .N_out / x .N_in - x .gear_ratio
      else x .N_out - x .N_in * x .gear_ratio
  | .trq_in => if design then -x .trq_base * x .eff * x .N_out / x .N_in - x .trq_in
      else -x .trq_base * x .eff * x .gear_ratio - x .trq_in
  | .trq_out => x .trq_base - x .trq_out

/-- `declare_partials` with values (27-42) and `linearize` (gearbox.py:71-90); zero where nothing
is declared. -/
noncomputable def J (design : Bool) (x : V → ℝ) : R → V → ℝ :=
  if design then fun
    | .state, .N_in => -x .N_out / x .N_in ^ 2
    | .state, .N_out => 1 / x .N_in
    | .state, .gear_ratio => -1
    | .trq_in, .trq_base => -x .eff * x .N_out / x .N_in
    | .trq_in, .eff => -x .trq_base * x .N_out / x .N_in
    | .trq_in, .N_in => x .trq_base * x .eff * x .N_out / x .N_in ^ 2
    | .trq_in, .N_out => -x .trq_base * x .eff / x .N_in
    | .trq_in, .trq_in => -1
    | .trq_out, .trq_base => 1
    | .trq_out, .trq_out => -1
    | _, _ => 0
  else fun
    | .state, .N_in => -x .gear_ratio
    | .state, .gear_ratio => -x .N_in
    | .state, .N_out => 1
    | .trq_in, .trq_base => -x .eff * x .gear_ratio
    | .trq_in, .eff => -x .trq_base * x .gear_ratio
    | .trq_in, .gear_ratio => -x .trq_base * x .eff
    | .trq_in, .trq_in => -1
    | .trq_out, .trq_base => 1
    | .trq_out, .trq_out => -1
    | _, _ => 0

end PyCycle.Gear
