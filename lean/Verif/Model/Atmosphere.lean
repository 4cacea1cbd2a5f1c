import Verif.Model.AtmTable

/-! # Standard atmosphere component and `Ambient` (US1976.py:68-113, ambient.py) -/

namespace PyCycle.Atm

/-- The interpolant of a column of the table (US1976.py:67-69). -/
noncomputable def interp (col : List ℚ) : Spline := tableSpline alt col (akimaSlopes alt col)

/-- Outputs of `USatm1976Comp` (US1976.py:83-86). -/
inductive O | Ts | Ps | rhos | drhos_dalt
  deriving DecidableEq

/-- `USatm1976Comp.compute` (US1976.py:93-98); `none` is the NaN scipy returns outside the table. -/
noncomputable def compute (a : ℝ) : O → Option ℝ
  | .Ts => (interp T).call (interp T).eval a
  | .Ps => (interp P).call (interp P).eval a
  | .rhos => (interp rho).call (interp rho).eval a
  | .drhos_dalt => (interp rho).call (interp rho).eval1 a

/-- `USatm1976Comp.compute_partials` (US1976.py:100-105), with respect to `alt`. -/
noncomputable def partials (a : ℝ) : O → Option ℝ
  | .Ts => (interp T).call (interp T).eval1 a
  | .Ps => (interp P).call (interp P).eval1 a
  | .rhos => (interp rho).call (interp rho).eval1 a
  | .drhos_dalt => (interp rho).call (interp rho).eval2 a

/-- `Ambient` (ambient.py:24-33): the tabulated pressure and density are promoted as they are, the
temperature goes through `DeltaTs` (ambient.py:5-21). -/
noncomputable def ambient (a dTs : ℝ) : O → Option ℝ
  | .Ts => (compute a .Ts).map (· + dTs)
  | .Ps => compute a .Ps
  | .rhos => compute a .rhos
  | .drhos_dalt => compute a .drhos_dalt

end PyCycle.Atm
