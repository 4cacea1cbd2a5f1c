import Mathlib.Data.Real.Basic

/-! # Map scaling and stall margins (pycycle/elements/compressor_map.py, turbine_map.py) -/

namespace PyCycle.Map

/-! ## StallCalcs (compressor_map.py:8-49) -/

/-- Inputs of `StallCalcs` (compressor_map.py:13-18). -/
inductive SI | PR_SMN | PR_SMW | PR_actual | Wc_SMN | Wc_actual
  deriving DecidableEq
/-- Outputs of `StallCalcs` (compressor_map.py:20-21). -/
inductive SO | SMN | SMW
  deriving DecidableEq

/-- `StallCalcs.compute` (compressor_map.py:26-29). -/
noncomputable def stall (x : SI → ℝ) : SO → ℝ
  | .SMN => ((x .Wc_actual / x .Wc_SMN) / (x .PR_actual / x .PR_SMN) - 1) * 100
  | .SMW => (x .PR_SMW - x .PR_actual) / x .PR_actual * 100

/-- `StallCalcs.compute_partials` (compressor_map.py:31-49). -/
noncomputable def stallJ (x : SI → ℝ) : SO → SI → ℝ
  | .SMN, .PR_SMN => (100 * x .Wc_actual / x .Wc_SMN) / x .PR_actual
  | .SMN, .PR_actual => -(100 * x .Wc_actual / x .Wc_SMN) * x .PR_SMN / x .PR_actual ^ 2
  | .SMN, .Wc_SMN => -x .Wc_actual / x .Wc_SMN ^ 2 * (100 * x .PR_SMN / x .PR_actual)
  | .SMN, .Wc_actual => (100 * x .PR_SMN / x .PR_actual) / x .Wc_SMN
  | .SMW, .PR_SMW => 100 / x .PR_actual
  | .SMW, .PR_actual => -100 * x .PR_SMW / x .PR_actual ^ 2
  | _, _ => 0

/-! ## MapScalars and ScaledMapValues

The compressor's quantities are `Nc`, `PR`, `eff`, `Wc`; the turbine's `Np`, `PR`, `eff`, `Wp`. The two
`compute` methods are the same up to those names; the `compute_partials` are written differently. -/

/-- The four scaled quantities: speed, pressure ratio, efficiency, flow. -/
inductive Q | N | PR | eff | W
  deriving DecidableEq

/-- Inputs of `MapScalars`: machine value and map value of each quantity
(compressor_map.py:58-74, turbine_map.py:9-26). -/
inductive MI | val (q : Q) | map (q : Q)
  deriving DecidableEq

/-- `MapScalars.compute` (compressor_map.py:89-93, turbine_map.py:42-46). -/
noncomputable def scalars (x : MI → ℝ) : Q → ℝ
  | .N => x (.val .N) / x (.map .N)
  | .PR => (x (.val .PR) - 1) / (x (.map .PR) - 1)
  | .eff => x (.val .eff) / x (.map .eff)
  | .W => x (.val .W) / x (.map .W)

/-- Compressor `MapScalars.compute_partials` (compressor_map.py:95-103). -/
noncomputable def scalarsJC (x : MI → ℝ) : Q → MI → ℝ
  | .N, .val .N => 1 / x (.map .N)
  | .N, .map .N => -x (.val .N) / x (.map .N) ^ 2
  | .PR, .val .PR => 1 / (x (.map .PR) - 1)
  | .PR, .map .PR => -(x (.val .PR) - 1) / (x (.map .PR) - 1) ^ 2
  | .eff, .val .eff => 1 / x (.map .eff)
  | .eff, .map .eff => -x (.val .eff) * x (.map .eff) ^ (-2 : ℤ)
  | .W, .val .W => 1 / x (.map .W)
  | .W, .map .W => -x (.val .W) * x (.map .W) ^ (-2 : ℤ)
  | _, _ => 0

/-- Turbine `MapScalars.compute_partials` (turbine_map.py:48-56). -/
noncomputable def scalarsJT (x : MI → ℝ) : Q → MI → ℝ
  | .eff, .val .eff => 1 / x (.map .eff)
  | .eff, .map .eff => -x (.val .eff) / x (.map .eff) ^ 2
  | .N, .val .N => 1 / x (.map .N)
  | .N, .map .N => -x (.val .N) / x (.map .N) ^ 2
  | .PR, .val .PR => 1 / (x (.map .PR) - 1)
  | .PR, .map .PR => (1 - x (.val .PR)) / (x (.map .PR) - 1) ^ 2
  | .W, .val .W => 1 / x (.map .W)
  | .W, .map .W => -x (.val .W) / x (.map .W) ^ 2
  | _, _ => 0

/-- Inputs of `ScaledMapValues` (compressor_map.py:112-127, turbine_map.py:62-75). -/
inductive VI | map (q : Q) | s (q : Q)
  deriving DecidableEq

/-- `ScaledMapValues.compute` (compressor_map.py:142-146, turbine_map.py:87-91). The bound
`lower=1.00001` on the compressor's `PR` (compressor_map.py:129) only affects the Newton line search
and is not modelled. -/
def scaled (x : VI → ℝ) : Q → ℝ
  | .PR => (x (.map .PR) - 1) * x (.s .PR) + 1
  | .eff => x (.map .eff) * x (.s .eff)
  | .W => x (.map .W) * x (.s .W)
  | .N => x (.map .N) * x (.s .N)

/-- `ScaledMapValues.compute_partials` (compressor_map.py:148-156, turbine_map.py:93-101). -/
def scaledJ (x : VI → ℝ) : Q → VI → ℝ
  | .PR, .map .PR => x (.s .PR)
  | .PR, .s .PR => x (.map .PR) - 1
  | .eff, .map .eff => x (.s .eff)
  | .eff, .s .eff => x (.map .eff)
  | .W, .map .W => x (.s .W)
  | .W, .s .W => x (.map .W)
  | .N, .map .N => x (.s .N)
  | .N, .s .N => x (.map .N)
  | _, _ => 0

/-! ## CompressorMap (compressor_map.py:159-257)

The interpolated tables are arbitrary functions of the map coordinates. -/

/-- A compressor map: `PRmap`, `effMap`, `WcMap` as functions of `alphaMap`, `NcMap`, `RlineMap`, and
the stall line (compressor_map.py:175-183, 221-223). -/
structure CMap where
  PR : ℝ → ℝ → ℝ → ℝ
  eff : ℝ → ℝ → ℝ → ℝ
  W : ℝ → ℝ → ℝ → ℝ
  RlineStall : ℝ

/-- Values of the unscaled map at a point (compressor_map.py:193-194, 204-205): `NcMap` is the
coordinate itself. -/
def CMap.at (m : CMap) (alpha N R : ℝ) : Q → ℝ
  | .N => N
  | .PR => m.PR alpha N R
  | .eff => m.eff alpha N R
  | .W => m.W alpha N R

/-- The design-mode scalars (compressor_map.py:186-199): machine values `des`, map point `(N, R)`. -/
noncomputable def CMap.design (m : CMap) (alpha N R : ℝ) (des : Q → ℝ) : Q → ℝ :=
  scalars fun | .val q => des q | .map q => m.at alpha N R q

/-- The scaled outputs in off-design mode (compressor_map.py:208-210). -/
def CMap.offDesign (m : CMap) (s : Q → ℝ) (alpha N R : ℝ) : Q → ℝ :=
  scaled fun | .map q => m.at alpha N R q | .s q => s q

/-- Residuals of `map_bal` in off-design mode (compressor_map.py:213-221): the unknowns `NcMap`,
`RlineMap` are driven so that the incoming `Nc`, `Wc` equal the scaled map values. (`BalanceComp`
multiplies the difference by a positive normalisation, left out.) -/
def CMap.residual (m : CMap) (s : Q → ℝ) (alpha Nc Wc N R : ℝ) : ℝ × ℝ :=
  (Nc - m.offDesign s alpha N R .N, Wc - m.offDesign s alpha N R .W)

/-- The stall margins of the group (compressor_map.py:224-257) at map point `(N, R)`; `NSMW` is the
state of `SMW_bal`. All values are unscaled map values. -/
noncomputable def CMap.margins (m : CMap) (alpha N R NSMW : ℝ) : SO → ℝ :=
  stall fun
    | .PR_SMN => m.PR alpha N m.RlineStall
    | .PR_SMW => m.PR alpha NSMW m.RlineStall
    | .PR_actual => m.PR alpha N R
    | .Wc_SMN => m.W alpha N m.RlineStall
    | .Wc_actual => m.W alpha N R

/-- Residual of `SMW_bal` (compressor_map.py:243-248). -/
def CMap.smwResidual (m : CMap) (alpha N R NSMW : ℝ) : ℝ :=
  m.W alpha N R - m.W alpha NSMW m.RlineStall

/-! ## TurbineMap (turbine_map.py:104-161) -/

/-- A turbine map: `effMap`, `WpMap` as functions of `alphaMap`, `NpMap`, `PRmap`. -/
structure TMap where
  eff : ℝ → ℝ → ℝ → ℝ
  W : ℝ → ℝ → ℝ → ℝ

/-- Unscaled map values (turbine_map.py:139-140, 149-150): speed and pressure ratio are coordinates. -/
def TMap.at (m : TMap) (alpha N PR : ℝ) : Q → ℝ
  | .N => N
  | .PR => PR
  | .eff => m.eff alpha N PR
  | .W => m.W alpha N PR

/-- Design-mode scalars (turbine_map.py:132-146). -/
noncomputable def TMap.design (m : TMap) (alpha N PR : ℝ) (des : Q → ℝ) : Q → ℝ :=
  scalars fun | .val q => des q | .map q => m.at alpha N PR q

/-- Off-design outputs (turbine_map.py:153-155). -/
def TMap.offDesign (m : TMap) (s : Q → ℝ) (alpha N PR : ℝ) : Q → ℝ :=
  scaled fun | .map q => m.at alpha N PR q | .s q => s q

/-- Residuals of `map_bal` (turbine_map.py:158-166). -/
def TMap.residual (m : TMap) (s : Q → ℝ) (alpha Np Wp N PR : ℝ) : ℝ × ℝ :=
  (Np - m.offDesign s alpha N PR .N, Wp - m.offDesign s alpha N PR .W)

/-- The bounds `map_bal` declares for its states (turbine_map.py:159-161). -/
def TMap.inBounds (N PR : ℝ) : Prop := 0.1 ≤ N ∧ N ≤ 200 ∧ 1.01 ≤ PR

end PyCycle.Map
