import Verif.Model.Akima

/-! # Small-core efficiency balance (example_cycles/N+3ref/small_core_eff_balance.py) -/

namespace PyCycle.SmallCore

/-- Core sizes of the small-engine tables (small_core_eff_balance.py:8). -/
def WcSE : List ℚ := [0, 0.205, 0.63, 1.0, 1.5, 2, 2.5, 3, 4, 5, 30, 200]
/-- Technology level 0 (small_core_eff_balance.py:10). -/
def SE0 : List ℚ :=
  [0, 0.82, 0.86, 0.871, 0.881, 0.885, 0.8875, 0.889, 0.892, 0.894, 0.895, 0.895]
/-- Technology level 1 (small_core_eff_balance.py:12). -/
def SE1 : List ℚ :=
  [0, 0.84, 0.88, 0.891, 0.901, 0.905, 0.9075, 0.909, 0.912, 0.914, 0.915, 0.915]
/-- Technology level 2 (small_core_eff_balance.py:14). -/
def SE2 : List ℚ :=
  [0, 0.855, 0.900, 0.912, 0.917, 0.920, 0.922, 0.9235, 0.926, 0.930, 0.931, 0.931]

/-- Option `tech_level` (small_core_eff_balance.py:30). -/
inductive Tech | t0 | t1 | t2
  deriving DecidableEq
/-- Option `eng_type` (small_core_eff_balance.py:32). -/
inductive Eng | large | small
  deriving DecidableEq

/-- Table of a technology level. -/
def table : Tech → List ℚ
  | .t0 => SE0
  | .t1 => SE1
  | .t2 => SE2

/-- The interpolants (small_core_eff_balance.py:17-24). -/
noncomputable def interp (t : Tech) : Spline := tableSpline WcSE (table t) (akimaSlopes WcSE (table t))

/-- Where the large-engine schedule switches (small_core_eff_balance.py:56, 82). -/
noncomputable def breakCS : ℝ := 5.30218862

/-- The large-engine polynomial (small_core_eff_balance.py:57). -/
noncomputable def poly (CS : ℝ) : ℝ :=
  -9.025e-4 * CS ^ 4 + 0.01816 * CS ^ 3 - 0.1363 * CS ^ 2 + 0.4549 * CS + 0.33620

open Classical in
/-- `EtaPoly_Calc` in `apply_nonlinear` (small_core_eff_balance.py:48-63). Outside the small-engine
table the code gets NaN; the model extends the end pieces there and the theorems stay inside. -/
noncomputable def etaCalc (e : Eng) (t : Tech) (CS : ℝ) : ℝ :=
  match e with
  | .small => (interp t).eval CS
  | .large =>
    let v := if CS < breakCS then poly CS else 0.91
    match t with
    | .t0 => v
    | .t1 => v + 0.02
    | .t2 => v + 0.04

/-- `residuals['eta_a']` (small_core_eff_balance.py:64-67); `eta_a` itself does not enter. -/
noncomputable def residual (e : Eng) (t : Tech) (CS eta_p _eta_a : ℝ) : ℝ := eta_p - etaCalc e t CS

open Classical in
/-- `J['eta_a', 'CS']` (small_core_eff_balance.py:69-87). -/
noncomputable def J_CS (e : Eng) (t : Tech) (CS : ℝ) : ℝ :=
  match e with
  | .small => -(interp t).eval1 CS
  | .large =>
    if CS < breakCS then -(-0.00361 * CS ^ 3 + 0.05448 * CS ^ 2 - 0.2726 * CS + 0.4549) else -0

/-- `J['eta_a', 'eta_p']` (small_core_eff_balance.py:88). -/
def J_eta_p : ℝ := 1

end PyCycle.SmallCore
