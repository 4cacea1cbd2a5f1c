import Mathlib.Data.Real.Basic
import Mathlib.Data.List.OfFn

/-! # `Performance` (pycycle/elements/performance.py:4-101) -/

namespace PyCycle.Perf

/-- Inputs (performance.py:14-32); `n` = `num_nozzles`, `m` = `num_burners`. -/
inductive I (n m : Nat) | Pt2 | Pt3 | ram_drag | power | Fg (k : Fin n) | Wfuel (k : Fin m)
  deriving DecidableEq

/-- Outputs (performance.py:35-37, 45-47). -/
inductive O | OPR | Fg | Fn | TSFC | PSFC | Wfuel
  deriving DecidableEq

variable {n m : Nat}

/-- The outputs that exist (performance.py:35-37, 44-47). -/
def declared (m : Nat) : List O :=
  [.OPR, .Fg, .Fn] ++ (if m > 0 then [.TSFC, .PSFC, .Wfuel] else [])

/-- The `for` loops accumulating a sum from `0.0` (performance.py:59-61, 66-68). -/
noncomputable def accum {k : Nat} (v : Fin k → ℝ) : ℝ := (List.ofFn v).foldl (· + ·) 0

/-- `compute` (performance.py:55-72). Meaningful for the declared outputs. -/
noncomputable def compute (x : I n m → ℝ) : O → ℝ :=
  let fg := accum (fun k => x (.Fg k))
  let fn := fg - x .ram_drag
  let wfuel := accum (fun k => x (.Wfuel k))
  fun
  | .OPR => x .Pt3 / x .Pt2
  | .Fg => fg
  | .Fn => fn
  | .Wfuel => wfuel
  | .TSFC => wfuel * 3600 / (fn + 1e-10)
  | .PSFC => wfuel * 3600 / x .power

/-- `declare_partials` (performance.py:39-52) and `compute_partials` (74-101). -/
noncomputable def J (x : I n m → ℝ) : O → I n m → ℝ :=
  let wfuel := accum (fun k => x (.Wfuel k))
  let fn := accum (fun k => x (.Fg k)) - x .ram_drag
  fun
  | .OPR, .Pt3 => 1 / x .Pt2
  | .OPR, .Pt2 => -x .Pt3 / x .Pt2 ^ 2
  | .Fg, .Fg _ => 1
  | .Fn, .Fg _ => 1
  | .Fn, .ram_drag => -1
  | .Wfuel, .Wfuel _ => 1
  | .TSFC, .Fg _ => -3600 * wfuel / fn ^ 2
  | .TSFC, .Wfuel _ => 3600 / fn
  | .PSFC, .Wfuel _ => 3600 / x .power
  | .TSFC, .ram_drag => 3600 * wfuel / fn ^ 2
  | .PSFC, .power => -3600 * wfuel / x .power ^ 2
  | _, _ => 0

end PyCycle.Perf
