import Mathlib.Analysis.Real.Pi.Bounds
import Mathlib.Data.List.OfFn

/-! # `Shaft` (pycycle/elements/shaft.py:6-134) -/

namespace PyCycle.Shaft

/-- Inputs (shaft.py:18-20, 35-37); `n` is the option `num_ports`. -/
inductive I (n : Nat) | Nmech | HPX | fracLoss | trq (k : Fin n)
  deriving DecidableEq

/-- Outputs (shaft.py:22-29). -/
inductive O | trq_in | trq_out | trq_net | pwr_in | pwr_in_real | pwr_out | pwr_out_real | pwr_net
  deriving DecidableEq

variable {n : Nat}

/-- `self.convert` (shaft.py:31-32). -/
noncomputable def convert : ℝ := 2 * Real.pi / 60 / 550

open Classical in
/-- One pass of the loop body (shaft.py:56-61, also 86-91): `(trq_in, trq_out)` accumulators. -/
noncomputable def step (acc : ℝ × ℝ) (trq : ℝ) : ℝ × ℝ :=
  if trq ≥ 0 then (acc.1 + trq, acc.2) else (acc.1, acc.2 + trq)

/-- The loop over `self.trq_vars` (shaft.py:53-61). -/
noncomputable def torques (x : I n → ℝ) : ℝ × ℝ :=
  (List.ofFn (fun k => x (.trq k))).foldl step (0, 0)

/-- `compute` (shaft.py:47-72). -/
noncomputable def compute (x : I n → ℝ) : O → ℝ :=
  let trq_in := (torques x).1
  let trq_out := (torques x).2
  let trq_net := trq_in * (1 - x .fracLoss) + trq_out - x .HPX / (x .Nmech * convert)
  fun
  | .trq_net => trq_net
  | .trq_in => trq_in
  | .trq_out => trq_out
  | .pwr_in => trq_in * x .Nmech * convert
  | .pwr_out => trq_out * x .Nmech * convert
  | .pwr_net => trq_net * x .Nmech * convert
  | .pwr_in_real => trq_in * (1 - x .fracLoss) * x .Nmech * convert
  | .pwr_out_real => trq_out * x .Nmech * convert - x .HPX

open Classical in
/-- `compute_partials` (shaft.py:74-134); declared but unset entries are zero. -/
noncomputable def J (x : I n → ℝ) : O → I n → ℝ :=
  let trq_in := (torques x).1
  let trq_out := (torques x).2
  fun
  | .trq_net, .Nmech => x .HPX * x .Nmech ^ (-2 : ℤ) / convert
  | .trq_net, .HPX => -1 / (x .Nmech * convert)
  | .trq_net, .fracLoss => -trq_in
  | .pwr_in, .Nmech => trq_in * convert
  | .pwr_out, .Nmech => trq_out * convert
  | .pwr_in_real, .Nmech => trq_in * convert * (1 - x .fracLoss)
  | .pwr_in_real, .fracLoss => -trq_in * convert * x .Nmech
  | .pwr_out_real, .Nmech => trq_out * convert
  | .pwr_out_real, .HPX => -1
  | .pwr_net, .Nmech => trq_in * (1 - x .fracLoss) * convert + trq_out * convert
  | .pwr_net, .HPX => -1
  | .pwr_net, .fracLoss => -trq_in * x .Nmech * convert
  | .trq_in, .trq k => if x (.trq k) ≥ 0 then 1 else 0
  | .trq_out, .trq k => if x (.trq k) ≥ 0 then 0 else 1
  | .trq_net, .trq k => if x (.trq k) ≥ 0 then 1 - x .fracLoss else 1
  | .pwr_in, .trq k => if x (.trq k) ≥ 0 then x .Nmech * convert else 0
  | .pwr_out, .trq k => if x (.trq k) ≥ 0 then 0 else x .Nmech * convert
  | .pwr_in_real, .trq k => if x (.trq k) ≥ 0 then x .Nmech * convert * (1 - x .fracLoss) else 0
  | .pwr_out_real, .trq k => if x (.trq k) ≥ 0 then 0 else x .Nmech * convert
  | .pwr_net, .trq k => if x (.trq k) ≥ 0 then x .Nmech * convert * (1 - x .fracLoss)
      else x .Nmech * convert
  | _, _ => 0

end PyCycle.Shaft
