import Mathlib.Data.Real.Basic
import Mathlib.Data.List.OfFn

/-! # `BPRcalc` (pycycle/elements/splitter.py:12-38) and `BleedCalcs`
(pycycle/elements/bleed_out.py:14-52) -/

namespace PyCycle.Split

/-- Inputs of `BPRcalc` (splitter.py:17-18). -/
inductive I | W_in | BPR
  deriving DecidableEq
/-- Outputs of `BPRcalc` (splitter.py:20-21). -/
inductive O | W1 | W2
  deriving DecidableEq

/-- `BPRcalc.compute` (splitter.py:26-29). -/
noncomputable def compute (x : I → ℝ) : O → ℝ
  | .W1 => x .W_in / (x .BPR + 1)
  | .W2 => x .W_in - x .W_in / (x .BPR + 1)

/-- `BPRcalc.compute_partials` (splitter.py:31-38). -/
noncomputable def J (x : I → ℝ) : O → I → ℝ
  | .W1, .BPR => -x .W_in / (x .BPR + 1) ^ 2
  | .W1, .W_in => 1 / (x .BPR + 1)
  | .W2, .BPR => x .W_in / (x .BPR + 1) ^ 2
  | .W2, .W_in => 1 - 1 / (x .BPR + 1)

end PyCycle.Split

namespace PyCycle.Bleed

/-- Inputs of `BleedCalcs` (bleed_out.py:20, 25), `n` bleed names. -/
inductive I (n : Nat) | W_in | frac (k : Fin n)
  deriving DecidableEq
/-- Outputs of `BleedCalcs` (bleed_out.py:21, 26). -/
inductive O (n : Nat) | W_out | W (k : Fin n)
  deriving DecidableEq
variable {n : Nat}

/-- The loop of `compute` (bleed_out.py:35-40): `W_out` starts at `W_in` and each bleed flow,
`W_in * frac_W`, is subtracted. -/
noncomputable def wOut (x : I n → ℝ) : ℝ :=
  (List.ofFn (fun k => x .W_in * x (.frac k))).foldl (· - ·) (x .W_in)

/-- `BleedCalcs.compute` (bleed_out.py:32-40). -/
noncomputable def compute (x : I n → ℝ) : O n → ℝ
  | .W_out => wOut x
  | .W k => x .W_in * x (.frac k)

/-- `BleedCalcs.compute_partials` (bleed_out.py:42-52); a bleed's row is declared against `W_in`
and its own fraction only (28). -/
noncomputable def J (x : I n → ℝ) : O n → I n → ℝ
  | .W_out, .W_in => (List.ofFn (fun k => x (.frac k))).foldl (· - ·) 1
  | .W_out, .frac _ => -x .W_in
  | .W k, .W_in => x (.frac k)
  | .W k, .frac j => if k = j then x .W_in else 0

end PyCycle.Bleed
