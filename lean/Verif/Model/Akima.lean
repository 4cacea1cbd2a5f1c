import Mathlib.Data.Real.Basic
import Mathlib.Data.Nat.Find
import Mathlib.Data.Rat.Cast.Order

/-! # Piecewise cubic interpolation as used by the tables

`US1976.py` and `small_core_eff_balance.py` build `scipy.interpolate.Akima1DInterpolator` objects and
their derivatives. scipy is a dependency, not part of the repository; its algorithm (slopes by Akima's
rule, then `CubicHermiteSpline`, evaluation on `[x_i, x_{i+1})` with the last interval closed, NaN
outside the table) is written down here. The theorems about the interpolants are stated for *any*
slopes wherever possible, so they do not depend on the slope rule. -/

namespace PyCycle

/-- Nodes, values and slopes of a piecewise cubic with `n` intervals. -/
structure Spline where
  n : ℕ
  x : ℕ → ℝ
  y : ℕ → ℝ
  d : ℕ → ℝ

namespace Spline

/-- Secant slope of interval `i`. -/
noncomputable def sec (S : Spline) (i : ℕ) : ℝ := (S.y (i + 1) - S.y i) / (S.x (i + 1) - S.x i)

/-- Cubic and quadratic coefficients of interval `i` (scipy `CubicHermiteSpline`). -/
noncomputable def c3 (S : Spline) (i : ℕ) : ℝ :=
  (S.d i + S.d (i + 1) - 2 * S.sec i) / (S.x (i + 1) - S.x i) / (S.x (i + 1) - S.x i)
/-- See `c3`. -/
noncomputable def c2 (S : Spline) (i : ℕ) : ℝ :=
  (S.sec i - S.d i) / (S.x (i + 1) - S.x i)
    - (S.d i + S.d (i + 1) - 2 * S.sec i) / (S.x (i + 1) - S.x i)

/-- The polynomial of interval `i`, its first and second derivative (`PPoly.derivative`). -/
noncomputable def piece (S : Spline) (i : ℕ) (X : ℝ) : ℝ :=
  S.c3 i * (X - S.x i) ^ 3 + S.c2 i * (X - S.x i) ^ 2 + S.d i * (X - S.x i) + S.y i
/-- See `piece`. -/
noncomputable def piece1 (S : Spline) (i : ℕ) (X : ℝ) : ℝ :=
  3 * S.c3 i * (X - S.x i) ^ 2 + 2 * S.c2 i * (X - S.x i) + S.d i
/-- See `piece`. -/
noncomputable def piece2 (S : Spline) (i : ℕ) (X : ℝ) : ℝ :=
  6 * S.c3 i * (X - S.x i) + 2 * S.c2 i

open Classical in
/-- The interval used at `X`: the last one starting at or before `X`. -/
noncomputable def idx (S : Spline) (X : ℝ) : ℕ := Nat.findGreatest (fun i => S.x i ≤ X) (S.n - 1)

/-- The interpolant and its derivatives, on the table. -/
noncomputable def eval (S : Spline) (X : ℝ) : ℝ := S.piece (S.idx X) X
/-- See `eval`. -/
noncomputable def eval1 (S : Spline) (X : ℝ) : ℝ := S.piece1 (S.idx X) X
/-- See `eval`. -/
noncomputable def eval2 (S : Spline) (X : ℝ) : ℝ := S.piece2 (S.idx X) X

open Classical in
/-- What a call returns: nothing (NaN) outside the table. -/
noncomputable def call (S : Spline) (f : ℝ → ℝ) (X : ℝ) : Option ℝ :=
  if S.x 0 ≤ X ∧ X ≤ S.x S.n then some (f X) else none

end Spline

/-! ## Akima slopes on rational tables -/

/-- Secant slopes. -/
def secants : List ℚ → List ℚ → List ℚ
  | x :: x' :: xs, y :: y' :: ys => (y' - y) / (x' - x) :: secants (x' :: xs) (y' :: ys)
  | _, _ => []

/-- Secants extended by two on each side. -/
def akimaM (xs ys : List ℚ) : List ℚ :=
  let mm := secants xs ys
  let k := mm.length
  let g := fun i => mm.getD i 0
  let a := 2 * g 0 - g 1
  let b := 2 * g (k - 1) - g (k - 2)
  (2 * a - g 0) :: a :: mm ++ [b, 2 * b - g (k - 1)]

/-- The sum of the two weights at a node, from the four neighbouring secants. -/
def akimaW (a b c e : ℚ) : ℚ := |b - a| + |e - c|

/-- Slope at a node: weighted mean of the secants, or their average where the weights are negligible. -/
def akimaT (tol a b c e : ℚ) : ℚ :=
  if tol < akimaW a b c e then (|e - c| * b + |b - a| * c) / akimaW a b c e else (a + e) / 2

/-- Combine each four consecutive entries. -/
def fours (f : ℚ → ℚ → ℚ → ℚ → ℚ) : List ℚ → List ℚ
  | a :: b :: c :: e :: l => f a b c e :: fours f (b :: c :: e :: l)
  | _ => []

/-- Akima's slopes (scipy `Akima1DInterpolator.__init__`). -/
def akimaSlopes (xs ys : List ℚ) : List ℚ :=
  let m := akimaM xs ys
  let w := fours akimaW m
  let tol := (1 / 1000000000) * w.foldl max 0
  fours (akimaT tol) m

/-- The interpolant of a rational table with given slopes. -/
noncomputable def tableSpline (xs ys ds : List ℚ) : Spline where
  n := xs.length - 1
  x i := ((xs.getD i 0 : ℚ) : ℝ)
  y i := ((ys.getD i 0 : ℚ) : ℝ)
  d i := ((ds.getD i 0 : ℚ) : ℝ)

end PyCycle
