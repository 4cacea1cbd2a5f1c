import Mathlib.Algebra.Order.Field.Rat
import Mathlib.Algebra.Order.AbsoluteValue.Basic

/-! # Akima's rule for the slope at a node of a table

`s 0 … s (k-1)` are the secants of a table with nodes `0 … k`. -/

namespace PyCycle.AkimaRule

/-- The secants shifted by two: two more on each side continue the outermost pair linearly. -/
def ext (k : ℕ) (s : ℕ → ℚ) (j : ℕ) : ℚ :=
  if j = 0 then s 0 - 2 * (s 1 - s 0)
  else if j = 1 then s 0 - (s 1 - s 0)
  else if j < k + 2 then s (j - 2)
  else if j = k + 2 then s (k - 1) + (s (k - 1) - s (k - 2))
  else s (k - 1) + 2 * (s (k - 1) - s (k - 2))

/-- How much the secants bend around node `i`: after it and before it. -/
def after (k : ℕ) (s : ℕ → ℚ) (i : ℕ) : ℚ := |ext k s (i + 3) - ext k s (i + 2)|
def before (k : ℕ) (s : ℕ → ℚ) (i : ℕ) : ℚ := |ext k s (i + 1) - ext k s i|
def bend (k : ℕ) (s : ℕ → ℚ) (i : ℕ) : ℚ := before k s i + after k s i

/-- The slope `d` at node `i`: the mean of the secants left and right of the node, the left one weighted by the bend
after the node and the right one by the bend before it; where the table hardly bends (not more than a billionth of its
largest bend), the mean of the two next secants outside. -/
def Slope (k : ℕ) (s : ℕ → ℚ) (i : ℕ) (d : ℚ) : Prop :=
  ((∀ j ≤ k, bend k s j / 1000000000 < bend k s i) →
    d * bend k s i = after k s i * ext k s (i + 1) + before k s i * ext k s (i + 2))
  ∧ ((∃ j ≤ k, bend k s i ≤ bend k s j / 1000000000) → 2 * d = ext k s i + ext k s (i + 3))

end PyCycle.AkimaRule
