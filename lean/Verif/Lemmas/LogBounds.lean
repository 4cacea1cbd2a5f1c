import Mathlib.Analysis.SpecialFunctions.Log.Deriv
import Mathlib.Tactic.NormNum
import Mathlib.Tactic.Linarith

/-! # Rational enclosures of a few logarithms -/

namespace PyCycle

/-- Partial sum of `-log (1 - x)`. -/
def logSum (x : ℚ) : ℕ → ℚ
  | 0 => 0
  | n + 1 => logSum x n + x ^ (n + 1) / (n + 1)

theorem logSum_eq (x : ℚ) (n : ℕ) :
    ((logSum x n : ℚ) : ℝ) = ∑ i ∈ Finset.range n, (x : ℝ) ^ (i + 1) / (i + 1) := by
  induction n with
  | zero => simp [logSum]
  | succ n ih => rw [Finset.sum_range_succ, ← ih]; simp only [logSum]; push_cast; rfl

theorem log_one_sub (x : ℚ) (n : ℕ) (h : |x| < 1) :
    |((logSum x n : ℚ) : ℝ) + Real.log (1 - x)| ≤ ((|x| ^ (n + 1) / (1 - |x|) : ℚ) : ℝ) := by
  rw [logSum_eq]
  have h' : |(x : ℝ)| < 1 := by exact_mod_cast h
  have := Real.abs_log_sub_add_sum_range_le h' n
  push_cast
  exact this

theorem log_one_sub_bounds (x : ℚ) (n : ℕ) (h : |x| < 1) (lo hi : ℚ)
    (h1 : lo ≤ -logSum x n - |x| ^ (n + 1) / (1 - |x|))
    (h2 : -logSum x n + |x| ^ (n + 1) / (1 - |x|) ≤ hi) :
    (lo : ℝ) ≤ Real.log (1 - x) ∧ Real.log (1 - x) ≤ hi := by
  have := abs_le.1 (log_one_sub x n h)
  have h1' : (lo : ℝ) ≤ ((-logSum x n - |x| ^ (n + 1) / (1 - |x|) : ℚ) : ℝ) := by exact_mod_cast h1
  have h2' : ((-logSum x n + |x| ^ (n + 1) / (1 - |x|) : ℚ) : ℝ) ≤ (hi : ℝ) := by exact_mod_cast h2
  push_cast at h1' h2' this
  constructor <;> linarith [this.1, this.2]

/-- An enclosure of a logarithm by rationals. -/
def LogIn (x : ℝ) (lo hi : ℚ) : Prop := (lo : ℝ) ≤ Real.log x ∧ Real.log x ≤ hi

theorem log_two : LogIn 2 0.693147180558 0.693147180561 := by
  have := log_one_sub_bounds (1 / 2) 44 (by decide +kernel) (-0.693147180561) (-0.693147180558)
    (by decide +kernel) (by decide +kernel)
  have e : Real.log (1 - ((1 / 2 : ℚ) : ℝ)) = -Real.log 2 := by
    rw [← Real.log_inv]; norm_num
  rw [e] at this
  unfold LogIn
  push_cast at this ⊢
  constructor <;> linarith [this.1, this.2]

theorem log_thousand : LogIn 1000 6.90775527895 6.90775527902 := by
  have := log_one_sub_bounds (-24 / 1000) 8 (by decide +kernel) 0.0237165266172 0.0237165266174
    (by decide +kernel) (by decide +kernel)
  have e : Real.log (1 - ((-24 / 1000 : ℚ) : ℝ)) = 10 * Real.log 2 - Real.log 1000 := by
    have : (1 - ((-24 / 1000 : ℚ) : ℝ)) = 2 ^ 10 / 1000 := by norm_num
    rw [this, Real.log_div (by norm_num) (by norm_num), Real.log_pow]; norm_num
  rw [e] at this
  have h2 := log_two
  unfold LogIn at h2 ⊢
  push_cast at this h2 ⊢
  constructor <;> linarith [this.1, this.2, h2.1, h2.2]

theorem log_999 : LogIn 999 6.90675477861 6.90675477869 := by
  have := log_one_sub_bounds (1 / 1000) 6 (by decide +kernel) (-0.001000500333584) (-0.001000500333583)
    (by decide +kernel) (by decide +kernel)
  have e : Real.log (1 - ((1 / 1000 : ℚ) : ℝ)) = Real.log 999 - Real.log 1000 := by
    rw [← Real.log_div (by norm_num) (by norm_num)]; norm_num
  rw [e] at this
  have h2 := log_thousand
  unfold LogIn at h2 ⊢
  push_cast at this h2 ⊢
  constructor <;> linarith [this.1, this.2, h2.1, h2.2]

theorem log_6000 : LogIn 6000 8.69951474815 8.69951474826 := by
  have := log_one_sub_bounds (1 / 4) 24 (by decide +kernel) (-0.287682072453) (-0.287682072451)
    (by decide +kernel) (by decide +kernel)
  have e : Real.log (1 - ((1 / 4 : ℚ) : ℝ)) = Real.log 6000 - 3 * Real.log 2 - Real.log 1000 := by
    have h8 : 3 * Real.log 2 = Real.log 8 := by
      rw [show (8 : ℝ) = 2 ^ 3 by norm_num, Real.log_pow]; norm_num
    rw [h8, ← Real.log_div (by norm_num) (by norm_num), ← Real.log_div (by norm_num) (by norm_num)]
    norm_num
  rw [e] at this
  have h2 := log_thousand
  have h3 := log_two
  unfold LogIn at h2 h3 ⊢
  push_cast at this h2 h3 ⊢
  constructor <;> linarith [this.1, this.2, h2.1, h2.2, h3.1, h3.2]

end PyCycle
