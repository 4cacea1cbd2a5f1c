import Mathlib.Analysis.SpecialFunctions.Pow.Deriv
import Mathlib.Analysis.SpecialFunctions.Sqrt
import Mathlib.Analysis.SpecialFunctions.Log.Deriv
import Mathlib.Analysis.Calculus.Deriv.Inv
import Mathlib.Tactic.FieldSimp
import Mathlib.Tactic.LinearCombination
import Verif.Spec.Partials

/-! # A small tactic for `HasDerivAt` goals -/

namespace PyCycle

theorem hd_add {f g : ℝ → ℝ} {f' g' x : ℝ} (hf : HasDerivAt f f' x) (hg : HasDerivAt g g' x) :
    HasDerivAt (fun t => f t + g t) (f' + g') x := hf.add hg
theorem hd_sub {f g : ℝ → ℝ} {f' g' x : ℝ} (hf : HasDerivAt f f' x) (hg : HasDerivAt g g' x) :
    HasDerivAt (fun t => f t - g t) (f' - g') x := hf.sub hg
theorem hd_neg {f : ℝ → ℝ} {f' x : ℝ} (hf : HasDerivAt f f' x) :
    HasDerivAt (fun t => -f t) (-f') x := hf.neg
theorem hd_mul {f g : ℝ → ℝ} {f' g' x : ℝ} (hf : HasDerivAt f f' x) (hg : HasDerivAt g g' x) :
    HasDerivAt (fun t => f t * g t) (f' * g x + f x * g') x := hf.mul hg
theorem hd_div {f g : ℝ → ℝ} {f' g' x : ℝ} (hf : HasDerivAt f f' x) (hg : HasDerivAt g g' x)
    (h : g x ≠ 0) : HasDerivAt (fun t => f t / g t) ((f' * g x - f x * g') / g x ^ 2) x :=
  hf.div hg h
theorem hd_div_const {f : ℝ → ℝ} {f' x : ℝ} (c : ℝ) (hf : HasDerivAt f f' x) :
    HasDerivAt (fun t => f t / c) (f' / c) x := hf.div_const c
theorem hd_pow {f : ℝ → ℝ} {f' x : ℝ} (n : ℕ) (hf : HasDerivAt f f' x) :
    HasDerivAt (fun t => f t ^ n) (n * f x ^ (n - 1) * f') x := hf.pow n
theorem hd_sqrt {f : ℝ → ℝ} {f' x : ℝ} (hf : HasDerivAt f f' x) (h : f x ≠ 0) :
    HasDerivAt (fun t => Real.sqrt (f t)) (f' / (2 * Real.sqrt (f x))) x := hf.sqrt h
theorem hd_log {f : ℝ → ℝ} {f' x : ℝ} (hf : HasDerivAt f f' x) (h : f x ≠ 0) :
    HasDerivAt (fun t => Real.log (f t)) (f' / f x) x := hf.log h
theorem hd_exp {f : ℝ → ℝ} {f' x : ℝ} (hf : HasDerivAt f f' x) :
    HasDerivAt (fun t => Real.exp (f t)) (Real.exp (f x) * f') x := hf.exp
theorem hd_rpow_const {f : ℝ → ℝ} {f' x : ℝ} (p : ℝ) (hf : HasDerivAt f f' x) (h : f x ≠ 0) :
    HasDerivAt (fun t => f t ^ p) (f' * p * f x ^ (p - 1)) x := hf.rpow_const (Or.inl h)
theorem hd_rpow {f g : ℝ → ℝ} {f' g' x : ℝ} (hf : HasDerivAt f f' x) (hg : HasDerivAt g g' x)
    (h : 0 < f x) : HasDerivAt (fun t => f t ^ g t)
      (f' * g x * f x ^ (g x - 1) + g' * f x ^ g x * Real.log (f x)) x := hf.rpow hg h

theorem hd_hyp {f : ℝ → ℝ} {f' x : ℝ} (hf : HasDerivAt f f' x) : HasDerivAt f f' x := hf

/-- The derivative rules, applied syntactically; side conditions are left as goals. -/
macro "hd_rules" : tactic => `(tactic| (repeat' (first
  | exact hasDerivAt_const _ _
  | exact hasDerivAt_id' _
  | (with_reducible apply (newGoals := .nonDependentOnly) hd_hyp; assumption)
  | with_reducible apply (newGoals := .nonDependentOnly) hd_add
  | with_reducible apply (newGoals := .nonDependentOnly) hd_sub
  | with_reducible apply (newGoals := .nonDependentOnly) hd_neg
  | with_reducible apply (newGoals := .nonDependentOnly) hd_div_const
  | with_reducible apply (newGoals := .nonDependentOnly) hd_mul
  | with_reducible apply (newGoals := .nonDependentOnly) hd_div
  | with_reducible apply (newGoals := .nonDependentOnly) hd_pow
  | with_reducible apply (newGoals := .nonDependentOnly) hd_rpow_const
  | with_reducible apply (newGoals := .nonDependentOnly) hd_rpow
  | with_reducible apply (newGoals := .nonDependentOnly) hd_sqrt
  | with_reducible apply (newGoals := .nonDependentOnly) hd_log
  | with_reducible apply (newGoals := .nonDependentOnly) hd_exp)))

/-- Replace the derivative by an equal expression: first goal the rules, second the equation. -/
theorem hd_congr {f : ℝ → ℝ} {a b x : ℝ} (h : HasDerivAt f a x) (e : a = b) :
    HasDerivAt f b x := e ▸ h

/-- Field identities. -/
macro "fring" : tactic => `(tactic| first
  | ring1 | (field_simp; done) | (field_simp; ring1) | (simp; done) | (simp; ring1)
  | (simp; field_simp; done) | (simp; field_simp; ring1))

/-- Close a `HasDerivAt` goal by the rules: side conditions by the first tactic, the equality of
derivatives by the second. -/
macro "hd " "(" s:tacticSeq ")" " (" e:tacticSeq ")" : tactic => `(tactic|
  (apply hd_congr
   · hd_rules <;> ($s)
   · ($e)))

/-- Floating-point literals as naturals (avoids scientific literals in `ring` goals). -/
theorem lit1 : (1.0 : ℝ) = 1 := by norm_num
theorem lit2 : (2.0 : ℝ) = 2 := by norm_num
theorem lit0 : (0.0 : ℝ) = 0 := by norm_num
theorem lit3600 : (3600.0 : ℝ) = 3600 := by norm_num
theorem lit60 : (60.0 : ℝ) = 60 := by norm_num

end PyCycle
