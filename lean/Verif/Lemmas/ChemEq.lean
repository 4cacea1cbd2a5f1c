import Verif.Spec.Equilibrium
import Mathlib.Tactic.Ring
import Mathlib.Tactic.FieldSimp
import Mathlib.Tactic.Linarith
import Mathlib.Tactic.NormNum
import Mathlib.Tactic.Positivity
import Mathlib.Algebra.BigOperators.Field
import Mathlib.Algebra.Order.BigOperators.Group.Finset

namespace PyCycle
open Finset
variable {ne np : Nat}

theorem P_REF_pos : 0 < P_REF := by unfold P_REF; norm_num
theorem R_ENG_pos : 0 < R_ENG := by unfold R_ENG; norm_num
theorem R_SI_pos : 0 < R_SI := by unfold R_SI; norm_num
theorem TRACE_pos : 0 < TRACE := by unfold TRACE; norm_num

theorem residWeighting_pos {x : ℝ} (hx : 0 < x) : 0 < residWeighting x := by
  unfold residWeighting
  have h1 : Real.exp (-1e5 * x) < 1 := by
    rw [Real.exp_lt_one_iff]; norm_num; linarith
  have h2 : 0 < Real.exp (-1e5 * x) := Real.exp_pos _
  have : (1:ℝ) / 2 < 1 / (1 + Real.exp (-1e5 * x)) := by
    apply one_div_lt_one_div_of_lt <;> linarith
  have h5 : (0.5 : ℝ) = 1 / 2 := by norm_num
  rw [h5]
  linarith

theorem sum_pos_of (n : Fin np → ℝ) (hn : ∀ j, 0 < n j) (j : Fin np) : 0 < ∑ k, n k :=
  Finset.sum_pos (fun k _ => hn k) ⟨j, Finset.mem_univ j⟩

theorem chemMu_eq (g : Gas ne np) (x : ChemEqPoint ne np) (hn : ∀ j, 0 < x.n j) (hP : 0 < x.P)
    (j : Fin np) : chemMu g x j = chemPotential g x.T x.P x.n j := by
  have hN := sum_pos_of x.n hn j
  have hp : 0 < x.P / P_REF := div_pos hP P_REF_pos
  rw [chemMu, chemPotential, if_pos hp, Real.log_mul (div_pos (hn j) hN).ne' hp.ne',
    Real.log_div (hn j).ne' hN.ne']
  ring

end PyCycle
