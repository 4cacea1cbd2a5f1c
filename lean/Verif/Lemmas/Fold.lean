import Mathlib.Algebra.BigOperators.Fin
import Verif.Lemmas.HasD

/-! # Accumulating loops over `Fin n` as sums; derivatives of sums in one coordinate -/

namespace PyCycle

theorem foldl_add_list {ι : Type} (f : ι → ℝ) (l : List ι) (a : ℝ) :
    l.foldl (fun acc k => acc + f k) a = a + (l.map f).sum := by
  induction l generalizing a with
  | nil => simp
  | cons b l ih => simp only [List.foldl_cons, List.map_cons, List.sum_cons, ih]; ring

theorem foldl_sub_list {ι : Type} (f : ι → ℝ) (l : List ι) (a : ℝ) :
    l.foldl (fun acc k => acc - f k) a = a - (l.map f).sum := by
  induction l generalizing a with
  | nil => simp
  | cons b l ih => simp only [List.foldl_cons, List.map_cons, List.sum_cons, ih]; ring

theorem foldl_add_fin {n : ℕ} (f : Fin n → ℝ) (a : ℝ) :
    (List.finRange n).foldl (fun acc k => acc + f k) a = a + ∑ k, f k := by
  rw [foldl_add_list, ← List.ofFn_eq_map, List.sum_ofFn]

theorem foldl_sub_fin {n : ℕ} (f : Fin n → ℝ) (a : ℝ) :
    (List.finRange n).foldl (fun acc k => acc - f k) a = a - ∑ k, f k := by
  rw [foldl_sub_list, ← List.ofFn_eq_map, List.sum_ofFn]

/-- A finite sum of which only term `j` depends on the variable. -/
theorem hd_sum_single {n : ℕ} {f : Fin n → ℝ → ℝ} {x : ℝ} (j : Fin n) {f' : ℝ}
    (hj : HasDerivAt (f j) f' x) (hk : ∀ k, k ≠ j → ∀ t, f k t = f k x) :
    HasDerivAt (fun t => ∑ k, f k t) f' x := by
  have := HasDerivAt.fun_sum (u := Finset.univ) (x := x) (A := f)
    (A' := fun k => if k = j then f' else 0) (by
      intro k _
      by_cases h : k = j
      · subst h; simpa using hj
      · simp only [if_neg h]
        have : f k = fun _ => f k x := funext (hk k h)
        rw [this]; exact hasDerivAt_const _ _)
  simpa using this

end PyCycle
