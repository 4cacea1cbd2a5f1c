import Verif.Model.SplitBleed
import Verif.Lemmas.HasD
import Mathlib.Algebra.BigOperators.Fin

/-! # C28: splitting and bleeding conserve mass -/

namespace PyCycle.Split

/-- **C28 (splitter).** The two outgoing flows are the only pair with sum `W_in` and ratio `BPR`. -/
theorem C28_splitter (x : I → ℝ) (h : x .BPR ≠ -1) (w1 w2 : ℝ) :
    (w1 + w2 = x .W_in ∧ w2 = x .BPR * w1) ↔ (w1 = compute x .W1 ∧ w2 = compute x .W2) := by
  have hb : x .BPR + 1 ≠ 0 := fun e => h (by linarith)
  simp only [compute]
  constructor
  · rintro ⟨h1, h2⟩
    have e : w1 = x .W_in / (x .BPR + 1) := by
      rw [eq_div_iff hb, ← h1, h2]; ring
    exact ⟨e, by rw [← e]; linarith⟩
  · rintro ⟨rfl, rfl⟩
    refine ⟨by ring, by field_simp; ring⟩

/-- Flows stay non-negative for non-negative inflow and bypass ratio. -/
theorem C28_splitter_nonneg (x : I → ℝ) (hW : 0 ≤ x .W_in) (h : 0 ≤ x .BPR) :
    0 ≤ compute x .W1 ∧ 0 ≤ compute x .W2 ∧ compute x .W1 ≤ x .W_in := by
  have hle : x .W_in / (x .BPR + 1) ≤ x .W_in := div_le_self hW (by linarith)
  simp only [compute]
  exact ⟨by positivity, by linarith, hle⟩

/-- **C28 (splitter partials).** -/
theorem C28_splitter_partials (x : I → ℝ) (h : x .BPR ≠ -1) : ExactPartials compute J x := by
  have hb : x .BPR + 1 ≠ 0 := fun e => h (by linarith)
  intro o i
  cases o <;> cases i <;> simp only [compute, J, Function.update_of_ne, Function.update_self, ne_eq,
      reduceCtorEq, not_false_eq_true] <;> hd (exact hb) (fring)

example : ∃ x : I → ℝ, x .BPR ≠ -1 ∧ compute x .W1 = 2 ∧ compute x .W2 = 10 := by
  refine ⟨fun | .W_in => 12 | .BPR => 5, ?_, ?_, ?_⟩ <;> norm_num [compute]

end PyCycle.Split

namespace PyCycle.Bleed
open Finset
variable {n : Nat}

theorem foldl_sub (l : List ℝ) (a : ℝ) : l.foldl (· - ·) a = a - l.sum := by
  induction l generalizing a with
  | nil => simp
  | cons b l ih => simp [ih, sub_sub]

/-- **C28 (bleeds).** For any number of bleeds the outflow plus all bleeds is the inflow, and each
bleed is its fraction of the inflow. -/
theorem C28_bleeds (x : I n → ℝ) :
    compute x .W_out + ∑ k, compute x (.W k) = x .W_in
    ∧ ∀ k, compute x (.W k) = x (.frac k) * x .W_in := by
  constructor
  · simp only [compute, wOut, foldl_sub, List.sum_ofFn]; ring
  · intro k; simp only [compute]; ring

/-- The outflow is non-negative iff (for a positive inflow) the fractions do not exceed one. -/
theorem C28_bleeds_nonneg (x : I n → ℝ) (hW : 0 < x .W_in) :
    0 ≤ compute x .W_out ↔ ∑ k, x (.frac k) ≤ 1 := by
  simp only [compute, wOut, foldl_sub, List.sum_ofFn, ← Finset.mul_sum]
  constructor <;> intro h <;> nlinarith

/-- **C28 (bleed partials).** -/
theorem C28_bleed_partials (x : I n → ℝ) : ExactPartials compute J x := by
  intro o i
  have ne1 : ∀ k : Fin n, (I.frac k : I n) ≠ .W_in := by simp
  have ne2 : ∀ k : Fin n, (I.W_in : I n) ≠ .frac k := by simp
  cases o with
  | W k =>
    cases i with
    | W_in =>
      simp only [compute, J, Function.update_self, Function.update_of_ne (ne1 k)]
      hd (skip) (ring1)
    | frac j =>
      by_cases hj : k = j
      · subst hj
        simp only [compute, J, Function.update_self, Function.update_of_ne (ne2 _), if_true]
        hd (skip) (ring1)
      · have : (I.frac k : I n) ≠ .frac j := fun e => hj (by injection e)
        simp only [compute, J, Function.update_of_ne this, Function.update_of_ne (ne2 _), if_neg hj]
        hd (skip) (ring1)
  | W_out =>
    cases i with
    | W_in =>
      simp only [compute, J, wOut, foldl_sub, List.sum_ofFn, Function.update_self,
        Function.update_of_ne (ne1 _), ← Finset.mul_sum]
      hd (skip) (ring1)
    | frac j =>
      have hs : HasDerivAt (fun t => ∑ k, x .W_in * Function.update x (.frac j) t (.frac k))
          (x .W_in) (x (.frac j)) := by
        have := HasDerivAt.fun_sum (u := Finset.univ) (x := x (.frac j))
          (A := fun k t => x .W_in * Function.update x (.frac j) t (.frac k))
          (A' := fun k => if k = j then x .W_in else 0) (by
            intro k _
            by_cases hk : k = j
            · subst hk; simp only [Function.update_self, if_true]; hd (skip) (ring1)
            · have : (I.frac k : I n) ≠ .frac j := fun e => hk (by injection e)
              simp only [Function.update_of_ne this, if_neg hk]; exact hasDerivAt_const _ _)
        simpa using this
      simp only [compute, J, wOut, foldl_sub, List.sum_ofFn, Function.update_of_ne (ne2 _)]
      hd (skip) (ring1)

example : ∃ x : I 2 → ℝ, compute x .W_out = 9 ∧ compute x (.W 0) = 1 ∧ compute x (.W 1) = 2 := by
  refine ⟨fun | .W_in => 12 | .frac k => if k = 0 then 1/12 else 1/6, ?_, ?_, ?_⟩ <;>
    simp [compute, wOut] <;> norm_num

end PyCycle.Bleed
