import Verif.Model.Performance
import Verif.Lemmas.HasD
import Mathlib.Algebra.BigOperators.Fin

/-! # C27: engine performance bookkeeping -/

namespace PyCycle.Perf
open Finset
variable {n m : Nat}

theorem accum_eq {k : Nat} (v : Fin k → ℝ) : accum v = ∑ i, v i := by
  rw [accum, ← List.sum_ofFn]
  exact (List.sum_eq_foldl).symm

/-- **C27 (outputs).** The fuel outputs exist exactly when there is a burner. -/
theorem C27_declared (m : Nat) (o : O) :
    o ∈ declared m ↔ (o = .OPR ∨ o = .Fg ∨ o = .Fn)
      ∨ 0 < m ∧ (o = .TSFC ∨ o = .PSFC ∨ o = .Wfuel) := by
  unfold declared
  split <;> rename_i h <;> cases o <;> simp [h] <;> omega

/-- **C27 (bookkeeping).** Gross thrust is the sum over nozzles, net thrust subtracts ram drag,
fuel flow is the sum over burners, OPR is the pressure ratio, PSFC times power is the hourly fuel
flow, and TSFC times net thrust is the hourly fuel flow up to the relative offset `1e-10/Fn`. -/
theorem C27_outputs (x : I n m → ℝ) (hP : x .Pt2 ≠ 0) (hpow : x .power ≠ 0)
    (hF : compute x .Fn + 1e-10 ≠ 0) :
    compute x .Fg = ∑ k, x (.Fg k)
    ∧ compute x .Fn = ∑ k, x (.Fg k) - x .ram_drag
    ∧ compute x .Wfuel = ∑ k, x (.Wfuel k)
    ∧ compute x .OPR * x .Pt2 = x .Pt3
    ∧ compute x .PSFC * x .power = 3600 * compute x .Wfuel
    ∧ compute x .TSFC * (compute x .Fn + 1e-10) = 3600 * compute x .Wfuel := by
  refine ⟨by simp only [compute, accum_eq], by simp only [compute, accum_eq],
    by simp only [compute, accum_eq], ?_, ?_, ?_⟩
  · simp only [compute]; field_simp
  · simp only [compute]; field_simp
  · simp only [compute] at hF ⊢
    rw [div_mul_cancel₀ _ hF]; ring

/-- TSFC times net thrust is *not* the hourly fuel flow, for any burning engine. -/
theorem C27_refuted_tsfc_value (x : I n m → ℝ) (hF : compute x .Fn + 1e-10 ≠ 0)
    (hW : compute x .Wfuel ≠ 0) :
    compute x .TSFC * compute x .Fn ≠ 3600 * compute x .Wfuel := by
  intro h
  have h6 : compute x .TSFC * (compute x .Fn + 1e-10) = 3600 * compute x .Wfuel := by
    simp only [compute] at hF ⊢
    rw [div_mul_cancel₀ _ hF]; ring
  have h0 : compute x .TSFC * 1e-10 = 0 := by linarith [mul_add (compute x .TSFC) (compute x .Fn) 1e-10]
  have h1 : compute x .TSFC = 0 := by
    rcases mul_eq_zero.mp h0 with h | h
    · exact h
    · norm_num at h
  rw [h1, zero_mul] at h
  exact hW (by linarith)

private theorem hd_accum {k : Nat} (v : ℝ → Fin k → ℝ) (d : Fin k → ℝ) (t : ℝ)
    (h : ∀ i, HasDerivAt (fun t => v t i) (d i) t) :
    HasDerivAt (fun t => accum (v t)) (∑ i, d i) t := by
  simp only [accum_eq]
  exact HasDerivAt.fun_sum (fun i _ => h i)

private theorem hd_fg (x : I n m → ℝ) (k : Fin n) :
    HasDerivAt (fun t => accum (fun j => Function.update x (.Fg k) t (.Fg j))) 1 (x (.Fg k)) := by
  have := hd_accum (fun t j => Function.update x (.Fg k) t (.Fg j)) (fun j => if j = k then 1 else 0)
    (x (.Fg k)) (by
      intro j
      by_cases hj : j = k
      · subst hj; simp only [Function.update_self, if_true]; exact hasDerivAt_id' _
      · have : (I.Fg j : I n m) ≠ .Fg k := fun e => hj (by injection e)
        simp only [Function.update_of_ne this, if_neg hj]; exact hasDerivAt_const _ _)
  simpa using this

private theorem hd_wf (x : I n m → ℝ) (k : Fin m) :
    HasDerivAt (fun t => accum (fun j => Function.update x (.Wfuel k) t (.Wfuel j))) 1
      (x (.Wfuel k)) := by
  have := hd_accum (fun t j => Function.update x (.Wfuel k) t (.Wfuel j))
    (fun j => if j = k then 1 else 0) (x (.Wfuel k)) (by
      intro j
      by_cases hj : j = k
      · subst hj; simp only [Function.update_self, if_true]; exact hasDerivAt_id' _
      · have : (I.Wfuel j : I n m) ≠ .Wfuel k := fun e => hj (by injection e)
        simp only [Function.update_of_ne this, if_neg hj]; exact hasDerivAt_const _ _)
  simpa using this

/-- **C27 (partials, all but TSFC).** For any number of nozzles and burners, every Jacobian row
other than TSFC's is exact. (Missing: TSFC, whose declared partials are wrong, see
`C27_refuted_tsfc_partials`.) -/
theorem C27_partials_partial (x : I n m → ℝ) (hP : x .Pt2 ≠ 0) (hpow : x .power ≠ 0) :
    ExactPartials (ω := {o : O // o ≠ .TSFC}) (fun x o => compute x o.1) (fun x o => J x o.1) x := by
  rintro ⟨o, ho⟩ i
  cases i with
  | Fg k =>
    have h1 := hd_fg x k
    cases o <;> simp only [compute, J, Function.update_of_ne, ne_eq, reduceCtorEq,
      not_false_eq_true] at ho ⊢ <;> first | exact absurd trivial ho | hd (exact hpow) (fring)
  | Wfuel k =>
    have h1 := hd_wf x k
    cases o <;> simp only [compute, J, Function.update_of_ne, ne_eq, reduceCtorEq,
      not_false_eq_true] at ho ⊢ <;> first | exact absurd trivial ho | hd (exact hpow) (fring)
  | Pt2 =>
    cases o <;> simp only [compute, J, Function.update_of_ne, Function.update_self, ne_eq,
      reduceCtorEq, not_false_eq_true] at ho ⊢ <;> first | exact absurd trivial ho | hd (assumption) (fring)
  | Pt3 =>
    cases o <;> simp only [compute, J, Function.update_of_ne, Function.update_self, ne_eq,
      reduceCtorEq, not_false_eq_true] at ho ⊢ <;> first | exact absurd trivial ho | hd (assumption) (fring)
  | ram_drag =>
    cases o <;> simp only [compute, J, Function.update_of_ne, Function.update_self, ne_eq,
      reduceCtorEq, not_false_eq_true] at ho ⊢ <;> first | exact absurd trivial ho | hd (assumption) (fring)
  | power =>
    cases o <;> simp only [compute, J, Function.update_of_ne, Function.update_self, ne_eq,
      reduceCtorEq, not_false_eq_true] at ho ⊢ <;> first | exact absurd trivial ho | hd (assumption) (fring)

/-- The true derivative of TSFC with respect to a burner's fuel flow. -/
private theorem tsfc_wfuel (x : I n m → ℝ) (k : Fin m) (hF : compute x .Fn + 1e-10 ≠ 0) :
    HasDerivAt (fun t => compute (Function.update x (.Wfuel k) t) .TSFC)
      (3600 / (compute x .Fn + 1e-10)) (x (.Wfuel k)) := by
  have h1 := hd_wf x k
  simp only [compute, Function.update_of_ne, ne_eq, reduceCtorEq, not_false_eq_true] at hF ⊢
  hd (skip) (ring1)

/-- **C27 is false for TSFC's partials.** At *every* point with a burner and non-zero net thrust
the declared derivative of TSFC with respect to a fuel flow is not the derivative: the `1e-10` in
the denominator was forgotten. The relative error is exactly `1e-10/Fn`. -/
theorem C27_refuted_tsfc_partials (x : I n m → ℝ) (k : Fin m) (hF : compute x .Fn ≠ 0)
    (hF' : compute x .Fn + 1e-10 ≠ 0) :
    ¬ HasDerivAt (fun t => compute (Function.update x (.Wfuel k) t) .TSFC)
        (J x .TSFC (.Wfuel k)) (x (.Wfuel k))
    ∧ ∀ d, HasDerivAt (fun t => compute (Function.update x (.Wfuel k) t) .TSFC) d (x (.Wfuel k)) →
        J x .TSFC (.Wfuel k) = d * (1 + 1e-10 / compute x .Fn) := by
  have ht := tsfc_wfuel x k hF'
  have hJ : J x .TSFC (.Wfuel k) = 3600 / compute x .Fn := rfl
  constructor
  · intro h
    have e := h.unique ht
    rw [hJ, div_eq_div_iff hF hF'] at e
    have : (3600:ℝ) * 1e-10 = 0 := by linarith
    norm_num at this
  · intro d h
    rw [h.unique ht, hJ]
    field_simp

/-- The other TSFC partials: against a nozzle thrust and the ram drag the declared value is the true
one times `((Fn + 1e-10)/Fn)²`. -/
theorem C27_tsfc_thrust_error (x : I n m → ℝ) (hF : compute x .Fn ≠ 0)
    (hF' : compute x .Fn + 1e-10 ≠ 0) :
    (∀ k, ∃ d, HasDerivAt (fun t => compute (Function.update x (.Fg k) t) .TSFC) d (x (.Fg k))
      ∧ J x .TSFC (.Fg k) = d * ((compute x .Fn + 1e-10) / compute x .Fn) ^ 2)
    ∧ ∃ d, HasDerivAt (fun t => compute (Function.update x .ram_drag t) .TSFC) d (x .ram_drag)
      ∧ J x .TSFC .ram_drag = d * ((compute x .Fn + 1e-10) / compute x .Fn) ^ 2 := by
  constructor
  · intro k
    have h1 := hd_fg x k
    refine ⟨-(compute x .Wfuel * 3600) / (compute x .Fn + 1e-10) ^ 2, ?_, ?_⟩
    · simp only [compute, Function.update_of_ne, ne_eq, reduceCtorEq, not_false_eq_true] at hF' ⊢
      hd (simpa using hF') (simp only [Function.update_eq_self]; fring)
    · have : J x .TSFC (.Fg k) = -3600 * compute x .Wfuel / compute x .Fn ^ 2 := rfl
      rw [this]; field_simp
  · refine ⟨(compute x .Wfuel * 3600) / (compute x .Fn + 1e-10) ^ 2, ?_, ?_⟩
    · simp only [compute, Function.update_of_ne, Function.update_self, ne_eq, reduceCtorEq,
        not_false_eq_true] at hF' ⊢
      hd (exact hF') (fring)
    · have : J x .TSFC .ram_drag = 3600 * compute x .Wfuel / compute x .Fn ^ 2 := rfl
      rw [this]; field_simp

/-- Non-vacuity: the numbers of performance.py:110-116 (two nozzles, one burner). -/
example : ∃ x : I 2 1 → ℝ, x .Pt2 ≠ 0 ∧ x .power ≠ 0 ∧ compute x .Fn = 3100
    ∧ compute x .Wfuel = 2 ∧ compute x .Fn + 1e-10 ≠ 0 := by
  refine ⟨fun | .Pt2 => 204.696 | .Pt3 => 104.696 | .ram_drag => 100 | .power => 200
              | .Fg k => if k = 0 then 1200 else 2000 | .Wfuel _ => 2, by norm_num, by norm_num, ?_, ?_, ?_⟩
  · simp [compute, accum_eq, Fin.sum_univ_two]; norm_num
  · simp [compute, accum_eq]
  · simp [compute, accum_eq, Fin.sum_univ_two]; norm_num

end PyCycle.Perf
