import Verif.Model.CoeffTable
import Mathlib.Analysis.SpecialFunctions.Log.Deriv
import Mathlib.Analysis.Calculus.Deriv.Pow
import Mathlib.Tactic.FieldSimp

/-! # C15: the polynomial properties are mutually consistent -/

namespace PyCycle

private theorem dInv (c T : ℝ) (hT : T ≠ 0) : HasDerivAt (fun x => c / x) (-c / T ^ 2) T := by
  have := ((hasDerivAt_id T).inv hT).const_mul c
  refine (this.congr_deriv ?_).congr_of_eventuallyEq ?_
  · simp; ring
  · exact Filter.Eventually.of_forall (fun x => by simp [div_eq_mul_inv])

private theorem dInv2 (c T : ℝ) (hT : T ≠ 0) :
    HasDerivAt (fun x => c / x ^ 2) (-2 * c / T ^ 3) T := by
  have := ((hasDerivAt_pow 2 T).inv (pow_ne_zero 2 hT)).const_mul c
  refine (this.congr_deriv ?_).congr_of_eventuallyEq ?_
  · field_simp; ring
  · exact Filter.Eventually.of_forall (fun x => by simp [div_eq_mul_inv])

private theorem dPow (c T : ℝ) (n : ℕ) :
    HasDerivAt (fun x => c * x ^ n) (c * (n * T ^ (n - 1))) T :=
  (hasDerivAt_pow n T).const_mul c

private theorem dLogOver (c T : ℝ) (hT : T ≠ 0) :
    HasDerivAt (fun x => c / x * Real.log x) (c * (1 - Real.log T) / T ^ 2) T := by
  have := (dInv c T hT).mul (Real.hasDerivAt_log hT)
  refine this.congr_deriv ?_
  field_simp
  ring

/-- **C15 (H0_applyJ).** The derivative method of `H0` returns, for each species, the exact
derivative of `H0` times the vector entry. -/
theorem C15_H0_applyJ (a : Row) (T : ℝ) (hT : 0 < T) (vec : ℝ) :
    HasDerivAt (fun x => vec * h0 a x) (h0ApplyJ a T vec) T := by
  have hT' := hT.ne'
  unfold h0ApplyJ
  refine HasDerivAt.const_mul vec ?_
  have h := ((((((dInv2 (-a 0) T hT').add (dLogOver (a 1) T hT')).add
    (hasDerivAt_const T (a 2))).add ((hasDerivAt_id T).const_mul (a 3) |>.div_const 2)).add
    ((dPow (a 4) T 2).div_const 3)).add ((dPow (a 5) T 3).div_const 4)).add
    ((dPow (a 6) T 4).div_const 5) |>.add (dInv (a 7) T hT')
  refine h.congr_deriv ?_
  simp
  field_simp
  ring

/-- **C15 (S0_applyJ).** -/
theorem C15_S0_applyJ (a : Row) (T : ℝ) (hT : 0 < T) (vec : ℝ) :
    HasDerivAt (fun x => vec * s0 a x) (s0ApplyJ a T vec) T := by
  have hT' := hT.ne'
  unfold s0ApplyJ
  refine HasDerivAt.const_mul vec ?_
  have h0 : HasDerivAt (fun x => -a 0 / (2 * x ^ 2)) (-2 * (-a 0 / 2) / T ^ 3) T := by
    refine (dInv2 (-a 0 / 2) T hT').congr_of_eventuallyEq ?_
    exact Filter.Eventually.of_forall (fun x => by simp only; rw [div_div])
  have h := (((((h0.sub (dInv (a 1) T hT')).add ((Real.hasDerivAt_log hT').const_mul (a 2))).add
    ((hasDerivAt_id T).const_mul (a 3))).add
    ((dPow (a 4) T 2).div_const 2)).add ((dPow (a 5) T 3).div_const 3)).add
    ((dPow (a 6) T 4).div_const 4) |>.add (hasDerivAt_const T (a 8))
  refine h.congr_deriv ?_
  simp
  field_simp
  ring

/-- **C15 (Cp0_applyJ).** -/
theorem C15_Cp0_applyJ (a : Row) (T : ℝ) (hT : 0 < T) (vec : ℝ) :
    HasDerivAt (fun x => vec * cp0 a x) (cp0ApplyJ a T vec) T := by
  have hT' := hT.ne'
  unfold cp0ApplyJ
  refine HasDerivAt.const_mul vec ?_
  have h := (((((dInv2 (a 0) T hT').add (dInv (a 1) T hT')).add
    (hasDerivAt_const T (a 2))).add
    ((hasDerivAt_id T).const_mul (a 3))).add
    (dPow (a 4) T 2)).add (dPow (a 5) T 3) |>.add (dPow (a 6) T 4)
  refine h.congr_deriv ?_
  simp
  field_simp
  ring

/-- **C15 (enthalpy).** `d(T*H0)/dT = Cp0`. -/
theorem C15_enthalpy (a : Row) (T : ℝ) (hT : 0 < T) :
    HasDerivAt (fun x => x * h0 a x) (cp0 a T) T := by
  have h := (hasDerivAt_id T).mul (C15_H0_applyJ a T hT 1)
  simp only [one_mul] at h
  refine h.congr_deriv ?_
  simp only [h0, h0ApplyJ, cp0, id]
  field_simp
  ring

/-- **C15 (entropy).** `dS0/dT = Cp0/T`. -/
theorem C15_entropy (a : Row) (T : ℝ) (hT : 0 < T) :
    HasDerivAt (fun x => s0 a x) (cp0 a T / T) T := by
  have h := C15_S0_applyJ a T hT 1
  simp only [one_mul] at h
  refine h.congr_deriv ?_
  simp only [s0ApplyJ, cp0]
  field_simp

/-- Non-vacuity: a concrete row at 300 K (argon, low range), where Cp0 is 2.5. -/
example : (0 : ℝ) < 300 ∧ cp0 (fun i => if i = 2 then 2.5 else 0) 300 = 2.5 := by
  constructor
  · norm_num
  · simp [cp0]

end PyCycle
