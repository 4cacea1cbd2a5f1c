import Verif.Model.Gearbox
import Verif.Lemmas.HasD

/-! # C25: gearbox -/

namespace PyCycle.Gear

/-- **C25 (design).** In design mode the residuals vanish exactly when the gear ratio is the speed
ratio, the output torque is the base torque, and the input power is minus `eff` times the output
power (`torque × speed`, any consistent unit). -/
theorem C25_design (x : V → ℝ) (hN : x .N_in ≠ 0) :
    (∀ r, resid true x r = 0) ↔
      (x .gear_ratio * x .N_in = x .N_out ∧ x .trq_out = x .trq_base
        ∧ x .trq_in * x .N_in = -(x .eff * (x .trq_out * x .N_out))) := by
  constructor
  · intro h
    have h1 := h .state; have h2 := h .trq_in; have h3 := h .trq_out
    simp only [resid, if_true] at h1 h2 h3
    refine ⟨?_, by linarith, ?_⟩
    · field_simp at h1; linarith
    · rw [show x .trq_out = x .trq_base by linarith]
      field_simp at h2; linarith
  · rintro ⟨h1, h2, h3⟩ r
    cases r <;> simp only [resid, if_true]
    · rw [← h1]; field_simp; ring
    · rw [h2] at h3; field_simp; linarith
    · linarith

/-- **C25 (off-design).** Off-design the residuals vanish exactly when the speeds are in the given
ratio, the torques are those of the base torque, and (for a non-zero input speed) the same power
relation holds. -/
theorem C25_offdesign (x : V → ℝ) (hN : x .N_in ≠ 0) :
    (∀ r, resid false x r = 0) ↔
      (x .N_out = x .gear_ratio * x .N_in ∧ x .trq_out = x .trq_base
        ∧ x .trq_in * x .N_in = -(x .eff * (x .trq_out * x .N_out))) := by
  constructor
  · intro h
    have h1 := h .state; have h2 := h .trq_in; have h3 := h .trq_out
    simp only [resid, Bool.false_eq_true, if_false] at h1 h2 h3
    refine ⟨by linarith, by linarith, ?_⟩
    rw [show x .N_out = x .N_in * x .gear_ratio by linarith,
      show x .trq_in = -x .trq_base * x .eff * x .gear_ratio by linarith,
      show x .trq_out = x .trq_base by linarith]
    ring
  · rintro ⟨h1, h2, h3⟩ r
    cases r <;> simp only [resid, Bool.false_eq_true, if_false]
    · linarith
    · rw [h1, h2] at h3
      have : (-x .trq_base * x .eff * x .gear_ratio - x .trq_in) * x .N_in = 0 := by linarith
      exact (mul_eq_zero.mp this).resolve_right hN
    · linarith

/-- **C25 (round trip).** Running the design solve gives a point with zero residuals, and the same
point has zero residuals off-design: the ratio found at design, used off-design at the design
speeds, reproduces the design torques. -/
theorem C25_round_trip (x : V → ℝ) (hN : x .N_in ≠ 0) :
    (∀ r, resid true (solve true x) r = 0) ∧ (∀ r, resid false (solve true x) r = 0) := by
  constructor <;> intro r <;> cases r <;> simp [resid, solve] <;> field_simp <;> ring

/-- `solve_nonlinear` changes outputs only; off-design it leaves the ratio equation alone. -/
theorem C25_solve_keeps (x : V → ℝ) :
    solve false x .trq_base = x .trq_base ∧ resid false (solve false x) .trq_in = 0
    ∧ resid false (solve false x) .trq_out = 0
    ∧ resid false (solve false x) .state = resid false x .state
    ∧ ∀ d, ∀ v ∈ [V.N_in, V.N_out, V.eff], solve d x v = x v := by
  refine ⟨by simp [solve], by simp [resid, solve], by simp [resid, solve],
    by simp [resid, solve], ?_⟩
  intro d v hv
  simp only [List.mem_cons, List.not_mem_nil, or_false] at hv
  rcases hv with rfl | rfl | rfl <;> cases d <;> simp [solve]

/-- **C25 (partials).** In both modes every entry of the Jacobian (declared, or zero because
undeclared) is the exact derivative of the residual, at every point with non-zero input speed. -/
theorem C25_partials (d : Bool) (x : V → ℝ) (hN : d = true → x .N_in ≠ 0) :
    ExactPartials (resid d) (J d) x := by
  intro o i
  cases d
  · cases o <;> cases i <;> simp only [resid, J, Function.update, reduceCtorEq, dite_true,
      dite_false, eq_rec_constant, Bool.false_eq_true, if_false] <;>
    hd (skip) (ring)
  · have h := hN rfl
    cases o <;> cases i <;> simp only [resid, J, Function.update, reduceCtorEq, dite_true,
      dite_false, eq_rec_constant, if_true] <;>
    hd (exact h) (field_simp; try ring)

/-- **An efficiency below one creates power.** A physical gearbox never delivers more power than
it receives. Here, with a positive base torque (the gearbox drives the output shaft), positive
speeds and `0 < eff < 1`, the power delivered to the output shaft exceeds the power taken from the
input shaft. -/
theorem C25_refuted_loss (d : Bool) (x : V → ℝ) (h : ∀ r, resid d x r = 0) (hN : 0 < x .N_in)
    (hNo : 0 < x .N_out) (ht : 0 < x .trq_base) (h1 : x .eff < 1) :
    -(x .trq_in * x .N_in) < x .trq_out * x .N_out := by
  have key : x .trq_out = x .trq_base ∧ x .trq_in * x .N_in = -(x .eff * (x .trq_out * x .N_out)) := by
    cases d
    · exact ((C25_offdesign x hN.ne').mp h).2
    · exact ((C25_design x hN.ne').mp h).2
  rw [key.2, neg_neg, key.1]
  have : 0 < x .trq_base * x .N_out := by positivity
  nlinarith

/-- Non-vacuity: the numbers of the example at gearbox.py:97-101, with a 98 % efficiency. -/
noncomputable def gearExample : V → ℝ
  | .N_in => 6772 | .N_out => 2184.5 | .eff => 0.98 | .trq_base => 23711.1 | _ => 0

example : (∀ d r, resid d (solve true gearExample) r = 0)
    ∧ -((solve true gearExample) .trq_in * (solve true gearExample) .N_in)
      < (solve true gearExample) .trq_out * (solve true gearExample) .N_out := by
  have hN : gearExample .N_in ≠ 0 := by norm_num [gearExample]
  have h := C25_round_trip gearExample hN
  refine ⟨fun d => by cases d; exacts [h.2, h.1], C25_refuted_loss true _ h.1 ?_ ?_ ?_ ?_⟩ <;>
    norm_num [solve, gearExample]

end PyCycle.Gear
