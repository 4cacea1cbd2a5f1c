import Verif.Lemmas.ChemEq

/-! # C17: what a converged equilibrium solve means -/

namespace PyCycle
open Finset
variable {ne np : Nat}

/-- **C17.** If the residuals evaluated by the component at a point with positive
concentrations and positive pressure all vanish - in whatever internal state earlier evaluations left it - then
element abundances equal the given composition, `n_moles` is the sum of the concentrations, and
every species' chemical potential is the stoichiometric combination of the element potentials,
except species at or below the trace threshold when trace removal is active. -/
theorem C17_converged (g : Gas ne np) (st : ChemEqState np) (x : ChemEqPoint ne np)
    (hn : ∀ j, 0 < x.n j) (hP : 0 < x.P)
    (hr : ∀ j, (applyNonlinear g st x).2.n j = 0)
    (hpi : ∀ i, (applyNonlinear g st x).2.pi i = 0)
    (hm : (applyNonlinear g st x).2.nMoles = 0) :
    (∀ i, ∑ j, g.aij i j * x.n j = x.composition i)
    ∧ x.nMoles = ∑ j, x.n j
    ∧ (∀ j, st.removeTrace = false ∨ TRACE < x.n j →
        chemPotential g x.T x.P x.n j = ∑ i, x.pi i * g.aij i j) := by
  refine ⟨fun i => ?_, ?_, fun j hj => ?_⟩
  · have := hpi i
    simp only [applyNonlinear, chemResidPi] at this
    linarith
  · simp only [applyNonlinear, chemResidNMoles] at hm
    linarith
  · have := hr j
    simp only [applyNonlinear, chemResidN] at this
    have hcond : (st.removeTrace && chemTrace x j) = false := by
      rcases hj with h | h
      · simp [h]
      · have : chemTrace x j = false := by simp [chemTrace, h]
        simp [this]
    rw [hcond, if_neg (by simp)] at this
    have hw : 0 < chemWeights x j := by
      unfold chemWeights
      exact residWeighting_pos (mul_pos (hn j) (sum_pos_of x.n hn j))
    have hgap : chemGap g x j = 0 := (mul_eq_zero.mp this).resolve_right hw.ne'
    rw [chemGap, chemMu_eq g x hn hP] at hgap
    linarith

/-- **C17 (without trace removal, as the specification).** With trace removal inactive, zero
residuals are equivalent to chemical equilibrium plus a consistent `n_moles`. -/
theorem C17_iff_equilibrium (g : Gas ne np) (st : ChemEqState np) (hst : st.removeTrace = false)
    (x : ChemEqPoint ne np) (hn : ∀ j, 0 < x.n j) (hP : 0 < x.P) :
    ((∀ j, (applyNonlinear g st x).2.n j = 0) ∧ (∀ i, (applyNonlinear g st x).2.pi i = 0)
        ∧ (applyNonlinear g st x).2.nMoles = 0)
      ↔ IsEquilibrium g x.T x.P x.composition x.n x.pi ∧ x.nMoles = ∑ j, x.n j := by
  constructor
  · rintro ⟨h1, h2, h3⟩
    obtain ⟨a, b, c⟩ := C17_converged g st x hn hP h1 h2 h3
    exact ⟨⟨hn, a, fun j => c j (.inl hst)⟩, b⟩
  · rintro ⟨⟨_, he, hp⟩, hm⟩
    refine ⟨fun j => ?_, fun i => ?_, ?_⟩
    · simp only [applyNonlinear, chemResidN, hst, Bool.false_and]
      rw [if_neg (by simp), chemGap, chemMu_eq g x hn hP, hp j, sub_self, zero_mul]
    · simp only [applyNonlinear, chemResidPi, he, sub_self]
    · simp only [applyNonlinear, chemResidNMoles, hm, sub_self]

/-- Non-vacuity: a one-species, one-element gas with constant properties at reference pressure
is in equilibrium, and the component's residuals vanish there. -/
example : ∃ (g : Gas 1 1) (x : ChemEqPoint 1 1), (∀ j, 0 < x.n j) ∧ 0 < x.P
    ∧ IsEquilibrium g x.T x.P x.composition x.n x.pi ∧ x.nMoles = ∑ j, x.n j := by
  refine ⟨⟨fun _ _ => 2, fun _ _ => 0⟩,
    ⟨300, P_REF, fun _ => 0.06, fun _ => 0.03, fun _ => 0, 0.03⟩, ?_, P_REF_pos, ⟨?_, ?_, ?_⟩, ?_⟩
  · intro j; norm_num
  · intro j; norm_num
  · intro i; norm_num
  · intro j
    have : P_REF ≠ 0 := P_REF_pos.ne'
    simp [chemPotential, Gas.H0, Gas.S0, h0, s0, this]
  · simp

/-- **C17 (silent fallback).** A non-positive pressure is not reported: the component evaluates
exactly the residuals of the (unrelated) pressure `1e-5 * P_REF`. -/
theorem C17_nonpositive_pressure_accepted (g : Gas ne np) (st : ChemEqState np)
    (x : ChemEqPoint ne np) (hP : x.P ≤ 0) :
    (applyNonlinear g st x).2 = (applyNonlinear g st { x with P := 1e-5 * P_REF }).2 := by
  have h1 : ¬ 0 < x.P / P_REF := by
    rw [not_lt]; exact div_nonpos_of_nonpos_of_nonneg hP P_REF_pos.le
  have h2 : (1e-5 * P_REF) / P_REF = 1e-5 := by
    have := P_REF_pos.ne'; field_simp
  have h3 : (0 : ℝ) < 1e-5 := by norm_num
  have hmu : ∀ j, chemMu g x j = chemMu g { x with P := 1e-5 * P_REF } j := by
    intro j; simp only [chemMu, if_neg h1, h2, if_pos h3]
  have hn : chemResidN st.removeTrace g x
      = chemResidN st.removeTrace g { x with P := 1e-5 * P_REF } := by
    funext j
    simp only [chemResidN, chemGap, hmu j]
    rfl
  simp only [applyNonlinear, hn]
  rfl

end PyCycle
