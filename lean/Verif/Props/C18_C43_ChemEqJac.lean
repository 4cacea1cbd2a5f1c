import Verif.Lemmas.ChemEq
import Verif.Props.C15_Polynomials
import Mathlib.Analysis.Calculus.Deriv.Add
import Mathlib.Analysis.SpecialFunctions.ExpDeriv

/-! # C18: exactness of the equilibrium Jacobian; C43: history dependence of `ChemEq` -/

namespace PyCycle
open Finset Filter Topology
variable {ne np : Nat}

/-! ## Perturbed points -/

/-- The point with concentration `k` set to `t`. -/
def ChemEqPoint.setN (x : ChemEqPoint ne np) (k : Fin np) (t : ℝ) : ChemEqPoint ne np :=
  { x with n := Function.update x.n k t }
/-- The point with element potential `i` set to `t`. -/
def ChemEqPoint.setPi (x : ChemEqPoint ne np) (i : Fin ne) (t : ℝ) : ChemEqPoint ne np :=
  { x with pi := Function.update x.pi i t }
/-- The point with composition entry `i` set to `t`. -/
def ChemEqPoint.setComp (x : ChemEqPoint ne np) (i : Fin ne) (t : ℝ) : ChemEqPoint ne np :=
  { x with composition := Function.update x.composition i t }

/-! ## Proofs -/

theorem hasDerivAt_update {m : Nat} (v : Fin m → ℝ) (k j : Fin m) (t : ℝ) :
    HasDerivAt (fun s => Function.update v k s j) (if j = k then 1 else 0) t := by
  by_cases h : j = k
  · subst h; simp only [Function.update_self, if_true]; exact hasDerivAt_id t
  · simp only [Function.update_of_ne h, if_neg h]; exact hasDerivAt_const t _

theorem hasDerivAt_sum_update {m : Nat} (v c : Fin m → ℝ) (k : Fin m) (t : ℝ) :
    HasDerivAt (fun s => ∑ j, c j * Function.update v k s j) (c k) t := by
  have := HasDerivAt.fun_sum (u := Finset.univ)
    (fun j _ => (hasDerivAt_update v k j t).const_mul (c j))
  refine this.congr_deriv ?_
  simp

private theorem gap_deriv_n (g : Gas ne np) (x : ChemEqPoint ne np) (hn : ∀ j, 0 < x.n j)
    (j k : Fin np) :
    HasDerivAt (fun t => chemGap g (x.setN k t) j)
      ((if j = k then 1 / x.n j else 0) - 1 / ∑ m, x.n m) (x.n k) := by
  have hN := sum_pos_of x.n hn j
  have h1 : HasDerivAt (fun t => Real.log (Function.update x.n k t j))
      (if j = k then 1 / x.n j else 0) (x.n k) := by
    have hself : Function.update x.n k (x.n k) j = x.n j := by rw [Function.update_eq_self]
    have := (hasDerivAt_update x.n k j (x.n k)).log (by rw [hself]; exact (hn j).ne')
    refine this.congr_deriv ?_
    rw [hself]; split <;> simp
  have h2 : HasDerivAt (fun t => Real.log (∑ m, Function.update x.n k t m))
      (1 / ∑ m, x.n m) (x.n k) := by
    have hs := hasDerivAt_sum_update x.n (fun _ => 1) k (x.n k)
    simp only [one_mul] at hs
    have := hs.log (by rw [Function.update_eq_self]; exact hN.ne')
    rwa [Function.update_eq_self] at this
  unfold chemGap chemMu ChemEqPoint.setN
  simp only
  have := (((h1.const_add (g.H0 x.T j - g.S0 x.T j)).add_const (Real.log
    (if 0 < x.P / P_REF then x.P / P_REF else 1e-5))).sub h2).sub_const
    (∑ i, x.pi i * g.aij i j)
  exact this

private theorem weights_diff (x : ChemEqPoint ne np) (j k : Fin np) :
    DifferentiableAt ℝ (fun t => chemWeights (x.setN k t) j) (x.n k) := by
  unfold chemWeights ChemEqPoint.setN residWeighting
  simp only
  have h1 : DifferentiableAt ℝ (fun t => Function.update x.n k t j) (x.n k) :=
    (hasDerivAt_update x.n k j _).differentiableAt
  have h2 : DifferentiableAt ℝ (fun t => ∑ m, Function.update x.n k t m) (x.n k) := by
    have := (hasDerivAt_sum_update x.n (fun _ => 1) k (x.n k)).differentiableAt
    simpa using this
  have h3 := ((h1.mul h2).const_mul (-1e5)).exp
  have h4 := (h3.const_add 1)
  have hne : (1 + Real.exp (-1e5 * (Function.update x.n k (x.n k) j
      * ∑ m, Function.update x.n k (x.n k) m))) ≠ 0 := by positivity
  have h5 := (differentiableAt_const (x := x.n k) (1 : ℝ)).div h4 hne
  exact (h5.sub_const 0.5).mul_const 2

private theorem resid_eventually (rt : Bool) (g : Gas ne np) (x : ChemEqPoint ne np)
    (j : Fin np) (hj : rt = false ∨ TRACE < x.n j) (k : Fin np) :
    ∀ᶠ t in 𝓝 (x.n k), chemResidN rt g (x.setN k t) j
      = chemGap g (x.setN k t) j * chemWeights (x.setN k t) j := by
  rcases hj with h | h
  · exact Eventually.of_forall (fun t => by simp [chemResidN, h])
  · have hc : ContinuousAt (fun t => Function.update x.n k t j) (x.n k) :=
      (hasDerivAt_update x.n k j _).continuousAt
    have := hc.eventually (lt_mem_nhds (a := TRACE) (by simpa [Function.update_eq_self] using h))
    filter_upwards [this] with t ht
    have : chemTrace (x.setN k t) j = false := decide_eq_false (not_le.mpr ht)
    simp [chemResidN, this]

private theorem resid_eq (rt : Bool) (g : Gas ne np) (x : ChemEqPoint ne np)
    (j : Fin np) (hj : rt = false ∨ TRACE < x.n j) :
    chemResidN rt g x j = chemGap g x j * chemWeights x j := by
  rcases hj with h | h
  · simp [chemResidN, h]
  · have : chemTrace x j = false := by simp [chemTrace, h]
    simp [chemResidN, this]

/-- The Jacobian blocks of the model are the partial derivatives of the residuals that the
component `g`, with its trace-removal flag `rt`, evaluates. -/
structure JacExact (rt : Bool) (g : Gas ne np) (x : ChemEqPoint ne np) (J : ChemEqJac ne np) :
    Prop where
  n_n : ∀ j k, HasDerivAt (fun t => chemResidN rt g (x.setN k t) j) (J.n_n j k) (x.n k)
  n_pi : ∀ j i, HasDerivAt (fun t => chemResidN rt g (x.setPi i t) j) (J.n_pi j i) (x.pi i)
  n_P : ∀ j, HasDerivAt (fun t => chemResidN rt g { x with P := t } j) (J.n_P j) x.P
  n_T : ∀ j, HasDerivAt (fun t => chemResidN rt g { x with T := t } j) (J.n_T j) x.T
  pi_n : ∀ i k, HasDerivAt (fun t => chemResidPi g (x.setN k t) i) (J.pi_n i k) (x.n k)
  pi_comp : ∀ i k, HasDerivAt (fun t => chemResidPi g (x.setComp k t) i) (J.pi_comp i k)
    (x.composition k)
  nMoles_n : ∀ k, HasDerivAt (fun t => chemResidNMoles (x.setN k t)) (J.nMoles_n k) (x.n k)
  nMoles_nMoles : HasDerivAt (fun t => chemResidNMoles { x with nMoles := t }) J.nMoles_nMoles
    x.nMoles

/-- **C18.** Take any component state `st`, evaluate the residuals at `x` and then linearize at
`x`. If concentrations, pressure and temperature are positive, no species is at the trace
threshold, the chemical-potential gaps vanish (convergence), and the trace mask is not stale
(trace removal was already active, or is still inactive), then `linearize` succeeds and every
block is the exact partial derivative of the residual. -/
theorem C18_exact_at_convergence (g : Gas ne np) (st : ChemEqState np) (x : ChemEqPoint ne np)
    (hn : ∀ j, TRACE < x.n j) (hP : 0 < x.P) (hT : 0 < x.T)
    (hgap : ∀ j, chemPotential g x.T x.P x.n j = ∑ i, x.pi i * g.aij i j)
    (hmask : st.removeTrace = true ∨ (applyNonlinear g st x).1.removeTrace = false) :
    ∃ J, chemLinearize g (applyNonlinear g st x).1 x = .ok J ∧ JacExact st.removeTrace g x J := by
  have hpos : ∀ j, 0 < x.n j := fun j => lt_trans TRACE_pos (hn j)
  have hgap' : ∀ j, chemGap g x j = 0 := by
    intro j; rw [chemGap, chemMu_eq g x hpos hP, hgap j, sub_self]
  have hpp : 0 < x.P / P_REF := div_pos hP P_REF_pos
  have htr : ∀ j, chemTrace x j = false := by intro j; simp [chemTrace, hn j]
  have hlow : ∀ j, decide (x.n j ≤ 1.0e-10) = false := by
    intro j
    have := hn j
    unfold TRACE at this
    have h2 : ¬ x.n j ≤ 1.0e-10 := by
      rw [not_le]; refine lt_trans ?_ this; norm_num
    exact decide_eq_false h2
  have key : JacExact st.removeTrace g x
      { n_n := fun j k => (if j = k then 1 / x.n j - 1 / ∑ m, x.n m else -(1 / ∑ m, x.n m))
          * chemWeights x j
        n_pi := fun j i => -(g.aij i j) * chemWeights x j
        n_P := fun j => chemWeights x j * (1.0 / P_REF / (x.P / P_REF))
        n_T := fun j => (g.dH0 x.T j - g.dS0 x.T j) * chemWeights x j
        pi_n := g.aij
        pi_comp := fun i k => if i = k then -1 else 0
        nMoles_n := fun _ => 1
        nMoles_nMoles := -1 } := by
    refine ⟨fun j k => ?_, fun j i => ?_, fun j => ?_, fun j => ?_, fun i k => ?_,
      fun i k => ?_, fun k => ?_, ?_⟩
    · have h1 := gap_deriv_n g x hpos j k
      have h2 := (weights_diff x j k).hasDerivAt
      have h3 := h1.mul h2
      have hx : x.setN k (x.n k) = x := by simp [ChemEqPoint.setN]
      simp only [hx, hgap' j, zero_mul, add_zero] at h3
      refine (h3.congr_deriv ?_).congr_of_eventuallyEq (resid_eventually _ g x j (.inr (hn j)) k)
      by_cases hjk : j = k
      · simp only [if_pos hjk]
      · simp only [if_neg hjk]; ring
    · have : ∀ t, chemResidN st.removeTrace g (x.setPi i t) j
          = (chemMu g x j - ∑ m, g.aij m j * Function.update x.pi i t m) * chemWeights x j := by
        intro t
        rw [resid_eq _ _ (x.setPi i t) _ (.inr (hn j))]
        simp only [chemGap, ChemEqPoint.setPi, mul_comm]
        rfl
      simp only [this]
      exact ((hasDerivAt_sum_update x.pi (fun m => g.aij m j) i (x.pi i)).const_sub _).mul_const _
    · have hl : HasDerivAt (fun t => Real.log (t / P_REF)) (1 / x.P) x.P := by
        have := ((hasDerivAt_id x.P).div_const P_REF).log hpp.ne'
        refine this.congr_deriv ?_
        have := P_REF_pos.ne'
        simp only [id]
        field_simp
      have hd := (((hl.const_add (g.H0 x.T j - g.S0 x.T j + Real.log (x.n j))).sub_const
        (Real.log (∑ k, x.n k))).sub_const (∑ i, x.pi i * g.aij i j)).mul_const (chemWeights x j)
      refine (hd.congr_deriv ?_).congr_of_eventuallyEq ?_
      · have := P_REF_pos.ne'
        norm_num
        field_simp
      · filter_upwards [lt_mem_nhds hP] with t ht
        have h0 : 0 < t / P_REF := div_pos ht P_REF_pos
        rw [resid_eq _ _ { x with P := t } _ (.inr (hn j))]
        simp only [chemGap, chemMu, if_pos h0]
        rfl
    · have hd : HasDerivAt (fun t => g.H0 t j - g.S0 t j) (g.dH0 x.T j - g.dS0 x.T j) x.T := by
        have h1 := C15_H0_applyJ (g.rows j) x.T hT 1
        have h2 := C15_S0_applyJ (g.rows j) x.T hT 1
        simp only [one_mul] at h1 h2
        exact h1.sub h2
      have hd2 := ((((hd.add_const (Real.log (x.n j))).add_const
        (Real.log (if 0 < x.P / P_REF then x.P / P_REF else 1e-5))).sub_const
        (Real.log (∑ k, x.n k))).sub_const (∑ i, x.pi i * g.aij i j)).mul_const (chemWeights x j)
      refine hd2.congr_of_eventuallyEq (Eventually.of_forall (fun t => ?_))
      simp only
      rw [resid_eq _ _ { x with T := t } _ (.inr (hn j))]
      rfl
    · exact (hasDerivAt_sum_update x.n (g.aij i) k (x.n k)).sub_const _
    · have := (hasDerivAt_update x.composition k i (x.composition k)).const_sub
        (∑ j, g.aij i j * x.n j)
      refine this.congr_deriv ?_
      by_cases hik : i = k <;> simp [hik]
    · have := (hasDerivAt_sum_update x.n (fun _ => 1) k (x.n k)).sub_const x.nMoles
      simpa [chemResidNMoles, ChemEqPoint.setN] using this
    · exact (hasDerivAt_id' x.nMoles).const_sub (∑ k, x.n k)
  by_cases hrt : (applyNonlinear g st x).1.removeTrace = true
  · have hst : st.removeTrace = true := by
      rcases hmask with h | h
      · exact h
      · rw [h] at hrt; cases hrt
    refine ⟨_, ?_, key⟩
    simp only [chemLinearize, hrt, if_true]
    simp only [applyNonlinear, hst, if_true, htr, Bool.false_or, Bool.false_eq_true, if_false,
      hlow]
  · refine ⟨_, ?_, key⟩
    simp only [chemLinearize, hrt]
    simp only [applyNonlinear, Bool.false_eq_true, if_false]

/-- One inert species of one element, all property coefficients zero. -/
noncomputable def inertGas : Gas 1 1 := ⟨fun _ _ => 1, fun _ _ => 0⟩

/-- A state of the inert gas: `n = 1`, element potential `p`, at the reference pressure. -/
noncomputable def inertPoint (p : ℝ) : ChemEqPoint 1 1 :=
  ⟨300, P_REF, fun _ => 1, fun _ => 1, fun _ => p, 1⟩

private theorem inert_gap (p t : ℝ) (ht : 0 < t) (j : Fin 1) :
    chemGap inertGas ((inertPoint p).setN 0 t) j = -p := by
  have hP : P_REF ≠ 0 := P_REF_pos.ne'
  have : j = 0 := Subsingleton.elim _ _
  subst this
  simp [chemGap, chemMu, ChemEqPoint.setN, inertPoint, inertGas, Gas.H0, Gas.S0, h0, s0, hP]

/-- Non-vacuity of C18: the inert gas at its equilibrium satisfies all hypotheses with a
component whose trace removal was already active. -/
example : (∀ j, TRACE < (inertPoint 0).n j) ∧ 0 < (inertPoint 0).P ∧ 0 < (inertPoint 0).T
    ∧ (∀ j, chemPotential inertGas (inertPoint 0).T (inertPoint 0).P (inertPoint 0).n j
        = ∑ i, (inertPoint 0).pi i * inertGas.aij i j) := by
  have hP : P_REF ≠ 0 := P_REF_pos.ne'
  refine ⟨fun j => ?_, P_REF_pos, by simp [inertPoint], fun j => ?_⟩
  · simp only [inertPoint, TRACE]; norm_num
  · simp [chemPotential, inertPoint, inertGas, Gas.H0, Gas.S0, h0, s0, hP]

/-- **C18 is false away from convergence.** At a state whose chemical-potential gap is not zero,
the block `J['n','n']` is not the derivative of the residual, because the damping weight is
treated as a constant. (Evaluate, then linearize, a fresh component at the same point.) -/
theorem C18_refuted_away_from_convergence :
    ¬ ∀ (ne np : Nat) (g : Gas ne np) (x : ChemEqPoint ne np), (∀ j, TRACE < x.n j) → 0 < x.P →
      0 < x.T → ∀ J, chemLinearize g (applyNonlinear g (ChemEqState.init np) x).1 x = .ok J →
        JacExact false g x J := by
  intro hall
  have hn : ∀ j, TRACE < (inertPoint 1).n j := by
    intro j; simp only [inertPoint, TRACE]; norm_num
  -- the flag is off after the evaluation, so linearize succeeds
  have hpos : 0 < chemWeights (inertPoint 1) 0 := by
    unfold chemWeights
    apply residWeighting_pos
    simp [inertPoint]
  have hd : HasDerivAt (fun t : ℝ => chemResidN false inertGas ((inertPoint 1).setN 0 t) 0)
      (-(2 * (2e5 * Real.exp (-1e5)) / (1 + Real.exp (-1e5)) ^ 2)) 1 := by
    have h1 : HasDerivAt (fun t : ℝ => -1e5 * (t * t)) (-1e5 * (1 * 1 + 1 * 1)) 1 :=
      ((hasDerivAt_id' (1:ℝ)).mul (hasDerivAt_id' (1:ℝ))).const_mul _
    have h2 := (h1.exp).const_add 1
    have h3 := ((hasDerivAt_const (1:ℝ) (1:ℝ)).div h2 (by positivity)).sub_const (0.5 : ℝ)
    have h4 := (h3.mul_const 2).const_mul (-1 : ℝ)
    refine (h4.congr_deriv ?_).congr_of_eventuallyEq ?_
    · norm_num
      ring
    · filter_upwards [lt_mem_nhds (show (0:ℝ) < 1 by norm_num)] with t ht
      rw [resid_eq _ _ _ _ (.inl rfl), inert_gap 1 t ht]
      simp [chemWeights, residWeighting, ChemEqPoint.setN]
  by_cases hrt : (applyNonlinear inertGas (ChemEqState.init 1) (inertPoint 1)).1.removeTrace = true
  · -- impossible: the residual is a full weight away from zero
    exfalso
    have hrt : Real.sqrt (∑ j, chemResidN false inertGas (inertPoint 1) j ^ 2) < 1e-4 :=
      of_decide_eq_true hrt
    have hg : chemGap inertGas (inertPoint 1) 0 = -1 := by
      have := inert_gap 1 1 (by norm_num) 0
      have hx : (inertPoint 1).setN 0 1 = inertPoint 1 := by
        simp only [ChemEqPoint.setN, inertPoint]
        congr 1; funext j; fin_cases j; simp
      rwa [hx] at this
    have hr : chemResidN false inertGas (inertPoint 1) 0 = -chemWeights (inertPoint 1) 0 := by
      rw [resid_eq _ _ _ _ (.inl rfl), hg]; ring
    have hs : ∑ j, chemResidN false inertGas (inertPoint 1) j ^ 2
        = chemWeights (inertPoint 1) 0 ^ 2 := by
      rw [Fin.sum_univ_one, hr]; ring
    rw [hs, Real.sqrt_sq hpos.le] at hrt
    have hexp : Real.exp (-1e5) < 1 / 2 := by
      have h1 : Real.exp (-1e5) * (1e5 + 1) ≤ 1 := by
        have := Real.add_one_le_exp (1e5 : ℝ)
        have he : Real.exp (-1e5) * Real.exp 1e5 = 1 := by rw [← Real.exp_add]; norm_num
        have h0 := Real.exp_pos (-1e5)
        nlinarith
      have h0 := Real.exp_pos (-1e5)
      norm_num at h1 ⊢
      linarith
    have hw : chemWeights (inertPoint 1) 0 = (1 / (1 + Real.exp (-1e5)) - 0.5) * 2 := by
      simp [chemWeights, residWeighting, inertPoint]
    rw [hw] at hrt
    have h0 := Real.exp_pos (-1e5)
    have : 2 / 3 < 1 / (1 + Real.exp (-1e5)) := by
      rw [lt_div_iff₀ (by positivity)]; linarith
    norm_num at hrt this
    linarith
  · obtain ⟨J, hL, hJnn⟩ : ∃ J, chemLinearize inertGas
        (applyNonlinear inertGas (ChemEqState.init 1) (inertPoint 1)).1 (inertPoint 1) = .ok J
        ∧ J.n_n 0 0 = 0 := by
      simp only [chemLinearize, hrt]
      simp only [applyNonlinear, Bool.false_eq_true, if_false]
      exact ⟨_, rfl, by simp [inertPoint]⟩
    have hex := (hall 1 1 inertGas (inertPoint 1) hn P_REF_pos (by simp [inertPoint]) _ hL).n_n 0 0
    have hu := hex.unique hd
    have hne : (2 * (2e5 * Real.exp (-1e5)) / (1 + Real.exp (-1e5)) ^ 2) ≠ 0 := by positivity
    apply hne
    rw [← neg_eq_zero, ← hu, hJnn]

/-! ## C43: does the residual depend on earlier evaluations? -/

/-- **C43 (partial: no species at the trace threshold).** The residuals do not depend on the
internal state left by earlier evaluations, provided every concentration is above the trace
threshold. Missing for the full claim: trace species, where it is false
(`C43_refuted_residual`). -/
theorem C43_history_independent_partial (g : Gas ne np) (st st' : ChemEqState np)
    (x : ChemEqPoint ne np) (hn : ∀ j, TRACE < x.n j) :
    (applyNonlinear g st x).2 = (applyNonlinear g st' x).2 := by
  have : chemResidN st.removeTrace g x = chemResidN st'.removeTrace g x := by
    funext j
    rw [resid_eq _ _ _ _ (.inr (hn j)), resid_eq _ _ _ _ (.inr (hn j))]
  simp only [applyNonlinear, this]

/-- **C43 (partial, continued).** In any case only the residuals of trace species can differ. -/
theorem C43_only_trace_species_differ (g : Gas ne np) (st st' : ChemEqState np)
    (x : ChemEqPoint ne np) :
    (applyNonlinear g st x).2.pi = (applyNonlinear g st' x).2.pi
    ∧ (applyNonlinear g st x).2.nMoles = (applyNonlinear g st' x).2.nMoles
    ∧ ∀ j, TRACE < x.n j → (applyNonlinear g st x).2.n j = (applyNonlinear g st' x).2.n j := by
  refine ⟨rfl, rfl, fun j hj => ?_⟩
  show chemResidN _ g x j = chemResidN _ g x j
  rw [resid_eq _ _ _ _ (.inr hj), resid_eq _ _ _ _ (.inr hj)]

/-- A point of the inert gas with a trace concentration and a non-zero potential. -/
noncomputable def tracePoint : ChemEqPoint 1 1 :=
  ⟨300, P_REF, fun _ => 1, fun _ => 1e-10, fun _ => 1, 1e-10⟩

/-- **C43 is false.** The same point evaluated twice gives two different residuals, if in
between the component was evaluated at a converged point: histories `[y]` and `[]`. -/
theorem C43_refuted_residual :
    ∃ (g : Gas 1 1) (x y : ChemEqPoint 1 1), 0 < x.n 0 ∧ 0 < x.P ∧
      (applyNonlinear g (ChemEqState.init 1) x).2.n 0
        ≠ (applyNonlinear g (applyNonlinear g (ChemEqState.init 1) y).1 x).2.n 0 := by
  refine ⟨inertGas, tracePoint, inertPoint 0, by simp only [tracePoint]; norm_num, P_REF_pos, ?_⟩
  have hg : chemGap inertGas (inertPoint 0) 0 = 0 := by
    have := inert_gap 0 1 (by norm_num) 0
    have hx : (inertPoint 0).setN 0 1 = inertPoint 0 := by
      simp only [ChemEqPoint.setN, inertPoint]
      congr 1; funext j; fin_cases j; simp
    rwa [hx, neg_zero] at this
  have hflag : (applyNonlinear inertGas (ChemEqState.init 1) (inertPoint 0)).1.removeTrace
      = true := by
    apply decide_eq_true
    have hr : chemResidN false inertGas (inertPoint 0) 0 = 0 := by
      rw [resid_eq _ _ _ _ (.inl rfl), hg, zero_mul]
    show Real.sqrt (∑ j, chemResidN false inertGas (inertPoint 0) j ^ 2) < 1e-4
    rw [Fin.sum_univ_one, hr]
    norm_num
  have htr : chemTrace tracePoint 0 = true := by
    apply decide_eq_true
    simp only [tracePoint, TRACE]; norm_num
  have h2 : (applyNonlinear inertGas
      (applyNonlinear inertGas (ChemEqState.init 1) (inertPoint 0)).1 tracePoint).2.n 0 = 0 := by
    show chemResidN _ inertGas tracePoint 0 = 0
    rw [chemResidN, hflag, htr]; simp
  rw [h2]
  show chemResidN false inertGas tracePoint 0 ≠ 0
  rw [resid_eq _ _ _ _ (.inl rfl)]
  have hP : P_REF ≠ 0 := P_REF_pos.ne'
  have hgap : chemGap inertGas tracePoint 0 = -1 := by
    simp [chemGap, chemMu, tracePoint, inertGas, Gas.H0, Gas.S0, h0, s0, hP]
  have hw : 0 < chemWeights tracePoint 0 := by
    unfold chemWeights; apply residWeighting_pos; simp only [tracePoint, Fin.sum_univ_one]; norm_num
  rw [hgap]
  simp [hw.ne']

/-- **C43 (linearize after a first converged evaluation).** Linearizing a component right after
its very first residual evaluation fails with an `AttributeError` whenever that evaluation was
already converged to `1e-4`: the trace mask it reads has never been assigned. -/
theorem C43_linearize_attribute_error (g : Gas ne np) (x : ChemEqPoint ne np)
    (h : Real.sqrt (∑ j, (applyNonlinear g (ChemEqState.init np) x).2.n j ^ 2) < 1e-4) :
    chemLinearize g (applyNonlinear g (ChemEqState.init np) x).1 x = .error .attributeError := by
  have hflag : (applyNonlinear g (ChemEqState.init np) x).1.removeTrace = true :=
    decide_eq_true h
  have htr : (applyNonlinear g (ChemEqState.init np) x).1.trace = none := rfl
  have hw : (applyNonlinear g (ChemEqState.init np) x).1.weights = some (chemWeights x) := rfl
  unfold chemLinearize
  rw [hw, hflag, htr]
  rfl

/-- Non-vacuity of `C43_linearize_attribute_error`: an equilibrium point of the inert gas. -/
example : Real.sqrt (∑ j, (applyNonlinear inertGas (ChemEqState.init 1) (inertPoint 0)).2.n j ^ 2)
    < 1e-4 := by
  have hg : chemGap inertGas (inertPoint 0) 0 = 0 := by
    have := inert_gap 0 1 (by norm_num) 0
    have hx : (inertPoint 0).setN 0 1 = inertPoint 0 := by
      simp only [ChemEqPoint.setN, inertPoint]
      congr 1; funext j; fin_cases j; simp
    rwa [hx, neg_zero] at this
  have hr : (applyNonlinear inertGas (ChemEqState.init 1) (inertPoint 0)).2.n 0 = 0 := by
    show chemResidN false inertGas (inertPoint 0) 0 = 0
    rw [resid_eq _ _ _ _ (.inl rfl), hg, zero_mul]
  rw [Fin.sum_univ_one, hr]
  norm_num

end PyCycle
