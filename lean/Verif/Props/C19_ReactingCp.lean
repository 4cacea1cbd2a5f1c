import Verif.Spec.EquilibriumPath
import Verif.Lemmas.ChemEq
import Verif.Props.C15_Polynomials

/-! # C19: Cp, Cv, gamma computed from the auxiliary linear systems are the thermodynamic
derivatives along equilibrium -/

namespace PyCycle
open Finset Filter Topology
variable {ne np : Nat}

/-- The inputs of `PropsCalcs` at an equilibrium state when the two linear systems
`lhs_TP · result_T = rhs_T`, `lhs_TP · result_P = rhs_P` (props_rhs.py, solved by
`LinearSystemComp` in cea thermo) have been solved, and the matrix is non-singular. -/
structure SolvedProps (g : Gas ne np) (b : Fin ne → ℝ) (T P : ℝ) (n : Fin np → ℝ)
    (x : PropsIn ne np) : Prop where
  T_eq : x.T = T
  P_eq : x.P = P
  n_eq : x.n = n
  nMoles_eq : x.nMoles = ∑ j, n j
  solveT : ∀ r, ∑ c, lhsTP g n b r c * x.resultT c = rhsT g T n r
  solveP : ∀ r, ∑ c, lhsTP g n b r c * x.resultP c = rhsP b (∑ j, n j) r
  nonsingular : ∀ v : Fin (ne + 1) → ℝ, (∀ r, ∑ c, lhsTP g n b r c * v c = 0) → v = 0

/-- **C19 (symmetry).** The auxiliary matrix is symmetric. -/
theorem C19_lhs_symmetric (g : Gas ne np) (n : Fin np → ℝ) (b : Fin ne → ℝ)
    (r c : Fin (ne + 1)) : lhsTP g n b r c = lhsTP g n b c r := by
  refine Fin.lastCases ?_ (fun i => ?_) r <;> refine Fin.lastCases ?_ (fun k => ?_) c
  · rfl
  · simp [lhsTP]
  · simp [lhsTP]
  · simp only [lhsTP, Fin.lastCases_castSucc]
    exact Finset.sum_congr rfl (fun j _ => by ring)

section path
variable {g : Gas ne np} {b : Fin ne → ℝ} {T P : ℝ → ℝ} {n : ℝ → Fin np → ℝ}
  {pi : ℝ → Fin ne → ℝ} {s T' P' : ℝ} {n' : Fin np → ℝ} {pi' : Fin ne → ℝ}

theorem gas_dH0 (g : Gas ne np) {T : ℝ} (hT : 0 < T) (j : Fin np) :
    HasDerivAt (fun t => g.H0 t j) ((g.Cp0 T j - g.H0 T j) / T) T := by
  have h1 := C15_H0_applyJ (g.rows j) T hT 1
  simp only [one_mul] at h1
  refine h1.congr_deriv ?_
  have h2 := C15_enthalpy (g.rows j) T hT
  have h3 := (hasDerivAt_id T).mul h1
  have := h2.unique h3
  simp only [Gas.Cp0, Gas.H0, id, one_mul] at this ⊢
  rw [this]; field_simp; ring

theorem gas_dS0 (g : Gas ne np) {T : ℝ} (hT : 0 < T) (j : Fin np) :
    HasDerivAt (fun t => g.S0 t j) (g.Cp0 T j / T) T := C15_entropy (g.rows j) T hT

/-- Implicit differentiation of the equilibrium conditions. -/
theorem EquilibriumPath.dn_eq (h : EquilibriumPath g b T P n pi s T' P' n' pi') (j : Fin np) :
    n' j = n s j * (∑ i, pi' i * g.aij i j + (∑ k, n' k) / (∑ k, n s k) - P' / P s
      + g.H0 (T s) j * (T' / T s)) := by
  have heq := h.equilibrium.self_of_nhds
  have hnj := heq.pos j
  have hN := sum_pos_of (n s) heq.pos j
  have hP := h.P_pos
  have hT := h.T_pos
  have hsum : HasDerivAt (fun u => ∑ k, n u k) (∑ k, n' k) s :=
    HasDerivAt.fun_sum (fun k _ => h.dn k)
  have hlog : HasDerivAt (fun u => Real.log (n u j / (∑ k, n u k) * (P u / P_REF)))
      (n' j / n s j - (∑ k, n' k) / (∑ k, n s k) + P' / P s) s := by
    have h1 := (((h.dn j).fun_div hsum hN.ne').fun_mul (h.dP.div_const P_REF)).log
      (mul_pos (div_pos hnj hN) (div_pos hP P_REF_pos)).ne'
    refine h1.congr_deriv ?_
    have := P_REF_pos
    field_simp
  have hpot : HasDerivAt (fun u => chemPotential g (T u) (P u) (n u) j)
      ((g.Cp0 (T s) j - g.H0 (T s) j) / T s * T' - g.Cp0 (T s) j / T s * T'
        + (n' j / n s j - (∑ k, n' k) / (∑ k, n s k) + P' / P s)) s :=
    (((gas_dH0 g hT j).comp s h.dT).sub ((gas_dS0 g hT j).comp s h.dT)).add hlog
  have hpi : HasDerivAt (fun u => ∑ i, pi u i * g.aij i j) (∑ i, pi' i * g.aij i j) s :=
    HasDerivAt.fun_sum (fun i _ => (h.dpi i).mul_const _)
  have hev : (fun u => chemPotential g (T u) (P u) (n u) j)
      =ᶠ[𝓝 s] (fun u => ∑ i, pi u i * g.aij i j) :=
    h.equilibrium.mono (fun u hu => hu.potential j)
  have := (hpot.congr_of_eventuallyEq hev.symm).unique hpi
  rw [← this]
  field_simp
  ring

theorem EquilibriumPath.elements' (h : EquilibriumPath g b T P n pi s T' P' n' pi') (i : Fin ne) :
    ∑ j, g.aij i j * n' j = 0 := by
  have h1 : HasDerivAt (fun u => ∑ j, g.aij i j * n u j) (∑ j, g.aij i j * n' j) s :=
    HasDerivAt.fun_sum (fun j _ => (h.dn j).const_mul _)
  have hev : (fun u => ∑ j, g.aij i j * n u j) =ᶠ[𝓝 s] (fun _ => b i) :=
    h.equilibrium.mono (fun u hu => hu.elements i)
  exact (h1.congr_of_eventuallyEq hev.symm).unique (hasDerivAt_const s (b i))

/-- The vector `(π', N'/N)` of sensitivities along the path. -/
noncomputable def sens (n₀ : Fin np → ℝ) (n' : Fin np → ℝ) (pi' : Fin ne → ℝ) :
    Fin (ne + 1) → ℝ :=
  Fin.snoc (α := fun _ => ℝ) pi' ((∑ k, n' k) / (∑ k, n₀ k))

theorem EquilibriumPath.system (h : EquilibriumPath g b T P n pi s T' P' n' pi')
    (r : Fin (ne + 1)) :
    ∑ c, lhsTP g (n s) b r c * sens (n s) n' pi' c
      = -(rhsT g (T s) (n s) r) * (T' / T s) + rhsP b (∑ j, n s j) r * (P' / P s) := by
  have heq := h.equilibrium.self_of_nhds
  refine Fin.lastCases ?_ (fun i => ?_) r
  · have key : ∑ j, n' j = ∑ j, n s j * (∑ i, pi' i * g.aij i j + (∑ k, n' k) / (∑ k, n s k)
      - P' / P s + g.H0 (T s) j * (T' / T s)) :=
      Finset.sum_congr rfl (fun j _ => h.dn_eq j)
    have e1 : ∑ j, n s j * (∑ i, pi' i * g.aij i j) = ∑ i, b i * pi' i := by
      simp only [Finset.mul_sum]
      rw [Finset.sum_comm]
      refine Finset.sum_congr rfl (fun i _ => ?_)
      rw [← heq.elements i, Finset.sum_mul]
      exact Finset.sum_congr rfl (fun j _ => by ring)
    have key2 : ∑ j, n' j = ∑ i, b i * pi' i
        + (∑ j, n s j) * ((∑ k, n' k) / (∑ k, n s k)) - (∑ j, n s j) * (P' / P s)
        + (∑ j, n s j * g.H0 (T s) j) * (T' / T s) := by
      refine key.trans ?_
      rw [← e1, Finset.sum_mul, Finset.sum_mul, Finset.sum_mul, ← Finset.sum_add_distrib,
        ← Finset.sum_sub_distrib, ← Finset.sum_add_distrib]
      exact Finset.sum_congr rfl (fun j _ => by ring)
    have e2 : (∑ j, n s j) * ((∑ k, n' k) / (∑ k, n s k)) = ∑ k, n' k := by
      rcases isEmpty_or_nonempty (Fin np) with he | ⟨⟨j⟩⟩
      · simp
      · have := (sum_pos_of (n s) heq.pos j).ne'
        field_simp
    rw [e2] at key2
    rw [Fin.sum_univ_castSucc]
    simp only [lhsTP, rhsT, rhsP, sens, Fin.lastCases_last, Fin.lastCases_castSucc,
      Fin.snoc_castSucc, Fin.snoc_last, zero_mul, add_zero]
    linarith
  · have key := h.elements' i
    have e1 : ∑ j, g.aij i j * n' j = ∑ j, g.aij i j * (n s j * (∑ i, pi' i * g.aij i j
        + (∑ k, n' k) / (∑ k, n s k) - P' / P s + g.H0 (T s) j * (T' / T s))) :=
      Finset.sum_congr rfl (fun j _ => by rw [← h.dn_eq j])
    rw [e1] at key
    have e2 : ∑ k, (∑ j, g.aij i j * g.aij k j * n s j) * pi' k
        = ∑ j, g.aij i j * n s j * (∑ k, pi' k * g.aij k j) := by
      simp only [Finset.mul_sum, Finset.sum_mul]
      rw [Finset.sum_comm]
      exact Finset.sum_congr rfl (fun j _ => Finset.sum_congr rfl (fun k _ => by ring))
    have e3 : ∑ j, g.aij i j * (n s j * (∑ i, pi' i * g.aij i j
        + (∑ k, n' k) / (∑ k, n s k) - P' / P s + g.H0 (T s) j * (T' / T s)))
        = ∑ j, g.aij i j * n s j * (∑ k, pi' k * g.aij k j)
          + b i * ((∑ k, n' k) / (∑ k, n s k)) - b i * (P' / P s)
          + (∑ j, g.aij i j * (n s j * g.H0 (T s) j)) * (T' / T s) := by
      rw [← heq.elements i, Finset.sum_mul, Finset.sum_mul, Finset.sum_mul,
        ← Finset.sum_add_distrib, ← Finset.sum_sub_distrib, ← Finset.sum_add_distrib]
      exact Finset.sum_congr rfl (fun j _ => by ring)
    rw [e3] at key
    rw [Fin.sum_univ_castSucc]
    simp only [lhsTP, rhsT, rhsP, sens, Fin.lastCases_last, Fin.lastCases_castSucc,
      Fin.snoc_castSucc, Fin.snoc_last]
    rw [e2]
    linarith

variable {x : PropsIn ne np}

theorem EquilibriumPath.sens_eq (h : EquilibriumPath g b T P n pi s T' P' n' pi')
    (hx : SolvedProps g b (T s) (P s) (n s) x) (c : Fin (ne + 1)) :
    sens (n s) n' pi' c = -(x.resultT c) * (T' / T s) + x.resultP c * (P' / P s) := by
  have hz := hx.nonsingular (fun c => sens (n s) n' pi' c
    - (-(x.resultT c) * (T' / T s) + x.resultP c * (P' / P s))) (fun r => by
      have e : ∑ c, lhsTP g (n s) b r c * (sens (n s) n' pi' c
          - (-(x.resultT c) * (T' / T s) + x.resultP c * (P' / P s)))
          = ∑ c, lhsTP g (n s) b r c * sens (n s) n' pi' c
            + (∑ c, lhsTP g (n s) b r c * x.resultT c) * (T' / T s)
            - (∑ c, lhsTP g (n s) b r c * x.resultP c) * (P' / P s) := by
        rw [Finset.sum_mul, Finset.sum_mul, ← Finset.sum_add_distrib, ← Finset.sum_sub_distrib]
        exact Finset.sum_congr rfl (fun j _ => by ring)
      rw [e, hx.solveT, hx.solveP, h.system r]
      ring)
  have := congrFun hz c
  simp only [Pi.zero_apply] at this
  linarith

/-- Maxwell-type relation: `result_P · rhs_T - rhs_T[last] = N * result_T[last]`. -/
theorem SolvedProps.maxwell {T P : ℝ} {n : Fin np → ℝ} (hx : SolvedProps g b T P n x) :
    ∑ r, rhsT g T n r * x.resultP r
      = rhsT g T n (Fin.last ne) + (∑ j, n j) * x.resultT (Fin.last ne) := by
  have h1 : ∑ r, rhsT g T n r * x.resultP r
      = ∑ c, x.resultT c * rhsP b (∑ j, n j) c := by
    calc ∑ r, rhsT g T n r * x.resultP r
        = ∑ r, (∑ c, lhsTP g n b r c * x.resultT c) * x.resultP r :=
          Finset.sum_congr rfl (fun r _ => by rw [hx.solveT])
      _ = ∑ c, x.resultT c * ∑ r, lhsTP g n b c r * x.resultP r := by
          simp only [Finset.sum_mul, Finset.mul_sum]
          rw [Finset.sum_comm]
          refine Finset.sum_congr rfl (fun c _ => Finset.sum_congr rfl (fun r _ => ?_))
          rw [C19_lhs_symmetric g n b r c]; ring
      _ = _ := Finset.sum_congr rfl (fun c _ => by rw [hx.solveP])
  have h2 := hx.solveT (Fin.last ne)
  rw [Fin.sum_univ_castSucc] at h2
  rw [h1, Fin.sum_univ_castSucc, ← h2]
  simp only [lhsTP, rhsP, Fin.lastCases_last, Fin.lastCases_castSucc, zero_mul, add_zero]
  rw [mul_comm (x.resultT (Fin.last ne))]
  congr 1
  exact Finset.sum_congr rfl (fun i _ => by ring)

/-- `Σ n'_j H0_j` along the path. -/
theorem EquilibriumPath.sum_dn_H0 (h : EquilibriumPath g b T P n pi s T' P' n' pi')
    (hx : SolvedProps g b (T s) (P s) (n s) x) :
    ∑ j, n' j * g.H0 (T s) j
      = x.Cpe g * (T' / T s) + (∑ j, n s j) * x.resultT (Fin.last ne) * (P' / P s) := by
  have e0 : ∑ j, n' j * g.H0 (T s) j
      = ∑ r, rhsT g (T s) (n s) r * sens (n s) n' pi' r
        - rhsT g (T s) (n s) (Fin.last ne) * (P' / P s)
        + (∑ j, n s j * g.H0 (T s) j * g.H0 (T s) j) * (T' / T s) := by
    rw [Fin.sum_univ_castSucc]
    simp only [rhsT, sens, Fin.lastCases_last, Fin.lastCases_castSucc,
      Fin.snoc_castSucc, Fin.snoc_last]
    have e2 : ∑ i, (∑ j, g.aij i j * (n s j * g.H0 (T s) j)) * pi' i
        = ∑ j, n s j * g.H0 (T s) j * (∑ i, pi' i * g.aij i j) := by
      simp only [Finset.mul_sum, Finset.sum_mul]
      rw [Finset.sum_comm]
      exact Finset.sum_congr rfl (fun j _ => Finset.sum_congr rfl (fun k _ => by ring))
    rw [e2, Finset.sum_mul, Finset.sum_mul, Finset.sum_mul, ← Finset.sum_add_distrib,
      ← Finset.sum_sub_distrib, ← Finset.sum_add_distrib]
    refine Finset.sum_congr rfl (fun j _ => ?_)
    rw [h.dn_eq j]; ring
  rw [e0]
  have e1 : ∑ r, rhsT g (T s) (n s) r * sens (n s) n' pi' r
      = -(∑ r, rhsT g (T s) (n s) r * x.resultT r) * (T' / T s)
        + (∑ r, rhsT g (T s) (n s) r * x.resultP r) * (P' / P s) := by
    rw [← Finset.sum_neg_distrib, Finset.sum_mul, Finset.sum_mul, ← Finset.sum_add_distrib]
    exact Finset.sum_congr rfl (fun r _ => by rw [h.sens_eq hx r]; ring)
  rw [e1, hx.maxwell]
  have e3 : x.Cpe g = -(∑ r, rhsT g (T s) (n s) r * x.resultT r)
      + ∑ j, n s j * g.H0 (T s) j * g.H0 (T s) j := by
    rw [PropsIn.Cpe, hx.T_eq, hx.n_eq, Fin.sum_univ_castSucc]
    simp only [rhsT, Fin.lastCases_last, Fin.lastCases_castSucc]
    ring
  rw [e3]
  ring

/-- **C19 (enthalpy).** Along any differentiable family of equilibria the enthalpy changes by
`Cp dT + N R T (1 - dlnV/dlnT) dlnP`, with the `Cp` and `dlnV/dlnT` the component computes. -/
theorem C19_enthalpy (h : EquilibriumPath g b T P n pi s T' P' n' pi')
    (hx : SolvedProps g b (T s) (P s) (n s) x) :
    HasDerivAt (fun u => mixEnthalpy g (T u) (n u))
      (x.Cp g * T' + (∑ j, n s j) * R_ENG * T s * (1 - x.dlnVqdlnT) * (P' / P s)) s := by
  have hT := h.T_pos
  have hj : ∀ j, HasDerivAt (fun u => n u j * (g.H0 (T u) j * (R_ENG * T u)))
      (R_ENG * T s * (n' j * g.H0 (T s) j) + R_ENG * (n s j * g.Cp0 (T s) j) * T') s := by
    intro j
    have h1 := (h.dn j).fun_mul ((((gas_dH0 g hT j).comp s h.dT)).fun_mul (h.dT.const_mul R_ENG))
    refine h1.congr_deriv ?_
    simp only [Function.comp_apply]
    field_simp
    ring
  have hs := HasDerivAt.fun_sum (u := Finset.univ) (fun j _ => hj j)
  refine hs.congr_deriv ?_
  rw [Finset.sum_add_distrib, ← Finset.mul_sum, h.sum_dn_H0 hx, ← Finset.sum_mul,
    ← Finset.mul_sum, PropsIn.Cp, PropsIn.Cpf, hx.T_eq, hx.n_eq, PropsIn.dlnVqdlnT]
  field_simp
  ring

/-- **C19 (Cp).** At constant pressure `dh = Cp dT`. -/
theorem C19_Cp (h : EquilibriumPath g b T P n pi s T' 0 n' pi')
    (hx : SolvedProps g b (T s) (P s) (n s) x) :
    HasDerivAt (fun u => mixEnthalpy g (T u) (n u)) (x.Cp g * T') s := by
  refine (C19_enthalpy h hx).congr_deriv ?_
  ring

/-- **C19 (entropy).** `dS = Cp dT/T - N R (dlnV/dlnT) dlnP`. -/
theorem C19_entropy (h : EquilibriumPath g b T P n pi s T' P' n' pi')
    (hx : SolvedProps g b (T s) (P s) (n s) x) :
    HasDerivAt (fun u => mixEntropy g (T u) (P u) (n u))
      (x.Cp g * (T' / T s) - (∑ j, n s j) * R_ENG * x.dlnVqdlnT * (P' / P s)) s := by
  have hT := h.T_pos
  have hP := h.P_pos
  have heq := h.equilibrium.self_of_nhds
  have hsum : HasDerivAt (fun u => ∑ k, n u k) (∑ k, n' k) s :=
    HasDerivAt.fun_sum (fun k _ => h.dn k)
  have hj : ∀ j, HasDerivAt (fun u => n u j *
      (R_ENG * (g.S0 (T u) j - Real.log (n u j / (∑ k, n u k) * (P u / P_REF)))))
      (R_ENG * (n' j * g.H0 (T s) j - ∑ i, pi s i * (g.aij i j * n' j)
        + n s j * g.Cp0 (T s) j * (T' / T s) - n' j
        + n s j * ((∑ k, n' k) / (∑ k, n s k)) - n s j * (P' / P s))) s := by
    intro j
    have hnj := heq.pos j
    have hN := sum_pos_of (n s) heq.pos j
    have hlog : HasDerivAt (fun u => Real.log (n u j / (∑ k, n u k) * (P u / P_REF)))
        (n' j / n s j - (∑ k, n' k) / (∑ k, n s k) + P' / P s) s := by
      have h1 := (((h.dn j).fun_div hsum hN.ne').fun_mul (h.dP.div_const P_REF)).log
        (mul_pos (div_pos hnj hN) (div_pos hP P_REF_pos)).ne'
      refine h1.congr_deriv ?_
      have := P_REF_pos
      field_simp
    have h1 := (h.dn j).fun_mul ((((gas_dS0 g hT j).comp s h.dT).sub hlog).const_mul R_ENG)
    refine h1.congr_deriv ?_
    have hpot := heq.potential j
    unfold chemPotential at hpot
    have e : ∑ i, pi s i * (g.aij i j * n' j) = (∑ i, pi s i * g.aij i j) * n' j := by
      rw [Finset.sum_mul]; exact Finset.sum_congr rfl (fun i _ => by ring)
    rw [e, ← hpot]
    simp only [Pi.sub_apply, Function.comp_apply]
    field_simp
    ring
  have hs := HasDerivAt.fun_sum (u := Finset.univ) (fun j _ => hj j)
  refine hs.congr_deriv ?_
  have e2 : ∑ j, ∑ i, pi s i * (g.aij i j * n' j) = 0 := by
    rw [Finset.sum_comm]
    refine Finset.sum_eq_zero (fun i _ => ?_)
    rw [← Finset.mul_sum, h.elements' i, mul_zero]
  have e3 : (∑ j, n s j) * ((∑ k, n' k) / (∑ k, n s k)) = ∑ k, n' k := by
    rcases isEmpty_or_nonempty (Fin np) with he | ⟨⟨j⟩⟩
    · simp
    · have := (sum_pos_of (n s) heq.pos j).ne'
      field_simp
  rw [← Finset.mul_sum]
  simp only [Finset.sum_add_distrib, Finset.sum_sub_distrib]
  rw [e2, ← Finset.sum_mul, ← Finset.sum_mul, ← Finset.sum_mul, e3, h.sum_dn_H0 hx,
    PropsIn.Cp, PropsIn.Cpf, hx.T_eq, hx.n_eq, PropsIn.dlnVqdlnT]
  ring

/-- **C19 (volume).** `dlnV = (dlnV/dlnT) dlnT + (dlnV/dlnP) dlnP` with the two coefficients the
component computes. -/
theorem C19_volume [NeZero np] (h : EquilibriumPath g b T P n pi s T' P' n' pi')
    (hx : SolvedProps g b (T s) (P s) (n s) x) :
    HasDerivAt (fun u => Real.log (mixVolume (T u) (P u) (n u)))
      (x.dlnVqdlnT * (T' / T s) + x.dlnVqdlnP * (P' / P s)) s := by
  have hT := h.T_pos
  have hP := h.P_pos
  have heq := h.equilibrium.self_of_nhds
  have hN := sum_pos_of (n s) heq.pos 0
  have hsum : HasDerivAt (fun u => ∑ k, n u k) (∑ k, n' k) s :=
    HasDerivAt.fun_sum (fun k _ => h.dn k)
  have hR := R_ENG_pos
  have h1 := ((((hsum.mul_const R_ENG).fun_mul h.dT).fun_div h.dP hP.ne')).log
    (by positivity)
  refine h1.congr_deriv ?_
  have hz := h.sens_eq hx (Fin.last ne)
  simp only [sens, Fin.snoc_last] at hz
  rw [PropsIn.dlnVqdlnT, PropsIn.dlnVqdlnP]
  have e : (1 - x.resultT (Fin.last ne)) * (T' / T s) + (-1 + x.resultP (Fin.last ne)) * (P' / P s)
      = (∑ k, n' k) / (∑ k, n s k) + T' / T s - P' / P s := by
    rw [hz]; ring
  rw [e]
  field_simp

/-- **C19 (gamma).** Along an isentropic family of equilibria `dlnP = -gamma dlnV`: the reported
`gamma` is the isentropic exponent of the reacting gas. -/
theorem C19_gamma_isentropic [NeZero np] (h : EquilibriumPath g b T P n pi s T' P' n' pi')
    (hx : SolvedProps g b (T s) (P s) (n s) x)
    (hS : HasDerivAt (fun u => mixEntropy g (T u) (P u) (n u)) 0 s)
    (hCv : x.Cv g ≠ 0) (hV : x.dlnVqdlnP ≠ 0) :
    ∃ v', HasDerivAt (fun u => Real.log (mixVolume (T u) (P u) (n u))) v' s
      ∧ HasDerivAt (fun u => Real.log (P u)) (-(x.gamma g) * v') s := by
  refine ⟨_, C19_volume h hx, ?_⟩
  refine (h.dP.log h.P_pos.ne').congr_deriv ?_
  have h0 := hS.unique (C19_entropy h hx)
  have hCvdef : x.Cv g = x.Cp g + (∑ j, n s j) * R_ENG * x.dlnVqdlnT ^ 2 / x.dlnVqdlnP := by
    rw [PropsIn.Cv, hx.nMoles_eq]
  have h1 : x.Cv g * x.dlnVqdlnP
      = x.Cp g * x.dlnVqdlnP + (∑ j, n s j) * R_ENG * x.dlnVqdlnT ^ 2 := by
    rw [hCvdef]; field_simp
  rw [PropsIn.gamma]
  have h2 : x.Cv g * x.dlnVqdlnP ≠ 0 := mul_ne_zero hCv hV
  have h3 : -(-1 * x.Cp g / x.Cv g / x.dlnVqdlnP)
      * (x.dlnVqdlnT * (T' / T s) + x.dlnVqdlnP * (P' / P s))
      = (x.Cp g * (x.dlnVqdlnT * (T' / T s) + x.dlnVqdlnP * (P' / P s)))
        / (x.Cv g * x.dlnVqdlnP) := by
    field_simp
  rw [h3, eq_div_iff h2, h1]
  linear_combination x.dlnVqdlnT * h0

/-- **C19 (Cv).** At constant volume `du = Cv dT`. -/
theorem C19_Cv [NeZero np] (h : EquilibriumPath g b T P n pi s T' P' n' pi')
    (hx : SolvedProps g b (T s) (P s) (n s) x)
    (hVol : HasDerivAt (fun u => Real.log (mixVolume (T u) (P u) (n u))) 0 s)
    (hV : x.dlnVqdlnP ≠ 0) :
    HasDerivAt (fun u => mixEnergy g (T u) (n u)) (x.Cv g * T') s := by
  have hsum : HasDerivAt (fun u => ∑ k, n u k) (∑ k, n' k) s :=
    HasDerivAt.fun_sum (fun k _ => h.dn k)
  have h1 := (C19_enthalpy h hx).sub ((hsum.mul_const R_ENG).fun_mul h.dT)
  refine h1.congr_deriv ?_
  have hT := h.T_pos
  have hP := h.P_pos
  have heq := h.equilibrium.self_of_nhds
  have hN := sum_pos_of (n s) heq.pos 0
  have h0 := hVol.unique (C19_volume h hx)
  have hz := h.sens_eq hx (Fin.last ne)
  simp only [sens, Fin.snoc_last] at hz
  have hsN : ∑ k, n' k = (∑ k, n s k) * (-(x.resultT (Fin.last ne)) * (T' / T s)
      + x.resultP (Fin.last ne) * (P' / P s)) := by
    rw [← hz]; field_simp
  have hp : P' / P s = -(x.dlnVqdlnT * (T' / T s)) / x.dlnVqdlnP := by
    rw [eq_div_iff hV]; linarith
  have hN' : ∑ k, n' k = (∑ k, n s k) * (P' / P s - T' / T s) := by
    rw [hsN]
    have : x.dlnVqdlnT * (T' / T s) + x.dlnVqdlnP * (P' / P s) = 0 := h0.symm
    rw [PropsIn.dlnVqdlnT, PropsIn.dlnVqdlnP] at this
    linear_combination (∑ k, n s k) * this
  rw [hN', hp, PropsIn.Cv, hx.nMoles_eq]
  field_simp
  ring

end path

/-- The reported `h`, `S` and `rho` are the mixture's enthalpy, entropy and (inverse) volume at
a state whose `n_moles` is the total. -/
theorem C19_outputs_are_mixture [NeZero np] (g : Gas ne np) (x : PropsIn ne np)
    (hn : ∀ j, 0 < x.n j) (hP : 0 < x.P) (hT : 0 < x.T) (hN : x.nMoles = ∑ j, x.n j) :
    x.h g = mixEnthalpy g x.T x.n ∧ x.S g = mixEntropy g x.T x.P x.n
      ∧ x.rho * mixVolume x.T x.P x.n = 100 * R_ENG / R_SI := by
  have hN0 := sum_pos_of x.n hn 0
  have hP0 := P_REF_pos
  have hR := R_SI_pos
  refine ⟨?_, ?_, ?_⟩
  · rw [PropsIn.h, mixEnthalpy, Finset.sum_mul, Finset.sum_mul]
    exact Finset.sum_congr rfl (fun j _ => by ring)
  · rw [PropsIn.S, mixEntropy, Finset.mul_sum]
    refine Finset.sum_congr rfl (fun j _ => ?_)
    have hj := hn j
    rw [hN, show x.n j / (∑ k, x.n k) * (x.P / P_REF)
      = ((∑ k, x.n k) / x.n j / (x.P / P_REF))⁻¹ by field_simp, Real.log_inv]
    ring
  · rw [PropsIn.rho, mixVolume, hN]
    field_simp

/-! ## Non-vacuity

(a) A monatomic gas (`Cp0 = 2.5`): every positive differentiable `(T, P)` curve is an equilibrium
path; `gamma = 5/3`; an isentropic and an isochoric path. (b) Two isomers in equilibrium, whose
composition really shifts along the path. -/

/-- One species, one element, `Cp0 = 5/2`. -/
noncomputable def monoGas : Gas 1 1 :=
  ⟨fun _ _ => 1, fun _ i => if i = 2 then 5 / 2 else 0⟩

theorem monoGas_path (T P : ℝ → ℝ) (s T' P' : ℝ) (hT : HasDerivAt T T' s) (hP : HasDerivAt P P' s)
    (hTp : 0 < T s) (hPp : 0 < P s) :
    ∃ pi pi', EquilibriumPath monoGas (fun _ => 1) T P (fun _ _ => 1) pi s T' P' (fun _ => 0) pi' := by
  refine ⟨fun u _ => chemPotential monoGas (T u) (P u) (fun _ => 1) 0,
    fun _ => (monoGas.Cp0 (T s) 0 - monoGas.H0 (T s) 0) / T s * T'
      - monoGas.Cp0 (T s) 0 / T s * T' + P' / P s, ?_⟩
  refine ⟨Filter.Eventually.of_forall (fun u => ⟨fun _ => one_pos, fun i => by simp [monoGas],
    fun j => by fin_cases j; simp [monoGas]⟩), hTp, hPp, hT, hP, fun _ => hasDerivAt_const _ _,
    fun i => ?_⟩
  have hlog : HasDerivAt (fun u => Real.log ((1:ℝ) / (∑ _k : Fin 1, (1:ℝ)) * (P u / P_REF)))
      (P' / P s) s := by
    have := (((hP.div_const P_REF).const_mul ((1:ℝ) / (∑ _k : Fin 1, (1:ℝ))))).log
      (by have := P_REF_pos; rw [Fin.sum_univ_one]; positivity)
    refine this.congr_deriv ?_
    have := P_REF_pos
    simp; field_simp
  exact (((gas_dH0 monoGas hTp 0).comp s hT).sub ((gas_dS0 monoGas hTp 0).comp s hT)).add hlog

/-- Solution of the two linear systems for `monoGas`. -/
noncomputable def monoProps (T P : ℝ) : PropsIn 1 1 :=
  ⟨T, P, fun _ => 1, 1, ![5 / 2, 0], ![1, 0]⟩

theorem monoProps_solved (T P : ℝ) :
    SolvedProps monoGas (fun _ => 1) T P (fun _ => 1) (monoProps T P) := by
  have hH : monoGas.H0 T 0 = 5 / 2 := by simp [monoGas, Gas.H0, h0]
  have l00 : lhsTP monoGas (fun _ => 1) (fun _ => 1) 0 0 = 1 := by
    show lhsTP monoGas (fun _ => 1) (fun _ => 1) (Fin.castSucc 0) (Fin.castSucc 0) = 1
    simp only [lhsTP, Fin.lastCases_castSucc]; simp [monoGas]
  have l01 : lhsTP monoGas (fun _ => 1) (fun _ => 1) 0 1 = 1 := by
    show lhsTP monoGas (fun _ => 1) (fun _ => 1) (Fin.castSucc 0) (Fin.last 1) = 1
    simp only [lhsTP, Fin.lastCases_castSucc, Fin.lastCases_last]
  have l10 : lhsTP monoGas (fun _ => 1) (fun _ => 1) 1 0 = 1 := by
    rw [C19_lhs_symmetric]; exact l01
  have l11 : lhsTP monoGas (fun _ => 1) (fun _ => 1) 1 1 = 0 := by
    show lhsTP monoGas (fun _ => 1) (fun _ => 1) (Fin.last 1) (Fin.last 1) = 0
    simp only [lhsTP, Fin.lastCases_last]
  have t0 : rhsT monoGas T (fun _ => 1) 0 = 5 / 2 := by
    show rhsT monoGas T (fun _ => 1) (Fin.castSucc 0) = 5 / 2
    simp only [rhsT, Fin.lastCases_castSucc]; simp [hH]; simp [monoGas]
  have t1 : rhsT monoGas T (fun _ => 1) 1 = 5 / 2 := by
    show rhsT monoGas T (fun _ => 1) (Fin.last 1) = 5 / 2
    simp only [rhsT, Fin.lastCases_last]; simp [hH]
  have p0 : rhsP (fun _ : Fin 1 => (1:ℝ)) (∑ _j : Fin 1, 1) 0 = 1 := by
    show rhsP (fun _ : Fin 1 => (1:ℝ)) (∑ _j : Fin 1, 1) (Fin.castSucc 0) = 1
    simp only [rhsP, Fin.lastCases_castSucc]
  have p1 : rhsP (fun _ : Fin 1 => (1:ℝ)) (∑ _j : Fin 1, 1) 1 = 1 := by
    show rhsP (fun _ : Fin 1 => (1:ℝ)) (∑ _j : Fin 1, 1) (Fin.last 1) = 1
    simp only [rhsP, Fin.lastCases_last]; simp
  refine ⟨rfl, rfl, rfl, by simp [monoProps], ?_, ?_, ?_⟩
  · intro r
    rw [Fin.sum_univ_two]
    fin_cases r
    · simp [l00, l01, t0, monoProps]
    · simp [l10, l11, t1, monoProps]
  · intro r
    rw [Fin.sum_univ_two]
    fin_cases r
    · refine Eq.trans ?_ p0.symm
      simp [l00, l01, monoProps]
    · refine Eq.trans ?_ p1.symm
      simp [l10, l11, monoProps]
  · intro v hv
    have h0 := hv 0
    have h1 := hv 1
    rw [Fin.sum_univ_two, l00, l01] at h0
    rw [Fin.sum_univ_two, l10, l11] at h1
    funext c
    fin_cases c
    · show v 0 = 0; linarith
    · show v 1 = 0; linarith

/-- The reported values: `Cp = 5R/2`, `Cv = 3R/2`, `gamma = 5/3`. -/
example (T P : ℝ) : (monoProps T P).Cp monoGas = 5 / 2 * R_ENG
    ∧ (monoProps T P).Cv monoGas = 3 / 2 * R_ENG
    ∧ (monoProps T P).gamma monoGas = 5 / 3 := by
  have hR := R_ENG_pos
  have hCp : (monoProps T P).Cp monoGas = 5 / 2 * R_ENG := by
    simp [PropsIn.Cp, PropsIn.Cpe, PropsIn.Cpf, monoProps, monoGas, Gas.H0, Gas.Cp0, h0, cp0]
  have hCv : (monoProps T P).Cv monoGas = 3 / 2 * R_ENG := by
    rw [PropsIn.Cv, hCp]
    simp [PropsIn.dlnVqdlnT, PropsIn.dlnVqdlnP, monoProps]
    ring
  refine ⟨hCp, hCv, ?_⟩
  rw [PropsIn.gamma, hCp, hCv]
  simp [PropsIn.dlnVqdlnP, monoProps]
  field_simp

/-- An isentropic path satisfying the hypotheses of `C19_gamma_isentropic`:
`T = u²`, `P = P_ref u⁵`. -/
example : ∃ pi pi', EquilibriumPath monoGas (fun _ => 1) (fun u => u ^ 2)
      (fun u => P_REF * u ^ 5) (fun _ _ => 1) pi 2 (2 * 2) (P_REF * (5 * 2 ^ 4)) (fun _ => 0) pi'
    ∧ HasDerivAt (fun u : ℝ => mixEntropy monoGas (u ^ 2) (P_REF * u ^ 5) (fun _ => 1)) 0 2 := by
  have hP := P_REF_pos
  obtain ⟨pi, pi', h⟩ := monoGas_path (fun u => u ^ 2) (fun u => P_REF * u ^ 5) 2 (2 * 2)
    (P_REF * (5 * 2 ^ 4)) (by simpa using hasDerivAt_pow 2 (2:ℝ))
    (by simpa using (hasDerivAt_pow 5 (2:ℝ)).const_mul P_REF) (by norm_num) (by positivity)
  refine ⟨pi, pi', h, ?_⟩
  refine (hasDerivAt_const (2:ℝ) (0:ℝ)).congr_of_eventuallyEq ?_
  filter_upwards [lt_mem_nhds (show (0:ℝ) < 2 by norm_num)] with u hu
  simp only [mixEntropy, Fin.sum_univ_one, Gas.S0, s0, monoGas]
  have : P_REF * u ^ 5 / P_REF = u ^ 5 := by field_simp
  rw [this]
  simp [Real.log_pow]
  right; ring

/-- An isochoric path satisfying the hypotheses of `C19_Cv`: `T = P = u`. -/
example : ∃ pi pi', EquilibriumPath monoGas (fun _ => 1) (fun u => u)
      (fun u => u) (fun _ _ => 1) pi 2 1 1 (fun _ => 0) pi'
    ∧ HasDerivAt (fun u : ℝ => Real.log (mixVolume u u (fun _ : Fin 1 => 1))) 0 2 := by
  obtain ⟨pi, pi', h⟩ := monoGas_path (fun u => u) (fun u => u) 2 1 1 (hasDerivAt_id _)
    (hasDerivAt_id _) (by norm_num) (by norm_num)
  refine ⟨pi, pi', h, ?_⟩
  refine (hasDerivAt_const (2:ℝ) (Real.log R_ENG)).congr_of_eventuallyEq ?_
  filter_upwards [lt_mem_nhds (show (0:ℝ) < 2 by norm_num)] with u hu
  simp only [mixVolume, Fin.sum_univ_one, one_mul]
  rw [mul_div_assoc, div_self hu.ne', mul_one]

/-- Two isomers of one element with formation enthalpies `0` and `1000 R`. -/
noncomputable def isoGas : Gas 1 2 :=
  ⟨fun _ _ => 1, fun j i => if i = 7 ∧ j = 1 then 1000 else 0⟩

/-- Mole fraction of the second isomer at equilibrium. -/
noncomputable def isoFrac (T : ℝ) : ℝ := Real.exp (-1000 / T) / (1 + Real.exp (-1000 / T))

/-- A reacting equilibrium path (hypotheses of `C19_Cp`): the isomer equilibrium at `P = P_ref`,
heated at `T = 500`; the composition shifts (`n' ≠ 0`). -/
example : ∃ n' pi', EquilibriumPath isoGas (fun _ => 1) (fun u => u) (fun _ => P_REF)
      (fun u => ![1 - isoFrac u, isoFrac u]) (fun u _ => Real.log (1 - isoFrac u)) 500 1 0 n' pi'
    ∧ n' 1 ≠ 0 := by
  have hE : HasDerivAt (fun u : ℝ => Real.exp (-1000 / u))
      (Real.exp (-1000 / 500) * (1000 / 500 ^ 2)) 500 := by
    have h1 : HasDerivAt (fun u : ℝ => -1000 / u) (1000 / 500 ^ 2) 500 := by
      have := (hasDerivAt_inv (show (500:ℝ) ≠ 0 by norm_num)).const_mul (-1000)
      refine (this.congr_deriv (by ring)).congr_of_eventuallyEq
        (Filter.Eventually.of_forall (fun u => by simp [div_eq_mul_inv]))
    exact h1.exp
  have hd : HasDerivAt isoFrac
      ((Real.exp (-1000 / 500) * (1000 / 500 ^ 2)) / (1 + Real.exp (-1000 / 500)) ^ 2) 500 := by
    have hp := Real.exp_pos (-1000 / 500)
    have := hE.fun_div (hE.const_add 1) (by positivity)
    refine this.congr_deriv ?_
    field_simp
    ring
  set d := (Real.exp (-1000 / 500) * (1000 / 500 ^ 2)) / (1 + Real.exp (-1000 / 500)) ^ 2
  have hdpos : 0 < d := by positivity
  have hone : ∀ u, 1 - isoFrac u = 1 / (1 + Real.exp (-1000 / u)) := by
    intro u
    have := Real.exp_pos (-1000 / u)
    unfold isoFrac; field_simp; ring
  have hposf : ∀ u, 0 < isoFrac u := fun u => by
    have := Real.exp_pos (-1000 / u); unfold isoFrac; positivity
  have hposo : ∀ u, 0 < 1 - isoFrac u := fun u => by
    have := Real.exp_pos (-1000 / u); rw [hone]; positivity
  refine ⟨![-d, d], fun _ => -d / (1 - isoFrac 500), ⟨?_, by norm_num, P_REF_pos, hasDerivAt_id _,
    hasDerivAt_const _ _, ?_, ?_⟩, by simpa using hdpos.ne'⟩
  · refine Filter.Eventually.of_forall (fun u => ⟨fun j => ?_, fun i => ?_, fun j => ?_⟩)
    · fin_cases j
      · exact hposo u
      · exact hposf u
    · simp [isoGas]
    · have hP := P_REF_pos.ne'
      fin_cases j
      · simp [chemPotential, isoGas, Gas.H0, Gas.S0, h0, s0, hP]
      · have hlog : Real.log (isoFrac u) = -1000 / u + Real.log (1 - isoFrac u) := by
          have := Real.exp_pos (-1000 / u)
          rw [hone, isoFrac, Real.log_div this.ne' (by positivity), Real.log_exp,
            Real.log_div one_ne_zero (by positivity), Real.log_one]
          ring
        simp [chemPotential, isoGas, Gas.H0, Gas.S0, h0, s0, hP, hlog]
        ring
  · intro j
    fin_cases j
    · simpa using (hd.const_sub 1)
    · simpa using hd
  · intro i
    exact (hd.const_sub 1).log (hposo 500).ne'

end PyCycle
