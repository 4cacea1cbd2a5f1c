import Verif.Props.C18_C43_ChemEqJac
import Verif.Props.C19_ReactingCp

/-! # C20: `PropsCalcs` and `PropsRHS` — ideal-gas relations and exact partials -/

namespace PyCycle
open Finset Filter Topology
variable {ne np : Nat}

/-! ## Perturbed inputs -/

/-- Temperature set to `t`. -/
def PropsIn.setT (x : PropsIn ne np) (t : ℝ) : PropsIn ne np := { x with T := t }
/-- Pressure set to `t`. -/
def PropsIn.setP (x : PropsIn ne np) (t : ℝ) : PropsIn ne np := { x with P := t }
/-- `n_moles` set to `t`. -/
def PropsIn.setNMoles (x : PropsIn ne np) (t : ℝ) : PropsIn ne np := { x with nMoles := t }
/-- Concentration `k` set to `t`. -/
def PropsIn.setN (x : PropsIn ne np) (k : Fin np) (t : ℝ) : PropsIn ne np :=
  { x with n := Function.update x.n k t }
/-- `result_T[r]` set to `t`. -/
def PropsIn.setRT (x : PropsIn ne np) (r : Fin (ne + 1)) (t : ℝ) : PropsIn ne np :=
  { x with resultT := Function.update x.resultT r t }
/-- `result_P[r]` set to `t`. -/
def PropsIn.setRP (x : PropsIn ne np) (r : Fin (ne + 1)) (t : ℝ) : PropsIn ne np :=
  { x with resultP := Function.update x.resultP r t }

/-! ## Relations -/

/-- **C20 (ideal gas law).** With `rho` in g/cm³, `R` in J/(kg K) and `P` in bar,
`rho R T = 100 P` (i.e. `rho[kg/m³] R T = P[Pa]`, the factor being `10⁵/10³`). -/
theorem C20_ideal_gas (x : PropsIn ne np) (hT : x.T ≠ 0) (hN : x.nMoles ≠ 0) :
    x.rho * x.R * x.T = 100 * x.P := by
  have := R_SI_pos.ne'
  rw [PropsIn.rho, PropsIn.R]
  field_simp

/-- **C20 (gamma).** `gamma · (-dlnV/dlnP) = Cp/Cv`, and the Mayer-type relation
`(Cp - Cv)(-dlnV/dlnP) = n_moles R (dlnV/dlnT)²`. -/
theorem C20_gamma_mayer (g : Gas ne np) (x : PropsIn ne np) (hV : x.dlnVqdlnP ≠ 0) :
    x.gamma g * -x.dlnVqdlnP = x.Cp g / x.Cv g
    ∧ (x.Cp g - x.Cv g) * -x.dlnVqdlnP = x.nMoles * R_ENG * x.dlnVqdlnT ^ 2 := by
  constructor
  · rw [PropsIn.gamma]; field_simp
  · rw [PropsIn.Cv]; field_simp; ring

/-- **C20 (frozen composition).** If both auxiliary solutions show no composition shift of the
total moles (`result_T[last] = result_P[last] = 0`), then `Cp - Cv = n_moles R` and
`gamma = Cp/Cv`. -/
theorem C20_frozen (g : Gas ne np) (x : PropsIn ne np) (hT : x.resultT (Fin.last ne) = 0)
    (hP : x.resultP (Fin.last ne) = 0) :
    x.Cp g - x.Cv g = x.nMoles * R_ENG ∧ x.gamma g = x.Cp g / x.Cv g := by
  constructor
  · rw [PropsIn.Cv, PropsIn.dlnVqdlnT, PropsIn.dlnVqdlnP, hT, hP]; ring
  · rw [PropsIn.gamma, PropsIn.dlnVqdlnP, hP]; ring

/-- **C20 (inequalities).** With positive `Cv`, positive moles and a compressible gas
(`dlnV/dlnP < 0`), `Cp ≥ Cv`. -/
theorem C20_Cp_ge_Cv (g : Gas ne np) (x : PropsIn ne np) (hN : 0 < x.nMoles)
    (hV : x.dlnVqdlnP < 0) : x.Cv g ≤ x.Cp g := by
  rw [PropsIn.Cv]
  have : x.nMoles * R_ENG * x.dlnVqdlnT ^ 2 / x.dlnVqdlnP ≤ 0 :=
    div_nonpos_of_nonneg_of_nonpos (by have := R_ENG_pos; positivity) hV.le
  linarith

/-! ## Exact partials -/

/-- Every declared partial of `h`, `S`, `rho`, `R`, `Cp` is the exact derivative. -/
structure PropsExact₁ (g : Gas ne np) (x : PropsIn ne np) : Prop where
  h_T : HasDerivAt (fun t => (x.setT t).h g) (x.J_h_T g) x.T
  h_n : ∀ k, HasDerivAt (fun t => (x.setN k t).h g) (x.J_h_n g k) (x.n k)
  S_T : HasDerivAt (fun t => (x.setT t).S g) (x.J_S_T g) x.T
  S_P : HasDerivAt (fun t => (x.setP t).S g) x.J_S_P x.P
  S_nMoles : HasDerivAt (fun t => (x.setNMoles t).S g) x.J_S_nMoles x.nMoles
  S_n : ∀ k, TRACE < x.n k → HasDerivAt (fun t => (x.setN k t).S g) (x.J_S_n g k) (x.n k)
  rho_T : HasDerivAt (fun t => (x.setT t).rho) x.J_rho_T x.T
  rho_P : HasDerivAt (fun t => (x.setP t).rho) x.J_rho_P x.P
  rho_nMoles : HasDerivAt (fun t => (x.setNMoles t).rho) x.J_rho_nMoles x.nMoles
  R_nMoles : HasDerivAt (fun t => (x.setNMoles t).R) R_SI x.nMoles
  Cp_T : HasDerivAt (fun t => (x.setT t).Cp g) (x.J_Cp_T g) x.T
  Cp_n : ∀ k, HasDerivAt (fun t => (x.setN k t).Cp g) (x.J_Cp_n g k) (x.n k)
  Cp_rT : ∀ r, HasDerivAt (fun t => (x.setRT r t).Cp g) (x.J_Cp_rT g r) (x.resultT r)

/-- Every declared partial of `Cv` and `gamma` is the exact derivative. -/
structure PropsExact₂ (g : Gas ne np) (x : PropsIn ne np) : Prop where
  Cv_T : HasDerivAt (fun t => (x.setT t).Cv g) (x.J_Cv_T g) x.T
  Cv_n : ∀ k, HasDerivAt (fun t => (x.setN k t).Cv g) (x.J_Cv_n g k) (x.n k)
  Cv_nMoles : HasDerivAt (fun t => (x.setNMoles t).Cv g) x.J_Cv_nMoles x.nMoles
  Cv_rT : ∀ r, HasDerivAt (fun t => (x.setRT r t).Cv g) (x.J_Cv_rT g r) (x.resultT r)
  Cv_rP : ∀ r, HasDerivAt (fun t => (x.setRP r t).Cv g) (x.J_Cv_rP r) (x.resultP r)
  gamma_T : HasDerivAt (fun t => (x.setT t).gamma g) (x.J_gamma_T g) x.T
  gamma_n : ∀ k, HasDerivAt (fun t => (x.setN k t).gamma g) (x.J_gamma_n g k) (x.n k)
  gamma_nMoles : HasDerivAt (fun t => (x.setNMoles t).gamma g) (x.J_gamma_nMoles g) x.nMoles
  gamma_rT : ∀ r, HasDerivAt (fun t => (x.setRT r t).gamma g) (x.J_gamma_rT g r) (x.resultT r)
  gamma_rP : ∀ r, HasDerivAt (fun t => (x.setRP r t).gamma g) (x.J_gamma_rP g r) (x.resultP r)

private theorem dH (g : Gas ne np) {T : ℝ} (hT : 0 < T) (j : Fin np) :
    HasDerivAt (fun t => g.H0 t j) (g.dH0 T j) T := by
  have h := C15_H0_applyJ (g.rows j) T hT 1
  simp only [one_mul] at h
  exact h

private theorem dS (g : Gas ne np) {T : ℝ} (hT : 0 < T) (j : Fin np) :
    HasDerivAt (fun t => g.S0 t j) (g.dS0 T j) T := by
  have h := C15_S0_applyJ (g.rows j) T hT 1
  simp only [one_mul] at h
  exact h

private theorem dCp (g : Gas ne np) {T : ℝ} (hT : 0 < T) (j : Fin np) :
    HasDerivAt (fun t => g.Cp0 t j) (g.dCp0 T j) T := by
  have h := C15_Cp0_applyJ (g.rows j) T hT 1
  simp only [one_mul] at h
  exact h

/-- `Σ_k c_k · update x k t` variants with the factor on the right. -/
private theorem dsum_update_right {m : Nat} (v c : Fin m → ℝ) (k : Fin m) (t : ℝ) :
    HasDerivAt (fun s => ∑ j, Function.update v k s j * c j) (c k) t := by
  simpa [mul_comm] using hasDerivAt_sum_update v c k t

/-- **C20 (partials of h, S, rho, R, Cp).** -/
theorem C20_partials₁ (g : Gas ne np) (x : PropsIn ne np) (hT : 0 < x.T) (hP : 0 < x.P)
    (hN : 0 < x.nMoles) (hn : ∀ j, 0 < x.n j) : PropsExact₁ g x := by
  have hR := R_SI_pos
  have hPr := P_REF_pos
  have hsumH : HasDerivAt (fun t => ∑ j, x.n j * g.H0 t j) (∑ j, x.n j * g.dH0 x.T j) x.T :=
    HasDerivAt.fun_sum (fun j _ => (dH g hT j).const_mul _)
  refine ⟨?_, ?_, ?_, ?_, ?_, ?_, ?_, ?_, ?_, ?_, ?_, ?_, ?_⟩
  · refine ((hsumH.mul_const R_ENG).fun_mul (hasDerivAt_id x.T)).congr_deriv ?_
    simp only [PropsIn.J_h_T, id]; ring
  · intro k
    have := ((dsum_update_right x.n (fun j => g.H0 x.T j) k (x.n k)).mul_const R_ENG).mul_const x.T
    refine this.congr_deriv ?_
    simp only [PropsIn.J_h_n]; ring
  · have := (HasDerivAt.fun_sum (u := Finset.univ) (fun (j : Fin np) _ =>
      ((dS g hT j).add_const (Real.log (x.nMoles / x.n j / (x.P / P_REF)))).const_mul
        (x.n j))).const_mul R_ENG
    exact this
  · have hj : ∀ j : Fin np, HasDerivAt (fun t => x.n j * (g.S0 x.T j
        + Real.log (x.nMoles / x.n j / (t / P_REF)))) (-(x.n j / x.P)) x.P := by
      intro j
      have hj := hn j
      have h1 : HasDerivAt (fun t => x.nMoles / x.n j / (t / P_REF))
          (-(x.nMoles / x.n j) * (1 / P_REF) / (x.P / P_REF) ^ 2) x.P := by
        refine (((hasDerivAt_const x.P (x.nMoles / x.n j)).fun_div
          ((hasDerivAt_id x.P).div_const P_REF) (by simp only [id]; positivity))).congr_deriv ?_
        simp only [id]; ring
      have h2 := ((h1.log (by positivity)).const_add (g.S0 x.T j)).const_mul (x.n j)
      refine h2.congr_deriv ?_
      field_simp
    have := (HasDerivAt.fun_sum (u := Finset.univ) (fun j _ => hj j)).const_mul R_ENG
    refine this.congr_deriv ?_
    rw [PropsIn.J_S_P, Finset.sum_neg_distrib]; ring
  · have hj : ∀ j : Fin np, HasDerivAt (fun t => x.n j * (g.S0 x.T j
        + Real.log (t / x.n j / (x.P / P_REF)))) (x.n j / x.nMoles) x.nMoles := by
      intro j
      have hj := hn j
      have h2 := (((((hasDerivAt_id x.nMoles).div_const (x.n j)).div_const (x.P / P_REF)).log
        (by simp only [id]; positivity)).const_add (g.S0 x.T j)).const_mul (x.n j)
      refine h2.congr_deriv ?_
      simp only [id]
      field_simp
    have := (HasDerivAt.fun_sum (u := Finset.univ) (fun j _ => hj j)).const_mul R_ENG
    refine this.congr_deriv ?_
    rw [PropsIn.J_S_nMoles, ← Finset.sum_div, mul_div_assoc]
  · intro k hk
    have hnk := hn k
    have hj : ∀ j : Fin np, HasDerivAt (fun t => Function.update x.n k t j * (g.S0 x.T j
        + Real.log (x.nMoles / Function.update x.n k t j / (x.P / P_REF))))
        (if j = k then g.S0 x.T k + Real.log (x.nMoles / x.n k / (x.P / P_REF)) - 1 else 0)
        (x.n k) := by
      intro j
      by_cases hjk : j = k
      · subst hjk
        simp only [Function.update_self, if_true]
        have h1 : HasDerivAt (fun t => x.nMoles / t / (x.P / P_REF))
            (-(x.nMoles / x.n j ^ 2) / (x.P / P_REF)) (x.n j) := by
          have := ((hasDerivAt_const (x.n j) x.nMoles).fun_div (hasDerivAt_id (x.n j))
            hnk.ne').div_const (x.P / P_REF)
          refine this.congr_deriv ?_
          simp only [id]; ring
        have h2 := (hasDerivAt_id (x.n j)).fun_mul
          ((h1.log (by positivity)).const_add (g.S0 x.T j))
        refine h2.congr_deriv ?_
        simp only [id]
        field_simp
        ring
      · simp only [Function.update_of_ne hjk, if_neg hjk]; exact hasDerivAt_const _ _
    have := (HasDerivAt.fun_sum (u := Finset.univ) (fun j _ => hj j)).const_mul R_ENG
    refine this.congr_deriv ?_
    rw [PropsIn.J_S_n, if_neg (not_le.mpr hk), Finset.sum_ite_eq' Finset.univ k]
    simp only [Finset.mem_univ, if_true]
    rw [Real.log_div (by positivity) (by positivity), Real.log_div hN.ne' hnk.ne']
    ring
  · have := ((hasDerivAt_const x.T x.P).fun_div ((hasDerivAt_id x.T).const_mul (x.nMoles * R_SI))
      (by simp only [id]; positivity)).mul_const 100
    refine this.congr_deriv ?_
    simp only [PropsIn.J_rho_T, id]
    field_simp
    ring
  · have := ((hasDerivAt_id x.P).div_const (x.nMoles * R_SI * x.T)).mul_const 100
    exact this
  · have := ((hasDerivAt_const x.nMoles x.P).fun_div
      (((hasDerivAt_id x.nMoles).mul_const R_SI).mul_const x.T)
      (by simp only [id]; positivity)).mul_const 100
    refine this.congr_deriv ?_
    simp only [PropsIn.J_rho_nMoles, id]
    field_simp
    ring
  · exact ((hasDerivAt_id x.nMoles).const_mul R_SI).congr_deriv (mul_one _)
  · have h1 : HasDerivAt (fun t => ∑ i : Fin ne, (∑ j, g.aij i j * (x.n j * g.H0 t j))
        * x.resultT i.castSucc)
        (∑ i : Fin ne, (∑ j, g.aij i j * x.n j * g.dH0 x.T j) * x.resultT i.castSucc) x.T := by
      refine HasDerivAt.fun_sum (fun i _ => ?_)
      refine HasDerivAt.mul_const ?_ _
      refine (HasDerivAt.fun_sum (u := Finset.univ) (fun (j : Fin np) _ =>
        ((dH g hT j).const_mul (x.n j)).const_mul (g.aij i j))).congr_deriv ?_
      exact Finset.sum_congr rfl (fun j _ => by ring)
    have h2 : HasDerivAt (fun t => ∑ j, x.n j * g.H0 t j * g.H0 t j)
        (2 * ∑ j, x.n j * g.H0 x.T j * g.dH0 x.T j) x.T := by
      refine (HasDerivAt.fun_sum (u := Finset.univ) (fun (j : Fin np) _ =>
        ((dH g hT j).const_mul (x.n j)).fun_mul (dH g hT j))).congr_deriv ?_
      rw [Finset.mul_sum]
      exact Finset.sum_congr rfl (fun j _ => by ring)
    have h3 : HasDerivAt (fun t => ∑ j, x.n j * g.Cp0 t j) (∑ j, x.n j * g.dCp0 x.T j) x.T :=
      HasDerivAt.fun_sum (fun j _ => (dCp g hT j).const_mul _)
    have := (((h1.fun_neg.fun_add h2).fun_sub
      (hsumH.mul_const (x.resultT (Fin.last ne)))).fun_add h3).mul_const R_ENG
    refine this.congr_deriv ?_
    rw [PropsIn.J_Cp_T, PropsIn.dCpe_dT, PropsIn.dCpf_dT]
    ring
  · intro k
    have h1 : HasDerivAt (fun t => ∑ i : Fin ne,
        (∑ j, g.aij i j * (Function.update x.n k t j * g.H0 x.T j)) * x.resultT i.castSucc)
        (∑ i : Fin ne, g.aij i k * g.H0 x.T k * x.resultT i.castSucc) (x.n k) := by
      refine HasDerivAt.fun_sum (fun i _ => ?_)
      refine HasDerivAt.mul_const ?_ _
      refine (dsum_update_right x.n (fun j => g.aij i j * g.H0 x.T j) k (x.n k)).congr_of_eventuallyEq
        (Eventually.of_forall (fun t => ?_))
      exact Finset.sum_congr rfl (fun j _ => by ring)
    have h2 : HasDerivAt (fun t => ∑ j, Function.update x.n k t j * g.H0 x.T j * g.H0 x.T j)
        (g.H0 x.T k ^ 2) (x.n k) := by
      refine (dsum_update_right x.n (fun j => g.H0 x.T j ^ 2) k (x.n k)).congr_of_eventuallyEq
        (Eventually.of_forall (fun t => ?_))
      exact Finset.sum_congr rfl (fun j _ => by ring)
    have h3 := dsum_update_right x.n (fun j => g.H0 x.T j) k (x.n k)
    have h4 := dsum_update_right x.n (fun j => g.Cp0 x.T j) k (x.n k)
    have := (((h1.fun_neg.fun_add h2).fun_sub
      (h3.mul_const (x.resultT (Fin.last ne)))).fun_add h4).mul_const R_ENG
    refine this.congr_deriv ?_
    rw [PropsIn.J_Cp_n]
    have : ∑ i : Fin ne, R_ENG * g.aij i k * g.H0 x.T k * x.resultT i.castSucc
        = R_ENG * ∑ i : Fin ne, g.aij i k * g.H0 x.T k * x.resultT i.castSucc := by
      rw [Finset.mul_sum]; exact Finset.sum_congr rfl (fun i _ => by ring)
    rw [this]
    ring
  · intro r
    have h1 : HasDerivAt (fun t => ∑ i : Fin ne,
        (∑ j, g.aij i j * (x.n j * g.H0 x.T j)) * Function.update x.resultT r t i.castSucc)
        (∑ i : Fin ne, (∑ j, g.aij i j * (x.n j * g.H0 x.T j))
          * (if i.castSucc = r then 1 else 0)) (x.resultT r) :=
      HasDerivAt.fun_sum (fun i _ => (hasDerivAt_update x.resultT r i.castSucc _).const_mul _)
    have h2 := (hasDerivAt_update x.resultT r (Fin.last ne) (x.resultT r)).const_mul
      (∑ j, x.n j * g.H0 x.T j)
    have := (((h1.fun_neg.add_const (∑ j, x.n j * g.H0 x.T j * g.H0 x.T j)).fun_sub h2).add_const
      (∑ j, x.n j * g.Cp0 x.T j)).mul_const R_ENG
    refine this.congr_deriv ?_
    rw [PropsIn.J_Cp_rT]
    refine Fin.lastCases ?_ (fun i => ?_) r
    · have hne : ∀ i : Fin ne, (i.castSucc = Fin.last ne) = False := fun i =>
        eq_false (Fin.castSucc_ne_last i)
      simp only [Fin.lastCases_last, hne, if_false, if_true, mul_zero, Finset.sum_const_zero]
      ring
    · have hne : (Fin.last ne = i.castSucc) = False := eq_false (Fin.castSucc_ne_last i).symm
      simp only [Fin.lastCases_castSucc, hne, if_false, Fin.castSucc_inj, mul_ite, mul_one,
        mul_zero, Finset.sum_ite_eq', Finset.mem_univ, if_true]
      ring

private theorem dgamma {Cp Cv c : ℝ → ℝ} {p' v' c' t : ℝ} (hp : HasDerivAt Cp p' t)
    (hv : HasDerivAt Cv v' t) (hc : HasDerivAt c c' t) (h1 : Cv t ≠ 0) (h2 : c t ≠ 0) :
    HasDerivAt (fun s => -1 * Cp s / Cv s / c s)
      (-(p' / (Cv t * c t)) + Cp t * v' / (Cv t ^ 2 * c t) + Cp t * c' / (Cv t * c t ^ 2)) t := by
  refine ((((hp.const_mul (-1)).fun_div hv h1).fun_div hc h2)).congr_deriv ?_
  field_simp
  ring

private theorem dCv {Cp N a c : ℝ → ℝ} {p' N' a' c' t : ℝ} (hp : HasDerivAt Cp p' t)
    (hN : HasDerivAt N N' t) (ha : HasDerivAt a a' t) (hc : HasDerivAt c c' t) (h2 : c t ≠ 0) :
    HasDerivAt (fun s => Cp s + N s * R_ENG * a s ^ 2 / c s)
      (p' + N' * R_ENG * a t ^ 2 / c t + N t * R_ENG * (2 * a t * a') / c t
        - N t * R_ENG * a t ^ 2 * c' / c t ^ 2) t := by
  refine (hp.fun_add (((hN.mul_const R_ENG).fun_mul (ha.fun_pow 2)).fun_div hc h2)).congr_deriv ?_
  field_simp
  ring

/-- **C20 (partials of Cv, gamma).** -/
theorem C20_partials₂ (g : Gas ne np) (x : PropsIn ne np) (hT : 0 < x.T) (hP : 0 < x.P)
    (hN : 0 < x.nMoles) (hn : ∀ j, 0 < x.n j) (hV : x.dlnVqdlnP ≠ 0) (hCv : x.Cv g ≠ 0) :
    PropsExact₂ g x := by
  have E := C20_partials₁ g x hT hP hN hn
  have kT : ∀ t : ℝ, HasDerivAt (fun _ : ℝ => x.dlnVqdlnT) 0 t := fun t => hasDerivAt_const _ _
  have kP : ∀ t : ℝ, HasDerivAt (fun _ : ℝ => x.dlnVqdlnP) 0 t := fun t => hasDerivAt_const _ _
  have kN : ∀ t : ℝ, HasDerivAt (fun _ : ℝ => x.nMoles) 0 t := fun t => hasDerivAt_const _ _
  have kC : ∀ t : ℝ, HasDerivAt (fun _ : ℝ => x.Cp g) 0 t := fun t => hasDerivAt_const _ _
  -- base points
  have sT : x.setT x.T = x := rfl
  have sN : ∀ k, x.setN k (x.n k) = x := fun k => by
    simp only [PropsIn.setN, Function.update_eq_self]
  have sRT : ∀ r, x.setRT r (x.resultT r) = x := fun r => by
    simp only [PropsIn.setRT, Function.update_eq_self]
  have sRP : ∀ r, x.setRP r (x.resultP r) = x := fun r => by
    simp only [PropsIn.setRP, Function.update_eq_self]
  -- Cv
  have vT : HasDerivAt (fun t => (x.setT t).Cv g) (x.J_Cv_T g) x.T :=
    (dCv E.Cp_T (kN _) (kT _) (kP _) hV).congr_deriv (by rw [PropsIn.J_Cv_T]; ring)
  have vn : ∀ k, HasDerivAt (fun t => (x.setN k t).Cv g) (x.J_Cv_n g k) (x.n k) := fun k =>
    (dCv (E.Cp_n k) (kN _) (kT _) (kP _) hV).congr_deriv (by rw [PropsIn.J_Cv_n]; ring)
  have vN : HasDerivAt (fun t => (x.setNMoles t).Cv g) x.J_Cv_nMoles x.nMoles :=
    (dCv (kC _) (hasDerivAt_id _) (kT _) (kP _) hV).congr_deriv (by
      rw [PropsIn.J_Cv_nMoles]; ring)
  have aT : ∀ r, HasDerivAt (fun t => (x.setRT r t).dlnVqdlnT)
      (if Fin.last ne = r then -1 else 0) (x.resultT r) := fun r =>
    ((hasDerivAt_update x.resultT r (Fin.last ne) (x.resultT r)).const_sub 1).congr_deriv (by
      split <;> simp)
  have cP : ∀ r, HasDerivAt (fun t => (x.setRP r t).dlnVqdlnP)
      (if Fin.last ne = r then 1 else 0) (x.resultP r) := fun r =>
    (hasDerivAt_update x.resultP r (Fin.last ne) (x.resultP r)).const_add (-1)
  have vRT : ∀ r, HasDerivAt (fun t => (x.setRT r t).Cv g) (x.J_Cv_rT g r) (x.resultT r) :=
    fun r => by
      refine (dCv (E.Cp_rT r) (kN _) (aT r) (kP _) hV).congr_deriv ?_
      rw [sRT, PropsIn.J_Cv_rT]
      by_cases hr : r = Fin.last ne
      · rw [if_pos hr, if_pos hr.symm]; ring
      · rw [if_neg hr, if_neg (Ne.symm hr)]; ring
  have vRP : ∀ r, HasDerivAt (fun t => (x.setRP r t).Cv g) (x.J_Cv_rP r) (x.resultP r) :=
    fun r => by
      refine (dCv (kC _) (kN _) (kT _) (cP r) (by rw [sRP]; exact hV)).congr_deriv ?_
      rw [sRP, PropsIn.J_Cv_rP]
      by_cases hr : r = Fin.last ne
      · rw [if_pos hr, if_pos hr.symm]; field_simp; ring
      · rw [if_neg hr, if_neg (Ne.symm hr)]; ring
  refine ⟨vT, vn, vN, vRT, vRP, ?_, ?_, ?_, ?_, ?_⟩
  · refine (dgamma E.Cp_T vT (kP _) (by rw [sT]; exact hCv) hV).congr_deriv ?_
    rw [sT, PropsIn.J_gamma_T, PropsIn.J_Cv_T]; field_simp; ring
  · intro k
    refine (dgamma (E.Cp_n k) (vn k) (kP _) (by rw [sN]; exact hCv) hV).congr_deriv ?_
    rw [sN, PropsIn.J_gamma_n, PropsIn.J_Cv_n]; field_simp; ring
  · refine (dgamma (kC _) vN (kP _) hCv hV).congr_deriv ?_
    have : x.setNMoles x.nMoles = x := rfl
    rw [this, PropsIn.J_gamma_nMoles]; field_simp; ring
  · intro r
    refine (dgamma (E.Cp_rT r) (vRT r) (kP _) (by rw [sRT]; exact hCv) hV).congr_deriv ?_
    rw [sRT, PropsIn.J_gamma_rT]
    by_cases hr : r = Fin.last ne
    · rw [if_pos hr]; field_simp; ring
    · rw [if_neg hr, PropsIn.J_Cv_rT, if_neg hr]; field_simp; ring
  · intro r
    refine (dgamma (kC _) (vRP r) (cP r) (by rw [sRP]; exact hCv)
      (by rw [sRP]; exact hV)).congr_deriv ?_
    rw [sRP, PropsIn.J_gamma_rP]
    by_cases hr : r = Fin.last ne
    · rw [if_pos hr, if_pos hr.symm]; field_simp; ring
    · rw [if_neg hr, if_neg (Ne.symm hr), PropsIn.J_Cv_rP, if_neg hr]; ring

/-- **C20 (nothing undeclared).** The partials that are *not* declared are really zero: each
output ignores the inputs it has no declared partial for. -/
theorem C20_undeclared (g : Gas ne np) (x : PropsIn ne np) (t : ℝ) (k : Fin np)
    (r : Fin (ne + 1)) :
    (x.setP t).h g = x.h g ∧ (x.setNMoles t).h g = x.h g ∧ (x.setRT r t).h g = x.h g
    ∧ (x.setRP r t).h g = x.h g
    ∧ (x.setRT r t).S g = x.S g ∧ (x.setRP r t).S g = x.S g
    ∧ (x.setN k t).rho = x.rho ∧ (x.setRT r t).rho = x.rho ∧ (x.setRP r t).rho = x.rho
    ∧ (x.setP t).Cp g = x.Cp g ∧ (x.setNMoles t).Cp g = x.Cp g ∧ (x.setRP r t).Cp g = x.Cp g
    ∧ (x.setP t).Cv g = x.Cv g ∧ (x.setP t).gamma g = x.gamma g
    ∧ (x.setT t).R = x.R ∧ (x.setP t).R = x.R ∧ (x.setN k t).R = x.R
    ∧ (x.setRT r t).R = x.R ∧ (x.setRP r t).R = x.R :=
  ⟨rfl, rfl, rfl, rfl, rfl, rfl, rfl, rfl, rfl, rfl, rfl, rfl, rfl, rfl, rfl, rfl, rfl, rfl, rfl⟩

/-! ## PropsRHS partials -/

/-- **C20 (linear-system partials).** The declared partials of the matrix and both right-hand
sides are exact. -/
theorem C20_rhs_partials (g : Gas ne np) (T N : ℝ) (hT : 0 < T) (n : Fin np → ℝ)
    (b : Fin ne → ℝ) (r c : Fin (ne + 1)) (k : Fin np) (m : Fin ne) :
    HasDerivAt (fun t => rhsT g t n r) (rhsT_dT g T n r) T
    ∧ HasDerivAt (fun t => rhsT g T (Function.update n k t) r) (rhsT_dn g T r k) (n k)
    ∧ HasDerivAt (fun t => lhsTP g (Function.update n k t) b r c) (lhsTP_dn g r c k) (n k)
    ∧ HasDerivAt (fun t => lhsTP g n (Function.update b m t) r c) (lhsTP_db r c m) (b m)
    ∧ HasDerivAt (fun t => rhsP (Function.update b m t) N r)
        (if r = m.castSucc then 1 else 0) (b m)
    ∧ HasDerivAt (fun t => rhsP b t r) (if r = Fin.last ne then 1 else 0) N := by
  have hj : ∀ j : Fin np, HasDerivAt (fun t => n j * g.H0 t j)
      (h0ApplyJ (g.rows j) T (n j)) T := fun j => C15_H0_applyJ (g.rows j) T hT (n j)
  have hne : ∀ i : Fin ne, (i.castSucc = Fin.last ne) = False := fun i =>
    eq_false (Fin.castSucc_ne_last i)
  have hne' : ∀ i : Fin ne, (Fin.last ne = i.castSucc) = False := fun i =>
    eq_false (Fin.castSucc_ne_last i).symm
  refine ⟨?_, ?_, ?_, ?_, ?_, ?_⟩
  · refine Fin.lastCases ?_ (fun i => ?_) r
    · simp only [rhsT, rhsT_dT, Fin.lastCases_last]
      exact HasDerivAt.fun_sum (fun j _ => hj j)
    · simp only [rhsT, rhsT_dT, Fin.lastCases_castSucc]
      exact HasDerivAt.fun_sum (fun j _ => (hj j).const_mul _)
  · refine Fin.lastCases ?_ (fun i => ?_) r
    · simp only [rhsT, rhsT_dn, Fin.lastCases_last]
      exact dsum_update_right n (fun j => g.H0 T j) k (n k)
    · simp only [rhsT, rhsT_dn, Fin.lastCases_castSucc]
      refine (dsum_update_right n (fun j => g.aij i j * g.H0 T j) k (n k)).congr_of_eventuallyEq
        (Eventually.of_forall (fun t => Finset.sum_congr rfl (fun j _ => by ring)))
  · refine Fin.lastCases ?_ (fun i => ?_) r <;> refine Fin.lastCases ?_ (fun i' => ?_) c
    · simp only [lhsTP, lhsTP_dn, Fin.lastCases_last]; exact hasDerivAt_const _ _
    · simp only [lhsTP, lhsTP_dn, Fin.lastCases_last, Fin.lastCases_castSucc]
      exact hasDerivAt_const _ _
    · simp only [lhsTP, lhsTP_dn, Fin.lastCases_last, Fin.lastCases_castSucc]
      exact hasDerivAt_const _ _
    · simp only [lhsTP, lhsTP_dn, Fin.lastCases_castSucc]
      exact hasDerivAt_sum_update n (fun j => g.aij i j * g.aij i' j) k (n k)
  · refine Fin.lastCases ?_ (fun i => ?_) r <;> refine Fin.lastCases ?_ (fun i' => ?_) c
    · simp only [lhsTP, lhsTP_db, Fin.lastCases_last, hne', and_false, false_and, or_self, if_false]
      exact hasDerivAt_const _ _
    · simp only [lhsTP, lhsTP_db, Fin.lastCases_last, Fin.lastCases_castSucc, hne', hne,
        true_and, false_and, or_false, Fin.castSucc_inj]
      exact hasDerivAt_update b m i' (b m)
    · simp only [lhsTP, lhsTP_db, Fin.lastCases_last, Fin.lastCases_castSucc, hne', hne,
        false_and, false_or, and_true, Fin.castSucc_inj]
      exact hasDerivAt_update b m i (b m)
    · simp only [lhsTP, lhsTP_db, Fin.lastCases_castSucc, hne, false_and, and_false, or_self,
        if_false]
      exact hasDerivAt_const _ _
  · refine Fin.lastCases ?_ (fun i => ?_) r
    · simp only [rhsP, Fin.lastCases_last, hne', if_false]; exact hasDerivAt_const _ _
    · simp only [rhsP, Fin.lastCases_castSucc, Fin.castSucc_inj]
      exact hasDerivAt_update b m i (b m)
  · refine Fin.lastCases ?_ (fun i => ?_) r
    · simp only [rhsP, Fin.lastCases_last, if_true]; exact hasDerivAt_id _
    · simp only [rhsP, Fin.lastCases_castSucc, hne, if_false]; exact hasDerivAt_const _ _

/-- **C20 is false at trace concentrations**: there the declared `dS/dn` is forced to zero, while
the true derivative is not (shown on the monatomic gas with one trace-amount species). -/
theorem C20_refuted_trace_entropy :
    ∃ (g : Gas 1 1) (x : PropsIn 1 1), 0 < x.T ∧ 0 < x.P ∧ 0 < x.nMoles ∧ (∀ j, 0 < x.n j)
      ∧ ¬ HasDerivAt (fun t => (x.setN 0 t).S g) (x.J_S_n g 0) (x.n 0) := by
  have hR := R_ENG_pos
  have hP := P_REF_pos
  refine ⟨⟨fun _ _ => 1, fun _ _ => 0⟩, ⟨1, P_REF, fun _ => 1e-10, 1e-10, fun _ => 0, fun _ => 0⟩,
    one_pos, hP, by norm_num, fun _ => by norm_num, fun h => ?_⟩
  have hJ : PropsIn.J_S_n ⟨fun _ _ => 1, fun _ _ => 0⟩
      (⟨1, P_REF, fun _ => 1e-10, 1e-10, fun _ => 0, fun _ => 0⟩ : PropsIn 1 1) 0 = 0 := by
    rw [PropsIn.J_S_n, if_pos]; simp only [TRACE]; norm_num
  rw [hJ] at h
  have h2 : HasDerivAt (fun t : ℝ => R_ENG * (t * (0 + Real.log (1e-10 / t / (P_REF / P_REF)))))
      (-R_ENG) 1e-10 := by
    have h1 : HasDerivAt (fun t : ℝ => 1e-10 / t / (P_REF / P_REF)) (-1e10) 1e-10 := by
      rw [div_self hP.ne']
      refine (((hasDerivAt_const (1e-10:ℝ) (1e-10:ℝ)).fun_div (hasDerivAt_id (1e-10:ℝ))
        (by norm_num)).div_const 1).congr_deriv ?_
      norm_num
    have h3 := ((hasDerivAt_id (1e-10:ℝ)).fun_mul ((h1.log (by
      rw [div_self hP.ne']; norm_num)).const_add 0)).const_mul R_ENG
    refine h3.congr_deriv ?_
    rw [div_self hP.ne']
    norm_num
  have h3 : (fun t : ℝ => PropsIn.S ⟨fun _ _ => 1, fun _ _ => 0⟩
      (PropsIn.setN (⟨1, P_REF, fun _ => 1e-10, 1e-10, fun _ => 0, fun _ => 0⟩ : PropsIn 1 1) 0 t))
      = fun t : ℝ => R_ENG * (t * (0 + Real.log (1e-10 / t / (P_REF / P_REF)))) := by
    funext t
    simp [PropsIn.S, PropsIn.setN, Gas.S0, s0]
  rw [h3] at h
  have := h.unique h2
  linarith

/-- Non-vacuity: the monatomic state of C19 meets all hypotheses of the C20 theorems. -/
example : 0 < (monoProps 300 1).T ∧ 0 < (monoProps 300 1).P ∧ 0 < (monoProps 300 1).nMoles
    ∧ (∀ j, TRACE < (monoProps 300 1).n j) ∧ (monoProps 300 1).dlnVqdlnP < 0
    ∧ (monoProps 300 1).Cv monoGas ≠ 0 := by
  refine ⟨by simp [monoProps], by simp [monoProps], by simp [monoProps],
    fun j => by simp only [monoProps, TRACE]; norm_num, by simp [PropsIn.dlnVqdlnP, monoProps], ?_⟩
  have hR := R_ENG_pos
  have hCp : (monoProps 300 1).Cp monoGas = 5 / 2 * R_ENG := by
    simp [PropsIn.Cp, PropsIn.Cpe, PropsIn.Cpf, monoProps, monoGas, Gas.H0, Gas.Cp0, h0, cp0]
  rw [PropsIn.Cv, hCp]
  simp [PropsIn.dlnVqdlnT, PropsIn.dlnVqdlnP, monoProps]
  intro h; linarith

end PyCycle
