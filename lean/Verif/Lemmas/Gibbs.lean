import Verif.Spec.GasState
import Verif.Lemmas.ChemEq
import Verif.Props.C15_Polynomials
import Mathlib.Analysis.Calculus.Deriv.MeanValue
import Mathlib.Analysis.SpecialFunctions.Log.Deriv

/-! # The Gibbs inequality for ideal-gas equilibria -/

namespace PyCycle
open Finset
variable {ne np : Nat} {g : Gas ne np} {T P : ℝ} {b : Fin ne → ℝ} {n : Fin np → ℝ} {pi : Fin ne → ℝ}

/-- Changing the pressure at fixed temperature and composition. -/
theorem mixEntropy_pressure (g : Gas ne np) (T : ℝ) {P Q : ℝ} (hP : 0 < P) (hQ : 0 < Q)
    (m : Fin np → ℝ) (hm : ∀ j, 0 ≤ m j) :
    mixEntropy g T P m = mixEntropy g T Q m + R_ENG * (∑ j, m j) * Real.log (Q / P) := by
  have hr := P_REF_pos
  unfold mixEntropy
  rw [show R_ENG * (∑ j, m j) * Real.log (Q / P) = ∑ j, m j * (R_ENG * Real.log (Q / P)) by
    rw [← Finset.sum_mul]; ring, ← Finset.sum_add_distrib]
  refine Finset.sum_congr rfl fun j _ => ?_
  rcases (hm j).eq_or_lt with h | h
  · rw [← h]; ring
  · have hM : 0 < ∑ k, m k := lt_of_lt_of_le h (Finset.single_le_sum (fun k _ => hm k) (mem_univ j))
    rw [Real.log_mul (div_pos h hM).ne' (div_pos hP hr).ne',
      Real.log_mul (div_pos h hM).ne' (div_pos hQ hr).ne', Real.log_div hP.ne' hr.ne',
      Real.log_div hQ.ne' hr.ne', Real.log_div hQ.ne' hP.ne']
    ring

/-- Gibbs energy through chemical potentials. -/
theorem mixGibbs_eq (g : Gas ne np) (T P : ℝ) (m : Fin np → ℝ) :
    mixGibbs g T P m = R_ENG * T * ∑ j, m j * chemPotential g T P m j := by
  unfold mixGibbs mixEnthalpy mixEntropy chemPotential
  rw [Finset.mul_sum, Finset.mul_sum, ← Finset.sum_sub_distrib]
  exact Finset.sum_congr rfl fun j _ => by ring

/-- At an equilibrium the Gibbs energy of any abundances is priced by the element potentials. -/
theorem price (hn : IsEquilibrium g T P b n pi) (m : Fin np → ℝ) :
    ∑ j, m j * chemPotential g T P n j = ∑ i, pi i * ∑ j, g.aij i j * m j := by
  simp only [hn.potential, Finset.mul_sum]
  rw [Finset.sum_comm]
  exact Finset.sum_congr rfl fun i _ => Finset.sum_congr rfl fun j _ => by ring

/-- One term of the information inequality. -/
private theorem kl_term {m x M : ℝ} (hm : 0 ≤ m) (hx : 0 < x) (hM : 0 < M) :
    m - M * x ≤ m * (Real.log (m / M) - Real.log x) := by
  rcases hm.eq_or_lt with h | h
  · rw [← h]; simp; positivity
  · have hy : 0 < m / M := div_pos h hM
    have := Real.log_le_sub_one_of_pos (div_pos hx hy)
    rw [Real.log_div hx.ne' hy.ne'] at this
    have h2 : m * (x / (m / M)) = M * x := by field_simp
    nlinarith

private theorem kl_term_eq {m x M : ℝ} (hm : 0 ≤ m) (hx : 0 < x) (hM : 0 < M)
    (he : m * (Real.log (m / M) - Real.log x) ≤ m - M * x) : m = M * x := by
  rcases hm.eq_or_lt with h | h
  · rw [← h] at he; simp at he
    nlinarith [mul_pos hM hx]
  · by_contra hne
    have hy : 0 < m / M := div_pos h hM
    have h1 : x / (m / M) ≠ 1 := by
      intro h1
      rw [div_eq_one_iff_eq hy.ne'] at h1
      exact hne (by rw [h1]; field_simp)
    have := Real.log_lt_sub_one_of_pos (div_pos hx hy) h1
    rw [Real.log_div hx.ne' hy.ne'] at this
    have h2 : m * (x / (m / M)) = M * x := by field_simp
    nlinarith

private theorem pot_sub {T P : ℝ} (hP : 0 < P) {n m : Fin np → ℝ} (hn : ∀ j, 0 < n j)
    (hm : ∀ j, 0 ≤ m j) (j : Fin np) :
    m j * (chemPotential g T P m j - chemPotential g T P n j)
      = m j * (Real.log (m j / ∑ k, m k) - Real.log (n j / ∑ k, n k)) := by
  have hp := div_pos hP P_REF_pos
  rcases (hm j).eq_or_lt with h | h
  · rw [← h]; ring
  · have hM : 0 < ∑ k, m k := lt_of_lt_of_le h (Finset.single_le_sum (fun k _ => hm k) (mem_univ j))
    unfold chemPotential
    rw [Real.log_mul (div_pos h hM).ne' hp.ne',
      Real.log_mul (div_pos (hn j) (sum_pos_of n hn j)).ne' hp.ne']
    ring

/-- Pricing amounts at another mixture's chemical potentials never costs more than at their own. -/
theorem kl_pot (T : ℝ) {P : ℝ} (hP : 0 < P) {n m : Fin np → ℝ} (hn : ∀ j, 0 < n j)
    (hm : ∀ j, 0 ≤ m j) :
    ∑ j, m j * chemPotential g T P n j ≤ ∑ j, m j * chemPotential g T P m j := by
  rw [← sub_nonneg, ← Finset.sum_sub_distrib]
  simp only [← mul_sub, pot_sub hP hn hm]
  rcases (Finset.sum_nonneg fun k (_ : k ∈ univ) => hm k).eq_or_lt with h | hM
  · have : ∀ j, m j = 0 := fun j =>
      (Finset.sum_eq_zero_iff_of_nonneg (fun k _ => hm k)).1 h.symm j (mem_univ j)
    simp [this]
  · have hx : ∀ j, 0 < n j / ∑ k, n k := fun j => div_pos (hn j) (sum_pos_of n hn j)
    calc (0 : ℝ) = ∑ j, (m j - (∑ k, m k) * (n j / ∑ k, n k)) := by
          rw [Finset.sum_sub_distrib, ← Finset.mul_sum, ← Finset.sum_div]
          rcases isEmpty_or_nonempty (Fin np) with he | ⟨⟨j⟩⟩
          · simp
          · rw [div_self (sum_pos_of n hn j).ne']; ring
      _ ≤ _ := Finset.sum_le_sum fun j _ => kl_term (hm j) (hx j) hM

/-- Same-temperature Gibbs inequality, for any amounts of any element abundances. -/
theorem gibbs_le {T P : ℝ} (hT : 0 < T) (hP : 0 < P) (hn : IsEquilibrium g T P b n pi)
    (m : Fin np → ℝ) (hm : ∀ j, 0 ≤ m j) :
    R_ENG * T * ∑ i, pi i * ∑ j, g.aij i j * m j ≤ mixGibbs g T P m := by
  rw [mixGibbs_eq, ← price hn m]
  exact mul_le_mul_of_nonneg_left (kl_pot T hP hn.pos hm) (mul_pos R_ENG_pos hT).le

/-- Equality only for proportional amounts. -/
theorem gibbs_eq {T P : ℝ} (hT : 0 < T) (hP : 0 < P) (hn : IsEquilibrium g T P b n pi)
    (m : Fin np → ℝ) (hm : ∀ j, 0 ≤ m j)
    (he : mixGibbs g T P m ≤ R_ENG * T * ∑ i, pi i * ∑ j, g.aij i j * m j) (j : Fin np) :
    m j = (∑ k, m k) * (n j / ∑ k, n k) := by
  rw [mixGibbs_eq, ← price hn m] at he
  have he := le_of_mul_le_mul_left he (mul_pos R_ENG_pos hT)
  rw [← sub_nonpos, ← Finset.sum_sub_distrib] at he
  simp only [← mul_sub, pot_sub hP hn.pos hm] at he
  rcases (Finset.sum_nonneg fun k (_ : k ∈ univ) => hm k).eq_or_lt with h | hM
  · have : ∀ j, m j = 0 := fun j =>
      (Finset.sum_eq_zero_iff_of_nonneg (fun k _ => hm k)).1 h.symm j (mem_univ j)
    simp [this]
  · have hx : ∀ j, 0 < n j / ∑ k, n k := fun j => div_pos (hn.pos j) (sum_pos_of n hn.pos j)
    have h0 : (0 : ℝ) = ∑ j, (m j - (∑ k, m k) * (n j / ∑ k, n k)) := by
      rw [Finset.sum_sub_distrib, ← Finset.mul_sum, ← Finset.sum_div,
        div_self (sum_pos_of n hn.pos j).ne']; ring
    have hle := fun j (_ : j ∈ (univ : Finset (Fin np))) => kl_term (hm j) (hx j) hM
    have heq := (Finset.sum_eq_sum_iff_of_le hle).1
      (le_antisymm (Finset.sum_le_sum hle) (he.trans h0.le)) j (mem_univ j)
    exact kl_term_eq (hm j) (hx j) hM heq.symm.le

/-! ## Changing the temperature at frozen composition -/

/-- `h_j(t) - T s_j(t)` is least at `t = T`. -/
private theorem frozen_lt {a : Row} {I : Set ℝ} (hI : I.OrdConnected) (hpos : ∀ t ∈ I, 0 < t)
    (hcp : ∀ t ∈ I, 0 < cp0 a t) {T U : ℝ} (hT : T ∈ I) (hU : U ∈ I) (hne : T ≠ U) :
    T * h0 a T - T * s0 a T < U * h0 a U - T * s0 a U := by
  have hd : ∀ t, 0 < t → HasDerivAt (fun t => t * h0 a t - T * s0 a t) (cp0 a t - T * (cp0 a t / t)) t :=
    fun t ht => (C15_enthalpy a t ht).sub ((C15_entropy a t ht).const_mul T)
  have hcont : ∀ s : Set ℝ, s ⊆ I → ContinuousOn (fun t => t * h0 a t - T * s0 a t) s :=
    fun s hs t ht => (hd t (hpos t (hs ht))).continuousAt.continuousWithinAt
  have hval : ∀ t, 0 < t → cp0 a t - T * (cp0 a t / t) = cp0 a t * ((t - T) / t) := by
    intro t ht; field_simp
  rcases lt_or_gt_of_ne hne with h | h
  · have hsub : Set.Icc T U ⊆ I := hI.out hT hU
    refine strictMonoOn_of_deriv_pos (convex_Icc T U) (hcont _ hsub) (fun t ht => ?_)
      (Set.left_mem_Icc.2 h.le) (Set.right_mem_Icc.2 h.le) h
    rw [interior_Icc] at ht
    have htI := hsub (Set.Ioo_subset_Icc_self ht)
    rw [(hd t (hpos t htI)).deriv, hval t (hpos t htI)]
    exact mul_pos (hcp t htI) (div_pos (by linarith [ht.1]) (hpos t htI))
  · have hsub : Set.Icc U T ⊆ I := hI.out hU hT
    refine strictAntiOn_of_deriv_neg (convex_Icc U T) (hcont _ hsub) (fun t ht => ?_)
      (Set.left_mem_Icc.2 h.le) (Set.right_mem_Icc.2 h.le) h
    rw [interior_Icc] at ht
    have htI := hsub (Set.Ioo_subset_Icc_self ht)
    rw [(hd t (hpos t htI)).deriv, hval t (hpos t htI)]
    exact mul_neg_of_pos_of_neg (hcp t htI) (div_neg_of_neg_of_pos (by linarith [ht.2]) (hpos t htI))

private theorem frozen_sum (g : Gas ne np) (T U P : ℝ) (m : Fin np → ℝ) :
    mixEnthalpy g U m - T * mixEntropy g U P m - mixGibbs g T P m
      = R_ENG * ∑ j, m j * ((U * h0 (g.rows j) U - T * s0 (g.rows j) U)
          - (T * h0 (g.rows j) T - T * s0 (g.rows j) T)) := by
  unfold mixGibbs mixEnthalpy mixEntropy
  simp only [Finset.mul_sum, ← Finset.sum_sub_distrib, Gas.H0, Gas.S0]
  exact Finset.sum_congr rfl fun j _ => by ring

/-- **Gibbs inequality.** At the temperature and pressure of an equilibrium, no amounts of species at
any temperature have less `H - T S` than the element potentials charge. -/
theorem gibbs_master {I : Set ℝ} (hI : Warm g I) {T P : ℝ} (hT : T ∈ I) (hP : 0 < P)
    (hn : IsEquilibrium g T P b n pi) {U : ℝ} (hU : U ∈ I) (m : Fin np → ℝ) (hm : ∀ j, 0 ≤ m j) :
    R_ENG * T * ∑ i, pi i * ∑ j, g.aij i j * m j
      ≤ mixEnthalpy g U m - T * mixEntropy g U P m := by
  refine (gibbs_le (hI.pos T hT) hP hn m hm).trans ?_
  rw [← sub_nonneg, frozen_sum]
  refine mul_nonneg R_ENG_pos.le (Finset.sum_nonneg fun j _ => mul_nonneg (hm j) ?_)
  by_cases hne : T = U
  · rw [hne]; simp
  · exact sub_nonneg.2 (frozen_lt hI.interval hI.pos (fun t ht => hI.cp t ht j) hT hU hne).le

/-- Strict at a different temperature. -/
theorem gibbs_master_lt {I : Set ℝ} (hI : Warm g I) {T P : ℝ} (hT : T ∈ I) (hP : 0 < P)
    (hn : IsEquilibrium g T P b n pi) {U : ℝ} (hU : U ∈ I) (hne : T ≠ U) (m : Fin np → ℝ)
    (hm : ∀ j, 0 ≤ m j) {j : Fin np} (hj : 0 < m j) :
    R_ENG * T * ∑ i, pi i * ∑ j, g.aij i j * m j
      < mixEnthalpy g U m - T * mixEntropy g U P m := by
  refine (gibbs_le (hI.pos T hT) hP hn m hm).trans_lt ?_
  rw [← sub_pos, frozen_sum]
  have hf : ∀ j, _ := fun j =>
    sub_pos.2 (frozen_lt (a := g.rows j) hI.interval hI.pos (fun t ht => hI.cp t ht j) hT hU hne)
  refine mul_pos R_ENG_pos (Finset.sum_pos' (fun k _ => mul_nonneg (hm k) (hf k).le)
    ⟨j, mem_univ j, mul_pos hj (hf j)⟩)

/-- Value at the equilibrium itself. -/
theorem gibbs_self {T P : ℝ} (hn : IsEquilibrium g T P b n pi) :
    mixGibbs g T P n = R_ENG * T * ∑ i, pi i * b i := by
  rw [mixGibbs_eq, price hn n]
  simp only [hn.elements]

end PyCycle
