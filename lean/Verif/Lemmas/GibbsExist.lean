import Verif.Lemmas.Gibbs
import Mathlib.Analysis.SpecialFunctions.Log.NegMulLog
import Mathlib.LinearAlgebra.Dual.Lemmas
import Mathlib.Topology.MetricSpace.ProperSpace.Real
import Mathlib.Topology.Order.Compact
import Mathlib.Topology.Order.IntermediateValue

/-! # Existence of equilibria, and their continuity in the temperature -/

namespace PyCycle
open Finset Filter Topology
variable {ne np : Nat}

/-- The dimensionless Gibbs energy in a form continuous up to zero amounts. -/
noncomputable def gibbsFn (g : Gas ne np) (T P : ℝ) (m : Fin np → ℝ) : ℝ :=
  ∑ j, m j * (g.H0 T j - g.S0 T j) + ∑ j, m j * Real.log (m j)
    - (∑ j, m j) * Real.log (∑ j, m j) + (∑ j, m j) * Real.log (P / P_REF)

theorem gibbsFn_eq (g : Gas ne np) (T : ℝ) {P : ℝ} (hP : 0 < P) (m : Fin np → ℝ) (hm : ∀ j, 0 ≤ m j) :
    ∑ j, m j * chemPotential g T P m j = gibbsFn g T P m := by
  unfold gibbsFn
  rw [Finset.sum_mul, Finset.sum_mul, ← Finset.sum_add_distrib, ← Finset.sum_sub_distrib,
    ← Finset.sum_add_distrib]
  refine Finset.sum_congr rfl fun j _ => ?_
  rcases (hm j).eq_or_lt with h | h
  · rw [← h]; simp
  · have hM : 0 < ∑ k, m k := lt_of_lt_of_le h (Finset.single_le_sum (fun k _ => hm k) (mem_univ j))
    unfold chemPotential
    rw [Real.log_mul (div_pos h hM).ne' (div_pos hP P_REF_pos).ne', Real.log_div h.ne' hM.ne']
    ring

theorem gibbsFn_continuous (g : Gas ne np) (T P : ℝ) : Continuous (gibbsFn g T P) := by
  unfold gibbsFn
  have h1 : Continuous fun m : Fin np → ℝ => ∑ j, m j := by fun_prop
  have h2 : Continuous fun m : Fin np → ℝ => (∑ j, m j) * Real.log (∑ j, m j) :=
    Real.continuous_mul_log.comp h1
  have h3 : Continuous fun m : Fin np → ℝ => ∑ j, m j * Real.log (m j) :=
    continuous_finset_sum _ fun j _ => Real.continuous_mul_log.comp (continuous_apply j)
  have h4 : Continuous fun m : Fin np → ℝ => ∑ j, m j * (g.H0 T j - g.S0 T j) := by fun_prop
  exact ((h4.add h3).sub h2).add (h1.mul continuous_const)

/-- The non-negative amounts with given elements. -/
def feasible (g : Gas ne np) (b : Fin ne → ℝ) : Set (Fin np → ℝ) :=
  {m | (∀ j, 0 ≤ m j) ∧ ∀ i, ∑ j, g.aij i j * m j = b i}

/-- Every species is made of elements: coefficients are non-negative and not all zero. -/
structure RealSpecies (g : Gas ne np) : Prop where
  nonneg : ∀ i j, 0 ≤ g.aij i j
  made : ∀ j, ∃ i, 0 < g.aij i j

theorem feasible_compact {g : Gas ne np} (hg : RealSpecies g) (b : Fin ne → ℝ) :
    IsCompact (feasible g b) := by
  refine Metric.isCompact_of_isClosed_isBounded ?_ ?_
  · have h1 : IsClosed {m : Fin np → ℝ | ∀ j, 0 ≤ m j} := by
      rw [Set.setOf_forall]
      exact isClosed_iInter fun j => isClosed_le continuous_const (continuous_apply j)
    have h2 : IsClosed {m : Fin np → ℝ | ∀ i, ∑ j, g.aij i j * m j = b i} := by
      rw [Set.setOf_forall]
      exact isClosed_iInter fun i => isClosed_eq (by fun_prop) continuous_const
    exact h1.inter h2
  · choose e he using hg.made
    rw [isBounded_iff_forall_norm_le]
    refine ⟨∑ j, |b (e j) / g.aij (e j) j|, fun m hm => ?_⟩
    rw [pi_norm_le_iff_of_nonneg (Finset.sum_nonneg fun _ _ => abs_nonneg _)]
    intro j
    rw [Real.norm_eq_abs, abs_of_nonneg (hm.1 j)]
    refine le_trans ?_ (Finset.single_le_sum (f := fun j => |b (e j) / g.aij (e j) j|)
      (fun _ _ => abs_nonneg _) (mem_univ j))
    refine le_trans ?_ (le_abs_self _)
    rw [le_div_iff₀ (he j), ← hm.2 (e j), mul_comm]
    exact Finset.single_le_sum (f := fun k => g.aij (e j) k * m k)
      (fun k _ => mul_nonneg (hg.nonneg _ k) (hm.1 k)) (mem_univ j)

variable {g : Gas ne np} {b : Fin ne → ℝ} {T P : ℝ}

/-- The variational inequality at a minimiser, along a segment to a positive point. -/
private theorem variation (hP : 0 < P) {n m : Fin np → ℝ} (hn : n ∈ feasible g b)
    (hmin : ∀ m ∈ feasible g b, gibbsFn g T P n ≤ gibbsFn g T P m) {t : ℝ} (ht : 0 < t)
    (hpos : ∀ j, 0 < n j + t * (m j - n j)) (hmb : ∀ i, ∑ j, g.aij i j * m j = b i) :
    0 ≤ ∑ j, (m j - n j) * chemPotential g T P (fun j => n j + t * (m j - n j)) j := by
  set q : Fin np → ℝ := fun j => n j + t * (m j - n j) with hq
  have hqf : q ∈ feasible g b := by
    refine ⟨fun j => (hpos j).le, fun i => ?_⟩
    have : ∑ j, g.aij i j * q j = (1 - t) * ∑ j, g.aij i j * n j + t * ∑ j, g.aij i j * m j := by
      rw [Finset.mul_sum, Finset.mul_sum, ← Finset.sum_add_distrib]
      exact Finset.sum_congr rfl fun j _ => by simp only [hq]; ring
    rw [this, hn.2 i, hmb i]; ring
  have h1 := hmin q hqf
  rw [← gibbsFn_eq g T hP n hn.1, ← gibbsFn_eq g T hP q hqf.1] at h1
  have h2 := kl_pot (g := g) T hP hpos hn.1
  have h3 : ∑ j, q j * chemPotential g T P q j - ∑ j, n j * chemPotential g T P q j
      = t * ∑ j, (m j - n j) * chemPotential g T P q j := by
    rw [Finset.mul_sum, ← Finset.sum_sub_distrib]
    exact Finset.sum_congr rfl fun j _ => by simp only [hq]; ring
  have h4 : 0 ≤ t * ∑ j, (m j - n j) * chemPotential g T P q j := by rw [← h3]; linarith
  exact nonneg_of_mul_nonneg_right h4 ht

/-- A minimiser has no absent species if some admissible amounts have none. -/
private theorem min_pos (hP : 0 < P) {n m : Fin np → ℝ} (hn : n ∈ feasible g b)
    (hmin : ∀ m ∈ feasible g b, gibbsFn g T P n ≤ gibbsFn g T P m) (hm : ∀ j, 0 < m j)
    (hmb : ∀ i, ∑ j, g.aij i j * m j = b i) (hN : 0 < ∑ j, n j) (k : Fin np) : 0 < n k := by
  by_contra hk
  have hk0 : n k = 0 := le_antisymm (not_lt.1 hk) (hn.1 k)
  -- the segment
  have hq : ∀ t ∈ Set.Ioo (0 : ℝ) 1, ∀ j, 0 < n j + t * (m j - n j) := by
    intro t ht j
    have : n j + t * (m j - n j) = (1 - t) * n j + t * m j := by ring
    rw [this]
    have := mul_pos ht.1 (hm j)
    have := mul_nonneg (by linarith [ht.2] : (0 : ℝ) ≤ 1 - t) (hn.1 j)
    linarith
  have hvar : ∀ t ∈ Set.Ioo (0 : ℝ) 1,
      0 ≤ ∑ j, (m j - n j) * chemPotential g T P (fun j => n j + t * (m j - n j)) j :=
    fun t ht => variation hP hn hmin ht.1 (hq t ht) hmb
  -- split off the logarithm of the absent species
  let r : ℝ → Fin np → ℝ := fun t j => (m j - n j) * (g.H0 T j - g.S0 T j
    + (if n j = 0 then Real.log (m j) else Real.log (n j + t * (m j - n j)))
    - Real.log (∑ k, (n k + t * (m k - n k))) + Real.log (P / P_REF))
  let z : Fin np → ℝ := fun j => if n j = 0 then m j else 0
  have hsplit : ∀ t ∈ Set.Ioo (0 : ℝ) 1,
      ∑ j, (m j - n j) * chemPotential g T P (fun j => n j + t * (m j - n j)) j
        = ∑ j, r t j + (∑ j, z j) * Real.log t := by
    intro t ht
    rw [Finset.sum_mul, ← Finset.sum_add_distrib]
    refine Finset.sum_congr rfl fun j _ => ?_
    have hj := hq t ht j
    have hM := sum_pos_of _ (hq t ht) j
    unfold chemPotential
    rw [Real.log_mul (div_pos hj hM).ne' (div_pos hP P_REF_pos).ne', Real.log_div hj.ne' hM.ne']
    by_cases h0 : n j = 0
    · simp only [r, z, h0, if_true, zero_add, sub_zero]
      rw [Real.log_mul ht.1.ne' (hm j).ne']; ring
    · simp only [r, z, h0, if_false]; ring
  have hcont : Tendsto (fun t => ∑ j, r t j) (𝓝[>] 0) (𝓝 (∑ j, r 0 j)) := by
    refine tendsto_finset_sum _ fun j _ => ?_
    refine (ContinuousAt.tendsto ?_).mono_left nhdsWithin_le_nhds
    have hs : ContinuousAt (fun t : ℝ => ∑ k, (n k + t * (m k - n k))) 0 := by fun_prop
    have hs' := hs.log (by simpa using hN.ne')
    by_cases h0 : n j = 0
    · simp only [r, h0, if_true]
      fun_prop
    · simp only [r, h0, if_false]
      have hl : ContinuousAt (fun t : ℝ => n j + t * (m j - n j)) 0 := by fun_prop
      have hl' := hl.log (by simpa using h0)
      fun_prop
  have hz : 0 < ∑ j, z j := by
    refine Finset.sum_pos' (fun j _ => ?_) ⟨k, mem_univ k, ?_⟩
    · by_cases h : n j = 0
      · simpa [z, h] using (hm j).le
      · simp [z, h]
    · simpa [z, hk0] using hm k
  have hbot : Tendsto (fun t => ∑ j, r t j + (∑ j, z j) * Real.log t) (𝓝[>] 0) atBot :=
    hcont.add_atBot (Real.tendsto_log_nhdsGT_zero.const_mul_atBot hz)
  have hev := hbot.eventually (eventually_lt_atBot (0 : ℝ))
  have hI : ∀ᶠ t in 𝓝[>] (0 : ℝ), t ∈ Set.Ioo (0 : ℝ) 1 := Ioo_mem_nhdsGT one_pos
  obtain ⟨t, h1, h2⟩ := (hev.and hI).exists
  have := hvar t h2
  rw [hsplit t h2] at this
  linarith

/-- A positive minimiser satisfies the Lagrange conditions. -/
private theorem min_lagrange (hP : 0 < P) {n : Fin np → ℝ} (hn : n ∈ feasible g b)
    (hmin : ∀ m ∈ feasible g b, gibbsFn g T P n ≤ gibbsFn g T P m) (hpos : ∀ j, 0 < n j) :
    ∃ pi, IsEquilibrium g T P b n pi := by
  -- directional derivatives along the kernel vanish
  have hdir : ∀ d : Fin np → ℝ, (∀ i, ∑ j, g.aij i j * d j = 0) →
      0 ≤ ∑ j, d j * chemPotential g T P n j := by
    intro d hd
    have hlim : Tendsto (fun t : ℝ => ∑ j, d j * chemPotential g T P (fun j => n j + t * d j) j)
        (𝓝[>] 0) (𝓝 (∑ j, d j * chemPotential g T P n j)) := by
      refine tendsto_finset_sum _ fun j _ => Tendsto.const_mul _ ?_
      have hN := sum_pos_of n hpos j
      have hc : ContinuousAt (fun t : ℝ => chemPotential g T P (fun j => n j + t * d j) j) 0 := by
        unfold chemPotential
        have h1 : ContinuousAt (fun t : ℝ => ∑ k, (n k + t * d k)) 0 := by fun_prop
        have h2 : ContinuousAt (fun t : ℝ => n j + t * d j) 0 := by fun_prop
        have h3 := ((h2.div h1 (by simpa using hN.ne')).mul_const (P / P_REF)).log (by
          have := div_pos hP P_REF_pos
          have := hpos j
          simpa using ⟨⟨(hpos j).ne', hN.ne'⟩, hP.ne', P_REF_pos.ne'⟩)
        exact continuousAt_const.add h3
      have := hc.tendsto.mono_left (nhdsWithin_le_nhds (s := Set.Ioi 0))
      simpa using this
    have hev : ∀ᶠ t in 𝓝[>] (0 : ℝ), ∀ j, 0 < n j + t * d j := by
      rw [Filter.eventually_all]
      intro j
      have hc : ContinuousAt (fun t : ℝ => n j + t * d j) 0 := by fun_prop
      have := hc.eventually (lt_mem_nhds (by simpa using hpos j : (0 : ℝ) < n j + 0 * d j))
      exact this.filter_mono nhdsWithin_le_nhds
    refine ge_of_tendsto hlim ?_
    filter_upwards [hev, self_mem_nhdsWithin] with t h1 h2
    have := variation (m := fun j => n j + d j) hP hn hmin h2 (by simpa using h1) (fun i => by
      simp only [mul_add, Finset.sum_add_distrib, hn.2 i, hd i, add_zero])
    simpa using this
  have hzero : ∀ d : Fin np → ℝ, (∀ i, ∑ j, g.aij i j * d j = 0) →
      ∑ j, d j * chemPotential g T P n j = 0 := by
    intro d hd
    refine le_antisymm ?_ (hdir d hd)
    have := hdir (-d) (fun i => by simp [hd i])
    simpa using this
  -- hence the potentials are a combination of the rows
  let A : (Fin np → ℝ) →ₗ[ℝ] (Fin ne → ℝ) :=
    { toFun := fun d i => ∑ j, g.aij i j * d j
      map_add' := fun x y => by funext i; simp [mul_add, Finset.sum_add_distrib]
      map_smul' := fun c x => by
        funext i
        simp only [Pi.smul_apply, smul_eq_mul, RingHom.id_apply, Finset.mul_sum]
        exact Finset.sum_congr rfl fun j _ => by ring }
  let ℓ : Module.Dual ℝ (Fin np → ℝ) :=
    { toFun := fun d => ∑ j, d j * chemPotential g T P n j
      map_add' := fun x y => by simp [add_mul, Finset.sum_add_distrib]
      map_smul' := fun c x => by
        simp only [Pi.smul_apply, smul_eq_mul, RingHom.id_apply, Finset.mul_sum]
        exact Finset.sum_congr rfl fun j _ => by ring }
  have hℓ : ℓ ∈ LinearMap.range A.dualMap := by
    rw [LinearMap.range_dualMap_eq_dualAnnihilator_ker, Submodule.mem_dualAnnihilator]
    intro d hd
    exact hzero d (fun i => congrFun (LinearMap.mem_ker.1 hd) i)
  obtain ⟨φ, hφ⟩ := hℓ
  refine ⟨fun i => φ (Pi.single i 1), hpos, hn.2, fun j => ?_⟩
  have h1 : ℓ (Pi.single j 1) = chemPotential g T P n j := by
    simp only [ℓ, LinearMap.coe_mk, AddHom.coe_mk]
    rw [Finset.sum_eq_single j (fun k _ hk => by simp [Pi.single_eq_of_ne hk]) (by simp)]
    simp
  rw [← h1, ← hφ, LinearMap.dualMap_apply]
  have h2 : A (Pi.single j 1) = ∑ i, g.aij i j • (Pi.single i (1 : ℝ) : Fin ne → ℝ) := by
    funext i
    simp only [A, LinearMap.coe_mk, AddHom.coe_mk]
    rw [Finset.sum_eq_single j (fun k _ hk => by simp [Pi.single_eq_of_ne hk]) (by simp)]
    simp [Finset.sum_apply, Pi.single_apply]
  rw [h2, map_sum]
  exact Finset.sum_congr rfl fun i _ => by rw [map_smul, smul_eq_mul, mul_comm]

/-- **Existence.** If the abundances can be made up of positive amounts of all species, there is an
equilibrium. -/
theorem exists_equilibrium (hg : RealSpecies g) (T : ℝ) (hP : 0 < P) {m : Fin np → ℝ}
    (hm : ∀ j, 0 < m j) (hmb : ∀ i, ∑ j, g.aij i j * m j = b i) :
    ∃ n pi, IsEquilibrium g T P b n pi := by
  have hmf : m ∈ feasible g b := ⟨fun j => (hm j).le, hmb⟩
  obtain ⟨n, hn, hmin⟩ := (feasible_compact hg b).exists_isMinOn ⟨m, hmf⟩
    (gibbsFn_continuous g T P).continuousOn
  have hmin' : ∀ q ∈ feasible g b, gibbsFn g T P n ≤ gibbsFn g T P q := fun q hq => hmin hq
  refine ⟨n, min_lagrange hP hn hmin' (fun k => ?_)⟩
  refine min_pos hP hn hmin' hm hmb ?_ k
  by_contra h0
  have hz : ∀ j, n j = 0 := fun j =>
    (Finset.sum_eq_zero_iff_of_nonneg (fun k _ => hn.1 k)).1
      (le_antisymm (not_lt.1 h0) (Finset.sum_nonneg fun k _ => hn.1 k)) j (mem_univ j)
  obtain ⟨i, hi⟩ := hg.made k
  have hb : b i = 0 := by rw [← hn.2 i]; simp [hz]
  have : 0 < ∑ j, g.aij i j * m j :=
    Finset.sum_pos' (fun j _ => mul_nonneg (hg.nonneg i j) (hm j).le)
      ⟨k, mem_univ k, mul_pos hi (hm k)⟩
  rw [hmb i, hb] at this
  exact lt_irrefl _ this

/-! ## Continuity in the temperature -/

theorem H0_continuousAt (g : Gas ne np) {T : ℝ} (hT : 0 < T) (j : Fin np) :
    ContinuousAt (fun t => g.H0 t j) T := by
  have := (C15_H0_applyJ (g.rows j) T hT 1).continuousAt
  simpa only [one_mul, Gas.H0] using this

theorem S0_continuousAt (g : Gas ne np) {T : ℝ} (hT : 0 < T) (j : Fin np) :
    ContinuousAt (fun t => g.S0 t j) T := (C15_entropy (g.rows j) T hT).continuousAt

private theorem gibbsFn_joint (g : Gas ne np) (P : ℝ) {T : ℝ} (hT : 0 < T) (y : Fin np → ℝ) :
    ContinuousAt (fun p : ℝ × (Fin np → ℝ) => gibbsFn g p.1 P p.2) (T, y) := by
  have e : (fun p : ℝ × (Fin np → ℝ) => gibbsFn g p.1 P p.2)
      = fun p => ∑ j, p.2 j * (g.H0 p.1 j - g.S0 p.1 j)
        + (gibbsFn g T P p.2 - ∑ j, p.2 j * (g.H0 T j - g.S0 T j)) := by
    funext p; simp only [gibbsFn]; ring
  rw [e]
  have h1 : ContinuousAt (fun p : ℝ × (Fin np → ℝ) => gibbsFn g T P p.2) (T, y) :=
    ((gibbsFn_continuous g T P).comp continuous_snd).continuousAt
  have h2 : ContinuousAt (fun p : ℝ × (Fin np → ℝ) => ∑ j, p.2 j * (g.H0 p.1 j - g.S0 p.1 j)) (T, y) := by
    refine tendsto_finset_sum _ fun j _ => ?_
    have a : ContinuousAt (fun p : ℝ × (Fin np → ℝ) => g.H0 p.1 j) (T, y) :=
      ContinuousAt.comp (f := Prod.fst) (x := (T, y)) (H0_continuousAt g hT j) continuousAt_fst
    have c : ContinuousAt (fun p : ℝ × (Fin np → ℝ) => g.S0 p.1 j) (T, y) :=
      ContinuousAt.comp (f := Prod.fst) (x := (T, y)) (S0_continuousAt g hT j) continuousAt_fst
    have d : ContinuousAt (fun p : ℝ × (Fin np → ℝ) => p.2 j) (T, y) := by fun_prop
    exact d.mul (a.sub c)
  have h3 : ContinuousAt (fun p : ℝ × (Fin np → ℝ) => ∑ j, p.2 j * (g.H0 T j - g.S0 T j)) (T, y) := by
    fun_prop
  exact h2.add (h1.sub h3)

/-- A selection of equilibria is continuous wherever equilibria are unique minimisers. -/
private theorem selection_continuousOn (hg : RealSpecies g) (hP : 0 < P) {s : Set ℝ}
    (hs : ∀ t ∈ s, 0 < t) (N : ℝ → Fin np → ℝ)
    (hN : ∀ t ∈ s, N t ∈ feasible g b)
    (hmin : ∀ t ∈ s, ∀ m ∈ feasible g b, gibbsFn g t P (N t) ≤ gibbsFn g t P m)
    (huniq : ∀ t ∈ s, ∀ m ∈ feasible g b, gibbsFn g t P m ≤ gibbsFn g t P (N t) → m = N t) :
    ContinuousOn N s := by
  intro T hT
  refine (feasible_compact hg b).tendsto_nhds_of_unique_mapClusterPt
    (Filter.eventually_of_mem self_mem_nhdsWithin fun t ht => hN t ht) (fun y hy hcl => ?_)
  refine huniq T hT y hy ?_
  by_contra hlt
  push Not at hlt
  have h1 := gibbsFn_joint g P (hs T hT) y
  have h2 : ContinuousAt (fun p : ℝ × (Fin np → ℝ) => gibbsFn g p.1 P (N T)) (T, y) :=
    ContinuousAt.comp (f := fun p : ℝ × (Fin np → ℝ) => (p.1, N T)) (x := (T, y))
      (gibbsFn_joint g P (hs T hT) (N T)) (by fun_prop)
  have hev : ∀ᶠ p in 𝓝 (T, y), gibbsFn g p.1 P (N T) < gibbsFn g p.1 P p.2 :=
    h2.eventually_lt h1 hlt
  rw [nhds_prod_eq, Filter.eventually_prod_iff] at hev
  obtain ⟨pa, hpa, pb, hpb, hab⟩ := hev
  have hf := hcl.frequently hpb
  have hE : ∀ᶠ t in 𝓝[s] T, pa t ∧ t ∈ s :=
    (hpa.filter_mono nhdsWithin_le_nhds).and self_mem_nhdsWithin
  obtain ⟨t, hpbt, hpat, hts⟩ := (hf.and_eventually hE).exists
  exact absurd (hmin t hts (N T) (hN T hT)) (not_le.2 (hab hpat hpbt))

/-- **Intermediate temperatures.** Between two temperatures, every value of the enthalpy, and every
value of the entropy, between those of the two equilibria is attained by an equilibrium. -/
theorem exists_between (hg : RealSpecies g) (hP : 0 < P) {lo hi : ℝ} (hlo : 0 < lo) (hle : lo ≤ hi)
    {n0 n1 : Fin np → ℝ} {p0 p1 : Fin ne → ℝ} (h0 : IsEquilibrium g lo P b n0 p0)
    (h1 : IsEquilibrium g hi P b n1 p1) (hb : ∃ i, b i ≠ 0)
    (huniq : ∀ t, 0 < t → ∀ n pi, IsEquilibrium g t P b n pi → ∀ m ∈ feasible g b,
      gibbsFn g t P m ≤ gibbsFn g t P n → m = n) :
    (∀ h ∈ Set.Icc (mixEnthalpy g lo n0) (mixEnthalpy g hi n1), ∃ T ∈ Set.Icc lo hi, ∃ n pi,
      IsEquilibrium g T P b n pi ∧ mixEnthalpy g T n = h)
    ∧ (∀ S ∈ Set.Icc (mixEntropy g lo P n0) (mixEntropy g hi P n1), ∃ T ∈ Set.Icc lo hi, ∃ n pi,
      IsEquilibrium g T P b n pi ∧ mixEntropy g T P n = S) := by
  have hex : ∀ t : ℝ, ∃ n pi, IsEquilibrium g t P b n pi :=
    fun t => exists_equilibrium hg t hP h0.pos h0.elements
  choose N p hNp using hex
  have hfeas : ∀ t n q, IsEquilibrium g t P b n q → n ∈ feasible g b :=
    fun t n q h => ⟨fun j => (h.pos j).le, h.elements⟩
  have hmin : ∀ t ∈ Set.Icc lo hi, ∀ m ∈ feasible g b, gibbsFn g t P (N t) ≤ gibbsFn g t P m := by
    intro t ht m hm
    have hT := hlo.trans_le ht.1
    have a := gibbs_le hT hP (hNp t) m hm.1
    simp only [hm.2] at a
    rw [← gibbs_self (hNp t), mixGibbs_eq, mixGibbs_eq, gibbsFn_eq g t hP m hm.1,
      gibbsFn_eq g t hP (N t) (fun j => ((hNp t).pos j).le)] at a
    exact le_of_mul_le_mul_left a (mul_pos R_ENG_pos hT)
  have hc : ContinuousOn N (Set.Icc lo hi) :=
    selection_continuousOn hg hP (fun t ht => hlo.trans_le ht.1) N
      (fun t _ => hfeas t _ _ (hNp t)) hmin
      (fun t ht m hm hle => huniq t (hlo.trans_le ht.1) _ _ (hNp t) m hm hle)
  have e0 : N lo = n0 := huniq lo hlo n0 p0 h0 (N lo) (hfeas _ _ _ (hNp lo))
    (hmin lo ⟨le_rfl, hle⟩ n0 (hfeas _ _ _ h0))
  have e1 : N hi = n1 := huniq hi (hlo.trans_le hle) n1 p1 h1 (N hi) (hfeas _ _ _ (hNp hi))
    (hmin hi ⟨hle, le_rfl⟩ n1 (hfeas _ _ _ h1))
  have hNj : ∀ j, ContinuousOn (fun t => N t j) (Set.Icc lo hi) := fun j =>
    (continuous_apply j).comp_continuousOn hc
  have hsum : ContinuousOn (fun t => ∑ k, N t k) (Set.Icc lo hi) :=
    continuousOn_finset_sum _ fun k _ => hNj k
  have cH : ContinuousOn (fun t => mixEnthalpy g t (N t)) (Set.Icc lo hi) := by
    unfold mixEnthalpy
    refine continuousOn_finset_sum _ fun j _ => (hNj j).mul (ContinuousOn.mul (fun t ht => ?_)
      (continuousOn_const.mul continuousOn_id))
    exact (H0_continuousAt g (hlo.trans_le ht.1) j).continuousWithinAt
  have cS : ContinuousOn (fun t => mixEntropy g t P (N t)) (Set.Icc lo hi) := by
    unfold mixEntropy
    refine continuousOn_finset_sum _ fun j _ => (hNj j).mul (continuousOn_const.mul
      (ContinuousOn.sub (fun t ht => ?_) (ContinuousOn.log (((hNj j).div hsum fun t _ => ?_).mul
        continuousOn_const) fun t _ => ?_)))
    · exact (S0_continuousAt g (hlo.trans_le ht.1) j).continuousWithinAt
    · exact (sum_pos_of _ (hNp t).pos j).ne'
    · exact (mul_pos (div_pos ((hNp t).pos j) (sum_pos_of _ (hNp t).pos j))
        (div_pos hP P_REF_pos)).ne'
  constructor
  · intro h hh
    rw [← e0, ← e1] at hh
    obtain ⟨T, hT, he⟩ := intermediate_value_Icc hle cH hh
    exact ⟨T, hT, N T, p T, hNp T, he⟩
  · intro S hS
    rw [← e0, ← e1] at hS
    obtain ⟨T, hT, he⟩ := intermediate_value_Icc hle cS hS
    exact ⟨T, hT, N T, p T, hNp T, he⟩

end PyCycle
