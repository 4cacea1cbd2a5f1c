import Verif.Props.C46_Determined
import Verif.Spec.Mixture
import Verif.Model.Turbine
import Verif.Model.Duct
import Verif.Model.Inlet
import Verif.Lemmas.Fold

/-! # C47: the second law of thermodynamics for the elements

With the equilibrium gas of C46 as thermodynamics, no element of an engine destroys entropy:
compressors and turbines with efficiencies up to one, pressure losses, heat addition, mixing. -/

namespace PyCycle
open Finset
variable {ne np : Nat} {g : Gas ne np} {I : Set ℝ} {b : Fin ne → ℝ} {h S P : ℝ}

/-! ## The gas -/

/-- Element potentials `λ` and a temperature that price every mixture at pressures of at least `P`. -/
private theorem priced (hI : Warm g I) (hs : GasState g I b h S P) :
    ∃ T ∈ I, 0 < T ∧ ∃ lam : Fin ne → ℝ, h - T * S = ∑ i, lam i * b i ∧
      (∀ b' h' S' P', IsMixture g I b' h' S' P' → P ≤ P' → ∑ i, lam i * b' i ≤ h' - T * S')
      ∧ (∀ b' h' S' P', (∃ i, b' i ≠ 0) → IsMixture g I b' h' S' P' → P < P' →
          ∑ i, lam i * b' i < h' - T * S') := by
  obtain ⟨hP, T, hT, n, pi, he, rfl, rfl⟩ := hs
  have hT0 := hI.pos T hT
  have key : ∀ b' h' S' P', IsMixture g I b' h' S' P' → P ≤ P' →
      ∃ M, 0 ≤ M ∧ ((∃ i, b' i ≠ 0) → 0 < M)
        ∧ ∑ i, R_ENG * T * pi i * b' i ≤ h' - T * (S' + R_ENG * M * Real.log (P' / P)) := by
    rintro b' h' S' P' ⟨hP', U, hU, m, hm, hb', rfl, rfl⟩ hle
    have a := gibbs_master hI hT hP he hU m hm
    rw [mixEntropy_pressure g U hP hP' m hm] at a
    simp only [hb'] at a
    refine ⟨∑ j, m j, Finset.sum_nonneg fun j _ => hm j, fun ⟨i, hi⟩ => ?_, ?_⟩
    · by_contra h0
      have hz : ∀ j, m j = 0 := fun j => (Finset.sum_eq_zero_iff_of_nonneg (fun k _ => hm k)).1
        (le_antisymm (not_lt.1 h0) (Finset.sum_nonneg fun j _ => hm j)) j (mem_univ j)
      exact hi (by rw [← hb' i]; simp [hz])
    · rw [Finset.mul_sum] at a
      simpa only [mul_assoc] using a
  refine ⟨T, hT, hT0, fun i => R_ENG * T * pi i, ?_, fun b' h' S' P' hm hle => ?_,
    fun b' h' S' P' hb hm hlt => ?_⟩
  · have := gibbs_self he
    rw [mixGibbs, Finset.mul_sum] at this
    simpa only [mul_assoc] using this
  · obtain ⟨M, hM, -, hk⟩ := key b' h' S' P' hm hle
    have hl : 0 ≤ Real.log (P' / P) := Real.log_nonneg (by rwa [one_le_div hP])
    have := mul_nonneg hT0.le (mul_nonneg (mul_nonneg R_ENG_pos.le hM) hl)
    linarith
  · obtain ⟨M, -, hM, hk⟩ := key b' h' S' P' hm hlt.le
    have hl : 0 < Real.log (P' / P) := Real.log_pos (by rwa [one_lt_div hP])
    have := mul_pos hT0 (mul_pos (mul_pos R_ENG_pos (hM hb)) hl)
    linarith

/-- **C47 (mixing).** When streams of any compositions are mixed to an equilibrium at a pressure not
above any of theirs, with conserved elements and at least their enthalpy, entropy does not decrease.
The incoming streams need not be in equilibrium and may lack species. -/
theorem C47_mixing (hI : Warm g I) {K : Type} [Fintype K] (W : K → ℝ) (hW : ∀ k, 0 ≤ W k)
    (bs : K → Fin ne → ℝ) (hs Ss Ps : K → ℝ) (hk : ∀ k, IsMixture g I (bs k) (hs k) (Ss k) (Ps k))
    (hP : ∀ k, P ≤ Ps k) (out : GasState g I b h S P)
    (hb : ∀ i, (∑ k, W k) * b i = ∑ k, W k * bs k i) (hh : ∑ k, W k * hs k ≤ (∑ k, W k) * h) :
    ∑ k, W k * Ss k ≤ (∑ k, W k) * S := by
  obtain ⟨T, -, hT, lam, h1, h2, -⟩ := priced hI out
  have a : ∑ k, W k * ∑ i, lam i * bs k i ≤ ∑ k, W k * (hs k - T * Ss k) :=
    Finset.sum_le_sum fun k _ => mul_le_mul_of_nonneg_left (h2 _ _ _ _ (hk k) (hP k)) (hW k)
  have c : ∑ k, W k * ∑ i, lam i * bs k i = (∑ k, W k) * (h - T * S) := by
    rw [h1, Finset.mul_sum]
    simp only [Finset.mul_sum]
    rw [Finset.sum_comm]
    refine Finset.sum_congr rfl fun i _ => ?_
    calc ∑ k, W k * (lam i * bs k i) = lam i * ∑ k, W k * bs k i := by
          rw [Finset.mul_sum]; exact Finset.sum_congr rfl fun k _ => by ring
      _ = (∑ k, W k) * (lam i * b i) := by rw [← hb i]; ring
  have d : ∑ k, W k * (hs k - T * Ss k) = ∑ k, W k * hs k - T * ∑ k, W k * Ss k := by
    rw [Finset.mul_sum, ← Finset.sum_sub_distrib]
    exact Finset.sum_congr rfl fun k _ => by ring
  rw [c, d] at a
  refine le_of_mul_le_mul_left ?_ hT
  linarith

/-- **C47 (entropy as a function of enthalpy and pressure).** At fixed element abundances the
equilibrium entropy increases with enthalpy and decreases with pressure, strictly. -/
theorem C47_entropy (hI : Warm g I) {h' S' P' : ℝ} (s : GasState g I b h S P)
    (s' : GasState g I b h' S' P') (hh : h ≤ h') (hP : P' ≤ P) :
    S ≤ S' ∧ ((∃ i, b i ≠ 0) → h < h' ∨ P' < P → S < S') := by
  obtain ⟨T, -, hT, lam, h1, h2, h3⟩ := priced hI s'
  have a := h2 _ _ _ _ s.mixture hP
  refine ⟨le_of_mul_le_mul_left (by linarith) hT, fun hb hor => ?_⟩
  refine lt_of_mul_lt_mul_left ?_ hT.le
  rcases hor with hlt | hlt
  · linarith
  · have := h3 _ _ _ _ hb s.mixture hlt
    linarith

/-- The converse: with equal entropies the higher pressure has the higher enthalpy. -/
theorem C47_isentropic (hI : Warm g I) {h' P' : ℝ} (s : GasState g I b h S P)
    (s' : GasState g I b h' S P') (hb : ∃ i, b i ≠ 0) :
    (P < P' ↔ h < h') ∧ (P = P' ↔ h = h') := by
  have key : ∀ {h h' P P' : ℝ}, GasState g I b h S P → GasState g I b h' S P' → P < P' → h < h' := by
    intro h h' P P' s s' hlt
    by_contra hle
    exact lt_irrefl S ((C47_entropy hI s' s (not_lt.1 hle) hlt.le).2 hb (.inr hlt))
  have keq : ∀ {h h' P P' : ℝ}, GasState g I b h S P → GasState g I b h' S P' → P = P' → h = h' := by
    intro h h' P P' s s' he
    rcases lt_trichotomy h h' with hlt | hlt | hlt
    · exact absurd ((C47_entropy hI s s' hlt.le he.symm.le).2 hb (.inl hlt)) (lt_irrefl S)
    · exact hlt
    · exact absurd ((C47_entropy hI s' s hlt.le he.le).2 hb (.inl hlt)) (lt_irrefl S)
  refine ⟨⟨key s s', fun hlt => ?_⟩, ⟨keq s s', fun he => ?_⟩⟩
  · rcases lt_trichotomy P P' with h1 | h1 | h1
    · exact h1
    · exact absurd (keq s s' h1) hlt.ne
    · exact absurd (key s' s h1) (not_lt.2 hlt.le)
  · rcases lt_trichotomy P P' with h1 | h1 | h1
    · exact absurd he (key s s' h1).ne
    · exact h1
    · exact absurd he (key s' s h1).ne'

/-- **C47 (from the components).** A point at which the component's residuals vanish, with trace removal
inactive, is such a state, with the reported enthalpy and entropy. -/
theorem C47_solved {st : ChemEqState np} (hst : st.removeTrace = false) {x : ChemEqPoint ne np}
    (hx : Solved g st x) (hI : x.T ∈ I) (rT rP : Fin (ne + 1) → ℝ) :
    GasState g I x.composition ((x.props rT rP).h g) ((x.props rT rP).S g) x.P :=
  ⟨hx.P_pos, x.T, hI, x.n, x.pi,
    ((C17_iff_equilibrium g st hst x hx.pos hx.P_pos).1 ⟨hx.n, hx.pi, hx.nMoles⟩).1,
    out_h x rT rP, out_S hx rT rP⟩

/-- **C47 (streams with fewer elements).** A stream whose thermodynamics is set up with fewer elements
and species (a bleed of plain air mixed into combustion gas) is a mixture of the larger gas, the
missing elements having abundance zero. -/
theorem C47_fewer_elements {ne' np' : ℕ} (g' : Gas ne' np') (κ : Fin ne' → Fin ne) (ι : Fin np' → Fin np)
    (hκ : Function.Injective κ) (hι : Function.Injective ι) (hrows : ∀ j, g.rows (ι j) = g'.rows j)
    (haij : ∀ i j, g.aij (κ i) (ι j) = g'.aij i j) (hout : ∀ i ∉ Set.range κ, ∀ j, g.aij i (ι j) = 0)
    {b' : Fin ne' → ℝ} (hs : IsMixture g' I b' h S P) (hb : ∀ i, b (κ i) = b' i)
    (hb0 : ∀ i ∉ Set.range κ, b i = 0) : IsMixture g I b h S P := by
  obtain ⟨hP, T, hT, m, hm, hbm, rfl, rfl⟩ := hs
  have he : ∀ j, Function.extend ι m (fun _ => 0) (ι j) = m j := fun j => hι.extend_apply m (fun _ => 0) j
  have hz : ∀ j ∉ Set.range ι, Function.extend ι m (fun _ => 0) j = 0 := fun j hj =>
    Function.extend_apply' m (fun _ => 0) j hj
  have hsum : ∀ F : Fin np → ℝ → ℝ, (∀ j, F j 0 = 0) →
      ∑ j, F j (Function.extend ι m (fun _ => 0) j) = ∑ j, F (ι j) (m j) := fun F hF =>
    (Fintype.sum_of_injective ι hι (fun j => F (ι j) (m j)) (fun j => F j (Function.extend ι m (fun _ => 0) j))
      (fun j hj => by simp only [hz j hj, hF]) (fun j => by simp only [he])).symm
  have hM : ∑ j, Function.extend ι m (fun _ => 0) j = ∑ j, m j := hsum (fun _ y => y) (fun _ => rfl)
  refine ⟨hP, T, hT, Function.extend ι m (fun _ => 0), fun j => ?_, fun i => ?_, ?_, ?_⟩
  · by_cases hj : j ∈ Set.range ι
    · obtain ⟨k, rfl⟩ := hj; rw [he]; exact hm k
    · rw [hz j hj]
  · rw [hsum (fun j y => g.aij i j * y) (fun j => mul_zero _)]
    by_cases hi : i ∈ Set.range κ
    · obtain ⟨k, rfl⟩ := hi
      rw [hb, ← hbm k]
      exact Finset.sum_congr rfl fun j _ => by rw [haij]
    · rw [hb0 i hi]
      exact Finset.sum_eq_zero fun j _ => by rw [hout i hi, zero_mul]
  · unfold mixEnthalpy
    rw [hsum (fun j y => y * (g.H0 T j * (R_ENG * T))) (fun j => zero_mul _)]
    exact Finset.sum_congr rfl fun j _ => by simp only [Gas.H0, hrows]
  · unfold mixEntropy
    rw [hM, hsum (fun j y => y * (R_ENG * (g.S0 T j - Real.log (y / (∑ k, m k) * (P / P_REF)))))
      (fun j => zero_mul _)]
    exact Finset.sum_congr rfl fun j _ => by simp only [Gas.S0, hrows]

/-! ## Elements -/

/-- The thermodynamic solvers an element uses give converged states of the gas: the enthalpy found for
an entropy and a pressure, and the entropy found for an enthalpy and a pressure, where asked for. -/
def Gives (g : Gas ne np) (I : Set ℝ) (b : Fin ne → ℝ) (th : Comp.Therm) (SP hP : Set (ℝ × ℝ)) : Prop :=
  (∀ q ∈ SP, GasState g I b (th.hSP q.1 q.2) q.1 q.2)
    ∧ ∀ q ∈ hP, GasState g I b q.1 (th.sHP q.1 q.2) q.2

/-- **C47 (compressor).** A compressor with pressure ratio above one raises the enthalpy and does not
lower the entropy if its efficiency is in `(0, 1]` - strictly raises it below one - and does lower it if
the efficiency exceeds one. -/
theorem C47_compressor (hI : Warm g I) (hb : ∃ i, b i ≠ 0) {n : ℕ} (c : Comp.GIn n) (th : Comp.Therm)
    (hin : GasState g I b c.ht c.S c.Pt)
    (hth : Gives g I b th {(c.S, c.PtOut)} {(c.htOut th, c.PtOut)}) (hPR : 1 < c.PR) (he : 0 < c.eff) :
    c.ht < th.hSP c.S c.PtOut ∧ c.ht < c.htOut th
    ∧ (c.eff ≤ 1 ↔ c.S ≤ th.sHP (c.htOut th) c.PtOut)
    ∧ (c.eff < 1 ↔ c.S < th.sHP (c.htOut th) c.PtOut) := by
  have hid := hth.1 _ rfl
  have hout := hth.2 _ rfl
  simp only at hid hout
  have hPlt : c.Pt < c.PtOut := by
    have := hin.1
    simp only [Comp.GIn.PtOut, Comp.pressRise]; nlinarith
  have h1 := (C47_isentropic hI hin hid hb).1.1 hPlt
  have e : c.htOut th = (th.hSP c.S c.PtOut - c.ht) / c.eff + c.ht := rfl
  have hd : 0 < th.hSP c.S c.PtOut - c.ht := sub_pos.2 h1
  have cmp : ∀ {h' S' : ℝ}, GasState g I b h' S' c.PtOut → (th.hSP c.S c.PtOut ≤ h' ↔ c.S ≤ S') := by
    intro h' S' s'
    constructor
    · exact fun hle => (C47_entropy hI hid s' hle le_rfl).1
    · intro hle
      by_contra hlt
      exact absurd ((C47_entropy hI s' hid (not_le.1 hlt).le le_rfl).2 hb (.inl (not_le.1 hlt)))
        (not_lt.2 hle)
  have cmp' : th.hSP c.S c.PtOut < c.htOut th ↔ c.S < th.sHP (c.htOut th) c.PtOut := by
    constructor
    · exact fun hlt => (C47_entropy hI hid hout hlt.le le_rfl).2 hb (.inl hlt)
    · intro hlt
      by_contra hle
      exact absurd (C47_entropy hI hout hid (not_lt.1 hle) le_rfl).1 (not_le.2 hlt)
  refine ⟨h1, ?_, ?_, ?_⟩
  · rw [e]; linarith [div_pos hd he]
  · rw [← cmp hout, e, ← sub_le_iff_le_add, le_div_iff₀ he]
    constructor
    · intro h; nlinarith
    · intro h; by_contra hh; nlinarith
  · rw [← cmp', e, ← sub_lt_iff_lt_add, lt_div_iff₀ he]
    constructor
    · intro h; nlinarith
    · intro h; by_contra hh; nlinarith

/-- **C47 (polytropic efficiency).** The reported polytropic efficiency of such a compressor is in
`(0, 1]` (for a positive gas constant). -/
theorem C47_eff_poly (hI : Warm g I) (hb : ∃ i, b i ≠ 0) {n : ℕ} (c : Comp.GIn n) (th : Comp.Therm)
    (hin : GasState g I b c.ht c.S c.Pt)
    (hth : Gives g I b th {(c.S, c.PtOut)} {(c.htOut th, c.PtOut)}) (hPR : 1 < c.PR) (he : 0 < c.eff)
    (he1 : c.eff ≤ 1) (hR : 0 < c.R) : 0 < c.effPoly th ∧ c.effPoly th ≤ 1 := by
  have hS := (C47_compressor hI hb c th hin hth hPR he).2.2.1.1 he1
  have hl := mul_pos hR (Real.log_pos hPR)
  simp only [Comp.GIn.effPoly, Comp.effPoly]
  have hd : 0 < c.R * Real.log c.PR + th.sHP (c.htOut th) c.PtOut - c.S := by linarith
  exact ⟨div_pos hl hd, (div_le_one hd).2 (by linarith)⟩

/-- **C47 (turbine with cooling bleeds).** With efficiency in `[0, 1]`, pressure ratio at least one and
bleeds injected at or above the exit pressure, the entropy flow out of the turbine is at least that of
the inflow and of the bleeds at their points of injection. Each bleed may have its own composition. -/
theorem C47_turbine (hI : Warm g I) {n : ℕ} (t : Turb.GIn n) (th : Turb.Therm n)
    (bb : Fin n → Fin ne → ℝ) (bo : Fin ne → ℝ) (So : ℝ)
    (hin : IsMixture g I b t.ht t.S t.Pt)
    (hid : IsMixture g I b (th.main.hSP t.S t.PtOut) t.S t.PtOut)
    (hbin : ∀ k, IsMixture g I (bb k) (t.bht k) ((th.bleed k).sHP (t.bht k) (t.bPt k)) (t.bPt k))
    (hbid : ∀ k, IsMixture g I (bb k) (t.bIdeal th k) ((th.bleed k).sHP (t.bht k) (t.bPt k)) t.PtOut)
    (hPR : 1 ≤ t.PR) (he0 : 0 ≤ t.eff) (he1 : t.eff ≤ 1) (hf : ∀ k, 0 ≤ t.frac_P k)
    (hW : 0 < t.W) (hbW : ∀ k, 0 ≤ t.bW k)
    (hbo : ∀ i, (t.W + ∑ k, t.bW k) * bo i = t.W * b i + ∑ k, t.bW k * bb k i)
    (hout : GasState g I bo (Turb.enthPower (t.enthIn th (t.W + ∑ k, t.bW k)) .ht_out) So t.PtOut) :
    t.W * t.S + ∑ k, t.bW k * (th.bleed k).sHP (t.bht k) (t.bPt k) ≤ (t.W + ∑ k, t.bW k) * So := by
  obtain ⟨T, -, hT, lam, h1, h2, -⟩ := priced hI hout
  have hWo : 0 < t.W + ∑ k, t.bW k := add_pos_of_pos_of_nonneg hW (Finset.sum_nonneg fun k _ => hbW k)
  have hP1 : t.PtOut ≤ t.Pt := div_le_self hin.1.le hPR
  have hP2 : ∀ k, t.PtOut ≤ t.bPt k := by
    intro k
    simp only [Turb.GIn.bPt, Turb.bldPt]
    nlinarith [hf k, mul_nonneg (hf k) (sub_nonneg.2 hP1)]
  -- each stream: a convex combination of its inflow state and its ideal state
  have hm : ∑ i, lam i * b i ≤ (t.ht * (1 - t.eff) + th.main.hSP t.S t.PtOut * t.eff) - T * t.S := by
    have a := h2 _ _ _ _ hin hP1
    have c := h2 _ _ _ _ hid le_rfl
    nlinarith
  have hk : ∀ k, ∑ i, lam i * bb k i ≤ (t.bht k * (1 - t.eff) + t.bIdeal th k * t.eff)
      - T * (th.bleed k).sHP (t.bht k) (t.bPt k) := by
    intro k
    have a := h2 _ _ _ _ (hbin k) (hP2 k)
    have c := h2 _ _ _ _ (hbid k) le_rfl
    nlinarith
  -- the outlet enthalpy
  have ho : (t.W + ∑ k, t.bW k) * Turb.enthPower (t.enthIn th (t.W + ∑ k, t.bW k)) .ht_out
      = t.W * (t.ht * (1 - t.eff) + th.main.hSP t.S t.PtOut * t.eff)
        + ∑ k, t.bW k * (t.bht k * (1 - t.eff) + t.bIdeal th k * t.eff) := by
    simp only [Turb.enthPower, Turb.htOut, foldl_add_fin, Turb.b4bld, Turb.GIn.enthIn]
    rw [mul_add, Finset.mul_sum]
    have := hWo.ne'
    congr 1
    · field_simp
    · refine Finset.sum_congr rfl fun k _ => ?_
      field_simp
  have hb' : (t.W + ∑ k, t.bW k) * ∑ i, lam i * bo i
      = t.W * ∑ i, lam i * b i + ∑ k, t.bW k * ∑ i, lam i * bb k i := by
    have e1 : ∀ i, (t.W + ∑ k, t.bW k) * (lam i * bo i)
        = lam i * (t.W * b i) + ∑ k, t.bW k * (lam i * bb k i) := by
      intro i
      calc (t.W + ∑ k, t.bW k) * (lam i * bo i) = lam i * ((t.W + ∑ k, t.bW k) * bo i) := by ring
        _ = _ := by
          rw [hbo i, mul_add, Finset.mul_sum]
          congr 1
          exact Finset.sum_congr rfl fun k _ => by ring
    simp only [Finset.mul_sum, e1, Finset.sum_add_distrib]
    rw [Finset.sum_comm]
    congr 1
    exact Finset.sum_congr rfl fun i _ => by ring
  have s1 := mul_le_mul_of_nonneg_left hm hW.le
  have s2 : ∑ k, t.bW k * ∑ i, lam i * bb k i ≤ ∑ k, t.bW k *
      ((t.bht k * (1 - t.eff) + t.bIdeal th k * t.eff) - T * (th.bleed k).sHP (t.bht k) (t.bPt k)) :=
    Finset.sum_le_sum fun k _ => mul_le_mul_of_nonneg_left (hk k) (hbW k)
  simp only [mul_sub, Finset.sum_sub_distrib] at s1 s2 ho
  have s3 : ∑ k, t.bW k * (T * (th.bleed k).sHP (t.bht k) (t.bPt k))
      = T * ∑ k, t.bW k * (th.bleed k).sHP (t.bht k) (t.bPt k) := by
    rw [Finset.mul_sum]; exact Finset.sum_congr rfl fun k _ => by ring
  rw [s3] at s2
  rw [← h1, mul_sub, ho] at hb'
  refine le_of_mul_le_mul_left ?_ hT
  linarith

/-- **C47 (pressure loss and heat addition).** A duct (or any element with a relative pressure loss)
with a non-negative loss below one and non-negative heat addition does not lower the entropy; it
strictly raises it if there is any loss or any heat. -/
theorem C47_duct (hI : Warm g I) (hb : ∃ i, b i ≠ 0) (design : Bool) (expMN : ℝ) (d : Duct.DuctIn)
    (S S' : ℝ) (hW : 0 < d.W) (hQ : 0 ≤ d.Q_dot) (hl0 : 0 ≤ Duct.loss design expMN d)
    (hin : GasState g I b d.ht S d.Pt)
    (hout : GasState g I b (Duct.outlet design expMN d).2 S' (Duct.outlet design expMN d).1) :
    S ≤ S' ∧ (0 < d.Q_dot ∨ 0 < Duct.loss design expMN d → S < S') := by
  have hP0 := hin.1
  have hP : (Duct.outlet design expMN d).1 ≤ d.Pt := by
    simp only [Duct.outlet, Duct.ptOut]; nlinarith
  have hh : d.ht ≤ (Duct.outlet design expMN d).2 := by
    simp only [Duct.outlet, Duct.htOut]
    linarith [div_nonneg hQ hW.le]
  have := C47_entropy hI hin hout hh hP
  refine ⟨this.1, fun hor => this.2 hb ?_⟩
  rcases hor with h1 | h1
  · left; simp only [Duct.outlet, Duct.htOut]; linarith [div_pos h1 hW]
  · right; simp only [Duct.outlet, Duct.ptOut]; nlinarith

/-- **C47 (inlet).** An inlet holds total temperature, and its recovery below (at, above) one is exactly
a fall (no change, a rise) of the Gibbs energy `h - T S` at that temperature. If moreover the gas cannot
react - its elements determine the amounts - total enthalpy is conserved and recovery below one is exactly
a rise of entropy. -/
theorem C47_inlet {T : ℝ} (hT : Warm g {T}) (hb : ∃ i, b i ≠ 0) (x : Inlet.CI → ℝ) (h S h' S' : ℝ)
    (hin : GasState g {T} b h S (x .Pt_in))
    (hout : GasState g {T} b h' S' (Inlet.calcs x .Pt_out)) :
    (x .ram_recovery < 1 ↔ h' - T * S' < h - T * S)
    ∧ (1 < x .ram_recovery ↔ h - T * S < h' - T * S')
    ∧ ((∀ n m : Fin np → ℝ, (∀ i, ∑ j, g.aij i j * n j = ∑ j, g.aij i j * m j) → n = m) →
        h' = h ∧ (x .ram_recovery < 1 ↔ S < S') ∧ (1 < x .ram_recovery ↔ S' < S)) := by
  have hP0 := hin.1
  have e : Inlet.calcs x .Pt_out = x .Pt_in * x .ram_recovery := by
    simp only [Inlet.calcs]
  have hlt : ∀ {P P' h S h' S' : ℝ}, GasState g {T} b h S P → GasState g {T} b h' S' P' → P' < P →
      h' - T * S' < h - T * S := by
    intro P P' h S h' S' s s' hP
    obtain ⟨U, hU, -, lam, h1, -, h3⟩ := priced hT s'
    rw [Set.mem_singleton_iff] at hU
    subst hU
    rw [h1]
    exact h3 _ _ _ _ hb s.mixture hP
  have heq : ∀ {P h S h' S' : ℝ}, GasState g {T} b h S P → GasState g {T} b h' S' P →
      h - T * S ≤ h' - T * S' := by
    intro P h S h' S' s s'
    obtain ⟨U, hU, -, lam, h1, h2, -⟩ := priced hT s
    rw [Set.mem_singleton_iff] at hU
    subst hU
    rw [h1]
    exact h2 _ _ _ _ s'.mixture le_rfl
  have e1 : x .ram_recovery < 1 ↔ Inlet.calcs x .Pt_out < x .Pt_in := by
    rw [e]; constructor
    · intro h; nlinarith
    · intro h; by_contra hh; nlinarith
  have e2 : 1 < x .ram_recovery ↔ x .Pt_in < Inlet.calcs x .Pt_out := by
    rw [e]; constructor
    · intro h; nlinarith
    · intro h; by_contra hh; nlinarith
  have c1 : x .ram_recovery < 1 ↔ h' - T * S' < h - T * S := by
    rw [e1]
    refine ⟨hlt hin hout, fun hg => ?_⟩
    rcases lt_trichotomy (Inlet.calcs x .Pt_out) (x .Pt_in) with a | a | a
    · exact a
    · rw [a] at hout; exact absurd (heq hin hout) (not_le.2 hg)
    · exact absurd (hlt hout hin a) (not_lt.2 hg.le)
  have c2 : 1 < x .ram_recovery ↔ h - T * S < h' - T * S' := by
    rw [e2]
    refine ⟨hlt hout hin, fun hg => ?_⟩
    rcases lt_trichotomy (Inlet.calcs x .Pt_out) (x .Pt_in) with a | a | a
    · exact absurd (hlt hin hout a) (not_lt.2 hg.le)
    · rw [a] at hout; exact absurd (heq hout hin) (not_le.2 hg)
    · exact a
  refine ⟨c1, c2, fun hinert => ?_⟩
  have hT0 : 0 < T := hT.pos T rfl
  have hh : h' = h := by
    obtain ⟨-, U, hU, n, pi, he, h1, -⟩ := hin
    obtain ⟨-, U', hU', m, pi', he', h1', -⟩ := hout
    rw [Set.mem_singleton_iff] at hU hU'
    subst hU; subst hU'
    rw [h1, h1', hinert n m fun i => (he.elements i).trans (he'.elements i).symm]
  refine ⟨hh, c1.trans ?_, c2.trans ?_⟩
  · rw [hh, sub_lt_sub_iff_left, mul_lt_mul_iff_right₀ hT0]
  · rw [hh, sub_lt_sub_iff_left, mul_lt_mul_iff_right₀ hT0]

/-- **C47 (refuted: an inlet conserves enthalpy).** In a gas that reacts - here `A₂` dissociating when
pressure falls - an inlet, though adiabatic, changes the total enthalpy of the flow; it rises. -/
theorem C47_refuted_inlet : ∃ (g : Gas 1 2) (T : ℝ) (b : Fin 1 → ℝ) (x : Inlet.CI → ℝ) (h S h' S' : ℝ),
    Warm g {T} ∧ (∃ i, b i ≠ 0) ∧ 0 < x .ram_recovery ∧ x .ram_recovery < 1
    ∧ GasState g {T} b h S (x .Pt_in) ∧ GasState g {T} b h' S' (Inlet.calcs x .Pt_out) ∧ h < h' := by
  have hr := P_REF_pos
  have hc := C46Example.c_pos
  obtain ⟨hx, -, hz, -⟩ := C46Example.example_solved
  have sx := C47_solved (I := {300}) rfl hx rfl 0 0
  have sz := C47_solved (I := {300}) rfl hz rfl 0 0
  refine ⟨C46Example.gas, 300, fun _ => 3, fun | .Pt_in => P_REF | .ram_recovery => 0.15625 | _ => 0,
    _, _, (C46Example.z.props 0 0).h C46Example.gas, (C46Example.z.props 0 0).S C46Example.gas,
    ⟨fun T hT => ?_, Set.ordConnected_singleton, fun T hT j => ?_⟩, ⟨0, by norm_num⟩,
    by norm_num, by norm_num, sx, ?_, ?_⟩
  · rw [Set.mem_singleton_iff] at hT; rw [hT]; norm_num
  · rw [Set.mem_singleton_iff] at hT
    exact C46Example.warm.cp T (by rw [hT]; constructor <;> norm_num) j
  · have : Inlet.calcs (fun | .Pt_in => P_REF | .ram_recovery => 0.15625 | _ => 0) .Pt_out
        = C46Example.z.P := by
      simp only [Inlet.calcs, C46Example.z, C46Example.pt]; ring
    rw [this]
    exact sz
  · rw [out_h, out_h]
    simp only [mixEnthalpy, C46Example.x, C46Example.z, C46Example.pt, Gas.H0, h0, C46Example.gas,
      Fin.sum_univ_two]
    have hR := R_ENG_pos
    have : 0 < R_ENG * C46Example.c := mul_pos hR hc
    simp
    nlinarith

/-! ## Non-vacuity: a perfect gas -/

namespace C47Example

/-- One species, constant heat capacity `3.5 R`. -/
noncomputable def gas : Gas 1 1 := ⟨fun _ _ => 1, fun _ m => if m = 2 then 3.5 else 0⟩

/-- Its thermodynamic functions in closed form. -/
noncomputable def th : Comp.Therm where
  hSP S P := R_ENG * 3.5 * Real.exp ((S / R_ENG + Real.log (P / P_REF)) / 3.5)
  sHP h P := R_ENG * (3.5 * Real.log (h / (R_ENG * 3.5)) - Real.log (P / P_REF))

theorem warm : Warm gas (Set.Ioi 0) := by
  refine ⟨fun T hT => hT, Set.ordConnected_Ioi, fun T _ j => ?_⟩
  simp [Gas.Cp0, cp0, gas]; norm_num

theorem state (T P : ℝ) (hT : 0 < T) (hP : 0 < P) : GasState gas (Set.Ioi 0) (fun _ => 1)
    (R_ENG * 3.5 * T) (R_ENG * (3.5 * Real.log T - Real.log (P / P_REF))) P := by
  refine ⟨hP, T, hT, fun _ => 1, fun _ => chemPotential gas T P (fun _ => 1) 0, ⟨fun _ => one_pos, ?_, ?_⟩,
    ?_, ?_⟩
  · intro i; simp [gas]
  · intro j; fin_cases j; simp [gas]
  · simp [mixEnthalpy, Gas.H0, gas, h0]; ring
  · simp [mixEntropy, Gas.S0, gas, s0]

/-- The closed forms are converged states for every entropy, every positive enthalpy and pressure. -/
theorem gives : Gives gas (Set.Ioi 0) (fun _ => 1) th {q | 0 < q.2} {q | 0 < q.1 ∧ 0 < q.2} := by
  have hR := R_ENG_pos
  constructor
  · rintro ⟨S, P⟩ hP
    have := state (Real.exp ((S / R_ENG + Real.log (P / P_REF)) / 3.5)) P (Real.exp_pos _) hP
    rw [Real.log_exp] at this
    convert this using 1
    · rfl
    · show S = _
      field_simp
      ring
  · rintro ⟨h, P⟩ ⟨hh, hP⟩
    have := state (h / (R_ENG * 3.5)) P (div_pos hh (by positivity)) hP
    convert this using 1
    · show h = _
      field_simp
    · rfl

/-- A compressor of pressure ratio 2 and efficiency 0.8 meets all hypotheses. -/
noncomputable def comp : Comp.GIn 0 :=
  { W := 1, ht := R_ENG * 3.5, Pt := P_REF, S := 0, R := 1, PR := 2, eff := 0.8, Nmech := 1
    frac_W := Fin.elim0, frac_P := Fin.elim0, frac_work := Fin.elim0 }

example : Warm gas (Set.Ioi 0) ∧ (∃ i, (fun _ : Fin 1 => (1 : ℝ)) i ≠ 0)
    ∧ GasState gas (Set.Ioi 0) (fun _ => 1) comp.ht comp.S comp.Pt
    ∧ Gives gas (Set.Ioi 0) (fun _ => 1) th {(comp.S, comp.PtOut)} {(comp.htOut th, comp.PtOut)}
    ∧ 1 < comp.PR ∧ 0 < comp.eff ∧ comp.eff < 1 ∧ 0 < comp.R := by
  have hr := P_REF_pos
  have hR := R_ENG_pos
  have hP : 0 < comp.PtOut := by
    simp only [Comp.GIn.PtOut, Comp.pressRise, comp]; positivity
  have hin : GasState gas (Set.Ioi 0) (fun _ => 1) comp.ht comp.S comp.Pt := by
    have := state 1 P_REF one_pos hr
    simpa [comp, div_self hr.ne'] using this
  refine ⟨warm, ⟨0, one_ne_zero⟩, hin, ⟨?_, ?_⟩, by norm_num [comp], by norm_num [comp],
    by norm_num [comp], by norm_num [comp]⟩
  · rintro q rfl; exact gives.1 _ hP
  · rintro q rfl
    refine gives.2 _ ⟨?_, hP⟩
    have h1 := (C47_isentropic warm hin (gives.1 (comp.S, comp.PtOut) hP) ⟨0, one_ne_zero⟩).1.1 (by
      simp only [Comp.GIn.PtOut, Comp.pressRise, comp]; linarith)
    simp only at h1
    simp only [Comp.GIn.htOut, Comp.enthRise]
    have h3 : 0 < comp.ht := by simp only [comp]; positivity
    have h2 := div_pos (sub_pos.2 h1) (by norm_num [comp] : 0 < comp.eff)
    linarith

/-- An inlet of recovery `0.9` on this gas meets all hypotheses, and the gas cannot react. -/
example : Warm gas {1} ∧ (∀ n m : Fin 1 → ℝ, (∀ i, ∑ j, gas.aij i j * n j = ∑ j, gas.aij i j * m j) → n = m)
    ∧ ∃ (x : Inlet.CI → ℝ) (h S h' S' : ℝ), x .ram_recovery = 0.9
      ∧ GasState gas {1} (fun _ => 1) h S (x .Pt_in)
      ∧ GasState gas {1} (fun _ => 1) h' S' (Inlet.calcs x .Pt_out) := by
  have hr := P_REF_pos
  have st : ∀ P, 0 < P → GasState gas {1} (fun _ => 1)
      (R_ENG * 3.5 * 1) (R_ENG * (3.5 * Real.log 1 - Real.log (P / P_REF))) P := by
    intro P hP
    refine ⟨hP, 1, rfl, fun _ => 1, fun _ => chemPotential gas 1 P (fun _ => 1) 0,
      ⟨fun _ => one_pos, ?_, ?_⟩, ?_, ?_⟩
    · intro i; simp [gas]
    · intro j; fin_cases j; simp [gas]
    · simp [mixEnthalpy, Gas.H0, gas, h0, mul_comm]
    · simp [mixEntropy, Gas.S0, gas, s0]
  refine ⟨⟨fun T hT => ?_, Set.ordConnected_singleton, fun T hT j => ?_⟩, fun n m h => ?_,
    fun | .Pt_in => P_REF | .ram_recovery => 0.9 | _ => 0, _, _, _, _, rfl, st _ hr, st _ ?_⟩
  · rw [Set.mem_singleton_iff] at hT; rw [hT]; norm_num
  · exact warm.cp T (by rw [Set.mem_singleton_iff] at hT; rw [hT, Set.mem_Ioi]; exact one_pos) j
  · funext j; fin_cases j; simpa [gas] using h 0
  · simp only [Inlet.calcs]; positivity

end C47Example

end PyCycle
