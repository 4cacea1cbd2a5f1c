import Verif.Lemmas.GibbsExist
import Verif.Props.C17_ChemEq
import Verif.Props.C44_FitData

/-! # C46: the converged state is determined by the inputs

At given temperature and pressure the equilibrium composition is the unique minimum of the Gibbs
energy; at given pressure, enthalpy and entropy strictly increase with temperature, so the temperature
found from an enthalpy or an entropy is the only one. -/

namespace PyCycle
open Finset
variable {ne np : Nat}

/-! ## Specification -/

/-- All residuals of the equilibrium component vanish at the point `x` (positive amounts, positive
pressure, positive temperature), whatever earlier evaluations left in the component. -/
structure Solved (g : Gas ne np) (st : ChemEqState np) (x : ChemEqPoint ne np) : Prop where
  pos : ∀ j, 0 < x.n j
  P_pos : 0 < x.P
  T_pos : 0 < x.T
  n : ∀ j, (applyNonlinear g st x).2.n j = 0
  pi : ∀ i, (applyNonlinear g st x).2.pi i = 0
  nMoles : (applyNonlinear g st x).2.nMoles = 0

/-- Two solved points do not differ in a species whose equation one of them has switched off: for each
species either both points solve its equation (trace removal inactive, or the amount above the trace
threshold), or the amounts are the same. Automatic when trace removal is inactive. -/
def SameTrace (st st' : ChemEqState np) (x y : ChemEqPoint ne np) : Prop :=
  ∀ j, ((st.removeTrace = false ∨ TRACE < x.n j) ∧ (st'.removeTrace = false ∨ TRACE < y.n j))
    ∨ x.n j = y.n j

/-- The point as seen by the property component (whatever the linear solves returned). -/
def ChemEqPoint.props (x : ChemEqPoint ne np) (rT rP : Fin (ne + 1) → ℝ) : PropsIn ne np :=
  ⟨x.T, x.P, x.n, x.nMoles, rT, rP⟩

/-! ## Equilibria -/

variable {g : Gas ne np} {b : Fin ne → ℝ} {T P : ℝ} {n : Fin np → ℝ} {pi : Fin ne → ℝ}

private theorem some_species {b : Fin ne → ℝ} (h : IsEquilibrium g T P b n pi) {i : Fin ne}
    (hi : b i ≠ 0) : ∃ _ : Fin np, True := by
  by_contra hno
  have : IsEmpty (Fin np) := ⟨fun j => hno ⟨j, trivial⟩⟩
  exact hi (by rw [← h.elements i]; simp)

/-- **C46 (minimum).** An equilibrium has the least Gibbs energy of all non-negative amounts with the
same elements, and (if there is any element at all) is the only one that has it. -/
theorem C46_minimum (hT : 0 < T) (hP : 0 < P) (h : IsEquilibrium g T P b n pi) (m : Fin np → ℝ)
    (hm : ∀ j, 0 ≤ m j) (he : ∀ i, ∑ j, g.aij i j * m j = b i) :
    mixGibbs g T P n ≤ mixGibbs g T P m
    ∧ ((∃ i, b i ≠ 0) → mixGibbs g T P m = mixGibbs g T P n → m = n) := by
  have h1 := gibbs_le hT hP h m hm
  simp only [he] at h1
  rw [← gibbs_self h] at h1
  refine ⟨h1, fun ⟨i, hi⟩ heq => ?_⟩
  have h2 := gibbs_eq hT hP h m hm (by simp only [he]; rw [← gibbs_self h, heq])
  obtain ⟨j0, -⟩ := some_species h hi
  have hN := sum_pos_of n h.pos j0
  have hr : (∑ k, m k) / ∑ k, n k = 1 := by
    have e := he i
    have : ∑ j, g.aij i j * m j = (∑ k, m k) / (∑ k, n k) * b i := by
      rw [← h.elements i, Finset.mul_sum]
      refine Finset.sum_congr rfl fun j _ => ?_
      rw [h2 j]; ring
    rw [this] at e
    exact mul_right_cancel₀ hi (by rw [e, one_mul])
  funext j
  rw [h2 j]
  calc (∑ k, m k) * (n j / ∑ k, n k) = (∑ k, m k) / (∑ k, n k) * n j := by ring
    _ = n j := by rw [hr, one_mul]

private theorem eq_unique (hT : 0 < T) (hP : 0 < P) {m : Fin np → ℝ} {pi' : Fin ne → ℝ}
    (h : IsEquilibrium g T P b n pi) (h' : IsEquilibrium g T P b m pi') (hb : ∃ i, b i ≠ 0) :
    n = m := by
  have h1 := C46_minimum hT hP h m (fun j => (h'.pos j).le) h'.elements
  have h2 := (C46_minimum hT hP h' n (fun j => (h.pos j).le) h.elements).1
  exact (h1.2 hb (le_antisymm h2 h1.1)).symm

/-- Two equilibria of the same abundances at different temperatures and the same pressure. -/
private theorem eq_mono {I : Set ℝ} (hI : Warm g I) {T U : ℝ} (hT : T ∈ I) (hU : U ∈ I) (hlt : T < U)
    (hP : 0 < P) {m : Fin np → ℝ} {pi' : Fin ne → ℝ} (h : IsEquilibrium g T P b n pi)
    (h' : IsEquilibrium g U P b m pi') (hb : ∃ i, b i ≠ 0) :
    mixEnthalpy g T n < mixEnthalpy g U m ∧ mixEntropy g T P n < mixEntropy g U P m := by
  obtain ⟨i, hi⟩ := hb
  obtain ⟨j, -⟩ := some_species h hi
  have a := gibbs_master_lt hI hT hP h hU hlt.ne m (fun j => (h'.pos j).le) (h'.pos j)
  have c := gibbs_master_lt hI hU hP h' hT hlt.ne' n (fun j => (h.pos j).le) (h.pos j)
  simp only [h.elements, h'.elements] at a c
  rw [← gibbs_self h] at a
  rw [← gibbs_self h'] at c
  unfold mixGibbs at a c
  have hT0 := hI.pos T hT
  have hS : mixEntropy g T P n < mixEntropy g U P m := by nlinarith
  exact ⟨by nlinarith, hS⟩

/-- Two equilibria of the same abundances at the same temperature and different pressures. -/
private theorem eq_press (hT : 0 < T) {P Q : ℝ} (hP : 0 < P) (hPQ : P < Q)
    {m : Fin np → ℝ} {pi' : Fin ne → ℝ} (h : IsEquilibrium g T P b n pi)
    (h' : IsEquilibrium g T Q b m pi') : ∑ j, m j ≤ ∑ j, n j := by
  have hQ := hP.trans hPQ
  have a := (C46_minimum hT hP h m (fun j => (h'.pos j).le) h'.elements).1
  have c := (C46_minimum hT hQ h' n (fun j => (h.pos j).le) h.elements).1
  unfold mixGibbs at a c
  rw [mixEntropy_pressure g T hP hQ m (fun j => (h'.pos j).le)] at a
  rw [mixEntropy_pressure g T hP hQ n (fun j => (h.pos j).le)] at a
  have hl : 0 < Real.log (Q / P) := Real.log_pos (by rwa [one_lt_div hP])
  have : 0 < R_ENG * T * Real.log (Q / P) := mul_pos (mul_pos R_ENG_pos hT) hl
  by_contra hlt
  push Not at hlt
  nlinarith [mul_lt_mul_of_pos_left hlt this]

/-! ## From residuals to equilibria -/

open Classical in
/-- A gas with one more "element" for each species in `Z`, whose amount is thereby frozen. -/
private noncomputable def freeze (g : Gas ne np) (Z : Fin np → Prop) : Gas (ne + np) np :=
  ⟨fun i j => Fin.addCases (motive := fun _ => ℝ) (fun i => g.aij i j)
    (fun k => if k = j ∧ Z j then 1 else 0) i, g.rows⟩

open Classical in
private noncomputable def frozenB (b : Fin ne → ℝ) (Z : Fin np → Prop) (n : Fin np → ℝ) :
    Fin (ne + np) → ℝ :=
  fun i => Fin.addCases (motive := fun _ => ℝ) b (fun k => if Z k then n k else 0) i

private theorem solved_eq {st : ChemEqState np} {x : ChemEqPoint ne np} (hx : Solved g st x)
    (Z : Fin np → Prop) (hZ : ∀ j, ¬ Z j → st.removeTrace = false ∨ TRACE < x.n j) :
    ∃ pi, IsEquilibrium (freeze g Z) x.T x.P (frozenB x.composition Z x.n) x.n pi := by
  classical
  obtain ⟨h1, -, h3⟩ := C17_converged g st x hx.pos hx.P_pos hx.n hx.pi hx.nMoles
  refine ⟨fun i => Fin.addCases (motive := fun _ => ℝ) x.pi
    (fun k => chemPotential g x.T x.P x.n k - ∑ i, x.pi i * g.aij i k) i, hx.pos, fun i => ?_,
    fun j => ?_⟩
  · refine Fin.addCases (fun i => ?_) (fun k => ?_) i
    · simpa [freeze, frozenB] using h1 i
    · simp only [freeze, frozenB, Fin.addCases_right]
      rw [Finset.sum_eq_single k]
      · by_cases hk : Z k <;> simp [hk]
      · intro j _ hj; simp [hj.symm]
      · simp
  · rw [Fin.sum_univ_add]
    simp only [freeze, Fin.addCases_left, Fin.addCases_right]
    rw [Finset.sum_eq_single j (fun k _ hk => by simp [hk]) (by simp)]
    by_cases hj : Z j
    · simp only [hj, and_self, if_true, mul_one, add_sub_cancel]; rfl
    · simp only [hj, and_false, if_false, mul_zero, add_zero]
      exact h3 j (hZ j hj)

private def unlike (st st' : ChemEqState np) (x y : ChemEqPoint ne np) (j : Fin np) : Prop :=
  ¬ ((st.removeTrace = false ∨ TRACE < x.n j) ∧ (st'.removeTrace = false ∨ TRACE < y.n j))

private theorem frozenB_eq {st st' : ChemEqState np} {x y : ChemEqPoint ne np}
    (ht : SameTrace st st' x y) (hc : x.composition = y.composition) :
    frozenB x.composition (unlike st st' x y) x.n = frozenB y.composition (unlike st st' x y) y.n := by
  classical
  funext i
  refine Fin.addCases (fun i => ?_) (fun k => ?_) i
  · simp [frozenB, hc]
  · simp only [frozenB, Fin.addCases_right]
    split
    · rename_i hk
      exact (ht k).resolve_left hk
    · rfl

/-- The two solved points as equilibria of one gas with the same abundances. -/
private theorem pair {st st' : ChemEqState np} {x y : ChemEqPoint ne np} (hx : Solved g st x)
    (hy : Solved g st' y) (ht : SameTrace st st' x y) (hc : x.composition = y.composition) :
    ∃ (me : ℕ) (G : Gas me np) (B : Fin me → ℝ) (p q : Fin me → ℝ), G.rows = g.rows
      ∧ IsEquilibrium G x.T x.P B x.n p ∧ IsEquilibrium G y.T y.P B y.n q
      ∧ ((∃ i, x.composition i ≠ 0) → ∃ i, B i ≠ 0) := by
  classical
  obtain ⟨p, hp⟩ := solved_eq hx (unlike st st' x y) (fun j hj => (not_not.1 hj).1)
  obtain ⟨q, hq⟩ := solved_eq hy (unlike st st' x y) (fun j hj => (not_not.1 hj).2)
  rw [← frozenB_eq ht hc] at hq
  refine ⟨ne + np, freeze g _, _, p, q, rfl, hp, hq, fun ⟨i, hi⟩ => ⟨Fin.castAdd np i, ?_⟩⟩
  simpa [frozenB] using hi

private theorem rows_enthalpy {me : ℕ} {G : Gas me np} (h : G.rows = g.rows) (T : ℝ) (n : Fin np → ℝ) :
    mixEnthalpy G T n = mixEnthalpy g T n := by simp only [mixEnthalpy, Gas.H0, h]

private theorem rows_entropy {me : ℕ} {G : Gas me np} (h : G.rows = g.rows) (T P : ℝ) (n : Fin np → ℝ) :
    mixEntropy G T P n = mixEntropy g T P n := by simp only [mixEntropy, Gas.S0, h]

private theorem rows_warm {me : ℕ} {G : Gas me np} (h : G.rows = g.rows) {I : Set ℝ} (hI : Warm g I) :
    Warm G I := ⟨hI.pos, hI.interval, fun T hT j => by simpa only [Gas.Cp0, h] using hI.cp T hT j⟩

theorem out_h (x : ChemEqPoint ne np) (rT rP : Fin (ne + 1) → ℝ) :
    (x.props rT rP).h g = mixEnthalpy g x.T x.n := by
  simp only [PropsIn.h, ChemEqPoint.props, mixEnthalpy, Finset.sum_mul]
  exact Finset.sum_congr rfl fun j _ => by ring

theorem out_S {st : ChemEqState np} {x : ChemEqPoint ne np} (hx : Solved g st x)
    (rT rP : Fin (ne + 1) → ℝ) : (x.props rT rP).S g = mixEntropy g x.T x.P x.n := by
  have hm := (C17_converged g st x hx.pos hx.P_pos hx.n hx.pi hx.nMoles).2.1
  simp only [PropsIn.S, ChemEqPoint.props, mixEntropy, Finset.mul_sum]
  refine Finset.sum_congr rfl fun j _ => ?_
  have hN := sum_pos_of x.n hx.pos j
  have : x.nMoles / x.n j / (x.P / P_REF) = (x.n j / (∑ k, x.n k) * (x.P / P_REF))⁻¹ := by
    rw [hm]
    have := hx.pos j
    have := hx.P_pos
    have := P_REF_pos
    field_simp
  rw [this, Real.log_inv]
  ring

/-! ## Theorems about the components -/

/-- **C46 (given temperature and pressure).** Two points at which the residuals vanish, with the same
temperature, pressure and composition, have the same amounts and the same `n_moles`. -/
theorem C46_unique_TP {st st' : ChemEqState np} {x y : ChemEqPoint ne np} (hx : Solved g st x)
    (hy : Solved g st' y) (ht : SameTrace st st' x y) (hc : x.composition = y.composition)
    (hb : ∃ i, x.composition i ≠ 0) (hT : x.T = y.T) (hP : x.P = y.P) :
    x.n = y.n ∧ x.nMoles = y.nMoles := by
  obtain ⟨me, G, B, p, q, -, h1, h2, hB⟩ := pair hx hy ht hc
  rw [← hT, ← hP] at h2
  have hn := eq_unique hx.T_pos hx.P_pos h1 h2 (hB hb)
  refine ⟨hn, ?_⟩
  rw [(C17_converged g st x hx.pos hx.P_pos hx.n hx.pi hx.nMoles).2.1,
    (C17_converged g st' y hy.pos hy.P_pos hy.n hy.pi hy.nMoles).2.1, hn]

/-- **C46 (monotone).** At given pressure and composition the reported enthalpy and entropy strictly
increase with the temperature. -/
theorem C46_increasing {I : Set ℝ} (hI : Warm g I) {st st' : ChemEqState np} {x y : ChemEqPoint ne np}
    (hx : Solved g st x) (hy : Solved g st' y) (ht : SameTrace st st' x y)
    (hc : x.composition = y.composition) (hb : ∃ i, x.composition i ≠ 0) (hP : x.P = y.P)
    (hxI : x.T ∈ I) (hyI : y.T ∈ I) (hlt : x.T < y.T) (rT rP rT' rP' : Fin (ne + 1) → ℝ) :
    (x.props rT rP).h g < (y.props rT' rP').h g ∧ (x.props rT rP).S g < (y.props rT' rP').S g := by
  obtain ⟨me, G, B, p, q, hr, h1, h2, hB⟩ := pair hx hy ht hc
  rw [← hP] at h2
  have := eq_mono (rows_warm hr hI) hxI hyI hlt hx.P_pos h1 h2 (hB hb)
  rw [out_h, out_h, out_S hx, out_S hy, ← hP]
  rwa [rows_enthalpy hr, rows_enthalpy hr, rows_entropy hr, rows_entropy hr] at this

/-- **C46 (given enthalpy, or entropy, and pressure).** The modes that search a temperature for a given
enthalpy or a given entropy have at most one solution: same pressure, composition and enthalpy (or
entropy) mean the same temperature and the same amounts. -/
theorem C46_unique_hP_SP {I : Set ℝ} (hI : Warm g I) {st st' : ChemEqState np}
    {x y : ChemEqPoint ne np} (hx : Solved g st x) (hy : Solved g st' y) (ht : SameTrace st st' x y)
    (hc : x.composition = y.composition) (hb : ∃ i, x.composition i ≠ 0) (hP : x.P = y.P)
    (hxI : x.T ∈ I) (hyI : y.T ∈ I) (rT rP rT' rP' : Fin (ne + 1) → ℝ)
    (he : (x.props rT rP).h g = (y.props rT' rP').h g ∨ (x.props rT rP).S g = (y.props rT' rP').S g) :
    x.T = y.T ∧ x.n = y.n ∧ x.nMoles = y.nMoles := by
  have hT : x.T = y.T := by
    have ht' : SameTrace st' st y x := fun j => (ht j).imp (fun h => ⟨h.2, h.1⟩) Eq.symm
    rcases lt_trichotomy x.T y.T with h | h | h
    · have := C46_increasing hI hx hy ht hc hb hP hxI hyI h rT rP rT' rP'
      rcases he with he | he <;> [exact absurd he this.1.ne; exact absurd he this.2.ne]
    · exact h
    · have := C46_increasing hI hy hx ht' hc.symm (hc ▸ hb) hP.symm hyI hxI h rT' rP' rT rP
      rcases he with he | he <;> [exact absurd he this.1.ne'; exact absurd he this.2.ne']
  exact ⟨hT, C46_unique_TP hx hy ht hc hb hT hP⟩

/-- **C46 (pressure).** At given temperature and composition, raising the pressure never increases the
number of moles (dissociation is suppressed), and strictly increases the reported density. -/
theorem C46_pressure {st st' : ChemEqState np} {x y : ChemEqPoint ne np} (hx : Solved g st x)
    (hy : Solved g st' y) (ht : SameTrace st st' x y) (hc : x.composition = y.composition)
    (hb : ∃ i, x.composition i ≠ 0) (hT : x.T = y.T) (hP : x.P < y.P)
    (rT rP rT' rP' : Fin (ne + 1) → ℝ) :
    y.nMoles ≤ x.nMoles ∧ (x.props rT rP).rho < (y.props rT' rP').rho := by
  obtain ⟨me, G, B, p, q, -, h1, h2, hB⟩ := pair hx hy ht hc
  rw [← hT] at h2
  have hx' := (C17_converged g st x hx.pos hx.P_pos hx.n hx.pi hx.nMoles).2.1
  have hy' := (C17_converged g st' y hy.pos hy.P_pos hy.n hy.pi hy.nMoles).2.1
  have hle := eq_press hx.T_pos hx.P_pos hP h1 h2
  rw [← hx', ← hy'] at hle
  refine ⟨hle, ?_⟩
  obtain ⟨i, hi⟩ := hB hb
  obtain ⟨j, -⟩ := some_species h1 hi
  have hNx : 0 < x.nMoles := hx' ▸ sum_pos_of x.n hx.pos j
  have hNy : 0 < y.nMoles := hy' ▸ sum_pos_of y.n hy.pos j
  have hR : 0 < R_SI := by norm_num [R_SI]
  simp only [PropsIn.rho, ChemEqPoint.props]
  rw [← hT]
  refine mul_lt_mul_of_pos_right ?_ (by norm_num)
  have hT0 := hx.T_pos
  calc x.P / (x.nMoles * R_SI * x.T) < y.P / (x.nMoles * R_SI * x.T) :=
        div_lt_div_of_pos_right hP (by positivity)
    _ ≤ y.P / (y.nMoles * R_SI * x.T) := by
        refine div_le_div_of_nonneg_left hy.P_pos.le (by positivity) ?_
        have := mul_pos hR hT0
        nlinarith

/-! ## Existence -/

/-- **C46 (existence at given temperature and pressure).** The equilibrium equations have a solution
exactly when the element abundances can be made up of positive amounts of all candidate species; the
solution is one in every internal state of the component. -/
theorem C46_exists_TP (hg : RealSpecies g) (T P : ℝ) (hT : 0 < T) (hP : 0 < P) (b : Fin ne → ℝ) :
    (∃ x : ChemEqPoint ne np, x.T = T ∧ x.P = P ∧ x.composition = b ∧ ∀ st, Solved g st x)
      ↔ ∃ m : Fin np → ℝ, (∀ j, 0 < m j) ∧ ∀ i, ∑ j, g.aij i j * m j = b i := by
  constructor
  · rintro ⟨x, rfl, rfl, rfl, hx⟩
    have h := hx (ChemEqState.init np)
    exact ⟨x.n, h.pos, (C17_converged g _ x h.pos h.P_pos h.n h.pi h.nMoles).1⟩
  · rintro ⟨m, hm, hmb⟩
    obtain ⟨n, pi, h⟩ := exists_equilibrium hg T hP hm hmb
    refine ⟨⟨T, P, b, n, pi, ∑ j, n j⟩, rfl, rfl, rfl, fun st => ?_⟩
    obtain ⟨a, c, d⟩ := (C17_iff_equilibrium g (ChemEqState.init np) rfl ⟨T, P, b, n, pi, ∑ j, n j⟩
      h.pos hP).2 ⟨h, rfl⟩
    refine ⟨h.pos, hP, hT, fun j => ?_, c, d⟩
    have := a j
    simp only [applyNonlinear, chemResidN, ChemEqState.init, Bool.false_and] at this ⊢
    rw [if_neg (by simp)] at this
    split
    · rfl
    · exact this

/-- **C46 (existence at given enthalpy, or entropy, and pressure).** Between two solved points with the
same pressure and composition, every enthalpy (every entropy) in between is the reported enthalpy
(entropy) of a solved point at some temperature in between. -/
theorem C46_exists_hP_SP (hg : RealSpecies g) {st st' : ChemEqState np} {x y : ChemEqPoint ne np}
    (hst : st.removeTrace = false) (hst' : st'.removeTrace = false)
    (hx : Solved g st x) (hy : Solved g st' y) (hc : x.composition = y.composition)
    (hb : ∃ i, x.composition i ≠ 0) (hP : x.P = y.P) (hle : x.T ≤ y.T)
    (rT rP rT' rP' : Fin (ne + 1) → ℝ) :
    (∀ h ∈ Set.Icc ((x.props rT rP).h g) ((y.props rT' rP').h g), ∃ z : ChemEqPoint ne np,
      z.P = x.P ∧ z.composition = x.composition ∧ z.T ∈ Set.Icc x.T y.T ∧ (∀ st, Solved g st z)
      ∧ ∀ qT qP, (z.props qT qP).h g = h)
    ∧ (∀ S ∈ Set.Icc ((x.props rT rP).S g) ((y.props rT' rP').S g), ∃ z : ChemEqPoint ne np,
      z.P = x.P ∧ z.composition = x.composition ∧ z.T ∈ Set.Icc x.T y.T ∧ (∀ st, Solved g st z)
      ∧ ∀ qT qP, (z.props qT qP).S g = S) := by
  have ex : IsEquilibrium g x.T x.P x.composition x.n x.pi :=
    ((C17_iff_equilibrium g st hst x hx.pos hx.P_pos).1 ⟨hx.n, hx.pi, hx.nMoles⟩).1
  have ey : IsEquilibrium g y.T x.P x.composition y.n y.pi := by
    rw [hP, hc]
    exact ((C17_iff_equilibrium g st' hst' y hy.pos hy.P_pos).1 ⟨hy.n, hy.pi, hy.nMoles⟩).1
  have huniq : ∀ t, 0 < t → ∀ n pi, IsEquilibrium g t x.P x.composition n pi →
      ∀ m ∈ feasible g x.composition, gibbsFn g t x.P m ≤ gibbsFn g t x.P n → m = n := by
    intro t ht n pi h m hm hle
    have hmin := C46_minimum ht hx.P_pos h m hm.1 hm.2
    refine hmin.2 hb (le_antisymm ?_ hmin.1)
    rw [mixGibbs_eq, mixGibbs_eq, gibbsFn_eq g t hx.P_pos m hm.1,
      gibbsFn_eq g t hx.P_pos n (fun j => (h.pos j).le)]
    exact mul_le_mul_of_nonneg_left hle (mul_pos R_ENG_pos ht).le
  obtain ⟨h1, h2⟩ := exists_between hg hx.P_pos hx.T_pos hle ex ey hb huniq
  have solved : ∀ T n pi, T ∈ Set.Icc x.T y.T → IsEquilibrium g T x.P x.composition n pi →
      ∀ st, Solved g st ⟨T, x.P, x.composition, n, pi, ∑ j, n j⟩ := by
    intro T n pi hT h st
    obtain ⟨a, c, d⟩ := (C17_iff_equilibrium g (ChemEqState.init np) rfl
      ⟨T, x.P, x.composition, n, pi, ∑ j, n j⟩ h.pos hx.P_pos).2 ⟨h, rfl⟩
    refine ⟨h.pos, hx.P_pos, hx.T_pos.trans_le hT.1, fun j => ?_, c, d⟩
    have := a j
    simp only [applyNonlinear, chemResidN, ChemEqState.init, Bool.false_and] at this ⊢
    rw [if_neg (by simp)] at this
    split
    · rfl
    · exact this
  constructor
  · intro h hh
    rw [out_h, out_h] at hh
    obtain ⟨T, hT, n, pi, he, rfl⟩ := h1 h hh
    exact ⟨⟨T, x.P, x.composition, n, pi, ∑ j, n j⟩, rfl, rfl, hT, solved T n pi hT he,
      fun qT qP => out_h _ qT qP⟩
  · intro S hS
    rw [out_S hx, out_S hy, ← hP] at hS
    obtain ⟨T, hT, n, pi, he, rfl⟩ := h2 S hS
    exact ⟨⟨T, x.P, x.composition, n, pi, ∑ j, n j⟩, rfl, rfl, hT, solved T n pi hT he,
      fun qT qP => out_S (solved T n pi hT he (ChemEqState.init np)) qT qP⟩

/-- **C46 (an absent element).** If the abundance of an element is zero (a burner without fuel, say) but
some candidate species contains it, the equations have no solution, in any internal state. -/
theorem C46_refuted_absent_element (hg : RealSpecies g) (i : Fin ne) (j : Fin np)
    (hij : g.aij i j ≠ 0) (st : ChemEqState np) (x : ChemEqPoint ne np) (hb : x.composition i = 0) :
    ¬ Solved g st x := by
  intro h
  have e := (C17_converged g _ x h.pos h.P_pos h.n h.pi h.nMoles).1 i
  have : 0 < ∑ j, g.aij i j * x.n j :=
    Finset.sum_pos' (fun j _ => mul_nonneg (hg.nonneg i j) (h.pos j).le)
      ⟨j, mem_univ j, mul_pos (lt_of_le_of_ne (hg.nonneg i j) hij.symm) (h.pos j)⟩
  rw [e, hb] at this
  exact lt_irrefl _ this

/-! ## The shipped data -/

open Data in
/-- **C46 (the package's own gases).** For a gas whose species are any of the products the package ships
and whose coefficient rows are those of intervals covering `[lo, hi]`, the hypothesis on heat
capacities holds on `[lo, hi]`. -/
theorem C46_shipped {D : List Prod} {ε : ℝ} (hD : Shipped D ε) (g : Gas ne np) (ps : Fin np → Prod)
    (hps : ∀ j, ps j ∈ D) (k : Fin np → ℕ) (hk : ∀ j, k j + 1 < (ps j).ranges.length)
    (hrows : ∀ j, g.rows j = fun m => ((ps j).fit.coeffs.getD (k j) []).getD m.val 0)
    (lo hi : ℝ) (h0 : 0 < lo) (hlo : ∀ j, (ps j).fit.ranges.getD (k j) 0 ≤ lo)
    (hhi : ∀ j, hi ≤ (ps j).fit.ranges.getD (k j + 1) 0) : Warm g (Set.Icc lo hi) := by
  refine ⟨fun T hT => h0.trans_le hT.1, Set.ordConnected_Icc, fun T hT j => ?_⟩
  have := C44_heat_capacity hD (ps j) (hps j) (k j) (hk j) 0 T ((hlo j).trans hT.1)
    (hT.2.trans (hhi j))
  simp only [refValue, PropFn.value] at this
  simp only [Gas.Cp0, hrows j]
  linarith

/-! ## Non-vacuity: a dissociating gas -/

namespace C46Example

/-- `A` and `A₂`, one element, constant heat capacities. -/
noncomputable def c : ℝ := Real.log 6.4 / Real.log 2
noncomputable def gas : Gas 1 2 :=
  ⟨fun _ j => ![1, 2] j, fun j m =>
    if m = 2 then c else if m = 8 then c - c * Real.log 300 + ![0, Real.log 2] j else 0⟩
noncomputable def pt (T P : ℝ) (n : Fin 2 → ℝ) (pi : ℝ) : ChemEqPoint 1 2 :=
  ⟨T, P, fun _ => 3, n, fun _ => pi, ∑ j, n j⟩
/-- 300 K, reference pressure. -/
noncomputable def x : ChemEqPoint 1 2 := pt 300 P_REF ![1, 1] (Real.log 0.5)
/-- 600 K, reference pressure: more dissociated. -/
noncomputable def y : ChemEqPoint 1 2 := pt 600 P_REF ![2, 1 / 2] (Real.log 0.125)
/-- 300 K, lower pressure: more dissociated. -/
noncomputable def z : ChemEqPoint 1 2 := pt 300 (0.15625 * P_REF) ![2, 1 / 2] (Real.log 0.125)

theorem c_pos : 0 < c := div_pos (Real.log_pos (by norm_num)) (Real.log_pos (by norm_num))

theorem warm : Warm gas (Set.Icc 200 1000) := by
  refine ⟨fun T hT => by have := hT.1; linarith, Set.ordConnected_Icc, fun T _ j => ?_⟩
  have := c_pos
  simpa [Gas.Cp0, cp0, gas] using this

theorem solved (T P : ℝ) (n : Fin 2 → ℝ) (p : ℝ) (hT : 0 < T) (hP : 0 < P) (hn : ∀ j, 0 < n j)
    (he : n 0 + 2 * n 1 = 3)
    (h0 : -(c * Real.log (T / 300)) + Real.log (n 0 / (n 0 + n 1) * (P / P_REF)) = p)
    (h1 : -(c * Real.log (T / 300)) - Real.log 2 + Real.log (n 1 / (n 0 + n 1) * (P / P_REF))
      = 2 * p) :
    Solved gas (ChemEqState.init 2) (pt T P n p) := by
  have hl : Real.log (T / 300) = Real.log T - Real.log 300 := Real.log_div hT.ne' (by norm_num)
  have heq : IsEquilibrium gas T P (fun _ => 3) n (fun _ => p) := by
    refine ⟨hn, fun i => ?_, fun j => ?_⟩
    · simp [gas, Fin.sum_univ_two, he]
    · rw [hl] at h0 h1
      fin_cases j
      · simp [chemPotential, gas, Gas.H0, Gas.S0, PyCycle.h0, PyCycle.s0, Fin.sum_univ_two]
        linarith
      · simp [chemPotential, gas, Gas.H0, Gas.S0, PyCycle.h0, PyCycle.s0, Fin.sum_univ_two]
        linarith
  obtain ⟨a, b, d⟩ := (C17_iff_equilibrium gas (ChemEqState.init 2) rfl (pt T P n p) hn hP).2
    ⟨heq, rfl⟩
  exact ⟨hn, hP, hT, a, b, d⟩

theorem real : RealSpecies gas :=
  ⟨fun i j => by fin_cases j <;> simp [gas], fun j => ⟨0, by fin_cases j <;> simp [gas]⟩⟩

/-- The hypotheses of all theorems above are met by three distinct solved points. -/
theorem example_solved : Solved gas (ChemEqState.init 2) x ∧ Solved gas (ChemEqState.init 2) y
    ∧ Solved gas (ChemEqState.init 2) z
    ∧ SameTrace (ChemEqState.init 2) (ChemEqState.init 2) x y
    ∧ SameTrace (ChemEqState.init 2) (ChemEqState.init 2) z x
    ∧ x.T ∈ Set.Icc 200 1000 ∧ y.T ∈ Set.Icc 200 1000 ∧ x.T < y.T ∧ x.P = y.P
    ∧ z.T = x.T ∧ z.P < x.P ∧ ∃ i, x.composition i ≠ 0 := by
  have hr := P_REF_pos
  have e1 : P_REF / P_REF = 1 := div_self hr.ne'
  have e2 : 0.15625 * P_REF / P_REF = 0.15625 := by field_simp
  have l2 : Real.log 0.25 = 2 * Real.log 0.5 := by
    rw [show (0.25 : ℝ) = 0.5 ^ 2 by norm_num, Real.log_pow]; norm_num
  have l3 : Real.log (1 / 64) = 2 * Real.log 0.125 := by
    rw [show (1 / 64 : ℝ) = 0.125 ^ 2 by norm_num, Real.log_pow]; norm_num
  have hc : c * Real.log 2 = Real.log 6.4 :=
    div_mul_cancel₀ _ (Real.log_pos (by norm_num)).ne'
  have lsub : ∀ a b : ℝ, 0 < a → 0 < b → Real.log a - Real.log b = Real.log (a / b) :=
    fun a b ha hb => (Real.log_div ha.ne' hb.ne').symm
  refine ⟨?_, ?_, ?_, fun j => .inl ⟨.inl rfl, .inl rfl⟩, fun j => .inl ⟨.inl rfl, .inl rfl⟩,
    ?_, ?_, ?_, rfl, rfl, ?_, 0, ?_⟩
  · refine solved 300 P_REF ![1, 1] _ (by norm_num) hr (fun j => by fin_cases j <;> simp)
      (by norm_num) ?_ ?_
    · simp [e1]; norm_num [Real.log_div]
    · have : Real.log (0.5 : ℝ) - Real.log 2 = Real.log 0.25 := by
        rw [lsub _ _ (by norm_num) (by norm_num)]; norm_num
      simp [e1]; norm_num at this l2 ⊢; linarith
  · refine solved 600 P_REF ![2, 1 / 2] _ (by norm_num) hr (fun j => by fin_cases j <;> norm_num)
      (by norm_num) ?_ ?_
    · have : Real.log (0.8 : ℝ) - Real.log 6.4 = Real.log 0.125 := by
        rw [lsub _ _ (by norm_num) (by norm_num)]; norm_num
      rw [e1, show (600 / 300 : ℝ) = 2 by norm_num, hc]
      simp; norm_num at this ⊢; linarith
    · have : Real.log (0.2 : ℝ) - Real.log 6.4 - Real.log 2 = Real.log (1 / 64) := by
        rw [lsub _ _ (by norm_num) (by norm_num), lsub _ _ (by norm_num) (by norm_num)]; norm_num
      rw [e1, show (600 / 300 : ℝ) = 2 by norm_num, hc]
      simp; norm_num at this l3 ⊢; linarith
  · refine solved 300 (0.15625 * P_REF) ![2, 1 / 2] _ (by norm_num) (by positivity)
      (fun j => by fin_cases j <;> norm_num) (by norm_num) ?_ ?_
    · rw [e2]; simp; norm_num
    · have : Real.log (0.03125 : ℝ) - Real.log 2 = Real.log (1 / 64) := by
        rw [lsub _ _ (by norm_num) (by norm_num)]; norm_num
      rw [e2]; simp; norm_num at this l3 ⊢; linarith
  · simp [x, pt]; norm_num
  · simp [y, pt]; norm_num
  · simp [x, y, pt]; norm_num
  · simp [x, z, pt]; nlinarith
  · simp [x, pt]

end C46Example

end PyCycle
