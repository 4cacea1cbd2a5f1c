import Verif.Model.StaticPs
import Mathlib.Analysis.SpecialFunctions.Pow.Deriv
import Mathlib.Analysis.Calculus.Deriv.Abs
import Mathlib.Tactic.FieldSimp
import Mathlib.Tactic.Ring
import Mathlib.Tactic.Linarith
import Mathlib.Tactic.Positivity

/-! # C21, C22: static conditions from pressure, Mach number or area -/

namespace PyCycle
open Filter Topology

/-! ## C21: PsCalc -/

/-- **C21 (energy, Mach, continuity).** When the total enthalpy is not below the static one, the
kinetic energy is the enthalpy drop, the Mach number times the speed of sound is the velocity,
the speed of sound is `√(γ R T)`, and `rho·V·area` is the mass flow. -/
theorem C21_consistent (i : PsCalcIn) (hsgn : i.hs < i.ht) (hc : 0 < i.gamma * i.R * i.Ts)
    (hrho : i.rho ≠ 0) :
    i.V ^ 2 / 2 = i.ht - i.hs ∧ 0 < i.V ∧ i.MN * i.Vsonic = i.V
      ∧ i.Vsonic ^ 2 = i.gamma * i.R * i.Ts ∧ i.rho * i.V * i.area = i.W := by
  have hV : i.V = Real.sqrt (2 * (i.ht - i.hs)) := by
    rw [PsCalcIn.V, if_pos hsgn.le]; norm_num
  have hpos : 0 < i.V := by rw [hV]; exact Real.sqrt_pos.mpr (by linarith)
  have hVs : 0 < i.Vsonic := Real.sqrt_pos.mpr hc
  refine ⟨?_, hpos, ?_, Real.sq_sqrt hc.le, ?_⟩
  · rw [hV, Real.sq_sqrt (by linarith)]; ring
  · rw [PsCalcIn.MN]; field_simp
  · rw [PsCalcIn.area]; field_simp

/-- **C21 (outside the physical range).** When the static enthalpy exceeds the total one the
component does not fail: it reports the velocity of the opposite enthalpy difference, so the same
outputs occur for two different enthalpy drops and the energy equation is violated. -/
theorem C21_inverted_range (i : PsCalcIn) (h : i.ht < i.hs) :
    i.V = ({ i with ht := i.hs, hs := i.ht } : PsCalcIn).V
      ∧ i.V ^ 2 / 2 = -(i.ht - i.hs) ∧ i.V ^ 2 / 2 ≠ i.ht - i.hs := by
  have hV : i.V = Real.sqrt (2 * (i.hs - i.ht)) := by
    rw [PsCalcIn.V, if_neg (not_le.mpr h)]; norm_num
  have hsq : i.V ^ 2 / 2 = -(i.ht - i.hs) := by
    rw [hV, Real.sq_sqrt (by linarith)]; ring
  refine ⟨?_, hsq, ?_⟩
  · rw [hV, PsCalcIn.V, if_pos h.le]; norm_num
  · rw [hsq]; intro h'; linarith

/-- **C21 (exact partials)**: every declared partial is the derivative of the computed output,
wherever the enthalpy difference is non-zero. -/
structure PsCalcExact (i : PsCalcIn) : Prop where
  Vsonic_gamma : HasDerivAt (fun t => ({ i with gamma := t } : PsCalcIn).Vsonic) i.J_Vsonic_gamma i.gamma
  Vsonic_R : HasDerivAt (fun t => ({ i with R := t } : PsCalcIn).Vsonic) i.J_Vsonic_R i.R
  Vsonic_Ts : HasDerivAt (fun t => ({ i with Ts := t } : PsCalcIn).Vsonic) i.J_Vsonic_Ts i.Ts
  V_ht : HasDerivAt (fun t => ({ i with ht := t } : PsCalcIn).V) i.J_V_ht i.ht
  V_hs : HasDerivAt (fun t => ({ i with hs := t } : PsCalcIn).V) i.J_V_hs i.hs
  MN_ht : HasDerivAt (fun t => ({ i with ht := t } : PsCalcIn).MN) i.J_MN_ht i.ht
  MN_hs : HasDerivAt (fun t => ({ i with hs := t } : PsCalcIn).MN) i.J_MN_hs i.hs
  MN_gamma : HasDerivAt (fun t => ({ i with gamma := t } : PsCalcIn).MN) i.J_MN_gamma i.gamma
  MN_R : HasDerivAt (fun t => ({ i with R := t } : PsCalcIn).MN) i.J_MN_R i.R
  MN_Ts : HasDerivAt (fun t => ({ i with Ts := t } : PsCalcIn).MN) i.J_MN_Ts i.Ts
  area_W : HasDerivAt (fun t => ({ i with W := t } : PsCalcIn).area) i.J_area_W i.W
  area_rho : HasDerivAt (fun t => ({ i with rho := t } : PsCalcIn).area) i.J_area_rho i.rho
  area_ht : HasDerivAt (fun t => ({ i with ht := t } : PsCalcIn).area) i.J_area_ht i.ht
  area_hs : HasDerivAt (fun t => ({ i with hs := t } : PsCalcIn).area) i.J_area_hs i.hs

private theorem sqrt_lin (c x : ℝ) (h : 0 < c * x) :
    HasDerivAt (fun t => Real.sqrt (c * t)) (Real.sqrt (c * x) / (2.0 * x)) x := by
  have hx : x ≠ 0 := by rintro rfl; simp at h
  have hs : 0 < Real.sqrt (c * x) := Real.sqrt_pos.mpr h
  have h2 : Real.sqrt (c * x) ^ 2 = c * x := Real.sq_sqrt h.le
  refine (((hasDerivAt_id x).const_mul c).sqrt h.ne').congr_deriv ?_
  simp only [id]
  rw [div_eq_div_iff (by positivity) (by norm_num [hx])]
  norm_num
  linear_combination (-2 : ℝ) * h2

theorem PsCalcIn.V_eq_abs (i : PsCalcIn) : i.V = Real.sqrt (2 * |i.ht - i.hs|) := by
  rw [PsCalcIn.V]
  split
  · rename_i h; rw [abs_of_nonneg (by linarith [h])]; norm_num
  · rename_i h; rw [abs_of_neg (by linarith [not_le.mp h])]; norm_num

private theorem dV (i : PsCalcIn) (h : i.ht ≠ i.hs) :
    HasDerivAt (fun d => Real.sqrt (2 * |d|)) i.J_V_ht (i.ht - i.hs) ∧ i.J_V_hs = -i.J_V_ht
      ∧ 0 < i.V := by
  have hne : i.ht - i.hs ≠ 0 := sub_ne_zero.mpr h
  have hpos : 0 < i.V := by
    rw [i.V_eq_abs]; exact Real.sqrt_pos.mpr (by positivity)
  have hV := i.V_eq_abs
  have h10 : (1.0 : ℝ) = 1 := by norm_num
  refine ⟨?_, ?_, hpos⟩
  · rcases lt_or_gt_of_ne h with hlt | hgt
    · have h1 : HasDerivAt (fun d => 2 * |d|) (2 * -1) (i.ht - i.hs) :=
        (hasDerivAt_abs_neg (sub_neg.mpr hlt)).const_mul 2
      refine (h1.sqrt (by positivity)).congr_deriv ?_
      rw [← hV, PsCalcIn.J_V_ht, if_neg (not_le.mpr hlt), h10]
      field_simp
    · have h1 : HasDerivAt (fun d => 2 * |d|) (2 * 1) (i.ht - i.hs) :=
        (hasDerivAt_abs_pos (sub_pos.mpr hgt)).const_mul 2
      refine (h1.sqrt (by positivity)).congr_deriv ?_
      rw [← hV, PsCalcIn.J_V_ht, if_pos hgt.le, h10]
      field_simp
  · rw [PsCalcIn.J_V_ht, PsCalcIn.J_V_hs, h10]
    split <;> ring

/-- **C21 (exact partials).** -/
theorem C21_partials (i : PsCalcIn) (h : i.ht ≠ i.hs) (hg : 0 < i.gamma) (hR : 0 < i.R)
    (hT : 0 < i.Ts) (hrho : i.rho ≠ 0) : PsCalcExact i := by
  obtain ⟨hVd, hJ, hVpos⟩ := dV i h
  have h10 : (1.0 : ℝ) = 1 := by norm_num
  have hVs : 0 < i.Vsonic := Real.sqrt_pos.mpr (by positivity)
  have sg : HasDerivAt (fun t => ({ i with gamma := t } : PsCalcIn).Vsonic) i.J_Vsonic_gamma
      i.gamma := by
    have := sqrt_lin (i.R * i.Ts) i.gamma (by positivity)
    have e : ∀ t : ℝ, i.R * i.Ts * t = t * i.R * i.Ts := fun t => by ring
    simp only [e] at this
    exact this
  have sR : HasDerivAt (fun t => ({ i with R := t } : PsCalcIn).Vsonic) i.J_Vsonic_R i.R := by
    have := sqrt_lin (i.gamma * i.Ts) i.R (by positivity)
    have e : ∀ t : ℝ, i.gamma * i.Ts * t = i.gamma * t * i.Ts := fun t => by ring
    simp only [e] at this
    exact this
  have sT : HasDerivAt (fun t => ({ i with Ts := t } : PsCalcIn).Vsonic) i.J_Vsonic_Ts i.Ts :=
    sqrt_lin (i.gamma * i.R) i.Ts (by positivity)
  have vht : HasDerivAt (fun t => ({ i with ht := t } : PsCalcIn).V) i.J_V_ht i.ht := by
    have := hVd.comp i.ht ((hasDerivAt_id i.ht).sub_const i.hs)
    simp only [mul_one] at this
    refine this.congr_of_eventuallyEq (Eventually.of_forall (fun t => ?_))
    exact PsCalcIn.V_eq_abs _
  have vhs : HasDerivAt (fun t => ({ i with hs := t } : PsCalcIn).V) i.J_V_hs i.hs := by
    have := hVd.comp i.hs ((hasDerivAt_id i.hs).const_sub i.ht)
    rw [hJ]
    refine (this.congr_deriv (by ring)).congr_of_eventuallyEq (Eventually.of_forall (fun t => ?_))
    exact PsCalcIn.V_eq_abs _
  refine ⟨sg, sR, sT, vht, vhs, ?_, ?_, ?_, ?_, ?_, ?_, ?_, ?_, ?_⟩
  · exact (vht.div_const i.Vsonic).congr_deriv (by rw [PsCalcIn.J_MN_ht, h10]; ring)
  · exact (vhs.div_const i.Vsonic).congr_deriv (by rw [PsCalcIn.J_MN_hs, h10]; ring)
  · exact ((hasDerivAt_const i.gamma i.V).fun_div sg hVs.ne').congr_deriv (by
      rw [PsCalcIn.J_MN_gamma]; ring)
  · exact ((hasDerivAt_const i.R i.V).fun_div sR hVs.ne').congr_deriv (by
      rw [PsCalcIn.J_MN_R]; ring)
  · exact ((hasDerivAt_const i.Ts i.V).fun_div sT hVs.ne').congr_deriv (by
      rw [PsCalcIn.J_MN_Ts]; ring)
  · exact ((hasDerivAt_id i.W).div_const (i.rho * i.V)).congr_deriv (by
      rw [PsCalcIn.J_area_W]; norm_num)
  · refine ((hasDerivAt_const i.rho i.W).fun_div ((hasDerivAt_id i.rho).mul_const i.V)
      (by simp only [id]; exact mul_ne_zero hrho hVpos.ne')).congr_deriv ?_
    rw [PsCalcIn.J_area_rho]; simp only [id]; field_simp; ring
  · refine ((hasDerivAt_const i.ht i.W).fun_div (vht.const_mul i.rho)
      (mul_ne_zero hrho hVpos.ne')).congr_deriv ?_
    have : ({ i with ht := i.ht } : PsCalcIn) = i := rfl
    rw [this, PsCalcIn.J_area_ht]; field_simp; ring
  · refine ((hasDerivAt_const i.hs i.W).fun_div (vhs.const_mul i.rho)
      (mul_ne_zero hrho hVpos.ne')).congr_deriv ?_
    have : ({ i with hs := i.hs } : PsCalcIn) = i := rfl
    rw [this, PsCalcIn.J_area_hs]; field_simp; ring

/-- Non-vacuity of C21: sea-level air at about 100 m/s. -/
example : (0:ℝ) < 1.4 ∧ (0:ℝ) < 287 ∧ (0:ℝ) < 288 ∧ (300000:ℝ) < 305000 ∧ (1.2:ℝ) ≠ 0 := by
  norm_num

/-! ## C22: Mach mode versus area mode -/

/-- The state a static solve determines, seen from outside. -/
structure StaticState where
  MN : ℝ
  area : ℝ
  V : ℝ
  Vsonic : ℝ

/-- The physical conditions a static state must satisfy: speed of sound, Mach definition,
continuity, and the energy equation. -/
structure IsStatic (i : PsIn) (s : StaticState) : Prop where
  sound : s.Vsonic = Real.sqrt (i.gamma * i.R * i.Ts)
  mach : s.V = s.MN * s.Vsonic
  continuity : i.rho * s.V * s.area = i.W
  energy : i.hs + s.V ^ 2 / 2 = i.ht

/-- **C22 (Mach mode).** For a non-zero Mach number the Mach-mode residuals vanish exactly when
the state satisfies the physical conditions. -/
theorem C22_mach_mode (i : PsIn) (s : StaticState) (hc : 0 < i.gamma * i.R * i.Ts)
    (hrho : 0 < i.rho) (hht : i.ht ≠ 0) (hM : 1e-16 ≤ s.MN) :
    i.ConvergedMN s.MN ⟨s.V, s.Vsonic, (.fin s.area)⟩ ↔ IsStatic i s := by
  have hVs : 0 < i.Vsonic := Real.sqrt_pos.mpr hc
  have hM0 : 0 < s.MN := lt_of_lt_of_le (by norm_num) hM
  have hVs2 : i.Vsonic ^ 2 = i.gamma * i.R * i.Ts := Real.sq_sqrt hc.le
  have harea : i.areaOfMN s.MN = AreaVal.fin (i.W / (i.rho * i.Vsonic * s.MN)) := by
    rw [PsIn.areaOfMN, if_neg (not_lt.mpr hM)]
  have hres : i.residArea s.MN (.fin s.area) = .fin 0
      ↔ i.W / (i.rho * i.Vsonic * s.MN) - s.area = 0 := by
    unfold PsIn.residArea
    rw [harea]
    exact ⟨fun h => AreaVal.fin.inj h, fun h => congrArg _ h⟩
  have henergy : i.residPs s.MN = 0 ↔ i.hs + (s.MN * i.Vsonic) ^ 2 / 2 = i.ht := by
    rw [PsIn.residPs, div_eq_zero_iff, or_iff_left hht, mul_pow, hVs2]
    constructor <;> intro h <;> linarith
  rw [PsIn.ConvergedMN, hres, henergy]
  constructor
  · rintro ⟨h1, h2, h3, h4⟩
    have e2 : s.Vsonic = i.Vsonic := by linarith
    have e3 : s.V = s.MN * i.Vsonic := by linarith
    have e1 : s.area = i.W / (i.rho * i.Vsonic * s.MN) := by linarith
    refine ⟨e2, by rw [e2]; exact e3, ?_, by rw [e3]; exact h4⟩
    rw [e1, e3]; field_simp
  · rintro ⟨h1, h2, h3, h4⟩
    have e2 : s.Vsonic = i.Vsonic := h1
    have e3 : s.V = s.MN * i.Vsonic := by rw [h2, e2]
    refine ⟨?_, by linarith, by linarith, by rw [← e3]; exact h4⟩
    rw [← h3, e3]; field_simp; ring

/-- **C22 (area mode).** For a non-zero area the area-mode residuals vanish exactly when the
state satisfies the physical conditions. -/
theorem C22_area_mode (i : PsIn) (s : StaticState) (hc : 0 < i.gamma * i.R * i.Ts)
    (hrho : 0 < i.rho) (hht : i.ht ≠ 0) (hA : s.area ≠ 0) :
    i.ConvergedArea (.fin s.area) ⟨s.V, s.Vsonic, s.MN⟩ ↔ IsStatic i s := by
  have hVs : 0 < i.Vsonic := Real.sqrt_pos.mpr hc
  have hVs2 : i.Vsonic ^ 2 = i.gamma * i.R * i.Ts := Real.sq_sqrt hc.le
  have hmn : i.mnOfArea (.fin s.area) = i.W / (i.rho * i.Vsonic * s.area) := by
    show (if i.rho * i.Vsonic * s.area = 0 then (5:ℝ) else _) = _
    rw [if_neg (by positivity)]
  have henergy : ∀ M, i.residPs M = 0 ↔ i.hs + (M * i.Vsonic) ^ 2 / 2 = i.ht := by
    intro M
    rw [PsIn.residPs, div_eq_zero_iff, or_iff_left hht, mul_pow, hVs2]
    constructor <;> intro h <;> linarith
  rw [PsIn.ConvergedArea, hmn, henergy]
  constructor
  · rintro ⟨h1, h2, h3, h4⟩
    have e1 : s.MN = i.W / (i.rho * i.Vsonic * s.area) := by linarith
    have e2 : s.Vsonic = i.Vsonic := by linarith
    have e3 : s.V = s.MN * i.Vsonic := by rw [e1]; linarith
    refine ⟨e2, by rw [e2]; exact e3, ?_, by rw [e3, e1]; exact h4⟩
    rw [e3, e1]; field_simp
  · rintro ⟨h1, h2, h3, h4⟩
    have e2 : s.Vsonic = i.Vsonic := h1
    have e3 : s.V = s.MN * i.Vsonic := by rw [h2, e2]
    have e1 : i.W / (i.rho * i.Vsonic * s.area) = s.MN := by
      rw [← h3, e3]; field_simp
    rw [e1]
    exact ⟨by linarith, by linarith, by linarith, by rw [← e3]; exact h4⟩

/-- **C22 (agreement).** The static solve given a Mach number and the static solve given the
area that results have the same solutions. -/
theorem C22_modes_agree (i : PsIn) (s : StaticState) (hc : 0 < i.gamma * i.R * i.Ts)
    (hrho : 0 < i.rho) (hht : i.ht ≠ 0) (hM : 1e-16 ≤ s.MN) (hA : s.area ≠ 0) :
    i.ConvergedMN s.MN ⟨s.V, s.Vsonic, (.fin s.area)⟩
      ↔ i.ConvergedArea (.fin s.area) ⟨s.V, s.Vsonic, s.MN⟩ := by
  rw [C22_mach_mode i s hc hrho hht hM, C22_area_mode i s hc hrho hht hA]

/-- **C22 (zero Mach).** A zero Mach number corresponds to infinite area in both modes: the
Mach-mode solve accepts any reported area, the area-mode solve at infinite area reports Mach 0,
and both require the static enthalpy to be the total one. -/
theorem C22_zero_mach (i : PsIn) (hht : i.ht ≠ 0) (a : AreaVal) :
    i.areaOfMN 0 = .inf ∧ i.mnOfArea .inf = 0
    ∧ (i.ConvergedMN 0 ⟨0, i.Vsonic, a⟩ ↔ i.hs = i.ht)
    ∧ (i.ConvergedArea .inf ⟨0, i.Vsonic, 0⟩ ↔ i.hs = i.ht) := by
  have h0 : i.areaOfMN 0 = .inf := by rw [PsIn.areaOfMN, if_pos (by norm_num)]
  have hr : i.residPs 0 = 0 ↔ i.hs = i.ht := by
    rw [PsIn.residPs, div_eq_zero_iff, or_iff_left hht]
    constructor <;> intro h <;> linarith
  refine ⟨h0, rfl, ?_, ?_⟩
  · have h1 : i.residArea 0 a = .fin 0 := by unfold PsIn.residArea; rw [h0]
    rw [PsIn.ConvergedMN, h1, hr]; simp
  · have : i.mnOfArea .inf = 0 := rfl
    rw [PsIn.ConvergedArea, this, hr]; simp

/-- **C22 (zero area).** A zero area does not fail: the division error is swallowed and the
component uses Mach 5, whatever the flow. -/
theorem C22_zero_area_is_mach_5 (i : PsIn) : i.mnOfArea (.fin 0) = 5 := by
  show (if i.rho * i.Vsonic * 0 = 0 then (5:ℝ) else _) = 5
  rw [if_pos (mul_zero _)]

/-! ### Residual derivatives -/

private theorem rpow_half {x : ℝ} (hx : 0 < x) : x ^ (-0.5 : ℝ) = 1 / Real.sqrt x := by
  rw [show (-0.5 : ℝ) = -(1/2) by norm_num, Real.rpow_neg hx.le, ← Real.sqrt_eq_rpow, one_div]

/-- Exactness of the Mach-mode blocks. -/
structure MachExact (i : PsIn) (MN : ℝ) (old : PsIn.JacMN) : Prop where
  Ps_ht : HasDerivAt (fun t => ({ i with ht := t } : PsIn).residPs MN) (i.J_Ps_ht MN) i.ht
  Ps_hs : HasDerivAt (fun t => ({ i with hs := t } : PsIn).residPs MN) i.J_Ps_hs i.hs
  Ps_MN : HasDerivAt (fun t => i.residPs t) (i.M_Ps_MN MN) MN
  Ps_R : HasDerivAt (fun t => ({ i with R := t } : PsIn).residPs MN) (i.M_Ps_R MN) i.R
  Ps_gamma : HasDerivAt (fun t => ({ i with gamma := t } : PsIn).residPs MN) (i.M_Ps_gamma MN) i.gamma
  Ps_Ts : HasDerivAt (fun t => ({ i with Ts := t } : PsIn).residPs MN) (i.M_Ps_Ts MN) i.Ts
  Vs_gamma : HasDerivAt (fun t => ({ i with gamma := t } : PsIn).Vsonic) i.J_Vs_gamma i.gamma
  Vs_R : HasDerivAt (fun t => ({ i with R := t } : PsIn).Vsonic) i.J_Vs_R i.R
  Vs_Ts : HasDerivAt (fun t => ({ i with Ts := t } : PsIn).Vsonic) i.J_Vs_Ts i.Ts
  V_MN : HasDerivAt (fun t => t * i.Vsonic) (i.linearizeMN MN old).V_MN MN
  V_Ts : HasDerivAt (fun t => MN * ({ i with Ts := t } : PsIn).Vsonic) (i.linearizeMN MN old).V_Ts i.Ts
  V_R : HasDerivAt (fun t => MN * ({ i with R := t } : PsIn).Vsonic) (i.linearizeMN MN old).V_R i.R
  V_gamma : HasDerivAt (fun t => MN * ({ i with gamma := t } : PsIn).Vsonic)
    (i.linearizeMN MN old).V_gamma i.gamma
  area_W : HasDerivAt (fun t => t / (i.rho * i.Vsonic * MN)) (i.linearizeMN MN old).area_W i.W
  area_rho : HasDerivAt (fun t => i.W / (t * i.Vsonic * MN)) (i.linearizeMN MN old).area_rho i.rho
  area_MN : HasDerivAt (fun t => i.W / (i.rho * i.Vsonic * t)) (i.linearizeMN MN old).area_MN MN
  area_gamma : HasDerivAt (fun t => i.W / (i.rho * ({ i with gamma := t } : PsIn).Vsonic * MN))
    (i.linearizeMN MN old).area_gamma i.gamma
  area_R : HasDerivAt (fun t => i.W / (i.rho * ({ i with R := t } : PsIn).Vsonic * MN))
    (i.linearizeMN MN old).area_R i.R
  area_Ts : HasDerivAt (fun t => i.W / (i.rho * ({ i with Ts := t } : PsIn).Vsonic * MN))
    (i.linearizeMN MN old).area_Ts i.Ts

private theorem dsqrtProd {f : ℝ → ℝ} {c x : ℝ} (hf : HasDerivAt f c x) (hpos : 0 < f x) :
    HasDerivAt (fun t => Real.sqrt (f t)) (0.5 * f x ^ (-0.5 : ℝ) * c) x := by
  refine (hf.sqrt hpos.ne').congr_deriv ?_
  have := Real.sqrt_pos.mpr hpos
  rw [rpow_half hpos, show (0.5:ℝ) = 1 / 2 by norm_num]; field_simp

private theorem vs_gamma (i : PsIn) (hg : 0 < i.gamma) (hR : 0 < i.R) (hT : 0 < i.Ts) :
    HasDerivAt (fun t => ({ i with gamma := t } : PsIn).Vsonic) i.J_Vs_gamma i.gamma := by
  have h1 : HasDerivAt (fun t => t * i.R * i.Ts) (1 * i.R * i.Ts) i.gamma :=
    ((hasDerivAt_id i.gamma).mul_const i.R).mul_const i.Ts
  exact (dsqrtProd h1 (by positivity)).congr_deriv (by rw [PsIn.J_Vs_gamma, PsIn.part]; ring)
private theorem vs_R (i : PsIn) (hg : 0 < i.gamma) (hR : 0 < i.R) (hT : 0 < i.Ts) :
    HasDerivAt (fun t => ({ i with R := t } : PsIn).Vsonic) i.J_Vs_R i.R := by
  have h1 : HasDerivAt (fun t => i.gamma * t * i.Ts) (i.gamma * 1 * i.Ts) i.R :=
    ((hasDerivAt_id i.R).const_mul i.gamma).mul_const i.Ts
  exact (dsqrtProd h1 (by positivity)).congr_deriv (by rw [PsIn.J_Vs_R, PsIn.part]; ring)
private theorem vs_Ts (i : PsIn) (hg : 0 < i.gamma) (hR : 0 < i.R) (hT : 0 < i.Ts) :
    HasDerivAt (fun t => ({ i with Ts := t } : PsIn).Vsonic) i.J_Vs_Ts i.Ts := by
  have h1 : HasDerivAt (fun t => i.gamma * i.R * t) (i.gamma * i.R * 1) i.Ts :=
    (hasDerivAt_id i.Ts).const_mul (i.gamma * i.R)
  exact (dsqrtProd h1 (by positivity)).congr_deriv (by rw [PsIn.J_Vs_Ts, PsIn.part]; ring)

/-- **C22 (Mach-mode derivatives).** For a Mach number at or above `1e-16` the declared residual
derivatives are exact, whatever the blocks held before. -/
theorem C22_mach_partials (i : PsIn) (MN : ℝ) (old : PsIn.JacMN) (hM : 1e-16 ≤ MN)
    (hg : 0 < i.gamma) (hR : 0 < i.R) (hT : 0 < i.Ts) (hrho : 0 < i.rho) (hht : i.ht ≠ 0) :
    MachExact i MN old := by
  have hM0 : 0 < MN := lt_of_lt_of_le (by norm_num) hM
  have hc : 0 < i.gamma * i.R * i.Ts := by positivity
  have hVs : 0 < i.Vsonic := Real.sqrt_pos.mpr hc
  have hp : i.part = 0.5 * (1 / i.Vsonic) := by rw [PsIn.part, rpow_half hc]; rfl
  have hp' : (i.R * i.gamma * i.Ts) ^ (-0.5 : ℝ) = 1 / i.Vsonic := by
    rw [show i.R * i.gamma * i.Ts = i.gamma * i.R * i.Ts by ring, rpow_half hc]; rfl
  have hL : i.linearizeMN MN old = i.linearizeMN MN old := rfl
  conv_rhs at hL => unfold PsIn.linearizeMN; rw [if_pos hM]
  have sg := vs_gamma i hg hR hT
  have sR := vs_R i hg hR hT
  have sT := vs_Ts i hg hR hT
  have areaD : ∀ {v : ℝ → ℝ} {d x : ℝ}, HasDerivAt v d x → v x = i.Vsonic →
      HasDerivAt (fun t => i.W / (i.rho * v t * MN))
        (-i.W / (i.rho * i.Vsonic ^ 2 * MN) * d) x := by
    intro v d x hv hvx
    refine ((hasDerivAt_const x i.W).fun_div ((hv.const_mul i.rho).mul_const MN)
      (by rw [hvx]; positivity)).congr_deriv ?_
    rw [hvx]; field_simp; ring
  have hmono : ∀ (c : ℝ), HasDerivAt (fun t => (c * t - i.ht) / i.ht) (c / i.ht) MN := by
    intro c; exact ((((hasDerivAt_id MN).const_mul c).sub_const i.ht).div_const i.ht).congr_deriv
      (by ring)
  refine ⟨?_, ?_, ?_, ?_, ?_, ?_, sg, sR, sT, ?_, ?_, ?_, ?_, ?_, ?_, ?_, ?_, ?_, ?_⟩
  · refine (((hasDerivAt_id i.ht).const_sub (i.hs + MN ^ 2 / 2 * i.gamma * (i.Ts * i.R))).fun_div
      (hasDerivAt_id i.ht) hht).congr_deriv ?_
    rw [PsIn.J_Ps_ht, PsIn.htCalc]; simp only [id]; field_simp; ring
  · refine ((((hasDerivAt_id i.hs).add_const (MN ^ 2 / 2 * i.gamma * (i.Ts * i.R))).sub_const
      i.ht).div_const i.ht).congr_deriv ?_
    rfl
  · refine (((((((hasDerivAt_pow 2 MN).div_const 2).mul_const i.gamma).mul_const
      (i.Ts * i.R)).const_add i.hs).sub_const i.ht).div_const i.ht).congr_deriv ?_
    rw [PsIn.M_Ps_MN]; push_cast; ring
  · refine (((((((hasDerivAt_id i.R).const_mul i.Ts)).const_mul (MN ^ 2 / 2 * i.gamma)).const_add
      i.hs).sub_const i.ht).div_const i.ht).congr_deriv ?_
    rw [PsIn.M_Ps_R]; ring
  · refine ((((((hasDerivAt_id i.gamma).const_mul (MN ^ 2 / 2)).mul_const (i.Ts * i.R)).const_add
      i.hs).sub_const i.ht).div_const i.ht).congr_deriv ?_
    rw [PsIn.M_Ps_gamma]; ring
  · refine (((((((hasDerivAt_id i.Ts).mul_const i.R)).const_mul (MN ^ 2 / 2 * i.gamma)).const_add
      i.hs).sub_const i.ht).div_const i.ht).congr_deriv ?_
    rw [PsIn.M_Ps_Ts]; ring
  · rw [hL]; exact ((hasDerivAt_id MN).mul_const i.Vsonic).congr_deriv (by ring)
  · rw [hL]; exact sT.const_mul MN
  · rw [hL]; exact sR.const_mul MN
  · rw [hL]; exact sg.const_mul MN
  · rw [hL]; exact ((hasDerivAt_id i.W).div_const _).congr_deriv (by norm_num)
  · rw [hL]
    refine ((hasDerivAt_const i.rho i.W).fun_div
      (((hasDerivAt_id i.rho).mul_const i.Vsonic).mul_const MN)
      (by simp only [id]; positivity)).congr_deriv ?_
    simp only [id]; field_simp; ring
  · rw [hL]
    refine ((hasDerivAt_const MN i.W).fun_div ((hasDerivAt_id MN).const_mul (i.rho * i.Vsonic))
      (by simp only [id]; positivity)).congr_deriv ?_
    simp only [id]; field_simp; ring
  · rw [hL]; refine (areaD sg rfl).congr_deriv ?_
    simp only [hp', PsIn.J_Vs_gamma, hp]; ring
  · rw [hL]; refine (areaD sR rfl).congr_deriv ?_
    simp only [hp', PsIn.J_Vs_R, hp]; ring
  · rw [hL]; refine (areaD sT rfl).congr_deriv ?_
    simp only [hp', PsIn.J_Vs_Ts, hp]; ring

/-- **C22 is false at zero Mach**: the velocity's derivative with respect to the Mach number is
the speed of sound, but the declared block keeps whatever it held before (initially zero). -/
theorem C22_refuted_zero_mach_partial (i : PsIn) (old : PsIn.JacMN)
    (hc : 0 < i.gamma * i.R * i.Ts) (hold : old.V_MN = 0) :
    ¬ HasDerivAt (fun t => t * i.Vsonic) (i.linearizeMN 0 old).V_MN 0 := by
  have hVs : 0 < i.Vsonic := Real.sqrt_pos.mpr hc
  have hL : i.linearizeMN 0 old = old := by
    unfold PsIn.linearizeMN; rw [if_neg (by norm_num)]
  rw [hL, hold]
  intro h
  have := h.unique ((hasDerivAt_id (0:ℝ)).mul_const i.Vsonic)
  linarith

/-- Exactness of the area-mode blocks (with the Mach number the area implies inside). -/
structure AreaExact (i : PsIn) (a : ℝ) (J : PsIn.JacArea) (MNo : ℝ) : Prop where
  Ps_ht : HasDerivAt (fun t => ({ i with ht := t } : PsIn).residPs (i.mnOfArea (.fin a)))
    (i.J_Ps_ht MNo) i.ht
  Ps_hs : HasDerivAt (fun t => ({ i with hs := t } : PsIn).residPs (i.mnOfArea (.fin a)))
    i.J_Ps_hs i.hs
  area : HasDerivAt (fun t : ℝ => i.mnOfArea (.fin t)) J.MN_area a
    ∧ HasDerivAt (fun t : ℝ => i.mnOfArea (.fin t) * i.Vsonic) J.V_area a
    ∧ HasDerivAt (fun t : ℝ => i.residPs (i.mnOfArea (.fin t))) J.Ps_area a
  W : HasDerivAt (fun t : ℝ => ({ i with W := t } : PsIn).mnOfArea (.fin a)) J.MN_W i.W
    ∧ HasDerivAt (fun t : ℝ => ({ i with W := t } : PsIn).mnOfArea (.fin a) * i.Vsonic)
      J.V_W i.W
    ∧ HasDerivAt (fun t : ℝ => i.residPs (({ i with W := t } : PsIn).mnOfArea (.fin a)))
      J.Ps_W i.W
  rho : HasDerivAt (fun t : ℝ => ({ i with rho := t } : PsIn).mnOfArea (.fin a)) J.MN_rho i.rho
    ∧ HasDerivAt (fun t : ℝ => ({ i with rho := t } : PsIn).mnOfArea (.fin a) * i.Vsonic)
      J.V_rho i.rho
    ∧ HasDerivAt (fun t : ℝ => i.residPs (({ i with rho := t } : PsIn).mnOfArea (.fin a)))
      J.Ps_rho i.rho
  gamma : HasDerivAt (fun t : ℝ => ({ i with gamma := t } : PsIn).mnOfArea (.fin a))
      J.MN_gamma i.gamma
    ∧ HasDerivAt (fun t : ℝ => ({ i with gamma := t } : PsIn).mnOfArea (.fin a)
        * ({ i with gamma := t } : PsIn).Vsonic) J.V_gamma i.gamma
    ∧ HasDerivAt (fun t : ℝ => ({ i with gamma := t } : PsIn).residPs
        (({ i with gamma := t } : PsIn).mnOfArea (.fin a))) J.Ps_gamma i.gamma
  R : HasDerivAt (fun t : ℝ => ({ i with R := t } : PsIn).mnOfArea (.fin a)) J.MN_R i.R
    ∧ HasDerivAt (fun t : ℝ => ({ i with R := t } : PsIn).mnOfArea (.fin a)
        * ({ i with R := t } : PsIn).Vsonic) J.V_R i.R
    ∧ HasDerivAt (fun t : ℝ => ({ i with R := t } : PsIn).residPs
        (({ i with R := t } : PsIn).mnOfArea (.fin a))) J.Ps_R i.R
  Ts : HasDerivAt (fun t : ℝ => ({ i with Ts := t } : PsIn).mnOfArea (.fin a)) J.MN_Ts i.Ts
    ∧ HasDerivAt (fun t : ℝ => ({ i with Ts := t } : PsIn).mnOfArea (.fin a)
        * ({ i with Ts := t } : PsIn).Vsonic) J.V_Ts i.Ts
    ∧ HasDerivAt (fun t : ℝ => ({ i with Ts := t } : PsIn).residPs
        (({ i with Ts := t } : PsIn).mnOfArea (.fin a))) J.Ps_Ts i.Ts

theorem PsIn.mnOfArea_coe (i : PsIn) (a : ℝ) (h : i.rho * i.Vsonic * a ≠ 0) :
    i.mnOfArea (.fin a) = i.W / (i.rho * i.Vsonic * a) := by
  show (if i.rho * i.Vsonic * a = 0 then (5:ℝ) else _) = _
  rw [if_neg h]

/-- The residual in area mode does not depend on gamma, R or Ts as long as the flow is physical:
the kinetic energy is `(W/(rho*area))²/2`. -/
private theorem resid_area_eq (i : PsIn) (a : ℝ) (hc : 0 < i.gamma * i.R * i.Ts)
    (hrho : 0 < i.rho) (ha : 0 < a) :
    i.residPs (i.mnOfArea (.fin a)) = (i.hs + (i.W / (i.rho * a)) ^ 2 / 2 - i.ht) / i.ht
    ∧ i.mnOfArea (.fin a) * i.Vsonic = i.W / (i.rho * a) := by
  have hVs : 0 < i.Vsonic := Real.sqrt_pos.mpr hc
  have hVs2 : i.Vsonic ^ 2 = i.gamma * i.R * i.Ts := Real.sq_sqrt hc.le
  rw [i.mnOfArea_coe a (by positivity), PsIn.residPs]
  have e : (i.W / (i.rho * i.Vsonic * a)) * i.Vsonic = i.W / (i.rho * a) := by field_simp
  refine ⟨?_, e⟩
  rw [← e, mul_pow, hVs2]
  ring

/-- **C22 (area-mode derivatives).** When the Mach-number state is consistent with the area (in
particular at a converged solve) all declared residual derivatives are exact. -/
theorem C22_area_partials (i : PsIn) (a MNo : ℝ) (ha : 0 < a) (hg : 0 < i.gamma) (hR : 0 < i.R)
    (hT : 0 < i.Ts) (hrho : 0 < i.rho) (hht : i.ht ≠ 0)
    (hcons : MNo = i.mnOfArea (.fin a)) :
    AreaExact i a (i.linearizeArea a MNo) MNo := by
  have hc : 0 < i.gamma * i.R * i.Ts := by positivity
  have hVs : 0 < i.Vsonic := Real.sqrt_pos.mpr hc
  have hVs2 : i.Vsonic ^ 2 = i.gamma * i.R * i.Ts := Real.sq_sqrt hc.le
  have hp : i.part = 0.5 * (1 / i.Vsonic) := by rw [PsIn.part, rpow_half hc]; rfl
  have hmn := i.mnOfArea_coe a (by positivity)
  have hgpos : ∀ᶠ t in 𝓝 i.gamma, 0 < t := lt_mem_nhds hg
  have hRpos : ∀ᶠ t in 𝓝 i.R, 0 < t := lt_mem_nhds hR
  have hTpos : ∀ᶠ t in 𝓝 i.Ts, 0 < t := lt_mem_nhds hT
  have hapos : ∀ᶠ t in 𝓝 a, 0 < t := lt_mem_nhds ha
  have hrpos : ∀ᶠ t in 𝓝 i.rho, 0 < t := lt_mem_nhds hrho
  -- derivative of MN through Vsonic
  have mnV : ∀ {v : ℝ → ℝ} {d x : ℝ}, HasDerivAt v d x → v x = i.Vsonic →
      HasDerivAt (fun t => i.W / (i.rho * v t * a)) (-i.W / (i.rho * a * i.Vsonic ^ 2) * d) x := by
    intro v d x hv hvx
    refine ((hasDerivAt_const x i.W).fun_div ((hv.const_mul i.rho).mul_const a)
      (by rw [hvx]; positivity)).congr_deriv ?_
    rw [hvx]; field_simp; ring
  have resMN : ∀ {m : ℝ → ℝ} {d x : ℝ}, HasDerivAt m d x → m x = i.mnOfArea (.fin a) →
      HasDerivAt (fun t => i.residPs (m t))
        (d * (i.mnOfArea (.fin a) * i.gamma * (i.R * i.Ts)) / i.ht) x := by
    intro m d x hm hmx
    refine ((((((hm.fun_pow 2).div_const 2).mul_const i.gamma).mul_const (i.Ts * i.R)).const_add
      i.hs).sub_const i.ht |>.div_const i.ht).congr_deriv ?_
    rw [hmx]; push_cast; ring
  have dA : HasDerivAt (fun t : ℝ => i.mnOfArea (.fin t))
      (-(i.W / i.rho / i.Vsonic / a ^ 2)) a := by
    have h1 : HasDerivAt (fun t : ℝ => i.W / (i.rho * i.Vsonic * t))
        (-(i.W / i.rho / i.Vsonic / a ^ 2)) a := by
      refine ((hasDerivAt_const a i.W).fun_div ((hasDerivAt_id a).const_mul (i.rho * i.Vsonic))
        (by simp only [id]; positivity)).congr_deriv ?_
      simp only [id]; field_simp; ring
    refine h1.congr_of_eventuallyEq (hapos.mono (fun t ht => ?_))
    exact i.mnOfArea_coe t (by positivity)
  have dW : HasDerivAt (fun t : ℝ => ({ i with W := t } : PsIn).mnOfArea (.fin a))
      (1 / i.rho / i.Vsonic / a) i.W := by
    have h1 : HasDerivAt (fun t : ℝ => t / (i.rho * i.Vsonic * a))
        (1 / i.rho / i.Vsonic / a) i.W :=
      ((hasDerivAt_id i.W).div_const _).congr_deriv (by field_simp)
    refine h1.congr_of_eventuallyEq (Eventually.of_forall (fun t => ?_))
    exact PsIn.mnOfArea_coe { i with W := t } a
      (show i.rho * i.Vsonic * a ≠ 0 by positivity)
  have drho : HasDerivAt (fun t : ℝ => ({ i with rho := t } : PsIn).mnOfArea (.fin a))
      (-i.W / (a * i.Vsonic * i.rho ^ 2)) i.rho := by
    have h1 : HasDerivAt (fun t : ℝ => i.W / (t * i.Vsonic * a))
        (-i.W / (a * i.Vsonic * i.rho ^ 2)) i.rho := by
      refine ((hasDerivAt_const i.rho i.W).fun_div
        (((hasDerivAt_id i.rho).mul_const i.Vsonic).mul_const a)
        (by simp only [id]; positivity)).congr_deriv ?_
      simp only [id]; field_simp; ring
    refine h1.congr_of_eventuallyEq (hrpos.mono (fun t ht => ?_))
    exact PsIn.mnOfArea_coe { i with rho := t } a (show t * i.Vsonic * a ≠ 0 by positivity)
  have sg := vs_gamma i hg hR hT
  have sR := vs_R i hg hR hT
  have sT := vs_Ts i hg hR hT
  have dg : HasDerivAt (fun t : ℝ => ({ i with gamma := t } : PsIn).mnOfArea (.fin a))
      (-i.W / (i.rho * a * i.Vsonic ^ 2) * i.J_Vs_gamma) i.gamma := by
    refine (mnV sg rfl).congr_of_eventuallyEq (hgpos.mono (fun t ht => ?_))
    have : 0 < ({ i with gamma := t } : PsIn).Vsonic :=
      Real.sqrt_pos.mpr (show 0 < t * i.R * i.Ts by positivity)
    exact PsIn.mnOfArea_coe { i with gamma := t } a
      (show i.rho * ({ i with gamma := t } : PsIn).Vsonic * a ≠ 0 by positivity)
  have dR : HasDerivAt (fun t : ℝ => ({ i with R := t } : PsIn).mnOfArea (.fin a))
      (-i.W / (i.rho * a * i.Vsonic ^ 2) * i.J_Vs_R) i.R := by
    refine (mnV sR rfl).congr_of_eventuallyEq (hRpos.mono (fun t ht => ?_))
    have : 0 < ({ i with R := t } : PsIn).Vsonic :=
      Real.sqrt_pos.mpr (show 0 < i.gamma * t * i.Ts by positivity)
    exact PsIn.mnOfArea_coe { i with R := t } a
      (show i.rho * ({ i with R := t } : PsIn).Vsonic * a ≠ 0 by positivity)
  have dT : HasDerivAt (fun t : ℝ => ({ i with Ts := t } : PsIn).mnOfArea (.fin a))
      (-i.W / (i.rho * a * i.Vsonic ^ 2) * i.J_Vs_Ts) i.Ts := by
    refine (mnV sT rfl).congr_of_eventuallyEq (hTpos.mono (fun t ht => ?_))
    have : 0 < ({ i with Ts := t } : PsIn).Vsonic :=
      Real.sqrt_pos.mpr (show 0 < i.gamma * i.R * t by positivity)
    exact PsIn.mnOfArea_coe { i with Ts := t } a
      (show i.rho * ({ i with Ts := t } : PsIn).Vsonic * a ≠ 0 by positivity)
  -- algebra: the total dependence on gamma, R, Ts cancels
  have cV : ∀ {v m : ℝ → ℝ} {x : ℝ}, (∀ᶠ t in 𝓝 x, m t * v t = i.W / (i.rho * a)) →
      HasDerivAt (fun t => m t * v t) 0 x := fun h =>
    (hasDerivAt_const _ (i.W / (i.rho * a))).congr_of_eventuallyEq h
  subst hcons
  refine ⟨?_, ?_, ⟨dA, dA.mul_const _, ?_⟩, ⟨dW, dW.mul_const _, ?_⟩,
    ⟨drho, drho.mul_const _, ?_⟩, ⟨dg, ?_, ?_⟩, ⟨?_, ?_, ?_⟩, ⟨?_, ?_, ?_⟩⟩
  · refine (((hasDerivAt_id i.ht).const_sub
      (i.hs + i.mnOfArea (.fin a) ^ 2 / 2 * i.gamma * (i.Ts * i.R))).fun_div
      (hasDerivAt_id i.ht) hht).congr_deriv ?_
    rw [PsIn.J_Ps_ht, PsIn.htCalc]; simp only [id]; field_simp; ring
  · exact (((hasDerivAt_id i.hs).add_const
      (i.mnOfArea (.fin a) ^ 2 / 2 * i.gamma * (i.Ts * i.R))).sub_const
      i.ht).div_const i.ht
  · exact resMN dA rfl
  · exact resMN dW rfl
  · exact (resMN drho rfl).congr_deriv (by simp only [PsIn.linearizeArea]; ring)
  · refine (cV (hgpos.mono (fun t ht => (resid_area_eq { i with gamma := t } a
      (show 0 < t * i.R * i.Ts by positivity) hrho ha).2))).congr_deriv ?_
    simp only [PsIn.linearizeArea, PsIn.J_Vs_gamma, hp, hmn]; field_simp; ring
  · refine ((hasDerivAt_const i.gamma ((i.hs + (i.W / (i.rho * a)) ^ 2 / 2 - i.ht) / i.ht)).congr_of_eventuallyEq
      (hgpos.mono (fun t ht => (resid_area_eq { i with gamma := t } a
      (show 0 < t * i.R * i.Ts by positivity) hrho ha).1))).congr_deriv ?_
    simp only [PsIn.linearizeArea, PsIn.J_Vs_gamma, hp, hmn]
    field_simp
    rw [hVs2]; ring
  · refine dR.congr_deriv ?_
    simp only [PsIn.linearizeArea, PsIn.J_Vs_R, hp]; ring
  · refine (cV (hRpos.mono (fun t ht => (resid_area_eq { i with R := t } a
      (show 0 < i.gamma * t * i.Ts by positivity) hrho ha).2))).congr_deriv ?_
    simp only [PsIn.linearizeArea, hmn]; field_simp; ring
  · refine ((hasDerivAt_const i.R ((i.hs + (i.W / (i.rho * a)) ^ 2 / 2 - i.ht) / i.ht)).congr_of_eventuallyEq
      (hRpos.mono (fun t ht => (resid_area_eq { i with R := t } a
      (show 0 < i.gamma * t * i.Ts by positivity) hrho ha).1))).congr_deriv ?_
    simp only [PsIn.linearizeArea, hmn]
    field_simp
    rw [hVs2]; ring
  · refine dT.congr_deriv ?_
    simp only [PsIn.linearizeArea, PsIn.J_Vs_Ts, hp]; ring
  · refine (cV (hTpos.mono (fun t ht => (resid_area_eq { i with Ts := t } a
      (show 0 < i.gamma * i.R * t by positivity) hrho ha).2))).congr_deriv ?_
    simp only [PsIn.linearizeArea, hmn]; field_simp; ring
  · refine ((hasDerivAt_const i.Ts ((i.hs + (i.W / (i.rho * a)) ^ 2 / 2 - i.ht) / i.ht)).congr_of_eventuallyEq
      (hTpos.mono (fun t ht => (resid_area_eq { i with Ts := t } a
      (show 0 < i.gamma * i.R * t by positivity) hrho ha).1))).congr_deriv ?_
    simp only [PsIn.linearizeArea, hmn]
    field_simp
    rw [hVs2]; ring

/-- **C22 is false away from consistency**: in area mode the derivative block uses the current
Mach-number state, the residual uses the one implied by the area; when they differ the declared
derivative with respect to the temperature is wrong. -/
theorem C22_refuted_area_partial_inconsistent :
    ∃ (i : PsIn) (a MNo : ℝ), 0 < a ∧ 0 < i.gamma ∧ 0 < i.R ∧ 0 < i.Ts ∧ 0 < i.rho ∧ 0 < i.ht
      ∧ ¬ AreaExact i a (i.linearizeArea a MNo) MNo := by
  refine ⟨⟨1, 1, 1, 1, 1, 1, 1⟩, 1, 0, by norm_num, by norm_num, by norm_num, by norm_num,
    by norm_num, by norm_num, fun h => ?_⟩
  have hex := (C22_area_partials ⟨1, 1, 1, 1, 1, 1, 1⟩ 1 _ one_pos one_pos one_pos one_pos one_pos
    one_ne_zero rfl).Ts.2.2
  have := h.Ts.2.2.unique hex
  have hV : PsIn.Vsonic ⟨1, 1, 1, 1, 1, 1, 1⟩ = 1 := by simp [PsIn.Vsonic]
  have hM : PsIn.mnOfArea ⟨1, 1, 1, 1, 1, 1, 1⟩ (.fin 1) = 1 := by
    rw [PsIn.mnOfArea_coe] <;> simp [hV]
  simp only [PsIn.linearizeArea, hV, hM] at this
  norm_num at this

/-- Non-vacuity of C22: a physical static state (unit properties, Mach 1). -/
example : IsStatic ⟨1, 1.5, 1, 1, 1, 2, 1⟩ ⟨1, 2, 1, 1⟩
    ∧ (0:ℝ) < 1 * 1 * 1 ∧ (1e-16:ℝ) ≤ 1 ∧ (2:ℝ) ≠ 0 := by
  refine ⟨⟨by simp, by norm_num, by norm_num, by norm_num⟩, by norm_num, by norm_num, by norm_num⟩

end PyCycle
