import Verif.Model.Compressor
import Verif.Model.Turbine
import Verif.Lemmas.HasD

/-! # C37: corrected flow and speed, polytropic efficiency -/

namespace PyCycle.Comp

/-- A state whose temperature and pressure are positive. -/
def Positive (x : CI → ℝ) : Prop := 0 < x .Tt ∧ 0 < x .Pt

theorem tstd_pos : (0 : ℝ) < T_STDeng := by norm_num [T_STDeng]
theorem pstd_pos : (0 : ℝ) < P_STDeng := by norm_num [P_STDeng]

theorem rpow_half (a : ℝ) : a ^ (0.5 : ℝ) = Real.sqrt a := by
  rw [Real.sqrt_eq_rpow]; norm_num
theorem rpow_neg_half {a : ℝ} (h : 0 ≤ a) : a ^ (-0.5 : ℝ) = (Real.sqrt a)⁻¹ := by
  rw [Real.rpow_neg h, rpow_half]

/-- **C37 (definition, compressor).** Corrected flow is `W √(Tt/Tstd) / (Pt/Pstd)` and corrected speed
`N / √(Tt/Tstd)`. At standard-day conditions both are the physical values. -/
theorem C37_compressor_def (x : CI → ℝ) (hx : Positive x) :
    corr x .Wc = x .W_in * Real.sqrt (x .Tt / 518.67) / (x .Pt / 14.695951)
    ∧ corr x .Nc = x .Nmech / Real.sqrt (x .Tt / 518.67)
    ∧ (x .Tt = 518.67 → x .Pt = 14.695951 → corr x .Wc = x .W_in ∧ corr x .Nc = x .Nmech) := by
  have h1 : corr x .Wc = x .W_in * Real.sqrt (x .Tt / 518.67) / (x .Pt / 14.695951) := by
    simp only [corr, cacheOf, rpow_half, T_STDeng, P_STDeng]
  have h2 : corr x .Nc = x .Nmech / Real.sqrt (x .Tt / 518.67) := by
    simp only [corr, cacheOf]
    rw [rpow_neg_half (div_nonneg hx.1.le tstd_pos.le), T_STDeng]; rfl
  refine ⟨h1, h2, fun ht hp => ?_⟩
  rw [h1, h2, ht, hp]
  norm_num

/-- **C37 (similarity, compressor).** Raising the temperature by `l`, the pressure by `p`, the flow by
`p/√l` and the speed by `√l` changes neither corrected flow nor corrected speed; and conversely two
states with equal corrected values are related in exactly this way. -/
theorem C37_compressor_similar (x y : CI → ℝ) (hx : Positive x) (hy : Positive y) :
    (∀ o, corr x o = corr y o) ↔
      (y .W_in = x .W_in * (y .Pt / x .Pt) / Real.sqrt (y .Tt / x .Tt)
        ∧ y .Nmech = x .Nmech * Real.sqrt (y .Tt / x .Tt)) := by
  obtain ⟨a1, a2, _⟩ := C37_compressor_def x hx
  obtain ⟨b1, b2, _⟩ := C37_compressor_def y hy
  have hT : (0 : ℝ) < 518.67 := by norm_num
  have s1 : Real.sqrt (y .Tt / x .Tt) = Real.sqrt (y .Tt) / Real.sqrt (x .Tt) :=
    Real.sqrt_div hy.1.le _
  have s2 : Real.sqrt (x .Tt / 518.67) = Real.sqrt (x .Tt) / Real.sqrt 518.67 :=
    Real.sqrt_div hx.1.le _
  have s3 : Real.sqrt (y .Tt / 518.67) = Real.sqrt (y .Tt) / Real.sqrt 518.67 :=
    Real.sqrt_div hy.1.le _
  have p1 := Real.sqrt_pos.2 hx.1
  have p2 := Real.sqrt_pos.2 hy.1
  have p3 := Real.sqrt_pos.2 hT
  have q1 := hx.2
  have q2 := hy.2
  have e1 : corr x .Wc = corr y .Wc ↔
      y .W_in = x .W_in * (y .Pt / x .Pt) / Real.sqrt (y .Tt / x .Tt) := by
    rw [a1, b1, s1, s2, s3]
    generalize Real.sqrt (x .Tt) = sx at *
    generalize Real.sqrt (y .Tt) = sy at *
    generalize Real.sqrt 518.67 = ss at *
    generalize x .Pt = px at *
    generalize y .Pt = py at *
    generalize x .W_in = wx at *
    generalize y .W_in = wy at *
    field_simp
    constructor <;> intro h <;> linarith
  have e2 : corr x .Nc = corr y .Nc ↔ y .Nmech = x .Nmech * Real.sqrt (y .Tt / x .Tt) := by
    rw [a2, b2, s1, s2, s3]
    field_simp
    constructor <;> intro h <;> linarith
  constructor
  · intro h; exact ⟨e1.1 (h _), e2.1 (h _)⟩
  · rintro ⟨h1, h2⟩ o
    cases o
    · exact e1.2 h1
    · exact e2.2 h2

/-- Cached attributes of `compute` at the same inputs give exact partials. -/
theorem corr_partials (x : CI → ℝ) (hx : Positive x) : ExactPartials corr (corrJ (cacheOf x)) x := by
  have hT := hx.1.ne'
  have hP := hx.2.ne'
  have h1 := tstd_pos.ne'
  have h2 := pstd_pos.ne'
  have e1 : ∀ a : ℝ, a ≠ 0 → a ^ (-2 : ℝ) = 1 / a ^ 2 := fun a ha => by
    rw [show (-2 : ℝ) = ((-2 : ℤ) : ℝ) by norm_num, Real.rpow_intCast, zpow_neg]; simp
  have e2 : (0.5 : ℝ) - 1 = -0.5 := by norm_num
  have e3 : (-0.5 : ℝ) - 1 = -1.5 := by norm_num
  have hth : x .Tt / T_STDeng ≠ 0 := div_ne_zero hT h1
  have hde : x .Pt / P_STDeng ≠ 0 := div_ne_zero hP h2
  intro o i
  cases o <;> cases i <;>
    simp only [corr, cacheOf, corrJ, e1 _ hde, Function.update_of_ne, Function.update_self, ne_eq,
      reduceCtorEq, not_false_eq_true] <;>
    hd (assumption) ((try simp only [Function.update_of_ne, Function.update_self, ne_eq,
      reduceCtorEq, not_false_eq_true, e2, e3]) <;> fring)

/-- **C37 (partials, compressor).** After any history of calls whose last `compute` was at the inputs
now being linearised, with any number of `compute_partials` calls in between, the partials are exact. -/
theorem C37_compressor_partials (c : Option Cache) (pre : List Call) (x : CI → ℝ)
    (post : List Call) (hpost : ∀ k ∈ post, ∃ y, k = .compute_partials y) (hx : Positive x) :
    ∃ s, runCalls c (pre ++ .compute x :: post) = some s ∧ ExactPartials corr (corrJ s) x := by
  refine ⟨cacheOf x, ?_, corr_partials x hx⟩
  have hp : ∀ (l : List Call), (∀ k ∈ l, ∃ y, k = .compute_partials y) → ∀ c, runCalls c l = c := by
    intro l
    induction l with
    | nil => intro _ _; rfl
    | cons a l ih =>
      intro h c
      obtain ⟨y, rfl⟩ := h a (by simp)
      exact ih (fun k hk => h k (by simp [hk])) c
  induction pre generalizing c with
  | nil => exact hp post hpost _
  | cons a l ih =>
    cases a with
    | compute y => exact ih _
    | compute_partials y => exact ih _

/-- **C37 (stale partials).** The attributes are not refreshed by `compute_partials`: linearising at
inputs other than those of the last `compute` returns a wrong derivative; before any `compute` there
is nothing to read. -/
theorem C37_refuted_stale :
    (∀ l : List Call, (∀ k ∈ l, ∃ y, k = .compute_partials y) → runCalls none l = none)
    ∧ ∃ x y : CI → ℝ, Positive x ∧ Positive y ∧ ∃ s, runCalls none [.compute y] = some s
      ∧ ¬ ExactPartials corr (corrJ s) x := by
  refine ⟨?_, fun | .Tt => 518.67 | .Pt => 14.695951 | .W_in => 1 | .Nmech => 1,
    fun | .Tt => 518.67 | .Pt => 2 * 14.695951 | .W_in => 1 | .Nmech => 1,
    by constructor <;> norm_num, by constructor <;> norm_num, _, rfl, ?_⟩
  · intro l
    induction l with
    | nil => intro _; rfl
    | cons a l ih =>
      intro h
      obtain ⟨y, rfl⟩ := h a (by simp)
      exact ih (fun k hk => h k (by simp [hk]))
  · intro h
    have h1 := h .Wc .W_in
    have h2 := corr_partials (fun | .Tt => 518.67 | .Pt => 14.695951 | .W_in => 1 | .Nmech => 1)
      (by constructor <;> norm_num) .Wc .W_in
    have h3 := h1.unique h2
    simp only [corrJ, cacheOf, T_STDeng, P_STDeng, rpow_half] at h3
    norm_num at h3

/-! ## Polytropic efficiency -/

/-- **C37 (polytropic, compressor).** For a compression (`PR > 1`, `Rt > 0`) with no entropy
destruction the efficiency is at most one; it is one exactly when the entropy does not change, and
less than one (and positive) exactly when it rises. -/
theorem C37_compressor_poly (x : EI → ℝ) (hPR : 1 < x .PR) (hR : 0 < x .Rt) :
    (effPoly x = 1 ↔ x .S_out = x .S_in)
    ∧ ((0 < effPoly x ∧ effPoly x < 1) ↔ x .S_in < x .S_out)
    ∧ (x .S_in ≤ x .S_out →
        x .Rt * Real.log (x .PR) = effPoly x * (x .Rt * Real.log (x .PR) + (x .S_out - x .S_in))) := by
  have hL : 0 < x .Rt * Real.log (x .PR) := mul_pos hR (Real.log_pos hPR)
  unfold effPoly
  generalize x .Rt * Real.log (x .PR) = L at *
  have hs : L + x .S_out - x .S_in = L + (x .S_out - x .S_in) := by ring
  rw [hs]
  have hd : (x .S_out = x .S_in ↔ x .S_out - x .S_in = 0) := sub_eq_zero.symm
  have hd2 : (x .S_in < x .S_out ↔ 0 < x .S_out - x .S_in) := sub_pos.symm
  have hd3 : (x .S_in ≤ x .S_out ↔ 0 ≤ x .S_out - x .S_in) := sub_nonneg.symm
  rw [hd, hd2, hd3]
  generalize x .S_out - x .S_in = d
  refine ⟨⟨fun h => ?_, fun h => by rw [h, add_zero, div_self hL.ne']⟩,
    ⟨fun ⟨h0, h1⟩ => ?_, fun h => ⟨by positivity, ?_⟩⟩, fun h => ?_⟩
  · have hne : L + d ≠ 0 := fun h0 => by rw [h0, div_zero] at h; exact zero_ne_one h
    rw [div_eq_one_iff_eq hne] at h; linarith
  · have hp : 0 < L + d := by
      by_contra hn
      rcases lt_or_eq_of_le (not_lt.1 hn) with hlt | heq
      · exact absurd h0 (not_lt.2 (div_nonpos_of_nonneg_of_nonpos hL.le hlt.le))
      · rw [heq, div_zero] at h0; exact lt_irrefl _ h0
    rw [div_lt_one hp] at h1; linarith
  · rw [div_lt_one (by linarith)]; linarith
  · rw [div_mul_cancel₀]; positivity

/-- **C37 (polytropic partials, compressor).** -/
theorem C37_compressor_poly_partials (x : EI → ℝ) (hPR : 0 < x .PR)
    (hD : x .Rt * Real.log (x .PR) + x .S_out - x .S_in ≠ 0) :
    ExactPartials (fun x (_ : Unit) => effPoly x) (fun x _ => effPolyJ x) x := by
  have h0 := hPR.ne'
  have hD' : Real.log (x .PR) * x .Rt + x .S_out - x .S_in ≠ 0 := by rwa [mul_comm (Real.log _)]
  intro o i
  cases i <;>
    simp only [effPoly, effPolyJ, Function.update_of_ne, Function.update_self, ne_eq,
      reduceCtorEq, not_false_eq_true] <;>
    hd (assumption) ((try simp only [Function.update_of_ne, Function.update_self, ne_eq,
      reduceCtorEq, not_false_eq_true, mul_comm (Real.log _)]) <;> fring)

/-- **C37 (isentropic machine, compressor).** In the group, a compressor with adiabatic efficiency one
has polytropic efficiency one, for any thermodynamics whose two solvers are inverse to each other. -/
theorem C37_compressor_isentropic {n : ℕ} (g : GIn n) (th : Therm) (heff : g.eff = 1)
    (hinv : ∀ s P, th.sHP (th.hSP s P) P = s) (hPR : 1 < g.PR) (hR : 0 < g.R) :
    g.effPoly th = 1 := by
  unfold GIn.effPoly
  refine (C37_compressor_poly _ hPR hR).1.2 ?_
  have : g.htOut th = th.hSP g.S g.PtOut := by simp [GIn.htOut, enthRise, heff]
  simp only [this, hinv]

/-- **C37 (direction, compressor).** With adiabatic efficiency below one, and entropy increasing in
enthalpy at fixed pressure, polytropic efficiency is below one; above one, it is above or undefined
(never in `(0, 1)`). -/
theorem C37_compressor_irreversible {n : ℕ} (g : GIn n) (th : Therm) (heff : 0 < g.eff)
    (hinv : ∀ s P, th.sHP (th.hSP s P) P = s) (hmono : ∀ P, StrictMono fun h => th.sHP h P)
    (hwork : g.ht < th.hSP g.S g.PtOut) (hPR : 1 < g.PR) (hR : 0 < g.R) :
    (0 < g.effPoly th ∧ g.effPoly th < 1) ↔ g.eff < 1 := by
  unfold GIn.effPoly
  rw [(C37_compressor_poly _ hPR hR).2.1]
  simp only
  conv_lhs => lhs; rw [← hinv g.S g.PtOut]
  rw [(hmono g.PtOut).lt_iff_lt]
  unfold GIn.htOut enthRise
  simp only
  rw [← sub_pos]
  have : (th.hSP g.S g.PtOut - g.ht) / g.eff + g.ht - th.hSP g.S g.PtOut
      = (th.hSP g.S g.PtOut - g.ht) * (1 / g.eff - 1) := by ring
  rw [this, mul_pos_iff_of_pos_left (sub_pos.2 hwork), sub_pos, one_lt_div heff]

/-- The hypotheses are met: an ideal gas with `s = log h - r log P`. -/
example : ∃ th : Therm, (∀ s P, th.sHP (th.hSP s P) P = s) ∧ ∀ P, StrictMono fun h => th.sHP h P :=
  ⟨⟨fun s P => s + Real.log P, fun h P => h - Real.log P⟩, fun _ _ => by simp, fun P a b h => by
    simpa using h⟩

end PyCycle.Comp

namespace PyCycle.Turb

/-- **C37 (definition, turbine).** Corrected flow and speed of a turbine, and how they relate to the
compressor's: the same up to constant factors. -/
theorem C37_turbine_def (x : Comp.CI → ℝ) (hx : Comp.Positive x) :
    corr x .Wp = x .W_in * Real.sqrt (x .Tt) / x .Pt
    ∧ corr x .Np = x .Nmech / Real.sqrt (x .Tt)
    ∧ Comp.corr x .Wc = corr x .Wp * (14.695951 / Real.sqrt 518.67)
    ∧ Comp.corr x .Nc = corr x .Np * Real.sqrt 518.67 := by
  have h1 : corr x .Wp = x .W_in * Real.sqrt (x .Tt) / x .Pt := by
    simp only [corr, Comp.rpow_half]
  have h2 : corr x .Np = x .Nmech / Real.sqrt (x .Tt) := by
    simp only [corr]; rw [Comp.rpow_neg_half hx.1.le]; rfl
  obtain ⟨a1, a2, _⟩ := Comp.C37_compressor_def x hx
  have p1 := Real.sqrt_pos.2 hx.1
  have p3 := Real.sqrt_pos.2 (show (0 : ℝ) < 518.67 by norm_num)
  have hP := hx.2
  refine ⟨h1, h2, ?_, ?_⟩
  · rw [a1, h1, Real.sqrt_div hx.1.le]
    generalize Real.sqrt (x .Tt) = a at *
    generalize Real.sqrt 518.67 = b at *
    field_simp
  · rw [a2, h2, Real.sqrt_div hx.1.le]
    generalize Real.sqrt (x .Tt) = a at *
    generalize Real.sqrt 518.67 = b at *
    field_simp

/-- **C37 (similarity, turbine).** -/
theorem C37_turbine_similar (x y : Comp.CI → ℝ) (hx : Comp.Positive x) (hy : Comp.Positive y) :
    (∀ o, corr x o = corr y o) ↔
      (y .W_in = x .W_in * (y .Pt / x .Pt) / Real.sqrt (y .Tt / x .Tt)
        ∧ y .Nmech = x .Nmech * Real.sqrt (y .Tt / x .Tt)) := by
  rw [← Comp.C37_compressor_similar x y hx hy]
  obtain ⟨_, _, a3, a4⟩ := C37_turbine_def x hx
  obtain ⟨_, _, b3, b4⟩ := C37_turbine_def y hy
  have p3 := (Real.sqrt_pos.2 (show (0 : ℝ) < 518.67 by norm_num)).ne'
  have p4 : (14.695951 / Real.sqrt 518.67 : ℝ) ≠ 0 := div_ne_zero (by norm_num) p3
  constructor
  · intro h o
    cases o
    · rw [a3, b3, h]
    · rw [a4, b4, h]
  · intro h o
    cases o
    · have := h .Wc; rw [a3, b3] at this; exact mul_right_cancel₀ p4 this
    · have := h .Nc; rw [a4, b4] at this; exact mul_right_cancel₀ p3 this

/-- **C37 (partials, turbine).** -/
theorem C37_turbine_partials (x : Comp.CI → ℝ) (hx : Comp.Positive x) :
    ExactPartials corr corrJ x := by
  have hT := hx.1.ne'
  have hP := hx.2.ne'
  have e1 : ∀ a : ℝ, a ≠ 0 → a ^ (-2 : ℝ) = 1 / a ^ 2 := fun a ha => by
    rw [show (-2 : ℝ) = ((-2 : ℤ) : ℝ) by norm_num, Real.rpow_intCast, zpow_neg]; simp
  have e2 : (0.5 : ℝ) - 1 = -0.5 := by norm_num
  have e3 : (-0.5 : ℝ) - 1 = -1.5 := by norm_num
  intro o i
  cases o <;> cases i <;>
    simp only [corr, corrJ, e1 _ hP, Function.update_of_ne, Function.update_self, ne_eq,
      reduceCtorEq, not_false_eq_true] <;>
    hd (assumption) ((try simp only [Function.update_of_ne, Function.update_self, ne_eq,
      reduceCtorEq, not_false_eq_true, e2, e3]) <;> fring)

/-- **C37 (polytropic, turbine).** For an expansion (`PR = Pin/Pout > 1`, `Rt > 0`): one exactly when
the entropy does not change, below one exactly when it rises. -/
theorem C37_turbine_poly (x : Comp.EI → ℝ) (hPR : 1 < x .PR) (hR : 0 < x .Rt) :
    (effPoly x = 1 ↔ x .S_out = x .S_in)
    ∧ (effPoly x < 1 ↔ x .S_in < x .S_out)
    ∧ effPoly x * (x .Rt * Real.log (x .PR)) = x .Rt * Real.log (x .PR) - (x .S_out - x .S_in) := by
  have hL : 0 < x .Rt * Real.log (x .PR) := mul_pos hR (Real.log_pos hPR)
  have e : effPoly x = 1 - (x .S_out - x .S_in) / (x .Rt * Real.log (x .PR)) := by
    unfold effPoly
    rw [one_div, Real.log_inv, mul_neg, div_neg]; ring
  rw [e]
  have hd : (x .S_out = x .S_in ↔ x .S_out - x .S_in = 0) := sub_eq_zero.symm
  have hd2 : (x .S_in < x .S_out ↔ 0 < x .S_out - x .S_in) := sub_pos.symm
  rw [hd, hd2]
  generalize x .Rt * Real.log (x .PR) = L at *
  generalize x .S_out - x .S_in = d
  refine ⟨?_, ?_, ?_⟩
  · rw [sub_eq_self, div_eq_zero_iff]; simp [hL.ne']
  · rw [sub_lt_self_iff]; exact div_pos_iff_of_pos_right hL
  · rw [sub_mul, div_mul_cancel₀ _ hL.ne', one_mul]

/-- **C37 (polytropic partials, turbine).** -/
theorem C37_turbine_poly_partials (x : Comp.EI → ℝ) (hPR : 0 < x .PR) (h1 : x .PR ≠ 1)
    (hR : x .Rt ≠ 0) :
    ExactPartials (fun x (_ : Unit) => effPoly x) (fun x _ => effPolyJ x) x := by
  have h0 := hPR.ne'
  have hL : Real.log (x .PR) ≠ 0 := Real.log_ne_zero_of_pos_of_ne_one hPR h1
  intro o i
  have e : ∀ a b : ℝ, Real.log (1 / a) = - Real.log a := fun a b => by rw [one_div, Real.log_inv]
  have hp : x .Rt * -Real.log (x .PR) ≠ 0 := mul_ne_zero hR (neg_ne_zero.2 hL)
  cases i <;>
    simp only [effPoly, effPolyJ, one_div, Real.log_inv, Function.update_of_ne,
      Function.update_self, ne_eq, reduceCtorEq, not_false_eq_true] <;>
    hd (assumption) ((try simp only [Function.update_of_ne, Function.update_self, ne_eq,
      reduceCtorEq, not_false_eq_true]) <;> fring)

/-- **C37 (isentropic machine, turbine).** -/
theorem C37_turbine_isentropic {n : ℕ} (g : GIn n) (th : Therm n) (Wout : ℝ) (heff : g.eff = 1)
    (hinv : ∀ s P, th.main.sHP (th.main.hSP s P) P = s) (hPR : 1 < g.PR) (hR : 0 < g.R) :
    g.effPoly th Wout = 1 := by
  unfold GIn.effPoly
  refine (C37_turbine_poly _ hPR hR).1.2 ?_
  have : enthPower (g.enthIn th Wout) .ht_out_b4bld = th.main.hSP g.S g.PtOut := by
    simp [enthPower, b4bld, GIn.enthIn, heff]
  simp only [this, hinv]

/-- **C37 (direction, turbine).** Polytropic efficiency is below one exactly when the adiabatic one
is. -/
theorem C37_turbine_irreversible {n : ℕ} (g : GIn n) (th : Therm n) (Wout : ℝ)
    (hinv : ∀ s P, th.main.sHP (th.main.hSP s P) P = s)
    (hmono : ∀ P, StrictMono fun h => th.main.sHP h P)
    (hwork : th.main.hSP g.S g.PtOut < g.ht) (hPR : 1 < g.PR) (hR : 0 < g.R) :
    g.effPoly th Wout < 1 ↔ g.eff < 1 := by
  unfold GIn.effPoly
  rw [(C37_turbine_poly _ hPR hR).2.1]
  simp only
  conv_lhs => lhs; rw [← hinv g.S g.PtOut]
  rw [(hmono g.PtOut).lt_iff_lt]
  have : enthPower (g.enthIn th Wout) .ht_out_b4bld - th.main.hSP g.S g.PtOut
      = (g.ht - th.main.hSP g.S g.PtOut) * (1 - g.eff) := by
    simp only [enthPower, b4bld, GIn.enthIn]; ring
  rw [← sub_pos, this, mul_pos_iff_of_pos_left (sub_pos.2 hwork), sub_pos]

/-- A concrete state meeting the hypotheses. -/
example : Comp.Positive (fun | .Tt => 600 | .Pt => 30 | .W_in => 10 | .Nmech => 5000) := by
  constructor <;> norm_num

end PyCycle.Turb
