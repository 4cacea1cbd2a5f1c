import Verif.Model.SmallCore
import Verif.Lemmas.Spline

/-! # C41: small-core efficiency schedule -/

namespace PyCycle.SmallCore

theorem interp_n (t : Tech) : (interp t).n = 11 := by
  show WcSE.length - 1 = 11
  decide +kernel

theorem sorted (t : Tech) : (interp t).Sorted := by
  have h : ∀ i < 11, WcSE.getD i 0 < WcSE.getD (i + 1) 0 := by decide +kernel
  intro i hi
  rw [interp_n] at hi
  show ((WcSE.getD i 0 : ℚ) : ℝ) < ((WcSE.getD (i + 1) 0 : ℚ) : ℝ)
  exact_mod_cast h i hi

theorem node (t : Tech) (i : ℕ) (q : ℚ) (h : WcSE.getD i 0 = q) : (interp t).x i = (q : ℝ) := by
  show ((WcSE.getD i 0 : ℚ) : ℝ) = _
  rw [h]

/-- The improvement over the current technology that a level stands for. -/
noncomputable def gain : Tech → ℝ
  | .t0 => 0
  | .t1 => 0.02
  | .t2 => 0.04

/-- **C41 (large engines).** At every core size, each technology level adds exactly its gain. -/
theorem C41_large_gain (t : Tech) (CS : ℝ) : etaCalc .large t CS = etaCalc .large .t0 CS + gain t := by
  cases t <;> simp [etaCalc, gain]

/-- **C41 (small engines, level 1).** From core size 1 to 200 the level-1 curve is the level-0 curve
plus exactly 0.02. -/
theorem C41_small_gain (CS : ℝ) (h1 : 1 ≤ CS) (h2 : CS ≤ 200) :
    etaCalc .small .t1 CS = etaCalc .small .t0 CS + 0.02 := by
  have hq : ∀ i < 12, 3 ≤ i → SE1.getD i 0 = SE0.getD i 0 + 0.02
      ∧ (akimaSlopes WcSE SE1).getD i 0 = (akimaSlopes WcSE SE0).getD i 0 := by decide +kernel
  have hx3 : ∀ t, (interp t).x 3 = 1 := fun t => by rw [node t 3 1 (by decide +kernel)]; norm_num
  have hx11 : ∀ t, (interp t).x 11 = 200 := fun t => by
    rw [node t 11 200 (by decide +kernel)]; norm_num
  have key : ∀ i, 3 ≤ i → i < 11 → (interp .t0).x i ≤ CS → CS ≤ (interp .t0).x (i + 1) →
      (interp .t1).eval CS = (interp .t0).eval CS + 0.02 := by
    intro i a b c d
    rw [Spline.eval_eq_piece (sorted .t0) (by rw [interp_n]; exact b) c d,
      Spline.eval_eq_piece (sorted .t1) (by rw [interp_n]; exact b) c d]
    obtain ⟨p1, p2⟩ := hq i (by omega) a
    obtain ⟨p3, p4⟩ := hq (i + 1) (by omega) (by omega)
    simp only [Spline.piece, Spline.c3, Spline.c2, Spline.sec, interp, tableSpline, table, p1, p2, p3, p4]
    push_cast
    norm_num
    ring
  show (interp .t1).eval CS = (interp .t0).eval CS + 0.02
  rcases eq_or_lt_of_le h2 with rfl | hlt
  · refine key 10 (by omega) (by omega) ?_ ?_
    · rw [node .t0 10 30 (by decide +kernel)]; norm_num
    · rw [hx11]
  · obtain ⟨i, hi, a, b, -⟩ := Spline.exists_interval (sorted .t0) (X := CS)
      (by rw [node .t0 0 0 (by decide +kernel)]; push_cast; linarith)
      (by rw [interp_n, hx11]; exact hlt)
    rw [interp_n] at hi
    refine key i ?_ hi a b.le
    by_contra hc
    have := (sorted .t0).le (show i + 1 ≤ 3 by omega) (by rw [interp_n]; omega)
    rw [hx3] at this; linarith

/-- **C41 (small engines, level 2).** The level-2 curve is not the level-0 curve plus 0.04: at the
tabulated core sizes the gain is between 0.034 and 0.041, and at core size zero it is nothing (all
curves start at zero). -/
theorem C41_refuted_small_gain :
    (∀ i < 12, 1 ≤ i → 0.034 ≤ SE2.getD i 0 - SE0.getD i 0 ∧ SE2.getD i 0 - SE0.getD i 0 ≤ 0.041)
    ∧ etaCalc .small .t2 5 = etaCalc .small .t0 5 + 0.036
    ∧ ∀ t, etaCalc .small t 0 = 0 := by
  have hn : ∀ t i q, WcSE.getD i 0 = q → i < 12 →
      etaCalc .small t (q : ℝ) = (((table t).getD i 0 : ℚ) : ℝ) := by
    intro t i q hi hlt
    show (interp t).eval _ = _
    rw [← node t i q hi, Spline.eval_node (sorted t) (by rw [interp_n]; omega) (by rw [interp_n]; omega)]
    rfl
  refine ⟨by decide +kernel, ?_, ?_⟩
  · have a := hn .t2 9 5 (by decide +kernel) (by omega)
    have b := hn .t0 9 5 (by decide +kernel) (by omega)
    have c : (table .t2).getD 9 0 = (table .t0).getD 9 0 + 0.036 := by decide +kernel
    have e : ((5 : ℚ) : ℝ) = 5 := by norm_num
    rw [e] at a b
    rw [a, b, c]; push_cast; norm_num
  · intro t
    have a := hn t 0 0 (by decide +kernel) (by omega)
    have c : (table t).getD 0 0 = 0 := by cases t <;> decide +kernel
    rw [c] at a
    simpa using a

/-- **C41 (derivatives).** The declared partials are exact at every core size other than the switching
one for large engines, and everywhere inside the table for small engines. -/
theorem C41_derivative (e : Eng) (t : Tech) (CS eta_p eta_a : ℝ)
    (h : match e with | .large => CS ≠ breakCS | .small => 0 < CS ∧ CS < 200) :
    HasDerivAt (fun c => residual e t c eta_p eta_a) (J_CS e t CS) CS
    ∧ HasDerivAt (fun p => residual e t CS p eta_a) J_eta_p eta_p := by
  refine ⟨?_, (hasDerivAt_id' eta_p).sub_const _⟩
  cases e with
  | small =>
    have := Spline.eval_hasDerivAt (sorted t) (X := CS)
      (by rw [node t 0 0 (by decide +kernel)]; push_cast; exact h.1)
      (by rw [interp_n, node t 11 200 (by decide +kernel)]; push_cast; exact h.2)
    exact this.const_sub eta_p
  | large =>
    have hp : ∀ c, HasDerivAt poly (-0.00361 * c ^ 3 + 0.05448 * c ^ 2 - 0.2726 * c + 0.4549) c := by
      intro c
      unfold poly
      hd (assumption) (simp only [Nat.cast_ofNat]; norm_num; ring1)
    have hg : ∀ c, residual .large t c eta_p eta_a
        = eta_p - ((if c < breakCS then poly c else 0.91) + gain t) := by
      intro c; unfold residual; rw [C41_large_gain]; rfl
    simp only [hg, J_CS]
    rcases lt_or_gt_of_ne h with hlt | hgt
    · rw [if_pos hlt]
      refine HasDerivAt.const_sub eta_p (HasDerivAt.add_const _ ((hp CS).congr_of_eventuallyEq ?_))
      filter_upwards [Iio_mem_nhds hlt] with c hc
      rw [if_pos (show c < breakCS from hc)]
    · rw [if_neg (not_lt.2 hgt.le)]
      refine HasDerivAt.const_sub eta_p (HasDerivAt.add_const _
        ((hasDerivAt_const CS (0.91 : ℝ)).congr_of_eventuallyEq ?_))
      filter_upwards [Ioi_mem_nhds hgt] with c hc
      rw [if_neg (not_lt.2 (le_of_lt hc))]

/-- **C41 (the switch).** At the switching core size the large-engine schedule drops by between 1e-8
and 2e-8: it is discontinuous there, so no declared partial can be right. -/
theorem C41_refuted_switch (t : Tech) (eta_p eta_a : ℝ) :
    0.91 + 1e-8 < poly breakCS ∧ poly breakCS < 0.91 + 2e-8
    ∧ ¬ ContinuousAt (fun c => residual .large t c eta_p eta_a) breakCS := by
  have h1 : 0.91 + 1e-8 < poly breakCS := by unfold poly breakCS; norm_num
  refine ⟨h1, by unfold poly breakCS; norm_num, fun hc => ?_⟩
  have hpc : Continuous poly := by unfold poly; fun_prop
  have hg : ∀ c, residual .large t c eta_p eta_a
        = eta_p - ((if c < breakCS then poly c else 0.91) + gain t) := by
      intro c; unfold residual; rw [C41_large_gain]; rfl
  have a : Filter.Tendsto (fun c => residual .large t c eta_p eta_a) (nhdsWithin breakCS (Set.Iio breakCS))
      (nhds (residual .large t breakCS eta_p eta_a)) := hc.tendsto.mono_left nhdsWithin_le_nhds
  have b : Filter.Tendsto (fun c => residual .large t c eta_p eta_a) (nhdsWithin breakCS (Set.Iio breakCS))
      (nhds (eta_p - (poly breakCS + gain t))) := by
    have hcont : Filter.Tendsto (fun c => eta_p - (poly c + gain t)) (nhdsWithin breakCS (Set.Iio breakCS))
        (nhds (eta_p - (poly breakCS + gain t))) :=
      (Continuous.tendsto (by fun_prop) breakCS).mono_left nhdsWithin_le_nhds
    refine hcont.congr' ?_
    filter_upwards [self_mem_nhdsWithin] with c hc'
    rw [hg, if_pos (show c < breakCS from hc')]
  have := tendsto_nhds_unique a b
  rw [hg, if_neg (lt_irrefl _)] at this
  linarith

/-- **C41 (shape).** Up to the switch the large-engine schedule increases strictly with core size. -/
theorem C41_large_monotone (t : Tech) :
    StrictMonoOn (etaCalc .large t) (Set.Ico 0 breakCS)
    ∧ ∀ CS, breakCS ≤ CS → etaCalc .large t CS = 0.91 + gain t := by
  have hv : ∀ c, etaCalc .large t c = (if c < breakCS then poly c else 0.91) + gain t := fun c => by
    rw [C41_large_gain]; rfl
  refine ⟨?_, fun CS h => by rw [hv, if_neg (not_lt.2 h)]⟩
  have hp : StrictMonoOn poly (Set.Icc 0 breakCS) := by
    refine strictMonoOn_of_deriv_pos (convex_Icc _ _)
      (Continuous.continuousOn (by unfold poly; fun_prop)) (fun c hc => ?_)
    rw [interior_Icc] at hc
    have hd : HasDerivAt poly (-0.00361 * c ^ 3 + 0.05448 * c ^ 2 - 0.2726 * c + 0.4549) c := by
      unfold poly
      hd (assumption) (simp only [Nat.cast_ofNat]; norm_num; ring1)
    rw [hd.deriv]
    have h1 := hc.1
    have h2 : c < 5.31 := hc.2.trans (by unfold breakCS; norm_num)
    nlinarith [sq_nonneg (c - 4.6), mul_nonneg (sub_nonneg.2 h2.le) (sq_nonneg (c - 4.6))]
  intro a ha b hb hab
  rw [hv, hv, if_pos ha.2, if_pos hb.2]
  have := hp ⟨ha.1, ha.2.le⟩ ⟨hb.1, hb.2.le⟩ hab
  linarith

/-- **C41 (overshoot).** The small-engine curves are flat in the table between core sizes 30 and 200,
but the interpolants are not: half-way they exceed the table's largest efficiency. -/
theorem C41_refuted_overshoot (t : Tech) :
    etaCalc .small t 30 = etaCalc .small t 200 ∧ etaCalc .small t 200 + 0.0004 < etaCalc .small t 115 := by
  have h30 : (interp t).x 10 = 30 := by rw [node t 10 30 (by decide +kernel)]; norm_num
  have h200 : (interp t).x (10 + 1) = 200 := by rw [node t (10 + 1) 200 (by decide +kernel)]; norm_num
  have e1 : etaCalc .small t 30 = (interp t).y 10 := by
    show (interp t).eval 30 = _
    rw [← h30, Spline.eval_node (sorted t) (by rw [interp_n]; omega) (by rw [interp_n]; omega)]
  have e2 : etaCalc .small t 200 = (interp t).y 11 := by
    show (interp t).eval 200 = _
    rw [← h200, Spline.eval_node (sorted t) (by rw [interp_n]; omega) (by rw [interp_n])]
  have hy : (interp t).y 10 = (interp t).y 11 := by
    have : (table t).getD 10 0 = (table t).getD 11 0 := by cases t <;> decide +kernel
    show (((table t).getD 10 0 : ℚ) : ℝ) = (((table t).getD 11 0 : ℚ) : ℝ)
    rw [this]
  refine ⟨by rw [e1, e2, hy], ?_⟩
  rw [e2]
  show _ < (interp t).eval 115
  rw [Spline.eval_eq_piece (sorted t) (i := 10) (by rw [interp_n]; omega) (by rw [h30]; norm_num)
    (by rw [h200]; norm_num)]
  have hp : (interp t).piece 10 115 = (interp t).y 11 + 170 / 8 * ((interp t).d 10 - (interp t).d 11) := by
    simp only [Spline.piece, Spline.c3, Spline.c2, Spline.sec, h30, h200, hy]
    ring
  rw [hp]
  have hq : 4 / 10000 < 170 / 8 * ((akimaSlopes WcSE (table t)).getD 10 0
      - (akimaSlopes WcSE (table t)).getD 11 0) := by cases t <;> decide +kernel
  have hr : (4 / 10000 : ℝ) < 170 / 8 * ((interp t).d 10 - (interp t).d 11) := by
    show (4 / 10000 : ℝ) < 170 / 8 * ((((akimaSlopes WcSE (table t)).getD 10 0 : ℚ) : ℝ)
      - (((akimaSlopes WcSE (table t)).getD 11 0 : ℚ) : ℝ))
    have := (Rat.cast_lt (K := ℝ)).2 hq
    push_cast at this
    exact this
  norm_num at hr ⊢
  linarith

/-- **C41 (role of the unknown).** The residual does not depend on the adiabatic efficiency it is meant
to determine: on its own the component cannot be solved, and with a wrong polytropic efficiency no
value of the unknown makes the residual vanish. -/
theorem C41_unknown (e : Eng) (t : Tech) (CS eta_p a b : ℝ) :
    residual e t CS eta_p a = residual e t CS eta_p b
    ∧ (residual e t CS eta_p a = 0 ↔ eta_p = etaCalc e t CS) :=
  ⟨rfl, sub_eq_zero⟩

/-- A core size on each branch. -/
example : (2 : ℝ) ∈ Set.Ico 0 breakCS ∧ breakCS ≤ 6 := by unfold breakCS; constructor <;> norm_num

end PyCycle.SmallCore
