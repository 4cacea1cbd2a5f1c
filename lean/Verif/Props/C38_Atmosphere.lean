import Verif.Model.Atmosphere
import Verif.Lemmas.Spline

/-! # C38: the standard atmosphere -/

namespace PyCycle.Atm

theorem lengths : alt.length = 112 ∧ T.length = 112 ∧ P.length = 112 ∧ rho.length = 112 := by
  decide +kernel

theorem interp_n (col : List ℚ) : (interp col).n = 111 := by
  show alt.length - 1 = 111
  rw [lengths.1]

theorem interp_x (col : List ℚ) (i : ℕ) : (interp col).x i = ((alt.getD i 0 : ℚ) : ℝ) := rfl

theorem sortedQ : ∀ i < 111, alt.getD i 0 < alt.getD (i + 1) 0 := by decide +kernel

theorem sorted (col : List ℚ) : (interp col).Sorted := by
  intro i hi
  rw [interp_n] at hi
  show ((alt.getD i 0 : ℚ) : ℝ) < ((alt.getD (i + 1) 0 : ℚ) : ℝ)
  exact_mod_cast sortedQ i hi

theorem x_first (col : List ℚ) : (interp col).x 0 = -1000 := by
  show ((alt.getD 0 0 : ℚ) : ℝ) = -1000
  have : alt.getD 0 0 = -1000 := by decide +kernel
  rw [this]; norm_num

theorem x_last (col : List ℚ) : (interp col).x (interp col).n = 150000 := by
  rw [interp_n]
  show ((alt.getD 111 0 : ℚ) : ℝ) = 150000
  have : alt.getD 111 0 = 150000 := by decide +kernel
  rw [this]; norm_num

theorem call_eq (col : List ℚ) (f : ℝ → ℝ) {a : ℝ} (h1 : -1000 ≤ a) (h2 : a ≤ 150000) :
    (interp col).call f a = some (f a) := by
  unfold Spline.call
  rw [x_first, x_last, if_pos ⟨h1, h2⟩]

/-- **C38 (domain).** All four outputs and partials are numbers exactly between -1000 ft and
150000 ft; outside they are NaN. -/
theorem C38_domain (a : ℝ) (o : O) :
    ((compute a o).isSome ↔ -1000 ≤ a ∧ a ≤ 150000)
    ∧ ((partials a o).isSome ↔ -1000 ≤ a ∧ a ≤ 150000) := by
  constructor <;> cases o <;> simp only [compute, partials, Spline.call] <;>
    rw [x_first, x_last] <;> split_ifs with h <;> simp [h]

/-- The table column behind an output. -/
def column : O → List ℚ
  | .Ts => T
  | .Ps => P
  | _ => rho

/-- **C38 (table).** At every tabulated altitude, temperature, pressure and density are the tabulated
values. -/
theorem C38_table (i : ℕ) (hi : i < 112) (o : O) (ho : o ≠ .drhos_dalt) :
    compute ((alt.getD i 0 : ℚ) : ℝ) o = some (((column o).getD i 0 : ℚ) : ℝ) := by
  have hb : ∀ i < 112, (-1000 : ℚ) ≤ alt.getD i 0 ∧ alt.getD i 0 ≤ 150000 := by decide +kernel
  have h1 : (-1000 : ℝ) ≤ ((alt.getD i 0 : ℚ) : ℝ) := by exact_mod_cast (hb i hi).1
  have h2 : ((alt.getD i 0 : ℚ) : ℝ) ≤ 150000 := by exact_mod_cast (hb i hi).2
  have key : ∀ col, (interp col).call (interp col).eval ((alt.getD i 0 : ℚ) : ℝ)
      = some ((col.getD i 0 : ℚ) : ℝ) := by
    intro col
    rw [call_eq col _ h1 h2]
    have := Spline.eval_node (sorted col) (by rw [interp_n]; omega) (i := i) (by rw [interp_n]; omega)
    rw [interp_x] at this
    rw [this]; rfl
  cases o with
  | Ts => exact key T
  | Ps => exact key P
  | rhos => exact key rho
  | drhos_dalt => exact absurd rfl ho

/-- The value of an output as a number. -/
noncomputable def val (o : O) (a : ℝ) : ℝ := (compute a o).getD 0
/-- The declared partial as a number. -/
noncomputable def dval (o : O) (a : ℝ) : ℝ := (partials a o).getD 0

theorem val_eq {a : ℝ} (h1 : -1000 ≤ a) (h2 : a ≤ 150000) :
    val .Ts a = (interp T).eval a ∧ val .Ps a = (interp P).eval a ∧ val .rhos a = (interp rho).eval a
    ∧ val .drhos_dalt a = (interp rho).eval1 a := by
  simp only [val, compute, call_eq _ _ h1 h2, Option.getD_some, and_self]

theorem dval_eq {a : ℝ} (h1 : -1000 ≤ a) (h2 : a ≤ 150000) :
    dval .Ts a = (interp T).eval1 a ∧ dval .Ps a = (interp P).eval1 a
    ∧ dval .rhos a = (interp rho).eval1 a ∧ dval .drhos_dalt a = (interp rho).eval2 a := by
  simp only [dval, partials, call_eq _ _ h1 h2, Option.getD_some, and_self]

theorem inner {a : ℝ} (h1 : -1000 < a) (h2 : a < 150000) {f g : ℝ → ℝ} {d : ℝ}
    (hfg : ∀ b, -1000 ≤ b → b ≤ 150000 → f b = g b) (hg : HasDerivAt g d a) : HasDerivAt f d a := by
  refine hg.congr_of_eventuallyEq ?_
  filter_upwards [Ioo_mem_nhds h1 h2] with b hb
  exact hfg b hb.1.le hb.2.le

/-- **C38 (partials).** At every altitude inside the table, nodes included, the declared partials of
temperature, pressure and density are exact, and the output `drhos_dalt` is the derivative of the
density; between nodes its declared partial is exact too. -/
theorem C38_partials (a : ℝ) (h1 : -1000 < a) (h2 : a < 150000) :
    (∀ o, o ≠ .drhos_dalt → HasDerivAt (val o) (dval o a) a)
    ∧ HasDerivAt (val .rhos) (val .drhos_dalt a) a
    ∧ (∀ i < 111, ((alt.getD i 0 : ℚ) : ℝ) < a → a < ((alt.getD (i + 1) 0 : ℚ) : ℝ) →
        HasDerivAt (val .drhos_dalt) (dval .drhos_dalt a) a) := by
  have hd : ∀ col, HasDerivAt (interp col).eval ((interp col).eval1 a) a := fun col =>
    Spline.eval_hasDerivAt (sorted col) (by rw [x_first]; exact h1) (by rw [x_last]; exact h2)
  have hv := dval_eq h1.le h2.le
  refine ⟨?_, ?_, ?_⟩
  · intro o ho
    cases o with
    | Ts => rw [hv.1]; exact inner h1 h2 (fun b p q => (val_eq p q).1) (hd T)
    | Ps => rw [hv.2.1]; exact inner h1 h2 (fun b p q => (val_eq p q).2.1) (hd P)
    | rhos => rw [hv.2.2.1]; exact inner h1 h2 (fun b p q => (val_eq p q).2.2.1) (hd rho)
    | drhos_dalt => exact absurd rfl ho
  · rw [(val_eq h1.le h2.le).2.2.2]
    exact inner h1 h2 (fun b p q => (val_eq p q).2.2.1) (hd rho)
  · intro i hi hl hr
    rw [hv.2.2.2]
    exact inner h1 h2 (fun b p q => (val_eq p q).2.2.2)
      (Spline.eval1_hasDerivAt (sorted rho) (i := i) (by rw [interp_n]; exact hi) hl hr)

/-- The second derivatives of the density polynomials on both sides of a node, in rationals. -/
def kink (ys ds : List ℚ) (k : ℕ) : ℚ :=
  let h0 := alt.getD (k + 1) 0 - alt.getD k 0
  let s0 := (ys.getD (k + 1) 0 - ys.getD k 0) / h0
  let h1 := alt.getD (k + 2) 0 - alt.getD (k + 1) 0
  let s1 := (ys.getD (k + 2) 0 - ys.getD (k + 1) 0) / h1
  let d0 := ds.getD k 0
  let d1 := ds.getD (k + 1) 0
  let d2 := ds.getD (k + 2) 0
  (6 * ((d0 + d1 - 2 * s0) / h0 / h0) * h0 + 2 * ((s0 - d0) / h0 - (d0 + d1 - 2 * s0) / h0))
    - 2 * ((s1 - d1) / h1 - (d1 + d2 - 2 * s1) / h1)

/-- **C38 (density curvature).** `drhos_dalt` has a corner at 36000 ft: it is not differentiable there,
so the declared partial cannot be right at that altitude. -/
theorem C38_refuted_drho : ¬ DifferentiableAt ℝ (val .drhos_dalt) 36000 := by
  intro hd
  have hx : (interp rho).x (36 + 1) = 36000 := by
    have : alt.getD 37 0 = 36000 := by decide +kernel
    show ((alt.getD 37 0 : ℚ) : ℝ) = _
    rw [this]; norm_num
  have hd' : DifferentiableAt ℝ (interp rho).eval1 ((interp rho).x (36 + 1)) := by
    rw [hx]
    exact (inner (f := (interp rho).eval1) (g := val .drhos_dalt) (by norm_num) (by norm_num)
      (fun b p q => ((val_eq p q).2.2.2).symm) hd.hasDerivAt).differentiableAt
  rw [Spline.eval1_node (sorted rho) (by rw [interp_n]; omega)] at hd'
  have hq : kink rho (akimaSlopes alt rho) 36 ≠ 0 := by decide +kernel
  apply hq
  have : ((kink rho (akimaSlopes alt rho) 36 : ℚ) : ℝ)
      = (interp rho).piece2 36 ((interp rho).x (36 + 1))
        - (interp rho).piece2 (36 + 1) ((interp rho).x (36 + 1)) := by
    simp only [Spline.piece2, Spline.c3, Spline.c2, Spline.sec, sub_self, mul_zero, zero_add]
    simp only [interp, tableSpline, kink]
    push_cast
    rfl
  rw [hd', sub_self] at this
  exact_mod_cast this

/-! ## Monotonicity -/

/-- The sufficient condition for a decreasing interval, in rationals. -/
def DecrQ (ys ds : List ℚ) (i : ℕ) : Prop :=
  ys.getD (i + 1) 0 < ys.getD i 0
  ∧ 3 * ((ys.getD (i + 1) 0 - ys.getD i 0) / (alt.getD (i + 1) 0 - alt.getD i 0)) < ds.getD i 0
  ∧ ds.getD i 0 ≤ 0
  ∧ 3 * ((ys.getD (i + 1) 0 - ys.getD i 0) / (alt.getD (i + 1) 0 - alt.getD i 0)) ≤ ds.getD (i + 1) 0
  ∧ ds.getD (i + 1) 0 ≤ 0

instance (ys ds i) : Decidable (DecrQ ys ds i) := by unfold DecrQ; infer_instance

/-- The increasing counterpart. -/
def IncrQ (ys ds : List ℚ) (i : ℕ) : Prop :=
  -ys.getD (i + 1) 0 < -ys.getD i 0
  ∧ 3 * ((-ys.getD (i + 1) 0 - -ys.getD i 0) / (alt.getD (i + 1) 0 - alt.getD i 0)) < -ds.getD i 0
  ∧ -ds.getD i 0 ≤ 0
  ∧ 3 * ((-ys.getD (i + 1) 0 - -ys.getD i 0) / (alt.getD (i + 1) 0 - alt.getD i 0))
      ≤ -ds.getD (i + 1) 0
  ∧ -ds.getD (i + 1) 0 ≤ 0

instance (ys ds i) : Decidable (IncrQ ys ds i) := by unfold IncrQ; infer_instance

theorem decr_of (col : List ℚ) (i : ℕ) (h : DecrQ col (akimaSlopes alt col) i) :
    (interp col).DecrAt i := by
  obtain ⟨a, b, c, d, e⟩ := h
  refine ⟨?_, ?_, ?_, ?_, ?_⟩ <;> simp only [Spline.sec, interp, tableSpline]
  · exact_mod_cast a
  · exact_mod_cast b
  · exact_mod_cast c
  · exact_mod_cast d
  · exact_mod_cast e

theorem incr_of (col : List ℚ) (i : ℕ) (h : IncrQ col (akimaSlopes alt col) i) :
    (interp col).neg.DecrAt i := by
  obtain ⟨a, b, c, d, e⟩ := h
  refine ⟨?_, ?_, ?_, ?_, ?_⟩ <;> simp only [Spline.sec, interp, tableSpline, Spline.neg]
  · exact_mod_cast a
  · exact_mod_cast b
  · exact_mod_cast c
  · exact_mod_cast d
  · exact_mod_cast e

theorem rho_decr : ∀ i < 111, DecrQ rho (akimaSlopes alt rho) i := by decide +kernel
theorem P_decr : ∀ i < 111, i ≠ 19 → DecrQ P (akimaSlopes alt P) i := by decide +kernel
theorem T_decr : ∀ i < 37, DecrQ T (akimaSlopes alt T) i := by decide +kernel
theorem T_incr : ∀ i < 111, 66 ≤ i → IncrQ T (akimaSlopes alt T) i := by decide +kernel
theorem T_const : ∀ i < 66, 38 ≤ i → T.getD (i + 1) 0 = T.getD i 0
    ∧ (akimaSlopes alt T).getD i 0 = 0 ∧ (akimaSlopes alt T).getD (i + 1) 0 = 0
    ∧ T.getD i 0 = 389.97 := by decide +kernel

theorem node (col : List ℚ) (i : ℕ) (q : ℚ) (h : alt.getD i 0 = q) : (interp col).x i = (q : ℝ) := by
  rw [interp_x, h]

theorem anti_between (col : List ℚ) (a b : ℕ) (qa qb : ℚ) (ha : alt.getD a 0 = qa)
    (hb : alt.getD b 0 = qb) (hab : a ≤ b) (hb' : b ≤ 111)
    (hd : ∀ i, a ≤ i → i < b → DecrQ col (akimaSlopes alt col) i) :
    StrictAntiOn (interp col).eval (Set.Icc (qa : ℝ) qb) := by
  have := Spline.strictAntiOn (sorted col) hab (by rw [interp_n]; exact hb')
    (fun i p q => decr_of col i (hd i p q))
  rwa [node col a qa ha, node col b qb hb] at this

/-- **C38 (density).** The interpolated density decreases strictly with altitude over the whole
table, and is positive at every tabulated altitude. -/
theorem C38_density :
    StrictAntiOn (val .rhos) (Set.Icc (-1000) 150000) ∧ ∀ a ∈ Set.Icc (-1000 : ℝ) 150000, 0 < val .rhos a := by
  have h := anti_between rho 0 111 (-1000) 150000 (by decide +kernel) (by decide +kernel) (by omega)
    le_rfl (fun i _ hi => rho_decr i hi)
  have h' : StrictAntiOn (val .rhos) (Set.Icc (-1000) 150000) := by
    intro x hx y hy hxy
    rw [(val_eq hx.1 hx.2).2.2.1, (val_eq hy.1 hy.2).2.2.1]
    exact h (by exact_mod_cast hx) (by exact_mod_cast hy) hxy
  refine ⟨h', fun a ha => ?_⟩
  have hl : val .rhos 150000 = ((rho.getD 111 0 : ℚ) : ℝ) := by
    have := C38_table 111 (by omega) .rhos (by simp)
    have e : alt.getD 111 0 = 150000 := by decide +kernel
    rw [e] at this
    unfold val
    rw [show ((150000 : ℝ)) = ((150000 : ℚ) : ℝ) by norm_num, this]; rfl
  have hp : (0 : ℝ) < ((rho.getD 111 0 : ℚ) : ℝ) := by
    have : (0 : ℚ) < rho.getD 111 0 := by decide +kernel
    exact_mod_cast this
  have hle : val .rhos 150000 ≤ val .rhos a := h'.antitoneOn ha ⟨by norm_num, le_rfl⟩ ha.2
  linarith

/-- **C38 (pressure).** The pressure is larger at 19000 ft than at 18000 ft: a wrong table entry. -/
theorem C38_refuted :
    ¬ StrictAntiOn (val .Ps) (Set.Icc (-1000) 150000)
    ∧ compute 18000 .Ps = some 7.33889 ∧ compute 19000 .Ps = some 7.4123 := by
  have e1 : compute 18000 .Ps = some 7.33889 := by
    have := C38_table 19 (by omega) .Ps (by simp)
    have a : alt.getD 19 0 = 18000 := by decide +kernel
    have b : (column .Ps).getD 19 0 = 7.33889 := by decide +kernel
    rw [a, b] at this; norm_num at this ⊢; exact this
  have e2 : compute 19000 .Ps = some 7.4123 := by
    have := C38_table 20 (by omega) .Ps (by simp)
    have a : alt.getD 20 0 = 19000 := by decide +kernel
    have b : (column .Ps).getD 20 0 = 7.4123 := by decide +kernel
    rw [a, b] at this; norm_num at this ⊢; exact this
  refine ⟨fun h => ?_, e1, e2⟩
  have := h (a := 18000) ⟨by norm_num, by norm_num⟩ (b := 19000) ⟨by norm_num, by norm_num⟩ (by norm_num)
  unfold val at this
  rw [e1, e2] at this
  norm_num at this

/-- **C38 (pressure, elsewhere).** Outside the interval of the wrong entry the interpolated pressure is
strictly decreasing: from -1000 to 18000 ft and from 19000 to 150000 ft. -/
theorem C38_pressure_partial :
    StrictAntiOn (val .Ps) (Set.Icc (-1000) 18000) ∧ StrictAntiOn (val .Ps) (Set.Icc 19000 150000) := by
  have h1 := anti_between P 0 19 (-1000) 18000 (by decide +kernel) (by decide +kernel) (by omega)
    (by omega) (fun i _ hi => P_decr i (by omega) (by omega))
  have h2 := anti_between P 20 111 19000 150000 (by decide +kernel) (by decide +kernel) (by omega)
    (by omega) (fun i h hi => P_decr i (by omega) (by omega))
  constructor
  · intro x hx y hy hxy
    rw [(val_eq hx.1 (hx.2.trans (by norm_num))).2.1, (val_eq hy.1 (hy.2.trans (by norm_num))).2.1]
    exact h1 (by exact_mod_cast hx) (by exact_mod_cast hy) hxy
  · intro x hx y hy hxy
    rw [(val_eq (by linarith [hx.1]) hx.2).2.1, (val_eq (by linarith [hy.1]) hy.2).2.1]
    exact h2 (by exact_mod_cast hx) (by exact_mod_cast hy) hxy

/-- **C38 (temperature).** Strictly decreasing up to 36000 ft, constant from 37000 to 65000 ft,
strictly increasing from there on. -/
theorem C38_temperature :
    StrictAntiOn (val .Ts) (Set.Icc (-1000) 36000)
    ∧ (∀ a ∈ Set.Icc (37000 : ℝ) 65000, val .Ts a = 389.97)
    ∧ StrictMonoOn (val .Ts) (Set.Icc 65000 150000) := by
  have h1 := anti_between T 0 37 (-1000) 36000 (by decide +kernel) (by decide +kernel) (by omega)
    (by omega) (fun i _ hi => T_decr i hi)
  have h2 := Spline.strictMonoOn (sorted T) (a := 66) (b := 111) (by omega) (by rw [interp_n])
    (fun i p q => incr_of T i (T_incr i q p))
  rw [node T 66 65000 (by decide +kernel), node T 111 150000 (by decide +kernel)] at h2
  refine ⟨?_, ?_, ?_⟩
  · intro x hx y hy hxy
    rw [(val_eq hx.1 (hx.2.trans (by norm_num))).1, (val_eq hy.1 (hy.2.trans (by norm_num))).1]
    exact h1 (by exact_mod_cast hx) (by exact_mod_cast hy) hxy
  · intro a ha
    rw [(val_eq (by linarith [ha.1]) (by linarith [ha.2])).1]
    have e : ∀ i, 38 ≤ i → i < 66 → (interp T).x i ≤ a → a ≤ (interp T).x (i + 1) →
        (interp T).eval a = 389.97 := by
      intro i p q r s
      obtain ⟨c1, c2, c3, c4⟩ := T_const i q p
      rw [Spline.eval_const (sorted T) (i := i) (by rw [interp_n]; omega) (by
          simp only [interp, tableSpline]; rw [c1]) (by simp only [interp, tableSpline]; rw [c2]; simp)
        (by simp only [interp, tableSpline]; rw [c3]; simp) r s]
      simp only [interp, tableSpline]; rw [c4]; norm_num
    rcases eq_or_lt_of_le ha.2 with rfl | hlt
    · refine e 65 (by omega) (by omega) ?_ ?_
      · rw [node T 65 64000 (by decide +kernel)]; norm_num
      · rw [node T (65 + 1) 65000 (by decide +kernel)]; norm_num
    · have h38 : (interp T).x 38 = 37000 := by rw [node T 38 37000 (by decide +kernel)]; norm_num
      have h66 : (interp T).x 66 = 65000 := by rw [node T 66 65000 (by decide +kernel)]; norm_num
      obtain ⟨i, hi, a1, a2, -⟩ := Spline.exists_interval (sorted T) (X := a)
        (by rw [x_first]; linarith [ha.1]) (by rw [x_last]; linarith)
      have hi1 : 38 ≤ i := by
        by_contra hc
        have := (sorted T).le (show i + 1 ≤ 38 by omega) (by rw [interp_n]; omega)
        rw [h38] at this; linarith [ha.1]
      have hi2 : i < 66 := by
        by_contra hc
        have := (sorted T).le (show 66 ≤ i by omega) hi.le
        rw [h66] at this; linarith
      exact e i hi1 hi2 a1 a2.le
  · intro x hx y hy hxy
    rw [(val_eq (by linarith [hx.1]) hx.2).1, (val_eq (by linarith [hy.1]) hy.2).1]
    exact h2 (by exact_mod_cast hx) (by exact_mod_cast hy) hxy

/-- **C38 (tropopause undershoot).** Between 36000 and 37000 ft the interpolant drops below the
tropopause temperature (389.97 degR), the smallest entry of the table, by more than a quarter degree:
the lapse is not monotone there. -/
theorem C38_refuted_undershoot :
    (∀ t ∈ T, 389.97 ≤ t) ∧ val .Ts 36500 < 389.97 - 0.25
    ∧ ¬ AntitoneOn (val .Ts) (Set.Icc (-1000) 65000) := by
  have h0 : ∀ t ∈ T, 389.97 ≤ t := by decide +kernel
  have hq : ((T.getD 37 0 + T.getD 38 0) / 2
      + 125 * ((akimaSlopes alt T).getD 37 0 - (akimaSlopes alt T).getD 38 0)) < 389.97 - 0.25 := by
    decide +kernel
  have h36 : (interp T).x 37 = 36000 := by rw [node T 37 36000 (by decide +kernel)]; norm_num
  have h37 : (interp T).x (37 + 1) = 37000 := by
    rw [node T (37 + 1) 37000 (by decide +kernel)]; norm_num
  have hv : val .Ts 36500 < 389.97 - 0.25 := by
    rw [(val_eq (by norm_num) (by norm_num)).1,
      Spline.eval_eq_piece (sorted T) (i := 37) (by rw [interp_n]; omega) (by rw [h36]; norm_num)
        (by rw [h37]; norm_num)]
    have e : (interp T).piece 37 36500 = (((T.getD 37 0 + T.getD 38 0) / 2
      + 125 * ((akimaSlopes alt T).getD 37 0 - (akimaSlopes alt T).getD 38 0) : ℚ) : ℝ) := by
      simp only [Spline.piece, Spline.c3, Spline.c2, Spline.sec, h36, h37]
      simp only [interp, tableSpline]
      push_cast
      ring
    rw [e]
    have : (((389.97 - 0.25 : ℚ)) : ℝ) = 389.97 - 0.25 := by norm_num
    rw [← this]
    exact_mod_cast hq
  refine ⟨h0, hv, fun h => ?_⟩
  have h1 := h (a := 36500) ⟨by norm_num, by norm_num⟩ (b := 37000) ⟨by norm_num, by norm_num⟩
    (by norm_num)
  rw [C38_temperature.2.1 37000 ⟨le_rfl, by norm_num⟩] at h1
  linarith

/-! ## Gas law -/

/-- **C38 (gas law).** With the specific gas constant of air, 1716.55 ft·lbf/(slug·degR), every row of
the table but one obeys `144 P = ρ R T` to 0.02 %; the row at 19000 ft is off by more than 5 %. -/
theorem C38_gas_law :
    (∀ i < 112, i ≠ 20 → |144 * P.getD i 0 - 1716.55 * rho.getD i 0 * T.getD i 0|
        ≤ 0.0002 * (1716.55 * rho.getD i 0 * T.getD i 0))
    ∧ 1.05 * (1716.55 * rho.getD 20 0 * T.getD 20 0) < 144 * P.getD 20 0 := by
  decide +kernel

/-- **C38 (off-standard days).** `Ambient` adds the temperature offset to the temperature only; the
density it reports is still that of the standard day, so for a given altitude the ideal gas law can
hold for at most one offset. -/
theorem C38_ambient (a dTs : ℝ) :
    (∀ t, compute a .Ts = some t → ambient a dTs .Ts = some (t + dTs))
    ∧ ambient a dTs .Ps = compute a .Ps ∧ ambient a dTs .rhos = compute a .rhos
    ∧ ∀ (R : ℝ) (d1 d2 t1 t2 p r : ℝ), R ≠ 0 → -1000 ≤ a → a ≤ 150000 →
        ambient a d1 .Ts = some t1 → ambient a d2 .Ts = some t2 → compute a .Ps = some p →
        compute a .rhos = some r → 144 * p = r * R * t1 → 144 * p = r * R * t2 → d1 = d2 := by
  refine ⟨fun t ht => by simp [ambient, ht], rfl, rfl, ?_⟩
  intro R d1 d2 t1 t2 p r hR ha hb h1 h2 _ h4 e1 e2
  have hr : 0 < r := by
    have := C38_density.2 a ⟨ha, hb⟩
    unfold val at this; rw [h4] at this; exact this
  have ht : t1 = t2 := mul_left_cancel₀ (mul_ne_zero hr.ne' hR) (e1.symm.trans e2)
  simp only [ambient, Option.map_eq_some_iff] at h1 h2
  obtain ⟨s1, hs1, rfl⟩ := h1
  obtain ⟨s2, hs2, rfl⟩ := h2
  rw [hs1] at hs2
  have := Option.some.inj hs2
  linarith

/-- The domain is inhabited: standard sea level. -/
example : compute 0 .Ts = some 518.67 := by
  have := C38_table 1 (by omega) .Ts (by simp)
  have a : alt.getD 1 0 = 0 := by decide +kernel
  have b : (column .Ts).getD 1 0 = 518.67 := by decide +kernel
  rw [a, b] at this; norm_num at this ⊢; exact this

end PyCycle.Atm
