import Verif.Model.Akima
import Verif.Lemmas.HasD
import Mathlib.Analysis.Calculus.Deriv.MeanValue
import Mathlib.Order.Interval.Set.LinearOrder
import Mathlib.Order.Monotone.Union

/-! # Facts about piecewise cubics -/

namespace PyCycle.Spline

variable (S : Spline)

/-- Increasing nodes. -/
def Sorted : Prop := ∀ i, i < S.n → S.x i < S.x (i + 1)

variable {S}

theorem Sorted.lt (h : S.Sorted) {i j : ℕ} (hij : i < j) (hj : j ≤ S.n) : S.x i < S.x j := by
  induction j with
  | zero => omega
  | succ j ih =>
    have h1 := h j (by omega)
    rcases Nat.lt_or_ge i j with hlt | hge
    · exact (ih hlt (by omega)).trans h1
    · have : i = j := by omega
      subst this; exact h1

theorem Sorted.le (h : S.Sorted) {i j : ℕ} (hij : i ≤ j) (hj : j ≤ S.n) : S.x i ≤ S.x j := by
  rcases Nat.lt_or_ge i j with hlt | hge
  · exact (h.lt hlt hj).le
  · have : i = j := by omega
    subst this; exact le_rfl

theorem idx_eq (h : S.Sorted) {i : ℕ} (hi : i < S.n) {X : ℝ} (h1 : S.x i ≤ X)
    (h2 : X < S.x (i + 1)) : S.idx X = i := by
  unfold idx
  rw [Nat.findGreatest_eq_iff]
  refine ⟨by omega, fun _ => h1, fun {k} hk hk' => ?_⟩
  have := h.le (show i + 1 ≤ k by omega) (show k ≤ S.n by omega)
  exact not_le.2 (h2.trans_le this)

theorem idx_last (h : S.Sorted) (hn : 0 < S.n) {X : ℝ} (hX : S.x (S.n - 1) ≤ X) :
    S.idx X = S.n - 1 := by
  unfold idx
  rw [Nat.findGreatest_eq_iff]
  exact ⟨le_rfl, fun _ => hX, fun {k} hk hk' => by omega⟩

/-- Every point of the table but the last lies in exactly one half-open interval. -/
theorem exists_interval (h : S.Sorted) {X : ℝ} (h0 : S.x 0 ≤ X) (h1 : X < S.x S.n) :
    ∃ i, i < S.n ∧ S.x i ≤ X ∧ X < S.x (i + 1) ∧ S.idx X = i := by
  have key : ∀ k, k ≤ S.n → X < S.x k → ∃ i, i < k ∧ S.x i ≤ X ∧ X < S.x (i + 1) := by
    intro k
    induction k with
    | zero => intro _ h; exact absurd h0 (not_le.2 h)
    | succ k ih =>
      intro hk hX
      rcases lt_or_ge X (S.x k) with hlt | hge
      · obtain ⟨i, a, b⟩ := ih (by omega) hlt
        exact ⟨i, by omega, b⟩
      · exact ⟨k, by omega, hge, hX⟩
  obtain ⟨i, hi, a, b⟩ := key S.n le_rfl h1
  exact ⟨i, hi, a, b, idx_eq h hi a b⟩

theorem piece_left (i : ℕ) : S.piece i (S.x i) = S.y i := by simp [piece]
theorem piece1_left (i : ℕ) : S.piece1 i (S.x i) = S.d i := by simp [piece1]

theorem piece_right (h : S.Sorted) {i : ℕ} (hi : i < S.n) : S.piece i (S.x (i + 1)) = S.y (i + 1) := by
  have : S.x (i + 1) - S.x i ≠ 0 := sub_ne_zero.2 (h i hi).ne'
  simp only [piece, c3, c2, sec]
  field_simp
  ring

theorem piece1_right (h : S.Sorted) {i : ℕ} (hi : i < S.n) :
    S.piece1 i (S.x (i + 1)) = S.d (i + 1) := by
  have : S.x (i + 1) - S.x i ≠ 0 := sub_ne_zero.2 (h i hi).ne'
  simp only [piece1, c3, c2, sec]
  field_simp
  ring

theorem piece_deriv (i : ℕ) (X : ℝ) : HasDerivAt (S.piece i) (S.piece1 i X) X := by
  unfold piece piece1
  hd (assumption) (simp; ring1)

theorem piece1_deriv (i : ℕ) (X : ℝ) : HasDerivAt (S.piece1 i) (S.piece2 i X) X := by
  unfold piece1 piece2
  hd (assumption) (simp; ring1)

/-- On a closed interval the interpolant is its polynomial. -/
theorem eval_eq_piece (h : S.Sorted) {i : ℕ} (hi : i < S.n) {X : ℝ} (h1 : S.x i ≤ X)
    (h2 : X ≤ S.x (i + 1)) : S.eval X = S.piece i X := by
  rcases lt_or_eq_of_le h2 with hlt | rfl
  · unfold eval; rw [idx_eq h hi h1 hlt]
  · unfold eval
    rcases Nat.lt_or_ge (i + 1) S.n with hlt | hge
    · rw [idx_eq h hlt le_rfl (h _ hlt), piece_left, piece_right h hi]
    · have : S.n = i + 1 := by omega
      rw [idx_last h (by omega) (by rw [this]; exact h1), this, Nat.add_sub_cancel]

theorem eval1_eq_piece1 (h : S.Sorted) {i : ℕ} (hi : i < S.n) {X : ℝ} (h1 : S.x i ≤ X)
    (h2 : X ≤ S.x (i + 1)) : S.eval1 X = S.piece1 i X := by
  rcases lt_or_eq_of_le h2 with hlt | rfl
  · unfold eval1; rw [idx_eq h hi h1 hlt]
  · unfold eval1
    rcases Nat.lt_or_ge (i + 1) S.n with hlt | hge
    · rw [idx_eq h hlt le_rfl (h _ hlt), piece1_left, piece1_right h hi]
    · have : S.n = i + 1 := by omega
      rw [idx_last h (by omega) (by rw [this]; exact h1), this, Nat.add_sub_cancel]

/-- The interpolant takes the tabulated values. -/
theorem eval_node (h : S.Sorted) (hn : 0 < S.n) {i : ℕ} (hi : i ≤ S.n) : S.eval (S.x i) = S.y i := by
  rcases Nat.lt_or_ge i S.n with hlt | hge
  · rw [eval_eq_piece h hlt le_rfl (h i hlt).le, piece_left]
  · obtain ⟨k, hk⟩ : ∃ k, i = k + 1 := ⟨i - 1, by omega⟩
    subst hk
    rw [eval_eq_piece h (show k < S.n by omega) (h k (by omega)).le le_rfl,
      piece_right h (by omega)]

/-- Gluing: a function equal to a piece on each side of an interior node, and to a piece near every
other interior point, has the piece's derivative as soon as the pieces' derivatives agree there. -/
theorem hasDerivAt_glue (h : S.Sorted) (g g' : ℕ → ℝ → ℝ) (F F' : ℝ → ℝ)
    (hg : ∀ i X, HasDerivAt (g i) (g' i X) X)
    (hF : ∀ i, i < S.n → ∀ X, S.x i ≤ X → X ≤ S.x (i + 1) → F X = g i X)
    (hF' : ∀ i, i < S.n → ∀ X, S.x i ≤ X → X ≤ S.x (i + 1) → F' X = g' i X)
    {X : ℝ} (h0 : S.x 0 < X) (h1 : X < S.x S.n) : HasDerivAt F (F' X) X := by
  obtain ⟨i, hi, a, b, -⟩ := exists_interval h h0.le h1
  rcases lt_or_eq_of_le a with hlt | rfl
  · rw [hF' i hi X hlt.le b.le]
    refine (hg i X).congr_of_eventuallyEq ?_
    filter_upwards [Ioo_mem_nhds hlt b] with Y hY
    exact hF i hi Y hY.1.le hY.2.le
  · obtain ⟨k, rfl⟩ : ∃ k, i = k + 1 := ⟨i - 1, by
      rcases Nat.eq_zero_or_pos i with rfl | hp
      · exact absurd h0 (lt_irrefl _)
      · omega⟩
    have hk : k < S.n := by omega
    have hL : HasDerivWithinAt F (F' (S.x (k + 1))) (Set.Iic (S.x (k + 1))) (S.x (k + 1)) := by
      rw [hF' k hk _ (h k hk).le le_rfl]
      refine (hg k _).hasDerivWithinAt.congr_of_eventuallyEq ?_ (hF k hk _ (h k hk).le le_rfl)
      filter_upwards [self_mem_nhdsWithin, mem_nhdsWithin_of_mem_nhds (Ioi_mem_nhds (h k hk))]
        with Y hY hY'
      exact hF k hk Y (le_of_lt hY') hY
    have hR : HasDerivWithinAt F (F' (S.x (k + 1))) (Set.Ici (S.x (k + 1))) (S.x (k + 1)) := by
      rw [hF' (k + 1) hi _ le_rfl (h _ hi).le]
      refine (hg (k + 1) _).hasDerivWithinAt.congr_of_eventuallyEq ?_ (hF _ hi _ le_rfl (h _ hi).le)
      filter_upwards [self_mem_nhdsWithin, mem_nhdsWithin_of_mem_nhds (Iio_mem_nhds (h _ hi))]
        with Y hY hY'
      exact hF _ hi Y hY (le_of_lt hY')
    have := hL.union hR
    rw [Set.Iic_union_Ici] at this
    exact hasDerivWithinAt_univ.1 this

/-- The reported first derivative is the derivative of the interpolant, everywhere inside the table. -/
theorem eval_hasDerivAt (h : S.Sorted) {X : ℝ} (h0 : S.x 0 < X) (h1 : X < S.x S.n) :
    HasDerivAt S.eval (S.eval1 X) X :=
  hasDerivAt_glue h S.piece S.piece1 S.eval S.eval1 piece_deriv
    (fun _ hi _ a b => eval_eq_piece h hi a b) (fun _ hi _ a b => eval1_eq_piece1 h hi a b) h0 h1

/-- The reported second derivative is the derivative of the first one away from the nodes. -/
theorem eval1_hasDerivAt (h : S.Sorted) {i : ℕ} (hi : i < S.n) {X : ℝ} (h1 : S.x i < X)
    (h2 : X < S.x (i + 1)) : HasDerivAt S.eval1 (S.eval2 X) X := by
  have : S.eval2 X = S.piece2 i X := by unfold eval2; rw [idx_eq h hi h1.le h2]
  rw [this]
  refine (piece1_deriv i X).congr_of_eventuallyEq ?_
  filter_upwards [Ioo_mem_nhds h1 h2] with Y hY
  exact eval1_eq_piece1 h hi hY.1.le hY.2.le

/-- At an interior node the first derivative is differentiable exactly when the second derivatives of
the two neighbouring polynomials agree. -/
theorem eval1_node (h : S.Sorted) {k : ℕ} (hk : k + 1 < S.n) :
    DifferentiableAt ℝ S.eval1 (S.x (k + 1)) ↔
      S.piece2 k (S.x (k + 1)) = S.piece2 (k + 1) (S.x (k + 1)) := by
  have hk0 : k < S.n := by omega
  have hL : HasDerivWithinAt S.eval1 (S.piece2 k (S.x (k + 1))) (Set.Iic (S.x (k + 1)))
      (S.x (k + 1)) := by
    refine (piece1_deriv k _).hasDerivWithinAt.congr_of_eventuallyEq ?_
      (eval1_eq_piece1 h hk0 (h k hk0).le le_rfl)
    filter_upwards [self_mem_nhdsWithin, mem_nhdsWithin_of_mem_nhds (Ioi_mem_nhds (h k hk0))]
      with Y hY hY'
    exact eval1_eq_piece1 h hk0 (le_of_lt hY') hY
  have hR : HasDerivWithinAt S.eval1 (S.piece2 (k + 1) (S.x (k + 1))) (Set.Ici (S.x (k + 1)))
      (S.x (k + 1)) := by
    refine (piece1_deriv (k + 1) _).hasDerivWithinAt.congr_of_eventuallyEq ?_
      (eval1_eq_piece1 h hk le_rfl (h _ hk).le)
    filter_upwards [self_mem_nhdsWithin, mem_nhdsWithin_of_mem_nhds (Iio_mem_nhds (h _ hk))]
      with Y hY hY'
    exact eval1_eq_piece1 h hk hY (le_of_lt hY')
  constructor
  · intro hd
    have e1 := (uniqueDiffWithinAt_Iic (S.x (k + 1))).eq_deriv _ hL
      hd.hasDerivAt.hasDerivWithinAt
    have e2 := (uniqueDiffWithinAt_Ici (S.x (k + 1))).eq_deriv _ hR
      hd.hasDerivAt.hasDerivWithinAt
    rw [e1, e2]
  · intro e
    rw [← e] at hR
    have := hL.union hR
    rw [Set.Iic_union_Ici] at this
    exact (hasDerivWithinAt_univ.1 this).differentiableAt

/-! ## Monotonicity -/

/-- A sufficient condition for a cubic Hermite piece to be strictly decreasing. -/
def DecrAt (S : Spline) (i : ℕ) : Prop :=
  S.y (i + 1) < S.y i ∧ 3 * S.sec i < S.d i ∧ S.d i ≤ 0 ∧ 3 * S.sec i ≤ S.d (i + 1) ∧ S.d (i + 1) ≤ 0

theorem hermite_neg {s d0 d1 u : ℝ} (hs : s < 0) (h0 : 3 * s < d0) (h0' : d0 ≤ 0)
    (h1 : 3 * s ≤ d1) (h1' : d1 ≤ 0) (hu : 0 < u) (hu' : u < 1) :
    d0 * ((1 - u) * (1 - 3 * u)) + d1 * (u * (3 * u - 2)) + 6 * s * (u * (1 - u)) < 0 := by
  have hv : 0 < 1 - u := by linarith
  rcases le_or_gt u (1 / 3) with ha | ha
  · have a1 : d0 * ((1 - u) * (1 - 3 * u)) ≤ 0 :=
      mul_nonpos_of_nonpos_of_nonneg h0' (mul_nonneg hv.le (by linarith))
    have a2 : d1 * (u * (3 * u - 2)) ≤ 3 * s * (u * (3 * u - 2)) :=
      mul_le_mul_of_nonpos_right h1 (mul_nonpos_of_nonneg_of_nonpos hu.le (by linarith))
    have a3 : 3 * s * (u * (3 * u - 2)) + 6 * s * (u * (1 - u)) = 3 * s * (u * u) := by ring
    have a4 : 3 * s * (u * u) < 0 := mul_neg_of_neg_of_pos (by linarith) (mul_pos hu hu)
    linarith
  · have b1 : d0 * ((1 - u) * (1 - 3 * u)) < 3 * s * ((1 - u) * (1 - 3 * u)) :=
      mul_lt_mul_of_neg_right h0 (mul_neg_of_pos_of_neg hv (by linarith))
    rcases le_or_gt u (2 / 3) with hb | hb
    · have b2 : d1 * (u * (3 * u - 2)) ≤ 3 * s * (u * (3 * u - 2)) :=
        mul_le_mul_of_nonpos_right h1 (mul_nonpos_of_nonneg_of_nonpos hu.le (by linarith))
      have b3 : 3 * s * ((1 - u) * (1 - 3 * u)) + 3 * s * (u * (3 * u - 2)) + 6 * s * (u * (1 - u))
          = 3 * s * (1 - 2 * u) ^ 2 := by ring
      have b4 : 3 * s * (1 - 2 * u) ^ 2 ≤ 0 :=
        mul_nonpos_of_nonpos_of_nonneg (by linarith) (sq_nonneg _)
      linarith
    · have b2 : d1 * (u * (3 * u - 2)) ≤ 0 :=
        mul_nonpos_of_nonpos_of_nonneg h1' (mul_nonneg hu.le (by linarith))
      have b3 : 3 * s * ((1 - u) * (1 - 3 * u)) + 6 * s * (u * (1 - u)) = 3 * s * ((1 - u) * (1 - u)) := by
        ring
      have b4 : 3 * s * ((1 - u) * (1 - u)) < 0 :=
        mul_neg_of_neg_of_pos (by linarith) (mul_pos hv hv)
      linarith

theorem piece1_form (h : S.Sorted) {i : ℕ} (hi : i < S.n) (X : ℝ) :
    S.piece1 i X = S.d i * ((1 - (X - S.x i) / (S.x (i + 1) - S.x i))
        * (1 - 3 * ((X - S.x i) / (S.x (i + 1) - S.x i))))
      + S.d (i + 1) * ((X - S.x i) / (S.x (i + 1) - S.x i)
        * (3 * ((X - S.x i) / (S.x (i + 1) - S.x i)) - 2))
      + 6 * S.sec i * ((X - S.x i) / (S.x (i + 1) - S.x i)
        * (1 - (X - S.x i) / (S.x (i + 1) - S.x i))) := by
  have : S.x (i + 1) - S.x i ≠ 0 := sub_ne_zero.2 (h i hi).ne'
  simp only [piece1, c3, c2]
  generalize S.sec i = s
  field_simp
  ring

theorem piece_strictAnti (h : S.Sorted) {i : ℕ} (hi : i < S.n) (hd : S.DecrAt i) :
    StrictAntiOn S.eval (Set.Icc (S.x i) (S.x (i + 1))) := by
  have hh : 0 < S.x (i + 1) - S.x i := sub_pos.2 (h i hi)
  obtain ⟨hy, a, b, c, e⟩ := hd
  have hs : S.sec i < 0 := div_neg_of_neg_of_pos (by linarith) hh
  have hp : StrictAntiOn (S.piece i) (Set.Icc (S.x i) (S.x (i + 1))) := by
    refine strictAntiOn_of_deriv_neg (convex_Icc _ _)
      (fun X _ => (piece_deriv i X).continuousAt.continuousWithinAt) (fun X hX => ?_)
    rw [interior_Icc] at hX
    rw [(piece_deriv i X).deriv, piece1_form h hi]
    refine hermite_neg hs a b c e (div_pos (by linarith [hX.1]) hh) ?_
    rw [div_lt_one hh]; linarith [hX.2]
  intro X hX Y hY hXY
  rw [eval_eq_piece h hi hX.1 hX.2, eval_eq_piece h hi hY.1 hY.2]
  exact hp hX hY hXY

/-- If every interval from node `a` to node `b` satisfies the condition, the interpolant is strictly
decreasing between the two nodes. -/
theorem strictAntiOn (h : S.Sorted) {a b : ℕ} (hab : a ≤ b) (hb : b ≤ S.n)
    (hd : ∀ i, a ≤ i → i < b → S.DecrAt i) : StrictAntiOn S.eval (Set.Icc (S.x a) (S.x b)) := by
  induction b with
  | zero =>
    have : a = 0 := by omega
    subst this
    rw [Set.Icc_self]; intro X hX Y hY hXY
    rw [Set.mem_singleton_iff] at hX hY; subst hX; subst hY; exact absurd hXY (lt_irrefl _)
  | succ b ih =>
    rcases Nat.lt_or_ge b a with hlt | hge
    · have : a = b + 1 := by omega
      subst this
      rw [Set.Icc_self]; intro X hX Y hY hXY
      rw [Set.mem_singleton_iff] at hX hY; subst hX; subst hY; exact absurd hXY (lt_irrefl _)
    · have h1 := ih hge (by omega) (fun i p q => hd i p (by omega))
      have h2 := piece_strictAnti h (show b < S.n by omega) (hd b hge (by omega))
      have hx1 : S.x a ≤ S.x b := h.le hge (by omega)
      have hx2 : S.x b ≤ S.x (b + 1) := (h b (by omega)).le
      have := StrictAntiOn.union h1 h2 (isGreatest_Icc hx1) (isLeast_Icc hx2)
      rwa [Set.Icc_union_Icc_eq_Icc hx1 hx2] at this

/-- The mirrored spline. -/
def neg (S : Spline) : Spline := ⟨S.n, S.x, fun i => -S.y i, fun i => -S.d i⟩

theorem neg_eval (X : ℝ) : S.neg.eval X = -S.eval X := by
  have hi : S.neg.idx X = S.idx X := rfl
  simp only [eval, hi, piece, c3, c2, sec]
  simp only [neg]
  ring

/-- Strictly increasing between two nodes. -/
theorem strictMonoOn (h : S.Sorted) {a b : ℕ} (hab : a ≤ b) (hb : b ≤ S.n)
    (hd : ∀ i, a ≤ i → i < b → S.neg.DecrAt i) :
    StrictMonoOn S.eval (Set.Icc (S.x a) (S.x b)) := by
  have := strictAntiOn (S := S.neg) h hab hb hd
  intro X hX Y hY hXY
  have := this hX hY hXY
  rw [neg_eval, neg_eval] at this
  linarith

/-- Constant where values agree and slopes vanish. -/
theorem eval_const (h : S.Sorted) {i : ℕ} (hi : i < S.n) (h1 : S.y (i + 1) = S.y i) (h2 : S.d i = 0)
    (h3 : S.d (i + 1) = 0) {X : ℝ} (a : S.x i ≤ X) (b : X ≤ S.x (i + 1)) : S.eval X = S.y i := by
  rw [eval_eq_piece h hi a b]
  simp [piece, c3, c2, sec, h1, h2, h3]

end PyCycle.Spline
