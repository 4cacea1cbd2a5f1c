import Verif.Model.Akima
import Verif.Spec.AkimaRule
import Mathlib.Data.List.GetD
import Mathlib.Tactic.Ring
import Mathlib.Tactic.Linarith
import Mathlib.Tactic.FieldSimp
import Mathlib.Tactic.Positivity
import Mathlib.Tactic.IntervalCases

/-! # C38: the slopes of the interpolated tables, and what they reproduce exactly -/

namespace PyCycle
open AkimaRule

theorem secants_length : ∀ {xs ys : List ℚ}, xs.length = ys.length → (secants xs ys).length = xs.length - 1
  | [], _, _ => by simp [secants]
  | [x], ys, _ => by cases ys <;> simp [secants]
  | x :: x' :: xs, [], h => by simp at h
  | x :: x' :: xs, [y], h => by simp at h
  | x :: x' :: xs, y :: y' :: ys, h => by
    have := secants_length (xs := x' :: xs) (ys := y' :: ys) (by simpa using h)
    simp [secants, this]

theorem secants_getD : ∀ {xs ys : List ℚ} {i : ℕ}, xs.length = ys.length → i + 1 < xs.length →
    (secants xs ys).getD i 0 = (ys.getD (i + 1) 0 - ys.getD i 0) / (xs.getD (i + 1) 0 - xs.getD i 0)
  | [], _, _, _, h => by simp at h
  | [x], _, _, _, h => by simp at h
  | x :: x' :: xs, [], _, h, _ => by simp at h
  | x :: x' :: xs, [y], _, h, _ => by simp at h
  | x :: x' :: xs, y :: y' :: ys, i, h, hi => by
    cases i with
    | zero => simp [secants]
    | succ i =>
      have := secants_getD (xs := x' :: xs) (ys := y' :: ys) (i := i) (by simpa using h) (by simpa using hi)
      simpa [secants] using this

theorem fours_length (f : ℚ → ℚ → ℚ → ℚ → ℚ) : ∀ l : List ℚ, (fours f l).length = l.length - 3
  | [] => rfl
  | [_] => rfl
  | [_, _] => rfl
  | [_, _, _] => rfl
  | a :: b :: c :: e :: l => by
    have := fours_length f (b :: c :: e :: l)
    simp [fours, this]

theorem fours_getD (f : ℚ → ℚ → ℚ → ℚ → ℚ) : ∀ (l : List ℚ) (i : ℕ), i + 3 < l.length →
    (fours f l).getD i 0 = f (l.getD i 0) (l.getD (i + 1) 0) (l.getD (i + 2) 0) (l.getD (i + 3) 0)
  | [], _, h => by simp at h
  | [_], _, h => by simp at h
  | [_, _], _, h => by simp at h; omega
  | [_, _, _], _, h => by simp at h
  | a :: b :: c :: e :: l, i, h => by
    cases i with
    | zero => simp [fours]
    | succ i =>
      have := fours_getD f (b :: c :: e :: l) i (by simpa using h)
      simpa [fours] using this

theorem foldl_max_le {l : List ℚ} {a t : ℚ} : l.foldl max a ≤ t ↔ a ≤ t ∧ ∀ w ∈ l, w ≤ t := by
  induction l generalizing a with
  | nil => simp
  | cons x l ih => rw [List.foldl_cons, ih]; simp [and_assoc]

theorem foldl_max_lt {l : List ℚ} {a t : ℚ} : l.foldl max a < t ↔ a < t ∧ ∀ w ∈ l, w < t := by
  induction l generalizing a with
  | nil => simp
  | cons x l ih => rw [List.foldl_cons, ih]; simp [and_assoc]

/-- Secant `i` of a table. -/
def secant (xs ys : List ℚ) (i : ℕ) : ℚ := (ys.getD (i + 1) 0 - ys.getD i 0) / (xs.getD (i + 1) 0 - xs.getD i 0)

theorem akimaM_length {xs ys : List ℚ} (h : xs.length = ys.length) (h3 : 3 ≤ xs.length) :
    (akimaM xs ys).length = xs.length + 3 := by
  simp [akimaM, secants_length h]; omega

theorem akimaM_getD {xs ys : List ℚ} (h : xs.length = ys.length) (h3 : 3 ≤ xs.length) {j : ℕ} (hj : j < xs.length + 3) :
    (akimaM xs ys).getD j 0 = ext (xs.length - 1) (secant xs ys) j := by
  have hl := secants_length h
  have hs : ∀ i, i + 1 < xs.length → (secants xs ys).getD i 0 = secant xs ys i := fun i hi => secants_getD h hi
  have g0 := hs 0 (by omega)
  have g1 := hs 1 (by omega)
  have gk := hs (xs.length - 1 - 1) (by omega)
  have gk' := hs (xs.length - 1 - 2) (by omega)
  unfold akimaM ext
  simp only [hl, g0, g1, gk, gk']
  rcases Nat.lt_or_ge j 1 with h0 | h0
  · obtain rfl : j = 0 := by omega
    simp; ring
  rcases Nat.lt_or_ge j 2 with h1 | h1
  · obtain rfl : j = 1 := by omega
    simp; ring
  obtain ⟨i, rfl⟩ : ∃ i, j = i + 2 := ⟨j - 2, by omega⟩
  have e : ∀ (a b : ℚ) (l l' : List ℚ), (a :: b :: l ++ l').getD (i + 2) 0 = (l ++ l').getD i 0 := by
    intro a b l l'; simp
  rw [e]
  by_cases h2 : i < xs.length - 1
  · rw [List.getD_append _ _ _ _ (by rw [hl]; exact h2), hs i (by omega)]
    simp [h2]
  · rw [List.getD_append_right _ _ _ _ (by rw [hl]; omega), hl]
    rcases Nat.lt_or_ge i (xs.length) with h3' | h3'
    · obtain rfl : i = xs.length - 1 := by omega
      simp; ring
    · obtain rfl : i = xs.length := by omega
      have : xs.length - (xs.length - 1) = 1 := by omega
      have n1 : ¬ xs.length + 2 < xs.length - 1 + 2 := by omega
      have n2 : ¬ xs.length + 2 = xs.length - 1 + 2 := by omega
      have n3 : ¬ xs.length = xs.length - 1 := by omega
      have n4 : ¬ xs.length < xs.length - 1 := by omega
      simp [this, n1, n2, n3, n4]
      ring

/-- **C38 (slopes).** A table of at least three nodes gets one slope per node, by Akima's rule. -/
theorem C38_akima_slopes (xs ys : List ℚ) (h : xs.length = ys.length) (h3 : 3 ≤ xs.length) :
    (akimaSlopes xs ys).length = xs.length
    ∧ ∀ i < xs.length, Slope (xs.length - 1) (secant xs ys) i ((akimaSlopes xs ys).getD i 0) := by
  have hl := akimaM_length h h3
  refine ⟨by simp [akimaSlopes, fours_length, hl], fun i hi => ?_⟩
  set k := xs.length - 1 with hk
  have m : ∀ j < xs.length + 3, (akimaM xs ys).getD j 0 = ext k (secant xs ys) j := fun j hj => akimaM_getD h h3 hj
  have w : ∀ j < xs.length, (fours akimaW (akimaM xs ys)).getD j 0 = bend k (secant xs ys) j := by
    intro j hj
    rw [fours_getD _ _ _ (by rw [hl]; omega), m _ (by omega), m _ (by omega), m _ (by omega), m _ (by omega)]
    rfl
  have d : (akimaSlopes xs ys).getD i 0 = akimaT (1 / 1000000000 * (fours akimaW (akimaM xs ys)).foldl max 0)
      (ext k (secant xs ys) i) (ext k (secant xs ys) (i + 1)) (ext k (secant xs ys) (i + 2)) (ext k (secant xs ys) (i + 3)) := by
    unfold akimaSlopes
    rw [fours_getD _ _ _ (by rw [hl]; omega), m _ (by omega), m _ (by omega), m _ (by omega), m _ (by omega)]
  have mem : ∀ v, v ∈ fours akimaW (akimaM xs ys) ↔ ∃ j ≤ k, v = bend k (secant xs ys) j := by
    intro v
    rw [List.mem_iff_getElem]
    have len : (fours akimaW (akimaM xs ys)).length = xs.length := by rw [fours_length, hl]; omega
    constructor
    · rintro ⟨j, hj, rfl⟩
      refine ⟨j, by omega, ?_⟩
      rw [← w j (by omega), List.getD_eq_getElem _ _ hj]
    · rintro ⟨j, hj, rfl⟩
      have hj' : j < (fours akimaW (akimaM xs ys)).length := by omega
      refine ⟨j, hj', ?_⟩
      rw [← w j (by omega), List.getD_eq_getElem _ _ hj']
  have nn : 0 ≤ bend k (secant xs ys) i := by unfold bend before after; positivity
  rw [d]
  constructor
  · intro hb
    have hpos : 0 < bend k (secant xs ys) i := by
      have := hb i (by omega)
      linarith
    have ht : 1 / 1000000000 * (fours akimaW (akimaM xs ys)).foldl max 0 < bend k (secant xs ys) i := by
      have : (fours akimaW (akimaM xs ys)).foldl max 0 < 1000000000 * bend k (secant xs ys) i := by
        rw [foldl_max_lt]
        refine ⟨by linarith, fun v hv => ?_⟩
        obtain ⟨j, hj, rfl⟩ := (mem v).mp hv
        have := hb j hj
        linarith
      linarith
    have ha : akimaW (ext k (secant xs ys) i) (ext k (secant xs ys) (i + 1)) (ext k (secant xs ys) (i + 2))
      (ext k (secant xs ys) (i + 3)) = bend k (secant xs ys) i := rfl
    rw [akimaT, ha, if_pos ht, div_mul_cancel₀ _ hpos.ne']
    rfl
  · rintro ⟨j, hj, hb⟩
    have ht : ¬ 1 / 1000000000 * (fours akimaW (akimaM xs ys)).foldl max 0 < bend k (secant xs ys) i := by
      have : bend k (secant xs ys) j ≤ (fours akimaW (akimaM xs ys)).foldl max 0 :=
        (foldl_max_le.mp le_rfl).2 _ ((mem _).mpr ⟨j, hj, rfl⟩)
      linarith
    have ha : akimaW (ext k (secant xs ys) i) (ext k (secant xs ys) (i + 1)) (ext k (secant xs ys) (i + 2))
      (ext k (secant xs ys) (i + 3)) = bend k (secant xs ys) i := rfl
    rw [akimaT, ha, if_neg ht]
    ring

/-- Where the secants progress linearly, so do their extensions, and the slope is the mean of the two neighbours. -/
theorem akima_linear (xs ys : List ℚ) (h : xs.length = ys.length) (h3 : 3 ≤ xs.length) (p q : ℚ)
    (hs : ∀ i, i + 1 < xs.length → secant xs ys i = p + q * i) (i : ℕ) (hi : i < xs.length) :
    (akimaSlopes xs ys).getD i 0 = p + q * i - q / 2 := by
  obtain ⟨k, hk⟩ : ∃ k, xs.length = k + 3 := ⟨xs.length - 3, by omega⟩
  have e : ∀ j < xs.length + 3, ext (xs.length - 1) (secant xs ys) j = p + q * ((j : ℚ) - 2) := by
    intro j hj
    unfold ext
    have s0 := hs 0 (by omega)
    have s1 := hs 1 (by omega)
    have sk := hs (k + 1) (by omega)
    have sk' := hs k (by omega)
    have e1 : xs.length - 1 - 1 = k + 1 := by omega
    have e2 : xs.length - 1 - 2 = k := by omega
    rw [e1, e2, s0, s1, sk, sk']
    split_ifs with h1 h2 h4 h5
    · subst h1; push_cast; ring
    · subst h2; push_cast; ring
    · rw [hs (j - 2) (by omega)]
      have : ((j - 2 : ℕ) : ℚ) = j - 2 := by
        rw [Nat.cast_sub (by omega)]; norm_num
      rw [this]
    · obtain rfl : j = k + 4 := by omega
      push_cast; ring
    · obtain rfl : j = k + 5 := by omega
      push_cast; ring
  obtain ⟨-, hsl⟩ := C38_akima_slopes xs ys h h3
  have hd := hsl i hi
  set d := (akimaSlopes xs ys).getD i 0
  have b : ∀ j < xs.length, bend (xs.length - 1) (secant xs ys) j = 2 * |q| := by
    intro j hj
    unfold bend before after
    rw [e _ (by omega), e _ (by omega), e _ (by omega), e _ (by omega)]
    have x1 : p + q * (((j + 1 : ℕ) : ℚ) - 2) - (p + q * ((j : ℚ) - 2)) = q := by push_cast; ring
    have x2 : p + q * (((j + 3 : ℕ) : ℚ) - 2) - (p + q * (((j + 2 : ℕ) : ℚ) - 2)) = q := by push_cast; ring
    rw [x1, x2]; ring
  by_cases hq : q = 0
  · have := hd.2 ⟨i, by omega, by rw [b i hi, hq]; simp⟩
    rw [e _ (by omega), e _ (by omega), hq] at this
    rw [hq]; linarith
  · have hq' : 0 < |q| := abs_pos.mpr hq
    have := hd.1 (fun j hj => by rw [b i hi, b j (by omega)]; linarith)
    have ba : after (xs.length - 1) (secant xs ys) i = |q| := by
      unfold after
      rw [e _ (by omega), e _ (by omega)]
      congr 1; push_cast; ring
    have bb : before (xs.length - 1) (secant xs ys) i = |q| := by
      unfold before
      rw [e _ (by omega), e _ (by omega)]
      congr 1; push_cast; ring
    rw [b i hi, ba, bb, e _ (by omega), e _ (by omega)] at this
    have h2 : |q| * (2 * d) = |q| * (2 * (p + q * i - q / 2)) := by
      rw [show |q| * (2 * d) = d * (2 * |q|) by ring, this]; push_cast; ring
    have := mul_left_cancel₀ hq'.ne' h2
    linarith

/-- The node used at a point lies in the table. -/
theorem Spline.idx_lt (S : Spline) (hn : 0 < S.n) (X : ℝ) : S.idx X < S.n := by
  have := Nat.findGreatest_le (P := fun i => S.x i ≤ X) (S.n - 1)
  unfold Spline.idx
  have h2 : ∀ (inst : DecidablePred fun i => S.x i ≤ X), @Nat.findGreatest (fun i => S.x i ≤ X) inst (S.n - 1) ≤ S.n - 1 :=
    fun inst => @Nat.findGreatest_le (fun i => S.x i ≤ X) inst (S.n - 1)
  have := h2 (fun a => Classical.propDecidable _)
  omega

/-- A cubic with the values and slopes of a quadratic at both ends is that quadratic. -/
theorem Spline.piece_quad (S : Spline) (i : ℕ) (a b c : ℝ) (hx : S.x (i + 1) - S.x i ≠ 0)
    (h0 : S.y i = a + b * S.x i + c * S.x i ^ 2) (h1 : S.y (i + 1) = a + b * S.x (i + 1) + c * S.x (i + 1) ^ 2)
    (d0 : S.d i = b + 2 * c * S.x i) (d1 : S.d (i + 1) = b + 2 * c * S.x (i + 1)) (X : ℝ) :
    S.piece i X = a + b * X + c * X ^ 2 := by
  have hs : S.sec i = b + c * (S.x i + S.x (i + 1)) := by
    unfold Spline.sec
    rw [div_eq_iff hx, h0, h1]; ring
  have e3 : S.c3 i = 0 := by
    unfold Spline.c3
    rw [hs, d0, d1]
    have : b + 2 * c * S.x i + (b + 2 * c * S.x (i + 1)) - 2 * (b + c * (S.x i + S.x (i + 1))) = 0 := by ring
    rw [this]; simp
  have e2 : S.c2 i = c := by
    unfold Spline.c2
    rw [hs, d0, d1]
    field_simp
    ring
  unfold Spline.piece
  rw [e3, e2, d0, h0]; ring

/-- **C38 (straight lines).** A table whose values lie on a straight line is interpolated by that line, however its
nodes are spaced. -/
theorem C38_akima_line (xs ys : List ℚ) (h : xs.length = ys.length) (h3 : 3 ≤ xs.length)
    (hx : ∀ i, i + 1 < xs.length → xs.getD i 0 < xs.getD (i + 1) 0) (a b : ℚ)
    (hy : ∀ i < xs.length, ys.getD i 0 = a + b * xs.getD i 0) (X : ℝ) :
    (tableSpline xs ys (akimaSlopes xs ys)).eval X = a + b * X := by
  have hs : ∀ i, i + 1 < xs.length → secant xs ys i = b + 0 * i := by
    intro i hi
    unfold secant
    rw [hy _ hi, hy _ (by omega)]
    rw [div_eq_iff (by linarith [hx i hi])]; ring
  have hd := akima_linear xs ys h h3 b 0 hs
  have hi : (tableSpline xs ys (akimaSlopes xs ys)).idx X < xs.length - 1 := Spline.idx_lt _ (by show 0 < xs.length - 1; omega) X
  have hp := (tableSpline xs ys (akimaSlopes xs ys)).piece_quad ((tableSpline xs ys (akimaSlopes xs ys)).idx X) a b 0
    (by have := hx ((tableSpline xs ys (akimaSlopes xs ys)).idx X) (by omega)
        show ((xs.getD _ 0 : ℚ) : ℝ) - ((xs.getD _ 0 : ℚ) : ℝ) ≠ 0
        exact sub_ne_zero.mpr (by exact_mod_cast this.ne'))
    (by show ((ys.getD _ 0 : ℚ) : ℝ) = a + b * ((xs.getD _ 0 : ℚ) : ℝ) + 0 * _
        rw [hy _ (by omega)]; push_cast; ring)
    (by show ((ys.getD _ 0 : ℚ) : ℝ) = a + b * ((xs.getD _ 0 : ℚ) : ℝ) + 0 * _
        rw [hy _ (by omega)]; push_cast; ring)
    (by show (((akimaSlopes xs ys).getD _ 0 : ℚ) : ℝ) = b + 2 * 0 * _
        rw [hd _ (by omega)]; push_cast; ring)
    (by show (((akimaSlopes xs ys).getD _ 0 : ℚ) : ℝ) = b + 2 * 0 * _
        rw [hd _ (by omega)]; push_cast; ring) X
  show (tableSpline xs ys (akimaSlopes xs ys)).piece _ X = _
  rw [hp]; ring

/-- **C38 (parabolas).** A table at equally spaced nodes whose values lie on a parabola is interpolated by that
parabola. -/
theorem C38_akima_parabola (xs ys : List ℚ) (h : xs.length = ys.length) (h3 : 3 ≤ xs.length) (x₀ w : ℚ) (hw : 0 < w)
    (hx : ∀ i < xs.length, xs.getD i 0 = x₀ + w * i) (a b c : ℚ)
    (hy : ∀ i < xs.length, ys.getD i 0 = a + b * xs.getD i 0 + c * xs.getD i 0 ^ 2) (X : ℝ) :
    (tableSpline xs ys (akimaSlopes xs ys)).eval X = a + b * X + c * X ^ 2 := by
  have hs : ∀ i, i + 1 < xs.length → secant xs ys i = (b + c * (2 * x₀ + w)) + (2 * c * w) * i := by
    intro i hi
    unfold secant
    rw [hy _ hi, hy _ (by omega), hx _ hi, hx _ (by omega)]
    push_cast
    rw [div_eq_iff (by linarith)]; ring
  have hd := akima_linear xs ys h h3 _ _ hs
  have hd' : ∀ i < xs.length, (akimaSlopes xs ys).getD i 0 = b + 2 * c * xs.getD i 0 := by
    intro i hi
    rw [hd i hi, hx i hi]; ring
  have hi : (tableSpline xs ys (akimaSlopes xs ys)).idx X < xs.length - 1 := Spline.idx_lt _ (by show 0 < xs.length - 1; omega) X
  exact (tableSpline xs ys (akimaSlopes xs ys)).piece_quad ((tableSpline xs ys (akimaSlopes xs ys)).idx X) a b c
    (by show ((xs.getD _ 0 : ℚ) : ℝ) - ((xs.getD _ 0 : ℚ) : ℝ) ≠ 0
        rw [hx _ (by omega), hx _ (by omega), ← Rat.cast_sub]
        push_cast
        have : (0 : ℝ) < w := by exact_mod_cast hw
        intro h0
        linarith)
    (by show ((ys.getD _ 0 : ℚ) : ℝ) = a + b * ((xs.getD _ 0 : ℚ) : ℝ) + c * ((xs.getD _ 0 : ℚ) : ℝ) ^ 2
        rw [hy _ (by omega)]; push_cast; ring)
    (by show ((ys.getD _ 0 : ℚ) : ℝ) = a + b * ((xs.getD _ 0 : ℚ) : ℝ) + c * ((xs.getD _ 0 : ℚ) : ℝ) ^ 2
        rw [hy _ (by omega)]; push_cast; ring)
    (by show (((akimaSlopes xs ys).getD _ 0 : ℚ) : ℝ) = b + 2 * c * ((xs.getD _ 0 : ℚ) : ℝ)
        rw [hd' _ (by omega)]; push_cast; ring)
    (by show (((akimaSlopes xs ys).getD _ 0 : ℚ) : ℝ) = b + 2 * c * ((xs.getD _ 0 : ℚ) : ℝ)
        rw [hd' _ (by omega)]; push_cast; ring) X

/-- A parabola through four nodes. -/
example (X : ℝ) : (tableSpline [0, 2, 4, 6] [1, 7, 21, 43] (akimaSlopes [0, 2, 4, 6] [1, 7, 21, 43])).eval X
    = 1 + X + X ^ 2 := by
  have := C38_akima_parabola [0, 2, 4, 6] [1, 7, 21, 43] rfl (by simp) 0 2 (by norm_num)
    (by intro i hi; simp at hi; interval_cases i <;> simp <;> norm_num) 1 1 1
    (by intro i hi; simp at hi; interval_cases i <;> simp <;> norm_num) X
  simpa using this

/-- A line through unequally spaced nodes. -/
example (X : ℝ) : (tableSpline [0, 1, 5] [3, 5, 13] (akimaSlopes [0, 1, 5] [3, 5, 13])).eval X = 3 + 2 * X := by
  have := C38_akima_line [0, 1, 5] [3, 5, 13] rfl (by simp)
    (by intro i hi; have : i < 2 := by simp at hi; omega
        interval_cases i <;> simp) 3 2
    (by intro i hi; simp at hi; interval_cases i <;> simp <;> norm_num) X
  simpa using this

end PyCycle
