import Verif.Model.MapInterp
import Mathlib.Analysis.Convex.Basic
import Mathlib.Topology.Order.OrderClosed
import Mathlib.Topology.Algebra.Order.Field
import Mathlib.Topology.Instances.Real.Lemmas
import Mathlib.Data.List.GetD
import Mathlib.Tactic.Linarith
import Mathlib.Tactic.FieldSimp
import Mathlib.Tactic.Ring
import Mathlib.Tactic.Positivity

/-! # Piecewise-linear interpolation: segments, bounds, monotonicity, continuity -/

namespace PyCycle.MapData

theorem lin_cons (x₀ x₁ : ℝ) (xs : List ℝ) (y₀ y₁ : ℝ) (ys : List ℝ) (x : ℝ) :
    lin (x₀ :: x₁ :: xs) (y₀ :: y₁ :: ys) x =
      if x ≤ x₁ ∨ xs = [] then y₀ + (x - x₀) * ((y₁ - y₀) / (x₁ - x₀))
      else lin (x₁ :: xs) (y₁ :: ys) x := by
  rw [lin]

/-- The interpolant is a convex combination of two neighbouring values, the same for all tables. -/
theorem lin_seg : ∀ (xs : List ℝ) (x : ℝ), 2 ≤ xs.length → xs.IsChain (· < ·) → Span xs x →
    ∃ i t, i + 1 < xs.length ∧ 0 ≤ t ∧ t ≤ 1 ∧ x = (1 - t) * xs.getD i 0 + t * xs.getD (i + 1) 0
      ∧ ∀ ys : List ℝ, ys.length = xs.length →
        lin xs ys x = (1 - t) * ys.getD i 0 + t * ys.getD (i + 1) 0
  | [], _, h, _, _ => by simp at h
  | [_], _, h, _, _ => by simp at h
  | x₀ :: x₁ :: xs, x, _, hc, hs => by
    have h01 : x₀ < x₁ := (List.isChain_cons_cons.1 hc).1
    have hd : 0 < x₁ - x₀ := by linarith
    by_cases h : x ≤ x₁ ∨ xs = []
    · have hx0 : x₀ ≤ x := by simpa [Span] using hs.1
      have hx1 : x ≤ x₁ := by
        rcases h with h | h
        · exact h
        · subst h; simpa [Span] using hs.2
      refine ⟨0, (x - x₀) / (x₁ - x₀), by simp, div_nonneg (by linarith) hd.le, ?_, ?_, ?_⟩
      · rw [div_le_one hd]; linarith
      · simp only [List.getD_cons_zero, List.getD_cons_succ]
        field_simp; ring
      · intro ys hy
        match ys, hy with
        | y₀ :: y₁ :: ys, _ =>
          rw [lin_cons, if_pos h]
          simp only [List.getD_cons_zero, List.getD_cons_succ]
          field_simp; ring
    · have hne : xs ≠ [] := fun e => h (Or.inr e)
      have hgt : x₁ < x := by
        by_contra hh; exact h (Or.inl (not_lt.1 hh))
      obtain ⟨i, t, hi, ht0, ht1, he, hv⟩ := lin_seg (x₁ :: xs) x
        (by cases xs with
            | nil => exact absurd rfl hne
            | cons a l => simp)
        (List.isChain_cons_cons.1 hc).2
        ⟨by simpa using hgt.le, by
          have := hs.2
          cases xs with
          | nil => exact absurd rfl hne
          | cons a l => simpa [List.getLastD] using this⟩
      refine ⟨i + 1, t, by simpa using hi, ht0, ht1, by simpa using he, ?_⟩
      intro ys hy
      match ys, hy with
      | y₀ :: y₁ :: ys, hy =>
        rw [lin_cons, if_neg h, hv (y₁ :: ys) (by simpa using hy)]
        simp

theorem lin_mem {s : Set ℝ} (hs : Convex ℝ s) {xs ys : List ℝ} {x : ℝ} (h2 : 2 ≤ xs.length)
    (hc : xs.IsChain (· < ·)) (hx : Span xs x) (hl : ys.length = xs.length)
    (hy : ∀ y ∈ ys, y ∈ s) : lin xs ys x ∈ s := by
  obtain ⟨i, t, hi, h0, h1, -, hv⟩ := lin_seg xs x h2 hc hx
  rw [hv ys hl]
  have m : ∀ j, j < ys.length → ys.getD j 0 ∈ s := fun j hj => by
    rw [List.getD_eq_getElem _ _ hj]; exact hy _ (List.getElem_mem _)
  exact hs (m i (by omega)) (m (i + 1) (by omega)) (by linarith) h0 (by ring)

theorem lin_le_lin {xs ys zs : List ℝ} {x : ℝ} (h2 : 2 ≤ xs.length)
    (hc : xs.IsChain (· < ·)) (hx : Span xs x) (hl : ys.length = xs.length)
    (hyz : List.Forall₂ (· ≤ ·) ys zs) : lin xs ys x ≤ lin xs zs x := by
  obtain ⟨i, t, hi, h0, h1, -, hv⟩ := lin_seg xs x h2 hc hx
  have hlz : zs.length = xs.length := by rw [← hl]; exact hyz.length_eq.symm
  rw [hv ys hl, hv zs hlz]
  have m : ∀ j, j < xs.length → ys.getD j 0 ≤ zs.getD j 0 := fun j hj => by
    rw [List.getD_eq_getElem _ _ (by omega), List.getD_eq_getElem _ _ (by omega)]
    exact (List.forall₂_iff_get.1 hyz).2 j (by omega) (by omega)
  have a := mul_le_mul_of_nonneg_left (m i (by omega)) (sub_nonneg.2 h1)
  have b := mul_le_mul_of_nonneg_left (m (i + 1) (by omega)) h0
  linarith

theorem lin_lt_lin {xs ys zs : List ℝ} {x : ℝ} (h2 : 2 ≤ xs.length)
    (hc : xs.IsChain (· < ·)) (hx : Span xs x) (hl : ys.length = xs.length)
    (hyz : List.Forall₂ (· < ·) ys zs) : lin xs ys x < lin xs zs x := by
  obtain ⟨i, t, hi, h0, h1, -, hv⟩ := lin_seg xs x h2 hc hx
  have hlz : zs.length = xs.length := by rw [← hl]; exact hyz.length_eq.symm
  rw [hv ys hl, hv zs hlz]
  have m : ∀ j, j < xs.length → ys.getD j 0 < zs.getD j 0 := fun j hj => by
    rw [List.getD_eq_getElem _ _ (by omega), List.getD_eq_getElem _ _ (by omega)]
    exact (List.forall₂_iff_get.1 hyz).2 j (by omega) (by omega)
  have a := m i (by omega)
  have b := m (i + 1) (by omega)
  rcases h0.eq_or_lt with e | h0
  · subst e; linarith
  · have a' := mul_le_mul_of_nonneg_left a.le (sub_nonneg.2 h1)
    have b' := mul_lt_mul_of_pos_left b h0
    linarith

/-- The interpolant passes through the first node. -/
theorem lin_head (x₀ x₁ : ℝ) (xs : List ℝ) (y₀ y₁ : ℝ) (ys : List ℝ) (h : x₀ ≤ x₁) :
    lin (x₀ :: x₁ :: xs) (y₀ :: y₁ :: ys) x₀ = y₀ := by
  rw [lin_cons, if_pos (Or.inl h)]; ring

/-- The interpolant passes through every node. -/
theorem lin_node : ∀ (xs ys : List ℝ) (k : ℕ), 2 ≤ xs.length → xs.IsChain (· < ·) →
    ys.length = xs.length → k < xs.length → lin xs ys (xs.getD k 0) = ys.getD k 0
  | [], _, _, h, _, _, _ => by simp at h
  | [_], _, _, h, _, _, _ => by simp at h
  | x₀ :: x₁ :: xs, [], _, _, _, h, _ => by simp at h
  | x₀ :: x₁ :: xs, [_], _, _, _, h, _ => by simp at h
  | x₀ :: x₁ :: xs, y₀ :: y₁ :: ys, 0, _, hc, _, _ => by
    simp only [List.getD_cons_zero]
    exact lin_head _ _ _ _ _ _ (List.isChain_cons_cons.1 hc).1.le
  | x₀ :: x₁ :: xs, y₀ :: y₁ :: ys, k + 1, _, hc, hl, hk => by
    have h01 : x₀ < x₁ := (List.isChain_cons_cons.1 hc).1
    have hc' := (List.isChain_cons_cons.1 hc).2
    simp only [List.getD_cons_succ]
    rw [lin_cons]
    by_cases h : (x₁ :: xs).getD k 0 ≤ x₁ ∨ xs = []
    · rw [if_pos h]
      have hk0 : k = 0 := by
        rcases h with h | h
        · by_contra hk0
          have hp := List.isChain_iff_pairwise.1 hc'
          have hlt : k < (x₁ :: xs).length := by simpa using hk
          rw [List.getD_eq_getElem _ _ hlt] at h
          have := List.pairwise_iff_getElem.1 hp 0 k (by simp) hlt (by omega)
          simp only [List.getElem_cons_zero] at this
          linarith
        · subst h; simp at hk; omega
      subst hk0
      simp only [List.getD_cons_zero]
      have : x₁ - x₀ ≠ 0 := by linarith
      field_simp; ring
    · rw [if_neg h]
      cases xs with
      | nil => exact absurd (Or.inr rfl) h
      | cons x₂ xs =>
        exact lin_node (x₁ :: x₂ :: xs) (y₁ :: ys) k (by simp) hc' (by simpa using hl) (by simpa using hk)

theorem lin_ge_head : ∀ (xs ys : List ℝ) (x : ℝ), xs.IsChain (· < ·) → ys.IsChain (· ≤ ·) →
    ys.length = xs.length → Span xs x → ys.headD 0 ≤ lin xs ys x
  | [], [], _, _, _, _, _ => by simp [lin]
  | [_], [_], _, _, _, _, _ => by simp [lin]
  | [], _ :: _, _, _, _, h, _ => by simp at h
  | _ :: _, [], _, _, _, h, _ => by simp at h
  | [_], _ :: _ :: _, _, _, _, h, _ => by simp at h
  | _ :: _ :: _, [_], _, _, _, h, _ => by simp at h
  | x₀ :: x₁ :: xs, y₀ :: y₁ :: ys, x, hc, hy, hl, hs => by
    have h01 : x₀ < x₁ := (List.isChain_cons_cons.1 hc).1
    have hy01 : y₀ ≤ y₁ := (List.isChain_cons_cons.1 hy).1
    rw [lin_cons]
    split
    · have hx0 : x₀ ≤ x := by simpa using hs.1
      have : 0 ≤ (x - x₀) * ((y₁ - y₀) / (x₁ - x₀)) :=
        mul_nonneg (by linarith) (div_nonneg (by linarith) (by linarith))
      simp only [List.headD_cons]; linarith
    · rename_i h
      have hgt : x₁ < x := by
        by_contra hh; exact h (Or.inl (not_lt.1 hh))
      have := lin_ge_head (x₁ :: xs) (y₁ :: ys) x (List.isChain_cons_cons.1 hc).2
        (List.isChain_cons_cons.1 hy).2 (by simpa using hl)
        ⟨by simpa using hgt.le, by
          have := hs.2
          cases xs with
          | nil => exact absurd (Or.inr rfl) h
          | cons a l => simpa [List.getLastD] using this⟩
      simp only [List.headD_cons] at this ⊢
      linarith

theorem lin_mono : ∀ (xs ys : List ℝ) (x x' : ℝ), xs.IsChain (· < ·) → ys.IsChain (· ≤ ·) →
    ys.length = xs.length → Span xs x → Span xs x' → x ≤ x' → lin xs ys x ≤ lin xs ys x'
  | [], [], _, _, _, _, _, _, _, _ => by simp [lin]
  | [_], [_], _, _, _, _, _, _, _, _ => by simp [lin]
  | [], _ :: _, _, _, _, _, h, _, _, _ => by simp at h
  | _ :: _, [], _, _, _, _, h, _, _, _ => by simp at h
  | [_], _ :: _ :: _, _, _, _, _, h, _, _, _ => by simp at h
  | _ :: _ :: _, [_], _, _, _, _, h, _, _, _ => by simp at h
  | x₀ :: x₁ :: xs, y₀ :: y₁ :: ys, x, x', hc, hy, hl, hs, hs', hxx => by
    have h01 : x₀ < x₁ := (List.isChain_cons_cons.1 hc).1
    have hy01 : y₀ ≤ y₁ := (List.isChain_cons_cons.1 hy).1
    have hsl : 0 ≤ (y₁ - y₀) / (x₁ - x₀) := div_nonneg (by linarith) (by linarith)
    rw [lin_cons, lin_cons]
    have sub : ∀ z, Span (x₀ :: x₁ :: xs) z → ¬ (z ≤ x₁ ∨ xs = []) → Span (x₁ :: xs) z := by
      intro z hz h
      have hgt : x₁ < z := by
        by_contra hh; exact h (Or.inl (not_lt.1 hh))
      refine ⟨by simpa using hgt.le, ?_⟩
      have := hz.2
      cases xs with
      | nil => exact absurd (Or.inr rfl) h
      | cons a l => simpa [List.getLastD] using this
    by_cases h : x ≤ x₁ ∨ xs = [] <;> by_cases h' : x' ≤ x₁ ∨ xs = []
    · rw [if_pos h, if_pos h']
      have := mul_le_mul_of_nonneg_right (sub_le_sub_right hxx x₀) hsl
      linarith
    · rw [if_pos h, if_neg h']
      have hx1 : x ≤ x₁ := h.resolve_right fun e => h' (Or.inr e)
      have := lin_ge_head (x₁ :: xs) (y₁ :: ys) x' (List.isChain_cons_cons.1 hc).2
        (List.isChain_cons_cons.1 hy).2 (by simpa using hl) (sub _ hs' h')
      simp only [List.headD_cons] at this
      have a := mul_le_mul_of_nonneg_right (sub_le_sub_right hx1 x₀) hsl
      have b : (x₁ - x₀) * ((y₁ - y₀) / (x₁ - x₀)) = y₁ - y₀ := by
        have : x₁ - x₀ ≠ 0 := by linarith
        field_simp
      linarith
    · exact absurd (h'.imp_left fun e => hxx.trans e) h
    · rw [if_neg h, if_neg h']
      exact lin_mono (x₁ :: xs) (y₁ :: ys) x x' (List.isChain_cons_cons.1 hc).2
        (List.isChain_cons_cons.1 hy).2 (by simpa using hl) (sub _ hs h) (sub _ hs' h') hxx

/-- The values increase strictly from the first node up to the segment containing `t`. -/
def StrictUpTo : List ℝ → List ℝ → ℝ → Prop
  | x₀ :: x₁ :: xs, y₀ :: y₁ :: ys, t => y₀ < y₁ ∧ (t < x₁ ∨ xs = [] ∨ StrictUpTo (x₁ :: xs) (y₁ :: ys) t)
  | _, _, _ => True

/-- At a point up to which the values increase strictly, the interpolant separates from all other
points. -/
theorem lin_lt : ∀ (xs ys : List ℝ) (x x' : ℝ), xs.IsChain (· < ·) → ys.IsChain (· ≤ ·) →
    ys.length = xs.length → 2 ≤ xs.length → Span xs x → Span xs x' →
    (StrictUpTo xs ys x' ∨ StrictUpTo xs ys x) → x < x' → lin xs ys x < lin xs ys x'
  | [], _, _, _, _, _, _, h, _, _, _, _ => by simp at h
  | [_], _, _, _, _, _, _, h, _, _, _, _ => by simp at h
  | _ :: _, [], _, _, _, _, h, _, _, _, _, _ => by simp at h
  | _ :: _ :: _, [_], _, _, _, _, h, _, _, _, _, _ => by simp at h
  | x₀ :: x₁ :: xs, y₀ :: y₁ :: ys, x, x', hc, hy, hl, _, hs, hs', hst, hxx => by
    have h01 : x₀ < x₁ := (List.isChain_cons_cons.1 hc).1
    have hy01 : y₀ < y₁ := by rcases hst with h | h <;> exact h.1
    have hsl : 0 < (y₁ - y₀) / (x₁ - x₀) := div_pos (by linarith) (by linarith)
    rw [lin_cons, lin_cons]
    have sub : ∀ z, Span (x₀ :: x₁ :: xs) z → ¬ (z ≤ x₁ ∨ xs = []) → Span (x₁ :: xs) z := by
      intro z hz h
      have hgt : x₁ < z := by
        by_contra hh; exact h (Or.inl (not_lt.1 hh))
      refine ⟨by simpa using hgt.le, ?_⟩
      have := hz.2
      cases xs with
      | nil => exact absurd (Or.inr rfl) h
      | cons a l => simpa [List.getLastD] using this
    have b : (x₁ - x₀) * ((y₁ - y₀) / (x₁ - x₀)) = y₁ - y₀ := by
      have : x₁ - x₀ ≠ 0 := by linarith
      field_simp
    have hl' : (y₁ :: ys).length = (x₁ :: xs).length := by simpa using hl
    by_cases h : x ≤ x₁ ∨ xs = [] <;> by_cases h' : x' ≤ x₁ ∨ xs = []
    · rw [if_pos h, if_pos h']
      have := mul_lt_mul_of_pos_right (sub_lt_sub_right hxx x₀) hsl
      linarith
    · rw [if_pos h, if_neg h']
      have hne : xs ≠ [] := fun e => h' (Or.inr e)
      have hx1 : x ≤ x₁ := h.resolve_right hne
      have hgt : x₁ < x' := by
        by_contra hh; exact h' (Or.inl (not_lt.1 hh))
      have g := lin_ge_head (x₁ :: xs) (y₁ :: ys) x' (List.isChain_cons_cons.1 hc).2
        (List.isChain_cons_cons.1 hy).2 hl' (sub _ hs' h')
      simp only [List.headD_cons] at g
      rcases hx1.eq_or_lt with e | hx1
      · -- x is the node itself: strictness comes from the next segment
        subst e
        have hst' : StrictUpTo (x :: xs) (y₁ :: ys) x' ∨ StrictUpTo (x :: xs) (y₁ :: ys) x := by
          rcases hst with h | h
          · rcases h.2 with h | h | h
            · linarith
            · exact absurd h hne
            · exact Or.inl h
          · rcases h.2 with h | h | h
            · exact absurd h (lt_irrefl _)
            · exact absurd h hne
            · exact Or.inr h
        have h2 : 2 ≤ (x :: xs).length := by
          cases xs with
          | nil => exact absurd rfl hne
          | cons a l => simp
        have := lin_lt (x :: xs) (y₁ :: ys) x x' (List.isChain_cons_cons.1 hc).2
          (List.isChain_cons_cons.1 hy).2 hl' h2
          ⟨by simp, hxx.le.trans (sub _ hs' h').2⟩ (sub _ hs' h') hst' hxx
        rw [b]
        have hd : lin (x :: xs) (y₁ :: ys) x = y₁ := by
          cases xs with
          | nil => exact absurd rfl hne
          | cons a l =>
            cases ys with
            | nil => simp at hl
            | cons c m =>
              exact lin_head _ _ _ _ _ _
                (List.isChain_cons_cons.1 (List.isChain_cons_cons.1 hc).2).1.le
        linarith
      · have a := mul_lt_mul_of_pos_right (sub_lt_sub_right hx1 x₀) hsl
        linarith
    · exact absurd (h'.imp_left fun e => hxx.le.trans e) h
    · rw [if_neg h, if_neg h']
      have hne : xs ≠ [] := fun e => h' (Or.inr e)
      have hgt : x₁ < x := by
        by_contra hh; exact h (Or.inl (not_lt.1 hh))
      have h2 : 2 ≤ (x₁ :: xs).length := by
        cases xs with
        | nil => exact absurd rfl hne
        | cons a l => simp
      refine lin_lt (x₁ :: xs) (y₁ :: ys) x x' (List.isChain_cons_cons.1 hc).2
        (List.isChain_cons_cons.1 hy).2 hl' h2 (sub _ hs h) (sub _ hs' h') ?_ hxx
      rcases hst with h | h
      · rcases h.2 with h | h | h
        · linarith
        · exact absurd h hne
        · exact Or.inl h
      · rcases h.2 with h | h | h
        · linarith
        · exact absurd h hne
        · exact Or.inr h

theorem strictUpTo_of_chain : ∀ (xs ys : List ℝ) (t : ℝ), ys.IsChain (· < ·) → StrictUpTo xs ys t
  | [], _, _, _ => by simp [StrictUpTo]
  | [_], _, _, _ => by simp [StrictUpTo]
  | _ :: _ :: _, [], _, _ => by simp [StrictUpTo]
  | _ :: _ :: _, [_], _, _ => by simp [StrictUpTo]
  | x₀ :: x₁ :: xs, y₀ :: y₁ :: ys, t, h =>
    ⟨(List.isChain_cons_cons.1 h).1, Or.inr (Or.inr
      (strictUpTo_of_chain (x₁ :: xs) (y₁ :: ys) t (List.isChain_cons_cons.1 h).2))⟩

theorem lin_strictMono {xs ys : List ℝ} {x x' : ℝ} (hc : xs.IsChain (· < ·))
    (hy : ys.IsChain (· < ·)) (hl : ys.length = xs.length) (h2 : 2 ≤ xs.length)
    (hs : Span xs x) (hs' : Span xs x') (h : x < x') : lin xs ys x < lin xs ys x' :=
  lin_lt xs ys x x' hc (hy.imp fun _ _ h => h.le) hl h2 hs hs'
    (Or.inl (strictUpTo_of_chain _ _ _ hy)) h

theorem lin_continuous : ∀ (xs ys : List ℝ), xs.IsChain (· < ·) → ys.length = xs.length →
    Continuous (lin xs ys)
  | [], [], _, _ => by simp only [lin]; exact continuous_const
  | [_], [_], _, _ => by simp only [lin]; exact continuous_const
  | [], _ :: _, _, h => by simp at h
  | _ :: _, [], _, h => by simp at h
  | [_], _ :: _ :: _, _, h => by simp at h
  | _ :: _ :: _, [_], _, h => by simp at h
  | [x₀, x₁], y₀ :: y₁ :: ys, _, _ => by
    have : lin [x₀, x₁] (y₀ :: y₁ :: ys) = fun x => y₀ + (x - x₀) * ((y₁ - y₀) / (x₁ - x₀)) := by
      funext x; rw [lin_cons, if_pos (Or.inr rfl)]
    rw [this]; fun_prop
  | _ :: _ :: _ :: _, [_, _], _, h => by simp at h
  | x₀ :: x₁ :: x₂ :: xs, y₀ :: y₁ :: y₂ :: ys, hc, hl => by
    have h01 : x₀ < x₁ := (List.isChain_cons_cons.1 hc).1
    have hc' := (List.isChain_cons_cons.1 hc).2
    have : lin (x₀ :: x₁ :: x₂ :: xs) (y₀ :: y₁ :: y₂ :: ys) = fun x =>
        if x ≤ x₁ then y₀ + (x - x₀) * ((y₁ - y₀) / (x₁ - x₀))
        else lin (x₁ :: x₂ :: xs) (y₁ :: y₂ :: ys) x := by
      funext x; rw [lin_cons]; simp
    rw [this]
    refine Continuous.if_le (by fun_prop)
      (lin_continuous (x₁ :: x₂ :: xs) (y₁ :: y₂ :: ys) hc' (by simpa using hl))
      continuous_id continuous_const ?_
    rintro x rfl
    rw [lin_head _ _ _ _ _ _ (List.isChain_cons_cons.1 hc').1.le]
    have : x - x₀ ≠ 0 := by linarith
    field_simp; ring

end PyCycle.MapData
