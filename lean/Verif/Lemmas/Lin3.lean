import Verif.Lemmas.Lin

/-! # Interpolation in three-axis tables -/

namespace PyCycle.MapData

theorem lin_tail (x₀ x₁ : ℝ) (xs : List ℝ) (y₀ y₁ : ℝ) (ys : List ℝ) (x : ℝ)
    (hc : (x₀ :: x₁ :: xs).IsChain (· < ·)) (hl : ys.length = xs.length) (hne : xs ≠ [])
    (hx : x₁ ≤ x) : lin (x₀ :: x₁ :: xs) (y₀ :: y₁ :: ys) x = lin (x₁ :: xs) (y₁ :: ys) x := by
  have h01 : x₀ < x₁ := (List.isChain_cons_cons.1 hc).1
  rw [lin_cons]
  split
  · rename_i h
    have e : x = x₁ := le_antisymm (h.resolve_right hne) hx
    subst e
    match xs, ys, hl with
    | a :: l, c :: m, _ =>
      rw [lin_head _ _ _ _ _ _ (List.isChain_cons_cons.1 (List.isChain_cons_cons.1 hc).2).1.le]
      have : x - x₀ ≠ 0 := by linarith
      field_simp; ring
  · rfl

theorem head_le_getD : ∀ (xs : List ℝ) (i : ℕ), xs.IsChain (· < ·) → i < xs.length →
    xs.headD 0 ≤ xs.getD i 0
  | [], _, _, h => by simp at h
  | x :: xs, 0, _, _ => by simp
  | x :: xs, i + 1, hc, hi => by
    have hp := List.isChain_iff_pairwise.1 hc
    rw [List.getD_eq_getElem _ _ hi]
    have := List.pairwise_iff_getElem.1 hp 0 (i + 1) (by simp) hi (by omega)
    simpa using this.le

/-- The interpolant at a point given by its segment. -/
theorem lin_at : ∀ (xs ys : List ℝ) (i : ℕ) (t : ℝ), xs.IsChain (· < ·) →
    ys.length = xs.length → i + 1 < xs.length → 0 ≤ t → t ≤ 1 →
    lin xs ys ((1 - t) * xs.getD i 0 + t * xs.getD (i + 1) 0)
      = (1 - t) * ys.getD i 0 + t * ys.getD (i + 1) 0
  | [], _, _, _, _, _, h, _, _ => by simp at h
  | [_], _, _, _, _, _, h, _, _ => by simp at h
  | _ :: _ :: _, [], _, _, _, h, _, _, _ => by simp at h
  | _ :: _ :: _, [_], _, _, _, h, _, _, _ => by simp at h
  | x₀ :: x₁ :: xs, y₀ :: y₁ :: ys, 0, t, hc, hl, _, h0, h1 => by
    have h01 : x₀ < x₁ := (List.isChain_cons_cons.1 hc).1
    simp only [List.getD_cons_zero, List.getD_cons_succ]
    rw [lin_cons, if_pos (Or.inl (by nlinarith))]
    have : x₁ - x₀ ≠ 0 := by linarith
    field_simp; ring
  | x₀ :: x₁ :: xs, y₀ :: y₁ :: ys, i + 1, t, hc, hl, hi, h0, h1 => by
    simp only [List.getD_cons_succ]
    have hc' := (List.isChain_cons_cons.1 hc).2
    have hne : xs ≠ [] := by rintro rfl; simp at hi
    rw [lin_tail _ _ _ _ _ _ _ hc (by simpa using hl) hne, ]
    · have := lin_at (x₁ :: xs) (y₁ :: ys) i t hc' (by simpa using hl) (by simpa using hi) h0 h1
      simpa using this
    · have a := head_le_getD (x₁ :: xs) i hc' (by simp at hi ⊢; omega)
      have b := head_le_getD (x₁ :: xs) (i + 1) hc' (by simpa using hi)
      simp only [List.headD_cons, List.getD_cons_succ] at a b
      nlinarith

theorem lin_neg {xs ys : List ℝ} {x : ℝ} (h2 : 2 ≤ xs.length) (hc : xs.IsChain (· < ·))
    (hx : Span xs x) (hl : ys.length = xs.length) :
    lin xs (ys.map fun y => -y) x = -lin xs ys x := by
  obtain ⟨i, t, hi, -, -, -, hv⟩ := lin_seg xs x h2 hc hx
  rw [hv ys hl, hv _ (by simpa using hl)]
  have m : ∀ j, (ys.map fun y => -y).getD j 0 = -ys.getD j 0 := fun j => by
    simp only [List.getD_eq_getElem?_getD, List.getElem?_map]
    cases ys[j]? <;> simp
  rw [m, m]; ring

/-- Leaving out the last node changes nothing up to the node before it. -/
theorem lin_dropLast : ∀ (xs ys : List ℝ) (x : ℝ), xs.IsChain (· < ·) →
    ys.length = xs.length → 3 ≤ xs.length → x ≤ xs.dropLast.getLastD 0 →
    lin xs ys x = lin xs.dropLast ys.dropLast x
  | [], _, _, _, _, h, _ => by simp at h
  | [_], _, _, _, _, h, _ => by simp at h
  | [_, _], _, _, _, _, h, _ => by simp at h
  | _ :: _ :: _ :: _, [], _, _, h, _, _ => by simp at h
  | _ :: _ :: _ :: _, [_], _, _, h, _, _ => by simp at h
  | _ :: _ :: _ :: _, [_, _], _, _, h, _, _ => by simp at h
  | [x₀, x₁, x₂], [y₀, y₁, y₂], x, _, _, _, h => by
    simp at h
    simp only [List.dropLast]
    rw [lin_cons, if_pos (Or.inl h), lin_cons, if_pos (Or.inl h)]
  | [_, _, _], _ :: _ :: _ :: _ :: _, _, _, h, _, _ => by simp at h
  | _ :: _ :: _ :: _ :: _, [_, _, _], _, _, h, _, _ => by simp at h
  | x₀ :: x₁ :: x₂ :: x₃ :: xs, y₀ :: y₁ :: y₂ :: y₃ :: ys, x, hc, hl, _, h => by
    have ih := lin_dropLast (x₁ :: x₂ :: x₃ :: xs) (y₁ :: y₂ :: y₃ :: ys) x
      (List.isChain_cons_cons.1 hc).2 (by simpa using hl) (by simp)
      (by simpa [List.getLastD] using h)
    simp only [List.dropLast_cons₂] at ih ⊢
    rw [lin_cons x₀ x₁ (x₂ :: x₃ :: xs), ih, lin_cons x₀ x₁ (x₂ :: _)]
    simp

/-- A well-formed real table. -/
structure Tab (as ns rs : List ℝ) (t : List (List (List ℝ))) : Prop where
  ac : as.IsChain (· < ·)
  nc : ns.IsChain (· < ·)
  rc : rs.IsChain (· < ·)
  a2 : 2 ≤ as.length
  n2 : 2 ≤ ns.length
  r2 : 2 ≤ rs.length
  tl : t.length = as.length
  pl : ∀ p ∈ t, p.length = ns.length
  rl : ∀ p ∈ t, ∀ row ∈ p, row.length = rs.length

variable {as ns rs : List ℝ} {t : List (List (List ℝ))} {a n r : ℝ}

theorem forall₂_map_map {α : Type*} {R : ℝ → ℝ → Prop} {f g : α → ℝ} : ∀ {l : List α},
    (∀ x ∈ l, R (f x) (g x)) → List.Forall₂ R (l.map f) (l.map g)
  | [], _ => by simp
  | x :: l, h => by
    simp only [List.map_cons, List.forall₂_cons]
    exact ⟨h x (by simp), forall₂_map_map fun y hy => h y (by simp [hy])⟩

theorem lin3_mem (T : Tab as ns rs t) {s : Set ℝ} (hs : Convex ℝ s) (ha : Span as a)
    (hn : Span ns n) (hr : Span rs r) (h : ∀ p ∈ t, ∀ row ∈ p, ∀ y ∈ row, y ∈ s) :
    lin3 as ns rs t a n r ∈ s := by
  refine lin_mem hs T.a2 T.ac ha (by simpa using T.tl) fun y hy => ?_
  obtain ⟨p, hp, rfl⟩ := List.mem_map.1 hy
  refine lin_mem hs T.n2 T.nc hn (by simpa using T.pl p hp) fun y hy => ?_
  obtain ⟨row, hrow, rfl⟩ := List.mem_map.1 hy
  exact lin_mem hs T.r2 T.rc hr (T.rl p hp row hrow) (h p hp row hrow)

theorem lin3_lt_n (T : Tab as ns rs t) {n' : ℝ} (ha : Span as a) (hn : Span ns n)
    (hn' : Span ns n') (hr : Span rs r)
    (h : ∀ p ∈ t, p.IsChain (fun row row' => List.Forall₂ (· < ·) row row')) (hlt : n < n') :
    lin3 as ns rs t a n r < lin3 as ns rs t a n' r := by
  refine lin_lt_lin T.a2 T.ac ha (by simpa using T.tl) (forall₂_map_map fun p hp => ?_)
  refine lin_strictMono T.nc ?_ (by simpa using T.pl p hp) T.n2 hn hn' hlt
  rw [List.isChain_map]
  have hp2 := h p hp
  have hl := T.rl p hp
  have aux : ∀ q : List (List ℝ), (∀ row ∈ q, row.length = rs.length) →
      q.IsChain (fun row row' => List.Forall₂ (· < ·) row row') →
      q.IsChain (fun row row' => lin rs row r < lin rs row' r) := by
    intro q
    induction q with
    | nil => intros; simp
    | cons x q ih =>
      cases q with
      | nil => intros; simp
      | cons y q =>
        intro h1 h2
        rw [List.isChain_cons_cons] at h2 ⊢
        exact ⟨lin_lt_lin T.r2 T.rc hr (h1 x (by simp)) h2.1, ih (fun z hz => h1 z (by simp [hz])) h2.2⟩
  exact aux p hl hp2

theorem lin3_mono_r (T : Tab as ns rs t) {r' : ℝ} (ha : Span as a) (hn : Span ns n)
    (hr : Span rs r) (hr' : Span rs r')
    (h : ∀ p ∈ t, ∀ row ∈ p, row.IsChain (· ≤ ·)) (hle : r ≤ r') :
    lin3 as ns rs t a n r ≤ lin3 as ns rs t a n r' := by
  refine lin_le_lin T.a2 T.ac ha (by simpa using T.tl) (forall₂_map_map fun p hp => ?_)
  refine lin_le_lin T.n2 T.nc hn (by simpa using T.pl p hp) (forall₂_map_map fun row hrow => ?_)
  exact lin_mono _ _ _ _ T.rc (h p hp row hrow) (T.rl p hp row hrow) hr hr' hle

theorem lin3_lt_r (T : Tab as ns rs t) {r' : ℝ} (ha : Span as a) (hn : Span ns n)
    (hr : Span rs r) (hr' : Span rs r')
    (h : ∀ p ∈ t, ∀ row ∈ p, row.IsChain (· < ·)) (hlt : r < r') :
    lin3 as ns rs t a n r < lin3 as ns rs t a n r' := by
  refine lin_lt_lin T.a2 T.ac ha (by simpa using T.tl) (forall₂_map_map fun p hp => ?_)
  refine lin_lt_lin T.n2 T.nc hn (by simpa using T.pl p hp) (forall₂_map_map fun row hrow => ?_)
  exact lin_strictMono T.rc (h p hp row hrow) (T.rl p hp row hrow) T.r2 hr hr' hlt

theorem lin3_neg (T : Tab as ns rs t) (ha : Span as a) (hn : Span ns n) (hr : Span rs r) :
    lin3 as ns rs (t.map fun p => p.map fun row => row.map fun y => -y) a n r
      = -lin3 as ns rs t a n r := by
  unfold lin3
  rw [← lin_neg T.a2 T.ac ha (by simpa using T.tl)]
  congr 1
  rw [List.map_map, List.map_map]
  refine List.map_congr_left fun p hp => ?_
  simp only [Function.comp]
  rw [← lin_neg T.n2 T.nc hn (by simpa using T.pl p hp)]
  congr 1
  rw [List.map_map, List.map_map]
  refine List.map_congr_left fun row hrow => ?_
  exact lin_neg T.r2 T.rc hr (T.rl p hp row hrow)

theorem lin3_continuous_n (T : Tab as ns rs t) (ha : Span as a) :
    Continuous fun n => lin3 as ns rs t a n r := by
  obtain ⟨i, w, hi, -, -, -, hv⟩ := lin_seg as a T.a2 T.ac ha
  have : (fun n => lin3 as ns rs t a n r) = fun n =>
      (1 - w) * lin ns ((t.getD i []).map fun row => lin rs row r) n
      + w * lin ns ((t.getD (i + 1) []).map fun row => lin rs row r) n := by
    funext n
    unfold lin3
    rw [hv _ (by simpa using T.tl)]
    have hg : ∀ j, j < t.length → (t.map fun p => lin ns (p.map fun row => lin rs row r) n).getD j 0
        = lin ns ((t.getD j []).map fun row => lin rs row r) n := fun j hj => by
      rw [List.getD_eq_getElem _ _ (by simpa using hj), List.getD_eq_getElem _ _ hj]; simp
    have := T.tl
    rw [hg _ (by omega), hg _ (by omega)]
  rw [this]
  have hm : ∀ j, j < t.length → t.getD j [] ∈ t := fun j hj => by
    rw [List.getD_eq_getElem _ _ hj]; exact List.getElem_mem _
  have := T.tl
  have c1 := lin_continuous ns ((t.getD i []).map fun row => lin rs row r) T.nc
    (by simpa using T.pl _ (hm i (by omega)))
  have c2 := lin_continuous ns ((t.getD (i + 1) []).map fun row => lin rs row r) T.nc
    (by simpa using T.pl _ (hm (i + 1) (by omega)))
  exact (c1.const_mul _).add (c2.const_mul _)

/-- A table at its first `alpha` and a speed given by its segment: a blend of two rows. -/
theorem lin3_at (T : Tab as ns rs t) (i : ℕ) (w : ℝ) (hi : i + 1 < ns.length) (h0 : 0 ≤ w)
    (h1 : w ≤ 1) (hn : n = (1 - w) * ns.getD i 0 + w * ns.getD (i + 1) 0) :
    lin3 as ns rs t (as.headD 0) n r
      = (1 - w) * lin rs ((t.headD []).getD i []) r + w * lin rs ((t.headD []).getD (i + 1) []) r := by
  obtain ⟨a₀, a₁, as', rfl⟩ : ∃ a₀ a₁ as', as = a₀ :: a₁ :: as' := by
    match as, T.a2 with
    | a₀ :: a₁ :: as', _ => exact ⟨_, _, _, rfl⟩
  obtain ⟨p₀, p₁, t', rfl⟩ : ∃ p₀ p₁ t', t = p₀ :: p₁ :: t' := by
    match t, T.tl with
    | p₀ :: p₁ :: t', _ => exact ⟨_, _, _, rfl⟩
  unfold lin3
  simp only [List.headD_cons, List.map_cons]
  rw [lin_head _ _ _ _ _ _ (List.isChain_cons_cons.1 T.ac).1.le, hn]
  have hp : p₀.length = ns.length := T.pl p₀ (by simp)
  rw [lin_at ns _ i w T.nc (by simpa using hp) hi h0 h1]
  have hg : ∀ j, j < p₀.length → (p₀.map fun row => lin rs row r).getD j 0
      = lin rs (p₀.getD j []) r := fun j hj => by
    rw [List.getD_eq_getElem _ _ (by simpa using hj), List.getD_eq_getElem _ _ hj]; simp
  rw [hg _ (by omega), hg _ (by omega)]

end PyCycle.MapData
