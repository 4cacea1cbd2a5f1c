import Verif.Lemmas.Lin3

/-! # From checks on the rational literals to facts about the interpolated maps -/

namespace PyCycle.MapData

theorem real_length (l : List ℚ) : (real l).length = l.length := by simp [real]

theorem real_getD (l : List ℚ) (i : ℕ) : (real l).getD i 0 = ((l.getD i 0 : ℚ) : ℝ) := by
  simp only [real, List.getD_eq_getElem?_getD, List.getElem?_map]
  cases l[i]? <;> simp

theorem real_headD (l : List ℚ) : (real l).headD 0 = ((l.headD 0 : ℚ) : ℝ) := by
  cases l <;> simp [real]

theorem real_getLastD (l : List ℚ) : (real l).getLastD 0 = ((l.getLastD 0 : ℚ) : ℝ) := by
  simp only [real, List.getLastD_eq_getLast?, List.getLast?_map]
  cases l.getLast? <;> simp

theorem real_chain_lt {l : List ℚ} (h : l.IsChain (· < ·)) : (real l).IsChain (· < ·) := by
  unfold real
  rw [List.isChain_map]
  exact h.imp fun a b h => by exact_mod_cast h

theorem real_chain_le {l : List ℚ} (h : l.IsChain (· ≤ ·)) : (real l).IsChain (· ≤ ·) := by
  unfold real
  rw [List.isChain_map]
  exact h.imp fun a b h => by exact_mod_cast h

theorem lin_real : ∀ (xs ys : List ℚ) (x : ℚ),
    lin (real xs) (real ys) (x : ℝ) = ((lin xs ys x : ℚ) : ℝ)
  | [], [], _ => by simp [real, lin]
  | [_], [], _ => by simp [real, lin]
  | _ :: _ :: _, [], _ => by simp [real, lin]
  | [], _ :: _, _ => by simp [real, lin]
  | [_], _ :: _, _ => by simp [real, lin]
  | _ :: _ :: _, [_], _ => by simp [real, lin]
  | x₀ :: x₁ :: xs, y₀ :: y₁ :: ys, x => by
    have ih := lin_real (x₁ :: xs) (y₁ :: ys) x
    simp only [real, List.map_cons] at ih ⊢
    rw [lin, lin, ih]
    by_cases h : x ≤ x₁ ∨ xs = []
    · rw [if_pos h, if_pos (by simpa using h)]; push_cast; rfl
    · rw [if_neg h, if_neg (by simpa using h)]

theorem lin3_real (as ns rs : List ℚ) (t : List (List (List ℚ))) (a n r : ℚ) :
    lin3 (real as) (real ns) (real rs) (real3 t) (a : ℝ) (n : ℝ) (r : ℝ)
      = ((lin3 as ns rs t a n r : ℚ) : ℝ) := by
  have h2 : ∀ p : List (List ℚ), (p.map real).map (fun row => lin (real rs) row (r : ℝ))
      = real (p.map fun row => lin rs row r) := fun p => by
    unfold real
    rw [List.map_map, List.map_map]
    exact List.map_congr_left fun row _ => lin_real rs row r
  have h3 : (real3 t).map (fun p => lin (real ns) (p.map fun row => lin (real rs) row (r : ℝ)) (n : ℝ))
      = real (t.map fun p => lin ns (p.map fun row => lin rs row r) n) := by
    unfold real3
    rw [List.map_map]
    conv_rhs => unfold real
    rw [List.map_map]
    refine List.map_congr_left fun p _ => ?_
    simp only [Function.comp, h2]
    exact lin_real ns _ n
  unfold lin3
  rw [h3, lin_real]

/-- The checks that make a table well formed. -/
abbrev TabQ (as ns rs : List ℚ) (t : List (List (List ℚ))) : Prop :=
  as.IsChain (· < ·) ∧ ns.IsChain (· < ·) ∧ rs.IsChain (· < ·)
  ∧ 2 ≤ as.length ∧ 2 ≤ ns.length ∧ 2 ≤ rs.length
  ∧ t.length = as.length ∧ (∀ p ∈ t, p.length = ns.length)
  ∧ (∀ p ∈ t, ∀ row ∈ p, row.length = rs.length)

theorem tab_real {as ns rs : List ℚ} {t : List (List (List ℚ))} (h : TabQ as ns rs t) :
    Tab (real as) (real ns) (real rs) (real3 t) := by
  obtain ⟨h1, h2, h3, h4, h5, h6, h7, h8, h9⟩ := h
  refine ⟨real_chain_lt h1, real_chain_lt h2, real_chain_lt h3, by rwa [real_length],
    by rwa [real_length], by rwa [real_length], by simpa [real3, real_length] using h7, ?_, ?_⟩
  · intro p hp
    obtain ⟨p, hp', rfl⟩ := List.mem_map.1 hp
    simpa [real_length] using h8 p hp'
  · intro p hp row hrow
    obtain ⟨p, hp', rfl⟩ := List.mem_map.1 hp
    obtain ⟨row, hrow', rfl⟩ := List.mem_map.1 hrow
    simpa [real_length] using h9 p hp' row hrow'

theorem real3_entries {t : List (List (List ℚ))} {s : Set ℝ}
    (h : ∀ p ∈ t, ∀ row ∈ p, ∀ y ∈ row, ((y : ℚ) : ℝ) ∈ s) :
    ∀ p ∈ real3 t, ∀ row ∈ p, ∀ y ∈ row, y ∈ s := by
  intro p hp row hrow y hy
  obtain ⟨p, hp', rfl⟩ := List.mem_map.1 hp
  obtain ⟨row, hrow', rfl⟩ := List.mem_map.1 hrow
  obtain ⟨y, hy', rfl⟩ := List.mem_map.1 hy
  exact h p hp' row hrow' y hy'

theorem real3_rows_le {t : List (List (List ℚ))}
    (h : ∀ p ∈ t, ∀ row ∈ p, row.IsChain (· ≤ ·)) :
    ∀ p ∈ real3 t, ∀ row ∈ p, row.IsChain (· ≤ ·) := by
  intro p hp row hrow
  obtain ⟨p, hp', rfl⟩ := List.mem_map.1 hp
  obtain ⟨row, hrow', rfl⟩ := List.mem_map.1 hrow
  exact real_chain_le (h p hp' row hrow')

/-- Each row lies below the next, entry by entry. -/
def below : List ℚ → List ℚ → Bool
  | [], [] => true
  | x :: xs, y :: ys => decide (x < y) && below xs ys
  | _, _ => false

theorem below_real : ∀ {l m : List ℚ}, below l m = true → List.Forall₂ (· < ·) (real l) (real m)
  | [], [], _ => by simp [real]
  | [], _ :: _, h => by simp [below] at h
  | _ :: _, [], h => by simp [below] at h
  | x :: xs, y :: ys, h => by
    simp only [below, Bool.and_eq_true, decide_eq_true_eq] at h
    have ih := below_real h.2
    simp only [real, List.map_cons, List.forall₂_cons] at ih ⊢
    exact ⟨by exact_mod_cast h.1, ih⟩

theorem real3_planes {t : List (List (List ℚ))}
    (h : ∀ p ∈ t, p.IsChain (fun row row' => below row row' = true)) :
    ∀ p ∈ real3 t, p.IsChain (fun row row' => List.Forall₂ (· < ·) row row') := by
  intro p hp
  obtain ⟨p, hp', rfl⟩ := List.mem_map.1 hp
  rw [List.isChain_map]
  exact (h p hp').imp fun _ _ h => below_real h

/-- Decidable form of `StrictUpTo`. -/
def strictQ : List ℚ → List ℚ → ℚ → Bool
  | x₀ :: x₁ :: xs, y₀ :: y₁ :: ys, t =>
      decide (y₀ < y₁) && (decide (t < x₁) || xs.isEmpty || strictQ (x₁ :: xs) (y₁ :: ys) t)
  | _, _, _ => true

theorem strictQ_real : ∀ (xs ys : List ℚ) (t : ℚ), strictQ xs ys t = true →
    StrictUpTo (real xs) (real ys) (t : ℝ)
  | [], _, _, _ => by simp [StrictUpTo, real]
  | [_], _, _, _ => by simp [StrictUpTo, real]
  | _ :: _ :: _, [], _, _ => by simp [StrictUpTo, real]
  | _ :: _ :: _, [_], _, _ => by simp [StrictUpTo, real]
  | x₀ :: x₁ :: xs, y₀ :: y₁ :: ys, t, h => by
    simp only [strictQ, Bool.and_eq_true, Bool.or_eq_true, decide_eq_true_eq,
      List.isEmpty_iff] at h
    have ih := strictQ_real (x₁ :: xs) (y₁ :: ys) t
    simp only [real, List.map_cons, StrictUpTo, List.map_eq_nil_iff] at ih ⊢
    refine ⟨by exact_mod_cast h.1, ?_⟩
    rcases h.2 with (h | h) | h
    · exact Or.inl (by exact_mod_cast h)
    · exact Or.inr (Or.inl h)
    · exact Or.inr (Or.inr (ih h))

/-- Both rows around the default speed are non-decreasing, and one that counts is strictly
increasing up to the default line. -/
abbrev PeakQ (as ns rs : List ℚ) (t : List (List (List ℚ))) (a n r : ℚ) (i : ℕ) (w : ℚ) : Prop :=
  a = as.headD 0 ∧ i + 1 < ns.length ∧ 0 ≤ w ∧ w ≤ 1
  ∧ n = (1 - w) * ns.getD i 0 + w * ns.getD (i + 1) 0
  ∧ i + 1 < (t.headD []).length
  ∧ ((t.headD []).getD i []).IsChain (· ≤ ·) ∧ ((t.headD []).getD (i + 1) []).IsChain (· ≤ ·)
  ∧ ((w < 1 ∧ strictQ rs ((t.headD []).getD i []) r = true)
      ∨ (0 < w ∧ strictQ rs ((t.headD []).getD (i + 1) []) r = true))

theorem real3_headD (t : List (List (List ℚ))) (i : ℕ) :
    ((real3 t).headD []).getD i [] = real ((t.headD []).getD i []) := by
  cases t with
  | nil => simp [real3, real]
  | cons p t =>
    simp only [real3, List.map_cons, List.headD_cons, List.getD_eq_getElem?_getD, List.getElem?_map]
    cases p[i]? <;> simp [real]

/-- At such a point the map value separates the third coordinate. -/
theorem peak_inj {as ns rs : List ℚ} {t : List (List (List ℚ))} {a n r : ℚ} {i : ℕ} {w : ℚ}
    (h : TabQ as ns rs t) (hp : PeakQ as ns rs t a n r i w) (hr : Span (real rs) (r : ℝ))
    {r' : ℝ} (hr' : Span (real rs) r')
    (e : lin3 (real as) (real ns) (real rs) (real3 t) (a : ℝ) (n : ℝ) r'
      = lin3 (real as) (real ns) (real rs) (real3 t) (a : ℝ) (n : ℝ) (r : ℝ)) : r' = r := by
  have T := tab_real h
  obtain ⟨ha, hi, h0, h1, hn, hlen, c0, c1, hs⟩ := hp
  have ha' : (a : ℝ) = (real as).headD 0 := by rw [real_headD, ha]
  have hw0 : (0 : ℝ) ≤ w := by exact_mod_cast h0
  have hw1 : (w : ℝ) ≤ 1 := by exact_mod_cast h1
  have hn' : (n : ℝ) = (1 - (w : ℝ)) * (real ns).getD i 0 + (w : ℝ) * (real ns).getD (i + 1) 0 := by
    rw [real_getD, real_getD, hn]; push_cast; ring
  have key := fun r₁ : ℝ => lin3_at (r := r₁) T i (w : ℝ) (by rwa [real_length]) hw0 hw1 hn'
  rw [ha', key, key] at e
  simp only [real3_headD] at e
  have hmem : (t.headD []) ∈ t := by
    cases t with
    | nil => simp at hlen
    | cons p t => simp
  have l0 : ((t.headD []).getD i []).length = rs.length := by
    rw [List.getD_eq_getElem _ _ (by omega)]
    exact h.2.2.2.2.2.2.2.2 _ hmem _ (List.getElem_mem _)
  have l1 : ((t.headD []).getD (i + 1) []).length = rs.length := by
    rw [List.getD_eq_getElem _ _ hlen]
    exact h.2.2.2.2.2.2.2.2 _ hmem _ (List.getElem_mem _)
  have strict : ∀ x y : ℝ, Span (real rs) x → Span (real rs) y → x < y → (x = r ∨ y = r) →
      (1 - (w : ℝ)) * lin (real rs) (real ((t.headD []).getD i [])) x
        + w * lin (real rs) (real ((t.headD []).getD (i + 1) [])) x
      < (1 - (w : ℝ)) * lin (real rs) (real ((t.headD []).getD i [])) y
        + w * lin (real rs) (real ((t.headD []).getD (i + 1) [])) y := by
    intro x y hx hy hxy hor
    have m0 := lin_mono _ (real ((t.headD []).getD i [])) x y T.rc (real_chain_le c0)
      (by rw [real_length, real_length, l0]) hx hy hxy.le
    have m1 := lin_mono _ (real ((t.headD []).getD (i + 1) [])) x y T.rc (real_chain_le c1)
      (by rw [real_length, real_length, l1]) hx hy hxy.le
    have m0' := mul_le_mul_of_nonneg_left m0 (sub_nonneg.2 hw1)
    have m1' := mul_le_mul_of_nonneg_left m1 hw0
    rcases hs with ⟨hw, hs⟩ | ⟨hw, hs⟩
    · have s := strictQ_real _ _ _ hs
      have := lin_lt _ (real ((t.headD []).getD i [])) x y T.rc (real_chain_le c0)
        (by rw [real_length, real_length, l0]) T.r2 hx hy
        (by rcases hor with e | e <;> subst e
            · exact Or.inr s
            · exact Or.inl s) hxy
      have hw' : (0 : ℝ) < 1 - w := by
        have : (w : ℝ) < 1 := by exact_mod_cast hw
        linarith
      have := mul_lt_mul_of_pos_left this hw'
      linarith
    · have s := strictQ_real _ _ _ hs
      have := lin_lt _ (real ((t.headD []).getD (i + 1) [])) x y T.rc (real_chain_le c1)
        (by rw [real_length, real_length, l1]) T.r2 hx hy
        (by rcases hor with e | e <;> subst e
            · exact Or.inr s
            · exact Or.inl s) hxy
      have hw' : (0 : ℝ) < w := by exact_mod_cast hw
      have := mul_lt_mul_of_pos_left this hw'
      linarith
  rcases lt_trichotomy r' (r : ℝ) with hlt | heq | hgt
  · exact absurd e (strict _ _ hr' hr hlt (Or.inr rfl)).ne
  · exact heq
  · exact absurd e (strict _ _ hr hr' hgt (Or.inl rfl)).ne'

end PyCycle.MapData
