import Verif.Model.ThermoDataReal
import Verif.Lemmas.FitCheck
import Verif.Lemmas.LogBounds
import Verif.Props.C14_CoeffTable
import Verif.Props.C15_Polynomials
import Mathlib.Analysis.Calculus.Deriv.MeanValue
import Mathlib.Tactic.LinearCombination

/-! # C44: the built-in thermodynamic fits

Every fit shipped with the package is well formed, has a heat capacity bounded below by `2.49` gas
constants on each of its intervals, and is continuous at the interior knots up to a small tolerance.
So the values returned for a temperature depend on the calls made before by at most that tolerance,
and enthalpy and entropy increase with temperature up to it. -/

namespace PyCycle
open Data

/-! ## Specification -/

/-- The three data sets shipped with the package, each with the tolerance claimed for its jumps. -/
inductive Shipped : List Prod → ℝ → Prop
  | janaf : Shipped janaf (1 / 1000000)
  | wet_air : Shipped wet_air (1 / 1000000)
  | co2_co_o2 : Shipped co2_co_o2 (3 / 100000)

/-- The methods that return a value (not a derivative). -/
def IsValue (f : PropFn) : Prop := f = .H0 ∨ f = .S0 ∨ f = .Cp0

/-! ## Soundness of the certificates -/

/-- The row of coefficients of interval `k` as the evaluation functions take it. -/
private noncomputable def qrow (p : Prod) (k : ℕ) : Row := fun m => (p.co k m.val : ℝ)

private theorem getD_map (l : List ℚ) (m : ℕ) :
    (l.map (fun q : ℚ => (q : ℝ))).getD m 0 = ((l.getD m 0 : ℚ) : ℝ) := by
  induction l generalizing m with
  | nil => simp
  | cons a l ih =>
    cases m with
    | zero => rfl
    | succ m => simpa only [List.map_cons, List.getD_cons_succ] using ih m

private theorem getD_map2 (l : List (List ℚ)) (m : ℕ) :
    (l.map (fun r => r.map (fun q : ℚ => (q : ℝ)))).getD m [] = (l.getD m []).map (fun q : ℚ => (q : ℝ)) := by
  induction l generalizing m with
  | nil => rfl
  | cons a l ih =>
    cases m with
    | zero => rfl
    | succ m => simpa only [List.map_cons, List.getD_cons_succ] using ih m

private theorem row_eq (p : Prod) (k : ℕ) :
    (fun m : Fin 10 => (p.fit.coeffs.getD k []).getD m.val 0) = qrow p k := by
  funext m
  simp only [Prod.fit, qrow, Prod.co]
  rw [getD_map2, getD_map]

private theorem ref_eq (p : Prod) (f : PropFn) (i k : ℕ) (T : ℝ) :
    refValue p.fit f i k T = f.value i (qrow p k) T := by
  rw [refValue, row_eq]

private theorem knot_eq (p : Prod) (k : ℕ) : p.fit.ranges.getD k 0 = (p.knot k : ℝ) := by
  simp only [Prod.fit, Prod.knot]
  exact getD_map _ _

private theorem len_eq (p : Prod) : p.fit.ranges.length = p.ranges.length := by
  simp only [Prod.fit, List.length_map]

private theorem logEnc_sound (t lo hi : ℚ) (h : logEnc t = some (lo, hi)) : LogIn (t : ℝ) lo hi := by
  unfold logEnc at h
  split at h
  · rename_i e; subst e; simp only [Option.some.injEq, Prod.mk.injEq] at h
    obtain ⟨rfl, rfl⟩ := h; simpa using log_thousand
  · split at h
    · rename_i e; subst e; simp only [Option.some.injEq, Prod.mk.injEq] at h
      obtain ⟨rfl, rfl⟩ := h; simpa using log_999
    · split at h
      · rename_i e; subst e; simp only [Option.some.injEq, Prod.mk.injEq] at h
        obtain ⟨rfl, rfl⟩ := h; simpa using log_6000
      · cases h

/-- An affine function of the logarithm is bounded if it is at the ends of an enclosure. -/
private theorem affine_bound (A B L ε : ℝ) (lo hi : ℝ) (h1 : lo ≤ L) (h2 : L ≤ hi)
    (hlo : |A * lo + B| ≤ ε) (hhi : |A * hi + B| ≤ ε) : |A * L + B| ≤ ε := by
  rw [abs_le] at *
  rcases le_total 0 A with hA | hA
  · constructor <;> nlinarith [mul_le_mul_of_nonneg_left h1 hA, mul_le_mul_of_nonneg_left h2 hA]
  · constructor <;> nlinarith [mul_le_mul_of_nonpos_left h1 hA, mul_le_mul_of_nonpos_left h2 hA]

private theorem jump_sound (ε : ℚ) (p : Prod) (k : ℕ) (h : jumpOK ε p k = true) :
    0 < p.knot (k + 1) ∧ ∀ f, IsValue f → ∀ i,
      |refValue p.fit f i (k + 1) (p.knot (k + 1)) - refValue p.fit f i k (p.knot (k + 1))| ≤ ε := by
  unfold jumpOK at h
  simp only at h
  split at h
  · cases h
  rename_i lo hi hl
  simp only [Bool.and_eq_true, decide_eq_true_eq] at h
  obtain ⟨⟨⟨⟨⟨ht, hc⟩, hh1⟩, hh2⟩, hs1⟩, hs2⟩ := h
  obtain ⟨l1, l2⟩ := logEnc_sound _ _ _ hl
  refine ⟨ht, ?_⟩
  have ht' : ((p.knot (k + 1) : ℚ) : ℝ) ≠ 0 := by exact_mod_cast ht.ne'
  have hc' := (Rat.cast_le (K := ℝ)).2 hc
  have hh1' := (Rat.cast_le (K := ℝ)).2 hh1
  have hh2' := (Rat.cast_le (K := ℝ)).2 hh2
  have hs1' := (Rat.cast_le (K := ℝ)).2 hs1
  have hs2' := (Rat.cast_le (K := ℝ)).2 hs2
  simp only [cpQ, hQ, sQ] at hc' hh1' hh2' hs1' hs2'
  push_cast at hc' hh1' hh2' hs1' hs2'
  generalize ((p.knot (k + 1) : ℚ) : ℝ) = t at *
  rintro f (rfl | rfl | rfl) i <;> simp only [ref_eq, PropFn.value, h0, s0, cp0, qrow] <;>
    simp only [Fin.isValue, Fin.val_zero, Fin.val_one, Fin.val_two, show ((3 : Fin 10) : ℕ) = 3 from rfl,
      show ((4 : Fin 10) : ℕ) = 4 from rfl, show ((5 : Fin 10) : ℕ) = 5 from rfl,
      show ((6 : Fin 10) : ℕ) = 6 from rfl, show ((7 : Fin 10) : ℕ) = 7 from rfl,
      show ((8 : Fin 10) : ℕ) = 8 from rfl]
  · refine le_of_eq_of_le (congrArg _ ?_) (affine_bound
      (((p.co (k + 1) 1 : ℝ) - p.co k 1) / t)
      (-((p.co (k + 1) 0 : ℝ) - p.co k 0) / t ^ 2 + (p.co (k + 1) 2 - p.co k 2)
        + (p.co (k + 1) 3 - p.co k 3) * t / 2 + (p.co (k + 1) 4 - p.co k 4) * t ^ 2 / 3
        + (p.co (k + 1) 5 - p.co k 5) * t ^ 3 / 4 + (p.co (k + 1) 6 - p.co k 6) * t ^ 4 / 5
        + (p.co (k + 1) 7 - p.co k 7) / t) _ _ _ _ l1 l2
      (le_of_eq_of_le (congrArg _ ?_) hh1') (le_of_eq_of_le (congrArg _ ?_) hh2'))
    · ring
    · ring
    · ring
  · refine le_of_eq_of_le (congrArg _ ?_) (affine_bound
      (((p.co (k + 1) 2 : ℝ) - p.co k 2))
      (-((p.co (k + 1) 0 : ℝ) - p.co k 0) / (2 * t ^ 2) - (p.co (k + 1) 1 - p.co k 1) / t
        + (p.co (k + 1) 3 - p.co k 3) * t + (p.co (k + 1) 4 - p.co k 4) * t ^ 2 / 2
        + (p.co (k + 1) 5 - p.co k 5) * t ^ 3 / 3 + (p.co (k + 1) 6 - p.co k 6) * t ^ 4 / 4
        + (p.co (k + 1) 8 - p.co k 8)) _ _ _ _ l1 l2
      (le_of_eq_of_le (congrArg _ ?_) hs1') (le_of_eq_of_le (congrArg _ ?_) hs2'))
    · ring
    · ring
    · ring
  · refine le_of_eq_of_le (congrArg _ ?_) hc'
    ring

private theorem cp_sound (c : ℚ) (p : Prod) (k : ℕ) (h : cpOK c p k = true) :
    0 < p.knot k ∧ p.knot k < p.knot (k + 1) ∧
    ∀ T : ℝ, (p.knot k : ℝ) ≤ T → T ≤ p.knot (k + 1) → (c : ℝ) < cp0 (qrow p k) T := by
  unfold cpOK at h
  simp only [Bool.and_eq_true, decide_eq_true_eq, List.any_eq_true] at h
  obtain ⟨⟨h1, h2⟩, n, hn, hp⟩ := h
  refine ⟨h1, h2, fun T ha hb => ?_⟩
  have hn0 : 0 < n := by
    simp only [List.mem_cons, List.not_mem_nil, or_false] at hn
    omega
  have hn' : (n : ℝ) ≠ 0 := by exact_mod_cast hn0.ne'
  have := pcheck_sound _ _ _ n hp ha hn0 (by
    push_cast
    have : (n : ℝ) * (((p.knot (k + 1) : ℝ) - p.knot k) / n) = p.knot (k + 1) - p.knot k := by
      field_simp
    linarith)
  have hT : 0 < T := lt_of_lt_of_le (by exact_mod_cast h1) ha
  simp only [peval] at this
  have e : T ^ 2 * (cp0 (qrow p k) T - c) = peval [p.co k 0, p.co k 1, p.co k 2 - c, p.co k 3,
      p.co k 4, p.co k 5, p.co k 6] T := by
    simp only [peval, cp0, qrow]
    have hT' := hT.ne'
    push_cast
    field_simp
    simp only [Fin.isValue, Fin.val_zero, Fin.val_one, Fin.val_two,
      show ((3 : Fin 10) : ℕ) = 3 from rfl,
      show ((4 : Fin 10) : ℕ) = 4 from rfl, show ((5 : Fin 10) : ℕ) = 5 from rfl,
      show ((6 : Fin 10) : ℕ) = 6 from rfl]
    ring
  have hpos : 0 < T ^ 2 * (cp0 (qrow p k) T - c) := by rw [e]; simpa only [peval] using this
  have := (mul_pos_iff_of_pos_left (by positivity : (0 : ℝ) < T ^ 2)).1 hpos
  linarith

/-- What the certificates give for one product. -/
private structure Good (ε : ℝ) (p : Prod) : Prop where
  wf : FitWF p.fit
  pos : ∀ k, k + 1 < p.ranges.length → 0 < p.knot k
  lt : ∀ k, k + 1 < p.ranges.length → p.knot k < p.knot (k + 1)
  top : ∀ k, k + 2 < p.ranges.length → p.knot (k + 1) ≤ 6000
  jump : ∀ k, k + 2 < p.ranges.length → ∀ f, IsValue f → ∀ i,
    |refValue p.fit f i (k + 1) (p.knot (k + 1)) - refValue p.fit f i k (p.knot (k + 1))| ≤ ε
  cp : ∀ k, k + 1 < p.ranges.length → ∀ T : ℝ, (p.knot k : ℝ) ≤ T → T ≤ p.knot (k + 1) →
    2.49 < cp0 (qrow p k) T

private theorem prod_sound (ε : ℚ) (p : Prod) (h : prodOK ε 2.49 p = true) : Good ε p := by
  unfold prodOK at h
  simp only [Bool.and_eq_true, decide_eq_true_eq, List.all_eq_true, List.mem_range] at h
  obtain ⟨⟨⟨⟨⟨⟨h1, h2⟩, h3⟩, h4⟩, h5⟩, h6⟩, h7⟩ := h
  refine ⟨⟨?_, ?_, ?_, ?_⟩, ?_, ?_, ?_, ?_, ?_⟩
  · simp only [Prod.fit, List.pairwise_map]
    exact h1.imp (fun h => by exact_mod_cast h)
  · rwa [len_eq]
  · rw [len_eq]; simpa only [Prod.fit, List.length_map] using h3
  · intro r hr
    simp only [Prod.fit, List.mem_map] at hr
    obtain ⟨q, hq, rfl⟩ := hr
    simpa only [List.length_map] using h4 q hq
  · intro k hk; exact (cp_sound _ _ _ (h6 k (by omega))).1
  · intro k hk; exact (cp_sound _ _ _ (h6 k (by omega))).2.1
  · intro k hk
    refine h7 _ ?_
    have hk' : k + 1 < p.ranges.length := by omega
    rw [Prod.knot, List.getD_eq_getElem _ _ hk']
    have hl : k < p.ranges.tail.dropLast.length := by
      rw [List.length_dropLast, List.length_tail]; omega
    have : p.ranges.tail.dropLast[k] = p.ranges[k + 1] := by
      rw [List.getElem_dropLast, List.getElem_tail]
    rw [← this]
    exact List.getElem_mem hl
  · intro k hk; exact (jump_sound _ _ _ (h5 k (by omega))).2
  · intro k hk T ha hb
    have := (cp_sound _ _ _ (h6 k (by omega))).2.2 T ha hb
    push_cast at this
    exact this

private theorem shipped_good {D : List Prod} {ε : ℝ} (h : Shipped D ε) :
    ∀ p ∈ D, Good ε p := by
  cases h with
  | janaf =>
    intro p hp
    have := prod_sound _ _ (List.all_eq_true.1 janaf_fit_ok p hp)
    push_cast at this; norm_num at this ⊢; exact this
  | wet_air =>
    intro p hp
    have := prod_sound _ _ (List.all_eq_true.1 wet_air_fit_ok p hp)
    push_cast at this; norm_num at this ⊢; exact this
  | co2_co_o2 =>
    intro p hp
    have := prod_sound _ _ (List.all_eq_true.1 co2_fit_ok p hp)
    push_cast at this; norm_num at this ⊢; exact this

private theorem shipped_eps {D : List Prod} {ε : ℝ} (h : Shipped D ε) : 0 < ε := by
  cases h <;> norm_num

/-! ## Theorems -/

/-- **C44 (well-formed data).** Every product of every shipped data set has increasing temperature
knots, one coefficient row per interval, and rows of the expected width, so the hypotheses of C14 are
met by every table the package can build from them. -/
theorem C44_well_formed {D : List Prod} {ε : ℝ} (h : Shipped D ε) (p : Prod) (hp : p ∈ D) :
    FitWF p.fit := (shipped_good h p hp).wf

/-- **C44 (continuity at the knots).** Where two intervals of a fit meet, the heat capacity, enthalpy
and entropy given by the two intervals differ by at most the tolerance of the data set. -/
theorem C44_knot {D : List Prod} {ε : ℝ} (h : Shipped D ε) (p : Prod) (hp : p ∈ D) (k : ℕ)
    (hk : k + 2 < p.ranges.length) (f : PropFn) (hf : IsValue f) (i : ℕ) (T : ℝ)
    (hT : p.fit.ranges.getD (k + 1) 0 = T) :
    |refValue p.fit f i (k + 1) T - refValue p.fit f i k T| ≤ ε := by
  rw [knot_eq] at hT
  subst hT
  exact (shipped_good h p hp).jump k hk f hf i

/-- Two intervals serving the same temperature are equal or neighbours meeting there. -/
private theorem serves_near (p : TempFit) (wf : FitWF p) (T : ℝ) (k l : Nat) (hkl : k ≤ l)
    (hk : Serves p k T) (hl : Serves p l T) :
    k = l ∨ (l = k + 1 ∧ p.ranges.getD (k + 1) 0 = T) := by
  have mono : ∀ i j, i < j → j < p.ranges.length → p.ranges.getD i 0 < p.ranges.getD j 0 := by
    intro i j hij hj
    rw [List.getD_eq_getElem _ _ hj, List.getD_eq_getElem _ _ (by omega)]
    exact List.pairwise_iff_getElem.mp wf.sorted i j (by omega) hj hij
  rcases hkl.eq_or_lt with h | hlt
  · exact .inl h
  · right
    have h1 := hl.lower.resolve_left (by omega)
    have h2 := hk.upper.resolve_left (by have := hl.idx; omega)
    rcases Nat.lt_or_ge (k + 1) l with h | h
    · have := mono (k + 1) l h (by have := hl.idx; omega); linarith
    · have : l = k + 1 := by omega
      subst this
      exact ⟨rfl, le_antisymm h1 h2⟩

/-- **C44 (history matters by at most the tolerance).** For any selection of products of a shipped
data set, any temperature and any two histories of calls, the two results of a value method differ,
product by product, by at most the tolerance of the data set. -/
theorem C44_history {D : List Prod} {ε : ℝ} (h : Shipped D ε) (ps : List Prod)
    (hps : ∀ p ∈ ps, p ∈ D) (T : ℝ) (calls calls' : List (PropFn × ℝ)) (f : PropFn)
    (hf : IsValue f) (i : ℕ) (hi : i < ps.length) :
    ∃ v v', (callFn (ps.map Prod.fit) (runHistory (ps.map Prod.fit) calls) f T).2[i]? = some v ∧
      (callFn (ps.map Prod.fit) (runHistory (ps.map Prod.fit) calls') f T).2[i]? = some v' ∧
      |v - v'| ≤ ε := by
  have hwf : ∀ q ∈ ps.map Prod.fit, FitWF q := by
    intro q hq
    obtain ⟨p, hp, rfl⟩ := List.mem_map.1 hq
    exact C44_well_formed h p (hps p hp)
  have hi' : i < (ps.map Prod.fit).length := by rwa [List.length_map]
  obtain ⟨k, hk, e1⟩ := C14_value_from_serving_interval _ hwf calls f T i hi'
  obtain ⟨l, hl, e2⟩ := C14_value_from_serving_interval _ hwf calls' f T i hi'
  refine ⟨_, _, e1, e2, ?_⟩
  rw [List.getElem_map] at *
  have hp := hps _ (List.getElem_mem hi)
  have g := shipped_good h _ hp
  rcases le_total k l with hkl | hkl
  · rcases serves_near _ g.wf T k l hkl hk hl with rfl | ⟨rfl, hT⟩
    · rw [sub_self, abs_zero]; exact (shipped_eps h).le
    · rw [abs_sub_comm]
      exact C44_knot h _ hp k (by have := hl.idx; rw [len_eq] at this; omega) f hf i T hT
  · rcases serves_near _ g.wf T l k hkl hl hk with rfl | ⟨rfl, hT⟩
    · rw [sub_self, abs_zero]; exact (shipped_eps h).le
    · exact C44_knot h _ hp l (by have := hk.idx; rw [len_eq] at this; omega) f hf i T hT

/-- **C44 (heat capacity).** On each interval of each fit of each data set the heat capacity is at
least `2.49` times the gas constant, for every temperature of the interval. -/
theorem C44_heat_capacity {D : List Prod} {ε : ℝ} (h : Shipped D ε) (p : Prod) (hp : p ∈ D) (k : ℕ)
    (hk : k + 1 < p.ranges.length) (i : ℕ) (T : ℝ) (h1 : p.fit.ranges.getD k 0 ≤ T)
    (h2 : T ≤ p.fit.ranges.getD (k + 1) 0) : 2.49 < refValue p.fit .Cp0 i k T := by
  rw [knot_eq] at h1 h2
  simp only [ref_eq, PropFn.value]
  exact (shipped_good h p hp).cp k hk T h1 h2

private theorem mono_interval {ε : ℝ} {p : Prod} (g : Good ε p) (k : ℕ)
    (hk : k + 1 < p.ranges.length) (a b : ℝ) (ha : (p.knot k : ℝ) ≤ a) (hab : a ≤ b)
    (hb : b ≤ p.knot (k + 1)) :
    2.49 * (b - a) ≤ b * h0 (qrow p k) b - a * h0 (qrow p k) a
    ∧ 2.49 * (Real.log b - Real.log a) ≤ s0 (qrow p k) b - s0 (qrow p k) a := by
  have hk0 : (0 : ℝ) < p.knot k := by exact_mod_cast g.pos k hk
  have d1 : ∀ x ∈ Set.Icc a b, HasDerivAt (fun x => x * h0 (qrow p k) x - 2.49 * x)
      (cp0 (qrow p k) x - 2.49) x := by
    intro x hx
    have := (C15_enthalpy (qrow p k) x (by linarith [hx.1])).sub ((hasDerivAt_id x).const_mul 2.49)
    exact this.congr_deriv (by simp)
  have d2 : ∀ x ∈ Set.Icc a b, HasDerivAt (fun x => s0 (qrow p k) x - 2.49 * Real.log x)
      (cp0 (qrow p k) x / x - 2.49 * x⁻¹) x := by
    intro x hx
    have hx0 : 0 < x := by linarith [hx.1]
    exact (C15_entropy (qrow p k) x hx0).sub ((Real.hasDerivAt_log hx0.ne').const_mul 2.49)
  have m1 : MonotoneOn (fun x => x * h0 (qrow p k) x - 2.49 * x) (Set.Icc a b) := by
    refine monotoneOn_of_deriv_nonneg (convex_Icc a b)
      (fun x hx => (d1 x hx).continuousAt.continuousWithinAt)
      (fun x hx => (d1 x (interior_subset hx)).differentiableAt.differentiableWithinAt) ?_
    intro x hx
    have hx' := interior_subset hx
    rw [(d1 x hx').deriv]
    have := g.cp k hk x (ha.trans hx'.1) (hx'.2.trans hb)
    linarith
  have m2 : MonotoneOn (fun x => s0 (qrow p k) x - 2.49 * Real.log x) (Set.Icc a b) := by
    refine monotoneOn_of_deriv_nonneg (convex_Icc a b)
      (fun x hx => (d2 x hx).continuousAt.continuousWithinAt)
      (fun x hx => (d2 x (interior_subset hx)).differentiableAt.differentiableWithinAt) ?_
    intro x hx
    have hx' := interior_subset hx
    rw [(d2 x hx').deriv]
    have := g.cp k hk x (ha.trans hx'.1) (hx'.2.trans hb)
    have hx0 : 0 < x := by linarith [hx'.1]
    have e : cp0 (qrow p k) x / x - 2.49 * x⁻¹ = (cp0 (qrow p k) x - 2.49) / x := by
      field_simp
    rw [e]
    exact div_nonneg (by linarith) hx0.le
  have r1 := m1 (Set.left_mem_Icc.2 hab) (Set.right_mem_Icc.2 hab) hab
  have r2 := m2 (Set.left_mem_Icc.2 hab) (Set.right_mem_Icc.2 hab) hab
  simp only at r1 r2
  constructor <;> linarith

private theorem knot_mono {ε : ℝ} {p : Prod} (g : Good ε p) (i j : ℕ) (hij : i ≤ j)
    (hj : j < p.ranges.length) : p.knot i ≤ p.knot j := by
  induction j with
  | zero => have : i = 0 := by omega
            rw [this]
  | succ j ih =>
    rcases Nat.lt_or_ge j i with h | h
    · have : i = j + 1 := by omega
      rw [this]
    · exact (ih h (by omega)).trans (g.lt j (by omega)).le

private theorem chain {ε : ℝ} (he : 0 < ε) {p : Prod} (g : Good ε p) (n : ℕ) : ∀ (k : ℕ) (a b : ℝ),
    k + n + 1 < p.ranges.length → (p.knot k : ℝ) ≤ a → a ≤ b →
    (n = 0 ∨ a ≤ p.knot (k + 1)) → (p.knot (k + n) : ℝ) ≤ b → b ≤ p.knot (k + n + 1) →
    2.49 * (b - a) - n * (6000 * ε) ≤ b * h0 (qrow p (k + n)) b - a * h0 (qrow p k) a
    ∧ 2.49 * (Real.log b - Real.log a) - n * ε ≤ s0 (qrow p (k + n)) b - s0 (qrow p k) a := by
  induction n with
  | zero =>
    intro k a b hk ha hab _ _ hb
    simpa using mono_interval g k (by omega) a b ha hab hb
  | succ n ih =>
    intro k a b hk ha hab hak hkb hb
    have hak := hak.resolve_left (by omega)
    have e : k + (n + 1) = k + 1 + n := by omega
    have htb : (p.knot (k + 1) : ℝ) ≤ b := by
      refine le_trans ?_ hkb
      exact_mod_cast knot_mono g (k + 1) (k + (n + 1)) (by omega) (by omega)
    rw [e] at hkb hb ⊢
    have i1 := mono_interval g k (by omega) a (p.knot (k + 1)) ha hak le_rfl
    have i2 := ih (k + 1) (p.knot (k + 1)) b (by omega) le_rfl htb
      (.inr (by exact_mod_cast (g.lt (k + 1) (by omega)).le)) hkb hb
    have jH := g.jump k (by omega) .H0 (.inl rfl) 0
    have jS := g.jump k (by omega) .S0 (.inr (.inl rfl)) 0
    simp only [ref_eq, PropFn.value] at jH jS
    have t0 : (0 : ℝ) < p.knot (k + 1) := by exact_mod_cast g.pos (k + 1) (by omega)
    have t1 : ((p.knot (k + 1) : ℚ) : ℝ) ≤ 6000 := by exact_mod_cast g.top k (by omega)
    rw [abs_le] at jH jS
    have hj : (p.knot (k + 1) : ℝ) * h0 (qrow p k) (p.knot (k + 1))
        - p.knot (k + 1) * h0 (qrow p (k + 1)) (p.knot (k + 1)) ≤ 6000 * ε := by
      calc _ = (p.knot (k + 1) : ℝ) * (h0 (qrow p k) (p.knot (k + 1))
              - h0 (qrow p (k + 1)) (p.knot (k + 1))) := by ring
        _ ≤ p.knot (k + 1) * ε := mul_le_mul_of_nonneg_left (by linarith [jH.1]) t0.le
        _ ≤ 6000 * ε := mul_le_mul_of_nonneg_right t1 he.le
    push_cast
    constructor
    · linarith [i1.1, i2.1]
    · linarith [i1.2, i2.2, jS.1]

/-- **C44 (enthalpy and entropy increase with temperature).** For any shipped fit and any two
temperatures inside its range, whichever intervals serve them (so after any two histories of calls),
the enthalpy `T*H0` rises by at least `2.49` per kelvin and the entropy by at least `2.49` per unit of
`log T`, up to the tolerance of the data set once per knot crossed. -/
theorem C44_increasing {D : List Prod} {ε : ℝ} (h : Shipped D ε) (p : Prod) (hp : p ∈ D) (i : ℕ)
    (k l : ℕ) (a b : ℝ) (hab : a < b) (hk : Serves p.fit k a) (hl : Serves p.fit l b)
    (ha : p.fit.ranges.getD 0 0 ≤ a) (hb : b ≤ p.fit.ranges.getD (p.ranges.length - 1) 0) :
    2.49 * (b - a) - (l - k) * (6000 * ε)
        ≤ b * refValue p.fit .H0 i l b - a * refValue p.fit .H0 i k a
    ∧ 2.49 * (Real.log b - Real.log a) - (l - k) * ε
        ≤ refValue p.fit .S0 i l b - refValue p.fit .S0 i k a := by
  have g := shipped_good h p hp
  have hki := hk.idx
  have hli := hl.idx
  rw [len_eq] at hki hli
  have lo : (p.knot k : ℝ) ≤ a := by
    rw [← knot_eq]
    rcases hk.lower with rfl | h
    · exact ha
    · exact h
  have up : b ≤ p.knot (l + 1) := by
    rw [← knot_eq]
    rcases hl.upper with h | h
    · rw [len_eq] at h
      rw [show l + 1 = p.ranges.length - 1 by omega]; exact hb
    · exact h
  have hkl : k ≤ l := by
    by_contra hc
    push Not at hc
    have h1 : b ≤ p.knot (l + 1) := up
    have h2 : (p.knot (l + 1) : ℝ) ≤ p.knot k := by
      exact_mod_cast knot_mono g (l + 1) k (by omega) (by omega)
    linarith
  obtain ⟨n, rfl⟩ := Nat.exists_eq_add_of_le hkl
  have hlo : (p.knot (k + n) : ℝ) ≤ b := by
    rcases hl.lower with h | h
    · have : n = 0 := by omega
      subst this; simpa only [Nat.add_zero] using lo.trans hab.le
    · rwa [← knot_eq]
  have hup : n = 0 ∨ a ≤ p.knot (k + 1) := by
    rcases hk.upper with h | h
    · left; rw [len_eq] at h; omega
    · right; rwa [← knot_eq]
  have := chain (shipped_eps h) g n k a b hli lo hab.le hup hlo up
  simp only [ref_eq, PropFn.value]
  push_cast
  have e : (k : ℝ) + n - k = n := by ring
  rw [e]
  exact this

/-- **C44 (no kelvin-sized ambiguity).** With the JANAF data, two temperatures at least 0.01 K apart
never have the same enthalpy, whatever was evaluated before. -/
theorem C44_separated (p : Prod) (hp : p ∈ janaf) (i k l : ℕ) (a b : ℝ)
    (hab : a + 1 / 100 ≤ b) (hk : Serves p.fit k a) (hl : Serves p.fit l b)
    (ha : p.fit.ranges.getD 0 0 ≤ a) (hb : b ≤ p.fit.ranges.getD (p.ranges.length - 1) 0) :
    a * refValue p.fit .H0 i k a < b * refValue p.fit .H0 i l b := by
  have := (C44_increasing .janaf p hp i k l a b (by linarith) hk hl ha hb).1
  have hl3 : p.ranges.length ≤ 4 := by
    have : janaf.all (fun p => decide (p.ranges.length ≤ 4)) = true := by decide +kernel
    simpa using List.all_eq_true.1 this p hp
  have hli := hl.idx
  rw [len_eq] at hli
  have h1 : (l : ℝ) - k ≤ 2 := by
    have : (l : ℝ) ≤ 2 := by exact_mod_cast (by omega : l ≤ 2)
    have : (0 : ℝ) ≤ k := Nat.cast_nonneg k
    linarith
  nlinarith

/-- Non-vacuity: carbon monoxide in the JANAF set has three intervals; 900 K and 1500 K are served by
the first and the second, so `C44_increasing` compares values across a knot. -/
example : janaf_CO ∈ janaf ∧ Serves janaf_CO.fit 0 900 ∧ Serves janaf_CO.fit 1 1500
    ∧ 0 + 2 < janaf_CO.ranges.length := by
  refine ⟨by simp [janaf], ⟨?_, .inl rfl, .inr ?_⟩, ⟨?_, .inr ?_, .inr ?_⟩, ?_⟩ <;>
    simp [janaf_CO, Prod.fit] <;> norm_num

end PyCycle
