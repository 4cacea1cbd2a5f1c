import Verif.Model.Cooling
import Verif.Lemmas.HasD
import Mathlib.Tactic.IntervalCases

/-! # C32: turbine cooling -/

namespace PyCycle.Cool

private theorem foldl_add (l : List ℝ) (a : ℝ) : l.foldl (· + ·) a = a + l.sum := by
  induction l generalizing a with
  | nil => simp
  | cons b l ih => simp only [List.foldl_cons, List.sum_cons, ih]; ring

/-- **C32 (total coolant).** For any number of inflows the combined coolant is their sum, and the
declared constant partials are exact. -/
theorem C32_combine {n : ℕ} (W : Fin n → ℝ) :
    combine W = ∑ k, W k
    ∧ ExactPartials (fun W (_ : Unit) => combine W) (fun W _ => combineJ W) W := by
  have hs : ∀ V : Fin n → ℝ, combine V = ∑ k, V k := fun V => by
    rw [combine, foldl_add, zero_add, List.sum_ofFn]
  refine ⟨hs W, fun _ i => ?_⟩
  have he : (fun t => combine (Function.update W i t))
      = fun t => t + ∑ k ∈ Finset.univ.erase i, W k := by
    funext t
    rw [hs, ← Finset.add_sum_erase _ _ (Finset.mem_univ i), Function.update_self]
    congr 1
    exact Finset.sum_congr rfl fun k hk => Function.update_of_ne (Finset.ne_of_mem_erase hk) _ _
  show HasDerivAt (fun t => combine (Function.update W i t)) 1 (W i)
  rw [he]
  exact (hasDerivAt_id _).add_const _

/-- The gas temperature a row is designed for: vanes (even rows) see the total temperature, rotors
(odd rows) 92% of it, plus the safety margin in both cases. -/
noncomputable def hotGas (i_row : ℕ) (T_safety Tt : ℝ) : ℝ :=
  (if Even i_row then Tt else 0.92 * Tt) + T_safety

private theorem Tgas_eq (o : Opt) (x : I → ℝ) : Tgas o x = hotGas o.i_row o.T_safety (x .Tt_primary) := by
  unfold Tgas hotGas
  by_cases h : Even o.i_row
  · rw [if_pos h, if_pos (Nat.even_iff.1 h)]
  · rw [if_neg h, if_neg (fun h' => h (Nat.even_iff.2 h'))]

/-- **C32 (coolant).** Below the allowed metal temperature a row uses no coolant; at or above it,
with coolant colder than the metal, a positive technology factor and positive primary flow, it uses
a positive amount. -/
theorem C32_coolant (o : Opt) (x : I → ℝ) :
    (hotGas o.i_row o.T_safety (x .Tt_primary) < o.T_metal → compute o x .W_cool = 0)
    ∧ (o.T_metal ≤ hotGas o.i_row o.T_safety (x .Tt_primary) → x .Tt_cool < o.T_metal →
        0 < x .x_factor → 0 < x .W_primary → 0 < compute o x .W_cool) := by
  rw [← Tgas_eq]
  refine ⟨fun h => by simp [compute, Wcool, h], fun h hc hx hw => ?_⟩
  have hpf : 0 < profileFactor o := by unfold profileFactor; split <;> norm_num
  have hphi0 : 0 ≤ phi o x := div_nonneg (by linarith) (by linarith)
  have hphi1 : phi o x < 1 := by
    rw [phi, div_lt_one (by linarith)]; linarith
  have h0 : 0 < phi' o x := div_pos (by linarith) (by linarith)
  have h1 : phi' o x < 1 := by rw [phi', div_lt_one (by linarith)]; linarith
  simp only [compute, Wcool, if_neg (not_lt.mpr h)]
  have : 0 < (phi' o x / (1 - phi' o x)) ^ (1.25 : ℝ) :=
    Real.rpow_pos_of_pos (div_pos h0 (by linarith)) _
  positivity

private theorem coolant_aux (o : Opt) (x : I → ℝ) :
    (Tgas o x < o.T_metal → compute o x .W_cool = 0)
    ∧ (o.T_metal ≤ Tgas o x → x .Tt_cool < o.T_metal → 0 < x .x_factor → 0 < x .W_primary →
        0 < compute o x .W_cool) := by
  rw [Tgas_eq]; exact C32_coolant o x

/-- **C32 (amount).** The coolant of a hot row in closed form: with gas, metal and coolant
temperatures `G`, `M`, `C` and profile allowance `p` (0.3 for the first row, 0.13 for the others) it is
proportional to technology factor, primary flow and the power 1.25 of
`((G - M) + p (G - C)) / (M - C)`. -/
theorem C32_amount (o : Opt) (x : I → ℝ) (G p : ℝ)
    (hG : G = hotGas o.i_row o.T_safety (x .Tt_primary)) (hp : p = if o.i_row = 0 then 0.3 else 0.13)
    (h : o.T_metal ≤ G) (hc : x .Tt_cool < o.T_metal) :
    compute o x .W_cool = 0.022 * (4 / 3) * x .x_factor * x .W_primary
      * (((G - o.T_metal) + p * (G - x .Tt_cool)) / (o.T_metal - x .Tt_cool)) ^ (1.25 : ℝ) := by
  have hG' : Tgas o x = G := by rw [hG, Tgas_eq]
  have hp' : profileFactor o = p := hp.symm
  have hp0 : 0 < p := by rw [hp]; split <;> norm_num
  have d1 : G - x .Tt_cool ≠ 0 := by linarith
  have d2 : o.T_metal - x .Tt_cool ≠ 0 := by linarith
  have d3 : p + 1 ≠ 0 := by linarith
  have e1 : 1 - phi' o x = (o.T_metal - x .Tt_cool) / ((G - x .Tt_cool) * (p + 1)) := by
    simp only [phi', phi, hG', hp']
    field_simp
    ring
  have e2 : phi' o x = ((G - o.T_metal) + p * (G - x .Tt_cool)) / ((G - x .Tt_cool) * (p + 1)) := by
    simp only [phi', phi, hG', hp']
    field_simp
  have e3 : phi' o x / (1 - phi' o x)
      = ((G - o.T_metal) + p * (G - x .Tt_cool)) / (o.T_metal - x .Tt_cool) := by
    rw [e1, e2, div_div_div_cancel_right₀ (mul_ne_zero d1 d3)]
  simp only [compute, Wcool]
  rw [hG', if_neg (not_lt.mpr h), e3]
  ring

/-- **C32 (hotter gas needs more coolant).** With everything else fixed, a hotter gas never needs less
coolant, and strictly more once the row is cooled. -/
theorem C32_hotter (o : Opt) (x y : I → ℝ) (hxy : ∀ i, i ≠ .Tt_primary → y i = x i)
    (hT : x .Tt_primary < y .Tt_primary) (hc : x .Tt_cool < o.T_metal) (hx : 0 < x .x_factor)
    (hw : 0 < x .W_primary) :
    compute o x .W_cool ≤ compute o y .W_cool
    ∧ (o.T_metal ≤ hotGas o.i_row o.T_safety (y .Tt_primary) →
        compute o x .W_cool < compute o y .W_cool) := by
  have e1 := hxy .Tt_cool (by simp)
  have e2 := hxy .x_factor (by simp)
  have e3 := hxy .W_primary (by simp)
  have hlt : hotGas o.i_row o.T_safety (x .Tt_primary) < hotGas o.i_row o.T_safety (y .Tt_primary) := by
    unfold hotGas; split <;> linarith
  have key : o.T_metal ≤ hotGas o.i_row o.T_safety (y .Tt_primary) →
      compute o x .W_cool < compute o y .W_cool := by
    intro hy
    by_cases h : o.T_metal ≤ hotGas o.i_row o.T_safety (x .Tt_primary)
    · rw [C32_amount o x _ _ rfl rfl h hc, C32_amount o y _ _ rfl rfl hy (by rw [e1]; exact hc), e1, e2, e3]
      have hp0 : (0 : ℝ) < if o.i_row = 0 then 0.3 else 0.13 := by split <;> norm_num
      refine mul_lt_mul_of_pos_left (Real.rpow_lt_rpow ?_ ?_ (by norm_num)) (by positivity)
      · exact div_nonneg (add_nonneg (by linarith) (mul_nonneg hp0.le (by linarith))) (by linarith)
      · refine div_lt_div_of_pos_right ?_ (by linarith)
        nlinarith
    · rw [(C32_coolant o x).1 (not_le.1 h)]
      exact (C32_coolant o y).2 hy (by rw [e1]; exact hc) (by rw [e2]; exact hx) (by rw [e3]; exact hw)
  refine ⟨?_, key⟩
  by_cases hy : o.T_metal ≤ hotGas o.i_row o.T_safety (y .Tt_primary)
  · exact (key hy).le
  · rw [(C32_coolant o x).1 (by linarith), (C32_coolant o y).1 (not_le.1 hy)]

/-- A first vane at 3000 °R and one at 3100 °R, with 2460 °R metal. -/
example : ∃ (o : Opt) (x y : I → ℝ), (∀ i, i ≠ .Tt_primary → y i = x i) ∧ x .Tt_primary < y .Tt_primary
    ∧ x .Tt_cool < o.T_metal ∧ 0 < x .x_factor ∧ 0 < x .W_primary
    ∧ o.T_metal ≤ hotGas o.i_row o.T_safety (x .Tt_primary) := by
  refine ⟨⟨2, 0, 150, 2460⟩, fun i => match i with | .Tt_primary => 3000 | .Tt_cool => 1500 | _ => 1,
    fun i => match i with | .Tt_primary => 3100 | .Tt_cool => 1500 | _ => 1, fun i hi => ?_, ?_⟩
  · cases i <;> first | rfl | exact absurd rfl hi
  · norm_num [hotGas]

private theorem pf_pos (o : Opt) : 0 < profileFactor o := by
  unfold profileFactor; split <;> norm_num

private theorem phi'_mem (o : Opt) (x : I → ℝ) (h : o.T_metal ≤ Tgas o x)
    (hc : x .Tt_cool < o.T_metal) : 0 < phi' o x ∧ phi' o x < 1 := by
  have hpf := pf_pos o
  have hphi0 : 0 ≤ phi o x := div_nonneg (by linarith) (by linarith)
  have hphi1 : phi o x < 1 := by
    rw [phi, div_lt_one (by linarith)]; linarith
  exact ⟨div_pos (by linarith) (by linarith), by rw [phi', div_lt_one (by linarith)]; linarith⟩

private theorem hd_Tgas (o : Opt) (x : I → ℝ) (i : I) :
    HasDerivAt (fun t => Tgas o (Function.update x i t))
      (if i = .Tt_primary then dTgas o else 0) (x i) := by
  unfold Tgas dTgas
  by_cases hp : o.i_row % 2 = 0
  · simp only [if_pos hp]
    cases i <;> simp only [Function.update_of_ne, Function.update_self, ne_eq, reduceCtorEq,
      not_false_eq_true, if_true, if_false] <;> hd (skip) (fring)
  · simp only [if_neg hp]
    cases i <;> simp only [Function.update_of_ne, Function.update_self, ne_eq, reduceCtorEq,
      not_false_eq_true, if_true, if_false] <;> hd (skip) (fring)

private theorem hd_Wcool (o : Opt) (x : I → ℝ) (i : I)
    (hT : Tgas o x ≠ o.T_metal) (hc : x .Tt_cool < o.T_metal) :
    HasDerivAt (fun t => Wcool o (Function.update x i t)) (dWc o x i) (x i) := by
  have hg := hd_Tgas o x i
  have hgc := hg.continuousAt
  rcases lt_or_gt_of_ne hT with h | h
  · have hev : ∀ᶠ t in nhds (x i), Tgas o (Function.update x i t) < o.T_metal :=
      hgc.eventually_lt continuousAt_const (by simpa using h)
    have : dWc o x i = 0 := by simp [dWc, h]
    rw [this]
    refine (hasDerivAt_const (x i) (0 : ℝ)).congr_of_eventuallyEq ?_
    filter_upwards [hev] with t ht
    simp [Wcool, ht]
  · have hev : ∀ᶠ t in nhds (x i), o.T_metal < Tgas o (Function.update x i t) :=
      continuousAt_const.eventually_lt hgc (by simpa using h)
    obtain ⟨h0, h1⟩ := phi'_mem o x h.le hc
    have hd0 : Tgas o x - x .Tt_cool ≠ 0 := by linarith
    have hpf := pf_pos o
    have hpf1 : profileFactor o + 1 ≠ 0 := by linarith
    have hphi : HasDerivAt (fun t => phi o (Function.update x i t))
        ((if i = .Tt_primary then
            (1 / (Tgas o x - x .Tt_cool) - (Tgas o x - o.T_metal) / (Tgas o x - x .Tt_cool) ^ 2)
              * dTgas o else 0)
          + (if i = .Tt_cool then (Tgas o x - o.T_metal) / (Tgas o x - x .Tt_cool) ^ 2 else 0))
        (x i) := by
      unfold phi
      cases i <;> simp only [Function.update_of_ne, Function.update_self, ne_eq, reduceCtorEq,
        not_false_eq_true, if_true, if_false] at hg ⊢ <;>
        hd (simp only [Function.update_eq_self]; exact hd0)
          (simp only [Function.update_eq_self]; fring)
    have hb : phi' o x / (1 - phi' o x) ≠ 0 := (div_pos h0 (by linarith)).ne'
    have h1' : 1 - phi' o x ≠ 0 := by linarith
    have hphi2 := (hphi.add_const (profileFactor o)).div_const (profileFactor o + 1)
    have hphi3 : HasDerivAt (fun t => phi' o (Function.update x i t)) _ (x i) := hphi2
    have hterm := (hd_div hphi3 (hd_sub (hasDerivAt_const _ (1 : ℝ)) hphi3)
      (by simpa using h1')).rpow_const (p := (1.25 : ℝ)) (Or.inl (by simpa using hb))
    have hev2 : (fun t => Wcool o (Function.update x i t)) =ᶠ[nhds (x i)]
        fun t => 0.022 * (Function.update x i t) .x_factor * (4 / 3)
          * (Function.update x i t) .W_primary
          * (phi' o (Function.update x i t) / (1 - phi' o (Function.update x i t))) ^ (1.25 : ℝ) := by
      filter_upwards [hev] with t ht
      simp only [Wcool, if_neg (not_lt.mpr ht.le)]
    refine HasDerivAt.congr_of_eventuallyEq ?_ hev2
    simp only [Function.update_eq_self, dWc, if_neg (not_lt.mpr h.le), dTerm] at hterm ⊢
    have e1 : (1.25 : ℝ) - 1 = 0.25 := by norm_num
    rw [e1] at hterm
    generalize (phi' o x / (1 - phi' o x)) ^ (0.25 : ℝ) = A at hterm ⊢
    generalize hB : (phi' o x / (1 - phi' o x)) ^ (1.25 : ℝ) = B at hterm ⊢
    cases i <;> simp only [Function.update_of_ne, Function.update_self, ne_eq, reduceCtorEq,
        not_false_eq_true, if_true, if_false] at hterm ⊢ <;>
        hd (skip) (simp only [Function.update_eq_self, hB]; fring)

/-- **C32 (partials).** At any state away from the switching temperature, with positive primary flow,
non-negative technology factor and coolant colder than the metal, every declared partial is exact —
for stators and rotors, first row or later, any number of stages. -/
theorem C32_partials (o : Opt) (x : I → ℝ) (hw : 0 < x .W_primary) (hx : 0 ≤ x .x_factor)
    (hT : hotGas o.i_row o.T_safety (x .Tt_primary) ≠ o.T_metal) (hc : x .Tt_cool < o.T_metal) :
    ExactPartials (compute o) (J o) x := by
  rw [← Tgas_eq] at hT
  have hW0 : 0 ≤ Wcool o x := by
    unfold Wcool
    split
    · exact le_rfl
    · rename_i h
      obtain ⟨h0, h1⟩ := phi'_mem o x (not_lt.mp h) hc
      have : 0 < (phi' o x / (1 - phi' o x)) ^ (1.25 : ℝ) :=
        Real.rpow_pos_of_pos (div_pos h0 (by linarith)) _
      positivity
  have hs : x .W_primary + Wcool o x ≠ 0 := by linarith
  have hw' := hw.ne'
  have hJW : WcoolJ o x = Wcool o x := by
    unfold WcoolJ Wcool; split <;> ring
  have hz : ∀ i, i ≠ .x_factor → i ≠ .W_primary → i ≠ .Tt_primary → i ≠ .Tt_cool →
      dWc o x i = 0 := by
    intro i h1 h2 h3 h4
    unfold dWc
    split
    · rfl
    · cases i <;> simp_all
  have hdh : ∀ i, HasDerivAt (fun t => dh o (Function.update x i t))
      (if i = .turb_pwr then ddh o else 0) (x i) := by
    intro i
    unfold dh ddh
    by_cases hp : o.i_row % 2 = 0
    · simp only [if_pos hp, ite_self]; exact hasDerivAt_const _ _
    · simp only [if_neg hp]
      cases i <;> simp only [Function.update_of_ne, Function.update_self, ne_eq, reduceCtorEq,
        not_false_eq_true, if_true, if_false] <;> hd (skip) (fring)
  intro out i
  have hWi := hd_Wcool o x i hT hc
  have hdi := hdh i
  have hzi := hz i
  cases out
  · cases i <;> simp only [compute, J] <;> first | exact hWi | (rw [hzi] at hWi <;> simp_all)
  · cases i <;> simp only [compute, J, Function.update_of_ne, Function.update_self, ne_eq,
      reduceCtorEq, not_false_eq_true] <;> hd (skip) (fring)
  · cases i <;> simp only [compute, J, hJW, Function.update_of_ne, Function.update_self, ne_eq,
      reduceCtorEq, not_false_eq_true, if_true, if_false, forall_const] at hWi hdi hzi ⊢ <;>
      hd ((try simp only [Function.update_eq_self]); first | exact hs | exact hw')
        ((try simp only [Function.update_eq_self]); first | fring | (rw [hzi]; fring))

/-! ## Conservation along the chain of rows -/

/-- **C32 (mass).** The flow leaving `m` rows is the inlet flow plus the coolant of every row. -/
theorem C32_mass (s : Shared) (Tt : ℕ → ℝ) (p0 : Stream) (m : ℕ) :
    (chain s Tt p0 m).W = p0.W + ∑ i ∈ Finset.range m, coolant s Tt p0 i := by
  induction m with
  | zero => simp [chain]
  | succ m ih =>
    rw [Finset.sum_range_succ, ← add_assoc, ← ih]
    rfl

/-- The work taken out of the stream by row `i`: rotors (odd rows) share the turbine power. -/
noncomputable def rowWork (s : Shared) (i : ℕ) : ℝ :=
  if i % 2 = 0 then 0 else s.turb_pwr / s.n_stages

/-- All rows of the turbine together take out the turbine power. -/
theorem C32_work (s : Shared) (hn : s.n_stages ≠ 0) :
    ∑ i ∈ Finset.range (2 * s.n_stages), rowWork s i = s.turb_pwr := by
  have h : ∀ m : ℕ, ∑ i ∈ Finset.range (2 * m), rowWork s i = m * (s.turb_pwr / s.n_stages) := by
    intro m
    induction m with
    | zero => simp
    | succ m ih =>
      rw [show 2 * (m + 1) = 2 * m + 1 + 1 by ring, Finset.sum_range_succ, Finset.sum_range_succ, ih]
      simp only [rowWork, show 2 * m % 2 = 0 by omega, show (2 * m + 1) % 2 = 1 by omega, if_true,
        one_ne_zero, if_false]
      push_cast; ring
  rw [h]
  have : (s.n_stages : ℝ) ≠ 0 := by exact_mod_cast hn
  field_simp

/-- **C32 (energy, exact).** The enthalpy flow after `m` rows is the inlet's plus the coolant's minus
the work — minus, for every cooled rotor, a further `work × coolant / primary flow` that is not
accounted for anywhere. -/
theorem C32_energy (s : Shared) (Tt : ℕ → ℝ) (p0 : Stream) (m : ℕ)
    (hW : ∀ i ≤ m, (chain s Tt p0 i).W ≠ 0) :
    (chain s Tt p0 m).W * (chain s Tt p0 m).h
      = p0.W * p0.h + ∑ i ∈ Finset.range m, coolant s Tt p0 i * s.ht_cool
        - ∑ i ∈ Finset.range m, rowWork s i
        - ∑ i ∈ Finset.range m, rowWork s i * (coolant s Tt p0 i / (chain s Tt p0 i).W) := by
  induction m with
  | zero => simp [chain]
  | succ m ih =>
    have ih := ih fun i hi => hW i (by omega)
    have h0 := hW m (by omega)
    have h1 := hW (m + 1) le_rfl
    simp only [Finset.sum_range_succ]
    have hdh : dh (s.opt m) (s.inputs (chain s Tt p0 m) (Tt m)) = rowWork s m := rfl
    have e1 : (chain s Tt p0 (m + 1)).W = (chain s Tt p0 m).W + coolant s Tt p0 m := rfl
    have e2 : (chain s Tt p0 (m + 1)).h
        = ((chain s Tt p0 m).W * (chain s Tt p0 m).h + coolant s Tt p0 m * s.ht_cool)
          / ((chain s Tt p0 m).W + coolant s Tt p0 m) - rowWork s m / (chain s Tt p0 m).W := by
      rw [← hdh]; rfl
    rw [e1] at h1
    rw [e1, e2]
    have : ((chain s Tt p0 m).W + coolant s Tt p0 m) *
        (((chain s Tt p0 m).W * (chain s Tt p0 m).h + coolant s Tt p0 m * s.ht_cool)
          / ((chain s Tt p0 m).W + coolant s Tt p0 m) - rowWork s m / (chain s Tt p0 m).W)
        = (chain s Tt p0 m).W * (chain s Tt p0 m).h + coolant s Tt p0 m * s.ht_cool
          - rowWork s m - rowWork s m * (coolant s Tt p0 m / (chain s Tt p0 m).W) := by
      field_simp
      ring
    rw [this, ih]
    ring

/-- With no coolant in the rotors (or no power) the energy balance of the property holds. -/
theorem C32_energy_partial (s : Shared) (Tt : ℕ → ℝ) (p0 : Stream) (hn : s.n_stages ≠ 0)
    (hW : ∀ i ≤ 2 * s.n_stages, (chain s Tt p0 i).W ≠ 0)
    (hc : ∀ i < 2 * s.n_stages, i % 2 = 1 → coolant s Tt p0 i = 0) :
    (chain s Tt p0 (2 * s.n_stages)).W * (chain s Tt p0 (2 * s.n_stages)).h
      = p0.W * p0.h
        + (∑ i ∈ Finset.range (2 * s.n_stages), coolant s Tt p0 i) * s.ht_cool - s.turb_pwr := by
  rw [C32_energy s Tt p0 _ hW, C32_work s hn, ← Finset.sum_mul]
  have : ∑ i ∈ Finset.range (2 * s.n_stages),
      rowWork s i * (coolant s Tt p0 i / (chain s Tt p0 i).W) = 0 := by
    refine Finset.sum_eq_zero fun i hi => ?_
    rcases Nat.mod_two_eq_zero_or_one i with h | h
    · simp [rowWork, h]
    · rw [hc i (Finset.mem_range.mp hi) h]; simp
  rw [this]; ring

/-- **C32 is false (energy).** In any turbine with positive power, positive inlet flow and technology
factor and coolant below the metal temperature, whenever some rotor is hot enough to be cooled, the
stream leaves with strictly less energy than the balance demands. -/
theorem C32_refuted_energy (s : Shared) (Tt : ℕ → ℝ) (p0 : Stream) (hn : s.n_stages ≠ 0)
    (hp : 0 < s.turb_pwr) (hx : 0 < s.x_factor) (hW0 : 0 < p0.W) (hc : s.Tt_cool < s.T_metal)
    (hhot : ∃ i < 2 * s.n_stages, i % 2 = 1 ∧ s.T_metal ≤ 0.92 * Tt i + s.T_safety) :
    (chain s Tt p0 (2 * s.n_stages)).W * (chain s Tt p0 (2 * s.n_stages)).h
      < p0.W * p0.h
        + (∑ i ∈ Finset.range (2 * s.n_stages), coolant s Tt p0 i) * s.ht_cool - s.turb_pwr := by
  have key : ∀ i, 0 < (chain s Tt p0 i).W := by
    intro i
    induction i with
    | zero => exact hW0
    | succ i ih =>
      have e1 : (chain s Tt p0 (i + 1)).W = (chain s Tt p0 i).W + coolant s Tt p0 i := rfl
      have : 0 ≤ coolant s Tt p0 i := by
        have := coolant_aux (s.opt i) (s.inputs (chain s Tt p0 i) (Tt i))
        by_cases h : Tgas (s.opt i) (s.inputs (chain s Tt p0 i) (Tt i)) < (s.opt i).T_metal
        · exact (this.1 h).symm.le
        · exact (this.2 (not_lt.mp h) hc hx ih).le
      linarith
  have hcn : ∀ i, 0 ≤ coolant s Tt p0 i := by
    intro i
    have := coolant_aux (s.opt i) (s.inputs (chain s Tt p0 i) (Tt i))
    by_cases h : Tgas (s.opt i) (s.inputs (chain s Tt p0 i) (Tt i)) < (s.opt i).T_metal
    · exact (this.1 h).symm.le
    · exact (this.2 (not_lt.mp h) hc hx (key i)).le
  rw [C32_energy s Tt p0 _ fun i _ => (key i).ne', C32_work s hn, ← Finset.sum_mul]
  have : 0 < ∑ i ∈ Finset.range (2 * s.n_stages),
      rowWork s i * (coolant s Tt p0 i / (chain s Tt p0 i).W) := by
    have hn' : (0 : ℝ) < s.n_stages := by exact_mod_cast Nat.pos_of_ne_zero hn
    obtain ⟨i, hi, hodd, hT⟩ := hhot
    refine Finset.sum_pos' (fun j _ => ?_) ⟨i, Finset.mem_range.mpr hi, ?_⟩
    · refine mul_nonneg ?_ (div_nonneg (hcn j) (key j).le)
      unfold rowWork; split
      · exact le_rfl
      · positivity
    · have hci : 0 < coolant s Tt p0 i := by
        refine (coolant_aux (s.opt i) (s.inputs (chain s Tt p0 i) (Tt i))).2 ?_ hc hx (key i)
        show s.T_metal ≤ Tgas _ _
        unfold Tgas
        rw [if_neg (by show ¬ i % 2 = 0; omega)]
        exact hT
      have : 0 < rowWork s i := by
        unfold rowWork; rw [if_neg (by omega)]; positivity
      exact mul_pos this (div_pos hci (key i))
  linarith

/-- A one-stage turbine at 3500 °R meets the hypotheses. -/
example : ∃ (s : Shared) (Tt : ℕ → ℝ) (p0 : Stream), s.n_stages ≠ 0 ∧ 0 < s.turb_pwr ∧ 0 < s.x_factor
    ∧ 0 < p0.W ∧ s.Tt_cool < s.T_metal
    ∧ ∃ i < 2 * s.n_stages, i % 2 = 1 ∧ s.T_metal ≤ 0.92 * Tt i + s.T_safety :=
  ⟨⟨1, 150, 2460, 1, 500, 100, 1500, 370, 30000⟩, fun _ => 3500, ⟨100, 900⟩, by norm_num,
    by norm_num, by norm_num, by norm_num, by norm_num, 1, by norm_num, by norm_num, by norm_num⟩

/-- The same state meets the hypotheses of `C32_partials`, for a rotor and a stator. -/
example : ∃ (x : I → ℝ), 0 < x .W_primary ∧ 0 ≤ x .x_factor ∧ ∀ i < 2, ∃ o : Opt, o.i_row = i ∧
    hotGas o.i_row o.T_safety (x .Tt_primary) ≠ o.T_metal ∧ x .Tt_cool < o.T_metal := by
  refine ⟨fun | .W_primary => 100 | .x_factor => 1 | .Tt_primary => 3500 | .Tt_cool => 1500 | _ => 1,
    by norm_num, by norm_num, fun i hi => ⟨⟨1, i, 150, 2460⟩, rfl, ?_, by norm_num⟩⟩
  interval_cases i <;> norm_num [hotGas]

/-! ## The switching temperature -/

/-- **C32 (jump).** The coolant flow is not continuous in the gas temperature: at the temperature
where cooling starts it jumps from zero to `0.022 · x · 4/3 · W · pf^1.25`, so no partial can be exact
there. -/
theorem C32_refuted_continuity (o : Opt) (x : I → ℝ)
    (hT : hotGas o.i_row o.T_safety (x .Tt_primary) = o.T_metal)
    (hc : x .Tt_cool < o.T_metal) (hx : 0 < x .x_factor) (hw : 0 < x .W_primary) :
    compute o x .W_cool
        = 0.022 * x .x_factor * (4 / 3) * x .W_primary * profileFactor o ^ (1.25 : ℝ)
    ∧ (∀ t < x .Tt_primary, compute o (Function.update x .Tt_primary t) .W_cool = 0)
    ∧ ¬ ContinuousAt (fun t => compute o (Function.update x .Tt_primary t) .W_cool) (x .Tt_primary) := by
  rw [← Tgas_eq] at hT
  have hpos := (coolant_aux o x).2 hT.symm.le hc hx hw
  have hbelow : ∀ t < x .Tt_primary, compute o (Function.update x .Tt_primary t) .W_cool = 0 := by
    intro t ht
    refine (coolant_aux o _).1 ?_
    rw [← hT]
    unfold Tgas
    split <;> simp only [Function.update_self] <;> linarith
  refine ⟨?_, hbelow, fun hcont => ?_⟩
  · have hpf := pf_pos o
    have : phi' o x / (1 - phi' o x) = profileFactor o := by
      have : phi o x = 0 := by simp [phi, hT]
      rw [phi', this]
      field_simp
      ring
    simp [compute, Wcool, hT, this]
  · have h1 : Filter.Tendsto (fun t => compute o (Function.update x .Tt_primary t) .W_cool)
        (nhdsWithin (x .Tt_primary) (Set.Iio (x .Tt_primary))) (nhds (compute o x .W_cool)) := by
      have := hcont.tendsto.mono_left (nhdsWithin_le_nhds (s := Set.Iio (x .Tt_primary)))
      simpa using this
    have h2 : Filter.Tendsto (fun t => compute o (Function.update x .Tt_primary t) .W_cool)
        (nhdsWithin (x .Tt_primary) (Set.Iio (x .Tt_primary))) (nhds 0) := by
      refine tendsto_const_nhds.congr' ?_
      filter_upwards [self_mem_nhdsWithin] with t ht
      exact (hbelow t ht).symm
    exact hpos.ne' (tendsto_nhds_unique h1 h2)

/-! ## Stage pressures -/

/-- What the code comment promises (`1,1,2,2` for two stages): the pressure of a row interpolates
from inlet to exit, monotonically along the turbine, the last stage being at the exit pressure. -/
def StagePressures (n : ℕ) (P : ℕ → ℝ) (Pin Pout : ℝ) : Prop :=
  (∀ i j, i ≤ j → j < 2 * n → P j ≤ P i) ∧ P (2 * n - 1) = Pout ∧ (∀ i < 2 * n, Pout ≤ P i ∧ P i ≤ Pin)

/-- **C32 (stage mapping, exact).** The code's stage index is 1 for the two rows of the last stage
and 0 for all others; so every row reports the turbine *exit* pressure, except the two rows of the
last stage which report the *inlet* pressure. -/
theorem C32_stage (n i : ℕ) (hi : i < 2 * n) (o : Opt) (ho : o.n_stages = n) (hr : o.i_row = i)
    (x : I → ℝ) :
    compute o x .Pt_stage = if 2 * n - 2 ≤ i then x .Pt_in else x .Pt_out := by
  have hn : 0 < n := by omega
  have : iStage o = if 2 * n - 2 ≤ i then 1 else 0 := by
    unfold iStage
    rw [ho, hr]
    split
    · rw [show i / 2 + 1 = n by omega]; exact Nat.div_self hn
    · exact Nat.div_eq_of_lt (by omega)
  simp only [compute, this]
  split <;> simp

/-- **C32 is false (stage pressures)**: for every stage count and every real pressure drop the
reported pressures are not a stage-wise expansion. -/
theorem C32_refuted_stage (n : ℕ) (hn : 0 < n) (x : I → ℝ) (hP : x .Pt_out < x .Pt_in)
    (Ts Tm : ℝ) :
    ¬ StagePressures n (fun i => compute ⟨n, i, Ts, Tm⟩ x .Pt_stage) (x .Pt_in) (x .Pt_out) := by
  rintro ⟨-, h, -⟩
  simp only [C32_stage n (2 * n - 1) (by omega) ⟨n, 2 * n - 1, Ts, Tm⟩ rfl rfl x] at h
  rw [if_pos (by omega)] at h
  linarith

/-! ## Ports -/

private theorem ports_aux {D : Type} (l : List ℕ) (e e' : ElemPorts D)
    (h : l.foldlM (fun e _ => copyFlow e (.str "Fl_turb_I") "row_{i}.Fl_O") e = .ok e') :
    ∀ q, q ≠ "row_{i}.Fl_O" → e'.flO q = e.flO q := by
  induction l generalizing e with
  | nil =>
    intro q _
    have : e = e' := by simpa [List.foldlM, pure, Except.pure] using h
    rw [this]
  | cons a l ih =>
    intro q hq
    rw [List.foldlM_cons] at h
    cases hI : e.flI "Fl_turb_I" with
    | none => simp [copyFlow, hI, bind, Except.bind] at h
    | some d =>
      simp only [copyFlow, hI, bind, Except.bind] at h
      rw [ih _ h q hq]
      simp [hq]

private theorem ports_same {D : Type} (l : List ℕ) (e e' : ElemPorts D)
    (h : l.foldlM (fun e _ => copyFlow e (.str "Fl_turb_I") "row_{i}.Fl_O") e = .ok e') (hl : l ≠ []) :
    (∃ d, e.flI "Fl_turb_I" = some d) ∧ e'.flO "row_{i}.Fl_O" = e.flI "Fl_turb_I" := by
  induction l generalizing e with
  | nil => exact absurd rfl hl
  | cons a l ih =>
    rw [List.foldlM_cons] at h
    cases hI : e.flI "Fl_turb_I" with
    | none => simp [copyFlow, hI, bind, Except.bind] at h
    | some d =>
      refine ⟨⟨d, rfl⟩, ?_⟩
      simp only [copyFlow, hI, bind, Except.bind] at h
      by_cases hl' : l = []
      · subst hl'
        simp only [List.foldlM_nil, pure, Except.pure, Except.ok.injEq] at h
        rw [← h]; simp
      · exact (ih _ h hl').2.trans hI

/-- **C32 is false (ports)**: whatever flows in, the element never announces a composition for the
row port `row_0.Fl_O` (or any row), because the port name is not formatted: with at least one stage
the turbine inlet's composition is stored under the unformatted name. -/
theorem C32_refuted_ports {D : Type} (n : ℕ) (flI : Ports D) (e' : ElemPorts D)
    (h : outputPorts n ⟨flI, fun _ => none⟩ = .ok e') :
    (∀ k : ℕ, e'.flO s!"row_{k}.Fl_O" = none)
    ∧ (n ≠ 0 → (∃ d, flI "Fl_turb_I" = some d) ∧ e'.flO "row_{i}.Fl_O" = flI "Fl_turb_I") := by
  refine ⟨fun k => ?_, fun hn => ?_⟩
  swap
  · obtain ⟨m, hm⟩ : ∃ m, 2 * n = m + 1 := ⟨2 * n - 1, by omega⟩
    have := ports_same (List.range (2 * n)) _ _ h (by rw [hm, List.range_succ]; simp)
    exact this
  refine (ports_aux _ _ _ h _ ?_).trans rfl
  intro hk
  have h2 := congrArg (fun s : String => s.toList) hk
  have hpre : ("row_" ++ toString k ++ ".Fl_O").toList = "row_".toList ++ ((toString k).toList ++ ".Fl_O".toList) := by
    simp
  change ("row_" ++ toString k ++ ".Fl_O").toList = "row_{i}.Fl_O".toList at h2
  rw [hpre] at h2
  have hd : ∀ c ∈ (toString k).toList, c.isDigit := by
    intro c hc
    have : toString k = Nat.repr k := rfl
    rw [this, Nat.toList_repr] at hc
    exact Nat.isDigit_of_mem_toDigits (by norm_num) (by norm_num) hc
  cases hs : (toString k).toList with
  | nil => rw [hs] at h2; revert h2; decide
  | cons c cs =>
    have hc := hd c (by rw [hs]; exact List.mem_cons_self)
    rw [hs] at h2
    have : c = '{' := by
      have := congrArg (fun l => l[4]?) h2
      simpa using this
    rw [this] at hc
    revert hc; decide

example : ∃ (flI : Ports ℕ) (e' : ElemPorts ℕ), outputPorts 2 ⟨flI, fun _ => none⟩ = .ok e' :=
  ⟨fun _ => some 0, _, rfl⟩

end PyCycle.Cool
