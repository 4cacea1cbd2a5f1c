import Verif.Model.Inlet
import Verif.Lemmas.HasD

/-! # C29: inlet ram recovery -/

namespace PyCycle.Inlet
open Filter Topology

private theorem four_rpow_le : (4:ℝ) ^ (1.35:ℝ) ≤ 8 := by
  have h : (4:ℝ) ^ (1.35:ℝ) ≤ (4:ℝ) ^ (1.5:ℝ) :=
    Real.rpow_le_rpow_of_exponent_le (by norm_num) (by norm_num)
  have h8 : (4:ℝ) ^ (1.5:ℝ) = 8 := by
    rw [show (4:ℝ) = 2 ^ (2:ℝ) by norm_num, ← Real.rpow_mul (by norm_num)]
    norm_num
  linarith

private theorem mid_bounds {M : ℝ} (h1 : 1 ≤ M) (h5 : M < 5) :
    0 ≤ (M - 1) ^ (1.35:ℝ) ∧ (M - 1) ^ (1.35:ℝ) ≤ 8 :=
  ⟨Real.rpow_nonneg (by linarith) _,
    (Real.rpow_le_rpow (by linarith) (by linarith) (by norm_num)).trans four_rpow_le⟩

private theorem rec_sub {x : I → ℝ} (h : x .MN < 1) : recovery x = x .base := by
  rw [recovery, if_pos h]
private theorem rec_sup {x : I → ℝ} (h1 : 1 ≤ x .MN) (h5 : x .MN < 5) :
    recovery x = x .base * (1 - 0.075 * (x .MN - 1) ^ (1.35 : ℝ)) := by
  rw [recovery, if_neg (not_lt.mpr h1), if_pos ⟨h1, h5⟩]
private theorem rec_hyp {x : I → ℝ} (h5 : 5 ≤ x .MN) : recovery x = 800 / (x .MN ^ 4 + 935) := by
  rw [recovery, if_neg (not_lt.mpr (by linarith)), if_neg (fun h => absurd h.2 (not_lt.mpr h5))]

/-- **C29 (schedule).** Below Mach 1 the recovery is the base recovery; below Mach 5 it lies in
`[0.4·base, base]` (so in `(0, base]` for a positive base); from Mach 5 on it lies in
`(0, 800/1560]` whatever the base. -/
theorem C29_bounds (x : I → ℝ) (hb : 0 < x .base) :
    (x .MN < 1 → recovery x = x .base)
    ∧ (x .MN < 5 → 0.4 * x .base ≤ recovery x ∧ recovery x ≤ x .base)
    ∧ (5 ≤ x .MN → 0 < recovery x ∧ recovery x ≤ 800 / 1560) := by
  refine ⟨rec_sub, ?_, ?_⟩
  · intro h5
    by_cases h1 : x .MN < 1
    · rw [rec_sub h1]; constructor <;> nlinarith
    · have b := mid_bounds (not_lt.mp h1) h5
      rw [rec_sup (not_lt.mp h1) h5]
      constructor <;> nlinarith [b.1, b.2, mul_le_mul_of_nonneg_left b.2 hb.le,
        mul_nonneg hb.le b.1]
  · intro h5
    rw [rec_hyp h5]
    have h4 : (625:ℝ) ≤ x .MN ^ 4 := by
      calc (625:ℝ) = 5 ^ 4 := by norm_num
        _ ≤ _ := pow_le_pow_left₀ (by norm_num) h5 4
    refine ⟨by positivity, ?_⟩
    rw [div_le_div_iff₀ (by positivity) (by norm_num)]
    linarith

/-- **C29 (monotone on each branch).** For a fixed non-negative base, the recovery is
non-increasing in Mach number over `MN < 5`, and over `5 ≤ MN`. -/
theorem C29_antitone (x y : I → ℝ) (hb : 0 ≤ x .base) (he : y .base = x .base)
    (hM : x .MN ≤ y .MN) (hbr : y .MN < 5 ∨ 5 ≤ x .MN) : recovery y ≤ recovery x := by
  rcases hbr with h5 | h5
  · by_cases hy : y .MN < 1
    · rw [rec_sub hy, rec_sub (hM.trans_lt hy), he]
    · rw [rec_sup (not_lt.mp hy) h5, he]
      by_cases hx : x .MN < 1
      · rw [rec_sub hx]
        have b := mid_bounds (not_lt.mp hy) h5
        nlinarith [mul_nonneg hb b.1]
      · rw [rec_sup (not_lt.mp hx) (hM.trans_lt h5)]
        have : (x .MN - 1) ^ (1.35:ℝ) ≤ (y .MN - 1) ^ (1.35:ℝ) :=
          Real.rpow_le_rpow (by linarith) (by linarith) (by norm_num)
        nlinarith [mul_le_mul_of_nonneg_left this hb]
  · rw [rec_hyp h5, rec_hyp (h5.trans hM)]
    have : x .MN ^ 4 ≤ y .MN ^ 4 := pow_le_pow_left₀ (by linarith) hM 4
    have h0 : 0 ≤ x .MN ^ 4 := by positivity
    exact div_le_div_of_nonneg_left (by norm_num) (by positivity) (by linarith)

private def at' (M b : ℝ) : I → ℝ | .MN => M | .base => b

/-- **The schedule jumps up at Mach 5**: for base recovery 1, the value at Mach 5 is larger than at
every Mach number just below it, so the recovery is neither continuous nor non-increasing across
Mach 5. -/
theorem C29_refuted_across_mach5 (x y : I → ℝ) (hx : x .base = 1) (hxM : x .MN = 4.9999)
    (hyM : y .MN = 5) : x .MN < y .MN ∧ recovery x < recovery y := by
  refine ⟨by rw [hxM, hyM]; norm_num, ?_⟩
  rw [rec_sup (by rw [hxM]; norm_num) (by rw [hxM]; norm_num), rec_hyp (by rw [hyM]), hx, hxM, hyM]
  have hlow : (6.4975:ℝ) < (4.9999 - 1) ^ (1.35:ℝ) := by
    have hp : (0:ℝ) < (4.9999 - 1 : ℝ) ^ (1.35:ℝ) := Real.rpow_pos_of_pos (by norm_num) _
    refine lt_of_pow_lt_pow_left₀ 20 hp.le ?_
    rw [← Real.rpow_natCast (_ ^ _) 20, ← Real.rpow_mul (by norm_num),
      show (1.35:ℝ) * ((20:ℕ):ℝ) = ((27:ℕ):ℝ) by norm_num, Real.rpow_natCast]
    norm_num
  norm_num at hlow ⊢
  linarith

/-- **Above Mach 5 the base recovery is ignored**: with a base below `800/1560` the recovery at
Mach 5 exceeds the base, so the bound `recovery ≤ base` fails there. -/
theorem C29_refuted_hypersonic_bound (x : I → ℝ) (hM : x .MN = 5) (hb : x .base < 800 / 1560) :
    x .base < recovery x := by
  rw [rec_hyp hM.ge, hM]; norm_num at hb ⊢; linarith

private theorem upd_MN (x : I → ℝ) (t : ℝ) : Function.update x .MN t = at' t (x .base) := by
  funext i; cases i <;> simp [at']
private theorem upd_base (x : I → ℝ) (t : ℝ) : Function.update x .base t = at' (x .MN) t := by
  funext i; cases i <;> simp [at']

/-- **C29 (partials).** The declared partials are exact at every Mach number except 5 (including
Mach 1, where the branches meet smoothly), and the one against the base also at 5. -/
theorem C29_partials (x : I → ℝ) :
    HasDerivAt (fun t => recovery (Function.update x .base t)) (J x .base) (x .base)
    ∧ (x .MN ≠ 5 →
        HasDerivAt (fun t => recovery (Function.update x .MN t)) (J x .MN) (x .MN)) := by
  constructor
  · simp only [upd_base]
    by_cases h1 : x .MN < 1
    · simp only [J, if_pos h1]
      have : ∀ t, recovery (at' (x .MN) t) = t := fun t => rec_sub (x := at' (x .MN) t) h1
      simp only [this]; exact hasDerivAt_id' _
    · by_cases h5 : x .MN < 5
      · simp only [J, if_neg h1, if_pos (And.intro (not_lt.mp h1) h5)]
        have : ∀ t, recovery (at' (x .MN) t) = t * (1 - 0.075 * (x .MN - 1) ^ (1.35 : ℝ)) :=
          fun t => rec_sup (x := at' (x .MN) t) (not_lt.mp h1) h5
        simp only [this]; hd (skip) (ring1)
      · simp only [J, if_neg h1, if_neg (fun h : _ ∧ _ => h5 h.2)]
        have : ∀ t, recovery (at' (x .MN) t) = 800 / (x .MN ^ 4 + 935) :=
          fun t => rec_hyp (x := at' (x .MN) t) (not_lt.mp h5)
        simp only [this]; exact hasDerivAt_const _ _
  · intro hne
    simp only [upd_MN]
    rcases lt_trichotomy (x .MN) 1 with h1 | h1 | h1
    · simp only [J, if_pos h1]
      refine (hasDerivAt_const _ (x .base)).congr_of_eventuallyEq ?_
      filter_upwards [Iio_mem_nhds h1] with t ht using rec_sub (x := at' t (x .base)) ht
    · simp only [J, h1, lt_irrefl, if_false, ge_iff_le, le_refl, true_and,
        if_pos (show (1:ℝ) < 5 by norm_num), sub_self, Real.zero_rpow (show (0.35:ℝ) ≠ 0 by norm_num),
        mul_zero]
      -- glue the two branches at Mach 1
      have hg : HasDerivAt (fun t : ℝ => x .base * (1 - 0.075 * (t - 1) ^ (1.35 : ℝ))) 0 1 := by
        have h2 : HasDerivAt (fun t : ℝ => (t - 1) ^ (1.35:ℝ)) 0 1 := by
          have := ((hasDerivAt_id' (1:ℝ)).sub_const 1).rpow_const (p := (1.35:ℝ))
            (Or.inr (by norm_num))
          simpa [Real.zero_rpow (show (1.35:ℝ) - 1 ≠ 0 by norm_num)] using this
        hd (skip) (ring1)
      have e1 : recovery (at' 1 (x .base)) = x .base := by
        rw [rec_sup (x := at' 1 (x .base)) le_rfl (show (1:ℝ) < 5 by norm_num)]
        simp [at', Real.zero_rpow (show (1.35:ℝ) ≠ 0 by norm_num)]
      have hl : HasDerivWithinAt (fun t => recovery (at' t (x .base))) 0 (Set.Iic 1) 1 := by
        refine (hasDerivAt_const (1:ℝ) (x .base)).hasDerivWithinAt.congr ?_ e1
        intro t ht
        rcases lt_or_eq_of_le (Set.mem_Iic.mp ht) with h | h
        · exact rec_sub (x := at' t (x .base)) h
        · rw [h]; exact e1
      have hr : HasDerivWithinAt (fun t => recovery (at' t (x .base))) 0 (Set.Ici 1) 1 := by
        refine hg.hasDerivWithinAt.congr_of_eventuallyEq ?_ ?_
        · have h5 : ∀ᶠ t in 𝓝[Set.Ici 1] (1:ℝ), t < 5 :=
            nhdsWithin_le_nhds (Iio_mem_nhds (by norm_num))
          filter_upwards [h5, self_mem_nhdsWithin] with t ht ht1
            using rec_sup (x := at' t (x .base)) ht1 ht
        · simp only [e1]; simp [Real.zero_rpow (show (1.35:ℝ) ≠ 0 by norm_num)]
      have := hl.union hr
      rwa [Set.Iic_union_Ici, hasDerivWithinAt_univ] at this
    · by_cases h5 : x .MN < 5
      · simp only [J, if_neg (not_lt.mpr h1.le), if_pos (And.intro h1.le h5)]
        have key : HasDerivAt (fun t : ℝ => x .base * (1 - 0.075 * (t - 1) ^ (1.35 : ℝ)))
            (-0.10125 * x .base * (x .MN - 1) ^ (0.35:ℝ)) (x .MN) := by
          hd (intro h; linarith) (norm_num; ring1)
        refine key.congr_of_eventuallyEq ?_
        filter_upwards [Ioo_mem_nhds h1 h5] with t ht
          using rec_sup (x := at' t (x .base)) ht.1.le ht.2
      · have h5' : 5 < x .MN := lt_of_le_of_ne (not_lt.mp h5) (Ne.symm hne)
        simp only [J, if_neg (not_lt.mpr h1.le), if_neg (fun h : _ ∧ _ => h5 h.2)]
        have key : HasDerivAt (fun t : ℝ => 800 / (t ^ 4 + 935))
            (-(3200 * x .MN ^ 3) / (x .MN ^ 4 + 935) ^ 2) (x .MN) := by
          hd (positivity) (norm_num; fring)
        refine key.congr_of_eventuallyEq ?_
        filter_upwards [Ioi_mem_nhds h5'] with t ht using rec_hyp (x := at' t (x .base)) (le_of_lt ht)

/-- **C29 (calcs).** Total pressure out is recovery times total pressure in, the ram drag is the
momentum flow `W·V/g_c`, and the partials are exact. -/
theorem C29_calcs (x : CI → ℝ) :
    calcs x .Pt_out = x .ram_recovery * x .Pt_in ∧ calcs x .F_ram * 32.174 = x .W_in * x .V_in
    ∧ ExactPartials calcs calcsJ x := by
  refine ⟨by simp only [calcs]; ring, ?_, ?_⟩
  · simp only [calcs, g_c]; rw [div_mul_cancel₀]; norm_num
  · intro o i
    cases o <;> cases i <;> simp only [calcs, calcsJ, Function.update_of_ne, Function.update_self,
      ne_eq, reduceCtorEq, not_false_eq_true] <;> hd (skip) (fring)

/-- Non-vacuity: each branch is reached. -/
example : recovery (fun | .MN => 0.5 | .base => 0.99) = 0.99
    ∧ recovery (fun | .MN => 2 | .base => 1) = 0.925
    ∧ recovery (fun | .MN => 6 | .base => 1) = 800 / 2231 := by
  refine ⟨by rw [rec_sub (by norm_num)], ?_, ?_⟩
  · rw [rec_sup (by norm_num) (by norm_num)]; norm_num
  · rw [rec_hyp (by norm_num)]; norm_num

end PyCycle.Inlet
