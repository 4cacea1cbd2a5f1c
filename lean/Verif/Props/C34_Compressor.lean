import Verif.Model.Compressor
import Verif.Lemmas.Fold
import Mathlib.Analysis.Real.Pi.Bounds

/-! # C34: compressor -/

namespace PyCycle.Comp

variable {n : ℕ}

/-- **C34 (mass).** For any number of bleeds, inflow = outflow + all bleed flows. -/
theorem C34_mass (x : BI n → ℝ) : x .W_in = blds x .W_out + ∑ k, blds x (.W k) := by
  simp only [blds, wOut, foldl_sub_fin]; ring

/-- **C34 (energy).** Shaft power (negative: consumed) equals, in horsepower, the enthalpy flux in
minus the enthalpy flux of the outflow and of every bleed. -/
theorem C34_energy (x : BI n → ℝ) :
    blds x .power = BTU_s2HP * (x .W_in * x .ht_in
      - (blds x .W_out * x .ht_out + ∑ k, blds x (.W k) * blds x (.ht k))) := by
  simp only [blds, wOut, bldPower, foldl_sub_fin]
  have : ∑ k, statW x k * (bldHt x k - x .ht_out) * BTU_s2HP
      = BTU_s2HP * ∑ k, statW x k * bldHt x k - BTU_s2HP * x .ht_out * ∑ k, statW x k := by
    rw [Finset.mul_sum, Finset.mul_sum, ← Finset.sum_sub_distrib]
    exact Finset.sum_congr rfl fun k _ => by ring
  rw [this]; ring

/-- **C34 (torque).** Torque times speed is power in the code's units, and the code's constant is the
true conversion `33000/(2π)` to better than one part in a million. -/
theorem C34_torque (x : BI n → ℝ) (hN : x .Nmech ≠ 0) :
    blds x .trq * x .Nmech = 5252.11 * blds x .power
    ∧ |(5252.11 : ℝ) / (33000 / (2 * Real.pi)) - 1| < 1e-6 := by
  constructor
  · simp only [blds, HP_per_RPM_to_FT_LBF]
    field_simp
  · have h1 := Real.pi_gt_d6
    have h2 := Real.pi_lt_d6
    have e : (5252.11 : ℝ) / (33000 / (2 * Real.pi)) = 5252.11 * 2 * Real.pi / 33000 := by
      have := Real.pi_pos
      field_simp
    rw [e, abs_lt]
    constructor <;> norm_num at h1 h2 ⊢ <;> linarith

/-- **C34 (bleeds).** A bleed's total pressure and enthalpy lie at its fraction of the rise from inlet
to outlet, hence between them for fractions in `[0, 1]`; fraction 0 is the inlet and 1 the outlet. -/
theorem C34_bleed (x : BI n → ℝ) (k : Fin n) :
    blds x (.Pt k) - x .Pt_in = x (.frac_P k) * (x .Pt_out - x .Pt_in)
    ∧ blds x (.ht k) - x .ht_in = x (.frac_work k) * (x .ht_out - x .ht_in)
    ∧ blds x (.W k) = x .W_in * x (.frac_W k)
    ∧ (0 ≤ x (.frac_P k) → x (.frac_P k) ≤ 1 → x .Pt_in ≤ x .Pt_out →
        x .Pt_in ≤ blds x (.Pt k) ∧ blds x (.Pt k) ≤ x .Pt_out)
    ∧ (0 ≤ x (.frac_work k) → x (.frac_work k) ≤ 1 → x .ht_in ≤ x .ht_out →
        x .ht_in ≤ blds x (.ht k) ∧ blds x (.ht k) ≤ x .ht_out) := by
  refine ⟨by simp [blds], by simp [blds, bldHt], rfl, fun h0 h1 h => ?_, fun h0 h1 h => ?_⟩ <;>
    simp only [blds, bldHt] <;> constructor <;> nlinarith

/-- **C34 (consumption).** A compressor that raises the enthalpy, with non-negative bleed fractions
summing to at most one and work fractions in `[0, 1]`, never delivers power, and bleeding never
increases the power it needs. -/
theorem C34_power_sign (x : BI n → ℝ) (hW : 0 ≤ x .W_in) (hh : x .ht_in ≤ x .ht_out)
    (hf : ∀ k, 0 ≤ x (.frac_W k)) (hsum : ∑ k, x (.frac_W k) ≤ 1)
    (hw : ∀ k, 0 ≤ x (.frac_work k) ∧ x (.frac_work k) ≤ 1) :
    x .W_in * (x .ht_in - x .ht_out) * BTU_s2HP ≤ blds x .power ∧ blds x .power ≤ 0 := by
  have hB : (0 : ℝ) < BTU_s2HP := by norm_num [BTU_s2HP]
  simp only [blds, bldPower, foldl_sub_fin]
  have e : ∑ k, statW x k * (bldHt x k - x .ht_out) * BTU_s2HP
      = -(x .W_in * (x .ht_out - x .ht_in) * BTU_s2HP)
        * ∑ k, x (.frac_W k) * (1 - x (.frac_work k)) := by
    rw [Finset.mul_sum]
    exact Finset.sum_congr rfl fun k _ => by simp only [statW, bldHt]; ring
  have q0 : 0 ≤ ∑ k, x (.frac_W k) * (1 - x (.frac_work k)) :=
    Finset.sum_nonneg fun k _ => mul_nonneg (hf k) (by linarith [(hw k).2])
  have q1 : ∑ k, x (.frac_W k) * (1 - x (.frac_work k)) ≤ 1 :=
    le_trans (Finset.sum_le_sum fun k _ => by nlinarith [hf k, (hw k).1]) hsum
  have hA : 0 ≤ x .W_in * (x .ht_out - x .ht_in) * BTU_s2HP :=
    mul_nonneg (mul_nonneg hW (by linarith)) hB.le
  rw [e]
  constructor <;> nlinarith

private theorem closed (x : BI n → ℝ) :
    wOut x = x .W_in * (1 - ∑ k, x (.frac_W k))
    ∧ bldPower x = x .W_in * (x .ht_in - x .ht_out) * BTU_s2HP
        * (1 - ∑ k, x (.frac_W k) * (1 - x (.frac_work k))) := by
  constructor
  · simp only [wOut, statW, foldl_sub_fin, ← Finset.mul_sum]; ring
  · simp only [bldPower, foldl_sub_fin]
    rw [mul_sub (x .W_in * (x .ht_in - x .ht_out) * BTU_s2HP), Finset.mul_sum, mul_one]
    congr 1
    exact Finset.sum_congr rfl fun k _ => by simp only [statW, bldHt]; ring

/-- **C34 (partials of the bleeds and power).** Exact at any non-zero speed, for any number of
bleeds. -/
theorem C34_bleed_partials (x : BI n → ℝ) (hN : x .Nmech ≠ 0) : ExactPartials blds bldsJ x := by
  have n1 : ∀ j k : Fin n, (BI.frac_P j : BI n) ≠ .frac_W k := by simp
  have n2 : ∀ j k : Fin n, (BI.frac_work j : BI n) ≠ .frac_W k := by simp
  have n3 : ∀ j k : Fin n, (BI.frac_P j : BI n) ≠ .frac_work k := by simp
  have hF : ∀ j, HasDerivAt (fun t => ∑ k, Function.update x (.frac_W j) t (.frac_W k)) 1
      (x (.frac_W j)) := fun j => hd_sum_single j (by simpa using hasDerivAt_id' _)
        (fun k hk t => by simp [hk])
  have hQ : ∀ j, HasDerivAt (fun t => ∑ k, Function.update x (.frac_W j) t (.frac_W k)
      * (1 - x (.frac_work k))) (1 - x (.frac_work j)) (x (.frac_W j)) := fun j =>
    hd_sum_single j (by
      simp only [Function.update_self]
      hd (skip) (ring1)) (fun k hk t => by simp [hk])
  have hQ' : ∀ j, HasDerivAt (fun t => ∑ k, x (.frac_W k)
      * (1 - Function.update x (.frac_work j) t (.frac_work k))) (-x (.frac_W j))
      (x (.frac_work j)) := fun j =>
    hd_sum_single j (by
      simp only [Function.update_self]
      hd (skip) (ring1)) (fun k hk t => by simp [hk])
  have hSQ : ∀ i : BI n, HasDerivAt (fun t => ∑ k, Function.update x i t (.frac_W k)
      * (1 - Function.update x i t (.frac_work k)))
      (match i with | .frac_W j => 1 - x (.frac_work j) | .frac_work j => -x (.frac_W j) | _ => 0)
      (x i) := by
    intro i
    cases i
    case frac_W j =>
      simp only [Function.update_of_ne, ne_eq, reduceCtorEq, not_false_eq_true]; exact hQ j
    case frac_work j =>
      simp only [Function.update_of_ne, ne_eq, reduceCtorEq, not_false_eq_true]; exact hQ' j
    all_goals
      simp only [Function.update_of_ne, ne_eq, reduceCtorEq, not_false_eq_true]
      exact hasDerivAt_const _ _
  have L : ∀ (a c : ℝ) (f : Fin n → ℝ), (∀ k, f k = x (.frac_W k) * (1 - x (.frac_work k)) * c) →
      (List.finRange n).foldl (fun acc k => acc - f k) a
        = a - (∑ k, x (.frac_W k) * (1 - x (.frac_work k))) * c := fun a c f hf => by
    rw [foldl_sub_fin, Finset.sum_mul]
    exact congrArg _ (Finset.sum_congr rfl fun k _ => hf k)
  have hc : ∀ i j : BI n, HasDerivAt (fun t => Function.update x i t j) (if i = j then 1 else 0)
      (x i) := by
    intro i j
    by_cases hij : i = j
    · subst hij; simpa using hasDerivAt_id' (x i)
    · simp only [Function.update_of_ne (Ne.symm hij), hij, if_false]
      exact hasDerivAt_const _ _
  intro o i
  cases o with
  | W k =>
    have h := hd_mul (hc i .W_in) (hc i (.frac_W k))
    refine h.congr_deriv ?_
    cases i <;> simp [bldsJ, eq_comm]
  | Pt k =>
    have h := hd_add (hc i .Pt_in) (hd_mul (hc i (.frac_P k)) (hd_sub (hc i .Pt_out) (hc i .Pt_in)))
    refine h.congr_deriv ?_
    cases i <;> simp [bldsJ, eq_comm] <;> ring
  | ht k =>
    have h := hd_add (hc i .ht_in)
      (hd_mul (hc i (.frac_work k)) (hd_sub (hc i .ht_out) (hc i .ht_in)))
    refine h.congr_deriv ?_
    cases i <;> simp [bldsJ, eq_comm] <;> ring
  | W_out =>
    simp only [blds, (closed _).1]
    have hS : HasDerivAt (fun t => ∑ k, Function.update x i t (.frac_W k))
        (match i with | .frac_W _ => 1 | _ => 0) (x i) := by
      cases i
      case frac_W j => exact hF j
      all_goals
        simp only [Function.update_of_ne, ne_eq, reduceCtorEq, not_false_eq_true]
        exact hasDerivAt_const _ _
    have h := hd_mul (hc i .W_in) (hd_sub (hasDerivAt_const _ (1 : ℝ)) hS)
    refine h.congr_deriv ?_
    cases i <;> simp [bldsJ, foldl_sub_fin]
  | power =>
    simp only [blds, (closed _).2]
    have hS := hSQ i
    have h := hd_mul (hd_mul (hd_mul (hc i .W_in) (hd_sub (hc i .ht_in) (hc i .ht_out)))
      (hasDerivAt_const _ BTU_s2HP)) (hd_sub (hasDerivAt_const _ (1 : ℝ)) hS)
    refine h.congr_deriv ?_
    simp only [Function.update_eq_self]
    cases i
    case W_in =>
      simp only [bldsJ]
      rw [L _ ((x .ht_in - x .ht_out) * BTU_s2HP) _ (fun k => by ring)]; simp; ring
    case ht_in =>
      simp only [bldsJ]
      rw [L _ (x .W_in * BTU_s2HP) _ (fun k => by ring)]; simp; ring
    case ht_out =>
      simp only [bldsJ]
      rw [L _ (-x .W_in * BTU_s2HP) _ (fun k => by ring)]; simp; ring
    all_goals simp [bldsJ]; try ring
  | trq =>
    simp only [blds, (closed _).2]
    have hS := hSQ i
    have h := hd_div (hd_mul (hasDerivAt_const _ HP_per_RPM_to_FT_LBF)
      (hd_mul (hd_mul (hd_mul (hc i .W_in) (hd_sub (hc i .ht_in) (hc i .ht_out)))
      (hasDerivAt_const _ BTU_s2HP)) (hd_sub (hasDerivAt_const _ (1 : ℝ)) hS))) (hc i .Nmech)
      (by simpa using hN)
    refine h.congr_deriv ?_
    simp only [Function.update_eq_self]
    cases i
    case W_in =>
      simp only [bldsJ]
      rw [L _ ((x .ht_in - x .ht_out) * BTU_s2HP * HP_per_RPM_to_FT_LBF / x .Nmech) _
        (fun k => by ring)]; simp; field_simp
    case ht_in =>
      simp only [bldsJ]
      rw [L _ (x .W_in * BTU_s2HP * HP_per_RPM_to_FT_LBF / x .Nmech) _ (fun k => by ring)]
      simp; field_simp
    case ht_out =>
      simp only [bldsJ]
      rw [L _ (-x .W_in * BTU_s2HP * HP_per_RPM_to_FT_LBF / x .Nmech) _ (fun k => by ring)]
      simp; field_simp; ring
    case Nmech =>
      simp only [bldsJ]
      rw [L _ (-x .W_in * (x .ht_in - x .ht_out) * BTU_s2HP * HP_per_RPM_to_FT_LBF
        * x .Nmech ^ (-2 : ℤ)) _ (fun k => by ring)]
      simp; field_simp; ring
    all_goals (simp [bldsJ]; try field_simp); try ring1

/-- **C34 (partials of the other components).** -/
theorem C34_partials (w : WI → ℝ) (h : HI → ℝ) (p : PI → ℝ) (hN : w .Nmech ≠ 0) (he : h .eff ≠ 0) :
    ExactPartials power powerJ w
    ∧ ExactPartials (fun x (_ : Unit) => enthRise x) (fun x _ => enthRiseJ x) h
    ∧ ExactPartials (fun x (_ : Unit) => pressRise x) (fun x _ => pressRiseJ x) p := by
  refine ⟨?_, ?_, ?_⟩
  · intro o i
    cases o <;> cases i <;> simp only [power, powerJ, Function.update_of_ne, Function.update_self,
      ne_eq, reduceCtorEq, not_false_eq_true] <;> hd (exact hN) (fring)
  · intro o i
    cases i <;> simp only [enthRise, enthRiseJ, Function.update_of_ne, Function.update_self,
      ne_eq, reduceCtorEq, not_false_eq_true] <;> hd (exact he) (fring)
  · intro o i
    cases i <;> simp only [pressRise, pressRiseJ, Function.update_of_ne, Function.update_self,
      ne_eq, reduceCtorEq, not_false_eq_true] <;> hd (skip) (fring)

/-- `Power` is `BleedsAndPower` without bleeds. -/
theorem C34_no_bleeds (x : BI 0 → ℝ) :
    let w : WI → ℝ := fun
      | .W => x .W_in | .ht_out => x .ht_out | .ht_in => x .ht_in | .Nmech => x .Nmech
    blds x .power = power w .power ∧ blds x .trq = power w .trq ∧ blds x .W_out = x .W_in := by
  simp [blds, bldPower, wOut, power]

/-- **C34 (group).** Pressure ratio and isentropic efficiency of the whole compressor are the ones its
map asks for, its power closes the energy balance over all outgoing streams, and mass is conserved —
whatever the thermodynamic functions are. -/
theorem C34_group (g : GIn n) (th : Therm) (he : g.eff ≠ 0) (hN : g.Nmech ≠ 0) :
    let out := blds (g.bldsIn th)
    g.PtOut = g.PR * g.Pt
    ∧ th.hSP g.S g.PtOut - g.ht = g.eff * (g.htOut th - g.ht)
    ∧ g.W = out .W_out + ∑ k, out (.W k)
    ∧ out .power = BTU_s2HP
        * (g.W * g.ht - (out .W_out * g.htOut th + ∑ k, out (.W k) * out (.ht k)))
    ∧ out .trq * g.Nmech = 5252.11 * out .power := by
  refine ⟨rfl, ?_, C34_mass (g.bldsIn th), C34_energy (g.bldsIn th), (C34_torque (g.bldsIn th) hN).1⟩
  simp only [GIn.htOut, enthRise]
  field_simp
  ring

/-- A compressor with two bleeds that meets every hypothesis above. -/
example : ∃ (g : GIn 2) (th : Therm), g.eff ≠ 0 ∧ g.Nmech ≠ 0 ∧ blds (g.bldsIn th) .W_out = 85
    ∧ blds (g.bldsIn th) .power = -(100 * 200 * 1.4148532) + 10 * 100 * 1.4148532 := by
  refine ⟨⟨100, 130, 15, 1.6, 0.0686, 10, 0.5, 8000, ![0.1, 0.05], ![0.5, 1], ![0.5, 1]⟩,
    ⟨fun _ _ => 230, fun _ _ => 1.6⟩, by norm_num, by norm_num, ?_, ?_⟩
  · simp [blds, wOut, statW, GIn.bldsIn, foldl_sub_fin, Fin.sum_univ_two]; norm_num
  · simp [blds, bldPower, statW, bldHt, GIn.bldsIn, foldl_sub_fin, Fin.sum_univ_two, GIn.htOut,
      enthRise, BTU_s2HP]
    norm_num

end PyCycle.Comp
