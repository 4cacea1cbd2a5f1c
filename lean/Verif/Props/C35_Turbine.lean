import Verif.Model.Turbine
import Verif.Lemmas.Fold
import Verif.Props.C31_Mixer

/-! # C35: turbine -/

namespace PyCycle.Turb

variable {n : ℕ}

/-- **C35 (mass).** The flow found by the turbine's bleed mixer is the inflow plus every bleed. -/
theorem C35_mass (pin pmix : Properties) (W h : ℝ) (comp : Fin pin.elements.length → ℝ)
    (streams : List MixStream) :
    (flowCompute pin pmix W h comp streams).W = W + (streams.map (fun s => s.W)).sum := by
  have : ∀ (l : List MixStream) (a : AddAcc pmix.elements.length),
      (l.foldl (fun a s =>
        { b0 := fun j => a.b0 j + mixContribution pmix s j
          hW := a.hW + s.h * s.W
          W := a.W + s.W : AddAcc pmix.elements.length }) a).W = a.W + (l.map (fun s => s.W)).sum := by
    intro l
    induction l with
    | nil => simp
    | cons b l ih => intro a; rw [List.foldl_cons, ih, List.map_cons, List.sum_cons]; ring
  exact this streams (addStart pin pmix W h comp)

/-- **C35 (energy).** For any number of bleeds, the enthalpy flux out is the enthalpy flux of the
primary flow and all bleeds minus the shaft power, and the power is the efficiency times the ideal
drop of every stream. -/
theorem C35_energy (x : EI n → ℝ) (hW : x .W_out ≠ 0) :
    BTU_s2HP * (x .W_out * enthPower x .ht_out)
      = BTU_s2HP * (x .W_in * x .ht_in + ∑ k, x (.W k) * x (.ht k)) - enthPower x .power
    ∧ enthPower x .power = BTU_s2HP * (x .eff * (x .W_in * (x .ht_in - x .ht_out_ideal)
        + ∑ k, x (.W k) * (x (.ht k) - x (.ht_ideal k)))) := by
  have hp : enthPower x .power = BTU_s2HP * (x .eff * (x .W_in * (x .ht_in - x .ht_out_ideal)
        + ∑ k, x (.W k) * (x (.ht k) - x (.ht_ideal k)))) := by
    simp only [enthPower, pwr, foldl_add_fin]
    rw [mul_add (x .eff), mul_add BTU_s2HP, Finset.mul_sum, Finset.mul_sum]
    congr 1
    · ring
    · exact Finset.sum_congr rfl fun k _ => by ring
  refine ⟨?_, hp⟩
  rw [hp]
  simp only [enthPower, htOut, foldl_add_fin, b4bld]
  have e1 : x .W_out * ∑ k, x (.W k) / x .W_out
      * (x (.ht k) * (1 - x .eff) + x (.ht_ideal k) * x .eff)
      = (∑ k, x (.W k) * x (.ht k)) - x .eff * ∑ k, x (.W k) * (x (.ht k) - x (.ht_ideal k)) := by
    rw [Finset.mul_sum, Finset.mul_sum, ← Finset.sum_sub_distrib]
    refine Finset.sum_congr rfl fun k _ => ?_
    field_simp; ring
  rw [mul_add (x .W_out), e1]
  field_simp; ring

/-- **C35 (efficiency).** Before the bleeds are added, the enthalpy drop is the efficiency times the
ideal drop; it agrees with the stand-alone `EnthalpyDrop` component. Without bleeds (and `W_out =
W_in`) it is the outlet enthalpy. -/
theorem C35_efficiency (x : EI n → ℝ) :
    x .ht_in - enthPower x .ht_out_b4bld = x .eff * (x .ht_in - x .ht_out_ideal)
    ∧ enthPower x .ht_out_b4bld
      = enthDrop (fun | .ht_in => x .ht_in | .ht_out_ideal => x .ht_out_ideal | .eff => x .eff)
    ∧ (n = 0 → x .W_out = x .W_in → x .W_in ≠ 0 →
        enthPower x .ht_out = enthPower x .ht_out_b4bld) := by
  refine ⟨by simp only [enthPower, b4bld]; ring, by simp only [enthPower, b4bld, enthDrop]; ring, ?_⟩
  intro hn hW h0
  subst hn
  simp [enthPower, htOut, hW, h0]

/-- **C35 (bleed pressure).** Coolant enters at its fraction of the pressure drop above the exit
pressure: 0 is the exit, 1 the inlet; fractions in `[0, 1]` stay between. -/
theorem C35_bleed_pressure (x : BI n → ℝ) (k : Fin n) :
    bldPt x k - x .Pt_out = x (.frac_P k) * (x .Pt_in - x .Pt_out)
    ∧ (0 ≤ x (.frac_P k) → x (.frac_P k) ≤ 1 → x .Pt_out ≤ x .Pt_in →
        x .Pt_out ≤ bldPt x k ∧ bldPt x k ≤ x .Pt_in) := by
  refine ⟨by simp [bldPt], fun h0 h1 h => ?_⟩
  simp only [bldPt]; constructor <;> nlinarith

/-- **C35 (torque).** -/
theorem C35_torque (x : EI n → ℝ) (hN : x .Nmech ≠ 0) :
    enthPower x .trq * x .Nmech = 5252.11 * enthPower x .power := by
  simp only [enthPower, HP_per_RPM_to_FT_LBF]; field_simp

private theorem closed (x : EI n → ℝ) :
    htOut x = (x .W_in * b4bld x + (∑ k, x (.W k) * x (.ht k)) * (1 - x .eff)
        + (∑ k, x (.W k) * x (.ht_ideal k)) * x .eff) / x .W_out
    ∧ pwr x = x .eff * BTU_s2HP * (x .W_in * (x .ht_in - x .ht_out_ideal)
        + (∑ k, x (.W k) * x (.ht k)) - ∑ k, x (.W k) * x (.ht_ideal k)) := by
  constructor
  · simp only [htOut, foldl_add_fin]
    rw [add_div, add_div, Finset.sum_mul, Finset.sum_mul, Finset.sum_div, Finset.sum_div, add_assoc,
      ← Finset.sum_add_distrib]
    congr 1
    · ring
    · exact Finset.sum_congr rfl fun k _ => by ring
  · simp only [pwr, foldl_add_fin]
    rw [add_sub_assoc, mul_add, ← Finset.sum_sub_distrib, Finset.mul_sum]
    congr 1
    · ring
    · exact Finset.sum_congr rfl fun k _ => by ring

/-- **C35 (partials of enthalpy and power).** Exact at non-zero outflow and speed, for any number of
bleeds. -/
theorem C35_power_partials (x : EI n → ℝ) (hW : x .W_out ≠ 0) (hN : x .Nmech ≠ 0) :
    ExactPartials enthPower enthPowerJ x := by
  have hc : ∀ i j : EI n, HasDerivAt (fun t => Function.update x i t j) (if i = j then 1 else 0)
      (x i) := by
    intro i j
    by_cases hij : i = j
    · subst hij; simpa using hasDerivAt_id' (x i)
    · simp only [Function.update_of_ne (Ne.symm hij), hij, if_false]
      exact hasDerivAt_const _ _
  have hH : ∀ i : EI n, HasDerivAt (fun t => ∑ k, Function.update x i t (.W k)
      * Function.update x i t (.ht k))
      (match i with | .W j => x (.ht j) | .ht j => x (.W j) | _ => 0) (x i) := by
    intro i
    cases i
    case W j =>
      simp only [Function.update_of_ne, ne_eq, reduceCtorEq, not_false_eq_true]
      exact hd_sum_single j (by simp only [Function.update_self]; hd (skip) (ring1))
        (fun k hk t => by simp [hk])
    case ht j =>
      simp only [Function.update_of_ne, ne_eq, reduceCtorEq, not_false_eq_true]
      exact hd_sum_single j (by simp only [Function.update_self]; hd (skip) (ring1))
        (fun k hk t => by simp [hk])
    all_goals
      simp only [Function.update_of_ne, ne_eq, reduceCtorEq, not_false_eq_true]
      exact hasDerivAt_const _ _
  have hI : ∀ i : EI n, HasDerivAt (fun t => ∑ k, Function.update x i t (.W k)
      * Function.update x i t (.ht_ideal k))
      (match i with | .W j => x (.ht_ideal j) | .ht_ideal j => x (.W j) | _ => 0) (x i) := by
    intro i
    cases i
    case W j =>
      simp only [Function.update_of_ne, ne_eq, reduceCtorEq, not_false_eq_true]
      exact hd_sum_single j (by simp only [Function.update_self]; hd (skip) (ring1))
        (fun k hk t => by simp [hk])
    case ht_ideal j =>
      simp only [Function.update_of_ne, ne_eq, reduceCtorEq, not_false_eq_true]
      exact hd_sum_single j (by simp only [Function.update_self]; hd (skip) (ring1))
        (fun k hk t => by simp [hk])
    all_goals
      simp only [Function.update_of_ne, ne_eq, reduceCtorEq, not_false_eq_true]
      exact hasDerivAt_const _ _
  have L : ∀ (a c d : ℝ) (f : Fin n → ℝ),
      (∀ k, f k = x (.W k) * x (.ht k) * c + x (.W k) * x (.ht_ideal k) * d) →
      (List.finRange n).foldl (fun acc k => acc + f k) a
        = a + ((∑ k, x (.W k) * x (.ht k)) * c + (∑ k, x (.W k) * x (.ht_ideal k)) * d) :=
    fun a c d f hf => by
      rw [foldl_add_fin, Finset.sum_mul, Finset.sum_mul, ← Finset.sum_add_distrib]
      exact congrArg _ (Finset.sum_congr rfl fun k _ => hf k)
  intro o i
  have hb : HasDerivAt (fun t => b4bld (Function.update x i t)) _ (x i) :=
    hd_add (hd_mul (hc i .ht_in) (hd_sub (hasDerivAt_const _ (1 : ℝ)) (hc i .eff)))
      (hd_mul (hc i .ht_out_ideal) (hc i .eff))
  cases o with
  | ht_out_b4bld =>
    refine hb.congr_deriv ?_
    cases i <;> simp [enthPowerJ]; try ring
  | ht_out =>
    simp only [enthPower, (closed _).1]
    have h := hd_div (hd_add (hd_add (hd_mul (hc i .W_in) hb)
      (hd_mul (hH i) (hd_sub (hasDerivAt_const _ (1 : ℝ)) (hc i .eff))))
      (hd_mul (hI i) (hc i .eff))) (hc i .W_out) (by simpa using hW)
    refine h.congr_deriv ?_
    simp only [Function.update_eq_self]
    cases i
    case W_out =>
      simp only [enthPowerJ]
      rw [L _ (-(1 - x .eff) / x .W_out ^ 2) (-x .eff / x .W_out ^ 2) _ (fun k => by ring)]
      simp [b4bld]; field_simp; ring
    case eff =>
      simp only [enthPowerJ]
      rw [L _ (-1 / x .W_out) (1 / x .W_out) _ (fun k => by ring)]
      simp [b4bld]; field_simp; ring
    all_goals (simp [enthPowerJ, b4bld]; try field_simp); try ring1
  | power =>
    simp only [enthPower, (closed _).2]
    have h := hd_mul (hd_mul (hc i .eff) (hasDerivAt_const _ BTU_s2HP))
      (hd_sub (hd_add (hd_mul (hc i .W_in) (hd_sub (hc i .ht_in) (hc i .ht_out_ideal))) (hH i)) (hI i))
    refine h.congr_deriv ?_
    simp only [Function.update_eq_self]
    cases i
    case eff =>
      simp only [enthPowerJ]
      rw [L _ BTU_s2HP (-BTU_s2HP) _ (fun k => by ring)]
      simp; ring
    all_goals (simp [enthPowerJ]); try ring1
  | trq =>
    simp only [enthPower, (closed _).2]
    have h := hd_mul (hd_div (hd_mul (hd_mul (hc i .eff) (hasDerivAt_const _ BTU_s2HP))
      (hd_sub (hd_add (hd_mul (hc i .W_in) (hd_sub (hc i .ht_in) (hc i .ht_out_ideal))) (hH i)) (hI i)))
      (hc i .Nmech) (by simpa using hN)) (hasDerivAt_const _ HP_per_RPM_to_FT_LBF)
    refine h.congr_deriv ?_
    simp only [Function.update_eq_self]
    cases i
    case eff =>
      simp only [enthPowerJ]
      rw [L _ (BTU_s2HP * HP_per_RPM_to_FT_LBF / x .Nmech)
        (-BTU_s2HP * HP_per_RPM_to_FT_LBF / x .Nmech) _ (fun k => by ring)]
      simp; field_simp; ring
    case Nmech =>
      simp only [enthPowerJ]
      rw [L _ (-x .eff * BTU_s2HP * HP_per_RPM_to_FT_LBF / x .Nmech ^ 2)
        (x .eff * BTU_s2HP * HP_per_RPM_to_FT_LBF / x .Nmech ^ 2) _ (fun k => by ring)]
      simp; field_simp; ring
    all_goals (simp [enthPowerJ, -mul_eq_mul_right_iff, -mul_eq_mul_left_iff]; try field_simp); try ring1

/-- **C35 (partials of the other components).** -/
theorem C35_partials (h : HI → ℝ) (p : Comp.PI → ℝ) (b : BI n → ℝ) (hp : p .PR ≠ 0) :
    ExactPartials (fun x (_ : Unit) => enthDrop x) (fun x _ => enthDropJ x) h
    ∧ ExactPartials (fun x (_ : Unit) => pressDrop x) (fun x _ => pressDropJ x) p
    ∧ ExactPartials bldPt bldPtJ b := by
  refine ⟨?_, ?_, ?_⟩
  · intro o i
    cases i <;> simp only [enthDrop, enthDropJ, Function.update_of_ne, Function.update_self,
      ne_eq, reduceCtorEq, not_false_eq_true] <;> hd (skip) (fring)
  · intro o i
    cases i <;> simp only [pressDrop, pressDropJ, Function.update_of_ne, Function.update_self,
      ne_eq, reduceCtorEq, not_false_eq_true] <;> hd (exact hp) (fring)
  · intro k i
    have hc : ∀ j : BI n, HasDerivAt (fun t => Function.update b i t j) (if i = j then 1 else 0)
        (b i) := by
      intro j
      by_cases hij : i = j
      · subst hij; simpa using hasDerivAt_id' (b i)
      · simp only [Function.update_of_ne (Ne.symm hij), hij, if_false]
        exact hasDerivAt_const _ _
    have h := hd_add (hc .Pt_out) (hd_mul (hc (.frac_P k)) (hd_sub (hc .Pt_in) (hc .Pt_out)))
    refine h.congr_deriv ?_
    cases i <;> simp [bldPtJ]; try ring

/-- **C35 (group).** A turbine whose mixer adds the flows (`C35_mass`): pressure ratio and efficiency
are the map's, each bleed is expanded from its entry pressure to the exit at constant entropy, and
the power closes the energy balance over all incoming streams. -/
theorem C35_group (g : GIn n) (th : Therm n) (Wout : ℝ) (hsum : Wout = g.W + ∑ k, g.bW k)
    (hW : Wout ≠ 0) (hP : g.PR ≠ 0) (hN : g.Nmech ≠ 0) :
    let out := enthPower (g.enthIn th Wout)
    g.PtOut * g.PR = g.Pt
    ∧ g.ht - out .ht_out_b4bld = g.eff * (g.ht - th.main.hSP g.S g.PtOut)
    ∧ BTU_s2HP * ((g.W + ∑ k, g.bW k) * out .ht_out)
      = BTU_s2HP * (g.W * g.ht + ∑ k, g.bW k * g.bht k) - out .power
    ∧ out .power = BTU_s2HP * (g.eff * (g.W * (g.ht - th.main.hSP g.S g.PtOut)
        + ∑ k, g.bW k * (g.bht k - (th.bleed k).hSP
            ((th.bleed k).sHP (g.bht k) (g.PtOut + g.frac_P k * (g.Pt - g.PtOut))) g.PtOut)))
    ∧ out .trq * g.Nmech = 5252.11 * out .power := by
  have he := C35_energy (g.enthIn th Wout) hW
  refine ⟨?_, (C35_efficiency (g.enthIn th Wout)).1, ?_, he.2, C35_torque (g.enthIn th Wout) hN⟩
  · simp only [GIn.PtOut, pressDrop]; field_simp
  · have := he.1
    rw [← hsum]; exact this

example : ∃ (g : GIn 1) (th : Therm 1) (Wout : ℝ), Wout = g.W + ∑ k, g.bW k ∧ Wout ≠ 0 ∧ g.PR ≠ 0
    ∧ g.Nmech ≠ 0 ∧ enthPower (g.enthIn th Wout) .power = BTU_s2HP * (0.9 * (100 * 200 + 5 * 50)) := by
  refine ⟨⟨100, 800, 300, 1.8, 0.0686, 4, 0.9, 8000, fun _ => 5, fun _ => 300, fun _ => 1⟩,
    ⟨⟨fun _ _ => 600, fun _ _ => 1.8⟩, fun _ => ⟨fun _ _ => 250, fun _ _ => 1.6⟩⟩, 105, ?_, ?_, ?_, ?_,
    ?_⟩
  · norm_num
  · norm_num
  · norm_num
  · norm_num
  · rw [(C35_energy _ (by norm_num [GIn.enthIn])).2]
    simp [GIn.enthIn, GIn.bIdeal]; norm_num

/-! ## Composition wiring -/

private theorem mem_mixed (bs : List (PyDict ℝ)) (f : PyDict ℝ) (e : String) :
    e ∈ (mixedFlows f bs).keys ↔ e ∈ f.keys ∨ ∃ b ∈ bs, e ∈ b.keys := by
  induction bs generalizing f with
  | nil => simp [mixedFlows]
  | cons b bs ih =>
    have := ih (f.update b)
    simp only [mixedFlows, List.foldl_cons] at this ⊢
    rw [this, PyDict.mem_keys_update]
    simp only [List.mem_cons, exists_eq_or_imp, or_assoc]

private theorem nodup_mixed (bs : List (PyDict ℝ)) (f : PyDict ℝ) (h : f.keys.Nodup) :
    (mixedFlows f bs).keys.Nodup := by
  induction bs generalizing f with
  | nil => exact h
  | cons b bs ih => exact ih _ (PyDict.nodup_update h b)

private theorem sortedKeys_eq_iff {d e : PyDict ℝ} (hd : d.keys.Nodup) (he : e.keys.Nodup) :
    d.sortedKeys = e.sortedKeys ↔ ∀ k, k ∈ d.keys ↔ k ∈ e.keys := by
  constructor
  · intro h k
    rw [← PyDict.mem_sortedKeys, ← PyDict.mem_sortedKeys, h]
  · intro h
    have hp : d.keys.Perm e.keys := (List.perm_ext_iff_of_nodup hd he).mpr h
    have hp' : d.sortedKeys.Perm e.sortedKeys :=
      (PyDict.sortedKeys_perm d).trans (hp.trans (PyDict.sortedKeys_perm e).symm)
    exact hp'.eq_of_pairwise' (List.pairwise_insertionSort _ _) (List.pairwise_insertionSort _ _)

/-- **C35 (composition).** Every composition a turbine passes to a thermodynamics solver has the
length and element order that solver was built for exactly when no bleed brings an element the
primary flow lacks. -/
theorem C35_composition (f : PyDict ℝ) (bs : List (PyDict ℝ)) (hf : f.keys.Nodup) :
    (∀ c ∈ compConns f bs, c.Consistent) ↔ ∀ b ∈ bs, ∀ e ∈ b.keys, e ∈ f.keys := by
  have hm := sortedKeys_eq_iff (nodup_mixed bs f hf) hf
  have e1 : (∀ c ∈ compConns f bs, c.Consistent) ↔ (mixedFlows f bs).sortedKeys = f.sortedKeys := by
    simp only [compConns, Mix.CompConn.Consistent, List.mem_append, List.mem_singleton, List.mem_map,
      List.mem_cons, List.not_mem_nil, or_false, or_self]
    constructor
    · intro h; exact h _ (Or.inr rfl)
    · rintro h c ((rfl | ⟨b, _, rfl⟩) | rfl)
      · rfl
      · rfl
      · exact h
  rw [e1, hm]
  simp only [mem_mixed]
  constructor
  · intro h b hb e he; exact (h e).mp (Or.inr ⟨b, hb, he⟩)
  · intro h e
    exact ⟨fun hh => hh.elim id fun ⟨b, hb, he⟩ => h b hb e he, Or.inl⟩

/-- **C35 is false for the outlet composition**: a turbine driven by air and cooled with a stream that
contains hydrogen has an inconsistent outlet composition. -/
theorem C35_refuted_composition :
    ∃ (f b : PyDict ℝ), f.keys.Nodup ∧ b.keys.Nodup ∧ ¬ ∀ c ∈ compConns f [b], c.Consistent := by
  obtain ⟨f, b, hf, hb, h, -⟩ := Mix.C31_refuted
  refine ⟨f, b, hf, hb, ?_⟩
  rw [C35_composition f [b] hf]
  intro h'
  refine h 0 ?_
  rw [Mix.C31_composition 0 f b hf hb]
  exact ⟨fun e he => h' b (by simp) e he, by simp⟩

end PyCycle.Turb
