import Verif.Bench.Compress

/-! # Bench: turbines cooled by two bleeds -/

namespace PyCycle.OM
namespace Bench
open C48Example (unitGas)
open C54Example (tmap)
open C58Example (at_)

/-- The map at speed 2 and pressure ratio 3. -/
noncomputable def tmapE (np wp pr eff : ℝ) : Env := Env.ofTable
  [("alphaMap", 0), ("NpMap", 2), ("PRmap", 3), ("effMap", 0.5), ("WpMap", 6), ("Np", np), ("PR", pr),
   ("eff", eff), ("Wp", wp), ("s_Np", np / 2), ("s_PR", (pr - 1) / 2), ("s_eff", eff * 2), ("s_Wp", wp / 6),
   ("scaledOutput.Np", np), ("scaledOutput.Wp", wp)] []

set_option maxHeartbeats 1000000 in
theorem tmap_converged (np wp pr eff : ℝ) (d : Bool) : (turbineMap tmap d).Converged (tmapE np wp pr eff) := by
  refine Group.converged_quick rfl (C54_turbine_interface tmap d).1.1.1 ?_
  intro s hs
  cases d
  · simp only [turbineMap, Bool.false_eq_true, if_false, List.cons_append, List.nil_append, List.mem_cons,
      List.not_mem_nil, or_false] at hs
    rcases hs with rfl | rfl | rfl
    · kshow (0.5 : ℝ) = 0.5 ∧ (6 : ℝ) = 2 * 3
      norm_num
    · intro q hq
      cases q
      · kshow np = 2 * (np / 2)
        ring
      · kshow pr = (3 - 1) * ((pr - 1) / 2) + 1
        ring
      · kshow eff = 0.5 * (eff * 2)
        ring
      · kshow wp = 6 * (wp / 6)
        ring
    · intro b hb
      fin_cases hb <;> rfl
  · simp only [turbineMap, if_true, List.cons_append, List.nil_append, List.mem_cons,
      List.not_mem_nil, or_false] at hs
    rcases hs with rfl | rfl
    · kshow (0.5 : ℝ) = 0.5 ∧ (6 : ℝ) = 2 * 3
      norm_num
    · intro q hq
      cases q
      · krfl
      · kshow (pr - 1) / 2 = (pr - 1) / (3 - 1)
        norm_num
      · kshow eff * 2 = eff / 0.5
        ring
      · krfl

theorem tmap_outs (d : Bool) : (turbineMap tmap d).wiring.outs ⊆ if d then ["effMap", "WpMap", "s_Np", "s_PR", "s_eff", "s_Wp"]
    else ["effMap", "WpMap", "scaledOutput.Np", "scaledOutput.Wp", "PR", "eff", "NpMap", "PRmap"] := by
  rw [show (turbineMap tmap d).wiring = (turbineMap ⟨fun _ _ _ => 0, fun _ _ _ => 0⟩ d).wiring by cases d <;> rfl]
  revert d; decide +kernel

/-- Flow and speed parameters. -/
noncomputable def wp (a : Stn) : ℝ := a.W * a.h ^ (0.5 : ℝ) / a.P
noncomputable def np (a : Stn) : ℝ := 1 * a.h ^ (-0.5 : ℝ)

/-- A cooling bleed: the state it comes in, its flow, the pressure where it enters, its enthalpy after an ideal
expansion. -/
structure Cool where
  src : TG.Station
  W : ℝ
  fP : ℝ
  Ti : ℝ

/-- Main stream and bleeds, after the expansion of the main stream. -/
noncomputable def b4 (a : Stn) (Ti eff : ℝ) : ℝ := a.h * (1 - eff) + Ti * eff
/-- Power of a turbine with two equal bleeds. -/
noncomputable def turbPower (a : Stn) (Ti eff : ℝ) (c : Cool) : ℝ :=
  a.W * eff * (a.h - Ti) * 1.4148532 + c.W * eff * (c.src.h - c.Ti) * 1.4148532 + c.W * eff * (c.src.h - c.Ti) * 1.4148532

/-- Pressure of a bleed where it enters. -/
noncomputable def enters (a b : Stn) (c : Cool) : ℝ := b.P + c.fP * (a.P - b.P)

noncomputable def coolRows (a b : Stn) (c : Cool) (n : String) : List (String × ℝ) :=
  [(n ++ ":stat:W", c.W), (n ++ ":frac_P", c.fP), ("blds." ++ n ++ ":Pt", enters a b c)]
    ++ stationRows (n ++ ":tot:") c.src
    ++ stationRows (n ++ "_inflow.") (at_ c.src.h (enters a b c))
    ++ stationRows (n ++ "_inflow.flow:") (at_ c.src.h (enters a b c))
    ++ stationRows (n ++ "_ideal.") (at_ c.Ti b.P) ++ stationRows (n ++ "_ideal.flow:") (at_ c.Ti b.P)

/-- The names of the bleeds: those of the first turbine, or those of the second. -/
def coolNames : Bool → List String
  | true => ["cool3", "cool4"]
  | false => ["cool1", "cool2"]

theorem coolNames_ok : ∀ k, BleedNames turbineTails turbineReserved (coolNames k)
  | true => HBTF.hptNames
  | false => HBTF.lptNames

/-- A turbine at speed 1, cooled by two bleeds of air with the names `bs`. -/
noncomputable def turbN (bs : List String) (a b : Stn) (Ti pr eff : ℝ) (c : Cool) : Env := Env.ofTable
  ([("MN", 1), ("area", b.W / b.q), ("Nmech", 1), ("W_out", b.W), ("ht_out_b4bld", b4 a Ti eff), ("pwr_turb.ht_out", b.h),
    ("power", turbPower a Ti eff c), ("trq", 5252.11 * turbPower a Ti eff c), ("press_drop.Pt_out", b.P), ("eff_poly", 1),
    ("bld_add.mass_avg_h", 0),
    ("map.alphaMap", 0), ("map.NpMap", 2), ("map.PRmap", 3), ("map.effMap", 0.5), ("map.WpMap", 6),
    ("Np", np a), ("PR", pr), ("eff", eff), ("Wp", wp a), ("s_Np", np a / 2), ("s_PR", (pr - 1) / 2), ("s_eff", eff * 2),
    ("s_Wp", wp a / 6), ("map.scaledOutput.Np", np a), ("map.scaledOutput.Wp", wp a)]
    ++ a.inRows
    ++ stationRows "ideal_flow." (at_ Ti b.P) ++ stationRows "ideal_flow.flow:" (at_ Ti b.P)
    ++ stationRows "real_flow_b4bld." (at_ (b4 a Ti eff) b.P)
    ++ stationRows "real_flow_b4bld.Fl_O_b4bld:tot:" (at_ (b4 a Ti eff) b.P)
    ++ b.outRows ++ bs.flatMap (coolRows a b c))
  (a.inComp ++ [("ideal_flow.flow:composition", a.C), ("real_flow_b4bld.Fl_O_b4bld:tot:composition", a.C),
    ("bld_add.composition_out", b.C)] ++ b.outComp
    ++ bs.flatMap fun n => [(n ++ ":tot:composition", fuelAir 0), (n ++ ":stat:composition", fuelAir 0), (n ++ "_inflow.flow:composition", fuelAir 0),
      (n ++ "_ideal.flow:composition", fuelAir 0)])

noncomputable abbrev turbE (k : Bool) (a b : Stn) (Ti pr eff : ℝ) (c : Cool) : Env := turbN (coolNames k) a b Ti pr eff c

set_option hygiene false in
macro "turb_converged_body " nm:term : tactic => `(tactic| (
  obtain ⟨q, P, Ps, W, C⟩ := a
  obtain ⟨q', P', Ps', W', C'⟩ := b
  obtain ⟨⟨cT, cP, ch, cS, cg, cCp, cCv, cr, cR⟩, w, fP, cTi⟩ := c
  simp only [Stn.h, b4] at hW hP hC hC' hh hc hg
  subst C C' cS
  refine Group.converged_quick rfl (C56_interface unitGas (fun _ => unitGas) tmap (.tab 1) $nm _ true).1.1.1 ?_
  intro s hs
  simp only [turbine, turbineHead, turbineTail, coolNames, bleedIn, Bool.false_eq_true, if_false, if_true,
    List.flatMap_cons, List.flatMap_nil, List.cons_append, List.nil_append,
    List.mem_cons, List.not_mem_nil, or_false, List.map_nil, List.map_cons] at hs
  rcases hs with rfl | rfl | rfl | rfl | rfl | rfl | rfl | rfl | rfl | rfl | rfl | rfl | rfl | rfl | rfl | rfl | rfl | rfl
  · exact trivial
  · exact ⟨by krfl, by krfl⟩
  · refine ⟨tmapE (np ⟨q, P, Ps, W, fuelAir f⟩) (wp ⟨q, P, Ps, W, fuelAir f⟩) pr eff, tmap_converged _ _ _ _ _, ?_, ?_⟩
    · intro n hn
      have := (C54_turbine_interface tmap _).2 n |>.mp hn
      simp only [turbineMapInputs, if_true, Bool.false_eq_true, if_false, List.cons_append, List.nil_append] at this
      fin_cases this <;> exact ⟨by krfl, by krfl⟩
    · intro n hn
      have := tmap_outs _ hn
      simp only [if_true, Bool.false_eq_true, if_false] at this
      fin_cases this <;> exact ⟨by krfl, by krfl⟩
  · kshow P' = P / pr
    exact hP
  · total_of (at_ Ti P')
  · exact trivial
  · exact trivial
  · intro k
    fin_cases k <;> krfl
  · refine ⟨?_, ?_, ?_⟩
    · kshow (0 : ℝ) = (W * 0 + w * 0 + w * 0) / (W + w + w)
      simp
    · kshow W' = W + w + w
      exact hW
    · intro k
      fin_cases k
      kshow fuelAir g 0 = (W / (1 + ∑ i : Fin 1, fuelAir f i) * fuelAir f 0
          + w / (1 + ∑ i : Fin 1, fuelAir 0 i) * fuelAir 0 0 + w / (1 + ∑ i : Fin 1, fuelAir 0 i) * fuelAir 0 0)
        / (W / (1 + ∑ i : Fin 1, fuelAir f i) + w / (1 + ∑ i : Fin 1, fuelAir 0 i) + w / (1 + ∑ i : Fin 1, fuelAir 0 i))
      simp only [fuelAir, Finset.univ_unique, Finset.sum_singleton, Fin.default_eq_zero, Fin.val_zero, if_true]
      rw [hg]
      simp
  · total_of (at_ ch (P' + fP * (P - P')))
  · total_of (at_ cTi P')
  · total_of (at_ ch (P' + fP * (P - P')))
  · total_of (at_ cTi P')
  · refine ⟨by krfl, ?_, by krfl, ?_⟩
    · kshow q' ^ 2 * 1.5 = W / W' * (q ^ 2 * 1.5 * (1 - eff) + Ti * eff) + w / W' * (ch * (1 - eff) + cTi * eff)
        + w / W' * (ch * (1 - eff) + cTi * eff)
      exact hh
    · kshow 5252.11 * (W * eff * (q ^ 2 * 1.5 - Ti) * 1.4148532 + w * eff * (ch - cTi) * 1.4148532
          + w * eff * (ch - cTi) * 1.4148532)
        = (W * eff * (q ^ 2 * 1.5 - Ti) * 1.4148532 + w * eff * (ch - cTi) * 1.4148532
          + w * eff * (ch - cTi) * 1.4148532) / 1 * 5252.11
      ring
  · total_of (at_ (q ^ 2 * 1.5 * (1 - eff) + Ti * eff) P')
  · kshow (1 : ℝ) = 1 + (0 - 0) / (1 * Real.log (1 / pr))
    simp
  · total_of (Stn.mk q' P' Ps' W' (fuelAir g)).tot
  · outlet_of (Stn.mk q' P' Ps' W' (fuelAir g)) o))

set_option maxHeartbeats 4000000 in
private theorem turb_converged_f_f {a b : Stn} {Ti pr eff f g : ℝ} {c : Cool} (o : b.Ok) (hc : c.src.S = 0)
    (hC : a.C = fuelAir f) (hC' : b.C = fuelAir g) (hW : b.W = a.W + c.W + c.W) (hP : b.P = a.P / pr)
    (hh : b.h = a.W / b.W * b4 a Ti eff + c.W / b.W * (c.src.h * (1 - eff) + c.Ti * eff)
      + c.W / b.W * (c.src.h * (1 - eff) + c.Ti * eff))
    (hf : 1 + f ≠ 0) (hg : g = a.W / (1 + f) * f / (a.W / (1 + f) + c.W + c.W)) :
    (turbine unitGas (fun _ => unitGas) tmap (.tab 1) (coolNames false) false true).Converged (turbE false a b Ti pr eff c) := by
  turb_converged_body (coolNames_ok _)

set_option maxHeartbeats 4000000 in
private theorem turb_converged_f_t {a b : Stn} {Ti pr eff f g : ℝ} {c : Cool} (o : b.Ok) (hc : c.src.S = 0)
    (hC : a.C = fuelAir f) (hC' : b.C = fuelAir g) (hW : b.W = a.W + c.W + c.W) (hP : b.P = a.P / pr)
    (hh : b.h = a.W / b.W * b4 a Ti eff + c.W / b.W * (c.src.h * (1 - eff) + c.Ti * eff)
      + c.W / b.W * (c.src.h * (1 - eff) + c.Ti * eff))
    (hf : 1 + f ≠ 0) (hg : g = a.W / (1 + f) * f / (a.W / (1 + f) + c.W + c.W)) :
    (turbine unitGas (fun _ => unitGas) tmap (.tab 1) (coolNames true) false true).Converged (turbE true a b Ti pr eff c) := by
  turb_converged_body (coolNames_ok _)

set_option maxHeartbeats 4000000 in
private theorem turb_converged_t_f {a b : Stn} {Ti pr eff f g : ℝ} {c : Cool} (o : b.Ok) (hc : c.src.S = 0)
    (hC : a.C = fuelAir f) (hC' : b.C = fuelAir g) (hW : b.W = a.W + c.W + c.W) (hP : b.P = a.P / pr)
    (hh : b.h = a.W / b.W * b4 a Ti eff + c.W / b.W * (c.src.h * (1 - eff) + c.Ti * eff)
      + c.W / b.W * (c.src.h * (1 - eff) + c.Ti * eff))
    (hf : 1 + f ≠ 0) (hg : g = a.W / (1 + f) * f / (a.W / (1 + f) + c.W + c.W)) :
    (turbine unitGas (fun _ => unitGas) tmap (.tab 1) (coolNames false) true true).Converged (turbE false a b Ti pr eff c) := by
  turb_converged_body (coolNames_ok _)

set_option maxHeartbeats 4000000 in
private theorem turb_converged_t_t {a b : Stn} {Ti pr eff f g : ℝ} {c : Cool} (o : b.Ok) (hc : c.src.S = 0)
    (hC : a.C = fuelAir f) (hC' : b.C = fuelAir g) (hW : b.W = a.W + c.W + c.W) (hP : b.P = a.P / pr)
    (hh : b.h = a.W / b.W * b4 a Ti eff + c.W / b.W * (c.src.h * (1 - eff) + c.Ti * eff)
      + c.W / b.W * (c.src.h * (1 - eff) + c.Ti * eff))
    (hf : 1 + f ≠ 0) (hg : g = a.W / (1 + f) * f / (a.W / (1 + f) + c.W + c.W)) :
    (turbine unitGas (fun _ => unitGas) tmap (.tab 1) (coolNames true) true true).Converged (turbE true a b Ti pr eff c) := by
  turb_converged_body (coolNames_ok _)

theorem turb_converged {k : Bool} {a b : Stn} {Ti pr eff f g : ℝ} {c : Cool} (d : Bool) (o : b.Ok) (hc : c.src.S = 0)
    (hC : a.C = fuelAir f) (hC' : b.C = fuelAir g) (hW : b.W = a.W + c.W + c.W) (hP : b.P = a.P / pr)
    (hh : b.h = a.W / b.W * b4 a Ti eff + c.W / b.W * (c.src.h * (1 - eff) + c.Ti * eff)
      + c.W / b.W * (c.src.h * (1 - eff) + c.Ti * eff))
    (hf : 1 + f ≠ 0) (hg : g = a.W / (1 + f) * f / (a.W / (1 + f) + c.W + c.W)) :
    (turbine unitGas (fun _ => unitGas) tmap (.tab 1) (coolNames k) d true).Converged (turbE k a b Ti pr eff c) := by
  cases d <;> cases k
  · exact turb_converged_f_f o hc hC hC' hW hP hh hf hg
  · exact turb_converged_f_t o hc hC hC' hW hP hh hf hg
  · exact turb_converged_t_f o hc hC hC' hW hP hh hf hg
  · exact turb_converged_t_t o hc hC hC' hW hP hh hf hg

end Bench
end PyCycle.OM
