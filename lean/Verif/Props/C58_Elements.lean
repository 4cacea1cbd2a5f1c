import Verif.Props.C58_Stations

/-! # C58: inlet, compressor, burner and turbine of a solved engine -/

namespace PyCycle.OM

namespace C58Example
open C48Example (unitGas)
open C54Example (cmap tmap)
open Turbojet

/-- The inlet: half the pressure is recovered. -/
noncomputable def inletE : Env := Env.ofTable
  ([("ram_recovery", 0.5), ("MN", 1), ("area", 7), ("F_ram", 7 / 32.174), ("calcs_inlet.Pt_out", 7), ("Fl_I:stat:W", 7),
    ("out_stat.guess:MN", 1)]
    ++ stationRows "Fl_I:tot:" C49Example.tot ++ stationRows "Fl_I:stat:" C49Example.sta
    ++ staticRows "Fl_I:stat:" C49Example.mov 3
    ++ stationRows "real_flow." t1 ++ stationRows "Fl_O:tot:" t1 ++ stationRows "out_stat." s1
    ++ stationRows "Fl_O:stat:" s1 ++ staticRows "out_stat." m1 7 ++ staticRows "Fl_O:stat:" m1 7)
  []

set_option maxHeartbeats 1000000 in
theorem inlet_converged (d : Bool) : (inlet unitGas d true).Converged inletE := by
  refine Group.converged_quick rfl (C50_inlet_interface unitGas d true).1.1.1 ?_
  intro s hs
  cases d <;> (
    simp only [inlet, if_true, Bool.false_eq_true, if_false, List.cons_append, List.nil_append, List.mem_cons, List.not_mem_nil,
      or_false] at hs
    rcases hs with rfl | rfl | rfl | rfl
    · exact trivial
    · show (7 : ℝ) = 14 * 0.5 ∧ (7 / 32.174 : ℝ) = 7 * 1 / 32.174
      norm_num
    · total_of t1
    · static_of s1 m1 1.5 7 (fun v => if v = .guessPt then 7 else 1) ok1)

/-! ## Compressor -/

/-- Corrected flow and speed at the compressor. -/
noncomputable def wc : ℝ := 7 * (1.5 / 518.67 : ℝ) ^ (0.5 : ℝ) / (7 / 14.695951)
noncomputable def nc : ℝ := 1 * (1.5 / 518.67 : ℝ) ^ (-0.5 : ℝ)

/-- The map at speed 2 and line 2. -/
noncomputable def cmapE : Env := Env.ofTable
  [("alphaMap", 0), ("NcMap", 2), ("RlineMap", 2), ("PRmap", 3), ("effMap", 0.5), ("WcMap", 4), ("Nc", nc), ("PR", 5),
   ("eff", 0.5), ("Wc", wc), ("s_Nc", nc / 2), ("s_PR", 2), ("s_eff", 1), ("s_Wc", wc / 4), ("scaledOutput.Nc", nc),
   ("scaledOutput.Wc", wc), ("stall_R.RlineStall", 1),
   ("SMN_map.PRmap", 3), ("SMN_map.WcMap", 2), ("SMN_map.effMap", 0.5), ("SMW_map.PRmap", 5), ("SMW_map.WcMap", 4),
   ("SMW_map.effMap", 0.5), ("SMW_bal.NcMap", 4), ("SMN", 100), ("SMW", 200 / 3)] []

set_option maxHeartbeats 1000000 in
theorem cmap_converged (d : Bool) : (compressorMap cmap d).Converged cmapE := by
  refine Group.converged_quick rfl (C54_compressor_interface cmap d).1.1.1 ?_
  intro s hs
  cases d
  · simp only [compressorMap, Bool.false_eq_true, if_false, List.cons_append, List.nil_append, List.mem_cons,
      List.not_mem_nil, or_false] at hs
    rcases hs with rfl | rfl | rfl | rfl | rfl | rfl | rfl | rfl
    · show (0.5 : ℝ) = 0.5 ∧ (3 : ℝ) = 1 + 2 ∧ (4 : ℝ) = 2 * 2
      norm_num
    · intro q hq
      cases q
      · show nc = 2 * (nc / 2)
        ring
      · show (5 : ℝ) = (3 - 1) * 2 + 1
        norm_num
      · show (0.5 : ℝ) = 0.5 * 1
        norm_num
      · show wc = 4 * (wc / 4)
        ring
    · intro b hb
      fin_cases hb <;> rfl
    · rfl
    · show (0.5 : ℝ) = 0.5 ∧ (3 : ℝ) = 1 + 2 ∧ (2 : ℝ) = 2 * 1
      norm_num
    · show (0.5 : ℝ) = 0.5 ∧ (5 : ℝ) = 1 + 4 ∧ (4 : ℝ) = 4 * 1
      norm_num
    · intro b hb
      fin_cases hb
      rfl
    · show (100 : ℝ) = ((4 / 2) / (3 / 3) - 1) * 100 ∧ (200 / 3 : ℝ) = (5 - 3) / 3 * 100
      norm_num
  · simp only [compressorMap, if_true, List.cons_append, List.nil_append, List.mem_cons,
      List.not_mem_nil, or_false] at hs
    rcases hs with rfl | rfl | rfl | rfl | rfl | rfl | rfl
    · show (0.5 : ℝ) = 0.5 ∧ (3 : ℝ) = 1 + 2 ∧ (4 : ℝ) = 2 * 2
      norm_num
    · intro q hq
      cases q
      · rfl
      · show (2 : ℝ) = (5 - 1) / (3 - 1)
        norm_num
      · show (1 : ℝ) = 0.5 / 0.5
        norm_num
      · rfl
    · rfl
    · show (0.5 : ℝ) = 0.5 ∧ (3 : ℝ) = 1 + 2 ∧ (2 : ℝ) = 2 * 1
      norm_num
    · show (0.5 : ℝ) = 0.5 ∧ (5 : ℝ) = 1 + 4 ∧ (4 : ℝ) = 4 * 1
      norm_num
    · intro b hb
      fin_cases hb
      rfl
    · show (100 : ℝ) = ((4 / 2) / (3 / 3) - 1) * 100 ∧ (200 / 3 : ℝ) = (5 - 3) / 3 * 100
      norm_num

/-- Ideal outlet of the compressor. -/
noncomputable def i3 : TG.Station := at_ 7.5 35

/-- The compressor: pressure ratio 5, efficiency 1/2. -/
noncomputable def compE : Env := Env.ofTable
  ([("MN", 1), ("area", 7 / 3), ("Nmech", 1), ("W_out", 7), ("power", -hp), ("trq", -(5252.11 * hp)),
    ("press_rise.Pt_out", 35), ("enth_rise.ht_out", 13.5), ("eff_poly", 1), ("out_stat.guess:MN", 1),
    ("map.alphaMap", 0), ("map.NcMap", 2), ("map.RlineMap", 2), ("map.PRmap", 3), ("map.effMap", 0.5), ("map.WcMap", 4),
    ("Nc", nc), ("PR", 5), ("eff", 0.5), ("Wc", wc), ("s_Nc", nc / 2), ("s_PR", 2), ("s_eff", 1), ("s_Wc", wc / 4),
    ("map.scaledOutput.Nc", nc), ("map.scaledOutput.Wc", wc),
    ("map.stall_R.RlineStall", 1), ("map.SMN_map.PRmap", 3), ("map.SMN_map.WcMap", 2), ("map.SMN_map.effMap", 0.5),
    ("map.SMW_map.PRmap", 5), ("map.SMW_map.WcMap", 4), ("map.SMW_map.effMap", 0.5), ("map.SMW_bal.NcMap", 4),
    ("SMN", 100), ("SMW", 200 / 3)]
    ++ stationRows "Fl_I:tot:" t1 ++ stationRows "Fl_I:stat:" s1 ++ staticRows "Fl_I:stat:" m1 7
    ++ stationRows "ideal_flow." i3 ++ stationRows "ideal_flow.flow:" i3
    ++ stationRows "real_flow." t3 ++ stationRows "Fl_O:tot:" t3
    ++ stationRows "out_stat." s3 ++ stationRows "Fl_O:stat:" s3 ++ staticRows "out_stat." m3 7
    ++ staticRows "Fl_O:stat:" m3 7)
  []

set_option maxHeartbeats 2000000 in
theorem comp_converged (d : Bool) : (compressor unitGas cmap [] d true).Converged compE := by
  refine Group.converged_quick rfl (C55_interface unitGas cmap noComp d true).1.1.1 ?_
  intro s hs
  have hl : ∀ d, (compressorMap cmap d).wiring.outs ⊆ ["effMap", "PRmap", "WcMap", "s_Nc", "s_PR", "s_eff", "s_Wc",
      "scaledOutput.Nc", "scaledOutput.Wc", "PR", "eff", "NcMap", "RlineMap",
      "stall_R.RlineStall", "SMN_map.effMap", "SMN_map.PRmap", "SMN_map.WcMap", "SMW_map.effMap", "SMW_map.PRmap",
      "SMW_map.WcMap", "SMW_bal.NcMap", "SMN", "SMW"] := by
    intro d
    rw [show (compressorMap cmap d).wiring = (compressorMap ⟨fun _ _ _ => 0, fun _ _ _ => 0, fun _ _ _ => 0, 0⟩ d).wiring by cases d <;> rfl]
    revert d; decide +kernel
  cases d <;> (
    simp only [compressor, compressorHead, Bool.false_eq_true, if_false, if_true, List.cons_append, List.nil_append,
      List.mem_cons, List.not_mem_nil, or_false, List.map_nil] at hs
    rcases hs with rfl | rfl | rfl | rfl | rfl | rfl | rfl | rfl | rfl | rfl
    · exact trivial
    · exact ⟨rfl, rfl⟩
    · refine ⟨cmapE, cmap_converged _, ?_, ?_⟩
      · intro n hn
        have := (C54_compressor_interface cmap _).2 n |>.mp hn
        simp only [compressorMapInputs, if_true, Bool.false_eq_true, if_false, List.cons_append, List.nil_append] at this
        fin_cases this <;> exact ⟨by krfl, by krfl⟩
      · intro n hn
        have := hl _ hn
        fin_cases this <;> exact ⟨by krfl, by krfl⟩
    · show (35 : ℝ) = 5 * 7
      norm_num
    · total_of i3
    · show (13.5 : ℝ) = (7.5 - 1.5) / 0.5 + 1.5
      norm_num
    · total_of t3
    · show (1 : ℝ) = 1 * Real.log 5 / (1 * Real.log 5 + 0 - 0)
      have : Real.log 5 ≠ 0 := (Real.log_pos (by norm_num)).ne'
      rw [one_mul, add_zero, sub_zero, div_self this]
    · refine ⟨rfl, ?_, ?_, fun k => k.elim0⟩
      · show -hp = 7 * (1.5 - 13.5) * 1.4148532
        unfold hp; norm_num
      · show -(5252.11 * hp) = 5252.11 * (7 * (1.5 - 13.5) * 1.4148532) / 1
        unfold hp; norm_num
    · static_of s3 m3 13.5 7 (fun v => if v = .guessPt then 35 else 1) ok3)

/-! ## Burner -/

/-- The burner: a flow of 7 burns a flow of 1. -/
noncomputable def burnerE : Env := Env.ofTable
  ([("Fl_I:FAR", 1 / 7), ("mix_fuel.mix:h", 97.5), ("dPqP", 0.2), ("MN", 1), ("area", 2), ("Wfuel", 1), ("Wout", 8),
    ("mix_fuel.mass_avg_h", 24), ("p_loss.Pt_out", 28), ("out_stat.guess:MN", 1)]
    ++ stationRows "Fl_I:tot:" t3 ++ stationRows "Fl_I:stat:" s3 ++ staticRows "Fl_I:stat:" m3 7
    ++ stationRows "vitiated_flow." t4 ++ stationRows "Fl_O:tot:" t4 ++ stationRows "out_stat." s4
    ++ stationRows "Fl_O:stat:" s4 ++ staticRows "out_stat." m4 8 ++ staticRows "Fl_O:stat:" m4 8)
  [("mix_fuel.composition_out", mixed), ("Fl_O:tot:composition", mixed)]

set_option maxHeartbeats 1000000 in
theorem burner_converged (d : Bool) : (combustor unitGas (.tab 1 0) d true).Converged burnerE := by
  refine Group.converged_quick rfl (C48_interface unitGas (.tab 1 0) d true).1.1.1 ?_
  intro s hs
  cases d <;> (
    simp only [combustor, Bool.false_eq_true, if_false, if_true, List.cons_append, List.nil_append, List.mem_cons,
      List.not_mem_nil, or_false] at hs
    rcases hs with rfl | rfl | rfl | rfl | rfl
    · exact trivial
    · refine ⟨?_, ?_, ?_, ?_⟩
      · show (24 : ℝ) = (7 * 13.5 + 7 / (1 + ∑ _i : Fin 1, 0) * (1 / 7) * 97.5) / (7 + 7 / (1 + ∑ _i : Fin 1, 0) * (1 / 7))
        norm_num
      · show (8 : ℝ) = 7 + 7 / (1 + ∑ _i : Fin 1, 0) * (1 / 7)
        norm_num
      · intro k
        fin_cases k
        show (1 / 7 : ℝ) = (7 / (1 + ∑ _i : Fin 1, 0) * 0 + 7 / (1 + ∑ _i : Fin 1, 0) * (1 / 7)) / (7 / (1 + ∑ _i : Fin 1, 0))
        norm_num
      · show (1 : ℝ) = 7 / (1 + ∑ _i : Fin 1, 0) * (1 / 7)
        norm_num
    · show (28 : ℝ) = 35 * (1 - 0.2)
      norm_num
    · total_of t4
    · static_of s4 m4 24 8 (fun v => if v = .guessPt then 28 else 1) ok4)

/-! ## Turbine -/

/-- Flow and speed parameters at the turbine. -/
noncomputable def wp : ℝ := 8 * (24 : ℝ) ^ (0.5 : ℝ) / 28
noncomputable def np : ℝ := 1 * (24 : ℝ) ^ (-0.5 : ℝ)

/-- The map at speed 2 and pressure ratio 3. -/
noncomputable def tmapE : Env := Env.ofTable
  [("alphaMap", 0), ("NpMap", 2), ("PRmap", 3), ("effMap", 0.5), ("WpMap", 6), ("Np", np), ("PR", 2),
   ("eff", 0.5), ("Wp", wp), ("s_Np", np / 2), ("s_PR", 0.5), ("s_eff", 1), ("s_Wp", wp / 6), ("scaledOutput.Np", np),
   ("scaledOutput.Wp", wp)] []

set_option maxHeartbeats 1000000 in
theorem tmap_converged (d : Bool) : (turbineMap tmap d).Converged tmapE := by
  refine Group.converged_quick rfl (C54_turbine_interface tmap d).1.1.1 ?_
  intro s hs
  cases d
  · simp only [turbineMap, Bool.false_eq_true, if_false, List.cons_append, List.nil_append, List.mem_cons,
      List.not_mem_nil, or_false] at hs
    rcases hs with rfl | rfl | rfl
    · show (0.5 : ℝ) = 0.5 ∧ (6 : ℝ) = 2 * 3
      norm_num
    · intro q hq
      cases q
      · show np = 2 * (np / 2)
        ring
      · show (2 : ℝ) = (3 - 1) * 0.5 + 1
        norm_num
      · show (0.5 : ℝ) = 0.5 * 1
        norm_num
      · show wp = 6 * (wp / 6)
        ring
    · intro b hb
      fin_cases hb <;> rfl
  · simp only [turbineMap, if_true, List.cons_append, List.nil_append, List.mem_cons,
      List.not_mem_nil, or_false] at hs
    rcases hs with rfl | rfl
    · show (0.5 : ℝ) = 0.5 ∧ (6 : ℝ) = 2 * 3
      norm_num
    · intro q hq
      cases q
      · rfl
      · show (0.5 : ℝ) = (2 - 1) / (3 - 1)
        norm_num
      · show (1 : ℝ) = 0.5 / 0.5
        norm_num
      · rfl

/-- Ideal outlet of the turbine. -/
noncomputable def i5 : TG.Station := at_ 3 14

/-- The turbine: pressure ratio 2, efficiency 1/2. -/
noncomputable def turbE : Env := Env.ofTable
  ([("MN", 1), ("area", 8 / 3), ("Nmech", 1), ("W_out", 8), ("ht_out_b4bld", 13.5), ("pwr_turb.ht_out", 13.5),
    ("power", hp), ("trq", 5252.11 * hp), ("press_drop.Pt_out", 14), ("eff_poly", 1), ("out_stat.guess:MN", 1),
    ("map.alphaMap", 0), ("map.NpMap", 2), ("map.PRmap", 3), ("map.effMap", 0.5), ("map.WpMap", 6),
    ("Np", np), ("PR", 2), ("eff", 0.5), ("Wp", wp), ("s_Np", np / 2), ("s_PR", 0.5), ("s_eff", 1), ("s_Wp", wp / 6),
    ("map.scaledOutput.Np", np), ("map.scaledOutput.Wp", wp)]
    ++ stationRows "Fl_I:tot:" t4 ++ stationRows "Fl_I:stat:" s4 ++ staticRows "Fl_I:stat:" m4 8
    ++ stationRows "ideal_flow." i5 ++ stationRows "ideal_flow.flow:" i5
    ++ stationRows "real_flow_b4bld." t5 ++ stationRows "real_flow_b4bld.Fl_O_b4bld:tot:" t5
    ++ stationRows "real_flow." t5 ++ stationRows "Fl_O:tot:" t5
    ++ stationRows "out_stat." s5 ++ stationRows "Fl_O:stat:" s5 ++ staticRows "out_stat." m5 8
    ++ staticRows "Fl_O:stat:" m5 8)
  [("Fl_I:tot:composition", mixed), ("Fl_I:stat:composition", mixed), ("ideal_flow.flow:composition", mixed),
   ("real_flow_b4bld.Fl_O_b4bld:tot:composition", mixed), ("bld_add.composition_out", mixed),
   ("Fl_O:tot:composition", mixed)]

set_option maxHeartbeats 2000000 in
theorem turb_converged (d : Bool) : (turbine unitGas (fun _ => unitGas) tmap (.tab 1) [] d true).Converged turbE := by
  refine Group.converged_quick rfl (C56_interface unitGas (fun _ => unitGas) tmap (.tab 1) noTurb d true).1.1.1 ?_
  intro s hs
  have hl : ∀ d, (turbineMap tmap d).wiring.outs ⊆ if d then ["effMap", "WpMap", "s_Np", "s_PR", "s_eff", "s_Wp"]
      else ["effMap", "WpMap", "scaledOutput.Np", "scaledOutput.Wp", "PR", "eff", "NpMap", "PRmap"] := by
    intro d
    rw [show (turbineMap tmap d).wiring = (turbineMap ⟨fun _ _ _ => 0, fun _ _ _ => 0⟩ d).wiring by cases d <;> rfl]
    revert d; decide +kernel
  cases d <;> (
    simp only [turbine, turbineHead, turbineTail, Bool.false_eq_true, if_false, if_true, List.cons_append, List.nil_append,
      List.mem_cons, List.not_mem_nil, or_false, List.map_nil, List.flatMap_nil] at hs
    rcases hs with rfl | rfl | rfl | rfl | rfl | rfl | rfl | rfl | rfl | rfl | rfl | rfl
    · exact trivial
    · exact ⟨rfl, rfl⟩
    · refine ⟨tmapE, tmap_converged _, ?_, ?_⟩
      · intro n hn
        have := (C54_turbine_interface tmap _).2 n |>.mp hn
        simp only [turbineMapInputs, if_true, Bool.false_eq_true, if_false, List.cons_append, List.nil_append] at this
        fin_cases this <;> exact ⟨by krfl, by krfl⟩
      · intro n hn
        have := hl _ hn
        simp only [if_true, Bool.false_eq_true, if_false] at this
        fin_cases this <;> exact ⟨by krfl, by krfl⟩
    · show (14 : ℝ) = 28 / 2
      norm_num
    · total_of i5
    · exact fun k => k.elim0
    · refine ⟨?_, rfl, ?_⟩
      · show (0 : ℝ) = 8 * 0 / 8
        norm_num
      · intro k
        fin_cases k
        show (1 / 7 : ℝ) = 8 / (1 + ∑ i : Fin 1, mixed i) * (1 / 7) / (8 / (1 + ∑ i : Fin 1, mixed i))
        norm_num [mixed]
    · refine ⟨?_, ?_, ?_, ?_⟩
      · show (13.5 : ℝ) = 24 * (1 - 0.5) + 3 * 0.5
        norm_num
      · show (13.5 : ℝ) = 8 / 8 * (24 * (1 - 0.5) + 3 * 0.5)
        norm_num
      · show hp = 8 * 0.5 * (24 - 3) * 1.4148532
        unfold hp; norm_num
      · show 5252.11 * hp = 8 * 0.5 * (24 - 3) * 1.4148532 / 1 * 5252.11
        unfold hp; norm_num
    · total_of t5
    · show (1 : ℝ) = 1 + (0 - 0) / (1 * Real.log (1 / 2))
      simp
    · total_of t5
    · static_of s5 m5 13.5 8 (fun v => if v = .guessPt then 14 else 1) ok5)

end C58Example
end PyCycle.OM
