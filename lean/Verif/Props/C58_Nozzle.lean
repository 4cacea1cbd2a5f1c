import Verif.Props.C58_Stations

/-! # C58: the nozzle of a solved engine -/

namespace PyCycle.OM

namespace C58Example
open C48Example (unitGas)

/-- The nozzle: sonic in the throat, fully expanded at Mach 23/13. -/
noncomputable def nozzE : Env := Env.ofTable
  ([("Ps_exhaust", 7.33889), ("dPqP", 0.2),
    ("Cv", 1), ("perf_calcs.Cang", 1), ("perf_calcs.CmixCorr", 1), ("PR", 11.2 / 7.33889), ("Ps_calc", 7.33889),
    ("press_calcs.Pt_th", 11.2), ("mach_choked.MN", 1), ("mux.choked", 1),
    ("Throat:stat:S", 0), ("Fl_O:stat:S", 0), ("perf_calcs.Fg_ideal", fg), ("Fg", fg)]
    ++ stationRows "Fl_I:tot:" t5 ++ stationRows "Fl_I:stat:" s5 ++ staticRows "Fl_I:stat:" m5 8
    ++ stationRows "throat_total." t8 ++ stationRows "Fl_O:tot:" t8
    ++ stationRows "staticMN." s8 ++ stationRows "staticMN.flow:" s8
    ++ staticRows "staticMN." m5 8 ++ staticRows "staticMN.flow:" m5 8
    ++ stationRows "staticPs." s9 ++ stationRows "staticPs.flow:" s9
    ++ staticRows "staticPs." m9 8 ++ staticRows "staticPs.flow:" m9 8
    ++ stationRows "ideal_flow." s9 ++ stationRows "ideal_flow.flow:" s9
    ++ staticRows "ideal_flow." m9 8 ++ staticRows "ideal_flow.flow:" m9 8
    ++ stationRows "Throat:stat:" s8 ++ staticRows "Throat:stat:" m5 8
    ++ stationRows "Fl_O:stat:" s9 ++ staticRows "Fl_O:stat:" m9 8)
  [("Fl_I:tot:composition", mixed), ("Fl_I:stat:composition", mixed), ("Fl_O:tot:composition", mixed)]

set_option maxHeartbeats 2000000 in
theorem nozz_converged : (nozzle unitGas .CD .Cv).Converged nozzE := by
  refine Group.converged_quick rfl (C52_interface unitGas .CD .Cv).1.1.1 ?_
  intro s hs
  simp only [nozzle, List.mem_cons, List.not_mem_nil, or_false] at hs
  rcases hs with rfl | rfl | rfl | rfl | rfl | rfl | rfl | rfl | rfl | rfl
  · rfl
  · exact trivial
  · show (1.000001 : ℝ) ≤ 11.2 / 7.33889 ∧ (7.33889 : ℝ) - 7.33889 = 0
    norm_num
  · show (11.2 : ℝ) = 14 * (1 - 0.2) ∧ (7.33889 : ℝ) = 14 * (1 - 0.2) / (11.2 / 7.33889)
    norm_num
  · total_of t8
  · static_of s8 m5 13.5 8 (fun v => if v = .guessPt then 11.2 else 1) ok8
  · static_of s9 m9 13.5 8 (fun v => 0) ok9
  · static_of s9 m9 13.5 8 (fun v => 0) ok9
  · refine ⟨rfl, fun p _ => ?_, rfl, fun p _ => ?_, rfl⟩
    all_goals
      cases p <;> rfl
  · show fg = 8 / 32.174 * (69 / 17) ∧ fg = 8 / 32.174 * (69 / 17) * 1 * 1 * 1 + (7.33889 - 7.33889) * (136 / 69)
    unfold fg
    norm_num

end C58Example
end PyCycle.OM
