import Verif.Props.C64_Cooling

/-! # C64: a solved example -/

namespace PyCycle.OM.C64Example

open Cooling
open C48Example (unitGas)

/-- What enters a row and what it adds. -/
structure RowIn where
  i : ℕ
  W : ℝ
  T : ℝ
  Wc : ℝ
  /-- temperature, and with it the enthalpy, behind the row -/
  To : ℝ
  c : ℕ → ℝ
  c' : ℕ → ℝ

/-- Coolant at 1 where metal may be at 2. -/
noncomputable def safety : ℝ := (18853 / 9153 - 0.46 * 46 / 13) / 0.54

/-- One stage. -/
noncomputable abbrev opt : CoolOpt := ⟨1, safety, 2⟩

/-- Station behind a row. -/
noncomputable def RowIn.out (r : RowIn) : TG.Station := ⟨r.To, 4, r.To, 0, 1, 1, 1, 1, 1⟩

/-- The inside of a row. -/
noncomputable def rowE (r : RowIn) : Env := Env.ofTable
  ([("turb_pwr", 0.5), ("Pt_in", 4), ("Pt_out", 2), ("x_factor", 375 / 11), ("W_primary", r.W), ("Tt_primary", r.T),
    ("Tt_cool", 1), ("ht_primary", r.T), ("ht_cool", 1), ("W_cool", r.Wc), ("W_out", r.W + r.Wc),
    ("cooling_calcs.Pt_stage", 4), ("cooling_calcs.ht_out", r.To)]
   ++ stationRows "mixed_flow." r.out ++ stationRows "Fl_O:tot:" r.out)
  [("composition_primary", r.c), ("mix_n.composition_out", r.c'), ("Fl_O:tot:composition", r.c')]

/-- A row whose outputs are right is converged. -/
theorem row_converged (r : RowIn)
    (h1 : r.Wc = Cool.compute (opt.row r.i) (coolingIn (rowE r)) .W_cool)
    (h2 : 4 = Cool.compute (opt.row r.i) (coolingIn (rowE r)) .Pt_stage)
    (h3 : r.To = Cool.compute (opt.row r.i) (coolingIn (rowE r)) .ht_out)
    (h4 : r.c' 0 = r.W / (1 + r.c 0) * r.c 0 / (r.W / (1 + r.c 0) + r.Wc)) :
    (coolRow unitGas (.tab 1) (opt.row r.i)).Converged (rowE r) := by
  refine Group.converged_quick (row_wiring _ _ _) (by decide) ?_
  intro s hs
  simp only [coolRow, List.mem_cons, List.not_mem_nil, or_false] at hs
  rcases hs with rfl | rfl | rfl | rfl
  · exact ⟨h1, h2, h3⟩
  · exact trivial
  · have l1 : rowW.inSrc "mix_n" "Fl_I:stat:W" = "W_primary" := by decide +kernel
    have l2 : rowW.inSrc "mix_n" "cool:W" = "W_cool" := by decide +kernel
    have l3 : rowW.inSrc "mix_n" "Fl_I:tot:composition" = "composition_primary" := by decide +kernel
    have l4 : rowW.inSrc "mix_n" "cool:composition" = "cool:composition" := by decide +kernel
    have l5 : rowW.inSrc "mix_n" "Fl_I:tot:h" = "mix_n.Fl_I:tot:h" := by decide +kernel
    have l6 : rowW.inSrc "mix_n" "cool:h" = "mix_n.cool:h" := by decide +kernel
    have l7 : rowW.outOf "mix_n" "mass_avg_h" = "mix_n.mass_avg_h" := by decide +kernel
    have l8 : rowW.outOf "mix_n" "Wout" = "W_out" := by decide +kernel
    have l9 : rowW.outOf "mix_n" "composition_out" = "mix_n.composition_out" := by decide +kernel
    have b1 : (rowE r).num "W_primary" = r.W := rfl
    have b2 : (rowE r).num "W_cool" = r.Wc := rfl
    have b3 : (rowE r).vec "composition_primary" = r.c := rfl
    have b4 : (rowE r).vec "cool:composition" = 0 := rfl
    have b5 : (rowE r).num "mix_n.Fl_I:tot:h" = 0 := rfl
    have b6 : (rowE r).num "mix_n.cool:h" = 0 := rfl
    have b7 : (rowE r).num "mix_n.mass_avg_h" = 0 := rfl
    have b8 : (rowE r).num "W_out" = r.W + r.Wc := rfl
    have b9 : (rowE r).vec "mix_n.composition_out" = r.c' := rfl
    generalize rowE r = E at *
    simp only [coolAddSub, Wiring.rd, Wiring.wr, NC.rd, NC.wr, NC.inSrc_eq, NC.outOf_eq, l1, l2, l3, l4, l5, l6,
      l7, l8, l9, b1, b2, b3, b4, b5, b6, b7, b8, b9, tabFlowCompute, tabStart, tabAir, List.foldl_cons, List.foldl_nil]
    refine ⟨by simp, by simp, ?_⟩
    intro k
    fin_cases k
    simpa using h4
  · total_of r.out

/-- Gas at the inlet. -/
noncomputable def T0 : ℝ := 33 / 13 - safety
/-- Between the rows. -/
noncomputable def T1 : ℝ := (T0 + 1) / 2
/-- Coolant of the second row. -/
noncomputable def C1 : ℝ := 64 / 243

/-- Flow 1, half fuel, meets as much coolant. -/
noncomputable def first : RowIn := ⟨0, 1, T0, 1, T1, fun k => if k = 0 then 1 else 0, fun k => if k = 0 then 1 / 3 else 0⟩
/-- The rotor. -/
noncomputable def second : RowIn :=
  ⟨1, 1 + 1, T1, C1, (2 * T1 + C1) / (2 + C1) - 0.5 / 2, fun k => if k = 0 then 1 / 3 else 0,
   fun k => if k = 0 then 243 / 857 else 0⟩

theorem first_wcool : Cool.compute (opt.row 0) (coolingIn (rowE first)) .W_cool = 1 := by
  have := Cool.C32_amount (opt.row 0) (coolingIn (rowE first)) (33 / 13) 0.3
    (by rw [Cool.hotGas, if_pos (by decide)]; show _ = T0 + safety; rw [T0]; ring) (if_pos rfl).symm
    (by show (2 : ℝ) ≤ _; norm_num) (by show (1 : ℝ) < 2; norm_num)
  rw [this]
  show (0.022 * (4 / 3) * (375 / 11) * 1 * ((33 / 13 - 2 + 0.3 * (33 / 13 - 1)) / (2 - 1)) ^ (1.25 : ℝ) : ℝ) = 1
  rw [show ((33 / 13 - 2 + 0.3 * (33 / 13 - 1)) / (2 - 1) : ℝ) = 1 by norm_num, Real.one_rpow]
  norm_num

theorem second_wcool : Cool.compute (opt.row 1) (coolingIn (rowE second)) .W_cool = C1 := by
  have := Cool.C32_amount (opt.row 1) (coolingIn (rowE second)) (18853 / 9153) 0.13
    (by rw [Cool.hotGas, if_neg (by decide)]; show _ = 0.92 * T1 + safety; rw [T1, T0, safety]; norm_num)
    (if_neg (by decide)).symm (by show (2 : ℝ) ≤ _; norm_num) (by show (1 : ℝ) < 2; norm_num)
  rw [this]
  show (0.022 * (4 / 3) * (375 / 11) * (1 + 1)
    * ((18853 / 9153 - 2 + 0.13 * (18853 / 9153 - 1)) / (2 - 1)) ^ (1.25 : ℝ) : ℝ) = C1
  rw [show ((18853 / 9153 - 2 + 0.13 * (18853 / 9153 - 1)) / (2 - 1) : ℝ) = (2 / 3) ^ (4 : ℝ) by norm_num,
    ← Real.rpow_mul (by norm_num), show (4 * 1.25 : ℝ) = (5 : ℕ) by norm_num, Real.rpow_natCast, C1]
  norm_num

theorem first_converged : (coolRow unitGas (.tab 1) (opt.row 0)).Converged (rowE first) := by
  refine row_converged first first_wcool.symm ?_ ?_ (by norm_num [first])
  · show (4 : ℝ) = 2 + (4 - 2) * ((1 : ℕ) : ℝ)
    norm_num
  · show T1 = (1 * T0 + Cool.compute (opt.row 0) (coolingIn (rowE first)) .W_cool * 1)
      / (1 + Cool.compute (opt.row 0) (coolingIn (rowE first)) .W_cool) - 0 / 1
    rw [first_wcool, T1]
    norm_num

theorem second_converged : (coolRow unitGas (.tab 1) (opt.row 1)).Converged (rowE second) := by
  refine row_converged second second_wcool.symm ?_ ?_ (by norm_num [second, C1])
  · show (4 : ℝ) = 2 + (4 - 2) * ((1 : ℕ) : ℝ)
    norm_num
  · show (2 * T1 + C1) / (2 + C1) - 0.5 / 2
      = ((1 + 1) * T1 + Cool.compute (opt.row 1) (coolingIn (rowE second)) .W_cool * 1)
      / (1 + 1 + Cool.compute (opt.row 1) (coolingIn (rowE second)) .W_cool) - 0.5 / ((1 : ℕ) : ℝ) / (1 + 1)
    rw [second_wcool]
    norm_num

/-- What a row adds to the element's table. -/
noncomputable def rowRows (pre : String) (r : RowIn) : List (String × ℝ) :=
  [(pre ++ "W_cool", r.Wc), (pre ++ "W_out", r.W + r.Wc), (pre ++ "cooling_calcs.Pt_stage", 4),
   (pre ++ "cooling_calcs.ht_out", r.To)]
  ++ stationRows (pre ++ "mixed_flow.") r.out ++ stationRows (pre ++ "Fl_O:tot:") r.out

/-- The element: power 1/2 from one stage. -/
noncomputable def turb : Env := Env.ofTable
  ([("turb_pwr", 0.5), ("Fl_turb_I:tot:P", 4), ("Fl_turb_O:tot:P", 2), ("x_factor", 375 / 11), ("Fl_turb_I:stat:W", 1),
    ("Fl_turb_I:tot:T", T0), ("Fl_turb_I:tot:h", T0), ("Fl_cool:tot:T", 1), ("Fl_cool:tot:h", 1)]
   ++ rowRows "row_0." first ++ rowRows "row_1." second)
  [("Fl_turb_I:tot:composition", first.c), ("row_0.mix_n.composition_out", first.c'),
   ("row_0.Fl_O:tot:composition", first.c'), ("row_1.mix_n.composition_out", second.c'),
   ("row_1.Fl_O:tot:composition", second.c')]

theorem turb_converged : (turbineCooling unitGas (.tab 1) opt true).Converged turb := by
  refine Group.converged_quick rfl (wired unitGas (.tab 1) true (o := opt) (by decide)).1 ?_
  intro s hs
  simp only [turbineCooling, if_true, List.cons_append, List.nil_append, List.zipWith, List.mem_cons, List.not_mem_nil,
    or_false, Nat.mul_one, Nat.reduceSub, List.range_one, List.map_cons, List.map_nil] at hs
  have ins : ∀ i, (coolRow unitGas (.tab 1) (opt.row i)).wiring.externals = rowIns := fun i => by
    rw [row_wiring, row_ins]
  have outs : ∀ i, (coolRow unitGas (.tab 1) (opt.row i)).wiring.outs = rowOuts := fun i => by rw [row_wiring, row_outs]
  rcases hs with rfl | rfl | rfl | rfl | rfl | rfl
  · exact trivial
  · exact trivial
  · exact trivial
  · exact trivial
  · refine ⟨rowE first, first_converged, ?_, ?_⟩
    · intro n hn
      rw [ins] at hn
      fin_cases hn <;> exact ⟨by krfl, by krfl⟩
    · intro n hn
      rw [outs] at hn
      fin_cases hn <;> exact ⟨by krfl, by krfl⟩
  · refine ⟨rowE second, second_converged, ?_, ?_⟩
    · intro n hn
      rw [ins] at hn
      fin_cases hn <;> exact ⟨by krfl, by krfl⟩
    · intro n hn
      rw [outs] at hn
      fin_cases hn <;> exact ⟨by krfl, by krfl⟩

/-- It runs. -/
theorem turb_runs : Runs opt turb :=
  ⟨by show (0 : ℝ) ≤ 375 / 11; norm_num, by show (1 : ℝ) < 2; norm_num, by show (0 : ℝ) < 1; norm_num⟩

/-- Both rows are cooled. -/
example : turb.num (rowName 0 ++ ".W_cool") = 1 ∧ turb.num (rowName 1 ++ ".W_cool") = 64 / 243 := ⟨by krfl, by krfl⟩

/-- The balance fails in it. -/
example : turb.num (feed "Fl_turb_I:stat:W" "W_out" 2) * turb.num (feed "Fl_turb_I:tot:h" "Fl_O:tot:h" 2)
    < turb.num "Fl_turb_I:stat:W" * turb.num "Fl_turb_I:tot:h"
      + (∑ i ∈ Finset.range 2, turb.num (rowName i ++ ".W_cool")) * turb.num "Fl_cool:tot:h" - turb.num "turb_pwr" := by
  refine C64_refuted_energy (o := opt) (by decide) turb_converged turb_runs (by show (0 : ℝ) < 375 / 11; norm_num)
    (by show (0 : ℝ) < 0.5; norm_num) ⟨1, by decide, by decide, ?_⟩
  have : turb.num (feed "Fl_turb_I:tot:T" "Fl_O:tot:T" 1) = T1 := by krfl
  rw [this]
  show (2 : ℝ) ≤ 0.92 * T1 + safety
  rw [T1, T0, safety]
  norm_num

/-- Air and fuel add up in it. -/
example (m : ℕ) (hm : m ≤ 2) := C64_tab (o := opt) (by decide) turb_converged turb_runs
  (by rw [Fin.sum_univ_one]; show (0 : ℝ) < 1 + 1; norm_num)
  (by rw [Fin.sum_univ_one]; show (0 : ℝ) < 1 + 0; norm_num) m hm

end PyCycle.OM.C64Example
