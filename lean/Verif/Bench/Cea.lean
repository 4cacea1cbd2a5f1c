import Verif.Bench.Plain
import Verif.Bench.Reheat
import Verif.Props.C68_WetAir

/-! # Bench: reactants mixed in as the equilibrium model does it

A free stream, a burner and a turbine whose `ThermoAdd` is the one of the equilibrium model. -/

namespace PyCycle.OM
namespace Bench
open C48Example (unitGas)
open C54Example (tmap)
open C58Example (at_)

/-- The composition after mixing in a reactant. -/
noncomputable def added (S : ReactantAdd) (W r : ℝ) (C : ℕ → ℝ) : ℕ → ℝ := fun k =>
  if h : k < S.mixed.elements.length then
    (reactantCompute S W 0 (fun k => C k) (fun _ => r) (fun _ => 0)).comp ⟨k, h⟩ else 0

/-- The composition after mixing in nothing. -/
noncomputable def passed (p : Properties) (W : ℝ) (C : ℕ → ℝ) : ℕ → ℝ := fun k =>
  if h : k < p.elements.length then (flowCompute p p W 0 (fun k => C k) []).comp ⟨k, h⟩ else 0

/-- A component set up for one reactant. -/
def One (S : ReactantAdd) : Prop := ∃ u, S.streams = [("mix", u)]

theorem One.of_setup {data : ThermoData} {infl : Option (PyDict ℝ)} {f : String} {S : ReactantAdd}
    (h : reactantSetup data infl ["mix"] [f] = .ok S) : One S := by
  rcases infl with - | infl
  · cases h
  simp only [reactantSetup] at h
  rcases hm : mixedReactants data infl [f] with e | m
  · rw [hm] at h; cases h
  · rw [hm] at h
    simp only at h
    rcases h1 : mkProperties data (some infl) with e | pin
    · rw [h1] at h; cases h
    · rcases h2 : mkProperties data (some m) with e | pmix
      · rw [h1, h2] at h; cases h
      · rw [h1, h2] at h
        cases h
        exact ⟨_, rfl⟩

/-! ## Burner -/

set_option maxHeartbeats 1000000 in
theorem burner_cea_converged {S : ReactantAdd} (hS : One S) {a b : Stn} {far hf dP : ℝ} (d : Bool) (o : b.Ok)
    (hC : b.C = added S a.W far a.C) (hW : b.W = a.W + a.W * far) (hP : b.P = a.P * (1 - dP))
    (hh : b.h = (a.h * a.W + hf * (a.W * far)) / (a.W + a.W * far)) :
    (combustor unitGas (.cea S) d true).Converged (burnerE a b far hf dP) := by
  obtain ⟨q, P, Ps, W, C⟩ := a
  obtain ⟨q', P', Ps', W', C'⟩ := b
  obtain ⟨pin, pmix, st⟩ := S
  obtain ⟨u, hu⟩ := hS
  change Fin pmix.elements.length → ℝ at u
  change st = [("mix", u)] at hu
  subst hu
  simp only [Stn.h] at hC hW hP hh
  refine Group.converged_quick rfl (C48_interface unitGas (.cea _) d true).1.1.1 ?_
  intro s hs
  cases d <;> (
    simp only [combustor, Bool.false_eq_true, if_false, if_true, List.cons_append, List.nil_append, List.mem_cons,
      List.not_mem_nil, or_false] at hs
    rcases hs with rfl | rfl | rfl | rfl | rfl
    · exact trivial
    · refine ⟨?_, ?_, ?_, ?_⟩
      · kshow q' ^ 2 * 1.5 = (q ^ 2 * 1.5 * W + hf * (W * far)) / (W + W * far)
        exact hh
      · kshow W' = W + W * far
        exact hW
      · intro k
        kshow C' k.val = (reactantCompute ⟨pin, pmix, [("mix", u)]⟩ W 0 (fun k => C k) (fun _ => far) (fun _ => 0)).comp k
        rw [hC]
        simp only [added, k.isLt, dif_pos, Fin.eta]
      · kshow W * far = W * far
        rfl
    · kshow P' = P * (1 - dP)
      exact hP
    · total_of (Stn.mk q' P' Ps' W' C').tot
    · outlet_of (Stn.mk q' P' Ps' W' C') o)

/-! ## Turbine -/

set_option hygiene false in
local macro "turb_cea_body" : tactic => `(tactic| (
  obtain ⟨q, P, Ps, W, C⟩ := a
  obtain ⟨q', P', Ps', W', C'⟩ := b
  simp only [Stn.h, b4] at hW hP hC hh hW0
  subst W'
  refine Group.converged_quick rfl
    (C56_interface unitGas (fun _ => unitGas) tmap (.cea p p pb) Turbojet.noTurb _ true).1.1.1 ?_
  intro s hs
  simp only [turbine, turbineHead, turbineTail, Bool.false_eq_true, if_false, if_true,
    List.flatMap_nil, List.cons_append, List.nil_append,
    List.mem_cons, List.not_mem_nil, or_false, List.map_nil] at hs
  rcases hs with rfl | rfl | rfl | rfl | rfl | rfl | rfl | rfl | rfl | rfl | rfl | rfl
  · exact trivial
  · exact ⟨by krfl, by krfl⟩
  · refine ⟨tmapE (np ⟨q, P, Ps, W, C⟩) (wp ⟨q, P, Ps, W, C⟩) pr eff, tmap_converged _ _ _ _ _, ?_, ?_⟩
    · intro n hn
      have := (C54_turbine_interface tmap _).2 n |>.mp hn
      simp only [turbineMapInputs, if_true, Bool.false_eq_true, if_false, List.cons_append, List.nil_append] at this
      fin_cases this <;> exact ⟨by krfl, by krfl⟩
    · intro n hn
      have := tmap_outs _ hn
      simp only [if_true, Bool.false_eq_true, if_false] at this
      fin_cases this <;> exact ⟨by krfl, by krfl⟩
  · kshow P' = P / pr
    exact hP
  · total_of (at_ Ti P')
  · exact fun k => k.elim0
  · refine ⟨?_, by krfl, ?_⟩
    · kshow (0 : ℝ) = 0 * W / W
      simp
    · intro k
      kshow C' k.val = (flowCompute p p W 0 (fun k => C k) []).comp k
      rw [hC]
      simp only [passed, k.isLt, dif_pos, Fin.eta]
  · refine ⟨by krfl, ?_, by krfl, ?_⟩
    · kshow q' ^ 2 * 1.5 = W / W * (q ^ 2 * 1.5 * (1 - eff) + Ti * eff)
      rw [div_self hW0, one_mul]
      exact hh
    · kshow 5252.11 * (W * eff * (q ^ 2 * 1.5 - Ti) * 1.4148532) = W * eff * (q ^ 2 * 1.5 - Ti) * 1.4148532 / 1 * 5252.11
      ring
  · total_of (at_ (q ^ 2 * 1.5 * (1 - eff) + Ti * eff) P')
  · kshow (1 : ℝ) = 1 + (0 - 0) / (1 * Real.log (1 / pr))
    simp
  · total_of (Stn.mk q' P' Ps' W C').tot
  · outlet_of (Stn.mk q' P' Ps' W C') o))

set_option maxHeartbeats 4000000 in
private theorem turb_cea_f {p : Properties} {pb : String → Properties} {a b : Stn} {Ti pr eff : ℝ} (o : b.Ok)
    (hC : b.C = passed p a.W a.C) (hW : b.W = a.W) (hW0 : a.W ≠ 0) (hP : b.P = a.P / pr) (hh : b.h = b4 a Ti eff) :
    (turbine unitGas (fun _ => unitGas) tmap (.cea p p pb) [] false true).Converged (turb0E a b Ti pr eff) := by
  turb_cea_body

set_option maxHeartbeats 4000000 in
private theorem turb_cea_t {p : Properties} {pb : String → Properties} {a b : Stn} {Ti pr eff : ℝ} (o : b.Ok)
    (hC : b.C = passed p a.W a.C) (hW : b.W = a.W) (hW0 : a.W ≠ 0) (hP : b.P = a.P / pr) (hh : b.h = b4 a Ti eff) :
    (turbine unitGas (fun _ => unitGas) tmap (.cea p p pb) [] true true).Converged (turb0E a b Ti pr eff) := by
  turb_cea_body

theorem turb_cea_converged {p : Properties} {pb : String → Properties} {a b : Stn} {Ti pr eff : ℝ} (d : Bool) (o : b.Ok)
    (hC : b.C = passed p a.W a.C) (hW : b.W = a.W) (hW0 : a.W ≠ 0) (hP : b.P = a.P / pr) (hh : b.h = b4 a Ti eff) :
    (turbine unitGas (fun _ => unitGas) tmap (.cea p p pb) [] d true).Converged (turb0E a b Ti pr eff) := by
  cases d
  · exact turb_cea_f o hC hW hW0 hP hh
  · exact turb_cea_t o hC hW hW0 hP hh

/-! ## Free stream -/

/-- The air of the start, with composition `C`. -/
noncomputable def humid (C : ℕ → ℝ) : Stn := ⟨1, 14, 7.33889, 3, C⟩

/-- What a group around the start can see. -/
noncomputable def wetRows (pre : String) (r : ℝ) : List (String × ℝ) :=
  [("MN", 1), ("W", 3), ("WAR", r), (pre ++ "thermo_add.mix:W", 3 * r), (pre ++ "thermo_add.Wout", 3 + 3 * r)]
    ++ stationRows (pre ++ "totals.") (humid 0).tot ++ stationRows "Fl_O:tot:" (humid 0).tot
    ++ stationRows (pre ++ "exit_static.") (humid 0).sta ++ staticRows (pre ++ "exit_static.") (humid 0).mov 3
    ++ stationRows "Fl_O:stat:" (humid 0).sta ++ staticRows "Fl_O:stat:" (humid 0).mov 3

noncomputable def wetComp (pre : String) (C0 C : ℕ → ℝ) : List (String × (ℕ → ℝ)) :=
  [(pre ++ "thermo_add.Fl_I:tot:composition", C0), (pre ++ "composition", C), ("Fl_O:tot:composition", C),
    ("Fl_O:stat:composition", C)]

noncomputable def wetStartE (r : ℝ) (C0 C : ℕ → ℝ) : Env :=
  Env.ofTable ([("T", (humid 0).h), ("P", 14)] ++ wetRows "" r) (wetComp "" C0 C)

noncomputable def wetFlightE (dTs rho r : ℝ) (C0 C : ℕ → ℝ) : Env :=
  Env.ofTable ([("alt", 18000), ("dTs", dTs), ("balance.Tt", (humid 0).h), ("balance.Pt", 14),
    ("ambient.Ps", 7.33889), ("ambient.Ts", (1 : ℝ) ^ 2), ("ambient.rhos", rho)] ++ wetRows "fs." r) (wetComp "fs." C0 C)

theorem humid_ok (C : ℕ → ℝ) : (humid C).Ok := ⟨by norm_num [humid], by norm_num [humid]⟩

set_option maxHeartbeats 1000000 in
theorem wetStart_converged {S : ReactantAdd} (hS : One S) {r : ℝ} {C0 : ℕ → ℝ} :
    (flowStart unitGas (some (.cea S)) "WAR").Converged (wetStartE r C0 (added S 3 r C0)) := by
  obtain ⟨pin, pmix, st⟩ := S
  obtain ⟨u, hu⟩ := hS
  change Fin pmix.elements.length → ℝ at u
  change st = [("mix", u)] at hu
  subst hu
  generalize hC : added ⟨pin, pmix, [("mix", u)]⟩ 3 r C0 = C
  refine Group.converged_quick (C68.sw_eq unitGas _ true) (C68.sw_nodup true) ?_
  intro s hs
  simp only [flowStart, List.cons_append, List.nil_append, List.mem_cons, List.not_mem_nil, or_false] at hs
  rcases hs with rfl | rfl | rfl
  · refine ⟨?_, ?_, ?_, ?_⟩
    · kshow (0 : ℝ) = (0 * 3 + 0 * (3 * r)) / (3 + 3 * r)
      simp
    · kshow (3 + 3 * r : ℝ) = 3 + 3 * r
      rfl
    · intro k
      kshow C k.val = (reactantCompute ⟨pin, pmix, [("mix", u)]⟩ 3 0 (fun k => C0 k) (fun _ => r) (fun _ => 0)).comp k
      rw [← hC]
      simp only [added, k.isLt, dif_pos, Fin.eta]
    · kshow (3 * r : ℝ) = 3 * r
      rfl
  · total_of (humid C).tot
  · outlet_of (humid C) (humid_ok C)

theorem wetStart_outs : (C68.sw true).outs =
  ["thermo_add.mix:W", "thermo_add.mass_avg_h", "thermo_add.Wout", "composition",
  "totals.h", "totals.S", "totals.gamma", "totals.Cp", "totals.Cv", "totals.rho", "totals.R", "Fl_O:tot:T", "Fl_O:tot:P",
  "Fl_O:tot:h", "Fl_O:tot:S", "Fl_O:tot:gamma", "Fl_O:tot:Cp", "Fl_O:tot:Cv", "Fl_O:tot:rho", "Fl_O:tot:R",
  "Fl_O:tot:composition", "exit_static.h", "exit_static.gamma", "exit_static.Cp", "exit_static.Cv", "exit_static.rho",
  "exit_static.R", "exit_static.T", "exit_static.Ps", "exit_static.V", "exit_static.Vsonic", "exit_static.area",
  "Fl_O:stat:T", "Fl_O:stat:P", "Fl_O:stat:h", "Fl_O:stat:S", "Fl_O:stat:gamma", "Fl_O:stat:Cp", "Fl_O:stat:Cv",
  "Fl_O:stat:rho", "Fl_O:stat:R", "Fl_O:stat:composition", "Fl_O:stat:area", "Fl_O:stat:W", "Fl_O:stat:V",
  "Fl_O:stat:Vsonic", "Fl_O:stat:MN"] := by
  decide +kernel

/-- Humid air met in flight. -/
theorem wetFlight_converged : ∃ dTs rho, ∀ {S : ReactantAdd}, One S → ∀ {r : ℝ} {C0 : ℕ → ℝ},
    (flightConditions unitGas (some (.cea S)) "WAR").Converged (wetFlightE dTs rho r C0 (added S 3 r C0)) := by
  have hT : (Atm.compute 18000 .Ts).isSome := (Atm.C38_domain 18000 .Ts).1.mpr (by norm_num)
  have hr : (Atm.compute 18000 .rhos).isSome := (Atm.C38_domain 18000 .rhos).1.mpr (by norm_num)
  obtain ⟨t, ht⟩ := Option.isSome_iff_exists.mp hT
  obtain ⟨rho, hrho⟩ := Option.isSome_iff_exists.mp hr
  refine ⟨1 - t, rho, fun {S} hS {r C0} => Group.converged_quick (C68.ww_eq unitGas _ true) (C68.ww_nodup true) ?_⟩
  have hw := wetStart_converged hS (r := r) (C0 := C0)
  generalize added S 3 r C0 = C at hw ⊢
  intro s hs
  simp only [flightConditions, List.mem_cons, List.not_mem_nil, or_false] at hs
  rcases hs with rfl | rfl | rfl
  · refine ⟨?_, ?_, ?_⟩
    · exact Atm.C38_refuted.2.1
    · kshow (Atm.compute 18000 .Ts).map (· + (1 - t)) = some ((1 : ℝ) ^ 2)
      rw [ht]; simp
    · exact hrho
  · refine ⟨wetStartE r C0 C, hw, ?_, ?_⟩
    · intro n hn
      rw [show (flowStart unitGas (some (.cea S)) "WAR").wiring = C68.sw true from C68.sw_eq unitGas _ true] at hn
      have := ((C68.sw_interface true).2 n).mp hn
      simp only [C68.startIns, C68.rn, if_true] at this
      fin_cases this <;> exact ⟨by krfl, by krfl⟩
    · intro n hn
      rw [show (flowStart unitGas (some (.cea S)) "WAR").wiring = C68.sw true from C68.sw_eq unitGas _ true,
        wetStart_outs] at hn
      fin_cases hn <;> exact ⟨by krfl, by krfl⟩
  · intro b hb
    fin_cases hb <;> krfl

end Bench
end PyCycle.OM
