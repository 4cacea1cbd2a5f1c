import Verif.Bench.Plain
import Verif.Bench.Outflow
import Verif.Props.C67_Flow

/-! # C67: a solved turboshaft with two gas generator spools, as a design point and off design

The hypotheses of the theorems of C67 are met: these values solve the engine in both modes, with fuel burnt, bleeds
flowing, a choked nozzle, both gas generator spools in balance and the power turbine delivering power. -/

namespace PyCycle.OM
namespace Bench
open C48Example (unitGas)

set_option maxHeartbeats 1000000 in
theorem tap12_converged {a b : Stn} {f : ℝ} (d : Bool) (o : b.Ok) (hq : b.q = a.q) (hP : b.P = a.P) (hC : b.C = a.C)
    (hW : b.W = a.W - a.W * f - a.W * f) :
    (bleedOut unitGas ["cool1", "cool2"] d true).Converged (tapN ["cool1", "cool2"] a b f) := by
  tap2_converged_body MST.bld25Names

end Bench

namespace C67Example
open Bench MST
open C48Example (unitGas)
open C54Example (cmap tmap)

/-- The parts of the example. -/
noncomputable def parts : MstParts :=
  { air := unitGas, burnt := unitGas, lpc := cmap, axi := cmap, centri := cmap, hpt := tmap, lpt := tmap, pt := tmap
    fuel := .tab 1 0, hptBleed := .tab 1, lptBleed := .tab 1, ptBleed := .tab 1 }

noncomputable abbrev A : ℕ → ℝ := fuelAir 0

/-- Stations after inlet, duct, low compressor, duct, axial compressor, its bleeds, centrifugal compressor, its bleeds and
the duct ahead of the burner. -/
noncomputable def s2 : Stn := ⟨1, 14, 10, 3, A⟩
noncomputable def s21 : Stn := ⟨1, 7, 5, 3, A⟩
noncomputable def s23 : Stn := ⟨2, 21, 15, 3, A⟩
noncomputable def s24 : Stn := ⟨2, 14, 10, 3, A⟩
noncomputable def s25 : Stn := ⟨5 / 2, 42, 30, 3, A⟩
noncomputable def s26 : Stn := ⟨5 / 2, 42, 30, 1, A⟩
noncomputable def s3 : Stn := ⟨7 / 2, 420, 300, 1, A⟩
noncomputable def s31 : Stn := ⟨7 / 2, 420, 300, 1 / 2, A⟩
noncomputable def s36 : Stn := ⟨7 / 2, 210, 150, 1 / 2, A⟩
/-- Stations after burner, high turbine, duct, low turbine, duct, power turbine, duct and in the throat. -/
noncomputable def s4 : Stn := ⟨5, 168, 100, 1, fuelAir 1⟩
noncomputable def s42 : Stn := ⟨7 / 2, 84, 50, 3 / 2, fuelAir (1 / 2)⟩
noncomputable def s43 : Stn := ⟨7 / 2, 42, 30, 3 / 2, fuelAir (1 / 2)⟩
noncomputable def s45 : Stn := ⟨5 / 2, 28, 20, 7 / 2, fuelAir (1 / 6)⟩
noncomputable def s46 : Stn := ⟨5 / 2, 21, 15, 7 / 2, fuelAir (1 / 6)⟩
noncomputable def s5 : Stn := ⟨3 / 2, 14, 10, 7 / 2, fuelAir (1 / 6)⟩
noncomputable def s51 : Stn := ⟨3 / 2, 11.2, 8, 7 / 2, fuelAir (1 / 6)⟩
noncomputable def t8 : Stn := ⟨3 / 2, 9.8, 9, 7 / 2, fuelAir (1 / 6)⟩

/-- The bleeds of the turbines. -/
noncomputable def coolH : Cool := ⟨s3.tot, s3.W * (1 / 4), 1 / 2, 8.375⟩
noncomputable def coolL : Cool := ⟨s25.tot, s25.W * (1 / 3), 1 / 2, 3.375⟩

noncomputable def pamb : ℝ := 7.33889

/-- Torques. -/
noncomputable def tLpc : ℝ := 5252.11 * compPower s21 s23
noncomputable def tAxi : ℝ := 5252.11 * compPower s24 s25
noncomputable def tCen : ℝ := 5252.11 * compPower s26 s3
noncomputable def tHpt : ℝ := 5252.11 * turbPower s4 4.25 (1 / 2) coolH
noncomputable def tLpt : ℝ := 5252.11 * turbPower s43 8.375 (1 / 2) coolL
noncomputable def tPt : ℝ := 5252.11 * turb0Power s46 1.375 (3 / 4)

/-- Both gas generator spools are in balance, and the power turbine delivers power. -/
theorem balanced : 0 + tLpt + (0 + tLpc) = 0 ∧ 0 + tHpt + (0 + tAxi + tCen) = 0 ∧ tLpc < 0 ∧ tAxi < 0 ∧ tCen < 0
    ∧ 0 ≤ tLpt ∧ 0 ≤ tHpt ∧ 0 < tPt := by
  refine ⟨?_, ?_, ?_, ?_, ?_, ?_, ?_, ?_⟩ <;>
    norm_num [tLpc, tAxi, tCen, tHpt, tLpt, tPt, compPower, turbPower, turb0Power, coolH, coolL, Stn.h, Stn.tot,
      C58Example.at_, s21, s23, s24, s25, s26, s3, s4, s43, s46]

/-- Delivered power. -/
noncomputable def pwr : ℝ := (0 + tPt + 0) * Shaft.convert

/-- Performance. -/
noncomputable def perfE : Env :=
  let drag := Bench.s0.W * Bench.s0.q / 32.174
  let w := s36.W * 1
  Env.ofTable
  [("Pt2", s21.P), ("Pt3", s3.P), ("ram_drag", drag), ("power", (0 + tPt) * Shaft.convert), ("Fg_0", fgCV t8 pamb),
   ("Wfuel_0", w), ("OPR", s3.P / s21.P), ("Fg", 0 + fgCV t8 pamb), ("Fn", 0 + fgCV t8 pamb - drag),
   ("TSFC", (0 + w) * 3600 / (0 + fgCV t8 pamb - drag + 1e-10)), ("PSFC", (0 + w) * 3600 / ((0 + tPt) * Shaft.convert)),
   ("Wfuel", 0 + w)] []

theorem perf_ok : (performanceSub 1 1).eqn perfE perfE := ⟨by krfl, by krfl, by krfl, by krfl, by krfl, by krfl⟩

noncomputable def balanceE : Bool → Env
  | true => Env.ofTable [("W", 3), ("lhs:W", t8.P / pamb), ("rhs:W", t8.P / pamb), ("FAR", 1), ("lhs:FAR", s4.h),
      ("rhs:FAR", s4.h), ("lpt_PR", 1.5), ("lhs:lpt_PR", (0 + tLpt + (0 + tLpc)) * Shaft.convert), ("rhs:lpt_PR", 0),
      ("hpt_PR", 2), ("lhs:hpt_PR", (0 + tHpt + (0 + tAxi + tCen)) * Shaft.convert), ("rhs:hpt_PR", 0),
      ("pt_PR", 1.5), ("lhs:pt_PR", pwr), ("rhs:pt_PR", pwr)] []
  | false => Env.ofTable [("FAR", 1), ("lhs:FAR", pwr), ("rhs:FAR", pwr), ("W", 3), ("lhs:W", t8.W / t8.q),
      ("rhs:W", t8.W / t8.q), ("IP_Nmech", 1), ("lhs:IP_Nmech", (0 + tLpt + (0 + tLpc)) * Shaft.convert),
      ("rhs:IP_Nmech", 0), ("HP_Nmech", 1), ("lhs:HP_Nmech", (0 + tHpt + (0 + tAxi + tCen)) * Shaft.convert),
      ("rhs:HP_Nmech", 0)] []

/-- All values, the temperature deviation and density of the day being given. -/
noncomputable def vals (dTs rho : ℝ) (d : Bool) : String → Env
  | "fc" => flightE dTs rho
  | "inlet" => inletE Bench.s0 s2 1
  | "duct1" => ductE s2 s21 (1 / 2)
  | "lpc" => compE s21 s23 3.75 3 (1 / 2)
  | "icduct" => ductE s23 s24 (1 / 3)
  | "hpc_axi" => compE s24 s25 7.6875 3 (1 / 2)
  | "bld25" => tapN ["cool1", "cool2"] s25 s26 (1 / 3)
  | "hpc_centri" => compE s26 s3 13.875 10 (1 / 2)
  | "bld3" => bld3E s3 s31 (1 / 4)
  | "duct6" => ductE s31 s36 (1 / 2)
  | "burner" => burnerE s36 s4 1 56.625 0.2
  | "hpt" => turbE true s4 s42 4.25 2 (1 / 2) coolH
  | "duct43" => ductE s42 s43 (1 / 2)
  | "lpt" => turbE false s43 s45 8.375 1.5 (1 / 2) coolL
  | "itduct" => ductE s45 s46 (1 / 4)
  | "pt" => turb0E s46 s5 1.375 1.5 (3 / 4)
  | "duct12" => ductE s5 s51 0.2
  | "nozzle" => nozzE s51 t8 (1 / 8) pamb
  | "lp_shaft" => shaft1E tPt
  | "ip_shaft" => shaft2E tLpc tLpt
  | "hp_shaft" => shaft3E tAxi tCen tHpt
  | "perf" => perfE
  | "balance" => balanceE d
  | _ => Env.ofTable [("LP_Nmech", 1), ("IP_Nmech", 1), ("HP_Nmech", 1)] []

/-- A station passes a flow. -/
macro "passes " s:ident : tactic => `(tactic| exact ⟨by norm_num [$s:ident], by norm_num [$s:ident]⟩)

theorem ok2 : s2.Ok := by passes s2
theorem ok21 : s21.Ok := by passes s21
theorem ok23 : s23.Ok := by passes s23
theorem ok24 : s24.Ok := by passes s24
theorem ok25 : s25.Ok := by passes s25
theorem ok26 : s26.Ok := by passes s26
theorem ok3 : s3.Ok := by passes s3
theorem ok31 : s31.Ok := by passes s31
theorem ok36 : s36.Ok := by passes s36
theorem ok4 : s4.Ok := by passes s4
theorem ok42 : s42.Ok := by passes s42
theorem ok43 : s43.Ok := by passes s43
theorem ok45 : s45.Ok := by passes s45
theorem ok46 : s46.Ok := by passes s46
theorem ok5 : s5.Ok := by passes s5
theorem ok51 : s51.Ok := by passes s51
theorem ok8 : t8.Ok := by passes t8

/-- Every element is solved. -/
theorem elements_converged {dTs rho : ℝ} (hf : (flightConditions unitGas none).Converged (flightE dTs rho)) (d : Bool) :
    ∀ e ∈ (mst parts d).members, e.group.Converged (vals dTs rho d e.name) := by
  simp only [mst, elements, List.forall_mem_cons]
  refine ⟨hf, ?_, ?_, ?_, ?_, ?_, ?_, ?_, ?_, ?_, ?_, ?_, ?_, ?_, ?_, ?_, ?_, ?_, by simp⟩
  · exact inlet_converged _ ok2 rfl rfl fuelAir_zero (by norm_num [s2, Bench.s0])
  · exact duct_converged _ ok21 rfl rfl rfl (by norm_num [s2, s21])
  · exact comp_converged _ ok23 (by norm_num) rfl rfl (by norm_num [s21, s23]) (by norm_num [s21, s23, Stn.h])
  · exact duct_converged _ ok24 rfl rfl rfl (by norm_num [s23, s24])
  · exact comp_converged _ ok25 (by norm_num) rfl rfl (by norm_num [s24, s25]) (by norm_num [s24, s25, Stn.h])
  · exact tap12_converged _ ok26 rfl rfl rfl (by norm_num [s25, s26])
  · exact comp_converged _ ok3 (by norm_num) rfl rfl (by norm_num [s26, s3]) (by norm_num [s26, s3, Stn.h])
  · exact bld3_converged _ ok31 rfl rfl rfl (by norm_num [s3, s31])
  · exact duct_converged _ ok36 rfl rfl rfl (by norm_num [s31, s36])
  · exact burner_converged _ ok4 ok36.W rfl rfl (by norm_num [s36, s4]) (by norm_num [s36, s4])
      (by norm_num [s36, s4, Stn.h])
  · exact turb_converged (k := true) (f := 1) (g := 1 / 2) _ ok42 rfl rfl rfl (by norm_num [s4, s42, coolH, s3])
      (by norm_num [s4, s42]) (by norm_num [s4, s42, coolH, s3, b4, Stn.h, Stn.tot, C58Example.at_]) (by norm_num)
      (by norm_num [s4, coolH, s3])
  · exact duct_converged _ ok43 rfl rfl rfl (by norm_num [s42, s43])
  · exact turb_converged (k := false) (f := 1 / 2) (g := 1 / 6) _ ok45 rfl rfl rfl (by norm_num [s43, s45, coolL, s25])
      (by norm_num [s43, s45]) (by norm_num [s43, s45, coolL, s25, b4, Stn.h, Stn.tot, C58Example.at_]) (by norm_num)
      (by norm_num [s43, coolL, s25])
  · exact duct_converged _ ok46 rfl rfl rfl (by norm_num [s45, s46])
  · exact turb0_converged (f := 1 / 6) _ ok5 rfl rfl rfl (by norm_num [s46]) (by norm_num [s5, s46])
      (by norm_num [s5, s46, b4, Stn.h]) (by norm_num)
  · exact duct_converged _ ok51 rfl rfl rfl (by norm_num [s5, s51])
  · exact nozz_converged ok8 rfl rfl rfl (by norm_num [s51, t8]) (by norm_num [pamb]) (by norm_num [t8, pamb])
      (by norm_num [t8, pamb])

/-- Every component is solved. -/
theorem others_ok (dTs rho : ℝ) (d : Bool) :
    ∀ s ∈ (mst parts d).others, s.eqn (vals dTs rho d s.name) (vals dTs rho d s.name) := by
  obtain ⟨b1, b2, b3, b4, b5, b6, b7, b8⟩ := balanced
  simp only [mst, List.forall_mem_cons]
  refine ⟨shaft1_ok b8.le, shaft2_ok b3 b6, shaft3_ok b4 b5 b7, perf_ok, ?_, by simp⟩
  cases d <;> (
    intro b hb
    fin_cases hb)
  · kshow (1 : ℝ) * pwr = pwr
    ring
  · kshow (1 : ℝ) * (t8.W / t8.q) = t8.W / t8.q
    ring
  · kshow (1 : ℝ) * ((0 + tLpt + (0 + tLpc)) * Shaft.convert) = 0
    rw [b1]; ring
  · kshow (1 : ℝ) * ((0 + tHpt + (0 + tAxi + tCen)) * Shaft.convert) = 0
    rw [b2]; ring
  · kshow (1 : ℝ) * (t8.P / pamb) = t8.P / pamb
    ring
  · kshow (1 : ℝ) * s4.h = s4.h
    ring
  · kshow (1 : ℝ) * ((0 + tLpt + (0 + tLpc)) * Shaft.convert) = 0
    rw [b1]; ring
  · kshow (1 : ℝ) * ((0 + tHpt + (0 + tAxi + tCen)) * Shaft.convert) = 0
    rw [b2]; ring
  · kshow (1 : ℝ) * pwr = pwr
    ring

theorem fits (dTs rho : ℝ) (d : Bool) : ∀ s ∈ (mst parts d).group.subs, s.Fits (vals dTs rho d) := by
  have one : ∀ {s : Decl} (t : String), Plain t → Plain s.name → s.promO = [] → s.promI = [.as "Nmech" t] →
      (vals dTs rho d "").num t = (vals dTs rho d s.name).num "Nmech" →
      (vals dTs rho d "").vec t = (vals dTs rho d s.name).vec "Nmech" →
      s.Fits (vals dTs rho d) := fun t ht h h1 h2 h3 h4 => Decl.Fits.as [("Nmech", t)] h h1 h2 (by
        simp only [List.forall_mem_cons]; exact ⟨⟨ht, h3, h4⟩, by simp⟩)
  simp only [Cycle.group, mst, elements, List.map_cons, List.map_nil, List.cons_append, List.nil_append,
    List.forall_mem_cons]
  refine ⟨?_, ?_, ?_, ?_, ?_, ?_, ?_, ?_, ?_, ?_, ?_, ?_, ?_, ?_, ?_, ?_, ?_, ?_, ?_, ?_, ?_, ?_, ?_, by simp⟩
  · exact Decl.Fits.none (by decide : Plain "fc") rfl rfl
  · exact Decl.Fits.none (by decide : Plain "inlet") rfl rfl
  · exact Decl.Fits.none (by decide : Plain "duct1") rfl rfl
  · exact one "IP_Nmech" (by decide) (by decide : Plain "lpc") rfl rfl (by krfl) (by krfl)
  · exact Decl.Fits.none (by decide : Plain "icduct") rfl rfl
  · exact one "HP_Nmech" (by decide) (by decide : Plain "hpc_axi") rfl rfl (by krfl) (by krfl)
  · exact Decl.Fits.none (by decide : Plain "bld25") rfl rfl
  · exact one "HP_Nmech" (by decide) (by decide : Plain "hpc_centri") rfl rfl (by krfl) (by krfl)
  · exact Decl.Fits.none (by decide : Plain "bld3") rfl rfl
  · exact Decl.Fits.none (by decide : Plain "duct6") rfl rfl
  · exact Decl.Fits.none (by decide : Plain "burner") rfl rfl
  · exact one "HP_Nmech" (by decide) (by decide : Plain "hpt") rfl rfl (by krfl) (by krfl)
  · exact Decl.Fits.none (by decide : Plain "duct43") rfl rfl
  · exact one "IP_Nmech" (by decide) (by decide : Plain "lpt") rfl rfl (by krfl) (by krfl)
  · exact Decl.Fits.none (by decide : Plain "itduct") rfl rfl
  · exact one "LP_Nmech" (by decide) (by decide : Plain "pt") rfl rfl (by krfl) (by krfl)
  · exact Decl.Fits.none (by decide : Plain "duct12") rfl rfl
  · exact Decl.Fits.none (by decide : Plain "nozzle") rfl rfl
  · exact one "LP_Nmech" (by decide) (by decide : Plain "lp_shaft") rfl rfl (by krfl) (by krfl)
  · exact one "IP_Nmech" (by decide) (by decide : Plain "ip_shaft") rfl rfl (by krfl) (by krfl)
  · exact one "HP_Nmech" (by decide) (by decide : Plain "hp_shaft") rfl rfl (by krfl) (by krfl)
  · exact Decl.Fits.none (by decide : Plain "perf") rfl rfl
  · exact Decl.Fits.none (by decide : Plain "balance") rfl rfl

/-- The flow links agree. -/
theorem links_agree (dTs rho : ℝ) (d : Bool) : ∀ l ∈ flows, ∀ x ∈ l.conns,
    (Env.glue (vals dTs rho d)).num x.1 = (Env.glue (vals dTs rho d)).num x.2
    ∧ (Env.glue (vals dTs rho d)).vec x.1 = (Env.glue (vals dTs rho d)).vec x.2 := by
  intro l hl
  simp only [flows, List.mem_cons, List.not_mem_nil, or_false] at hl
  rcases hl with rfl | rfl | rfl | rfl | rfl | rfl | rfl | rfl | rfl | rfl | rfl | rfl | rfl | rfl | rfl | rfl | rfl | rfl | rfl | rfl | rfl
  all_goals
    intro x hx
    refine Link.agrees (by decide) (by decide) ⟨by krfl, by krfl⟩ ?_ x hx
    intro v hv hw
    fin_cases hv <;> first | exact absurd (hw rfl) (by decide) | exact ⟨by krfl, by krfl⟩

theorem agrees (dTs rho : ℝ) (d : Bool) : (mst parts d).group.Agrees (Env.glue (vals dTs rho d)) := by
  intro x hx
  rcases List.mem_append.mp hx with hx | hx
  · obtain ⟨l, hl, hx⟩ := List.mem_flatMap.mp hx
    exact links_agree dTs rho d l hl x hx
  · rcases List.mem_append.mp hx with hx | hx
    · simp only [plainConns] at hx
      fin_cases hx <;> exact ⟨by krfl, by krfl⟩
    · cases d <;> (
        simp only [balConns, Bool.false_eq_true, if_false, if_true] at hx
        fin_cases hx <;> exact ⟨by krfl, by krfl⟩)

/-- The engine is solved in both modes. -/
theorem solved : ∃ dTs rho, ∀ d, (mst parts d).Solved (Env.glue (vals dTs rho d)) := by
  obtain ⟨dTs, rho, hf⟩ := flight_converged
  exact ⟨dTs, rho, fun d => ⟨Cycle.converged_of (fits dTs rho d) (agrees dTs rho d) (elements_converged hf d)
    (others_ok dTs rho d), agrees dTs rho d⟩⟩

/-- The flow guards of C67 hold of the values. -/
theorem running (dTs rho : ℝ) (d : Bool) : Running (Env.glue (vals dTs rho d)) := by
  have e1 : (Env.glue (vals dTs rho d)).num "balance.W" = 3 := by cases d <;> krfl
  have e2 : (Env.glue (vals dTs rho d)).num "burner.Wfuel" = s36.W * 1 := by krfl
  have e3 : (Env.glue (vals dTs rho d)).num "bld25.cool1:frac_W" = 1 / 3 := by krfl
  have e4 : (Env.glue (vals dTs rho d)).num "bld25.cool2:frac_W" = 1 / 3 := by krfl
  have e5 : (Env.glue (vals dTs rho d)).num "bld3.cool3:frac_W" = 1 / 4 := by krfl
  have e6 : (Env.glue (vals dTs rho d)).num "bld3.cool4:frac_W" = 1 / 4 := by krfl
  constructor <;> (try rw [e1]) <;> (try rw [e2]) <;> (try rw [e3]) <;> (try rw [e4]) <;> (try rw [e5]) <;> (try rw [e6]) <;>
    norm_num [s36]

/-- The statements of C67 on fuel, energy and shafts apply to a solved engine in both modes, which delivers power. -/
theorem applies : ∃ E : Bool → Env, ∀ d, (mst parts d).Solved (E d)
    ∧ (E d).num "nozzle.Fl_O:stat:W" = (E d).num "balance.W" + (E d).num "burner.Wfuel"
    ∧ (E d).num "nozzle.Fl_O:stat:W" * (E d).num "nozzle.Fl_O:tot:h"
      + (E d).num (if d then "balance.rhs:pt_PR" else "balance.rhs:FAR") / (5252.11 * (2 * Real.pi / 60 / 550)) / 1.4148532
      = (E d).num "balance.W" * (E d).num "fc.Fl_O:tot:h" + (E d).num "burner.Wfuel" * (E d).num "burner.mix_fuel.mix:h"
    ∧ 0 < (E d).num "lp_shaft.pwr_net" := by
  obtain ⟨dTs, rho, h⟩ := solved
  refine ⟨fun d => Env.glue (vals dTs rho d), fun d => ?_⟩
  have e0 : (Env.glue (vals dTs rho d)).vec "fc.fs.composition" = 0 := by krfl
  have hC : 1 + ∑ i : Fin 1, (Env.glue (vals dTs rho d)).vec "fc.fs.composition" i ≠ 0 := by rw [e0]; simp
  have p1 : 0 < (Env.glue (vals dTs rho d)).num "LP_Nmech" := by
    have e : (Env.glue (vals dTs rho d)).num "LP_Nmech" = 1 := by krfl
    rw [e]; norm_num
  have p2 : 0 < (Env.glue (vals dTs rho d)).num "IP_Nmech" := by
    have e : (Env.glue (vals dTs rho d)).num "IP_Nmech" = 1 := by krfl
    rw [e]; norm_num
  have p3 : 0 < (Env.glue (vals dTs rho d)).num "HP_Nmech" := by
    have e : (Env.glue (vals dTs rho d)).num "HP_Nmech" = 1 := by krfl
    rw [e]; norm_num
  refine ⟨h d, (C67_tab (p := parts) rfl (h d) hC (running dTs rho d)).2, ?_, ?_⟩
  · exact C67_delivered (h d) (okC := fun x => 1 + ∑ i : Fin 1, x i ≠ 0) (C57_combustor_tab _ _ d true 1 0) hC
      (running dTs rho d) p1 p2 p3
      (by simp only [List.forall_mem_cons]; exact ⟨⟨by krfl, by krfl⟩, ⟨by krfl, by krfl⟩, ⟨by krfl, by krfl⟩, by simp⟩)
      (by cases d <;> krfl) (by cases d <;> krfl)
      (by simp only [List.forall_mem_cons]; exact ⟨by krfl, by krfl, by krfl, by krfl, by krfl, by krfl, by simp⟩) (by krfl)
  · have e : (Env.glue (vals dTs rho d)).num "lp_shaft.pwr_net" = (0 + tPt + 0) * Shaft.convert := by krfl
    have hc : 0 < Shaft.convert := by have := Real.pi_pos; unfold Shaft.convert; positivity
    rw [e]
    have := balanced.2.2.2.2.2.2.2
    exact mul_pos (by linarith) hc

end C67Example
end PyCycle.OM
