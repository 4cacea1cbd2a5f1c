import Verif.Bench.Mixed
import Verif.Bench.Single
import Verif.Bench.Assembly
import Verif.Props.C61_Flow

/-! # C61: a solved mixed-flow turbofan, as a design point and off design

The hypotheses of the theorems of C61 are met: these values solve the engine in both modes, with fuel burnt in burner and
afterburner, bleeds flowing, a choked nozzle and shafts in balance. -/

namespace PyCycle.OM
namespace C61Example
open Bench MFTF
open C48Example (unitGas)
open C54Example (cmap tmap)

/-- The parts of the example. -/
noncomputable def parts : MftfParts :=
  { air := unitGas, burnt := unitGas, hot := unitGas, fan := cmap, lpc := cmap, hpc := cmap, hpt := tmap, lpt := tmap
    fuel := .tab 1 0, abFuel := .tab 1 0, hptBleed := .tab 1, lptBleed := .tab 1, mix := .tab 1 }

noncomputable abbrev A : ℕ → ℝ := fuelAir 0

/-- Stations after inlet, its duct, fan, splitter, duct, low compressor, duct, high compressor and its bleed. -/
noncomputable def s2 : Stn := ⟨1, 14, 10, 3, A⟩
noncomputable def s20 : Stn := ⟨1, 10.5, 7, 3, A⟩
noncomputable def s21 : Stn := ⟨2, 21, 15, 3, A⟩
noncomputable def s22 : Stn := ⟨2, 21, 15, 2, A⟩
noncomputable def s12 : Stn := ⟨2, 21, 15, 1, A⟩
noncomputable def s23 : Stn := ⟨2, 14, 10, 2, A⟩
noncomputable def s24 : Stn := ⟨5 / 2, 42, 30, 2, A⟩
noncomputable def s25 : Stn := ⟨5 / 2, 21, 15, 2, A⟩
noncomputable def s3 : Stn := ⟨3, 105, 70, 3 / 2, A⟩
noncomputable def s31 : Stn := ⟨3, 105, 70, 1, A⟩
/-- Stations after burner, high turbine, duct, low turbine, duct; the bypass after its duct. -/
noncomputable def s4 : Stn := ⟨4, 84, 50, 7 / 6, fuelAir (1 / 6)⟩
noncomputable def s45 : Stn := ⟨33 / 10, 42, 30, 5 / 3, fuelAir (1 / 9)⟩
noncomputable def s46 : Stn := ⟨33 / 10, 21, 15, 5 / 3, fuelAir (1 / 9)⟩
noncomputable def s5 : Stn := ⟨2, 14, 10, 13 / 6, fuelAir (1 / 12)⟩
noncomputable def s51 : Stn := ⟨2, 11.2, 9, 13 / 6, fuelAir (1 / 12)⟩
noncomputable def s15 : Stn := ⟨2, 10.5, 9, 1, A⟩
/-- Stations after mixer, duct and afterburner, and in the throat. -/
noncomputable def s6 : Stn := ⟨2, 11, 9, 19 / 6, fuelAir (1 / 18)⟩
noncomputable def s61 : Stn := ⟨2, 10, 8, 19 / 6, fuelAir (1 / 18)⟩
noncomputable def s7 : Stn := ⟨3, 9, 8, 11 / 3, fuelAir (2 / 9)⟩
noncomputable def t8 : Stn := ⟨3, 8, 7.5, 11 / 3, fuelAir (2 / 9)⟩

/-- The bleeds of the turbines. -/
noncomputable def coolH : Cool := ⟨s3.tot, s3.W * (1 / 3), 1 / 2, 13.5⟩
noncomputable def coolL : Cool := ⟨tapped s25 s3 (1 / 2) (107 / 165), s25.W * (1 / 4), 1 / 2, 12.05⟩

noncomputable def pamb : ℝ := 7.33889

/-- Torques. -/
noncomputable def tFan : ℝ := 5252.11 * compPower s20 s21
noncomputable def tLpc : ℝ := 5252.11 * compPower s23 s24
noncomputable def tLpt : ℝ := 5252.11 * turb1Power s46 4.185 1 coolL
noncomputable def tHpc : ℝ := 5252.11 * comp1Power s25 s3 (1 / 4) (107 / 165)
noncomputable def tHpt : ℝ := 5252.11 * turb1Power s4 11.1 (1 / 2) coolH

/-- The two shafts are in balance. -/
theorem balanced : 0 + tLpt = -(0 + tFan + tLpc) ∧ 0 + tHpt = -(0 + tHpc) ∧ tFan < 0 ∧ tLpc < 0 ∧ 0 ≤ tLpt ∧ tHpc < 0
    ∧ 0 ≤ tHpt := by
  refine ⟨?_, ?_, ?_, ?_, ?_, ?_, ?_⟩ <;>
    norm_num [tFan, tLpc, tLpt, tHpc, tHpt, compPower, turb1Power, comp1Power, coolH, coolL, tapped, Stn.h, Stn.tot,
      C58Example.at_, s20, s21, s23, s24, s25, s3, s4, s46]

/-- Performance of one nozzle and two burners. -/
noncomputable def perfE : Env :=
  let drag := Bench.s0.W * Bench.s0.q / 32.174
  let w0 := s31.W * (1 / 6)
  let w1 := s61.W / (1 + 1 / 18) * (1 / 6)
  Env.ofTable
  [("Pt2", s2.P), ("Pt3", s3.P), ("ram_drag", drag), ("power", 1), ("Fg_0", fgCfg t8), ("Wfuel_0", w0), ("Wfuel_1", w1),
   ("OPR", s3.P / s2.P), ("Fg", 0 + fgCfg t8), ("Fn", 0 + fgCfg t8 - drag),
   ("TSFC", (0 + w0 + w1) * 3600 / (0 + fgCfg t8 - drag + 1e-10)), ("PSFC", (0 + w0 + w1) * 3600 / 1),
   ("Wfuel", 0 + w0 + w1)] []

theorem perf_ok : (performanceSub 1 2).eqn perfE perfE := ⟨by krfl, by krfl, by krfl, by krfl, by krfl, by krfl⟩

/-- Net thrust. -/
noncomputable def fn : ℝ := 0 + fgCfg t8 - Bench.s0.W * Bench.s0.q / 32.174

theorem fn_pos : 0 < fn := by norm_num [fn, fgCfg, t8, Bench.s0]

noncomputable def balanceE : Bool → Env
  | true => Env.ofTable [("W", 3), ("lhs:W", fn), ("rhs:W", fn), ("BPR", 1 / 2), ("lhs:BPR", s51.P / s15.P),
      ("rhs:BPR", s51.P / s15.P), ("FAR_core", 1 / 6), ("lhs:FAR_core", s4.h), ("rhs:FAR_core", s4.h),
      ("FAR_ab", 1 / 6), ("lhs:FAR_ab", s7.h), ("rhs:FAR_ab", s7.h),
      ("lpt_PR", 1.5), ("mult:lpt_PR", -1), ("lhs:lpt_PR", (0 + tLpt) * Shaft.convert),
      ("rhs:lpt_PR", (0 + tFan + tLpc) * Shaft.convert),
      ("hpt_PR", 2), ("mult:hpt_PR", -1), ("lhs:hpt_PR", (0 + tHpt) * Shaft.convert),
      ("rhs:hpt_PR", (0 + tHpc) * Shaft.convert)] []
  | false => Env.ofTable [("W", 3), ("lhs:W", t8.W / t8.q), ("rhs:W", t8.W / t8.q), ("BPR", 1 / 2), ("lhs:BPR", s51.Ps),
      ("rhs:BPR", s15.Ps), ("FAR_core", 1 / 6), ("lhs:FAR_core", s4.h), ("rhs:FAR_core", s4.h),
      ("FAR_ab", 1 / 6), ("lhs:FAR_ab", s7.h), ("rhs:FAR_ab", s7.h),
      ("LP_Nmech", 1), ("mult:LP_Nmech", -1), ("lhs:LP_Nmech", (0 + tLpt) * Shaft.convert),
      ("rhs:LP_Nmech", (0 + tFan + tLpc) * Shaft.convert),
      ("HP_Nmech", 1), ("mult:HP_Nmech", -1), ("lhs:HP_Nmech", (0 + tHpt) * Shaft.convert),
      ("rhs:HP_Nmech", (0 + tHpc) * Shaft.convert)] []

/-- All values, the temperature deviation and density of the day being given. -/
noncomputable def vals (dTs rho : ℝ) (d : Bool) : String → Env
  | "fc" => flightE dTs rho
  | "inlet" => inletE Bench.s0 s2 1
  | "inlet_duct" => ductE s2 s20 (1 / 4)
  | "fan" => compE s20 s21 3.75 2 (1 / 2)
  | "splitter" => splitterE s21 s22 s12 (1 / 2)
  | "splitter_core_duct" => ductE s22 s23 (1 / 3)
  | "lpc" => compE s23 s24 7.6875 3 (1 / 2)
  | "lpc_duct" => ductE s24 s25 (1 / 2)
  | "hpc" => comp1E s25 s3 11.4375 5 (1 / 2) (1 / 4) (1 / 2) (107 / 165)
  | "bld3" => tapE s3 s31 (1 / 3)
  | "burner" => burnerE s31 s4 (1 / 6) 87 0.2
  | "hpt" => turb1E true s4 s45 11.1 2 (1 / 2) coolH
  | "hpt_duct" => ductE s45 s46 (1 / 2)
  | "lpt" => turb1E false s46 s5 4.185 1.5 1 coolL
  | "lpt_duct" => ductE s5 s51 0.2
  | "bypass_duct" => ductE s12 s15 (1 / 2)
  | "mixer" => mixerE s51 s15 s6
  | "mixer_duct" => ductE s6 s61 (1 / 11)
  | "afterburner" => abE s61 s7 (1 / 18) (1 / 6) 61 0.1
  | "mixed_nozz" => nozzCfgE s7 t8 (1 / 9) pamb
  | "lp_shaft" => shaft3E tFan tLpc tLpt
  | "hp_shaft" => shaft2E tHpc tHpt
  | "perf" => perfE
  | "balance" => balanceE d
  | _ => Env.ofTable [("LP_Nmech", 1), ("HP_Nmech", 1)] []

/-- A station passes a flow. -/
macro "passes " s:ident : tactic => `(tactic| exact ⟨by norm_num [$s:ident], by norm_num [$s:ident]⟩)

theorem ok2 : s2.Ok := by passes s2
theorem ok20 : s20.Ok := by passes s20
theorem ok21 : s21.Ok := by passes s21
theorem ok22 : s22.Ok := by passes s22
theorem ok12 : s12.Ok := by passes s12
theorem ok23 : s23.Ok := by passes s23
theorem ok24 : s24.Ok := by passes s24
theorem ok25 : s25.Ok := by passes s25
theorem ok3 : s3.Ok := by passes s3
theorem ok31 : s31.Ok := by passes s31
theorem ok4 : s4.Ok := by passes s4
theorem ok45 : s45.Ok := by passes s45
theorem ok46 : s46.Ok := by passes s46
theorem ok5 : s5.Ok := by passes s5
theorem ok51 : s51.Ok := by passes s51
theorem ok15 : s15.Ok := by passes s15
theorem ok6 : s6.Ok := by passes s6
theorem ok61 : s61.Ok := by passes s61
theorem ok7 : s7.Ok := by passes s7
theorem ok8 : t8.Ok := by passes t8

/-- Every element is solved. -/
theorem elements_converged {dTs rho : ℝ} (hf : (flightConditions unitGas none).Converged (flightE dTs rho)) (d : Bool) :
    ∀ e ∈ (mftf parts d).members, e.group.Converged (vals dTs rho d e.name) := by
  simp only [mftf, elements, List.forall_mem_cons]
  refine ⟨hf, ?_, ?_, ?_, ?_, ?_, ?_, ?_, ?_, ?_, ?_, ?_, ?_, ?_, ?_, ?_, ?_, ?_, ?_, ?_, by simp⟩
  · exact inlet_converged _ ok2 rfl rfl fuelAir_zero (by norm_num [s2, Bench.s0])
  · exact duct_converged _ ok20 rfl rfl rfl (by norm_num [s2, s20])
  · exact comp_converged _ ok21 (by norm_num) rfl rfl (by norm_num [s20, s21]) (by norm_num [s20, s21, Stn.h])
  · exact splitter_converged _ ok22 ok12 ⟨rfl, rfl, rfl⟩ ⟨rfl, rfl, rfl⟩ (by norm_num [s21, s22]) (by norm_num [s21, s12])
  · exact duct_converged _ ok23 rfl rfl rfl (by norm_num [s22, s23])
  · exact comp_converged _ ok24 (by norm_num) rfl rfl (by norm_num [s23, s24]) (by norm_num [s23, s24, Stn.h])
  · exact duct_converged _ ok25 rfl rfl rfl (by norm_num [s24, s25])
  · exact comp1_converged _ ok3 (by norm_num) (by norm_num [s25, s3]) rfl (by norm_num [s25, s3]) (by norm_num [s25, s3, Stn.h])
  · exact tap_converged _ ok31 rfl rfl rfl (by norm_num [s3, s31])
  · exact burner_converged _ ok4 ok31.W rfl rfl (by norm_num [s31, s4]) (by norm_num [s31, s4])
      (by norm_num [s31, s4, Stn.h])
  · exact turb1_converged (k := true) (f := 1 / 6) (g := 1 / 9) _ ok45 rfl rfl rfl (by norm_num [s4, s45, coolH, s3])
      (by norm_num [s4, s45]) (by norm_num [s4, s45, coolH, s3, b4, Stn.h, Stn.tot, C58Example.at_]) (by norm_num)
      (by norm_num [s4, coolH, s3])
  · exact duct_converged _ ok46 rfl rfl rfl (by norm_num [s45, s46])
  · exact turb1_converged (k := false) (f := 1 / 9) (g := 1 / 12) _ ok5 rfl rfl rfl (by norm_num [s46, s5, coolL, s25])
      (by norm_num [s46, s5]) (by norm_num [s46, s5, coolL, s3, s25, tapped, b4, Stn.h, Stn.tot, C58Example.at_]) (by norm_num)
      (by norm_num [s46, coolL, s25])
  · exact duct_converged _ ok51 rfl rfl rfl (by norm_num [s5, s51])
  · exact duct_converged _ ok15 rfl rfl rfl (by norm_num [s12, s15])
  · exact mixer_converged (f := 1 / 12) (g := 1 / 18) _ ok51 ok6 rfl rfl rfl rfl (by norm_num [s51, s15, s6]) rfl rfl rfl
      (by norm_num) (by norm_num [s51, s15])
  · exact duct_converged _ ok61 rfl rfl rfl (by norm_num [s6, s61])
  · exact ab_converged (g := 2 / 9) _ ok7 rfl rfl (by norm_num [s61]) (by norm_num [s61, s7]) (by norm_num [s61, s7])
      (by norm_num [s61, s7, Stn.h])
  · exact nozzCfg_converged ok8 rfl rfl rfl (by norm_num [s7, t8]) (by norm_num [pamb]) (by norm_num [t8, pamb])

/-- Every component is solved. -/
theorem others_ok (dTs rho : ℝ) (d : Bool) :
    ∀ s ∈ (mftf parts d).others, s.eqn (vals dTs rho d s.name) (vals dTs rho d s.name) := by
  obtain ⟨b1, b2, b3, b4, b5, b6, b7⟩ := balanced
  simp only [mftf, List.forall_mem_cons]
  refine ⟨shaft3_ok b3 b4 b5, shaft2_ok b6 b7, perf_ok, ?_, by simp⟩
  cases d <;> (
    intro b hb
    fin_cases hb)
  · kshow (1 : ℝ) * (t8.W / t8.q) = t8.W / t8.q
    ring
  · kshow (1 : ℝ) * 9 = 9
    norm_num
  · kshow (1 : ℝ) * s4.h = s4.h
    ring
  · kshow (1 : ℝ) * s7.h = s7.h
    ring
  · kshow -1 * ((0 + tLpt) * Shaft.convert) = (0 + tFan + tLpc) * Shaft.convert
    rw [b1]; ring
  · kshow -1 * ((0 + tHpt) * Shaft.convert) = (0 + tHpc) * Shaft.convert
    rw [b2]; ring
  · kshow (1 : ℝ) * fn = fn
    ring
  · kshow (1 : ℝ) * (s51.P / s15.P) = s51.P / s15.P
    ring
  · kshow (1 : ℝ) * s4.h = s4.h
    ring
  · kshow (1 : ℝ) * s7.h = s7.h
    ring
  · kshow -1 * ((0 + tLpt) * Shaft.convert) = (0 + tFan + tLpc) * Shaft.convert
    rw [b1]; ring
  · kshow -1 * ((0 + tHpt) * Shaft.convert) = (0 + tHpc) * Shaft.convert
    rw [b2]; ring

theorem fits (dTs rho : ℝ) (d : Bool) : ∀ s ∈ (mftf parts d).group.subs, s.Fits (vals dTs rho d) := by
  have one : ∀ {s : Decl} (t : String), Plain t → Plain s.name → s.promO = [] → s.promI = [.as "Nmech" t] →
      (vals dTs rho d "").num t = (vals dTs rho d s.name).num "Nmech" →
      (vals dTs rho d "").vec t = (vals dTs rho d s.name).vec "Nmech" →
      s.Fits (vals dTs rho d) := fun t ht h h1 h2 h3 h4 => Decl.Fits.as [("Nmech", t)] h h1 h2 (by
        simp only [List.forall_mem_cons]; exact ⟨⟨ht, h3, h4⟩, by simp⟩)
  simp only [Cycle.group, mftf, elements, List.map_cons, List.map_nil, List.cons_append, List.nil_append,
    List.forall_mem_cons]
  refine ⟨?_, ?_, ?_, ?_, ?_, ?_, ?_, ?_, ?_, ?_, ?_, ?_, ?_, ?_, ?_, ?_, ?_, ?_, ?_, ?_, ?_, ?_, ?_, ?_, by simp⟩
  · exact Decl.Fits.none (by decide : Plain "fc") rfl rfl
  · exact Decl.Fits.none (by decide : Plain "inlet") rfl rfl
  · exact Decl.Fits.none (by decide : Plain "inlet_duct") rfl rfl
  · exact one "LP_Nmech" (by decide) (by decide : Plain "fan") rfl rfl (by krfl) (by krfl)
  · exact Decl.Fits.none (by decide : Plain "splitter") rfl rfl
  · exact Decl.Fits.none (by decide : Plain "splitter_core_duct") rfl rfl
  · exact one "LP_Nmech" (by decide) (by decide : Plain "lpc") rfl rfl (by krfl) (by krfl)
  · exact Decl.Fits.none (by decide : Plain "lpc_duct") rfl rfl
  · exact one "HP_Nmech" (by decide) (by decide : Plain "hpc") rfl rfl (by krfl) (by krfl)
  · exact Decl.Fits.none (by decide : Plain "bld3") rfl rfl
  · exact Decl.Fits.none (by decide : Plain "burner") rfl rfl
  · exact one "HP_Nmech" (by decide) (by decide : Plain "hpt") rfl rfl (by krfl) (by krfl)
  · exact Decl.Fits.none (by decide : Plain "hpt_duct") rfl rfl
  · exact one "LP_Nmech" (by decide) (by decide : Plain "lpt") rfl rfl (by krfl) (by krfl)
  · exact Decl.Fits.none (by decide : Plain "lpt_duct") rfl rfl
  · exact Decl.Fits.none (by decide : Plain "bypass_duct") rfl rfl
  · exact Decl.Fits.none (by decide : Plain "mixer") rfl rfl
  · exact Decl.Fits.none (by decide : Plain "mixer_duct") rfl rfl
  · exact Decl.Fits.none (by decide : Plain "afterburner") rfl rfl
  · exact Decl.Fits.none (by decide : Plain "mixed_nozz") rfl rfl
  · exact one "LP_Nmech" (by decide) (by decide : Plain "lp_shaft") rfl rfl (by krfl) (by krfl)
  · exact one "HP_Nmech" (by decide) (by decide : Plain "hp_shaft") rfl rfl (by krfl) (by krfl)
  · exact Decl.Fits.none (by decide : Plain "perf") rfl rfl
  · exact Decl.Fits.none (by decide : Plain "balance") rfl rfl

/-- The flow links agree. -/
theorem links_agree (dTs rho : ℝ) (d : Bool) : ∀ l ∈ flows, ∀ x ∈ l.conns,
    (Env.glue (vals dTs rho d)).num x.1 = (Env.glue (vals dTs rho d)).num x.2
    ∧ (Env.glue (vals dTs rho d)).vec x.1 = (Env.glue (vals dTs rho d)).vec x.2 := by
  intro l hl
  simp only [flows, List.mem_cons, List.not_mem_nil, or_false] at hl
  rcases hl with rfl | rfl | rfl | rfl | rfl | rfl | rfl | rfl | rfl | rfl | rfl | rfl | rfl | rfl | rfl | rfl | rfl | rfl
    | rfl | rfl | rfl | rfl
  all_goals
    intro x hx
    refine Link.agrees (by decide) (by decide) ⟨by krfl, by krfl⟩ ?_ x hx
    intro v hv hw
    fin_cases hv <;> exact ⟨by krfl, by krfl⟩

theorem agrees (dTs rho : ℝ) (d : Bool) : (mftf parts d).group.Agrees (Env.glue (vals dTs rho d)) := by
  intro x hx
  rcases List.mem_append.mp hx with hx | hx
  · obtain ⟨l, hl, hx⟩ := List.mem_flatMap.mp hx
    exact links_agree dTs rho d l hl x hx
  · rcases List.mem_append.mp hx with hx | hx
    · simp only [plainConns] at hx
      fin_cases hx <;> exact ⟨by krfl, by krfl⟩
    · cases d <;> (
        simp only [balConns, Bool.false_eq_true, if_false, if_true] at hx
        fin_cases hx <;> exact ⟨by krfl, by krfl⟩)

/-- The engine is solved in both modes. -/
theorem solved : ∃ dTs rho, ∀ d, (mftf parts d).Solved (Env.glue (vals dTs rho d)) := by
  obtain ⟨dTs, rho, hf⟩ := flight_converged
  exact ⟨dTs, rho, fun d => ⟨Cycle.converged_of (fits dTs rho d) (agrees dTs rho d) (elements_converged hf d)
    (others_ok dTs rho d), agrees dTs rho d⟩⟩

/-- The flow guards of C61 hold of the values. -/
theorem inFlight (dTs rho : ℝ) (d : Bool) : InFlight (Env.glue (vals dTs rho d)) where
  air := by
    have e : (Env.glue (vals dTs rho d)).num "balance.W" = 3 := by cases d <;> krfl
    rw [e]; norm_num
  bypass := by
    have e : (Env.glue (vals dTs rho d)).num "splitter.BPR" = 1 / 2 := by krfl
    rw [e]; norm_num
  fuel := by
    have e : (Env.glue (vals dTs rho d)).num "burner.Wfuel" = s31.W * (1 / 6) := by krfl
    rw [e]; norm_num [s31]
  abFuel := by
    have e : (Env.glue (vals dTs rho d)).num "afterburner.Wfuel" = s61.W / (1 + 1 / 18) * (1 / 6) := by krfl
    rw [e]; norm_num [s61]
  cool1 := by
    have e : (Env.glue (vals dTs rho d)).num "hpc.cool1:frac_W" = 1 / 4 := by krfl
    rw [e]; norm_num
  hpc := by
    have e : (Env.glue (vals dTs rho d)).num "hpc.cool1:frac_W" = 1 / 4 := by krfl
    rw [e]; norm_num
  cool3 := by
    have e : (Env.glue (vals dTs rho d)).num "bld3.cool3:frac_W" = 1 / 3 := by krfl
    rw [e]; norm_num
  bld3 := by
    have e : (Env.glue (vals dTs rho d)).num "bld3.cool3:frac_W" = 1 / 3 := by krfl
    rw [e]; norm_num

/-- The composition guards hold. -/
theorem dry (dTs rho : ℝ) (d : Bool) :
    1 + ∑ i : Fin 1, (Env.glue (vals dTs rho d)).vec "fc.fs.composition" i ≠ 0
    ∧ 1 + ∑ i : Fin 1, (Env.glue (vals dTs rho d)).vec "lpt.Fl_O:tot:composition" i ≠ 0
    ∧ 1 + ∑ i : Fin 1, (Env.glue (vals dTs rho d)).vec "mixer.Fl_O:tot:composition" i ≠ 0
    ∧ airMass ((Env.glue (vals dTs rho d)).num "lpt.Fl_O:stat:W")
        (fun k : Fin 1 => (Env.glue (vals dTs rho d)).vec "lpt.Fl_O:tot:composition" k)
      + airMass ((Env.glue (vals dTs rho d)).num "splitter.Fl_O2:stat:W")
        (fun k : Fin 1 => (Env.glue (vals dTs rho d)).vec "fc.fs.composition" k) ≠ 0 := by
  have e : (Env.glue (vals dTs rho d)).vec "fc.fs.composition" = 0 := by krfl
  have e1 : (Env.glue (vals dTs rho d)).vec "lpt.Fl_O:tot:composition" = fuelAir (1 / 12) := by krfl
  have e2 : (Env.glue (vals dTs rho d)).vec "mixer.Fl_O:tot:composition" = fuelAir (1 / 18) := by krfl
  have e3 : (Env.glue (vals dTs rho d)).num "lpt.Fl_O:stat:W" = s5.W := by krfl
  have e4 : (Env.glue (vals dTs rho d)).num "splitter.Fl_O2:stat:W" = s12.W := by krfl
  rw [e, e1, e2, e3, e4]
  norm_num [fuelAir, airMass, s5, s12]

/-- The statements of C61 on flow, fuel and energy apply to a solved engine in both modes. -/
theorem applies : ∃ E : Bool → Env, ∀ d, (mftf parts d).Solved (E d)
    ∧ (E d).num "mixed_nozz.Fl_O:stat:W" = (E d).num "balance.W" + (E d).num "burner.Wfuel" + (E d).num "afterburner.Wfuel"
    ∧ (E d).num "mixed_nozz.Fl_O:stat:W" * (E d).num "mixed_nozz.Fl_O:tot:h"
      = (E d).num "balance.W" * (E d).num "fc.Fl_O:tot:h" + (E d).num "burner.Wfuel" * (E d).num "burner.mix_fuel.mix:h"
      + (E d).num "afterburner.Wfuel" * (E d).num "afterburner.mix_fuel.mix:h" := by
  obtain ⟨dTs, rho, h⟩ := solved
  refine ⟨fun d => Env.glue (vals dTs rho d), fun d => ?_⟩
  obtain ⟨c0, c1, c2, c3⟩ := dry dTs rho d
  refine ⟨h d, (C61_tab (p := parts) rfl rfl rfl (h d) c0 c1 c2 c3 (inFlight dTs rho d)).2.2, ?_⟩
  have p1 : 0 < (Env.glue (vals dTs rho d)).num "LP_Nmech" := by
    have e : (Env.glue (vals dTs rho d)).num "LP_Nmech" = 1 := by krfl
    rw [e]; norm_num
  have p2 : 0 < (Env.glue (vals dTs rho d)).num "HP_Nmech" := by
    have e : (Env.glue (vals dTs rho d)).num "HP_Nmech" = 1 := by krfl
    rw [e]; norm_num
  have B : Books parts d (fun x => 1 + ∑ i : Fin 1, x i ≠ 0) (fun x => 1 + ∑ i : Fin 1, x i ≠ 0)
      (fun W x W' y => 1 + ∑ i : Fin 1, x i ≠ 0 ∧ 1 + ∑ i : Fin 1, y i ≠ 0
      ∧ airMass W (fun k : Fin 1 => x k) + airMass W' (fun k : Fin 1 => y k) ≠ 0) :=
    ⟨C57_combustor_tab _ _ d true 1 0, C57_combustor_tab _ _ d true 1 0, C57_mixer_tab _ _ true d 1⟩
  exact C61_jet (h d) B ⟨c0, c2, c1, c0, c3⟩ (inFlight dTs rho d) p1 p2
    (by cases d <;> krfl) (by cases d <;> krfl) (by krfl)
    (by simp only [List.forall_mem_cons]
        exact ⟨by krfl, by krfl, by krfl, by krfl, by krfl, by krfl, by krfl, by simp⟩)

end C61Example
end PyCycle.OM
