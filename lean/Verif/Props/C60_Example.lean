import Verif.Bench.Outflow
import Verif.Bench.Compress
import Verif.Bench.Expand
import Verif.Bench.Assembly
import Verif.Props.C60_Flow

/-! # C60: a solved turbofan, in every mode

The hypotheses of the theorems of C60 are met: these values solve the engine as a design point and off design in both
throttle modes, with fuel burnt, bleeds flowing, choked nozzles and shafts in balance. -/

namespace PyCycle.OM
namespace C60Example
open Bench HBTF
open C48Example (unitGas)
open C54Example (cmap tmap)

/-- The parts of the example. -/
noncomputable def parts : HbtfParts :=
  { air := unitGas, burnt := unitGas, fan := cmap, lpc := cmap, hpc := cmap, hpt := tmap, lpt := tmap, fuel := .tab 1 0
    hptBleed := .tab 1, lptBleed := .tab 1 }

noncomputable abbrev A : ℕ → ℝ := fuelAir 0

/-- Stations after inlet, fan, splitter, duct, low compressor, duct, high compressor and its bleeds. -/
noncomputable def s2 : Stn := ⟨1, 14, 10, 3, A⟩
noncomputable def s21 : Stn := ⟨5 / 3, 21, 15, 3, A⟩
noncomputable def s22 : Stn := ⟨5 / 3, 21, 15, 15 / 11, A⟩
noncomputable def s12 : Stn := ⟨5 / 3, 21, 15, 18 / 11, A⟩
noncomputable def s23 : Stn := ⟨5 / 3, 14, 10, 15 / 11, A⟩
noncomputable def s24 : Stn := ⟨3, 42, 30, 15 / 11, A⟩
noncomputable def s25 : Stn := ⟨3, 21, 15, 15 / 11, A⟩
noncomputable def s3 : Stn := ⟨4, 105, 70, 6 / 11, A⟩
noncomputable def s31 : Stn := ⟨4, 105, 70, 3 / 11, A⟩
/-- Stations after burner, high turbine, duct, low turbine, duct and in the throat of the core. -/
noncomputable def s4 : Stn := ⟨6, 84, 50, 9 / 22, fuelAir (1 / 2)⟩
noncomputable def s45 : Stn := ⟨4, 42, 30, 15 / 22, fuelAir (1 / 4)⟩
noncomputable def s46 : Stn := ⟨4, 21, 15, 15 / 22, fuelAir (1 / 4)⟩
noncomputable def s5 : Stn := ⟨2, 14, 10, 27 / 22, fuelAir (1 / 8)⟩
noncomputable def s51 : Stn := ⟨2, 11.2, 8, 27 / 22, fuelAir (1 / 8)⟩
noncomputable def t8 : Stn := ⟨2, 9.8, 9, 27 / 22, fuelAir (1 / 8)⟩
/-- Bypass: after its bleed, its duct and in its throat. -/
noncomputable def s13 : Stn := ⟨5 / 3, 21, 15, 27 / 22, A⟩
noncomputable def s15 : Stn := ⟨5 / 3, 10.5, 9, 27 / 22, A⟩
noncomputable def t18 : Stn := ⟨5 / 3, 8.4, 8, 27 / 22, A⟩

/-- The bleeds of the turbines. -/
noncomputable def coolH : Cool := ⟨s3.tot, s3.W * (1 / 4), 1 / 2, 9⟩
noncomputable def coolL : Cool := ⟨tapped s25 s3 (1 / 2) (16 / 21), s25.W * (1 / 5), 1 / 2, 4⟩

noncomputable def pamb : ℝ := 7.33889

/-- Torques. -/
noncomputable def tFan : ℝ := 5252.11 * compPower s2 s21
noncomputable def tLpc : ℝ := 5252.11 * compPower s23 s24
noncomputable def tLpt : ℝ := 5252.11 * turbPower s46 7.6 1 coolL
noncomputable def tHpc : ℝ := 5252.11 * hpcPower s25 s3 (1 / 5) (16 / 21)
noncomputable def tHpt : ℝ := 5252.11 * turbPower s4 4 (1 / 2) coolH

/-- The two shafts are in balance. -/
theorem balanced : 0 + tLpt = -(0 + tFan + tLpc) ∧ 0 + tHpt = -(0 + tHpc) ∧ tFan < 0 ∧ tLpc < 0 ∧ 0 ≤ tLpt ∧ tHpc < 0
    ∧ 0 ≤ tHpt := by
  refine ⟨?_, ?_, ?_, ?_, ?_, ?_, ?_⟩ <;>
    norm_num [tFan, tLpc, tLpt, tHpc, tHpt, compPower, turbPower, hpcPower, coolH, coolL, tapped, Stn.h, Stn.tot,
      C58Example.at_, s2, s21, s23, s24, s25, s3, s4, s46]

noncomputable def perfE : Env := perf2E s2.P s3.P (Bench.s0.W * Bench.s0.q / 32.174) (fgCV t8 pamb) (fgCV t18 pamb) (s31.W * (1 / 2))
/-- Net thrust. -/
noncomputable def fn : ℝ := 0 + fgCV t8 pamb + fgCV t18 pamb - Bench.s0.W * Bench.s0.q / 32.174

theorem fn_pos : 0 < fn := by
  norm_num [fn, fgCV, t8, t18, Bench.s0, pamb]

noncomputable def balanceE : HbtfMode → Env
  | .design => Env.ofTable [("W", 3), ("lhs:W", fn), ("rhs:W", fn), ("FAR", 1 / 2), ("lhs:FAR", s4.h), ("rhs:FAR", s4.h),
      ("lpt_PR", 1.5), ("mult:lpt_PR", -1), ("lhs:lpt_PR", (0 + tLpt) * Shaft.convert),
      ("rhs:lpt_PR", (0 + tFan + tLpc) * Shaft.convert),
      ("hpt_PR", 2), ("mult:hpt_PR", -1), ("lhs:hpt_PR", (0 + tHpt) * Shaft.convert),
      ("rhs:hpt_PR", (0 + tHpc) * Shaft.convert)] []
  | .t4 => Env.ofTable [("W", 3), ("lhs:W", t8.W / t8.q), ("rhs:W", t8.W / t8.q), ("FAR", 1 / 2), ("lhs:FAR", s4.h),
      ("rhs:FAR", s4.h), ("BPR", 6 / 5), ("lhs:BPR", t18.W / t18.q), ("rhs:BPR", t18.W / t18.q),
      ("lp_Nmech", 1), ("mult:lp_Nmech", -1), ("lhs:lp_Nmech", (0 + tLpt) * Shaft.convert),
      ("rhs:lp_Nmech", (0 + tFan + tLpc) * Shaft.convert),
      ("hp_Nmech", 1), ("mult:hp_Nmech", -1), ("lhs:hp_Nmech", (0 + tHpt) * Shaft.convert),
      ("rhs:hp_Nmech", (0 + tHpc) * Shaft.convert)] []
  | .percentThrust => Env.ofTable [("W", 3), ("lhs:W", t8.W / t8.q), ("rhs:W", t8.W / t8.q), ("FAR", 1 / 2),
      ("mult:FAR", 1 / 2), ("lhs:FAR", 2 * fn), ("rhs:FAR", fn), ("BPR", 6 / 5), ("lhs:BPR", t18.W / t18.q),
      ("rhs:BPR", t18.W / t18.q),
      ("lp_Nmech", 1), ("mult:lp_Nmech", -1), ("lhs:lp_Nmech", (0 + tLpt) * Shaft.convert),
      ("rhs:lp_Nmech", (0 + tFan + tLpc) * Shaft.convert),
      ("hp_Nmech", 1), ("mult:hp_Nmech", -1), ("lhs:hp_Nmech", (0 + tHpt) * Shaft.convert),
      ("rhs:hp_Nmech", (0 + tHpc) * Shaft.convert)] []

/-- All values, the temperature deviation and density of the day being given. -/
noncomputable def vals (dTs rho : ℝ) (m : HbtfMode) : String → Env
  | "fc" => flightE dTs rho
  | "inlet" => inletE Bench.s0 s2 1
  | "fan" => compE s2 s21 (17 / 6) 1.5 (1 / 2)
  | "splitter" => splitterE s21 s22 s12 (6 / 5)
  | "duct4" => ductE s22 s23 (1 / 3)
  | "lpc" => compE s23 s24 (53 / 6) 3 (1 / 2)
  | "duct6" => ductE s24 s25 (1 / 2)
  | "hpc" => hpcE s25 s3 18.75 5 (1 / 2) (1 / 5) (1 / 2) (16 / 21)
  | "bld3" => bld3E s3 s31 (1 / 4)
  | "burner" => burnerE s31 s4 (1 / 2) 114 0.2
  | "hpt" => turbE true s4 s45 4 2 (1 / 2) coolH
  | "duct11" => ductE s45 s46 (1 / 2)
  | "lpt" => turbE false s46 s5 7.6 1.5 1 coolL
  | "duct13" => ductE s5 s51 0.2
  | "core_nozz" => nozzE s51 t8 (1 / 8) pamb
  | "byp_bld" => bypBldE s12 s13 (1 / 4)
  | "duct15" => ductE s13 s15 (1 / 2)
  | "byp_nozz" => nozzE s15 t18 0.2 pamb
  | "lp_shaft" => shaft3E tFan tLpc tLpt
  | "hp_shaft" => shaft2E tHpc tHpt
  | "perf" => perfE
  | "balance" => balanceE m
  | _ => Env.ofTable [("LP_Nmech", 1), ("HP_Nmech", 1), ("Fn_DES", fn), ("T4_MAX", s4.h), ("PC", 1 / 2), ("Fn_max", 2 * fn)] []

/-- A station passes a flow. -/
macro "passes " s:ident : tactic => `(tactic| exact ⟨by norm_num [$s:ident], by norm_num [$s:ident]⟩)

theorem ok2 : s2.Ok := by passes s2
theorem ok21 : s21.Ok := by passes s21
theorem ok22 : s22.Ok := by passes s22
theorem ok12 : s12.Ok := by passes s12
theorem ok23 : s23.Ok := by passes s23
theorem ok24 : s24.Ok := by passes s24
theorem ok25 : s25.Ok := by passes s25
theorem ok3 : s3.Ok := by passes s3
theorem ok31 : s31.Ok := by passes s31
theorem ok4 : s4.Ok := by passes s4
theorem ok45 : s45.Ok := by passes s45
theorem ok46 : s46.Ok := by passes s46
theorem ok5 : s5.Ok := by passes s5
theorem ok51 : s51.Ok := by passes s51
theorem ok8 : t8.Ok := by passes t8
theorem ok13 : s13.Ok := by passes s13
theorem ok15 : s15.Ok := by passes s15
theorem ok18 : t18.Ok := by passes t18

/-- Every element is solved. -/
theorem elements_converged {dTs rho : ℝ} (hf : (flightConditions unitGas none).Converged (flightE dTs rho)) (m : HbtfMode) :
    ∀ e ∈ (hbtf parts m).members, e.group.Converged (vals dTs rho m e.name) := by
  simp only [hbtf, elements, List.forall_mem_cons]
  refine ⟨hf, ?_, ?_, ?_, ?_, ?_, ?_, ?_, ?_, ?_, ?_, ?_, ?_, ?_, ?_, ?_, ?_, ?_, by simp⟩
  · exact inlet_converged _ ok2 rfl rfl fuelAir_zero (by norm_num [s2, Bench.s0])
  · exact comp_converged _ ok21 (by norm_num) rfl rfl (by norm_num [s2, s21]) (by norm_num [s2, s21, Stn.h])
  · exact splitter_converged _ ok22 ok12 ⟨rfl, rfl, rfl⟩ ⟨rfl, rfl, rfl⟩ (by norm_num [s21, s22]) (by norm_num [s21, s12])
  · exact duct_converged _ ok23 rfl rfl rfl (by norm_num [s22, s23])
  · exact comp_converged _ ok24 (by norm_num) rfl rfl (by norm_num [s23, s24]) (by norm_num [s23, s24, Stn.h])
  · exact duct_converged _ ok25 rfl rfl rfl (by norm_num [s24, s25])
  · exact hpc_converged _ ok3 (by norm_num) (by norm_num [s25, s3]) rfl (by norm_num [s25, s3]) (by norm_num [s25, s3, Stn.h])
  · exact bld3_converged _ ok31 rfl rfl rfl (by norm_num [s3, s31])
  · exact burner_converged _ ok4 ok31.W rfl rfl (by norm_num [s31, s4]) (by norm_num [s31, s4])
      (by norm_num [s31, s4, Stn.h])
  · exact turb_converged (k := true) (f := 1 / 2) (g := 1 / 4) _ ok45 rfl rfl rfl (by norm_num [s4, s45, coolH, s3])
      (by norm_num [s4, s45]) (by norm_num [s4, s45, coolH, s3, b4, Stn.h, Stn.tot, C58Example.at_]) (by norm_num)
      (by norm_num [s4, coolH, s3])
  · exact duct_converged _ ok46 rfl rfl rfl (by norm_num [s45, s46])
  · exact turb_converged (k := false) (f := 1 / 4) (g := 1 / 8) _ ok5 rfl rfl rfl (by norm_num [s46, s5, coolL, s25])
      (by norm_num [s46, s5]) (by norm_num [s46, s5, coolL, s3, s25, tapped, b4, Stn.h, Stn.tot, C58Example.at_]) (by norm_num)
      (by norm_num [s46, coolL, s25])
  · exact duct_converged _ ok51 rfl rfl rfl (by norm_num [s5, s51])
  · exact nozz_converged ok8 rfl rfl rfl (by norm_num [s51, t8]) (by norm_num [pamb]) (by norm_num [t8, pamb])
      (by norm_num [t8, pamb])
  · exact bypBld_converged _ ok13 rfl rfl rfl (by norm_num [s12, s13])
  · exact duct_converged _ ok15 rfl rfl rfl (by norm_num [s13, s15])
  · exact nozz_converged ok18 rfl rfl rfl (by norm_num [s15, t18]) (by norm_num [pamb]) (by norm_num [t18, pamb])
      (by norm_num [t18, pamb])

/-- Every component is solved. -/
theorem others_ok (dTs rho : ℝ) (m : HbtfMode) :
    ∀ s ∈ (hbtf parts m).others, s.eqn (vals dTs rho m s.name) (vals dTs rho m s.name) := by
  obtain ⟨b1, b2, b3, b4, b5, b6, b7⟩ := balanced
  simp only [hbtf, List.forall_mem_cons]
  refine ⟨shaft3_ok b3 b4 b5, shaft2_ok b6 b7, perf2_ok _ _ _ _ _ _, ?_, by simp⟩
  cases m <;> (
    intro b hb
    fin_cases hb)
  · kshow (1 : ℝ) * fn = fn
    ring
  · kshow (1 : ℝ) * s4.h = s4.h
    ring
  · kshow -1 * ((0 + tLpt) * Shaft.convert) = (0 + tFan + tLpc) * Shaft.convert
    rw [b1]; ring
  · kshow -1 * ((0 + tHpt) * Shaft.convert) = (0 + tHpc) * Shaft.convert
    rw [b2]; ring
  · kshow (1 : ℝ) * s4.h = s4.h
    ring
  · kshow (1 : ℝ) * (t8.W / t8.q) = t8.W / t8.q
    ring
  · kshow (1 : ℝ) * (t18.W / t18.q) = t18.W / t18.q
    ring
  · kshow -1 * ((0 + tLpt) * Shaft.convert) = (0 + tFan + tLpc) * Shaft.convert
    rw [b1]; ring
  · kshow -1 * ((0 + tHpt) * Shaft.convert) = (0 + tHpc) * Shaft.convert
    rw [b2]; ring
  · kshow (1 / 2 : ℝ) * (2 * fn) = fn
    ring
  · kshow (1 : ℝ) * (t8.W / t8.q) = t8.W / t8.q
    ring
  · kshow (1 : ℝ) * (t18.W / t18.q) = t18.W / t18.q
    ring
  · kshow -1 * ((0 + tLpt) * Shaft.convert) = (0 + tFan + tLpc) * Shaft.convert
    rw [b1]; ring
  · kshow -1 * ((0 + tHpt) * Shaft.convert) = (0 + tHpc) * Shaft.convert
    rw [b2]; ring

theorem fits (dTs rho : ℝ) (m : HbtfMode) : ∀ s ∈ (hbtf parts m).group.subs, s.Fits (vals dTs rho m) := by
  have one : ∀ {s : Decl} (t : String), Plain t → Plain s.name → s.promO = [] → s.promI = [.as "Nmech" t] →
      (vals dTs rho m "").num t = (vals dTs rho m s.name).num "Nmech" →
      (vals dTs rho m "").vec t = (vals dTs rho m s.name).vec "Nmech" →
      s.Fits (vals dTs rho m) := fun t ht h h1 h2 h3 h4 => Decl.Fits.as [("Nmech", t)] h h1 h2 (by
        simp only [List.forall_mem_cons]; exact ⟨⟨ht, h3, h4⟩, by simp⟩)
  simp only [Cycle.group, hbtf, elements, List.map_cons, List.map_nil, List.cons_append, List.nil_append,
    List.forall_mem_cons]
  refine ⟨?_, ?_, ?_, ?_, ?_, ?_, ?_, ?_, ?_, ?_, ?_, ?_, ?_, ?_, ?_, ?_, ?_, ?_, ?_, ?_, ?_, ?_, by simp⟩
  · exact Decl.Fits.none (by decide : Plain "fc") rfl rfl
  · exact Decl.Fits.none (by decide : Plain "inlet") rfl rfl
  · exact one "LP_Nmech" (by decide) (by decide : Plain "fan") rfl rfl (by krfl) (by krfl)
  · exact Decl.Fits.none (by decide : Plain "splitter") rfl rfl
  · exact Decl.Fits.none (by decide : Plain "duct4") rfl rfl
  · exact one "LP_Nmech" (by decide) (by decide : Plain "lpc") rfl rfl (by krfl) (by krfl)
  · exact Decl.Fits.none (by decide : Plain "duct6") rfl rfl
  · exact one "HP_Nmech" (by decide) (by decide : Plain "hpc") rfl rfl (by krfl) (by krfl)
  · exact Decl.Fits.none (by decide : Plain "bld3") rfl rfl
  · exact Decl.Fits.none (by decide : Plain "burner") rfl rfl
  · exact one "HP_Nmech" (by decide) (by decide : Plain "hpt") rfl rfl (by krfl) (by krfl)
  · exact Decl.Fits.none (by decide : Plain "duct11") rfl rfl
  · exact one "LP_Nmech" (by decide) (by decide : Plain "lpt") rfl rfl (by krfl) (by krfl)
  · exact Decl.Fits.none (by decide : Plain "duct13") rfl rfl
  · exact Decl.Fits.none (by decide : Plain "core_nozz") rfl rfl
  · exact Decl.Fits.none (by decide : Plain "byp_bld") rfl rfl
  · exact Decl.Fits.none (by decide : Plain "duct15") rfl rfl
  · exact Decl.Fits.none (by decide : Plain "byp_nozz") rfl rfl
  · exact one "LP_Nmech" (by decide) (by decide : Plain "lp_shaft") rfl rfl (by krfl) (by krfl)
  · exact one "HP_Nmech" (by decide) (by decide : Plain "hp_shaft") rfl rfl (by krfl) (by krfl)
  · exact Decl.Fits.none (by decide : Plain "perf") rfl rfl
  · cases m
    · exact Decl.Fits.as [("rhs:W", "Fn_DES"), ("rhs:FAR", "T4_MAX")] (by decide : Plain "balance") rfl rfl (by
        simp only [List.forall_mem_cons]
        exact ⟨⟨by decide, by krfl, by krfl⟩, ⟨by decide, by krfl, by krfl⟩, by simp⟩)
    · exact Decl.Fits.as [("rhs:FAR", "T4_MAX")] (by decide : Plain "balance") rfl rfl (by
        simp only [List.forall_mem_cons]
        exact ⟨⟨by decide, by krfl, by krfl⟩, by simp⟩)
    · exact Decl.Fits.as [("mult:FAR", "PC"), ("lhs:FAR", "Fn_max")] (by decide : Plain "balance") rfl rfl (by
        simp only [List.forall_mem_cons]
        exact ⟨⟨by decide, by krfl, by krfl⟩, ⟨by decide, by krfl, by krfl⟩, by simp⟩)

/-- The flow links agree. -/
theorem links_agree (dTs rho : ℝ) (m : HbtfMode) : ∀ l ∈ flows, ∀ x ∈ l.conns,
    (Env.glue (vals dTs rho m)).num x.1 = (Env.glue (vals dTs rho m)).num x.2
    ∧ (Env.glue (vals dTs rho m)).vec x.1 = (Env.glue (vals dTs rho m)).vec x.2 := by
  intro l hl
  simp only [flows, List.mem_cons, List.not_mem_nil, or_false] at hl
  rcases hl with rfl | rfl | rfl | rfl | rfl | rfl | rfl | rfl | rfl | rfl | rfl | rfl | rfl | rfl | rfl | rfl | rfl | rfl
    | rfl | rfl | rfl
  all_goals
    intro x hx
    refine Link.agrees (by decide) (by decide) ⟨by krfl, by krfl⟩ ?_ x hx
    intro v hv hw
    fin_cases hv <;> exact ⟨by krfl, by krfl⟩

theorem agrees (dTs rho : ℝ) (m : HbtfMode) : (hbtf parts m).group.Agrees (Env.glue (vals dTs rho m)) := by
  intro x hx
  rcases List.mem_append.mp hx with hx | hx
  · obtain ⟨l, hl, hx⟩ := List.mem_flatMap.mp hx
    exact links_agree dTs rho m l hl x hx
  · rcases List.mem_append.mp hx with hx | hx
    · simp only [plainConns] at hx
      fin_cases hx <;> exact ⟨by krfl, by krfl⟩
    · cases m <;> (
        simp only [balConns, reduceCtorEq, if_false, if_true] at hx
        fin_cases hx <;> exact ⟨by krfl, by krfl⟩)

/-- The engine is solved in every mode. -/
theorem solved : ∃ dTs rho, ∀ m, (hbtf parts m).Solved (Env.glue (vals dTs rho m)) := by
  obtain ⟨dTs, rho, hf⟩ := flight_converged
  exact ⟨dTs, rho, fun m => ⟨Cycle.converged_of (fits dTs rho m) (agrees dTs rho m) (elements_converged hf m)
    (others_ok dTs rho m), agrees dTs rho m⟩⟩

/-- The flow guards of C60 hold of the values. -/
theorem inFlight (dTs rho : ℝ) (m : HbtfMode) : InFlight (Env.glue (vals dTs rho m)) where
  air := by
    have e : (Env.glue (vals dTs rho m)).num "balance.W" = 3 := by cases m <;> krfl
    rw [e]; norm_num
  bypass := by
    have e : (Env.glue (vals dTs rho m)).num "splitter.BPR" = 6 / 5 := by krfl
    rw [e]; norm_num
  fuel := by
    have e : (Env.glue (vals dTs rho m)).num "burner.Wfuel" = s31.W * (1 / 2) := by krfl
    rw [e]; norm_num [s31]
  cool1 := by
    have e : (Env.glue (vals dTs rho m)).num "hpc.cool1:frac_W" = 1 / 5 := by krfl
    rw [e]; norm_num
  cool2 := by
    have e : (Env.glue (vals dTs rho m)).num "hpc.cool2:frac_W" = 1 / 5 := by krfl
    rw [e]; norm_num
  cust := by
    have e : (Env.glue (vals dTs rho m)).num "hpc.cust:frac_W" = 1 / 5 := by krfl
    rw [e]; norm_num
  hpc := by
    have e1 : (Env.glue (vals dTs rho m)).num "hpc.cool1:frac_W" = 1 / 5 := by krfl
    have e2 : (Env.glue (vals dTs rho m)).num "hpc.cool2:frac_W" = 1 / 5 := by krfl
    have e3 : (Env.glue (vals dTs rho m)).num "hpc.cust:frac_W" = 1 / 5 := by krfl
    rw [e1, e2, e3]; norm_num
  cool3 := by
    have e : (Env.glue (vals dTs rho m)).num "bld3.cool3:frac_W" = 1 / 4 := by krfl
    rw [e]; norm_num
  cool4 := by
    have e : (Env.glue (vals dTs rho m)).num "bld3.cool4:frac_W" = 1 / 4 := by krfl
    rw [e]; norm_num
  bld3 := by
    have e1 : (Env.glue (vals dTs rho m)).num "bld3.cool3:frac_W" = 1 / 4 := by krfl
    have e2 : (Env.glue (vals dTs rho m)).num "bld3.cool4:frac_W" = 1 / 4 := by krfl
    rw [e1, e2]; norm_num
  byp := by
    have e : (Env.glue (vals dTs rho m)).num "byp_bld.bypBld:frac_W" = 1 / 4 := by krfl
    rw [e]; norm_num

/-- The composition guard of the tabular burner holds. -/
theorem dry (dTs rho : ℝ) (m : HbtfMode) :
    1 + ∑ i : Fin 1, (Env.glue (vals dTs rho m)).vec "fc.fs.composition" i ≠ 0 := by
  have e : (Env.glue (vals dTs rho m)).vec "fc.fs.composition" = 0 := by krfl
  rw [e]; norm_num

/-- The statements of C60 on flow, fuel and energy apply to a solved engine in every mode. -/
theorem applies : ∃ E : HbtfMode → Env, ∀ m, (hbtf parts m).Solved (E m)
    ∧ (E m).num "core_nozz.Fl_O:stat:W" + (E m).num "byp_nozz.Fl_O:stat:W" + (E m).num "hpc.cust:stat:W"
        + (E m).num "byp_bld.bypBld:stat:W" = (E m).num "balance.W" + (E m).num "burner.Wfuel"
    ∧ (E m).num "core_nozz.Fl_O:stat:W" * (E m).num "core_nozz.Fl_O:tot:h"
        + (E m).num "byp_nozz.Fl_O:stat:W" * (E m).num "byp_nozz.Fl_O:tot:h"
        + (E m).num "hpc.cust:stat:W" * (E m).num "hpc.cust:tot:h"
        + (E m).num "byp_bld.bypBld:stat:W" * (E m).num "byp_bld.bypBld:tot:h"
      = (E m).num "balance.W" * (E m).num "fc.Fl_O:tot:h" + (E m).num "burner.Wfuel" * (E m).num "burner.mix_fuel.mix:h" := by
  obtain ⟨dTs, rho, h⟩ := solved
  refine ⟨fun m => Env.glue (vals dTs rho m), fun m => ⟨h m, (C60_tab (p := parts) rfl (h m) (dry dTs rho m) (inFlight dTs rho m)).2, ?_⟩⟩
  have p1 : 0 < (Env.glue (vals dTs rho m)).num "LP_Nmech" := by
    have e : (Env.glue (vals dTs rho m)).num "LP_Nmech" = 1 := by krfl
    rw [e]; norm_num
  have p2 : 0 < (Env.glue (vals dTs rho m)).num "HP_Nmech" := by
    have e : (Env.glue (vals dTs rho m)).num "HP_Nmech" = 1 := by krfl
    rw [e]; norm_num
  exact C60_jet (h m) (C57_combustor_tab unitGas unitGas m.isDesign true 1 0) (dry dTs rho m) (inFlight dTs rho m) p1 p2
    (by cases m <;> krfl) (by cases m <;> krfl) (by krfl) (by krfl) (by krfl) (by krfl) (by krfl)
    (by simp only [List.forall_mem_cons]; exact ⟨by krfl, by krfl, by krfl, by krfl, by krfl, by simp⟩)

end C60Example
end PyCycle.OM
