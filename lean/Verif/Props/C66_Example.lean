import Verif.Bench.Named
import Verif.Props.C66_Flow

/-! # C66: a solved geared turbofan, off design

The hypotheses of the theorems of C66 are met: these values solve the engine off design, with fuel burnt, every bleed
flowing, choked nozzles, a gearbox that loses power and all three shafts in balance. -/

namespace PyCycle.OM
namespace C66Example
open Bench N3
open C48Example (unitGas)
open C54Example (cmap tmap)

/-- The parts of the example. -/
noncomputable def parts : N3Parts :=
  { air := unitGas, burnt := unitGas, cooled := unitGas, fan := cmap, lpc := cmap, hpc := cmap, hpt := tmap, lpt := tmap
    fuel := .tab 1 0, hptBleed := .tab 1, lptBleed := .tab 1, coolant := .tab 1, hpUnit := 0.7 }

noncomputable abbrev A : ℕ → ℝ := fuelAir 0

/-- Stations after inlet, fan, splitter, duct, low compressor, stability bleed, duct, high compressor and its bleeds. -/
noncomputable def s2 : Stn := ⟨1, 14, 10, 3, A⟩
noncomputable def s21 : Stn := ⟨5 / 3, 21, 15, 3, A⟩
noncomputable def s22 : Stn := ⟨5 / 3, 21, 15, 20 / 11, A⟩
noncomputable def s12 : Stn := ⟨5 / 3, 21, 15, 13 / 11, A⟩
noncomputable def s23 : Stn := ⟨5 / 3, 14, 10, 20 / 11, A⟩
noncomputable def s24 : Stn := ⟨3, 42, 30, 20 / 11, A⟩
noncomputable def s245 : Stn := ⟨3, 42, 30, 15 / 11, A⟩
noncomputable def s25 : Stn := ⟨3, 21, 15, 15 / 11, A⟩
noncomputable def s3 : Stn := ⟨4, 105, 70, 6 / 11, A⟩
noncomputable def s31 : Stn := ⟨4, 105, 70, 3 / 11, A⟩
/-- Stations after burner, high turbine, duct, low turbine, duct and in the throat of the core. -/
noncomputable def s4 : Stn := ⟨6, 84, 50, 9 / 22, fuelAir (1 / 2)⟩
noncomputable def s45 : Stn := ⟨4, 42, 30, 15 / 22, fuelAir (1 / 4)⟩
noncomputable def s46 : Stn := ⟨4, 21, 15, 15 / 22, fuelAir (1 / 4)⟩
noncomputable def s5 : Stn := ⟨1.6, 14, 10, 27 / 22, fuelAir (1 / 8)⟩
noncomputable def s51 : Stn := ⟨1.6, 11.2, 8, 27 / 22, fuelAir (1 / 8)⟩
noncomputable def t8 : Stn := ⟨1.6, 9.8, 9, 27 / 22, fuelAir (1 / 8)⟩
/-- Bypass: after its bleed, its duct and in its throat. -/
noncomputable def s13 : Stn := ⟨5 / 3, 21, 15, 39 / 44, A⟩
noncomputable def s15 : Stn := ⟨5 / 3, 10.5, 9, 39 / 44, A⟩
noncomputable def t18 : Stn := ⟨5 / 3, 8.4, 8, 39 / 44, A⟩

/-- The bleeds of the turbines. -/
noncomputable def coolH : Cool := ⟨s3.tot, s3.W * (1 / 4), 1 / 2, 9⟩
noncomputable def coolL : Cool := ⟨tapped s25 s3 (1 / 2) (16 / 21), s25.W * (1 / 5), 1 / 2, 4⟩

noncomputable def pamb : ℝ := 7.33889

/-- Efficiency of the gearbox. -/
noncomputable def eg : ℝ := 5287 / 6600

/-- Torques. -/
noncomputable def tFan : ℝ := 5252.11 * compPower s2 s21
noncomputable def tLpc : ℝ := 5252.11 * compPower s23 s24
noncomputable def tLpt : ℝ := 5252.11 * turbPower s46 3.712 1 coolL
noncomputable def tHpc : ℝ := 5252.11 * hpcPower s25 s3 (1 / 5) (16 / 21)
noncomputable def tHpt : ℝ := 5252.11 * turbPower s4 4 (1 / 2) coolH

/-- The three shafts are in balance. -/
theorem balanced : (0 + -tFan) + (0 + tFan) = 0 ∧ (0 + tLpt) + (0 + eg * tFan + tLpc) = 0 ∧ (0 + tHpt) + (0 + tHpc) = 0
    ∧ tFan < 0 ∧ eg * tFan < 0 ∧ tLpc < 0 ∧ 0 ≤ tLpt ∧ tHpc < 0 ∧ 0 ≤ tHpt ∧ 0 ≤ -tFan := by
  refine ⟨?_, ?_, ?_, ?_, ?_, ?_, ?_, ?_, ?_, ?_⟩ <;>
    norm_num [tFan, tLpc, tLpt, tHpc, tHpt, compPower, turbPower, hpcPower, coolH, coolL, tapped, Stn.h, Stn.tot,
      C58Example.at_, s2, s21, s23, s24, s25, s3, s4, s46, eg]

noncomputable def perfE : Env := perf2E s2.P s3.P (Bench.s0.W * Bench.s0.q / 32.174) (fgCV t8 pamb) (fgCV t18 pamb) (s31.W * (1 / 2))
/-- Net thrust. -/
noncomputable def fn : ℝ := 0 + fgCV t8 pamb + fgCV t18 pamb - Bench.s0.W * Bench.s0.q / 32.174

noncomputable def balanceE : Env :=
  Env.ofTable [("FAR", 1 / 2), ("lhs:FAR", fn), ("rhs:FAR", fn), ("W", 3), ("lhs:W", t8.W / t8.q), ("rhs:W", t8.W / t8.q),
      ("BPR", 13 / 20), ("lhs:BPR", 2), ("rhs:BPR", 2),
      ("fan_Nmech", 1), ("lhs:fan_Nmech", ((0 + -tFan) + (0 + tFan)) * Shaft.convert), ("rhs:fan_Nmech", 0),
      ("lp_Nmech", 1), ("lhs:lp_Nmech", ((0 + tLpt) + (0 + eg * tFan + tLpc)) * Shaft.convert), ("rhs:lp_Nmech", 0),
      ("hp_Nmech", 1), ("lhs:hp_Nmech", ((0 + tHpt) + (0 + tHpc)) * Shaft.convert), ("rhs:hp_Nmech", 0)] []

/-- All values, the temperature deviation and density of the day being given. -/
noncomputable def vals (dTs rho : ℝ) : String → Env
  | "fc" => flightE dTs rho
  | "inlet" => inletE Bench.s0 s2 1
  | "fan" => compE s2 s21 (17 / 6) 1.5 (1 / 2)
  | "splitter" => splitterE s21 s22 s12 (13 / 20)
  | "duct2" => ductME s22 s23 (1 / 3)
  | "lpc" => compE s23 s24 (53 / 6) 3 (1 / 2)
  | "bld25" => tapN ["sbv"] s24 s245 (1 / 4)
  | "duct25" => ductME s245 s25 (1 / 2)
  | "hpc" => hpcN ["bld_inlet", "bld_exit", "cust"] s25 s3 18.75 5 (1 / 2) (1 / 5) (1 / 2) (16 / 21)
  | "bld3" => tapN ["bld_inlet", "bld_exit"] s3 s31 (1 / 4)
  | "burner" => burnerE s31 s4 (1 / 2) 114 0.2
  | "hpt" => turbN ["bld_inlet", "bld_exit"] s4 s45 4 2 (1 / 2) coolH
  | "duct45" => ductME s45 s46 (1 / 2)
  | "lpt" => turbN ["bld_inlet", "bld_exit"] s46 s5 3.712 1.5 1 coolL
  | "duct5" => ductME s5 s51 0.2
  | "core_nozz" => nozzE s51 t8 (1 / 8) pamb
  | "byp_bld" => bypBldE s12 s13 (1 / 4)
  | "duct17" => ductME s13 s15 (1 / 2)
  | "byp_nozz" => nozzE s15 t18 0.2 pamb
  | "fan_shaft" => shaft2E tFan (-tFan)
  | "gearbox" => gearE tFan eg
  | "lp_shaft" => shaft3E (eg * tFan) tLpc tLpt
  | "hp_shaft" => shaft2E tHpc tHpt
  | "perf" => perfE
  | "ext_ratio" => extE (farMov t8).V (farMov t18).V
  | "balance" => balanceE
  | _ => Env.ofTable [("Fan_Nmech", 1), ("LP_Nmech", 1), ("HP_Nmech", 1)] []

/-- A station passes a flow. -/
local macro "passes " s:ident : tactic => `(tactic| exact ⟨by norm_num [$s:ident], by norm_num [$s:ident]⟩)

theorem ok2 : s2.Ok := by passes s2
theorem ok21 : s21.Ok := by passes s21
theorem ok22 : s22.Ok := by passes s22
theorem ok12 : s12.Ok := by passes s12
theorem ok23 : s23.Ok := by passes s23
theorem ok24 : s24.Ok := by passes s24
theorem ok245 : s245.Ok := by passes s245
theorem ok25 : s25.Ok := by passes s25
theorem ok3 : s3.Ok := by passes s3
theorem ok31 : s31.Ok := by passes s31
theorem ok4 : s4.Ok := by passes s4
theorem ok45 : s45.Ok := by passes s45
theorem ok46 : s46.Ok := by passes s46
theorem ok5 : s5.Ok := by passes s5
theorem ok51 : s51.Ok := by passes s51
theorem ok13 : s13.Ok := by passes s13
theorem ok15 : s15.Ok := by passes s15
theorem ok8 : t8.Ok := by passes t8
theorem ok18 : t18.Ok := by passes t18

/-- Every element is solved. -/
theorem elements_converged {dTs rho : ℝ} (hf : (flightConditions unitGas none).Converged (flightE dTs rho)) :
    ∀ e ∈ (n3 parts .off).members, e.group.Converged (vals dTs rho e.name) := by
  simp only [n3, elements, N3Mode.isDesign, List.forall_mem_cons]
  refine ⟨hf, ?_, ?_, ?_, ?_, ?_, ?_, ?_, ?_, ?_, ?_, ?_, ?_, ?_, ?_, ?_, ?_, ?_, ?_, by simp⟩
  · exact inlet_converged _ ok2 rfl rfl fuelAir_zero (by norm_num [s2, Bench.s0])
  · exact comp_converged _ ok21 (by norm_num) rfl rfl (by norm_num [s2, s21]) (by norm_num [s2, s21, Stn.h])
  · exact splitter_converged _ ok22 ok12 ⟨rfl, rfl, rfl⟩ ⟨rfl, rfl, rfl⟩ (by norm_num [s21, s22]) (by norm_num [s21, s12])
  · exact ductM_converged _ ok23 rfl rfl rfl (by norm_num [s22, s23])
  · exact comp_converged _ ok24 (by norm_num) rfl rfl (by norm_num [s23, s24]) (by norm_num [s23, s24, Stn.h])
  · exact tapSbv_converged _ ok245 rfl rfl rfl (by norm_num [s24, s245])
  · exact ductM_converged _ ok25 rfl rfl rfl (by norm_num [s245, s25])
  · exact hpcInEx_converged ok3 (by norm_num) (by norm_num [s25, s3]) rfl (by norm_num [s25, s3]) (by norm_num [s25, s3, Stn.h])
  · exact tapInEx_converged _ ok31 rfl rfl rfl (by norm_num [s3, s31])
  · exact burner_converged _ ok4 ok31.W rfl rfl (by norm_num [s31, s4]) (by norm_num [s31, s4])
      (by norm_num [s31, s4, Stn.h])
  · exact turbInEx_converged (f := 1 / 2) (g := 1 / 4) ok45 rfl rfl rfl (by norm_num [s4, s45, coolH, s3])
      (by norm_num [s4, s45]) (by norm_num [s4, s45, coolH, s3, b4, Stn.h, Stn.tot, C58Example.at_]) (by norm_num)
      (by norm_num [s4, coolH, s3])
  · exact ductM_converged _ ok46 rfl rfl rfl (by norm_num [s45, s46])
  · exact turbInEx_converged (f := 1 / 4) (g := 1 / 8) ok5 rfl rfl rfl (by norm_num [s46, s5, coolL, s25])
      (by norm_num [s46, s5]) (by norm_num [s46, s5, coolL, s3, s25, tapped, b4, Stn.h, Stn.tot, C58Example.at_]) (by norm_num)
      (by norm_num [s46, coolL, s25])
  · exact ductM_converged _ ok51 rfl rfl rfl (by norm_num [s5, s51])
  · exact nozz_converged ok8 rfl rfl rfl (by norm_num [s51, t8]) (by norm_num [pamb]) (by norm_num [t8, pamb])
      (by norm_num [t8, pamb])
  · exact bypBld_converged _ ok13 rfl rfl rfl (by norm_num [s12, s13])
  · exact ductM_converged _ ok15 rfl rfl rfl (by norm_num [s13, s15])
  · exact nozz_converged ok18 rfl rfl rfl (by norm_num [s15, t18]) (by norm_num [pamb]) (by norm_num [t18, pamb])
      (by norm_num [t18, pamb])

/-- Every component is solved. -/
theorem others_ok (dTs rho : ℝ) :
    ∀ s ∈ (n3 parts .off).others, s.eqn (vals dTs rho s.name) (vals dTs rho s.name) := by
  obtain ⟨b1, b2, b3, b4, b5, b6, b7, b8, b9, b10⟩ := balanced
  simp only [n3, modeSubs, List.append_nil, List.forall_mem_cons]
  refine ⟨shaft2_ok b4 b10, gear_ok _ _ _ _, shaft3_ok b5 b6 b7, shaft2_ok b8 b9, perf2_ok _ _ _ _ _ _, ext_ok _ _, ?_, by simp⟩
  intro b hb
  fin_cases hb
  · kshow (1 : ℝ) * fn = fn
    ring
  · kshow (1 : ℝ) * (t8.W / t8.q) = t8.W / t8.q
    ring
  · kshow (1 : ℝ) * 2 = 2
    ring
  · kshow (1 : ℝ) * (((0 + -tFan) + (0 + tFan)) * Shaft.convert) = 0
    rw [b1]; ring
  · kshow (1 : ℝ) * (((0 + tLpt) + (0 + eg * tFan + tLpc)) * Shaft.convert) = 0
    rw [b2]; ring
  · kshow (1 : ℝ) * (((0 + tHpt) + (0 + tHpc)) * Shaft.convert) = 0
    rw [b3]; ring

theorem fits (dTs rho : ℝ) : ∀ s ∈ (n3 parts .off).group.subs, s.Fits (vals dTs rho) := by
  have one : ∀ {s : Decl} (t : String), Plain t → Plain s.name → s.promO = [] → s.promI = [.as "Nmech" t] →
      (vals dTs rho "").num t = (vals dTs rho s.name).num "Nmech" →
      (vals dTs rho "").vec t = (vals dTs rho s.name).vec "Nmech" →
      s.Fits (vals dTs rho) := fun t ht h h1 h2 h3 h4 => Decl.Fits.as [("Nmech", t)] h h1 h2 (by
        simp only [List.forall_mem_cons]; exact ⟨⟨ht, h3, h4⟩, by simp⟩)
  simp only [Cycle.group, n3, elements, modeSubs, List.map_cons, List.map_nil, List.cons_append, List.nil_append,
    List.forall_mem_cons]
  refine ⟨?_, ?_, ?_, ?_, ?_, ?_, ?_, ?_, ?_, ?_, ?_, ?_, ?_, ?_, ?_, ?_, ?_, ?_, ?_, ?_, ?_, ?_, ?_, ?_, ?_, ?_, by simp⟩
  · exact Decl.Fits.none (by decide : Plain "fc") rfl rfl
  · exact Decl.Fits.none (by decide : Plain "inlet") rfl rfl
  · exact one "Fan_Nmech" (by decide) (by decide : Plain "fan") rfl rfl (by krfl) (by krfl)
  · exact Decl.Fits.none (by decide : Plain "splitter") rfl rfl
  · exact Decl.Fits.none (by decide : Plain "duct2") rfl rfl
  · exact one "LP_Nmech" (by decide) (by decide : Plain "lpc") rfl rfl (by krfl) (by krfl)
  · exact Decl.Fits.none (by decide : Plain "bld25") rfl rfl
  · exact Decl.Fits.none (by decide : Plain "duct25") rfl rfl
  · exact one "HP_Nmech" (by decide) (by decide : Plain "hpc") rfl rfl (by krfl) (by krfl)
  · exact Decl.Fits.none (by decide : Plain "bld3") rfl rfl
  · exact Decl.Fits.none (by decide : Plain "burner") rfl rfl
  · exact one "HP_Nmech" (by decide) (by decide : Plain "hpt") rfl rfl (by krfl) (by krfl)
  · exact Decl.Fits.none (by decide : Plain "duct45") rfl rfl
  · exact one "LP_Nmech" (by decide) (by decide : Plain "lpt") rfl rfl (by krfl) (by krfl)
  · exact Decl.Fits.none (by decide : Plain "duct5") rfl rfl
  · exact Decl.Fits.none (by decide : Plain "core_nozz") rfl rfl
  · exact Decl.Fits.none (by decide : Plain "byp_bld") rfl rfl
  · exact Decl.Fits.none (by decide : Plain "duct17") rfl rfl
  · exact Decl.Fits.none (by decide : Plain "byp_nozz") rfl rfl
  · exact one "Fan_Nmech" (by decide) (by decide : Plain "fan_shaft") rfl rfl (by krfl) (by krfl)
  · exact Decl.Fits.as [("N_in", "LP_Nmech"), ("N_out", "Fan_Nmech")] (by decide : Plain "gearbox") rfl rfl (by
      simp only [List.forall_mem_cons]
      exact ⟨⟨by decide, by krfl, by krfl⟩, ⟨by decide, by krfl, by krfl⟩, by simp⟩)
  · exact one "LP_Nmech" (by decide) (by decide : Plain "lp_shaft") rfl rfl (by krfl) (by krfl)
  · exact one "HP_Nmech" (by decide) (by decide : Plain "hp_shaft") rfl rfl (by krfl) (by krfl)
  · exact Decl.Fits.none (by decide : Plain "perf") rfl rfl
  · exact Decl.Fits.none (by decide : Plain "ext_ratio") rfl rfl
  · exact Decl.Fits.none (by decide : Plain "balance") rfl rfl

/-- The flow links agree. -/
theorem links_agree (dTs rho : ℝ) : ∀ l ∈ flows, ∀ x ∈ l.conns,
    (Env.glue (vals dTs rho)).num x.1 = (Env.glue (vals dTs rho)).num x.2
    ∧ (Env.glue (vals dTs rho)).vec x.1 = (Env.glue (vals dTs rho)).vec x.2 := by
  intro l hl
  simp only [flows, List.mem_cons, List.not_mem_nil, or_false] at hl
  rcases hl with rfl | rfl | rfl | rfl | rfl | rfl | rfl | rfl | rfl | rfl | rfl | rfl | rfl | rfl | rfl | rfl | rfl | rfl | rfl | rfl | rfl | rfl
  all_goals
    intro x hx
    refine Link.agrees (by decide) (by decide) ⟨by krfl, by krfl⟩ ?_ x hx
    intro v hv hw
    fin_cases hv <;> exact ⟨by krfl, by krfl⟩

theorem agrees (dTs rho : ℝ) : (n3 parts .off).group.Agrees (Env.glue (vals dTs rho)) := by
  intro x hx
  rcases List.mem_append.mp hx with hx | hx
  · obtain ⟨l, hl, hx⟩ := List.mem_flatMap.mp hx
    exact links_agree dTs rho l hl x hx
  · rcases List.mem_append.mp hx with hx | hx
    · simp only [plainConns] at hx
      fin_cases hx <;> exact ⟨by krfl, by krfl⟩
    · simp only [modeConns, offConns] at hx
      fin_cases hx <;> exact ⟨by krfl, by krfl⟩

/-- The engine is solved. -/
theorem solved : ∃ dTs rho, (n3 parts .off).Solved (Env.glue (vals dTs rho)) := by
  obtain ⟨dTs, rho, hf⟩ := flight_converged
  exact ⟨dTs, rho, Cycle.converged_of (fits dTs rho) (agrees dTs rho) (elements_converged hf) (others_ok dTs rho),
    agrees dTs rho⟩

/-- The flow guards of C66 hold of the values. -/
theorem inFlight (dTs rho : ℝ) : InFlight (Env.glue (vals dTs rho)) := by
  have c0 : (Env.glue (vals dTs rho)).num "fc.W" = 3 := by krfl
  have c1 : (Env.glue (vals dTs rho)).num "splitter.BPR" = 13 / 20 := by krfl
  have c2 : (Env.glue (vals dTs rho)).num "burner.Wfuel" = s31.W * (1 / 2) := by krfl
  have c3 : (Env.glue (vals dTs rho)).num "bld25.sbv:frac_W" = 1 / 4 := by krfl
  have c4 : (Env.glue (vals dTs rho)).num "hpc.bld_inlet:frac_W" = 1 / 5 := by krfl
  have c5 : (Env.glue (vals dTs rho)).num "hpc.bld_exit:frac_W" = 1 / 5 := by krfl
  have c6 : (Env.glue (vals dTs rho)).num "hpc.cust:frac_W" = 1 / 5 := by krfl
  have c7 : (Env.glue (vals dTs rho)).num "bld3.bld_inlet:frac_W" = 1 / 4 := by krfl
  have c8 : (Env.glue (vals dTs rho)).num "bld3.bld_exit:frac_W" = 1 / 4 := by krfl
  have c9 : (Env.glue (vals dTs rho)).num "byp_bld.bypBld:frac_W" = 1 / 4 := by krfl
  exact
    { air := by rw [c0]; norm_num
      bypass := by rw [c1]; norm_num
      fuel := by rw [c2]; norm_num [s31]
      sbv := by rw [c3]; norm_num
      inlet := by rw [c4]; norm_num
      exit := by rw [c5]; norm_num
      hpc := by rw [c4, c5, c6]; norm_num
      inlet3 := by rw [c7]; norm_num
      exit3 := by rw [c8]; norm_num
      bld3 := by rw [c7, c8]; norm_num
      byp := by rw [c9]; norm_num }

/-- The composition guard of the tabular burner holds. -/
theorem dry (dTs rho : ℝ) : 1 + ∑ i : Fin 1, (Env.glue (vals dTs rho)).vec "fc.fs.composition" i ≠ 0 := by
  have e : (Env.glue (vals dTs rho)).vec "fc.fs.composition" = 0 := by krfl
  rw [e]; norm_num

theorem fan_power (dTs rho : ℝ) : (Env.glue (vals dTs rho)).num "fan.power" < 0 := by
  have e : (Env.glue (vals dTs rho)).num "fan.power" = compPower s2 s21 := by krfl
  rw [e]; norm_num [compPower, s2, s21, Stn.h]

theorem gear_eff (dTs rho : ℝ) : (Env.glue (vals dTs rho)).num "gearbox.eff" < 1 := by
  have e : (Env.glue (vals dTs rho)).num "gearbox.eff" = eg := by krfl
  rw [e]; norm_num [eg]

/-- The statements of C66 on flow, fuel and energy apply to a solved engine; the lossy gearbox makes energy out of
nothing. -/
theorem applies : ∃ E : Env, (n3 parts .off).Solved E
    ∧ E.num "core_nozz.Fl_O:stat:W" + E.num "byp_nozz.Fl_O:stat:W" + E.num "bld25.sbv:stat:W" + E.num "hpc.cust:stat:W"
        + E.num "byp_bld.bypBld:stat:W" = E.num "fc.W" + E.num "burner.Wfuel"
    ∧ E.num "fc.W" * E.num "fc.Fl_O:tot:h" + E.num "burner.Wfuel" * E.num "burner.mix_fuel.mix:h"
      < E.num "core_nozz.Fl_O:stat:W" * E.num "core_nozz.Fl_O:tot:h" + E.num "byp_nozz.Fl_O:stat:W" * E.num "byp_nozz.Fl_O:tot:h"
        + E.num "bld25.sbv:stat:W" * E.num "bld25.sbv:tot:h"
        + E.num "hpc.cust:stat:W" * E.num "hpc.cust:tot:h" + E.num "byp_bld.bypBld:stat:W" * E.num "byp_bld.bypBld:tot:h" := by
  obtain ⟨dTs, rho, h⟩ := solved
  refine ⟨Env.glue (vals dTs rho), h, (C66_tab (p := parts) rfl h (dry dTs rho) (inFlight dTs rho)).2, ?_⟩
  have p0 : 0 < (Env.glue (vals dTs rho)).num "Fan_Nmech" := by
    have e : (Env.glue (vals dTs rho)).num "Fan_Nmech" = 1 := by krfl
    rw [e]; norm_num
  have p1 : 0 < (Env.glue (vals dTs rho)).num "LP_Nmech" := by
    have e : (Env.glue (vals dTs rho)).num "LP_Nmech" = 1 := by krfl
    rw [e]; norm_num
  have p2 : 0 < (Env.glue (vals dTs rho)).num "HP_Nmech" := by
    have e : (Env.glue (vals dTs rho)).num "HP_Nmech" = 1 := by krfl
    rw [e]; norm_num
  exact C66_refuted_energy h (C57_combustor_tab unitGas unitGas false true 1 0) (dry dTs rho) (inFlight dTs rho) p0 p1 p2
    (by krfl) (by krfl) (by krfl)
    (by simp only [List.forall_mem_cons]
        exact ⟨⟨by krfl, by krfl⟩, ⟨by krfl, by krfl⟩, ⟨by krfl, by krfl⟩, by simp⟩)
    (by krfl)
    (by simp only [List.forall_mem_cons]; exact ⟨by krfl, by krfl, by krfl, by krfl, by krfl, by simp⟩)
    (fan_power dTs rho) (gear_eff dTs rho)

end C66Example
end PyCycle.OM
