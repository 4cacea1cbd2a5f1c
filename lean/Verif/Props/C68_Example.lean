import Verif.Bench.Cea
import Verif.Props.C68_WetTurbojet

/-! # C68: a solved turbojet in humid air, as a design point and off design

The hypotheses of the theorems of C68 are met: these values solve the engine in both modes, with oxygen as dry air, water
and methane mixed in by the equilibrium model's components, a choked nozzle and the shaft in balance. -/

namespace PyCycle.OM
namespace C68Example
open Bench WTJ
open C48Example (unitGas)
open C54Example (cmap tmap)

/-! ## Chemistry -/

/-- Oxygen, water and methane. -/
noncomputable def data : ThermoData where
  products := [("O2", ⟨[("O", 2)], 32⟩), ("H2O", ⟨[("H", 2), ("O", 1)], 18⟩), ("CO2", ⟨[("C", 1), ("O", 2)], 44⟩)]
  elementWts := [("H", 1), ("O", 16), ("C", 12)]
  reactants := [("Water", [("H", 2), ("O", 1)]), ("Methane", [("C", 1), ("H", 4)])]

noncomputable def water : PyDict ℝ := [("H", 2), ("O", 1)]
noncomputable def methane : PyDict ℝ := [("C", 1), ("H", 4)]
noncomputable def dry : PyDict ℝ := [("O", 1)]
noncomputable def wet : PyDict ℝ := [("O", 1), ("H", 2)]
noncomputable def burnt : PyDict ℝ := [("O", 1), ("H", 4), ("C", 1)]

theorem sorted : dry.sortedKeys = ["O"] ∧ wet.sortedKeys = ["H", "O"] ∧ burnt.sortedKeys = ["C", "H", "O"] := by
  have e1 : dry.keys = ["O"] := rfl
  have e2 : wet.keys = ["O", "H"] := rfl
  have e3 : burnt.keys = ["O", "H", "C"] := rfl
  simp only [PyDict.sortedKeys, e1, e2, e3]
  decide +kernel

theorem wts : data.wtOf "H" = 1 ∧ data.wtOf "O" = 16 ∧ data.wtOf "C" = 12 := by
  simp [ThermoData.wtOf, data, PyDict.get?, List.lookup]

theorem known : data.reactants.get? "Water" = some water ∧ data.reactants.get? "Methane" = some methane := by
  simp [data, PyDict.get?, List.lookup, water, methane]

theorem mixes : mixedReactants data dry ["Water"] = .ok wet ∧ mixedReactants data wet ["Methane"] = .ok burnt := by
  simp [mixedReactants, known.1, known.2, dry, wet, water, methane, burnt, PyDict.update, PyDict.setItem]

theorem valid : validElements data = ["O", "H", "O", "C", "O"] := rfl

theorem listed : (data.elementWts.get? "H").isNone = false ∧ (data.elementWts.get? "O").isNone = false
    ∧ (data.elementWts.get? "C").isNone = false := by
  simp [data, PyDict.get?, List.lookup]

theorem exists_water : ∃ S, reactantSetup data (some dry) ["mix"] ["Water"] = .ok S := by
  simp [reactantSetup, mixes.1, mkProperties, sorted.1, sorted.2.1, valid, listed.1, listed.2.1]

theorem exists_fuel : ∃ S, reactantSetup data (some wet) ["mix"] ["Methane"] = .ok S := by
  simp [reactantSetup, mixes.2, mkProperties, sorted.2.1, sorted.2.2, valid, listed.1, listed.2.1, listed.2.2]

/-- The component that mixes in water. -/
noncomputable def Sw : ReactantAdd := exists_water.choose
/-- The component that mixes in fuel. -/
noncomputable def Sf : ReactantAdd := exists_fuel.choose

theorem Sw_ok : reactantSetup data (some dry) ["mix"] ["Water"] = .ok Sw := exists_water.choose_spec
theorem Sf_ok : reactantSetup data (some wet) ["mix"] ["Methane"] = .ok Sf := exists_fuel.choose_spec

theorem elems : Sw.inflow.elements = ["O"] ∧ Sw.mixed.elements = ["H", "O"] ∧ Sf.mixed.elements = ["C", "H", "O"] := by
  obtain ⟨m, a1, a2, a3⟩ := setup_ok Sw_ok
  obtain ⟨m', b1, -, b3⟩ := setup_ok Sf_ok
  rw [mixes.1] at a1
  rw [mixes.2] at b1
  cases a1
  cases b1
  exact ⟨(mkProperties_ok a2).1.trans sorted.1, (mkProperties_ok a3).1.trans sorted.2.1,
    (mkProperties_ok b3).1.trans sorted.2.2⟩

/-! ## The engine -/

/-- The parts of the example. -/
noncomputable def parts : WetParts :=
  { air := unitGas, burnt := unitGas, comp := cmap, turb := tmap, water := .cea Sw, fuel := .cea Sf
    bleed := .cea Sf.mixed Sf.mixed fun _ => Sf.mixed }

theorem cea : Cea parts data water methane Sw Sf where
  parts := ⟨rfl, rfl, _, rfl⟩
  setup := ⟨dry, wet, "Water", "Methane", known.1, known.2, Sw_ok, mixes.1, Sf_ok, by simp [dry, PyDict.keys]⟩
  keys := by simp [water, methane, PyDict.keys]
  mass := by
    obtain ⟨h1, h2, h3⟩ := wts
    simp only [formulaMass, water, methane, List.map_cons, List.map_nil, List.sum_cons, List.sum_nil, h1, h2, h3]
    norm_num
  weights := by
    obtain ⟨h1, h2, h3⟩ := wts
    rw [elems.2.1, elems.2.2]
    simp [h1, h2, h3]

/-- Compositions of the dry air, before the burner, after the burner and after the turbine. -/
noncomputable def C0 : ℕ → ℝ := fun _ => 1 / 16
noncomputable def Cw : ℕ → ℝ := added Sw 3 (1 / 5) C0
noncomputable def Cb : ℕ → ℝ := added Sf 3 (1 / 3) Cw
noncomputable def Ct : ℕ → ℝ := passed Sf.mixed 4 Cb

/-- Stations after inlet, compressor, burner and turbine, and in the throat. -/
noncomputable def s0 : Stn := Bench.humid Cw
noncomputable def s2 : Stn := ⟨1, 14, 10, 3, Cw⟩
noncomputable def s3 : Stn := ⟨3, 140, 100, 3, Cw⟩
noncomputable def s4 : Stn := ⟨7 / 2, 112, 80, 4, Cb⟩
noncomputable def s5 : Stn := ⟨5 / 2, 28, 20, 4, Ct⟩
noncomputable def t8 : Stn := ⟨5 / 2, 24, 16, 4, Ct⟩

noncomputable def pamb : ℝ := 7.33889

/-- Torques. -/
noncomputable def tComp : ℝ := 5252.11 * compPower s2 s3
noncomputable def tTurb : ℝ := 5252.11 * turb0Power s4 6.375 (3 / 4)

/-- The shaft is in balance. -/
theorem balanced : 0 + tTurb + (0 + tComp) = 0 ∧ tComp < 0 ∧ 0 ≤ tTurb := by
  refine ⟨?_, ?_, ?_⟩ <;> norm_num [tComp, tTurb, compPower, turb0Power, Stn.h, s2, s3, s4]

/-- Net thrust. -/
noncomputable def fn : ℝ := 0 + fgCd t8 pamb - s0.W * s0.q / 32.174

/-- Performance. -/
noncomputable def perfE : Env :=
  let drag := s0.W * s0.q / 32.174
  let w := s3.W * (1 / 3)
  Env.ofTable
  [("Pt2", s2.P), ("Pt3", s3.P), ("ram_drag", drag), ("power", 1), ("Fg_0", fgCd t8 pamb), ("Wfuel_0", w),
   ("OPR", s3.P / s2.P), ("Fg", 0 + fgCd t8 pamb), ("Fn", 0 + fgCd t8 pamb - drag),
   ("TSFC", (0 + w) * 3600 / (0 + fgCd t8 pamb - drag + 1e-10)), ("PSFC", (0 + w) * 3600 / 1), ("Wfuel", 0 + w)] []

theorem perf_ok : (performanceSub 1 1).eqn perfE perfE := ⟨by krfl, by krfl, by krfl, by krfl, by krfl, by krfl⟩

noncomputable def balanceE : Bool → Env
  | true => Env.ofTable [("W", 3), ("lhs:W", fn), ("rhs:W", fn), ("FAR", 1 / 3), ("lhs:FAR", s4.h), ("rhs:FAR", s4.h),
      ("turb_PR", 4), ("lhs:turb_PR", (0 + tTurb + (0 + tComp)) * Shaft.convert), ("rhs:turb_PR", 0)] []
  | false => Env.ofTable [("FAR", 1 / 3), ("lhs:FAR", fn), ("rhs:FAR", fn), ("Nmech", 1),
      ("lhs:Nmech", (0 + tTurb + (0 + tComp)) * Shaft.convert), ("rhs:Nmech", 0), ("W", 3), ("lhs:W", t8.W / t8.q),
      ("rhs:W", t8.W / t8.q)] []

/-- All values, the temperature deviation and density of the day being given. -/
noncomputable def vals (dTs rho : ℝ) (d : Bool) : String → Env
  | "fc" => wetFlightE dTs rho (1 / 5) C0 Cw
  | "inlet" => inletE s0 s2 1
  | "comp" => compE s2 s3 7.5 10 (1 / 2)
  | "burner" => burnerE s3 s4 (1 / 3) 33 0.2
  | "turb" => turb0E s4 s5 6.375 4 (3 / 4)
  | "nozz" => nozzCdE s5 t8 (1 / 7) pamb
  | "shaft" => shaft2E tComp tTurb
  | "perf" => perfE
  | "balance" => balanceE d
  | _ => Env.ofTable [("Nmech", 1)] []

/-- A station passes a flow. -/
macro "passes " s:ident : tactic => `(tactic| exact ⟨by norm_num [$s:ident], by norm_num [$s:ident]⟩)

theorem ok2 : s2.Ok := by passes s2
theorem ok3 : s3.Ok := by passes s3
theorem ok4 : s4.Ok := by passes s4
theorem ok5 : s5.Ok := by passes s5
theorem ok8 : t8.Ok := by passes t8

/-- Every element is solved. -/
theorem elements_converged {dTs rho : ℝ}
    (hf : (flightConditions unitGas (some (.cea Sw)) "WAR").Converged (wetFlightE dTs rho (1 / 5) C0 Cw)) (d : Bool) :
    ∀ e ∈ (wtj parts d).members, e.group.Converged (vals dTs rho d e.name) := by
  simp only [wtj, elements, List.forall_mem_cons]
  refine ⟨hf, ?_, ?_, ?_, ?_, ?_, by simp⟩
  · exact inlet_converged _ ok2 rfl rfl rfl (by norm_num [s2, s0, Bench.humid])
  · exact comp_converged _ ok3 (by norm_num) rfl rfl (by norm_num [s2, s3]) (by norm_num [s2, s3, Stn.h])
  · exact burner_cea_converged (One.of_setup Sf_ok) _ ok4 rfl (by norm_num [s3, s4]) (by norm_num [s3, s4])
      (by norm_num [s3, s4, Stn.h])
  · exact turb_cea_converged _ ok5 rfl rfl (by norm_num [s4]) (by norm_num [s4, s5]) (by norm_num [s4, s5, b4, Stn.h])
  · exact nozzCd_converged ok8 rfl rfl rfl (by norm_num [s5, t8]) (by norm_num [pamb]) (by norm_num [t8, pamb])

/-- Every component is solved. -/
theorem others_ok (dTs rho : ℝ) (d : Bool) :
    ∀ s ∈ (wtj parts d).others, s.eqn (vals dTs rho d s.name) (vals dTs rho d s.name) := by
  obtain ⟨b1, b2, b3⟩ := balanced
  simp only [wtj, List.forall_mem_cons]
  refine ⟨shaft2_ok b2 b3, perf_ok, ?_, by simp⟩
  cases d <;> (
    intro b hb
    fin_cases hb)
  · kshow (1 : ℝ) * fn = fn
    ring
  · kshow (1 : ℝ) * ((0 + tTurb + (0 + tComp)) * Shaft.convert) = 0
    rw [b1]; ring
  · kshow (1 : ℝ) * (t8.W / t8.q) = t8.W / t8.q
    ring
  · kshow (1 : ℝ) * fn = fn
    ring
  · kshow (1 : ℝ) * s4.h = s4.h
    ring
  · kshow (1 : ℝ) * ((0 + tTurb + (0 + tComp)) * Shaft.convert) = 0
    rw [b1]; ring

theorem fits (dTs rho : ℝ) (d : Bool) : ∀ s ∈ (wtj parts d).group.subs, s.Fits (vals dTs rho d) := by
  have one : ∀ {s : Decl}, Plain s.name → s.promO = [] → s.promI = [.as "Nmech" "Nmech"] →
      (vals dTs rho d "").num "Nmech" = (vals dTs rho d s.name).num "Nmech" →
      (vals dTs rho d "").vec "Nmech" = (vals dTs rho d s.name).vec "Nmech" →
      s.Fits (vals dTs rho d) := fun h h1 h2 h3 h4 => Decl.Fits.as [("Nmech", "Nmech")] h h1 h2 (by
        simp only [List.forall_mem_cons]; exact ⟨⟨by decide, h3, h4⟩, by simp⟩)
  simp only [Cycle.group, wtj, elements, List.map_cons, List.map_nil, List.cons_append, List.nil_append,
    List.forall_mem_cons]
  refine ⟨?_, ?_, ?_, ?_, ?_, ?_, ?_, ?_, ?_, by simp⟩
  · exact Decl.Fits.none (by decide : Plain "fc") rfl rfl
  · exact Decl.Fits.none (by decide : Plain "inlet") rfl rfl
  · exact one (by decide : Plain "comp") rfl rfl (by krfl) (by krfl)
  · exact Decl.Fits.none (by decide : Plain "burner") rfl rfl
  · exact one (by decide : Plain "turb") rfl rfl (by krfl) (by krfl)
  · exact Decl.Fits.none (by decide : Plain "nozz") rfl rfl
  · exact one (by decide : Plain "shaft") rfl rfl (by krfl) (by krfl)
  · exact Decl.Fits.none (by decide : Plain "perf") rfl rfl
  · exact Decl.Fits.none (by decide : Plain "balance") rfl rfl

/-- The flow links agree. -/
theorem links_agree (dTs rho : ℝ) (d : Bool) : ∀ l ∈ flows, ∀ x ∈ l.conns,
    (Env.glue (vals dTs rho d)).num x.1 = (Env.glue (vals dTs rho d)).num x.2
    ∧ (Env.glue (vals dTs rho d)).vec x.1 = (Env.glue (vals dTs rho d)).vec x.2 := by
  intro l hl
  simp only [flows, List.mem_cons, List.not_mem_nil, or_false] at hl
  rcases hl with rfl | rfl | rfl | rfl | rfl
  all_goals
    intro x hx
    refine Link.agrees (by decide) (by decide) ⟨by krfl, by krfl⟩ ?_ x hx
    intro v hv hw
    fin_cases hv <;> first | exact absurd (hw rfl) (by decide) | exact ⟨by krfl, by krfl⟩

theorem agrees (dTs rho : ℝ) (d : Bool) : (wtj parts d).group.Agrees (Env.glue (vals dTs rho d)) := by
  intro x hx
  rcases List.mem_append.mp hx with hx | hx
  · obtain ⟨l, hl, hx⟩ := List.mem_flatMap.mp hx
    exact links_agree dTs rho d l hl x hx
  · rcases List.mem_append.mp hx with hx | hx
    · simp only [plainConns] at hx
      fin_cases hx <;> exact ⟨by krfl, by krfl⟩
    · cases d <;> (
        simp only [balConns, Bool.false_eq_true, if_false, if_true] at hx
        fin_cases hx <;> exact ⟨by krfl, by krfl⟩)

/-- The engine is solved in both modes. -/
theorem solved : ∃ dTs rho, ∀ d, (wtj parts d).Solved (Env.glue (vals dTs rho d)) := by
  obtain ⟨dTs, rho, hf⟩ := wetFlight_converged
  exact ⟨dTs, rho, fun d => ⟨Cycle.converged_of (fits dTs rho d) (agrees dTs rho d)
    (elements_converged (hf (One.of_setup Sw_ok)) d) (others_ok dTs rho d), agrees dTs rho d⟩⟩

/-- The statements of C68 apply to a solved engine in both modes; what leaves the nozzle is water's hydrogen and the
fuel's, and the fuel's carbon. -/
theorem applies : ∃ E : Bool → Env, ∀ d, (wtj parts d).Solved (E d)
    ∧ (E d).num "nozz.Fl_O:stat:W" * elemMassFrac Sf.mixed.elements data.wtOf
        (fun k => (E d).vec "nozz.Fl_O:tot:composition" k) "C" = 3 / 4
    ∧ (E d).num "nozz.Fl_O:stat:W" * elemMassFrac Sf.mixed.elements data.wtOf
        (fun k => (E d).vec "nozz.Fl_O:tot:composition" k) "H" = 1 / 18 + 1 / 4
    ∧ (E d).num "nozz.Fl_O:stat:W" * (E d).num "nozz.Fl_O:tot:h"
      = (E d).num "balance.W" * (E d).num "fc.Fl_O:tot:h" + (E d).num "burner.Wfuel" * (E d).num "burner.mix_fuel.mix:h" := by
  obtain ⟨dTs, rho, h⟩ := solved
  refine ⟨fun d => Env.glue (vals dTs rho d), fun d => ?_⟩
  have eW : (Env.glue (vals dTs rho d)).num "balance.W" = 3 := by cases d <;> krfl
  have eF : (Env.glue (vals dTs rho d)).num "burner.Wfuel" = s3.W * (1 / 3) := by krfl
  have eA : (Env.glue (vals dTs rho d)).num "fc.WAR" = 1 / 5 := by krfl
  have e0 : (Env.glue (vals dTs rho d)).num "fc.W" = 3 := by krfl
  have eC : (Env.glue (vals dTs rho d)).vec "fc.fs.thermo_add.Fl_I:tot:composition" = C0 := by krfl
  have m : ∀ els : List String, els = ["O"] → totalMass els data.wtOf (fun k => C0 k) = 1
      ∧ elemMassFrac els data.wtOf (fun k => C0 k) "C" = 0 ∧ elemMassFrac els data.wtOf (fun k => C0 k) "H" = 0 := by
    rintro els rfl
    simp [totalMass, elemMassFrac, C0, wts.2.1]
  obtain ⟨m1, m2, m3⟩ := m _ elems.1
  have hf : InFlight (Env.glue (vals dTs rho d)) := by
    constructor <;> simp only [eW, eF, s3] <;> norm_num
  have hC : totalMass Sw.inflow.elements data.wtOf
      (fun k => (Env.glue (vals dTs rho d)).vec "fc.fs.thermo_add.Fl_I:tot:composition" k) ≠ 0 := by
    rw [eC, m1]; exact one_ne_zero
  have key := C68_atoms cea (h d) hC (by rw [e0]; norm_num) (by rw [eA]; norm_num) hf
  have w1 : formulaMass water data.wtOf = 18 ∧ formulaMass methane data.wtOf = 16 := by
    obtain ⟨h1, h2, h3⟩ := wts
    simp only [formulaMass, water, methane, List.map_cons, List.map_nil, List.sum_cons, List.sum_nil, h1, h2, h3]
    norm_num
  have w2 : formulaMassFrac water data.wtOf "C" = 0 ∧ formulaMassFrac methane data.wtOf "C" = 3 / 4
      ∧ formulaMassFrac water data.wtOf "H" = 1 / 9 ∧ formulaMassFrac methane data.wtOf "H" = 1 / 4 := by
    obtain ⟨h1, h2, h3⟩ := wts
    have g : water.get? "C" = none ∧ methane.get? "C" = some 1 ∧ water.get? "H" = some 2 ∧ methane.get? "H" = some 4 := by
      simp [water, methane, PyDict.get?, List.lookup]
    obtain ⟨g1, g2, g3, g4⟩ := g
    simp only [formulaMassFrac, w1.1, w1.2, h1, h3, g1, g2, g3, g4, Option.getD_some, Option.getD_none]
    norm_num
  refine ⟨h d, ?_, ?_, ?_⟩
  · refine (key "C").1.trans ?_
    rw [eC, m2, eF, w2.1, w2.2.1]
    norm_num [s3]
  · refine (key "H").1.trans ?_
    rw [eC, m3, eF, eW, eA, w2.2.2.1, w2.2.2.2]
    norm_num [s3]
  · have hb := C57_combustor_cea parts.burnt parts.air d true data wet (by simp [wet, PyDict.keys]) "Methane" methane known.2
      cea.keys.2 cea.mass.2 Sf Sf_ok cea.weights.2
    have k := C68_energy (h d) hb (by
      have := (WTJ.humid cea (h d) hC (by rw [e0]; norm_num) (by rw [eA]; norm_num)).1
      rw [inflow_eq cea, this]; exact one_ne_zero) hf
    have c : (Env.glue (vals dTs rho d)).num "comp.power" = compPower s2 s3 := by krfl
    have t : (Env.glue (vals dTs rho d)).num "turb.power" = turb0Power s4 6.375 (3 / 4) := by krfl
    have z : compPower s2 s3 + turb0Power s4 6.375 (3 / 4) = 0 := by
      have := balanced.1
      simp only [tComp, tTurb] at this
      linarith
    simp only [c, t, z] at k
    refine k.trans ?_
    simp only [parts, unitGas]
    ring

end C68Example
end PyCycle.OM
