import Verif.Bench.Reheat
import Verif.Props.C65_Afterburner

/-! # C65: a solved turbojet with afterburner, as a design point and off design

The hypotheses of the theorems of C65 are met: these values solve the engine in both modes, with fuel burnt in burner and
afterburner, both bleeds flowing, a choked nozzle and the shaft in balance. -/

namespace PyCycle.OM
namespace C65Example
open Bench ABTJ
open C48Example (unitGas)
open C54Example (cmap tmap)

/-- The parts of the example. -/
noncomputable def parts : AbtjParts :=
  { air := unitGas, burnt := unitGas, hot := unitGas, comp := cmap, turb := tmap, fuel := .tab 1 0, abFuel := .tab 1 0
    bleed := .tab 1 }

noncomputable abbrev A : ℕ → ℝ := fuelAir 0

/-- Stations after inlet, duct, compressor, burner, turbine and afterburner, and in the throat. -/
noncomputable def s2 : Stn := ⟨1, 14, 10, 3, A⟩
noncomputable def s20 : Stn := ⟨1, 10.5, 7, 3, A⟩
noncomputable def s3 : Stn := ⟨2, 105, 70, 2, A⟩
noncomputable def s4 : Stn := ⟨5, 84, 50, 7 / 3, fuelAir (1 / 6)⟩
noncomputable def s5 : Stn := ⟨4, 42, 30, 10 / 3, fuelAir (1 / 9)⟩
noncomputable def s7 : Stn := ⟨5, 21, 15, 23 / 6, fuelAir (5 / 18)⟩
noncomputable def t8 : Stn := ⟨5, 14, 10, 23 / 6, fuelAir (5 / 18)⟩

/-- The bleeds of the turbine. -/
noncomputable def cool : Cool := ⟨tapped s20 s3 (1 / 2) (1 / 2), s20.W * (1 / 6), 1 / 2, 2.25⟩

noncomputable def pamb : ℝ := 7.33889

/-- Torques. -/
noncomputable def tC : ℝ := 5252.11 * comp2Power s20 s3 (1 / 6) (1 / 2)
noncomputable def tT : ℝ := 5252.11 * turbPower s4 28.5 (1 / 2) cool

/-- The shaft is in balance. -/
theorem balanced : 0 + tT = -(0 + tC) ∧ tC < 0 ∧ 0 ≤ tT := by
  refine ⟨?_, ?_, ?_⟩ <;>
    norm_num [tC, tT, comp2Power, turbPower, cool, tapped, Stn.h, C58Example.at_, s20, s3, s4]

/-- Performance of one nozzle and two burners. -/
noncomputable def perfE : Env :=
  let drag := Bench.s0.W * Bench.s0.q / 32.174
  let w0 := s3.W * (1 / 6)
  let w1 := s5.W / (1 + 1 / 9) * (1 / 6)
  let fg := fgCd t8 pamb
  Env.ofTable
  [("Pt2", s20.P), ("Pt3", s3.P), ("ram_drag", drag), ("power", 1), ("Fg_0", fg), ("Wfuel_0", w0), ("Wfuel_1", w1),
   ("OPR", s3.P / s20.P), ("Fg", 0 + fg), ("Fn", 0 + fg - drag),
   ("TSFC", (0 + w0 + w1) * 3600 / (0 + fg - drag + 1e-10)), ("PSFC", (0 + w0 + w1) * 3600 / 1),
   ("Wfuel", 0 + w0 + w1)] []

theorem perf_ok : (performanceSub 1 2).eqn perfE perfE := ⟨by krfl, by krfl, by krfl, by krfl, by krfl, by krfl⟩

/-- Net thrust. -/
noncomputable def fn : ℝ := 0 + fgCd t8 pamb - Bench.s0.W * Bench.s0.q / 32.174

theorem fn_pos : 0 < fn := by norm_num [fn, fgCd, t8, Bench.s0]

noncomputable def balanceE : Bool → Env
  | true => Env.ofTable [("W", 3), ("lhs:W", fn), ("rhs:W", fn), ("FAR", 1 / 6), ("lhs:FAR", s4.h), ("rhs:FAR", s4.h),
      ("turb_PR", 2), ("lhs:turb_PR", ((0 + tT) + (0 + tC)) * Shaft.convert), ("rhs:turb_PR", 0)] []
  | false => Env.ofTable [("W", 3), ("lhs:W", 2), ("rhs:W", 2), ("FAR", 1 / 6), ("lhs:FAR", s4.h), ("rhs:FAR", s4.h),
      ("Nmech", 1), ("mult:Nmech", -1), ("lhs:Nmech", (0 + tT) * Shaft.convert),
      ("rhs:Nmech", (0 + tC) * Shaft.convert)] []

/-- All values, the temperature deviation and density of the day being given. -/
noncomputable def vals (dTs rho : ℝ) (d : Bool) : String → Env
  | "fc" => flightE dTs rho
  | "inlet" => inletE Bench.s0 s2 1
  | "duct1" => ductE s2 s20 (1 / 4)
  | "comp" => comp2E s20 s3 3.75 10 (1 / 2) (1 / 6) (1 / 2) (1 / 2)
  | "burner" => burnerE s3 s4 (1 / 6) 226.5 0.2
  | "turb" => turbE false s4 s5 28.5 2 (1 / 2) cool
  | "ab" => abE s5 s7 (1 / 9) (1 / 6) 127.5 (1 / 2)
  | "nozz" => nozzCdE s7 t8 (1 / 3) pamb
  | "shaft" => shaft2E tC tT
  | "perf" => perfE
  | "balance" => balanceE d
  | _ => Env.ofTable [("Nmech", 1)] []

/-- A station passes a flow. -/
macro "passes " s:ident : tactic => `(tactic| exact ⟨by norm_num [$s:ident], by norm_num [$s:ident]⟩)

theorem ok2 : s2.Ok := by passes s2
theorem ok20 : s20.Ok := by passes s20
theorem ok3 : s3.Ok := by passes s3
theorem ok4 : s4.Ok := by passes s4
theorem ok5 : s5.Ok := by passes s5
theorem ok7 : s7.Ok := by passes s7
theorem ok8 : t8.Ok := by passes t8

/-- Every element is solved. -/
theorem elements_converged {dTs rho : ℝ} (hf : (flightConditions unitGas none).Converged (flightE dTs rho)) (d : Bool) :
    ∀ e ∈ (abtj parts d).members, e.group.Converged (vals dTs rho d e.name) := by
  simp only [abtj, elements, List.forall_mem_cons]
  refine ⟨hf, ?_, ?_, ?_, ?_, ?_, ?_, ?_, by simp⟩
  · exact inlet_converged _ ok2 rfl rfl fuelAir_zero (by norm_num [s2, Bench.s0])
  · exact duct_converged _ ok20 rfl rfl rfl (by norm_num [s2, s20])
  · exact comp2_converged _ ok3 (by norm_num) (by norm_num [s20, s3]) rfl (by norm_num [s20, s3])
      (by norm_num [s20, s3, Stn.h])
  · exact burner_converged _ ok4 ok3.W rfl rfl (by norm_num [s3, s4]) (by norm_num [s3, s4])
      (by norm_num [s3, s4, Stn.h])
  · exact turb_converged (k := false) (f := 1 / 6) (g := 1 / 9) _ ok5 rfl rfl rfl (by norm_num [s4, s5, cool, s20])
      (by norm_num [s4, s5]) (by norm_num [s4, s5, cool, s20, s3, tapped, b4, Stn.h, C58Example.at_]) (by norm_num)
      (by norm_num [s4, cool, s20])
  · exact ab_converged (g := 5 / 18) _ ok7 rfl rfl (by norm_num [s5]) (by norm_num [s5, s7]) (by norm_num [s5, s7])
      (by norm_num [s5, s7, Stn.h])
  · exact nozzCd_converged ok8 rfl rfl rfl (by norm_num [s7, t8]) (by norm_num [pamb]) (by norm_num [t8, pamb])

/-- Every component is solved. -/
theorem others_ok (dTs rho : ℝ) (d : Bool) :
    ∀ s ∈ (abtj parts d).others, s.eqn (vals dTs rho d s.name) (vals dTs rho d s.name) := by
  obtain ⟨b1, b2, b3⟩ := balanced
  simp only [abtj, List.forall_mem_cons]
  refine ⟨shaft2_ok b2 b3, perf_ok, ?_, by simp⟩
  cases d <;> (
    intro b hb
    fin_cases hb)
  · kshow (1 : ℝ) * s4.h = s4.h
    ring
  · kshow -1 * ((0 + tT) * Shaft.convert) = (0 + tC) * Shaft.convert
    rw [b1]; ring
  · kshow (1 : ℝ) * 2 = 2
    norm_num
  · kshow (1 : ℝ) * fn = fn
    ring
  · kshow (1 : ℝ) * s4.h = s4.h
    ring
  · kshow (1 : ℝ) * (((0 + tT) + (0 + tC)) * Shaft.convert) = 0
    rw [b1]; ring

theorem fits (dTs rho : ℝ) (d : Bool) : ∀ s ∈ (abtj parts d).group.subs, s.Fits (vals dTs rho d) := by
  have one : ∀ {s : Decl}, Plain s.name → s.promO = [] → s.promI = [.as "Nmech" "Nmech"] →
      (vals dTs rho d "").num "Nmech" = (vals dTs rho d s.name).num "Nmech" →
      (vals dTs rho d "").vec "Nmech" = (vals dTs rho d s.name).vec "Nmech" →
      s.Fits (vals dTs rho d) := fun h h1 h2 h3 h4 => Decl.Fits.as [("Nmech", "Nmech")] h h1 h2 (by
        simp only [List.forall_mem_cons]; exact ⟨⟨by decide, h3, h4⟩, by simp⟩)
  simp only [Cycle.group, abtj, elements, List.map_cons, List.map_nil, List.cons_append, List.nil_append,
    List.forall_mem_cons]
  refine ⟨?_, ?_, ?_, ?_, ?_, ?_, ?_, ?_, ?_, ?_, ?_, by simp⟩
  · exact Decl.Fits.none (by decide : Plain "fc") rfl rfl
  · exact Decl.Fits.none (by decide : Plain "inlet") rfl rfl
  · exact Decl.Fits.none (by decide : Plain "duct1") rfl rfl
  · exact one (by decide : Plain "comp") rfl rfl (by krfl) (by krfl)
  · exact Decl.Fits.none (by decide : Plain "burner") rfl rfl
  · exact one (by decide : Plain "turb") rfl rfl (by krfl) (by krfl)
  · exact Decl.Fits.none (by decide : Plain "ab") rfl rfl
  · exact Decl.Fits.none (by decide : Plain "nozz") rfl rfl
  · exact one (by decide : Plain "shaft") rfl rfl (by krfl) (by krfl)
  · exact Decl.Fits.none (by decide : Plain "perf") rfl rfl
  · exact Decl.Fits.none (by decide : Plain "balance") rfl rfl

/-- The flow links agree. -/
theorem links_agree (dTs rho : ℝ) (d : Bool) : ∀ l ∈ flows, ∀ x ∈ l.conns,
    (Env.glue (vals dTs rho d)).num x.1 = (Env.glue (vals dTs rho d)).num x.2
    ∧ (Env.glue (vals dTs rho d)).vec x.1 = (Env.glue (vals dTs rho d)).vec x.2 := by
  intro l hl
  simp only [flows, List.mem_cons, List.not_mem_nil, or_false] at hl
  rcases hl with rfl | rfl | rfl | rfl | rfl | rfl | rfl | rfl | rfl
  all_goals
    intro x hx
    refine Link.agrees (by decide) (by decide) ⟨by krfl, by krfl⟩ ?_ x hx
    intro v hv hw
    fin_cases hv <;> first | exact absurd (hw rfl) (by decide) | exact ⟨by krfl, by krfl⟩

theorem agrees (dTs rho : ℝ) (d : Bool) : (abtj parts d).group.Agrees (Env.glue (vals dTs rho d)) := by
  intro x hx
  rcases List.mem_append.mp hx with hx | hx
  · obtain ⟨l, hl, hx⟩ := List.mem_flatMap.mp hx
    exact links_agree dTs rho d l hl x hx
  · rcases List.mem_append.mp hx with hx | hx
    · simp only [plainConns] at hx
      fin_cases hx <;> exact ⟨by krfl, by krfl⟩
    · cases d <;> (
        simp only [balConns, Bool.false_eq_true, if_false, if_true] at hx
        fin_cases hx <;> exact ⟨by krfl, by krfl⟩)

/-- The engine is solved in both modes. -/
theorem solved : ∃ dTs rho, ∀ d, (abtj parts d).Solved (Env.glue (vals dTs rho d)) := by
  obtain ⟨dTs, rho, hf⟩ := flight_converged
  exact ⟨dTs, rho, fun d => ⟨Cycle.converged_of (fits dTs rho d) (agrees dTs rho d) (elements_converged hf d)
    (others_ok dTs rho d), agrees dTs rho d⟩⟩

/-- The flow guards of C65 hold of the values. -/
theorem inFlight (dTs rho : ℝ) (d : Bool) : InFlight (Env.glue (vals dTs rho d)) := by
  have e0 : (Env.glue (vals dTs rho d)).num "balance.W" = 3 := by cases d <;> krfl
  have e1 : (Env.glue (vals dTs rho d)).num "burner.Wfuel" = s3.W * (1 / 6) := by krfl
  have e2 : (Env.glue (vals dTs rho d)).num "ab.Wfuel" = s5.W / (1 + 1 / 9) * (1 / 6) := by krfl
  have e3 : (Env.glue (vals dTs rho d)).num "comp.cool1:frac_W" = 1 / 6 := by krfl
  have e4 : (Env.glue (vals dTs rho d)).num "comp.cool2:frac_W" = 1 / 6 := by krfl
  constructor <;> (simp only [e0, e1, e2, e3, e4, s3, s5]; norm_num)

/-- The statements of C65 on flow, fuel and energy apply to a solved engine in both modes, with fuel in both burners. -/
theorem applies : ∃ E : Bool → Env, ∀ d, (abtj parts d).Solved (E d)
    ∧ (E d).num "nozz.Fl_O:stat:W" = (E d).num "balance.W" + (E d).num "burner.Wfuel" + (E d).num "ab.Wfuel"
    ∧ (E d).num "nozz.Fl_O:stat:W" * (E d).num "nozz.Fl_O:tot:h"
      = (E d).num "balance.W" * (E d).num "fc.Fl_O:tot:h" + (E d).num "burner.Wfuel" * (E d).num "burner.mix_fuel.mix:h"
        + (E d).num "ab.Wfuel" * (E d).num "ab.mix_fuel.mix:h"
    ∧ 0 < (E d).num "burner.Wfuel" ∧ 0 < (E d).num "ab.Wfuel" := by
  obtain ⟨dTs, rho, h⟩ := solved
  refine ⟨fun d => Env.glue (vals dTs rho d), fun d => ?_⟩
  have e0 : (Env.glue (vals dTs rho d)).vec "fc.fs.composition" = 0 := by krfl
  have e5 : (Env.glue (vals dTs rho d)).vec "turb.Fl_O:tot:composition" = fuelAir (1 / 9) := by krfl
  have hC : 1 + ∑ i : Fin 1, (Env.glue (vals dTs rho d)).vec "fc.fs.composition" i ≠ 0 := by rw [e0]; simp
  have hA : 1 + ∑ i : Fin 1, (Env.glue (vals dTs rho d)).vec "turb.Fl_O:tot:composition" i ≠ 0 := by
    rw [e5]; norm_num [fuelAir]
  have e1 : (Env.glue (vals dTs rho d)).num "burner.Wfuel" = s3.W * (1 / 6) := by krfl
  have e2 : (Env.glue (vals dTs rho d)).num "ab.Wfuel" = s5.W / (1 + 1 / 9) * (1 / 6) := by krfl
  refine ⟨h d, (C65_tab (p := parts) rfl rfl (h d) hC hA (inFlight dTs rho d)).2.2, ?_, ?_, ?_⟩
  · have B : Books parts d (fun x => 1 + ∑ i : Fin 1, x i ≠ 0) (fun x => 1 + ∑ i : Fin 1, x i ≠ 0) :=
      ⟨C57_combustor_tab _ _ d true 1 0, C57_combustor_tab _ _ d true 1 0⟩
    have k := C65_energy (h d) B hC hA (inFlight dTs rho d)
    have q : (Env.glue (vals dTs rho d)).num "duct1.Q_dot" = 0 := by krfl
    have c : (Env.glue (vals dTs rho d)).num "comp.power" = comp2Power s20 s3 (1 / 6) (1 / 2) := by krfl
    have t : (Env.glue (vals dTs rho d)).num "turb.power" = turbPower s4 28.5 (1 / 2) cool := by krfl
    have z : comp2Power s20 s3 (1 / 6) (1 / 2) + turbPower s4 28.5 (1 / 2) cool = 0 := by
      have := balanced.1
      simp only [tC, tT] at this
      linarith
    simp only [q, c, t, z] at k
    refine k.trans ?_
    simp only [parts, unitGas]
    ring
  · show 0 < (Env.glue (vals dTs rho d)).num "burner.Wfuel"
    rw [e1]; norm_num [s3]
  · show 0 < (Env.glue (vals dTs rho d)).num "ab.Wfuel"
    rw [e2]; norm_num [s5]

end C65Example
end PyCycle.OM
