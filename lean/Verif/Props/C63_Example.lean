import Verif.Bench.Assembly
import Verif.Props.C63_Propulsor

/-! # C63: a solved propulsor, as a design point and off design

The hypotheses of the theorems of C63 are met: these values solve the engine in both modes, with power given to the fan
and a choked nozzle. -/

namespace PyCycle.OM
namespace C63Example
open Bench Propulsor
open C48Example (unitGas)
open C54Example (cmap)

/-- The parts of the example. -/
noncomputable def parts : PropulsorParts := { air := unitGas, fan := cmap, water := none }

/-- Stations after inlet and fan, and in the throat. -/
noncomputable def s2 : Stn := ⟨1, 14, 10, 3, fuelAir 0⟩
noncomputable def s3 : Stn := ⟨2, 28, 20, 3, fuelAir 0⟩
noncomputable def t8 : Stn := ⟨2, 14, 8, 3, fuelAir 0⟩

noncomputable def pamb : ℝ := 7.33889

/-- Performance. -/
noncomputable def perfE : Env :=
  let drag := Bench.s0.W * Bench.s0.q / 32.174
  Env.ofTable
  [("Pt2", s2.P), ("Pt3", s3.P), ("ram_drag", drag), ("power", 1), ("Fg_0", fgCV t8 pamb),
   ("OPR", s3.P / s2.P), ("Fg", 0 + fgCV t8 pamb), ("Fn", 0 + fgCV t8 pamb - drag),
   ("TSFC", 0 * 3600 / (0 + fgCV t8 pamb - drag + 1e-10)), ("PSFC", 0 * 3600 / 1), ("Wfuel", 0)] []

theorem perf_ok : (performanceSub 1 0).eqn perfE perfE := ⟨by krfl, by krfl, by krfl, by krfl, by krfl, by krfl⟩

noncomputable def balanceE : Bool → Env
  | true => Env.ofTable [("W", 3), ("lhs:W", compPower s2 s3), ("rhs:W", compPower s2 s3)] []
  | false => Env.ofTable [("W", 3), ("lhs:W", t8.W / t8.q), ("rhs:W", t8.W / t8.q), ("Nmech", 1),
      ("lhs:Nmech", compPower s2 s3), ("rhs:Nmech", compPower s2 s3)] []

/-- All values, the temperature deviation and density of the day being given. -/
noncomputable def vals (dTs rho : ℝ) (d : Bool) : String → Env
  | "fc" => flightE dTs rho
  | "inlet" => inletE Bench.s0 s2 1
  | "fan" => compE s2 s3 3.75 2 (1 / 2)
  | "nozz" => nozzE s3 t8 (1 / 2) pamb
  | "perf" => perfE
  | "balance" => balanceE d
  | "shaft" => Env.ofTable [("Nmech", 1)] []
  | _ => Env.ofTable [("pwr_target", compPower s2 s3)] []

/-- A station passes a flow. -/
macro "passes " s:ident : tactic => `(tactic| exact ⟨by norm_num [$s:ident], by norm_num [$s:ident]⟩)

theorem ok2 : s2.Ok := by passes s2
theorem ok3 : s3.Ok := by passes s3
theorem ok8 : t8.Ok := by passes t8

/-- Every element is solved. -/
theorem elements_converged {dTs rho : ℝ} (hf : (flightConditions unitGas none).Converged (flightE dTs rho)) (d : Bool) :
    ∀ e ∈ (propulsor parts d).members, e.group.Converged (vals dTs rho d e.name) := by
  simp only [propulsor, elements, List.forall_mem_cons]
  refine ⟨hf, ?_, ?_, ?_, by simp⟩
  · exact inlet_converged _ ok2 rfl rfl fuelAir_zero (by norm_num [s2, Bench.s0])
  · exact comp_converged _ ok3 (by norm_num) rfl rfl (by norm_num [s2, s3]) (by norm_num [s2, s3, Stn.h])
  · exact nozz_converged ok8 rfl rfl rfl (by norm_num [s3, t8]) (by norm_num [pamb]) (by norm_num [t8, pamb])
      (by norm_num [t8, pamb])

/-- Every component is solved. -/
theorem others_ok (dTs rho : ℝ) (d : Bool) :
    ∀ s ∈ (propulsor parts d).others, s.eqn (vals dTs rho d s.name) (vals dTs rho d s.name) := by
  cases d
  · simp only [propulsor, List.forall_mem_cons, Bool.false_eq_true, if_false]
    refine ⟨perf_ok, ?_, by simp⟩
    intro b hb
    fin_cases hb
    · kshow (1 : ℝ) * (t8.W / t8.q) = t8.W / t8.q
      ring
    · kshow (1 : ℝ) * compPower s2 s3 = compPower s2 s3
      ring
  · simp only [propulsor, List.forall_mem_cons, if_true]
    refine ⟨perf_ok, ?_, trivial, by simp⟩
    intro b hb
    fin_cases hb
    kshow (1 : ℝ) * compPower s2 s3 = compPower s2 s3
    ring

theorem fits (dTs rho : ℝ) (d : Bool) : ∀ s ∈ (propulsor parts d).group.subs, s.Fits (vals dTs rho d) := by
  cases d <;> (
    simp only [Cycle.group, propulsor, elements, List.map_cons, List.map_nil, List.cons_append, List.nil_append,
      List.forall_mem_cons, Bool.false_eq_true, if_false, if_true]
    refine ⟨Decl.Fits.none (by decide : Plain "fc") rfl rfl, Decl.Fits.none (by decide : Plain "inlet") rfl rfl,
      Decl.Fits.none (by decide : Plain "fan") rfl rfl, Decl.Fits.none (by decide : Plain "nozz") rfl rfl,
      Decl.Fits.none (by decide : Plain "perf") rfl rfl, ?_⟩)
  · refine ⟨Decl.Fits.as [("rhs:Nmech", "pwr_target")] (by decide : Plain "balance") rfl rfl ?_, by simp⟩
    simp only [List.forall_mem_cons]
    exact ⟨⟨by decide, by krfl, by krfl⟩, by simp⟩
  · refine ⟨Decl.Fits.as [("rhs:W", "pwr_target")] (by decide : Plain "balance") rfl rfl ?_,
      Decl.Fits.none (by decide : Plain "shaft") rfl rfl, by simp⟩
    simp only [List.forall_mem_cons]
    exact ⟨⟨by decide, by krfl, by krfl⟩, by simp⟩

/-- The flow links agree. -/
theorem links_agree (dTs rho : ℝ) (d : Bool) : ∀ l ∈ flows, ∀ x ∈ l.conns,
    (Env.glue (vals dTs rho d)).num x.1 = (Env.glue (vals dTs rho d)).num x.2
    ∧ (Env.glue (vals dTs rho d)).vec x.1 = (Env.glue (vals dTs rho d)).vec x.2 := by
  intro l hl
  simp only [flows, List.mem_cons, List.not_mem_nil, or_false] at hl
  rcases hl with rfl | rfl | rfl
  all_goals
    intro x hx
    refine Link.agrees (by decide) (by decide) ⟨by krfl, by krfl⟩ ?_ x hx
    intro v hv hw
    fin_cases hv <;> exact ⟨by krfl, by krfl⟩

theorem agrees (dTs rho : ℝ) (d : Bool) : (propulsor parts d).group.Agrees (Env.glue (vals dTs rho d)) := by
  intro x hx
  rcases List.mem_append.mp hx with hx | hx
  · obtain ⟨l, hl, hx⟩ := List.mem_flatMap.mp hx
    exact links_agree dTs rho d l hl x hx
  · rcases List.mem_append.mp hx with hx | hx
    · simp only [plainConns] at hx
      cases d <;> (fin_cases hx <;> exact ⟨by krfl, by krfl⟩)
    · cases d <;> (
        simp only [balConns, Bool.false_eq_true, if_false, if_true] at hx
        fin_cases hx <;> exact ⟨by krfl, by krfl⟩)

/-- The engine is solved in both modes. -/
theorem solved : ∃ dTs rho, ∀ d, (propulsor parts d).Solved (Env.glue (vals dTs rho d)) := by
  obtain ⟨dTs, rho, hf⟩ := flight_converged
  exact ⟨dTs, rho, fun d => ⟨Cycle.converged_of (fits dTs rho d) (agrees dTs rho d) (elements_converged hf d)
    (others_ok dTs rho d), agrees dTs rho d⟩⟩

/-- The statements of C63 apply to a solved engine in both modes, whose fan turns and takes power. -/
theorem applies : ∃ E : Bool → Env, ∀ d, (propulsor parts d).Solved (E d)
    ∧ (E d).num "fan.power" = (E d).num "pwr_target" ∧ (E d).num "pwr_target" < 0
    ∧ (E d).num "fan.Nmech" ≠ 0 ∧ (E d).num "fan.eff" ≠ 0 := by
  obtain ⟨dTs, rho, h⟩ := solved
  refine ⟨fun d => Env.glue (vals dTs rho d), fun d => ⟨h d, (C63_targets (h d)).1, ?_, ?_, ?_⟩⟩
  · have e : (Env.glue (vals dTs rho d)).num "pwr_target" = compPower s2 s3 := by krfl
    rw [e]; norm_num [compPower, s2, s3, Stn.h]
  · have e : (Env.glue (vals dTs rho d)).num "fan.Nmech" = 1 := by krfl
    rw [e]; norm_num
  · have e : (Env.glue (vals dTs rho d)).num "fan.eff" = 1 / 2 := by krfl
    rw [e]; norm_num

end C63Example
end PyCycle.OM
