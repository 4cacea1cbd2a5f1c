import Verif.Bench.Plain
import Verif.Props.C62_Turboshaft

/-! # C62: a solved turboshaft, as a design point and off design

The hypotheses of the theorems of C62 are met: these values solve the engine in both modes, with fuel burnt, a choked
nozzle, the gas generator in balance and the power turbine delivering power. -/

namespace PyCycle.OM
namespace C62Example
open Bench SSTS
open C48Example (unitGas)
open C54Example (cmap tmap)

/-- The parts of the example. -/
noncomputable def parts : SstsParts :=
  { air := unitGas, burnt := unitGas, comp := cmap, turb := tmap, pt := tmap, fuel := .tab 1 0, turbBleed := .tab 1
    ptBleed := .tab 1 }

/-- Stations after inlet, compressor, burner, turbine and power turbine, and in the throat. -/
noncomputable def s2 : Stn := ⟨1, 14, 10, 3, fuelAir 0⟩
noncomputable def s3 : Stn := ⟨3, 140, 100, 3, fuelAir 0⟩
noncomputable def s4 : Stn := ⟨7 / 2, 112, 80, 4, fuelAir (1 / 3)⟩
noncomputable def s45 : Stn := ⟨5 / 2, 28, 20, 4, fuelAir (1 / 3)⟩
noncomputable def s5 : Stn := ⟨3 / 2, 14, 10, 4, fuelAir (1 / 3)⟩
noncomputable def t8 : Stn := ⟨3 / 2, 12, 8, 4, fuelAir (1 / 3)⟩

noncomputable def pamb : ℝ := 7.33889

/-- Torques. -/
noncomputable def tComp : ℝ := 5252.11 * compPower s2 s3
noncomputable def tTurb : ℝ := 5252.11 * turb0Power s4 6.375 (3 / 4)
noncomputable def tPt : ℝ := 5252.11 * turb0Power s45 1.375 (3 / 4)

/-- The gas generator is in balance, and the power turbine delivers power. -/
theorem balanced : 0 + tTurb + (0 + tComp) = 0 ∧ tComp < 0 ∧ 0 ≤ tTurb ∧ 0 < tPt := by
  refine ⟨?_, ?_, ?_, ?_⟩ <;>
    norm_num [tComp, tTurb, tPt, compPower, turb0Power, Stn.h, s2, s3, s4, s45]

/-- Delivered power. -/
noncomputable def pwr : ℝ := (0 + tPt + 0) * Shaft.convert

/-- Performance. -/
noncomputable def perfE : Env :=
  let drag := Bench.s0.W * Bench.s0.q / 32.174
  let w := s3.W * (1 / 3)
  Env.ofTable
  [("Pt2", s2.P), ("Pt3", s3.P), ("ram_drag", drag), ("power", pwr), ("Fg_0", fgCV t8 pamb), ("Wfuel_0", w),
   ("OPR", s3.P / s2.P), ("Fg", 0 + fgCV t8 pamb), ("Fn", 0 + fgCV t8 pamb - drag),
   ("TSFC", (0 + w) * 3600 / (0 + fgCV t8 pamb - drag + 1e-10)), ("PSFC", (0 + w) * 3600 / pwr), ("Wfuel", 0 + w)] []

theorem perf_ok : (performanceSub 1 1).eqn perfE perfE := ⟨by krfl, by krfl, by krfl, by krfl, by krfl, by krfl⟩

noncomputable def balanceE : Bool → Env
  | true => Env.ofTable [("W", 3), ("lhs:W", t8.P / pamb), ("nozz_PR_target", t8.P / pamb), ("FAR", 1 / 3),
      ("lhs:FAR", s4.h), ("T4_target", s4.h), ("turb_PR", 4), ("lhs:turb_PR", (0 + tTurb + (0 + tComp)) * Shaft.convert),
      ("rhs:turb_PR", 0), ("pt_PR", 2), ("lhs:pt_PR", pwr), ("pwr_target", pwr)] []
  | false => Env.ofTable [("FAR", 1 / 3), ("lhs:FAR", pwr), ("pwr_target", pwr), ("HP_Nmech", 1),
      ("lhs:HP_Nmech", (0 + tTurb + (0 + tComp)) * Shaft.convert), ("rhs:HP_Nmech", 0), ("W", 3), ("lhs:W", t8.W / t8.q),
      ("rhs:W", t8.W / t8.q)] []

/-- All values, the temperature deviation and density of the day being given. -/
noncomputable def vals (dTs rho : ℝ) (d : Bool) : String → Env
  | "fc" => flightE dTs rho
  | "inlet" => inletE Bench.s0 s2 1
  | "comp" => compE s2 s3 7.5 10 (1 / 2)
  | "burner" => burnerE s3 s4 (1 / 3) 33 0.2
  | "turb" => turb0E s4 s45 6.375 4 (3 / 4)
  | "pt" => turb0E s45 s5 1.375 2 (3 / 4)
  | "nozz" => nozzE s5 t8 (1 / 7) pamb
  | "HP_shaft" => shaft2E tComp tTurb
  | "LP_shaft" => shaft1E tPt
  | "perf" => perfE
  | "balance" => balanceE d
  | _ => Env.ofTable [("LP_Nmech", 1), ("HP_Nmech", 1)] []

/-- A station passes a flow. -/
macro "passes " s:ident : tactic => `(tactic| exact ⟨by norm_num [$s:ident], by norm_num [$s:ident]⟩)

theorem ok2 : s2.Ok := by passes s2
theorem ok3 : s3.Ok := by passes s3
theorem ok4 : s4.Ok := by passes s4
theorem ok45 : s45.Ok := by passes s45
theorem ok5 : s5.Ok := by passes s5
theorem ok8 : t8.Ok := by passes t8

/-- Every element is solved. -/
theorem elements_converged {dTs rho : ℝ} (hf : (flightConditions unitGas none).Converged (flightE dTs rho)) (d : Bool) :
    ∀ e ∈ (ssts parts d).members, e.group.Converged (vals dTs rho d e.name) := by
  simp only [ssts, elements, List.forall_mem_cons]
  refine ⟨hf, ?_, ?_, ?_, ?_, ?_, ?_, by simp⟩
  · exact inlet_converged _ ok2 rfl rfl fuelAir_zero (by norm_num [s2, Bench.s0])
  · exact comp_converged _ ok3 (by norm_num) rfl rfl (by norm_num [s2, s3]) (by norm_num [s2, s3, Stn.h])
  · exact burner_converged _ ok4 ok3.W rfl rfl (by norm_num [s3, s4]) (by norm_num [s3, s4]) (by norm_num [s3, s4, Stn.h])
  · exact turb0_converged (f := 1 / 3) _ ok45 rfl rfl rfl (by norm_num [s4]) (by norm_num [s4, s45])
      (by norm_num [s4, s45, b4, Stn.h]) (by norm_num)
  · exact turb0_converged (f := 1 / 3) _ ok5 rfl rfl rfl (by norm_num [s45]) (by norm_num [s5, s45])
      (by norm_num [s5, s45, b4, Stn.h]) (by norm_num)
  · exact nozz_converged ok8 rfl rfl rfl (by norm_num [s5, t8]) (by norm_num [pamb]) (by norm_num [t8, pamb])
      (by norm_num [t8, pamb])

/-- Every component is solved. -/
theorem others_ok (dTs rho : ℝ) (d : Bool) :
    ∀ s ∈ (ssts parts d).others, s.eqn (vals dTs rho d s.name) (vals dTs rho d s.name) := by
  obtain ⟨b1, b2, b3, b4⟩ := balanced
  simp only [ssts, List.forall_mem_cons]
  refine ⟨shaft2_ok b2 b3, shaft1_ok b4.le, perf_ok, ?_, by simp⟩
  cases d <;> (
    intro b hb
    fin_cases hb)
  · kshow (1 : ℝ) * pwr = pwr
    ring
  · kshow (1 : ℝ) * ((0 + tTurb + (0 + tComp)) * Shaft.convert) = 0
    rw [b1]; ring
  · kshow (1 : ℝ) * (t8.W / t8.q) = t8.W / t8.q
    ring
  · kshow (1 : ℝ) * (t8.P / pamb) = t8.P / pamb
    ring
  · kshow (1 : ℝ) * s4.h = s4.h
    ring
  · kshow (1 : ℝ) * ((0 + tTurb + (0 + tComp)) * Shaft.convert) = 0
    rw [b1]; ring
  · kshow (1 : ℝ) * pwr = pwr
    ring

theorem fits (dTs rho : ℝ) (d : Bool) : ∀ s ∈ (ssts parts d).group.subs, s.Fits (vals dTs rho d) := by
  have one : ∀ {s : Decl} (t : String), Plain t → Plain s.name → s.promO = [] → s.promI = [.as "Nmech" t] →
      (vals dTs rho d "").num t = (vals dTs rho d s.name).num "Nmech" →
      (vals dTs rho d "").vec t = (vals dTs rho d s.name).vec "Nmech" →
      s.Fits (vals dTs rho d) := fun t ht h h1 h2 h3 h4 => Decl.Fits.as [("Nmech", t)] h h1 h2 (by
        simp only [List.forall_mem_cons]; exact ⟨⟨ht, h3, h4⟩, by simp⟩)
  simp only [Cycle.group, ssts, elements, List.map_cons, List.map_nil, List.cons_append, List.nil_append,
    List.forall_mem_cons]
  refine ⟨?_, ?_, ?_, ?_, ?_, ?_, ?_, ?_, ?_, ?_, ?_, by simp⟩
  · exact Decl.Fits.none (by decide : Plain "fc") rfl rfl
  · exact Decl.Fits.none (by decide : Plain "inlet") rfl rfl
  · exact one "HP_Nmech" (by decide) (by decide : Plain "comp") rfl rfl (by krfl) (by krfl)
  · exact Decl.Fits.none (by decide : Plain "burner") rfl rfl
  · exact one "HP_Nmech" (by decide) (by decide : Plain "turb") rfl rfl (by krfl) (by krfl)
  · exact one "LP_Nmech" (by decide) (by decide : Plain "pt") rfl rfl (by krfl) (by krfl)
  · exact Decl.Fits.none (by decide : Plain "nozz") rfl rfl
  · exact one "HP_Nmech" (by decide) (by decide : Plain "HP_shaft") rfl rfl (by krfl) (by krfl)
  · exact one "LP_Nmech" (by decide) (by decide : Plain "LP_shaft") rfl rfl (by krfl) (by krfl)
  · exact Decl.Fits.none (by decide : Plain "perf") rfl rfl
  · exact Decl.Fits.none (by decide : Plain "balance") rfl rfl

/-- The flow links agree. -/
theorem links_agree (dTs rho : ℝ) (d : Bool) : ∀ l ∈ flows, ∀ x ∈ l.conns,
    (Env.glue (vals dTs rho d)).num x.1 = (Env.glue (vals dTs rho d)).num x.2
    ∧ (Env.glue (vals dTs rho d)).vec x.1 = (Env.glue (vals dTs rho d)).vec x.2 := by
  intro l hl
  simp only [flows, List.mem_cons, List.not_mem_nil, or_false] at hl
  rcases hl with rfl | rfl | rfl | rfl | rfl | rfl
  all_goals
    intro x hx
    refine Link.agrees (by decide) (by decide) ⟨by krfl, by krfl⟩ ?_ x hx
    intro v hv hw
    fin_cases hv <;> first | exact absurd (hw rfl) (by decide) | exact ⟨by krfl, by krfl⟩

theorem agrees (dTs rho : ℝ) (d : Bool) : (ssts parts d).group.Agrees (Env.glue (vals dTs rho d)) := by
  intro x hx
  rcases List.mem_append.mp hx with hx | hx
  · obtain ⟨l, hl, hx⟩ := List.mem_flatMap.mp hx
    exact links_agree dTs rho d l hl x hx
  · rcases List.mem_append.mp hx with hx | hx
    · simp only [plainConns] at hx
      fin_cases hx <;> exact ⟨by krfl, by krfl⟩
    · cases d <;> (
        simp only [balConns, Bool.false_eq_true, if_false, if_true] at hx
        fin_cases hx <;> exact ⟨by krfl, by krfl⟩)

/-- The engine is solved in both modes. -/
theorem solved : ∃ dTs rho, ∀ d, (ssts parts d).Solved (Env.glue (vals dTs rho d)) := by
  obtain ⟨dTs, rho, hf⟩ := flight_converged
  exact ⟨dTs, rho, fun d => ⟨Cycle.converged_of (fits dTs rho d) (agrees dTs rho d) (elements_converged hf d)
    (others_ok dTs rho d), agrees dTs rho d⟩⟩

/-- The statements of C62 on fuel, energy and shafts apply to a solved engine in both modes, which delivers power. -/
theorem applies : ∃ E : Bool → Env, ∀ d, (ssts parts d).Solved (E d)
    ∧ (E d).num "nozz.Fl_O:stat:W" = (E d).num "balance.W" + (E d).num "burner.Wfuel"
    ∧ (E d).num "nozz.Fl_O:stat:W" * (E d).num "nozz.Fl_O:tot:h"
      + (E d).num "balance.pwr_target" / (5252.11 * (2 * Real.pi / 60 / 550)) / 1.4148532
      = (E d).num "balance.W" * (E d).num "fc.Fl_O:tot:h" + (E d).num "burner.Wfuel" * (E d).num "burner.mix_fuel.mix:h"
    ∧ 0 < (E d).num "LP_shaft.pwr_net" := by
  obtain ⟨dTs, rho, h⟩ := solved
  refine ⟨fun d => Env.glue (vals dTs rho d), fun d => ?_⟩
  have e0 : (Env.glue (vals dTs rho d)).vec "fc.fs.composition" = 0 := by krfl
  have eW : (Env.glue (vals dTs rho d)).num "balance.W" = 3 := by cases d <;> krfl
  have eF : (Env.glue (vals dTs rho d)).num "burner.Wfuel" = s3.W * (1 / 3) := by krfl
  have hC : 1 + ∑ i : Fin 1, (Env.glue (vals dTs rho d)).vec "fc.fs.composition" i ≠ 0 := by rw [e0]; simp
  have hW : (Env.glue (vals dTs rho d)).num "balance.W" ≠ 0 := by rw [eW]; norm_num
  have hWf : (Env.glue (vals dTs rho d)).num "balance.W" + (Env.glue (vals dTs rho d)).num "burner.Wfuel" ≠ 0 := by
    rw [eW, eF]; norm_num [s3]
  have p1 : 0 < (Env.glue (vals dTs rho d)).num "LP_Nmech" := by
    have e : (Env.glue (vals dTs rho d)).num "LP_Nmech" = 1 := by krfl
    rw [e]; norm_num
  have p2 : 0 < (Env.glue (vals dTs rho d)).num "HP_Nmech" := by
    have e : (Env.glue (vals dTs rho d)).num "HP_Nmech" = 1 := by krfl
    rw [e]; norm_num
  refine ⟨h d, (C62_tab (p := parts) rfl (h d) hC hW hWf).2, ?_, ?_⟩
  · exact C62_delivered (h d) (okC := fun x => 1 + ∑ i : Fin 1, x i ≠ 0) (C57_combustor_tab _ _ d true 1 0) hC hW hWf p2 p1
      (by krfl) (by krfl) (by krfl) (by krfl) (by cases d <;> krfl) (by krfl)
  · have e : (Env.glue (vals dTs rho d)).num "LP_shaft.pwr_net" = (0 + tPt + 0) * Shaft.convert := by krfl
    have hc : 0 < Shaft.convert := by have := Real.pi_pos; unfold Shaft.convert; positivity
    rw [e]
    have := balanced.2.2.2
    exact mul_pos (by linarith) hc

end C62Example
end PyCycle.OM
