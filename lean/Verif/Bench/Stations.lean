import Verif.Proofs.TurbofanNames
import Verif.Props.C58_Stations

/-! # A bench of solved elements

Each element of an engine, solved for a gas whose enthalpy is its temperature and whose other properties are constant,
at Mach 1 wherever the geometry is free, between any two stations its laws allow. Whole engines are put together from
these in the examples: they show that the hypotheses of the theorems about engines can be met. -/

namespace PyCycle.OM
namespace Bench
open C48Example (unitGas)
open C58Example (at_ move move_ok)

/-- A station at Mach 1: speed of sound, total and static pressure, flow and composition. -/
structure Stn where
  q : ℝ
  P : ℝ
  Ps : ℝ
  W : ℝ
  C : ℕ → ℝ

namespace Stn
/-- Total temperature, which is also the total enthalpy. -/
noncomputable def h (a : Stn) : ℝ := a.q ^ 2 * 1.5
noncomputable def tot (a : Stn) : TG.Station := at_ a.h a.P
noncomputable def sta (a : Stn) : TG.Station := at_ (a.q ^ 2) a.Ps
noncomputable def mov (a : Stn) : StaticState := ⟨1, a.W / a.q, a.q, a.q⟩

/-- A flow can pass. -/
structure Ok (a : Stn) : Prop where
  q : 0 < a.q
  W : a.W ≠ 0

theorem Ok.static {a : Stn} (o : a.Ok) : IsStatic (a.sta.psIn a.h a.W) a.mov
    ∧ 0 < a.sta.gamma * a.sta.R * a.sta.T ∧ 0 < a.sta.rho ∧ a.h ≠ 0 ∧ (1e-16 : ℝ) ≤ a.mov.MN ∧ a.mov.area ≠ 0 :=
  C58Example.ok_of (q := a.q) (M := 1) (P := a.Ps) rfl (by simp [mov, move]) (by simp only [h]; norm_num) o.q (by norm_num)
    o.W

/-- The rows of a table for the station under a name. -/
noncomputable def inRows (a : Stn) : List (String × ℝ) :=
  stationRows "Fl_I:tot:" a.tot ++ stationRows "Fl_I:stat:" a.sta ++ staticRows "Fl_I:stat:" a.mov a.W
noncomputable def outRows (a : Stn) : List (String × ℝ) :=
  stationRows "real_flow." a.tot ++ stationRows "Fl_O:tot:" a.tot ++ stationRows "out_stat." a.sta
    ++ stationRows "Fl_O:stat:" a.sta ++ staticRows "out_stat." a.mov a.W ++ staticRows "Fl_O:stat:" a.mov a.W
    ++ [("out_stat.guess:MN", 1)]
def inComp (a : Stn) : List (String × (ℕ → ℝ)) := [("Fl_I:tot:composition", a.C), ("Fl_I:stat:composition", a.C)]
def outComp (a : Stn) : List (String × (ℕ → ℝ)) := [("Fl_O:tot:composition", a.C), ("Fl_O:stat:composition", a.C)]
end Stn

/-- Replaces the goal by a statement the kernel finds to be the same. -/
macro "kshow " t:term : tactic => `(tactic| refine Eq.mpr (show _ = ($t : Prop) by krfl) ?_)

/-- A station at the outlet: its total and its static `Thermo`. -/
macro "outlet_of " b:term:max o:term:max : tactic => `(tactic|
  static_of (Stn.sta $b) (Stn.mov $b) (Stn.h $b) (Stn.W $b) (fun v => if v = .guessPt then Stn.P $b else 1) (Stn.Ok.static $o))

/-! ## Inlet -/

noncomputable def inletE (a b : Stn) (rec : ℝ) : Env := Env.ofTable
  ([("ram_recovery", rec), ("MN", 1), ("area", b.W / b.q), ("F_ram", a.W * a.q / 32.174), ("calcs_inlet.Pt_out", b.P)]
    ++ a.inRows ++ b.outRows) (a.inComp ++ b.outComp)

set_option maxHeartbeats 1000000 in
theorem inlet_converged {a b : Stn} {rec : ℝ} (d : Bool) (o : b.Ok) (hq : b.q = a.q) (hW : b.W = a.W) (hC : b.C = a.C)
    (hP : b.P = a.P * rec) : (inlet unitGas d true).Converged (inletE a b rec) := by
  obtain ⟨q, P, Ps, W, C⟩ := a
  obtain ⟨q', P', Ps', W', C'⟩ := b
  simp only at hq hW hP hC
  subst q' W' C'
  refine Group.converged_quick rfl (C50_inlet_interface unitGas d true).1.1.1 ?_
  intro s hs
  cases d <;> (
    simp only [inlet, if_true, Bool.false_eq_true, if_false, List.cons_append, List.nil_append, List.mem_cons,
      List.not_mem_nil, or_false] at hs
    rcases hs with rfl | rfl | rfl | rfl
    · exact trivial
    · kshow P' = P * rec ∧ W * q / 32.174 = W * q / 32.174
      exact ⟨hP, rfl⟩
    · total_of (Stn.mk q P' Ps' W C).tot
    · outlet_of (Stn.mk q P' Ps' W C) o)

/-! ## Duct -/

noncomputable def ductE (a b : Stn) (dP : ℝ) : Env := Env.ofTable
  ([("dPqP", dP), ("MN", 1), ("area", b.W / b.q), ("Q_dot", 0), ("p_loss.Pt_out", b.P), ("q_calc.ht_out", b.h)]
    ++ a.inRows ++ b.outRows) (a.inComp ++ b.outComp)

set_option maxHeartbeats 1000000 in
theorem duct_converged {a b : Stn} {dP : ℝ} (d : Bool) (o : b.Ok) (hq : b.q = a.q) (hW : b.W = a.W) (hC : b.C = a.C)
    (hP : b.P = a.P * (1 - dP)) : (duct unitGas d true 0 false).Converged (ductE a b dP) := by
  obtain ⟨q, P, Ps, W, C⟩ := a
  obtain ⟨q', P', Ps', W', C'⟩ := b
  simp only at hq hW hP hC
  subst q' W' C'
  have nd : ∀ d, ((duct gas0 d true 0 false).wiring.subs.map (·.name)).Nodup := by decide +kernel
  refine Group.converged_quick (show _ = (duct gas0 d true 0 false).wiring by cases d <;> rfl) (nd d) ?_
  intro s hs
  cases d <;> (
    simp only [duct, if_true, Bool.false_eq_true, if_false, List.cons_append, List.nil_append, List.mem_cons,
      List.not_mem_nil, or_false] at hs
    rcases hs with rfl | rfl | rfl | rfl | rfl
    · exact trivial
    · kshow P' = P * (1 - dP)
      exact hP
    · kshow q ^ 2 * 1.5 = q ^ 2 * 1.5 + 0 / W
      rw [zero_div, add_zero]
    · total_of (Stn.mk q P' Ps' W C).tot
    · outlet_of (Stn.mk q P' Ps' W C) o)

/-! ## Splitter -/

noncomputable def splitterE (a b c : Stn) (bpr : ℝ) : Env := Env.ofTable
  ([("BPR", bpr), ("MN1", 1), ("MN2", 1), ("area1", b.W / b.q), ("area2", c.W / c.q), ("split_calc.W1", b.W),
    ("split_calc.W2", c.W), ("out1_stat.guess:MN", 1), ("out2_stat.guess:MN", 1)]
    ++ a.inRows
    ++ stationRows "real_flow1." b.tot ++ stationRows "Fl_O1:tot:" b.tot ++ stationRows "out1_stat." b.sta
    ++ stationRows "Fl_O1:stat:" b.sta ++ staticRows "out1_stat." b.mov b.W ++ staticRows "Fl_O1:stat:" b.mov b.W
    ++ stationRows "real_flow2." c.tot ++ stationRows "Fl_O2:tot:" c.tot ++ stationRows "out2_stat." c.sta
    ++ stationRows "Fl_O2:stat:" c.sta ++ staticRows "out2_stat." c.mov c.W ++ staticRows "Fl_O2:stat:" c.mov c.W)
  (a.inComp ++ [("Fl_O1:tot:composition", a.C), ("Fl_O1:stat:composition", a.C), ("Fl_O2:tot:composition", a.C),
    ("Fl_O2:stat:composition", a.C)])

set_option maxHeartbeats 1000000 in
theorem splitter_converged {a b c : Stn} {bpr : ℝ} (d : Bool) (o : b.Ok) (o' : c.Ok)
    (hb : b.q = a.q ∧ b.P = a.P ∧ b.C = a.C) (hc : c.q = a.q ∧ c.P = a.P ∧ c.C = a.C)
    (h1 : b.W = a.W / (bpr + 1)) (h2 : c.W = a.W - a.W / (bpr + 1)) :
    (splitter unitGas d true).Converged (splitterE a b c bpr) := by
  obtain ⟨q, P, Ps, W, C⟩ := a
  obtain ⟨q1, P1, Ps1, W1, C1⟩ := b
  obtain ⟨q2, P2, Ps2, W2, C2⟩ := c
  simp only at hb hc h1 h2
  obtain ⟨e1, e2, e3⟩ := hb
  obtain ⟨e4, e5, e6⟩ := hc
  subst q1 P1 C1 q2 P2 C2
  have nd : ∀ d, ((splitter gas0 d true).wiring.subs.map (·.name)).Nodup := by decide +kernel
  refine Group.converged_quick (show _ = (splitter gas0 d true).wiring by cases d <;> rfl) (nd d) ?_
  intro s hs
  cases d <;> (
    simp only [splitter, if_true, Bool.false_eq_true, if_false, List.cons_append, List.nil_append, List.mem_cons,
      List.not_mem_nil, or_false] at hs
    rcases hs with rfl | rfl | rfl | rfl | rfl | rfl
    · exact trivial
    · kshow W1 = W / (bpr + 1) ∧ W2 = W - W / (bpr + 1)
      exact ⟨h1, h2⟩
    · total_of (Stn.mk q P Ps1 W1 C).tot
    · total_of (Stn.mk q P Ps2 W2 C).tot
    · outlet_of (Stn.mk q P Ps1 W1 C) o
    · outlet_of (Stn.mk q P Ps2 W2 C) o')

/-! ## Burner -/

/-- A composition of fuel per air. -/
noncomputable def fuelAir (f : ℝ) : ℕ → ℝ := fun k => if k = 0 then f else 0

noncomputable def burnerE (a b : Stn) (far hf dP : ℝ) : Env := Env.ofTable
  ([("Fl_I:FAR", far), ("mix_fuel.mix:h", hf), ("dPqP", dP), ("MN", 1), ("area", b.W / b.q), ("Wfuel", a.W * far),
    ("Wout", b.W), ("mix_fuel.mass_avg_h", b.h), ("p_loss.Pt_out", b.P)]
    ++ a.inRows ++ stationRows "vitiated_flow." b.tot ++ b.outRows)
  (a.inComp ++ [("mix_fuel.composition_out", b.C)] ++ b.outComp)

set_option maxHeartbeats 1000000 in
theorem burner_converged {a b : Stn} {far hf dP : ℝ} (d : Bool) (o : b.Ok) (oa : a.W ≠ 0) (hC : a.C = fuelAir 0)
    (hC' : b.C = fuelAir far) (hW : b.W = a.W + a.W * far) (hP : b.P = a.P * (1 - dP))
    (hh : b.h = (a.W * a.h + a.W * far * hf) / b.W) :
    (combustor unitGas (.tab 1 0) d true).Converged (burnerE a b far hf dP) := by
  obtain ⟨q, P, Ps, W, C⟩ := a
  obtain ⟨q', P', Ps', W', C'⟩ := b
  simp only [Stn.h] at hC hC' hW hP hh oa
  subst C C'
  have air : W / (1 + ∑ i : Fin 1, fuelAir 0 i) = W := by norm_num [fuelAir]
  refine Group.converged_quick rfl (C48_interface unitGas (.tab 1 0) d true).1.1.1 ?_
  intro s hs
  cases d <;> (
    simp only [combustor, Bool.false_eq_true, if_false, if_true, List.cons_append, List.nil_append, List.mem_cons,
      List.not_mem_nil, or_false] at hs
    rcases hs with rfl | rfl | rfl | rfl | rfl
    · exact trivial
    · refine ⟨?_, ?_, ?_, ?_⟩
      · kshow q' ^ 2 * 1.5 = (W * (q ^ 2 * 1.5) + W / (1 + ∑ i : Fin 1, fuelAir 0 i) * far * hf)
          / (W + W / (1 + ∑ i : Fin 1, fuelAir 0 i) * far)
        rw [air, hh, hW]
      · kshow W' = W + W / (1 + ∑ i : Fin 1, fuelAir 0 i) * far
        rw [air, hW]
      · intro k
        fin_cases k
        kshow fuelAir far 0 = (W / (1 + ∑ i : Fin 1, fuelAir 0 i) * fuelAir 0 0 + W / (1 + ∑ i : Fin 1, fuelAir 0 i) * far)
          / (W / (1 + ∑ i : Fin 1, fuelAir 0 i))
        rw [air]
        simp only [fuelAir, if_true, mul_zero, zero_add]
        rw [mul_div_cancel_left₀ _ oa]
      · kshow W * far = W / (1 + ∑ i : Fin 1, fuelAir 0 i) * far
        rw [air]
    · kshow P' = P * (1 - dP)
      exact hP
    · total_of (Stn.mk q' P' Ps' W' (fuelAir far)).tot
    · outlet_of (Stn.mk q' P' Ps' W' (fuelAir far)) o)

end Bench
end PyCycle.OM
