import Verif.Model.ElementWiring
import Verif.Proofs.OMLemmas
import Verif.Props.C10_C11_CeaMixing
import Verif.Props.C12_C13_TabMixing

/-! # C48: the combustor, as a whole element -/

namespace PyCycle.OM

/-- Some gas. -/
def gas0 : (ℕ → ℝ) → TPGas := fun _ =>
  ⟨fun T _ => T, fun T _ => T, fun T _ => T, fun T _ => T, fun T _ => T, fun T _ => T, fun T _ => T⟩

private abbrev cw (d s : Bool) : Wiring := (combustor gas0 (.tab 1 0) d s).wiring

private theorem wiring_eq (gas : (ℕ → ℝ) → TPGas) (a : Adder) (d s : Bool) :
    (combustor gas a d s).wiring = cw d s := by
  cases d <;> cases s <;> rfl

/-- **C48 (interface).** In every configuration the wiring is one OpenMDAO accepts, and the variables the
user (or the upstream element) has to supply are the inlet station, `Fl_I:FAR`, `dPqP`, and — with statics —
`MN` at design and `area` (with a starting guess) off design. The fuel's enthalpy is an input too, but only
under the path `mix_fuel.mix:h`. -/
theorem C48_interface (gas : (ℕ → ℝ) → TPGas) (a : Adder) (d s : Bool) :
    (combustor gas a d s).wiring.Accepted
    ∧ ∀ n, n ∈ (combustor gas a d s).wiring.externals ↔
        n ∈ (flowVarNames "Fl_I").filter (· ≠ "Fl_I:FAR") ++ ["in_flow.Fl_I:FAR"]
          ++ ["Fl_I:FAR", "dPqP", "mix_fuel.mix:h"]
          ++ (if s then if d then ["MN"] else ["area", "out_stat.guess:MN"] else []) := by
  rw [wiring_eq]
  have h : ∀ d s, (cw d s).Accepted
      ∧ (cw d s).externals ⊆ (flowVarNames "Fl_I").filter (· ≠ "Fl_I:FAR") ++ ["in_flow.Fl_I:FAR"]
          ++ ["Fl_I:FAR", "dPqP", "mix_fuel.mix:h"]
          ++ (if s then if d then ["MN"] else ["area", "out_stat.guess:MN"] else [])
      ∧ (flowVarNames "Fl_I").filter (· ≠ "Fl_I:FAR") ++ ["in_flow.Fl_I:FAR"]
          ++ ["Fl_I:FAR", "dPqP", "mix_fuel.mix:h"]
          ++ (if s then if d then ["MN"] else ["area", "out_stat.guess:MN"] else []) ⊆ (cw d s).externals := by
    decide +kernel
  exact ⟨(h d s).1, fun n => ⟨fun hn => (h d s).2.1 hn, fun hn => (h d s).2.2 hn⟩⟩

/-! ## What a converged combustor delivers -/

private theorem names_nodup (d s : Bool) : ((cw d s).subs.map (·.name)).Nodup := by
  revert d s; decide +kernel

private theorem links (d s : Bool) :
    ((cw d s).inSrc "mix_fuel" "Fl_I:stat:W" = "Fl_I:stat:W"
      ∧ (cw d s).inSrc "mix_fuel" "Fl_I:tot:h" = "Fl_I:tot:h"
      ∧ (cw d s).inSrc "mix_fuel" "Fl_I:tot:composition" = "Fl_I:tot:composition"
      ∧ (cw d s).inSrc "mix_fuel" "mix:h" = "mix_fuel.mix:h"
      ∧ (cw d s).inSrc "mix_fuel" "mix:ratio" = "Fl_I:FAR"
      ∧ (cw d s).outOf "mix_fuel" "mix:W" = "Wfuel"
      ∧ (cw d s).outOf "mix_fuel" "mass_avg_h" = "mix_fuel.mass_avg_h"
      ∧ (cw d s).outOf "mix_fuel" "Wout" = "Wout"
      ∧ (cw d s).outOf "mix_fuel" "composition_out" = "mix_fuel.composition_out")
    ∧ ((cw d s).inSrc "p_loss" "Pt_in" = "Fl_I:tot:P"
      ∧ (cw d s).inSrc "p_loss" "dPqP" = "dPqP"
      ∧ (cw d s).outOf "p_loss" "Pt_out" = "p_loss.Pt_out")
    ∧ ((cw d s).inSrc "vitiated_flow" "h" = "mix_fuel.mass_avg_h"
      ∧ (cw d s).inSrc "vitiated_flow" "P" = "p_loss.Pt_out"
      ∧ (cw d s).inSrc "vitiated_flow" "composition" = "mix_fuel.composition_out"
      ∧ (cw d s).Reports "vitiated_flow" "Fl_O:tot" .total_hP) := by
  revert d s; decide +kernel

private theorem links_stat (d : Bool) :
    (cw d true).inSrc "out_stat" "S" = "Fl_O:tot:S" ∧ (cw d true).inSrc "out_stat" "ht" = "Fl_O:tot:h"
    ∧ (cw d true).inSrc "out_stat" "W" = "Wout"
    ∧ (cw d true).inSrc "out_stat" "composition" = "mix_fuel.composition_out"
    ∧ (cw true true).inSrc "out_stat" "MN" = "MN" ∧ (cw false true).inSrc "out_stat" "area" = "area"
    ∧ (cw d true).Reports "out_stat" "Fl_O:stat" .static_MN
    ∧ (cw d true).Reports "out_stat" "Fl_O:stat" .static_A
    ∧ (cw d false).inSrc "W_passthru" "Wout" = "Wout"
    ∧ (cw d false).outOf "W_passthru" "Fl_O:stat:W" = "Fl_O:stat:W" := by
  revert d; decide +kernel

private abbrev mixProms : List Prom := [.var "Fl_I:stat:W", .as "mix:ratio" "Fl_I:FAR",
  .var "Fl_I:tot:composition", .var "Fl_I:tot:h", .as "mix:W" "Wfuel", .var "Wout"]

/-- The fuel side of a converged combustor, in the names of the element. -/
private theorem mix_eqn {gas : (ℕ → ℝ) → TPGas} {a : Adder} {d s : Bool} {E : Env}
    (hc : (combustor gas a d s).Converged E) :
    (reactantSub a "mix_fuel" mixProms mixProms).eqn ((cw d s).rd E "mix_fuel")
      ((cw d s).wr E "mix_fuel") :=
  hc.sub (wiring_eq gas a d s) (names_nodup d s) 1 (reactantSub a "mix_fuel" mixProms mixProms) rfl _ rfl

/-- **C48 (outlet).** A converged combustor, in every configuration and with either thermodynamic method:
the outlet total pressure is the inlet's less the given fraction; the outlet station is one state of the
outlet gas; and the outlet flow is `Wout`. -/
theorem C48_outlet (gas : (ℕ → ℝ) → TPGas) (a : Adder) (d s : Bool) (E : Env)
    (hc : (combustor gas a d s).Converged E) :
    E.num "Fl_O:tot:P" = E.num "Fl_I:tot:P" * (1 - E.num "dPqP")
    ∧ StateOf (gas (E.vec "Fl_O:tot:composition")) E "Fl_O:tot"
    ∧ E.num "Fl_O:stat:W" = E.num "Wout"
    ∧ E.num "Fl_O:tot:h" = E.num "mix_fuel.mass_avg_h"
    ∧ E.vec "Fl_O:tot:composition" = E.vec "mix_fuel.composition_out" := by
  have hn := names_nodup d s
  obtain ⟨-, ⟨p1, p2, p3⟩, v1, v2, v3, v4⟩ := links d s
  have hp' := hc.sub (wiring_eq gas a d s) hn 2 pressureLoss rfl "p_loss" rfl
  have hv := hc.station (gas := gas) (wiring_eq gas a d s) hn 3 rfl v4
  simp only [pressureLoss, Wiring.rd, Wiring.wr, NC.rd, NC.wr, NC.inSrc_eq, NC.outOf_eq, p1, p2, p3, Duct.ptOut] at hp'
  have s1 := hv.state
  have s3 := hv.hp rfl
  have s9 := hv.comp rfl
  simp only [Wiring.rd, v1, v2, v3] at s1 s3 s9
  have e1 : E.at "Fl_O:tot" "P" = E.num "Fl_O:tot:P" := by
    unfold Env.at; congr 1
  have e2 : E.at "Fl_O:tot" "h" = E.num "Fl_O:tot:h" := by
    unfold Env.at; congr 1
  have e3 : "Fl_O:tot" ++ ":" ++ "composition" = "Fl_O:tot:composition" := by decide
  rw [e1, e2] at s3
  rw [e3] at s9
  refine ⟨?_, ?_, ?_, s3.1, s9⟩
  · rw [s3.2, hp']
  · rw [s9]; exact s1
  · cases s
    · obtain ⟨-, -, -, -, -, -, -, -, q1, q2⟩ := links_stat d
      have hw := hc.sub (wiring_eq gas a d false) hn 4 (passThrough "W_passthru" "Wout" "Fl_O:stat:W") rfl
        "W_passthru" rfl
      simpa only [passThrough, Wiring.rd, Wiring.wr, NC.rd, NC.wr, NC.inSrc_eq, NC.outOf_eq, q1, q2] using hw
    · obtain ⟨-, -, q3, -, -, -, q7, q8, -, -⟩ := links_stat d
      have e4 : E.at "Fl_O:stat" "W" = E.num "Fl_O:stat:W" := by unfold Env.at; congr 1
      cases d
      · have := ((hc.station (gas := gas) (wiring_eq gas a false true) hn 4 rfl q8).stat rfl).2
        rw [← e4, this]; simp only [Wiring.rd, q3]
      · have := ((hc.station (gas := gas) (wiring_eq gas a true true) hn 4 rfl q7).stat rfl).2
        rw [← e4, this]; simp only [Wiring.rd, q3]

/-- **C48 (static station).** With statics, the outlet's static station is a state of the outlet gas at the
outlet's entropy; it has the Mach number (design) or the area (off design) that was asked for; and speed,
area and flow satisfy the energy and continuity equations (guards as for C24). -/
theorem C48_static (gas : (ℕ → ℝ) → TPGas) (a : Adder) (d : Bool) (E : Env)
    (hc : (combustor gas a d true).Converged E) :
    StateOf (gas (E.vec "Fl_O:tot:composition")) E "Fl_O:stat"
    ∧ (d = true → E.num "Fl_O:stat:MN" = E.num "MN")
    ∧ (d = false → E.num "Fl_O:stat:area" = E.num "area")
    ∧ (0 < E.num "Fl_O:stat:gamma" * E.num "Fl_O:stat:R" * E.num "Fl_O:stat:T" → 0 < E.num "Fl_O:stat:rho" →
        E.num "Fl_O:tot:h" ≠ 0 → (d = true → 1e-16 ≤ E.num "MN") → (d = false → E.num "area" ≠ 0) →
        Moving E "Fl_O:stat" (E.num "Fl_O:stat:W") (E.num "Fl_O:tot:h") (E.num "Fl_O:tot:S")) := by
  have hn := names_nodup d true
  obtain ⟨-, -, oW, -, oc⟩ := C48_outlet gas a d true E hc
  obtain ⟨q1, q2, q3, q4, q5, q6, q7, q8, -, -⟩ := links_stat d
  cases d
  · have t := hc.station (gas := gas) (wiring_eq gas a false true) hn 4 rfl q8
    have t1 := t.state
    have t2 := t.area rfl
    have t3 := t.moving rfl
    simp only [Wiring.rd, q1, q2, q3, q4, q6, Env.at, String.reduceAppend, forall_const, reduceCtorEq,
      false_implies] at t1 t2 t3
    refine ⟨by rw [oc]; exact t1, by simp, fun _ => t2, fun g1 g2 g3 _ g5 => ?_⟩
    rw [oW]
    exact t3 g1 g2 g3 (by rw [t2]; exact g5 rfl)
  · have t := hc.station (gas := gas) (wiring_eq gas a true true) hn 4 rfl q7
    have t1 := t.state
    have t2 := t.mn rfl
    have t3 := t.moving rfl
    simp only [Wiring.rd, q1, q2, q3, q4, q5, Env.at, String.reduceAppend, forall_const, reduceCtorEq,
      false_implies] at t1 t2 t3
    refine ⟨by rw [oc]; exact t1, fun _ => t2, by simp, fun g1 g2 g3 g4 _ => ?_⟩
    rw [oW]
    exact t3 g1 g2 g3 (by rw [t2]; exact g4 rfl)

/-- **C48 (fuel, CEA).** With the CEA method and a fuel the data know: the fuel flow is `FAR` times the inlet
flow; the outlet flow is inlet plus fuel; the outlet composition has unit mass and contains, element by
element, what the inlet and the fuel bring; and the outlet carries the enthalpy of inlet and fuel. -/
theorem C48_cea (gas : (ℕ → ℝ) → TPGas) (d s : Bool) (E : Env)
    (data : ThermoData) (infl : PyDict ℝ) (hin : infl.keys.Nodup) (fuel : String) (f : PyDict ℝ)
    (hf : data.reactants.get? fuel = some f) (hfk : f.keys.Nodup) (hfm : formulaMass f data.wtOf ≠ 0)
    (S : ReactantAdd) (hS : reactantSetup data (some infl) ["mix"] [fuel] = .ok S)
    (hwt : ∀ e ∈ S.mixed.elements, data.wtOf e ≠ 0)
    (hcomp : totalMass S.inflow.elements data.wtOf (fun k => E.vec "Fl_I:tot:composition" k) ≠ 0)
    (hW : E.num "Fl_I:stat:W" + E.num "Wfuel" ≠ 0)
    (hc : (combustor gas (.cea S) d s).Converged E) :
    E.num "Wfuel" = E.num "Fl_I:stat:W" * E.num "Fl_I:FAR"
    ∧ E.num "Fl_O:stat:W" = E.num "Fl_I:stat:W" + E.num "Wfuel"
    ∧ totalMass S.mixed.elements data.wtOf (fun k => E.vec "Fl_O:tot:composition" k) = 1
    ∧ (∀ e, E.num "Fl_O:stat:W"
          * elemMassFrac S.mixed.elements data.wtOf (fun k => E.vec "Fl_O:tot:composition" k) e
        = E.num "Fl_I:stat:W"
          * elemMassFrac S.inflow.elements data.wtOf (fun k => E.vec "Fl_I:tot:composition" k) e
          + E.num "Wfuel" * formulaMassFrac f data.wtOf e)
    ∧ E.num "Fl_O:stat:W" * E.num "Fl_O:tot:h" = E.num "Fl_I:stat:W" * E.num "Fl_I:tot:h"
        + E.num "Wfuel" * E.num "mix_fuel.mix:h" := by
  obtain ⟨-, -, oW, oh, oc⟩ := C48_outlet gas _ d s E hc
  have hm := mix_eqn hc
  obtain ⟨⟨m1, m2, m3, m4, m5, m6, m7, m8, m9⟩, -⟩ := links d s
  have a1 : ("mix" : String) ++ ":ratio" = "mix:ratio" := by decide
  have a2 : ("mix" : String) ++ ":h" = "mix:h" := by decide
  simp only [reactantSub, Wiring.rd, Wiring.wr, NC.rd, NC.wr, NC.inSrc_eq, NC.outOf_eq, m1, m2, m3, m6, m7, m8, m9, reactantW, a1, m5] at hm
  obtain ⟨r1, r2, r3, r4⟩ := hm
  have key := C10_reactant_conservation data infl hin ["mix"] [fuel] S hS
    (fun r hr g hg => by
      rw [List.mem_singleton] at hr; subst hr
      rw [hf] at hg; cases hg; exact ⟨hfk, hfm⟩) hwt (E.num "Fl_I:stat:W") (E.num "Fl_I:tot:h")
    (fun k => E.vec "Fl_I:tot:composition" k) hcomp
    (fun n => E.num ((cw d s).inSrc "mix_fuel" (n ++ ":ratio")))
    (fun n => E.num ((cw d s).inSrc "mix_fuel" (n ++ ":h")))
    (by simpa [a1, m5, ← r4] using hW)
  obtain ⟨⟨k1, k2, k3, k4⟩, -⟩ := key
  simp only [List.zip_cons_cons, List.zip_nil_right, List.map_cons, List.map_nil, List.sum_cons, List.sum_nil,
    add_zero, a1, a2, m4, m5, ← r4, hf, Option.getD_some] at k1 k3 k4
  rw [← r2] at k1
  have hcv : (fun k : Fin S.mixed.elements.length => E.vec "Fl_O:tot:composition" k)
      = (reactantCompute S (E.num "Fl_I:stat:W") (E.num "Fl_I:tot:h")
        (fun k => E.vec "Fl_I:tot:composition" k)
        (fun n => E.num ((cw d s).inSrc "mix_fuel" (n ++ ":ratio")))
        (fun n => E.num ((cw d s).inSrc "mix_fuel" (n ++ ":h")))).comp := by
    funext k; rw [oc]; exact r3 k
  refine ⟨r4, by rw [oW, k1], ?_, ?_, ?_⟩
  · rw [hcv]; exact k2
  · intro e; rw [hcv, oW, r2]; exact k3 e
  · rw [oW, oh, r1, r2]; exact k4

/-- **C48 (fuel, tabular).** With the tabular method `FAR` is fuel per unit of *dry air*: the fuel flow is
`FAR` times the air in the inlet; the outlet contains that air, the inlet's additives, and the fuel added to
additive `idx`; flow and enthalpy add up. -/
theorem C48_tab (gas : (ℕ → ℝ) → TPGas) (d s : Bool) (E : Env) (n : ℕ) (idx : Fin n)
    (hcomp : 1 + ∑ i : Fin n, E.vec "Fl_I:tot:composition" i ≠ 0) (hW0 : E.num "Fl_I:stat:W" ≠ 0)
    (hW : E.num "Fl_I:stat:W" + E.num "Wfuel" ≠ 0)
    (hc : (combustor gas (.tab n idx) d s).Converged E) :
    let cin : Fin n → ℝ := fun k => E.vec "Fl_I:tot:composition" k
    let cout : Fin n → ℝ := fun k => E.vec "Fl_O:tot:composition" k
    E.num "Wfuel" = airMass (E.num "Fl_I:stat:W") cin * E.num "Fl_I:FAR"
    ∧ E.num "Fl_O:stat:W" = E.num "Fl_I:stat:W" + E.num "Wfuel"
    ∧ airMass (E.num "Fl_O:stat:W") cout = airMass (E.num "Fl_I:stat:W") cin
    ∧ (∀ i, additiveMass (E.num "Fl_O:stat:W") cout i = additiveMass (E.num "Fl_I:stat:W") cin i
        + if i = idx then E.num "Wfuel" else 0)
    ∧ E.num "Fl_O:stat:W" * E.num "Fl_O:tot:h" = E.num "Fl_I:stat:W" * E.num "Fl_I:tot:h"
        + E.num "Wfuel" * E.num "mix_fuel.mix:h" := by
  obtain ⟨-, -, oW, oh, oc⟩ := C48_outlet gas _ d s E hc
  have hm := mix_eqn hc
  obtain ⟨⟨m1, m2, m3, m4, m5, m6, m7, m8, m9⟩, -⟩ := links d s
  simp only [reactantSub, Wiring.rd, Wiring.wr, NC.rd, NC.wr, NC.inSrc_eq, NC.outOf_eq, m1, m2, m3, m4, m5, m6, m7, m8, m9] at hm
  obtain ⟨r1, r2, r3, r4⟩ := hm
  have hair : E.num "Wfuel" = airMass (E.num "Fl_I:stat:W") (fun k : Fin n => E.vec "Fl_I:tot:composition" k)
      * E.num "Fl_I:FAR" := r4
  intro cin cout
  have key := C12_tab_injection (E.num "Fl_I:stat:W") (E.num "Fl_I:tot:h") cin idx
    [⟨E.num "Fl_I:FAR", E.num "mix_fuel.mix:h"⟩] hcomp hW0
    (by simp only [List.map_cons, List.map_nil, List.sum_cons, List.sum_nil, add_zero]
        rw [show airMass (E.num "Fl_I:stat:W") cin * E.num "Fl_I:FAR" = E.num "Wfuel" from hair.symm]
        exact hW)
  obtain ⟨-, k1, k2, k3, k4⟩ := key
  simp only [List.map_cons, List.map_nil, List.sum_cons, List.sum_nil, add_zero] at k1 k2 k3 k4
  have hair' : airMass (E.num "Fl_I:stat:W") cin * E.num "Fl_I:FAR" = E.num "Wfuel" := hair.symm
  rw [hair'] at k1 k3 k4
  have hcv : cout = (tabReactantCompute (E.num "Fl_I:stat:W") (E.num "Fl_I:tot:h") cin idx
      [⟨E.num "Fl_I:FAR", E.num "mix_fuel.mix:h"⟩]).comp := by
    funext k; simp only [cout]; rw [oc]; exact r3 k
  have r2' : E.num "Wout" = (tabReactantCompute (E.num "Fl_I:stat:W") (E.num "Fl_I:tot:h") cin idx
      [⟨E.num "Fl_I:FAR", E.num "mix_fuel.mix:h"⟩]).W := r2
  have r1' : E.num "mix_fuel.mass_avg_h" = (tabReactantCompute (E.num "Fl_I:stat:W") (E.num "Fl_I:tot:h") cin idx
      [⟨E.num "Fl_I:FAR", E.num "mix_fuel.mix:h"⟩]).h := r1
  refine ⟨hair, by rw [oW, r2', k1], ?_, ?_, ?_⟩
  · rw [hcv, oW, r2']; exact k2
  · intro i; rw [hcv, oW, r2']; exact k3 i
  · rw [oW, oh, r2', r1']; exact k4

/-! ## A converged combustor -/

namespace C48Example

/-- A gas with unit properties and enthalpy equal to temperature. -/
def unitGas : (ℕ → ℝ) → TPGas := fun _ =>
  ⟨fun T _ => T, fun _ _ => 0, fun _ _ => 1, fun _ _ => 1, fun _ _ => 1, fun _ _ => 1, fun _ _ => 1⟩

/-- Outlet totals. -/
def tot : TG.Station := ⟨1.5, 2, 1.5, 0, 1, 1, 1, 1, 1⟩
/-- Outlet statics. -/
def sta : TG.Station := ⟨1, 0.5, 1, 0, 1, 1, 1, 1, 1⟩
/-- Outlet speed. -/
def mov : StaticState := ⟨1, 3, 1, 1⟩

/-- Air flow 2 at enthalpy 2 burns fuel flow 1 of enthalpy 1/2. -/
noncomputable def burnt : Env := Env.ofTable
  ([("Fl_I:stat:W", 2), ("Fl_I:tot:h", 2), ("Fl_I:tot:P", 4), ("Fl_I:FAR", 0.5), ("mix_fuel.mix:h", 0.5),
    ("dPqP", 0.5), ("MN", 1), ("Wfuel", 1), ("Wout", 3), ("mix_fuel.mass_avg_h", 1.5), ("p_loss.Pt_out", 2)]
    ++ stationRows "vitiated_flow." tot ++ stationRows "Fl_O:tot:" tot ++ stationRows "out_stat." sta
    ++ stationRows "Fl_O:stat:" sta ++ staticRows "out_stat." mov 3 ++ staticRows "Fl_O:stat:" mov 3)
  [("mix_fuel.composition_out", fun k => if k = 0 then 0.5 else 0),
   ("Fl_O:tot:composition", fun k => if k = 0 then 0.5 else 0)]

/-- It is converged. -/
theorem burnt_converged : (combustor unitGas (.tab 1 0) true true).Converged burnt := by
  refine Group.converged_quick (wiring_eq unitGas (.tab 1 0) true true) (names_nodup true true) ?_
  obtain ⟨⟨m1, m2, m3, m4, m5, m6, m7, m8, m9⟩, ⟨p1, p2, p3⟩, -⟩ := links true true
  intro s hs
  simp only [combustor, if_true, List.cons_append, List.nil_append, List.mem_cons, List.not_mem_nil,
    or_false] at hs
  rcases hs with rfl | rfl | rfl | rfl | rfl
  · exact trivial
  · simp only [reactantSub, Wiring.rd, Wiring.wr, NC.rd, NC.wr, NC.inSrc_eq, NC.outOf_eq, m1, m2, m3, m4, m5, m6, m7, m8, m9]
    have b1 : burnt.num "Fl_I:stat:W" = 2 := rfl
    have b2 : burnt.num "Fl_I:tot:h" = 2 := rfl
    have b3 : burnt.num "Fl_I:FAR" = 0.5 := rfl
    have b4 : burnt.num "mix_fuel.mix:h" = 0.5 := rfl
    have b5 : burnt.vec "Fl_I:tot:composition" = 0 := rfl
    have b6 : burnt.num "Wfuel" = 1 := rfl
    have b7 : burnt.num "Wout" = 3 := rfl
    have b8 : burnt.num "mix_fuel.mass_avg_h" = 1.5 := rfl
    have b9 : burnt.vec "mix_fuel.composition_out" = fun k => if k = 0 then 0.5 else 0 := rfl
    simp only [b1, b2, b3, b4, b5, b6, b7, b8, b9, tabReactantCompute, tabReactantW, tabStart, tabAir]
    refine ⟨by norm_num, by norm_num, ?_, by norm_num⟩
    intro k
    fin_cases k
    norm_num
  · simp only [pressureLoss, Wiring.rd, Wiring.wr, NC.rd, NC.wr, NC.inSrc_eq, NC.outOf_eq, p1, p2, p3]
    have b1 : burnt.num "Fl_I:tot:P" = 4 := rfl
    have b2 : burnt.num "dPqP" = 0.5 := rfl
    have b3 : burnt.num "p_loss.Pt_out" = 2 := rfl
    rw [b3]; simp only [Duct.ptOut, b1, b2]; norm_num
  · refine thermo_eqn_of tot mov 1.5 3 (fun _ => 0) ⟨rfl, rfl, rfl, rfl, rfl, rfl, rfl⟩
      (fun h => absurd h (by decide)) ?_ ?_ ?_ (fun h => absurd h (by decide)) (fun _ => rfl)
    · intro v hv hne
      fin_cases hv <;> first | rfl | exact absurd rfl hne
    · intro q hq
      fin_cases hq <;> rfl
    · intro v hv hne
      fin_cases hv <;> first | rfl | exact absurd rfl hne
  · refine thermo_eqn_of sta mov 1.5 3 (fun v => if v = .guessPt then 2 else 1) ⟨rfl, rfl, rfl, rfl, rfl, rfl, rfl⟩
      (fun _ => ⟨⟨by simp [TG.Station.psIn, sta, mov], by simp [mov], by simp [TG.Station.psIn, sta, mov],
        by simp [TG.Station.psIn, sta, mov]; norm_num⟩, by simp [sta], by simp [sta], by norm_num,
        by norm_num [mov], by simp [mov]⟩) ?_ ?_ ?_ ?_ (fun h => absurd h (by decide))
    · intro v hv hne
      fin_cases hv <;> first | rfl | exact absurd rfl hne
    · intro q hq
      fin_cases hq <;> rfl
    · intro v hv hne
      fin_cases hv <;> first | rfl | exact absurd rfl hne
    · intro _ v hv
      fin_cases hv <;> rfl

/-- The hypotheses of `C48_tab` and `C48_static` hold of it; fuel is burnt. -/
example : 1 + ∑ i : Fin 1, burnt.vec "Fl_I:tot:composition" i ≠ 0 ∧ burnt.num "Fl_I:stat:W" ≠ 0
    ∧ burnt.num "Fl_I:stat:W" + burnt.num "Wfuel" ≠ 0 ∧ burnt.num "Wfuel" ≠ 0
    ∧ 0 < burnt.num "Fl_O:stat:gamma" * burnt.num "Fl_O:stat:R" * burnt.num "Fl_O:stat:T"
    ∧ 0 < burnt.num "Fl_O:stat:rho" ∧ burnt.num "Fl_O:tot:h" ≠ 0 ∧ 1e-16 ≤ burnt.num "MN" := by
  have b1 : burnt.num "Fl_I:stat:W" = 2 := rfl
  have b2 : burnt.vec "Fl_I:tot:composition" = 0 := rfl
  have b3 : burnt.num "Wfuel" = 1 := rfl
  have b4 : burnt.num "Fl_O:stat:gamma" = 1 := rfl
  have b5 : burnt.num "Fl_O:stat:R" = 1 := rfl
  have b6 : burnt.num "Fl_O:stat:T" = 1 := rfl
  have b7 : burnt.num "Fl_O:stat:rho" = 1 := rfl
  have b8 : burnt.num "Fl_O:tot:h" = 1.5 := rfl
  have b9 : burnt.num "MN" = 1 := rfl
  rw [b1, b2, b3, b4, b5, b6, b7, b8, b9]
  norm_num

end C48Example

end PyCycle.OM
