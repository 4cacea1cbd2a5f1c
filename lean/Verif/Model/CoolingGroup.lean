import Verif.Model.BleedWiring
import Verif.Model.Cooling

/-! # `setup` of the turbine cooling element

`Row.setup` (cooling.py:195-247) and `TurbineCooling.setup` (cooling.py:268-323), for any number of stages. -/

namespace PyCycle.OM

/-- What `CoolingCalcs` reads, by its names (cooling.py:41-49). -/
def coolingIn (i : Env) : Cool.I → ℝ
  | .turb_pwr => i.num "turb_pwr" | .Pt_in => i.num "Pt_in" | .Pt_out => i.num "Pt_out"
  | .x_factor => i.num "x_factor" | .W_primary => i.num "W_primary" | .Tt_primary => i.num "Tt_primary"
  | .Tt_cool => i.num "Tt_cool" | .ht_primary => i.num "ht_primary" | .ht_cool => i.num "ht_cool"

/-- `CoolingCalcs` as the subsystem `cooling_calcs` (cooling.py:209-214). -/
def coolingCalcsSub (o : Cool.Opt) : Sub :=
  { name := "cooling_calcs"
    ins := ["turb_pwr", "Pt_in", "Pt_out", "x_factor", "W_primary", "Tt_primary", "Tt_cool", "ht_primary", "ht_cool"]
    outs := ["W_cool", "Pt_stage", "ht_out"]
    promI := [.var "Pt_in", .var "Pt_out", .var "W_primary", .var "Tt_primary", .var "Tt_cool", .var "ht_primary",
      .var "ht_cool", .var "x_factor", .var "turb_pwr"]
    promO := [.var "W_cool"]
    eqn := fun i q => q.num "W_cool" = Cool.compute o (coolingIn i) .W_cool
      ∧ q.num "Pt_stage" = Cool.compute o (coolingIn i) .Pt_stage
      ∧ q.num "ht_out" = Cool.compute o (coolingIn i) .ht_out }

/-- `consts` (cooling.py:216-217): an `IndepVarComp` nothing reads. -/
def coolConsts : Sub :=
  { name := "consts", ins := [], outs := ["bld_frac_P"], promI := [], promO := [], eqn := fun _ _ => True }

/-- The `ThermoAdd` in flow mode with `mix_names='cool'` as the subsystem `mix_n` (cooling.py:219-226;
cea/thermo_add.py:110-191, tabular/thermo_add.py:62-144). -/
def coolAddSub (a : FlowAdder) : Sub :=
  { name := "mix_n"
    ins := ["Fl_I:stat:W", "Fl_I:tot:h", "Fl_I:tot:composition", "cool:h", "cool:composition", "cool:W"]
    outs := ["mass_avg_h", "Wout", "composition_out"]
    promI := [.as "Fl_I:stat:W" "W_primary", .as "Fl_I:tot:composition" "composition_primary", .var "cool:composition"]
    promO := [.as "Wout" "W_out"]
    eqn := fun i o => match a with
      | .cea pin pmix pst =>
        let r := flowCompute pin pmix (i.num "Fl_I:stat:W") (i.num "Fl_I:tot:h")
          (fun k => i.vec "Fl_I:tot:composition" k)
          [⟨pst, i.num "cool:W", i.num "cool:h", fun k => i.vec "cool:composition" k⟩]
        o.num "mass_avg_h" = r.h ∧ o.num "Wout" = r.W ∧ ∀ k, o.vec "composition_out" k.val = r.comp k
      | .tab n =>
        let r := tabFlowCompute (n := n) (i.num "Fl_I:stat:W") (i.num "Fl_I:tot:h")
          (fun k => i.vec "Fl_I:tot:composition" k)
          [⟨fun k => i.vec "cool:composition" k, i.num "cool:W", i.num "cool:h"⟩]
        o.num "mass_avg_h" = r.h ∧ o.num "Wout" = r.W ∧ ∀ k, o.vec "composition_out" k.val = r.comp k }

/-- `Row.setup` (cooling.py:195-247). `gas` is the mixed gas, for the elements of the turbine's outlet (228-231). -/
def coolRow (gas : (ℕ → ℝ) → TPGas) (a : FlowAdder) (o : Cool.Opt) : Group :=
  { subs := [coolingCalcsSub o, coolConsts, coolAddSub a,
      thermo gas "mixed_flow" .total_hP "Fl_O:tot" [] [.pre "Fl_O:tot:"]]
    conns := [("W_cool", "mix_n.cool:W"), ("mix_n.composition_out", "mixed_flow.composition"),
      ("cooling_calcs.ht_out", "mixed_flow.h"), ("cooling_calcs.Pt_stage", "mixed_flow.P")] }

/-- Options of `TurbineCooling` that reach the rows (cooling.py:252-254). -/
structure CoolOpt where
  n_stages : ℕ
  T_safety : ℝ := 150
  T_metal : ℝ := 2460

/-- Options of row `i` (cooling.py:293-295, 306-308). -/
def CoolOpt.row (o : CoolOpt) (i : ℕ) : Cool.Opt := ⟨o.n_stages, i, o.T_safety, o.T_metal⟩

/-- `'row_{}'.format(i)` (cooling.py:293, 302-304). -/
def rowName (i : ℕ) : String := "row_" ++ i.repr

/-- What every row takes from the element (cooling.py:285-286). -/
def rowProms : List Prom :=
  [.var "x_factor", .as "Pt_in" "Fl_turb_I:tot:P", .as "Pt_out" "Fl_turb_O:tot:P", .as "Tt_cool" "Fl_cool:tot:T",
   .as "ht_cool" "Fl_cool:tot:h", .as "cool:composition" "Fl_cool:tot:composition", .var "turb_pwr"]

/-- What the first row takes from the turbine's inlet (cooling.py:288-291). -/
def firstProms : List Prom :=
  [.as "W_primary" "Fl_turb_I:stat:W", .as "Tt_primary" "Fl_turb_I:tot:T", .as "ht_primary" "Fl_turb_I:tot:h",
   .as "composition_primary" "Fl_turb_I:tot:composition"]

/-- What a later row takes from the row before it (cooling.py:318-321). -/
def rowLinks (i : ℕ) : List (String × String) :=
  [("W_out", "W_primary"), ("Fl_O:tot:T", "Tt_primary"), ("Fl_O:tot:h", "ht_primary"),
   ("Fl_O:tot:composition", "composition_primary")].map fun c =>
    (rowName i ++ "." ++ c.1, rowName (i + 1) ++ "." ++ c.2)

/-- `indeps` (cooling.py:274-276), with `promotes=['*']`. -/
def coolIndeps : Sub :=
  { name := "indeps", ins := [], outs := ["x_factor"], promI := [.pre ""], promO := [.pre ""], eqn := fun _ _ => True }

/-- `TurbineCooling.setup` (cooling.py:268-323); `own` is the option `owns_x_factor`. `Fl_O` of the rows is not promoted.
The lengths of the composition vectors are not modelled. -/
def turbineCooling (gas : (ℕ → ℝ) → TPGas) (a : FlowAdder) (o : CoolOpt) (own : Bool) : Group :=
  { subs := (if own then [coolIndeps] else [])
      ++ ["turb_in_flow", "turb_out_flow", "cool_in_flow"].zipWith
          (fun n fl => flowIn n fl [.pre (fl ++ ":tot:"), .pre (fl ++ ":stat:")] []) ["Fl_turb_I", "Fl_turb_O", "Fl_cool"]
      ++ [(coolRow gas a (o.row 0)).asSub (rowName 0) (rowProms ++ firstProms) []]
      ++ (List.range (2 * o.n_stages - 1)).map fun i =>
          (coolRow gas a (o.row (i + 1))).asSub (rowName (i + 1)) rowProms []
    conns := (List.range (2 * o.n_stages - 1)).flatMap rowLinks }

end PyCycle.OM
