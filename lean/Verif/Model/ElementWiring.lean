import Verif.Model.OMGroup
import Verif.Model.CeaThermoAdd
import Verif.Model.TabThermoAdd
import Verif.Model.Atmosphere
import Verif.Model.Inlet
import Verif.Model.Duct
import Verif.Model.SplitBleed
import Verif.Model.Mixer
import Verif.Model.Nozzle

/-! # `setup` of the elements without bleeds

Each element is the list of its subsystems with their promotions and of its `connect` calls, in the order
of the file, for every value of the options that changes them. Solver settings and input defaults are left
out. Names are those of the code. -/

namespace PyCycle.OM

variable (gas : (ℕ → ℝ) → TPGas)

/-! ## Mixing components -/

/-- What `setup` has determined about a `ThermoAdd` in reactant mode: the method and its data. -/
inductive Adder
  | cea (S : ReactantAdd)
  | tab (n : ℕ) (idx : Fin n)

/-- `ThermoAdd` in reactant mode with the default `mix_names='mix'`, behind the group of the same name that
promotes everything (thermo.py:190-250; cea/thermo_add.py:110-144, tabular/thermo_add.py:62-86). -/
def reactantSub (a : Adder) (name : String) (promI promO : List Prom) : Sub :=
  { name
    ins := ["Fl_I:stat:W", "Fl_I:tot:h", "Fl_I:tot:composition", "mix:h", "mix:ratio"]
    outs := ["mix:W", "mass_avg_h", "Wout", "composition_out"]
    promI, promO
    eqn := fun i o => match a with
      | .cea S =>
        let r := reactantCompute S (i.num "Fl_I:stat:W") (i.num "Fl_I:tot:h")
          (fun k => i.vec "Fl_I:tot:composition" k) (fun n => i.num (n ++ ":ratio"))
          (fun n => i.num (n ++ ":h"))
        o.num "mass_avg_h" = r.h ∧ o.num "Wout" = r.W ∧ (∀ k, o.vec "composition_out" k.val = r.comp k)
        ∧ o.num "mix:W" = reactantW (i.num "Fl_I:stat:W") (fun n => i.num (n ++ ":ratio")) "mix"
      | .tab n idx =>
        let q : TabReactant := ⟨i.num "mix:ratio", i.num "mix:h"⟩
        let c : Fin n → ℝ := fun k => i.vec "Fl_I:tot:composition" k
        let r := tabReactantCompute (i.num "Fl_I:stat:W") (i.num "Fl_I:tot:h") c idx [q]
        o.num "mass_avg_h" = r.h ∧ o.num "Wout" = r.W ∧ (∀ k, o.vec "composition_out" k.val = r.comp k)
        ∧ o.num "mix:W" = tabReactantW (i.num "Fl_I:stat:W") c q }

/-- What `setup` has determined about a `ThermoAdd` in flow mode with one mixed-in stream. -/
inductive FlowAdder
  | cea (pin pmix pstream : Properties)
  | tab (n : ℕ)

/-- `ThermoAdd` in flow mode with `mix_names='mix'` (cea/thermo_add.py:110-191,
tabular/thermo_add.py:62-144). -/
def flowAddSub (a : FlowAdder) (name : String) (promI promO : List Prom) : Sub :=
  { name
    ins := ["Fl_I:stat:W", "Fl_I:tot:h", "Fl_I:tot:composition", "mix:h", "mix:composition", "mix:W"]
    outs := ["mass_avg_h", "Wout", "composition_out"]
    promI, promO
    eqn := fun i o => match a with
      | .cea pin pmix pst =>
        let r := flowCompute pin pmix (i.num "Fl_I:stat:W") (i.num "Fl_I:tot:h")
          (fun k => i.vec "Fl_I:tot:composition" k)
          [⟨pst, i.num "mix:W", i.num "mix:h", fun k => i.vec "mix:composition" k⟩]
        o.num "mass_avg_h" = r.h ∧ o.num "Wout" = r.W ∧ ∀ k, o.vec "composition_out" k.val = r.comp k
      | .tab n =>
        let r := tabFlowCompute (n := n) (i.num "Fl_I:stat:W") (i.num "Fl_I:tot:h")
          (fun k => i.vec "Fl_I:tot:composition" k)
          [⟨fun k => i.vec "mix:composition" k, i.num "mix:W", i.num "mix:h"⟩]
        o.num "mass_avg_h" = r.h ∧ o.num "Wout" = r.W ∧ ∀ k, o.vec "composition_out" k.val = r.comp k }

/-! ## The outlet station, as most elements set it up -/

/-- The four connections to a static solver (e.g. inlet.py:184-187). -/
def statConns (fl stat : String) : List (String × String) :=
  [(fl ++ ":tot:S", stat ++ ".S"), (fl ++ ":tot:h", stat ++ ".ht"), (fl ++ ":tot:P", stat ++ ".guess:Pt"),
   (fl ++ ":tot:gamma", stat ++ ".guess:gamt")]

/-! ## Flow starts -/

/-- `FlowStart.setup` (flow_start.py:51-92); `reactant` is the option's `ThermoAdd`, if any, and `ratio` the option
`mix_ratio_name` with its default. -/
def flowStart (reactant : Option Adder) (ratio : String := "mix:ratio") : Group :=
  { subs :=
      (match reactant with
        | none => []
        | some a => [reactantSub a "thermo_add" [.as "Fl_I:stat:W" "W", .as "mix:ratio" ratio]
            [.as "composition_out" "composition"]])
      ++ [thermo gas "totals" .total_TP "Fl_O:tot" [.var "T", .var "P", .var "composition"] [.pre "Fl_O:tot:"],
          thermo gas "exit_static" .static_MN "Fl_O:stat" [.var "MN", .var "W", .var "composition"]
            [.pre "Fl_O:stat:"]]
    conns := [("totals.h", "exit_static.ht"), ("totals.S", "exit_static.S"),
      ("Fl_O:tot:P", "exit_static.guess:Pt"), ("totals.gamma", "exit_static.guess:gamt")] }

/-- `Ambient` (ambient.py:24-33) as a subsystem with `promotes=('alt', 'dTs')`; outside the table there is
no converged value. -/
def ambientSub : Sub :=
  { name := "ambient", ins := ["alt", "dTs"], outs := ["Ps", "rhos", "Ts"]
    promI := [.var "alt", .var "dTs"], promO := [.var "alt", .var "dTs"]
    eqn := fun i o => Atm.ambient (i.num "alt") (i.num "dTs") .Ps = some (o.num "Ps")
      ∧ Atm.ambient (i.num "alt") (i.num "dTs") .Ts = some (o.num "Ts")
      ∧ Atm.ambient (i.num "alt") (i.num "dTs") .rhos = some (o.num "rhos") }

/-- `FlightConditions.setup` (flight_conditions.py:45-103). The group `conv` promotes everything, so its two
subsystems are listed directly. -/
def flightConditions (reactant : Option Adder) (ratio : String := "mix:ratio") : Group :=
  let proms : List Prom := [.pre "Fl_O:", .var "MN", .var "W"]
    ++ (if reactant.isSome then [.var ratio] else [])
  { subs := [ambientSub, (flowStart gas reactant ratio).asSub "fs" proms proms,
      balanceComp [("Tt", "lhs:Tt", "rhs:Tt"), ("Pt", "lhs:Pt", "rhs:Pt")] [] []]
    conns := [("ambient.Ps", "balance.rhs:Pt"), ("ambient.Ts", "balance.rhs:Tt"), ("balance.Pt", "fs.P"),
      ("balance.Tt", "fs.T"), ("Fl_O:stat:P", "balance.lhs:Pt"), ("Fl_O:stat:T", "balance.lhs:Tt")] }

/-- `CFDStart.setup` (cfd_start.py:24-62). -/
def cfdStart : Group :=
  { subs := [(flowStart gas none).asSub "fs" [.var "W"] [.pre "Fl_O:"],
      balanceComp [("P", "Ps_computed", "Ps"), ("T", "V_computed", "V"), ("MN", "area_computed", "area")]
        [.var "Ps", .var "V", .var "area"] []]
    conns := [("Fl_O:stat:P", "balance.Ps_computed"), ("Fl_O:stat:V", "balance.V_computed"),
      ("Fl_O:stat:area", "balance.area_computed"), ("balance.P", "fs.P"), ("balance.T", "fs.T"),
      ("balance.MN", "fs.MN")] }

/-! ## Inlet, duct, combustor, splitter -/

/-- `Inlet.setup` (inlet.py:140-212). -/
def inlet (design statics : Bool) : Group :=
  { subs :=
      [flowIn "flow_in" "Fl_I" [.pre "Fl_I:tot:", .pre "Fl_I:stat:"] [.pre "Fl_I:tot:", .pre "Fl_I:stat:"],
       { name := "calcs_inlet", ins := ["Pt_in", "ram_recovery", "V_in", "W_in"], outs := ["Pt_out", "F_ram"]
         promI := [.var "ram_recovery", .as "Pt_in" "Fl_I:tot:P", .as "V_in" "Fl_I:stat:V",
           .as "W_in" "Fl_I:stat:W"]
         promO := [.var "F_ram"]
         eqn := fun i o =>
           let x : Inlet.CI → ℝ := fun c => match c with
             | .Pt_in => i.num "Pt_in"
             | .ram_recovery => i.num "ram_recovery"
             | .V_in => i.num "V_in"
             | .W_in => i.num "W_in"
           o.num "Pt_out" = Inlet.calcs x .Pt_out ∧ o.num "F_ram" = Inlet.calcs x .F_ram },
       thermo gas "real_flow" .total_TP "Fl_O:tot" [.as "T" "Fl_I:tot:T", .as "composition" "Fl_I:tot:composition"]
         [.pre "Fl_O:"]]
      ++ (if statics then
          [if design then thermo gas "out_stat" .static_MN "Fl_O:stat"
              [.as "composition" "Fl_I:tot:composition", .as "W" "Fl_I:stat:W", .var "MN"] [.pre "Fl_O:stat:"]
            else thermo gas "out_stat" .static_A "Fl_O:stat"
              [.as "composition" "Fl_I:tot:composition", .as "W" "Fl_I:stat:W", .var "area"] [.pre "Fl_O:stat:"]]
        else [passThrough "W_passthru" "Fl_I:stat:W" "Fl_O:stat:W"])
    conns := [("calcs_inlet.Pt_out", "real_flow.P")] ++ (if statics then statConns "Fl_O" "out_stat" else []) }

/-- `PressureLoss` (duct.py:62-82) as a subsystem. -/
def pressureLoss : Sub :=
  { name := "p_loss", ins := ["dPqP", "Pt_in"], outs := ["Pt_out"]
    promI := [.as "Pt_in" "Fl_I:tot:P", .var "dPqP"], promO := []
    eqn := fun i o => o.num "Pt_out"
      = Duct.ptOut (fun | .dPqP => i.num "dPqP" | .Pt_in => i.num "Pt_in") }

/-- `Duct.setup` (duct.py:165-243); `useMap` is the value of `expMN > 1e-10` (line 180). -/
def duct (design statics : Bool) (expMN : ℝ) (useMap : Bool) : Group :=
  { subs :=
      [flowIn "flow_in" "Fl_I" [.pre "Fl_I:tot:", .pre "Fl_I:stat:"] [.pre "Fl_I:tot:", .pre "Fl_I:stat:"]]
      ++ (if useMap then
          [if design then
              { name := "dPqP_MN", ins := ["MN_in", "dPqP"], outs := ["s_dPqP"]
                promI := [.var "dPqP", .as "MN_in" "Fl_I:stat:MN"], promO := [.var "s_dPqP"]
                eqn := fun i o => o.num "s_dPqP" = Duct.lossMap true expMN
                  (fun | .MN_in => i.num "MN_in" | .given => i.num "dPqP") }
            else
              { name := "dPqP_MN", ins := ["MN_in", "s_dPqP"], outs := ["dPqP"]
                promI := [.var "s_dPqP", .as "MN_in" "Fl_I:stat:MN"], promO := [.var "dPqP"]
                eqn := fun i o => o.num "dPqP" = Duct.lossMap false expMN
                  (fun | .MN_in => i.num "MN_in" | .given => i.num "s_dPqP") }]
        else [])
      ++ [pressureLoss,
        { name := "q_calc", ins := ["W_in", "Q_dot", "ht_in"], outs := ["ht_out"]
          promI := [.as "W_in" "Fl_I:stat:W", .as "ht_in" "Fl_I:tot:h", .var "Q_dot"], promO := []
          eqn := fun i o => o.num "ht_out" = Duct.htOut
            (fun | .W_in => i.num "W_in" | .Q_dot => i.num "Q_dot" | .ht_in => i.num "ht_in") },
        thermo gas "real_flow" .total_hP "Fl_O:tot" [.as "composition" "Fl_I:tot:composition"] [.pre "Fl_O:"]]
      ++ (if statics then
          [if design then thermo gas "out_stat" .static_MN "Fl_O:stat"
              [.as "composition" "Fl_I:tot:composition", .as "W" "Fl_I:stat:W", .var "MN"] [.pre "Fl_O:stat:"]
            else thermo gas "out_stat" .static_A "Fl_O:stat"
              [.as "composition" "Fl_I:tot:composition", .as "W" "Fl_I:stat:W", .var "area"] [.pre "Fl_O:stat:"]]
        else [passThrough "W_passthru" "Fl_I:stat:W" "Fl_O:stat:W"])
    conns := [("q_calc.ht_out", "real_flow.h"), ("p_loss.Pt_out", "real_flow.P")]
      ++ (if statics then statConns "Fl_O" "out_stat" else []) }

/-- `Combustor.setup` (combustor.py:85-152). -/
def combustor (a : Adder) (design statics : Bool) : Group :=
  { subs :=
      [flowIn "in_flow" "Fl_I" [.pre "Fl_I:tot:", .pre "Fl_I:stat:"] [.pre "Fl_I:tot:", .pre "Fl_I:stat:"],
       let proms : List Prom := [.var "Fl_I:stat:W", .as "mix:ratio" "Fl_I:FAR", .var "Fl_I:tot:composition",
          .var "Fl_I:tot:h", .as "mix:W" "Wfuel", .var "Wout"]
       reactantSub a "mix_fuel" proms proms,
       pressureLoss,
       thermo gas "vitiated_flow" .total_hP "Fl_O:tot" [] [.pre "Fl_O:"]]
      ++ (if statics then
          [if design then thermo gas "out_stat" .static_MN "Fl_O:stat" [.var "MN"] [.pre "Fl_O:stat:"]
            else thermo gas "out_stat" .static_A "Fl_O:stat" [.var "area"] [.pre "Fl_O:stat:"]]
        else [passThrough "W_passthru" "Wout" "Fl_O:stat:W"])
    conns := [("mix_fuel.mass_avg_h", "vitiated_flow.h"), ("mix_fuel.composition_out", "vitiated_flow.composition"),
        ("p_loss.Pt_out", "vitiated_flow.P")]
      ++ (if statics then [("mix_fuel.composition_out", "out_stat.composition")] ++ statConns "Fl_O" "out_stat"
            ++ [("Wout", "out_stat.W")]
          else []) }

/-- `Splitter.setup` (splitter.py:89-197). -/
def splitter (design statics : Bool) : Group :=
  let tot (k : String) := thermo gas ("real_flow" ++ k) .total_TP ("Fl_O" ++ k ++ ":tot")
    [.as "composition" "Fl_I:tot:composition", .as "P" "Fl_I:tot:P", .as "T" "Fl_I:tot:T"]
    [.pre ("Fl_O" ++ k ++ ":tot:")]
  let stat (k : String) := if design then thermo gas ("out" ++ k ++ "_stat") .static_MN ("Fl_O" ++ k ++ ":stat")
      [.as "composition" "Fl_I:tot:composition", .as "MN" ("MN" ++ k)] [.pre ("Fl_O" ++ k ++ ":stat:")]
    else thermo gas ("out" ++ k ++ "_stat") .static_A ("Fl_O" ++ k ++ ":stat")
      [.as "composition" "Fl_I:tot:composition", .as "area" ("area" ++ k)] [.pre ("Fl_O" ++ k ++ ":stat:")]
  { subs :=
      [flowIn "flow_in" "Fl_I" [.pre "Fl_I:"] [],
       { name := "split_calc", ins := ["BPR", "W_in"], outs := ["W1", "W2"]
         promI := [.var "BPR", .as "W_in" "Fl_I:stat:W"], promO := []
         eqn := fun i o =>
           let x : Split.I → ℝ := fun | .BPR => i.num "BPR" | .W_in => i.num "W_in"
           o.num "W1" = Split.compute x .W1 ∧ o.num "W2" = Split.compute x .W2 },
       tot "1", tot "2"]
      ++ (if statics then [stat "1", stat "2"]
        else [passThrough "W1_passthru" "split_calc_W1" "Fl_O1:stat:W",
          passThrough "W2_passthru" "split_calc_W2" "Fl_O2:stat:W"])
    conns := if statics then statConns "Fl_O1" "out1_stat" ++ [("split_calc.W1", "out1_stat.W")]
        ++ statConns "Fl_O2" "out2_stat" ++ [("split_calc.W2", "out2_stat.W")]
      else [("split_calc.W1", "split_calc_W1"), ("split_calc.W2", "split_calc_W2")] }

/-! ## Mixer -/

/-- `AreaSum` (mixer.py:59-72) as a subsystem. -/
def areaSumSub (promI promO : List Prom) : Sub :=
  { name := "area_calc", ins := ["Fl_I1:stat:area", "Fl_I2:stat:area"], outs := ["area_sum"], promI, promO
    eqn := fun i o => o.num "area_sum"
      = Mix.areaSum (fun k => if k = 0 then i.num "Fl_I1:stat:area" else i.num "Fl_I2:stat:area") }

/-- Name of a variable of stream `k` (0 or 1) of the mixer. -/
def mixName (k : Fin 2) (v : String) : String := if k = 0 then "Fl_I1:stat:" ++ v else "Fl_I2:stat:" ++ v

/-- `MixImpulse` (mixer.py:15-56) as a subsystem. -/
def mixImpulseSub (promI : List Prom) : Sub :=
  { name := "impulse_mix"
    ins := ["Fl_I1:stat:W", "Fl_I1:stat:P", "Fl_I1:stat:V", "Fl_I1:stat:area",
      "Fl_I2:stat:W", "Fl_I2:stat:P", "Fl_I2:stat:V", "Fl_I2:stat:area"]
    outs := ["impulse_mix"], promI, promO := []
    eqn := fun i o => o.num "impulse_mix" = Mix.mixImpulse fun
      | .W k => i.num (mixName k "W")
      | .P k => i.num (mixName k "P")
      | .V k => i.num (mixName k "V")
      | .area k => i.num (mixName k "area") }

/-- `Mixer.setup` (mixer.py:163-310); `first` is `designed_stream == 1`. The group `impulse_converge`
promotes everything, so its subsystems are listed directly. Composition data are checked by C31; here the
vectors are connected as in the code. -/
def mixer (a : FlowAdder) (first design : Bool) : Group :=
  let k := if first then "1" else "2"
  let o := if first then "2" else "1"
  let fk := "Fl_I" ++ k
  let fo := "Fl_I" ++ o
  let st := "Fl_I" ++ k ++ "_calc:stat"
  let calcName := "Fl_I" ++ k ++ "_stat_calc"
  { subs :=
      [flowIn "in_flow1" "Fl_I1" [.pre "Fl_I1:"] [.pre "Fl_I1:"],
       flowIn "in_flow2" "Fl_I2" [.pre "Fl_I2:"] [.pre "Fl_I2:"]]
      ++ (if design then
          [thermo gas calcName .static_Ps st
            [.as "composition" (fk ++ ":tot:composition"), .as "S" (fk ++ ":tot:S"), .as "ht" (fk ++ ":tot:h"),
             .as "W" (fk ++ ":stat:W"), .as "Ps" (fo ++ ":stat:P")] [.pre st],
           areaSumSub [.var (fo ++ ":stat:area")] [.as "area_sum" "area"]]
        else
          [thermo gas calcName .static_A st
            [.as "composition" (fk ++ ":tot:composition"), .as "S" (fk ++ ":tot:S"), .as "ht" (fk ++ ":tot:h"),
             .as "W" (fk ++ ":stat:W"), .as "guess:Pt" (fk ++ ":tot:P"), .as "guess:gamt" (fk ++ ":tot:gamma")]
            [.pre st]])
      ++ [{ name := "extraction_ratio", ins := ["Pt1", "Pt2"], outs := ["ER"]
            promI := [.as "Pt1" "Fl_I1:tot:P", .as "Pt2" "Fl_I2:tot:P"], promO := [.var "ER"]
            eqn := fun i o => o.num "ER" = i.num "Pt1" / i.num "Pt2" },
        flowAddSub a "flow_add" [.as "Fl_I:stat:W" "Fl_I1:stat:W", .as "Fl_I:tot:composition" "Fl_I1:tot:composition",
          .as "Fl_I:tot:h" "Fl_I1:tot:h", .as "mix:W" "Fl_I2:stat:W", .as "mix:composition" "Fl_I2:tot:composition",
          .as "mix:h" "Fl_I2:tot:h"] [],
        mixImpulseSub
          ((["W", "P", "V", "area"].map fun v => Prom.as (fk ++ ":stat:" ++ v) (st ++ ":" ++ v))
            ++ ["W", "P", "V", "area"].map fun v => Prom.var (fo ++ ":stat:" ++ v)),
        thermo gas "out_tot" .total_hP "Fl_O:tot" [] [.pre "Fl_O:tot:"],
        thermo gas "out_stat" .static_A "Fl_O:stat" [.var "area"] [.pre "Fl_O:stat:"],
        { name := "imp_out", ins := ["P", "area", "V", "W"], outs := ["impulse"], promI := [], promO := []
          eqn := fun i o => o.num "impulse" = Mix.impulse fun
            | .P => i.num "P" | .area => i.num "area" | .V => i.num "V" | .W => i.num "W" },
        balanceComp [("P_tot", "lhs:P_tot", "rhs:P_tot")] [] []]
    conns := (if design then [(st ++ ":area", "area_calc." ++ fk ++ ":stat:area")] else [])
      ++ [("flow_add.composition_out", "out_tot.composition"), ("flow_add.mass_avg_h", "out_tot.h"),
        ("flow_add.composition_out", "out_stat.composition"), ("flow_add.Wout", "out_stat.W"),
        ("Fl_O:tot:S", "out_stat.S"), ("flow_add.mass_avg_h", "out_stat.ht"),
        ("Fl_O:tot:P", "out_stat.guess:Pt"), ("Fl_O:tot:gamma", "out_stat.guess:gamt"),
        ("Fl_O:stat:P", "imp_out.P"), ("Fl_O:stat:area", "imp_out.area"), ("Fl_O:stat:V", "imp_out.V"),
        ("Fl_O:stat:W", "imp_out.W"), ("balance.P_tot", "out_tot.P"), ("imp_out.impulse", "balance.lhs:P_tot"),
        ("impulse_mix.impulse_mix", "balance.rhs:P_tot")] }

/-! ## Nozzle -/

/-- Names of the properties `Mux` hands on (nozzle.py:196). -/
def prName : Noz.Pr → String
  | .h => "h" | .T => "T" | .P => "P" | .rho => "rho" | .gamma => "gamma" | .Cp => "Cp" | .Cv => "Cv"
  | .V => "V" | .Vsonic => "Vsonic" | .MN => "MN" | .area => "area" | .W => "W"

/-- All of them, in the order of nozzle.py:164-176. -/
def prAll : List Noz.Pr := [.h, .T, .P, .rho, .gamma, .V, .Vsonic, .MN, .area, .Cp, .Cv, .W]

/-- `Mux` with `fl_out_name='Fl_O'` (nozzle.py:141-249) as a subsystem. -/
def muxSub (kind : Noz.NozzType) : Sub :=
  { name := "mux"
    ins := ["Ps_calc", "S"] ++ (prAll.map fun p => "Ps:" ++ prName p) ++ prAll.map fun p => "MN:" ++ prName p
    outs := ["choked"] ++ (prAll.map fun p => "Throat:stat:" ++ prName p) ++ ["Throat:stat:S"]
      ++ (prAll.map fun p => "Fl_O:stat:" ++ prName p) ++ ["Fl_O:stat:S"]
    promI := [.as "Ps:W" "Fl_I:stat:W", .as "MN:W" "Fl_I:stat:W", .as "Ps:P" "Ps_calc", .var "Ps_calc"]
    promO := [.mid ":stat:"]
    eqn := fun i o =>
      let x : Noz.MI → ℝ := fun
        | .Ps_calc => i.num "Ps_calc"
        | .S => i.num "S"
        | .ps p => i.num ("Ps:" ++ prName p)
        | .mn p => i.num ("MN:" ++ prName p)
      o.num "choked" = Noz.mux kind x .choked
      ∧ (∀ p ∈ prAll, o.num ("Throat:stat:" ++ prName p) = Noz.mux kind x (.throat p))
      ∧ o.num "Throat:stat:S" = Noz.mux kind x .throatS
      ∧ (∀ p ∈ prAll, o.num ("Fl_O:stat:" ++ prName p) = Noz.mux kind x (.out p))
      ∧ o.num "Fl_O:stat:S" = Noz.mux kind x .outS }

/-- The inputs `PerformanceCalcs` has for each loss coefficient (nozzle.py:81-94). -/
def perfIns : Noz.Loss → List String
  | .Cfg => ["W_in", "Ps_calc", "V_ideal", "Cfg"]
  | .Cv => ["W_in", "Ps_calc", "V_ideal", "Cv", "Cang", "CmixCorr", "V_actual", "A_actual", "Ps_actual"]

/-- `PerformanceCalcs` (nozzle.py:65-118) as a subsystem. -/
def perfSub (l : Noz.Loss) : Sub :=
  { name := "perf_calcs", ins := perfIns l, outs := ["Fg_ideal", "Fg"]
    promI := [.as "W_in" "Fl_I:stat:W"]
      ++ (match l with | .Cv => [.var "Cv", .var "Ps_calc"] | .Cfg => [.var "Cfg", .var "Ps_calc"])
    promO := [.var "Fg"]
    eqn := fun i o =>
      let x : Noz.FI → ℝ := fun
        | .W_in => i.num "W_in" | .Ps_calc => i.num "Ps_calc" | .V_ideal => i.num "V_ideal"
        | .Cfg => i.num "Cfg" | .Cv => i.num "Cv" | .Cang => i.num "Cang" | .CmixCorr => i.num "CmixCorr"
        | .V_actual => i.num "V_actual" | .A_actual => i.num "A_actual" | .Ps_actual => i.num "Ps_actual"
      o.num "Fg_ideal" = Noz.perf l x .Fg_ideal ∧ o.num "Fg" = Noz.perf l x .Fg }

/-- `Nozzle.setup` (nozzle.py:317-470). `Thermo` without `fl_name` uses the default name `flow`
(thermo.py:24-26). -/
def nozzle (kind : Noz.NozzType) (l : Noz.Loss) : Group :=
  { subs :=
      [{ name := "mach_choked", ins := [], outs := ["MN"], promI := [], promO := []
         eqn := fun _ o => o.num "MN" = 1 },
       flowIn "in_flow" "Fl_I" [.pre "Fl_I:"] [],
       { name := "PR_bal", ins := ["Ps_exhaust", "Ps_calc"], outs := ["PR"], promI := [.pre ""], promO := [.pre ""]
         eqn := fun i o => Noz.prLower ≤ o.num "PR" ∧ Noz.prResid (i.num "Ps_exhaust") (i.num "Ps_calc") = 0 },
       { name := "press_calcs", ins := ["Pt_in", "PR", "dPqP"], outs := ["Pt_th", "Ps_calc"]
         promI := [.as "Pt_in" "Fl_I:tot:P", .var "PR", .var "dPqP"], promO := [.var "Ps_calc"]
         eqn := fun i o =>
           let x : Noz.PI → ℝ := fun | .Pt_in => i.num "Pt_in" | .PR => i.num "PR" | .dPqP => i.num "dPqP"
           o.num "Pt_th" = Noz.press x .Pt_th ∧ o.num "Ps_calc" = Noz.press x .Ps_calc },
       thermo gas "throat_total" .total_hP "Fl_O:tot"
         [.as "h" "Fl_I:tot:h", .as "composition" "Fl_I:tot:composition"] [.pre "Fl_O:"],
       thermo gas "staticMN" .static_MN "flow"
         [.as "ht" "Fl_I:tot:h", .as "W" "Fl_I:stat:W", .as "composition" "Fl_I:tot:composition"] [],
       thermo gas "staticPs" .static_Ps "flow"
         [.as "ht" "Fl_I:tot:h", .as "W" "Fl_I:stat:W", .as "Ps" "Ps_calc",
          .as "composition" "Fl_I:tot:composition"] [],
       thermo gas "ideal_flow" .static_Ps "flow"
         [.as "ht" "Fl_I:tot:h", .as "S" "Fl_I:tot:S", .as "W" "Fl_I:stat:W", .as "Ps" "Ps_calc",
          .as "composition" "Fl_I:tot:composition"] [],
       muxSub kind,
       perfSub l]
    conns :=
      [("press_calcs.Pt_th", "throat_total.P"), ("throat_total.S", "staticMN.S"), ("mach_choked.MN", "staticMN.MN"),
       ("press_calcs.Pt_th", "staticMN.guess:Pt"), ("throat_total.gamma", "staticMN.guess:gamt"),
       ("throat_total.S", "staticPs.S"), ("throat_total.S", "mux.S")]
      ++ (["h", "T", "rho", "gamma", "Cp", "Cv", "V", "Vsonic", "MN", "area"].map
          fun v => ("staticPs." ++ v, "mux.Ps:" ++ v))
      ++ [("staticMN.h", "mux.MN:h"), ("staticMN.T", "mux.MN:T"), ("staticMN.Ps", "mux.MN:P"),
        ("staticMN.rho", "mux.MN:rho"), ("staticMN.gamma", "mux.MN:gamma"), ("staticMN.Cp", "mux.MN:Cp"),
        ("staticMN.Cv", "mux.MN:Cv"), ("staticMN.V", "mux.MN:V"), ("staticMN.Vsonic", "mux.MN:Vsonic"),
        ("mach_choked.MN", "mux.MN:MN"), ("staticMN.area", "mux.MN:area"),
        ("ideal_flow.V", "perf_calcs.V_ideal")]
      ++ (match l with
        | .Cv => [("Fl_O:stat:V", "perf_calcs.V_actual"), ("Fl_O:stat:area", "perf_calcs.A_actual"),
            ("Fl_O:stat:P", "perf_calcs.Ps_actual")]
        | .Cfg => []) }

end PyCycle.OM
