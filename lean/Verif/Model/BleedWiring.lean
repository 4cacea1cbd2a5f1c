import Verif.Model.ElementWiring
import Verif.Model.Compressor
import Verif.Model.Turbine
import Verif.Model.Maps

/-! # `setup` of the elements with bleeds and of the map groups

As `Verif.Model.ElementWiring`, for any list of bleed names. The order of `set_order` is left out: it decides
in which order the solvers visit the subsystems, not which equations hold. -/

namespace PyCycle.OM

variable (gas : (ℕ → ℝ) → TPGas)

/-! ## Bleed extraction -/

/-- `BleedCalcs` (bleed_out.py:14-40) as the subsystem `bld_calcs` (bleed_out.py:115-120). -/
def bleedCalcsSub (bs : List String) : Sub :=
  { name := "bld_calcs"
    ins := ["W_in"] ++ bs.flatMap fun b => [b ++ ":frac_W"]
    outs := ["W_out"] ++ bs.flatMap fun b => [b ++ ":stat:W"]
    promI := [.as "W_in" "Fl_I:stat:W", .suf ":frac_W"]
    promO := [.var "W_out"] ++ bs.map fun b => .pre (b ++ ":")
    eqn := fun i o =>
      let x : Bleed.I bs.length → ℝ := fun
        | .W_in => i.num "W_in"
        | .frac k => i.num (bs[k] ++ ":frac_W")
      o.num "W_out" = Bleed.compute x .W_out
      ∧ ∀ k : Fin bs.length, o.num (bs[k] ++ ":stat:W") = Bleed.compute x (.W k) }

/-- The total state of an extracted bleed (bleed_out.py:122-133). -/
def extractFlow (b : String) : Sub :=
  thermo gas (b ++ "_flow") .total_TP (b ++ ":tot")
    [.as "composition" "Fl_I:tot:composition", .as "T" "Fl_I:tot:T", .as "P" "Fl_I:tot:P"] [.pre (b ++ ":tot:")]

/-- `BleedOut.setup` (bleed_out.py:101-190). -/
def bleedOut (bs : List String) (design statics : Bool) : Group :=
  { subs :=
      [flowIn "flow_in" "Fl_I" [.pre "Fl_I:tot:", .pre "Fl_I:stat:"] [.pre "Fl_I:tot:", .pre "Fl_I:stat:"]]
      ++ [bleedCalcsSub bs] ++ bs.map (extractFlow gas)
      ++ [thermo gas "real_flow" .total_TP "Fl_O:tot"
            [.as "composition" "Fl_I:tot:composition", .as "T" "Fl_I:tot:T", .as "P" "Fl_I:tot:P"] [.pre "Fl_O:"],
          if statics then
            if design then thermo gas "out_stat" .static_MN "Fl_O:stat"
              [.as "composition" "Fl_I:tot:composition", .var "MN"] [.pre "Fl_O:stat:"]
            else thermo gas "out_stat" .static_A "Fl_O:stat"
              [.as "composition" "Fl_I:tot:composition", .var "area"] [.pre "Fl_O:stat:"]
          else passThrough "W_passthru" "W_out" "Fl_O:stat:W"]
    conns := if statics then statConns "Fl_O" "out_stat" ++ [("W_out", "out_stat.W")] else [] }

/-! ## Maps -/

/-- `om.MetaModelStructuredComp` with the compressor's tables (compressor_map.py:175-180); where the
interpolation is refused, the functions of `m` are arbitrary. -/
def readCMap (m : Map.CMap) (name : String) (promI promO : List Prom) : Sub :=
  { name, ins := ["alphaMap", "NcMap", "RlineMap"], outs := ["effMap", "PRmap", "WcMap"], promI, promO
    eqn := fun i o =>
      o.num "effMap" = m.eff (i.num "alphaMap") (i.num "NcMap") (i.num "RlineMap")
      ∧ o.num "PRmap" = m.PR (i.num "alphaMap") (i.num "NcMap") (i.num "RlineMap")
      ∧ o.num "WcMap" = m.W (i.num "alphaMap") (i.num "NcMap") (i.num "RlineMap") }

/-- Names of the scaled quantities: `N` is the letter of speed and flow, `c` or `p`. -/
def qName (c : String) : Map.Q → String
  | .N => "N" ++ c
  | .PR => "PR"
  | .eff => "eff"
  | .W => "W" ++ c

/-- Names of their values on the map. -/
def qMap (c : String) : Map.Q → String
  | .N => "N" ++ c ++ "Map"
  | .PR => "PRmap"
  | .eff => "effMap"
  | .W => "W" ++ c ++ "Map"

/-- The quantities. -/
def qAll : List Map.Q := [.N, .PR, .eff, .W]

/-- `MapScalars` (compressor_map.py:52-93, turbine_map.py:6-46) as a subsystem. -/
def scalarsSub (c : String) : Sub :=
  { name := "scalars", ins := qAll.map (qName c) ++ qAll.map (qMap c), outs := qAll.map fun q => "s_" ++ qName c q
    promI := (qAll.map fun q => .var (qName c q)) ++ qAll.map fun q => .var (qMap c q)
    promO := qAll.map fun q => .var ("s_" ++ qName c q)
    eqn := fun i o => ∀ q ∈ qAll, o.num ("s_" ++ qName c q)
      = Map.scalars (fun | .val q => i.num (qName c q) | .map q => i.num (qMap c q)) q }

/-- `ScaledMapValues` (compressor_map.py:106-146, turbine_map.py:58-91) as a subsystem. -/
def scaledSub (c : String) : Sub :=
  { name := "scaledOutput", ins := (qAll.map fun q => "s_" ++ qName c q) ++ qAll.map (qMap c)
    outs := qAll.map (qName c)
    promI := (qAll.map fun q => .var ("s_" ++ qName c q)) ++ qAll.map fun q => .var (qMap c q)
    promO := [.var "PR", .var "eff"]
    eqn := fun i o => ∀ q ∈ qAll, o.num (qName c q)
      = Map.scaled (fun | .map q => i.num (qMap c q) | .s q => i.num ("s_" ++ qName c q)) q }

/-- `CompressorMap.setup` (compressor_map.py:168-257). -/
def compressorMap (m : Map.CMap) (design : Bool) : Group :=
  { subs :=
      [readCMap m "map" [.var "RlineMap", .var "NcMap", .var "alphaMap"]
        [.var "effMap", .var "PRmap", .var "WcMap"]]
      ++ (if design then [scalarsSub "c"]
        else [scaledSub "c",
          { balanceComp [("NcMap", "lhs:NcMap", "rhs:NcMap"), ("RlineMap", "lhs:RlineMap", "rhs:RlineMap")]
              [.as "lhs:NcMap" "Nc", .as "lhs:RlineMap" "Wc"] [.var "NcMap", .var "RlineMap"]
            with name := "map_bal" }])
      ++ [{ name := "stall_R", ins := [], outs := ["RlineStall"], promI := [], promO := []
            eqn := fun _ o => o.num "RlineStall" = m.RlineStall },
          readCMap m "SMN_map" [.var "NcMap", .var "alphaMap"] [],
          readCMap m "SMW_map" [.var "alphaMap"] [],
          { balanceComp [("NcMap", "lhs:NcMap", "rhs:NcMap")] [] [] with name := "SMW_bal" },
          { name := "stall_margins", ins := ["PR_SMN", "PR_SMW", "PR_actual", "Wc_SMN", "Wc_actual"]
            outs := ["SMN", "SMW"]
            promI := [.as "PR_actual" "PRmap", .as "Wc_actual" "WcMap"], promO := [.var "SMN", .var "SMW"]
            eqn := fun i o =>
              let x : Map.SI → ℝ := fun
                | .PR_SMN => i.num "PR_SMN" | .PR_SMW => i.num "PR_SMW" | .PR_actual => i.num "PR_actual"
                | .Wc_SMN => i.num "Wc_SMN" | .Wc_actual => i.num "Wc_actual"
              o.num "SMN" = Map.stall x .SMN ∧ o.num "SMW" = Map.stall x .SMW }]
    conns :=
      (if design then [] else
        [("scaledOutput.Nc", "map_bal.rhs:NcMap"), ("scaledOutput.Wc", "map_bal.rhs:RlineMap")])
      ++ [("stall_R.RlineStall", "SMN_map.RlineMap"), ("stall_R.RlineStall", "SMW_map.RlineMap"),
        ("SMW_bal.NcMap", "SMW_map.NcMap"), ("WcMap", "SMW_bal.lhs:NcMap"),
        ("SMW_map.WcMap", "SMW_bal.rhs:NcMap"), ("SMN_map.PRmap", "stall_margins.PR_SMN"),
        ("SMW_map.PRmap", "stall_margins.PR_SMW"), ("SMN_map.WcMap", "stall_margins.Wc_SMN")] }

/-- `om.MetaModelStructuredComp` with the turbine's tables (turbine_map.py:123-130). -/
def readTMap (m : Map.TMap) : Sub :=
  { name := "readMap", ins := ["alphaMap", "NpMap", "PRmap"], outs := ["effMap", "WpMap"]
    promI := [.var "alphaMap", .var "NpMap", .var "PRmap"], promO := [.var "effMap", .var "WpMap"]
    eqn := fun i o =>
      o.num "effMap" = m.eff (i.num "alphaMap") (i.num "NpMap") (i.num "PRmap")
      ∧ o.num "WpMap" = m.W (i.num "alphaMap") (i.num "NpMap") (i.num "PRmap") }

/-- `TurbineMap.setup` (turbine_map.py:113-166). -/
def turbineMap (m : Map.TMap) (design : Bool) : Group :=
  { subs := [readTMap m]
      ++ (if design then [scalarsSub "p"]
        else [scaledSub "p",
          { balanceComp [("NpMap", "lhs:NpMap", "rhs:NpMap"), ("PRmap", "lhs:PRmap", "rhs:PRmap")]
              [.as "lhs:NpMap" "Np", .as "lhs:PRmap" "Wp"] [.var "NpMap", .var "PRmap"]
            with name := "map_bal" }])
    conns := if design then [] else
      [("scaledOutput.Np", "map_bal.rhs:NpMap"), ("scaledOutput.Wp", "map_bal.rhs:PRmap")] }

/-! ## Compressor -/

/-- The compressor's subsystems before the bleeds (compressor.py:442-496). -/
def compressorHead (m : Map.CMap) (design : Bool) : List Sub :=
  [flowIn "flow_in" "Fl_I" [.pre "Fl_I:"] [],
   { name := "corrinputs", ins := ["Tt", "Pt", "W_in", "Nmech"], outs := ["Wc", "Nc"]
     promI := [.var "Nmech", .as "W_in" "Fl_I:stat:W", .as "Pt" "Fl_I:tot:P", .as "Tt" "Fl_I:tot:T"]
     promO := [.var "Nc", .var "Wc"]
     eqn := fun i o =>
       let x : Comp.CI → ℝ := fun
         | .Tt => i.num "Tt" | .Pt => i.num "Pt" | .W_in => i.num "W_in" | .Nmech => i.num "Nmech"
       o.num "Wc" = Comp.corr x .Wc ∧ o.num "Nc" = Comp.corr x .Nc },
   let proms : List Prom := ["s_Nc", "s_eff", "s_Wc", "s_PR", "Nc", "Wc", "PR", "eff", "SMN", "SMW"].map .var
   (compressorMap m design).asSub "map" proms proms,
   { name := "press_rise", ins := ["PR", "Pt_in"], outs := ["Pt_out"]
     promI := [.var "PR", .as "Pt_in" "Fl_I:tot:P"], promO := []
     eqn := fun i o => o.num "Pt_out" = Comp.pressRise (fun | .PR => i.num "PR" | .Pt_in => i.num "Pt_in") },
   thermo gas "ideal_flow" .total_SP "flow" [.as "S" "Fl_I:tot:S", .as "composition" "Fl_I:tot:composition"] [],
   { name := "enth_rise", ins := ["ideal_ht", "inlet_ht", "eff"], outs := ["ht_out"]
     promI := [.var "eff", .as "inlet_ht" "Fl_I:tot:h"], promO := []
     eqn := fun i o => o.num "ht_out" = Comp.enthRise
       (fun | .ideal_ht => i.num "ideal_ht" | .inlet_ht => i.num "inlet_ht" | .eff => i.num "eff") },
   thermo gas "real_flow" .total_hP "Fl_O:tot" [.as "composition" "Fl_I:tot:composition"] [.pre "Fl_O:tot:"],
   { name := "eff_poly_calc", ins := ["PR", "S_in", "S_out", "Rt"], outs := ["eff_poly"]
     promI := [.as "PR" "PR", .as "S_in" "Fl_I:tot:S", .as "S_out" "Fl_O:tot:S", .as "Rt" "Fl_I:tot:R"]
     promO := [.var "eff_poly"]
     eqn := fun i o => o.num "eff_poly" = Comp.effPoly
       (fun | .PR => i.num "PR" | .S_in => i.num "S_in" | .S_out => i.num "S_out" | .Rt => i.num "Rt") }]

/-- `BleedsAndPower` (compressor.py:133-212) as the subsystem `blds_pwr` (compressor.py:499-512). -/
def bldsPwrSub (bs : List String) : Sub :=
  { name := "blds_pwr"
    ins := ["W_in", "ht_out", "ht_in", "Pt_out", "Pt_in", "Nmech"]
      ++ bs.flatMap fun b => [b ++ ":frac_W", b ++ ":frac_P", b ++ ":frac_work"]
    outs := ["W_out", "power", "trq"] ++ bs.flatMap fun b => [b ++ ":stat:W", b ++ ":Pt", b ++ ":ht"]
    promI := [.var "Nmech", .as "W_in" "Fl_I:stat:W", .as "ht_in" "Fl_I:tot:h", .as "Pt_in" "Fl_I:tot:P",
        .as "Pt_out" "Fl_O:tot:P"]
      ++ bs.flatMap fun b => [.var (b ++ ":frac_W"), .var (b ++ ":frac_P"), .var (b ++ ":frac_work")]
    promO := [.var "power", .var "trq", .var "W_out"] ++ bs.map fun b => .pre (b ++ ":")
    eqn := fun i o =>
      let x : Comp.BI bs.length → ℝ := fun
        | .W_in => i.num "W_in" | .ht_out => i.num "ht_out" | .ht_in => i.num "ht_in"
        | .Pt_out => i.num "Pt_out" | .Pt_in => i.num "Pt_in" | .Nmech => i.num "Nmech"
        | .frac_W k => i.num (bs[k] ++ ":frac_W") | .frac_P k => i.num (bs[k] ++ ":frac_P")
        | .frac_work k => i.num (bs[k] ++ ":frac_work")
      o.num "W_out" = Comp.blds x .W_out ∧ o.num "power" = Comp.blds x .power ∧ o.num "trq" = Comp.blds x .trq
      ∧ ∀ k : Fin bs.length, o.num (bs[k] ++ ":stat:W") = Comp.blds x (.W k)
        ∧ o.num (bs[k] ++ ":Pt") = Comp.blds x (.Pt k) ∧ o.num (bs[k] ++ ":ht") = Comp.blds x (.ht k) }

/-- The total state of a compressor bleed (compressor.py:514-528). -/
def bleedFlow (b : String) : Sub :=
  thermo gas (b ++ "_flow") .total_hP (b ++ ":tot") [.as "composition" "Fl_I:tot:composition"]
    [.pre (b ++ ":tot:")]

/-- `Compressor.setup` (compressor.py:421-587). -/
def compressor (m : Map.CMap) (bs : List String) (design statics : Bool) : Group :=
  { subs := compressorHead gas m design ++ [bldsPwrSub bs] ++ bs.map (bleedFlow gas)
      ++ [if statics then
            if design then thermo gas "out_stat" .static_MN "Fl_O:stat"
              [.var "MN", .as "composition" "Fl_I:tot:composition"] [.pre "Fl_O:stat:"]
            else thermo gas "out_stat" .static_A "Fl_O:stat"
              [.var "area", .as "composition" "Fl_I:tot:composition"] [.pre "Fl_O:stat:"]
          else passThrough "W_passthru" "W_out" "Fl_O:stat:W"]
    conns :=
      [("press_rise.Pt_out", "ideal_flow.P"), ("ideal_flow.h", "enth_rise.ideal_ht"),
       ("enth_rise.ht_out", "real_flow.h"), ("press_rise.Pt_out", "real_flow.P"),
       ("enth_rise.ht_out", "blds_pwr.ht_out")]
      ++ (bs.flatMap fun b => [(b ++ ":ht", b ++ "_flow" ++ ".h"), (b ++ ":Pt", b ++ "_flow" ++ ".P")])
      ++ (if statics then statConns "Fl_O" "out_stat" ++ [("W_out", "out_stat.W")] else []) }

/-! ## Turbine -/

/-- The turbine's subsystems before the bleeds (turbine.py:473-501). -/
def turbineHead (m : Map.TMap) (design : Bool) : List Sub :=
  [flowIn "in_flow" "Fl_I" [.pre "Fl_I:"] [],
   { name := "corrinputs", ins := ["Tt", "Pt", "W_in", "Nmech"], outs := ["Wp", "Np"]
     promI := [.var "Nmech", .as "W_in" "Fl_I:stat:W", .as "Pt" "Fl_I:tot:P", .as "Tt" "Fl_I:tot:T"]
     promO := [.var "Np", .var "Wp"]
     eqn := fun i o =>
       let x : Comp.CI → ℝ := fun
         | .Tt => i.num "Tt" | .Pt => i.num "Pt" | .W_in => i.num "W_in" | .Nmech => i.num "Nmech"
       o.num "Wp" = Turb.corr x .Wp ∧ o.num "Np" = Turb.corr x .Np },
   if design then (turbineMap m true).asSub "map" [.var "Np", .var "Wp", .var "PR", .var "eff"]
      [.var "s_PR", .var "s_Wp", .var "s_eff", .var "s_Np"]
    else (turbineMap m false).asSub "map" [.var "Np", .var "Wp", .var "s_PR", .var "s_Wp", .var "s_eff", .var "s_Np"]
      [.var "PR", .var "eff"],
   { name := "press_drop", ins := ["PR", "Pt_in"], outs := ["Pt_out"]
     promI := [.var "PR", .as "Pt_in" "Fl_I:tot:P"], promO := []
     eqn := fun i o => o.num "Pt_out" = Turb.pressDrop (fun | .PR => i.num "PR" | .Pt_in => i.num "Pt_in") },
   thermo gas "ideal_flow" .total_SP "flow" [.as "S" "Fl_I:tot:S", .as "composition" "Fl_I:tot:composition"] []]

/-- The port of a cooling bleed (turbine.py:509-512). -/
def bleedPort (b : String) : Sub := flowIn b b [.pre (b ++ ":")] []

/-- `BleedPressure` (turbine.py:166-208) as the subsystem `blds` (turbine.py:515-519). -/
def bldPressSub (bs : List String) : Sub :=
  { name := "blds"
    ins := ["Pt_in", "Pt_out"] ++ bs.flatMap fun b => [b ++ ":frac_P", b ++ ":W"]
    outs := bs.flatMap fun b => [b ++ ":Pt"]
    promI := [.as "Pt_in" "Fl_I:tot:P"] ++ bs.map fun b => .var (b ++ ":frac_P")
    promO := []
    eqn := fun i o => ∀ k : Fin bs.length, o.num (bs[k] ++ ":Pt") = Turb.bldPt (n := bs.length) (fun
      | .Pt_in => i.num "Pt_in" | .Pt_out => i.num "Pt_out" | .frac_P k => i.num (bs[k] ++ ":frac_P")
      | .W k => i.num (bs[k] ++ ":W")) k }

/-- What `setup` has determined about the turbine's `ThermoAdd`: the method and, for CEA, the properties of the
inflow, the mixture and each bleed. -/
inductive BleedAdder
  | cea (pin pmix : Properties) (pbleed : String → Properties)
  | tab (n : ℕ)

/-- The `ThermoAdd` in flow mode with the bleeds as mixed-in streams (cea/thermo_add.py:110-191,
tabular/thermo_add.py:62-144), as the subsystem `bld_add` (turbine.py:521-526). -/
def bldAddSub (a : BleedAdder) (bs : List String) : Sub :=
  { name := "bld_add"
    ins := ["Fl_I:stat:W", "Fl_I:tot:h", "Fl_I:tot:composition"]
      ++ bs.flatMap fun b => [b ++ ":h", b ++ ":composition", b ++ ":W"]
    outs := ["mass_avg_h", "Wout", "composition_out"]
    promI := [.var "Fl_I:stat:W", .var "Fl_I:tot:composition"]
      ++ (bs.map fun b => .as (b ++ ":W") (b ++ ":stat:W"))
      ++ bs.map fun b => .as (b ++ ":composition") (b ++ ":tot:composition")
    promO := [.as "Wout" "W_out"]
    eqn := fun i o => match a with
      | .cea pin pmix pb =>
        let r := flowCompute pin pmix (i.num "Fl_I:stat:W") (i.num "Fl_I:tot:h")
          (fun k => i.vec "Fl_I:tot:composition" k)
          (bs.map fun b => ⟨pb b, i.num (b ++ ":W"), i.num (b ++ ":h"), fun k => i.vec (b ++ ":composition") k⟩)
        o.num "mass_avg_h" = r.h ∧ o.num "Wout" = r.W ∧ ∀ k, o.vec "composition_out" k.val = r.comp k
      | .tab n =>
        let r := tabFlowCompute (n := n) (i.num "Fl_I:stat:W") (i.num "Fl_I:tot:h")
          (fun k => i.vec "Fl_I:tot:composition" k)
          (bs.map fun b => ⟨fun k => i.vec (b ++ ":composition") k, i.num (b ++ ":W"), i.num (b ++ ":h")⟩)
        o.num "mass_avg_h" = r.h ∧ o.num "Wout" = r.W ∧ ∀ k, o.vec "composition_out" k.val = r.comp k }

/-- The two solvers of a cooling bleed (turbine.py:529-549). -/
def bleedIn (b : String) : List Sub :=
  [thermo gas (b ++ "_inflow") .total_hP "flow"
    [.as "composition" (b ++ ":tot:composition"), .as "h" (b ++ ":tot:h")] [],
   thermo gas (b ++ "_ideal") .total_SP "flow" [.as "composition" (b ++ ":tot:composition")] []]

/-- `EnthalpyAndPower` (turbine.py:229-306) as the subsystem `pwr_turb` (turbine.py:552-559); `BN:ht_ideal` is
promoted under the name of the solver's output. -/
def pwrTurbSub (bs : List String) : Sub :=
  { name := "pwr_turb"
    ins := ["W_in", "W_out", "ht_in", "ht_out_ideal", "eff", "Nmech"]
      ++ bs.flatMap fun b => [b ++ ":W", b ++ ":ht", b ++ ":ht_ideal"]
    outs := ["ht_out_b4bld", "ht_out", "power", "trq"]
    promI := [.var "Nmech", .var "eff", .var "W_out", .as "W_in" "Fl_I:stat:W", .as "ht_in" "Fl_I:tot:h"]
      ++ (bs.map fun b => .as (b ++ ":W") (b ++ ":stat:W")) ++ (bs.map fun b => .as (b ++ ":ht") (b ++ ":tot:h"))
      ++ bs.map fun b => .as (b ++ ":ht_ideal") (b ++ "_ideal.h")
    promO := [.var "power", .var "trq", .var "ht_out_b4bld"]
    eqn := fun i o =>
      let x : Turb.EI bs.length → ℝ := fun
        | .W_in => i.num "W_in" | .W_out => i.num "W_out" | .ht_in => i.num "ht_in"
        | .ht_out_ideal => i.num "ht_out_ideal" | .eff => i.num "eff" | .Nmech => i.num "Nmech"
        | .W k => i.num (bs[k] ++ ":W") | .ht k => i.num (bs[k] ++ ":ht")
        | .ht_ideal k => i.num (bs[k] ++ ":ht_ideal")
      o.num "ht_out_b4bld" = Turb.enthPower x .ht_out_b4bld ∧ o.num "ht_out" = Turb.enthPower x .ht_out
      ∧ o.num "power" = Turb.enthPower x .power ∧ o.num "trq" = Turb.enthPower x .trq }

/-- The turbine's subsystems after the bleeds (turbine.py:562-632). -/
def turbineTail (design statics : Bool) : List Sub :=
  [thermo gas "real_flow_b4bld" .total_hP "Fl_O_b4bld:tot" [.as "composition" "Fl_I:tot:composition"] [],
   { name := "eff_poly_calc", ins := ["PR", "S_in", "S_out", "Rt"], outs := ["eff_poly"]
     promI := [.var "PR", .as "S_in" "Fl_I:tot:S", .as "Rt" "Fl_I:tot:R"], promO := [.var "eff_poly"]
     eqn := fun i o => o.num "eff_poly" = Turb.effPoly
       (fun | .PR => i.num "PR" | .S_in => i.num "S_in" | .S_out => i.num "S_out" | .Rt => i.num "Rt") },
   thermo gas "real_flow" .total_hP "Fl_O:tot" [] [.pre "Fl_O:tot:"],
   if statics then
     if design then thermo gas "out_stat" .static_MN "Fl_O:stat" [.var "MN"] [.pre "Fl_O:stat:"]
     else thermo gas "out_stat" .static_A "Fl_O:stat" [.var "area"] [.pre "Fl_O:stat:"]
   else passThrough "W_passthru" "W_out" "Fl_O:stat:W"]

/-- `Turbine.setup` (turbine.py:459-637). The solvers of bleed `b` are built for that bleed's elements (537, 547), so
have their own gas `gb b`. The last statement of `set_order` adds the bleed names to a list, so the names must be a
list here (a tuple, which the option allows, raises `TypeError`). -/
def turbine (gb : String → (ℕ → ℝ) → TPGas) (m : Map.TMap) (a : BleedAdder) (bs : List String)
    (design statics : Bool) : Group :=
  { subs := turbineHead gas m design ++ bs.map bleedPort ++ [bldPressSub bs, bldAddSub a bs]
      ++ (bs.flatMap fun b => bleedIn (gb b) b) ++ [pwrTurbSub bs] ++ turbineTail gas design statics
    conns :=
      [("press_drop.Pt_out", "ideal_flow.P"), ("press_drop.Pt_out", "blds.Pt_out")]
      ++ (bs.flatMap fun b => [("blds." ++ b ++ ":Pt", b ++ "_inflow" ++ ".P"),
        (b ++ "_inflow" ++ ".flow:S", b ++ "_ideal" ++ ".S"), ("press_drop.Pt_out", b ++ "_ideal" ++ ".P")])
      ++ [("ideal_flow.h", "pwr_turb.ht_out_ideal"), ("ht_out_b4bld", "real_flow_b4bld.h"),
        ("press_drop.Pt_out", "real_flow_b4bld.P"), ("real_flow_b4bld.Fl_O_b4bld:tot:S", "eff_poly_calc.S_out"),
        ("pwr_turb.ht_out", "real_flow.h"), ("press_drop.Pt_out", "real_flow.P"),
        ("bld_add.composition_out", "real_flow.composition")]
      ++ (if statics then [("bld_add.composition_out", "out_stat.composition")] ++ statConns "Fl_O" "out_stat"
            ++ [("W_out", "out_stat.W")]
          else []) }

end PyCycle.OM
