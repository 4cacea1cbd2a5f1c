import Verif.Model.Turbofan

/-! # A whole engine: the turboshaft with a free power turbine of the examples

`SingleSpoolTurboshaft.setup` (example_cycles/single_spool_turboshaft.py:7-105), as a design point and as an off-design
point. Thermodynamics, maps and the way the burner adds fuel are left open. -/

namespace PyCycle.OM

/-- What the model leaves open: the gas before and after the burner, the maps, the addition of fuel (and of no bleed air
in the turbines). -/
structure SstsParts where
  air : (ℕ → ℝ) → TPGas
  burnt : (ℕ → ℝ) → TPGas
  comp : Map.CMap
  turb : Map.TMap
  pt : Map.TMap
  fuel : Adder
  turbBleed : BleedAdder
  ptBleed : BleedAdder

namespace SSTS

/-- The elements (single_spool_turboshaft.py:24-33). -/
def elements (p : SstsParts) (d : Bool) : List Member :=
  [⟨"fc", flightConditions p.air none, [], []⟩,
   ⟨"inlet", inlet p.air d true, [], []⟩,
   ⟨"comp", compressor p.air p.comp [] d true, [.as "Nmech" "HP_Nmech"], []⟩,
   ⟨"burner", combustor p.burnt p.fuel d true, [], []⟩,
   ⟨"turb", turbine p.burnt (fun _ => p.burnt) p.turb p.turbBleed [] d true, [.as "Nmech" "HP_Nmech"], []⟩,
   ⟨"pt", turbine p.burnt (fun _ => p.burnt) p.pt p.ptBleed [] d true, [.as "Nmech" "LP_Nmech"], []⟩,
   ⟨"nozz", nozzle p.burnt .CV .Cv, [], []⟩]

/-- The flow links (single_spool_turboshaft.py:39-44). -/
def flows : List Link :=
  [{ src := ("fc", "Fl_O"), tgt := ("inlet", "Fl_I"), w := false },
   { src := ("inlet", "Fl_O"), tgt := ("comp", "Fl_I") },
   { src := ("comp", "Fl_O"), tgt := ("burner", "Fl_I") },
   { src := ("burner", "Fl_O"), tgt := ("turb", "Fl_I") },
   { src := ("turb", "Fl_O"), tgt := ("pt", "Fl_I") },
   { src := ("pt", "Fl_O"), tgt := ("nozz", "Fl_I") }]

/-- The balances (single_spool_turboshaft.py:63-95); the right-hand sides of some are renamed. -/
def bals (d : Bool) : List Bal :=
  if d then [{ Bal.of "W" with rhs := "nozz_PR_target" }, { Bal.of "FAR" with rhs := "T4_target" }, .of "turb_PR",
    { Bal.of "pt_PR" with rhs := "pwr_target" }]
  else [{ Bal.of "FAR" with rhs := "pwr_target" }, .of "HP_Nmech", .of "W"]

/-- Connections of the balances (single_spool_turboshaft.py:63-95). -/
def balConns (d : Bool) : List (String × String) :=
  if d then
    [("balance.W", "inlet.Fl_I:stat:W"), ("nozz.PR", "balance.lhs:W"),
     ("balance.FAR", "burner.Fl_I:FAR"), ("burner.Fl_O:tot:T", "balance.lhs:FAR"),
     ("balance.turb_PR", "turb.PR"), ("HP_shaft.pwr_net", "balance.lhs:turb_PR"),
     ("balance.pt_PR", "pt.PR"), ("LP_shaft.pwr_net", "balance.lhs:pt_PR")]
  else
    [("balance.FAR", "burner.Fl_I:FAR"), ("LP_shaft.pwr_net", "balance.lhs:FAR"),
     ("balance.HP_Nmech", "HP_Nmech"), ("HP_shaft.pwr_net", "balance.lhs:HP_Nmech"),
     ("balance.W", "inlet.Fl_I:stat:W"), ("nozz.Throat:stat:area", "balance.lhs:W")]

/-- Connections in both modes (single_spool_turboshaft.py:47-60). -/
def plainConns : List (String × String) :=
  [("comp.trq", "HP_shaft.trq_0"), ("turb.trq", "HP_shaft.trq_1"), ("pt.trq", "LP_shaft.trq_0"),
   ("fc.Fl_O:stat:P", "nozz.Ps_exhaust"),
   ("inlet.Fl_O:tot:P", "perf.Pt2"), ("comp.Fl_O:tot:P", "perf.Pt3"), ("burner.Wfuel", "perf.Wfuel_0"),
   ("inlet.F_ram", "perf.ram_drag"), ("nozz.Fg", "perf.Fg_0"), ("LP_shaft.pwr_net", "perf.power")]

end SSTS

/-- `SingleSpoolTurboshaft.setup` (example_cycles/single_spool_turboshaft.py:9-119); `d` is `options['design']`. Solver
settings are left out. -/
def ssts (p : SstsParts) (d : Bool) : Cycle :=
  { members := SSTS.elements p d
    links := SSTS.flows
    others :=
      [{ shaftSub 2 [.as "Nmech" "HP_Nmech"] with name := "HP_shaft" },
       { shaftSub 1 [.as "Nmech" "LP_Nmech"] with name := "LP_shaft" },
       performanceSub 1 1, balances (SSTS.bals d) []]
    conns := SSTS.plainConns ++ SSTS.balConns d }

end PyCycle.OM
