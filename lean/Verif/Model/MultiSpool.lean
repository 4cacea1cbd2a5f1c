import Verif.Model.Turbofan

/-! # A whole engine: the turboshaft with two gas generator spools of the examples

`MultiSpoolTurboshaft.setup` (example_cycles/multi_spool_turboshaft.py:15-148), as a design point and as an off-design
point. Thermodynamics, maps and the way the burner adds fuel and the turbines bleed air are left open. -/

namespace PyCycle.OM

/-- What the model leaves open: the gas before and after the burner, the maps, the addition of fuel and of bleed air (of
none in the power turbine). -/
structure MstParts where
  air : (ℕ → ℝ) → TPGas
  burnt : (ℕ → ℝ) → TPGas
  lpc : Map.CMap
  axi : Map.CMap
  centri : Map.CMap
  hpt : Map.TMap
  lpt : Map.TMap
  pt : Map.TMap
  fuel : Adder
  hptBleed : BleedAdder
  lptBleed : BleedAdder
  ptBleed : BleedAdder

namespace MST

/-- The elements (multi_spool_turboshaft.py:22-47). -/
def elements (p : MstParts) (d : Bool) : List Member :=
  [⟨"fc", flightConditions p.air none, [], []⟩,
   ⟨"inlet", inlet p.air d true, [], []⟩,
   ⟨"duct1", duct p.air d true 0 false, [], []⟩,
   ⟨"lpc", compressor p.air p.lpc [] d true, [.as "Nmech" "IP_Nmech"], []⟩,
   ⟨"icduct", duct p.air d true 0 false, [], []⟩,
   ⟨"hpc_axi", compressor p.air p.axi [] d true, [.as "Nmech" "HP_Nmech"], []⟩,
   ⟨"bld25", bleedOut p.air ["cool1", "cool2"] d true, [], []⟩,
   ⟨"hpc_centri", compressor p.air p.centri [] d true, [.as "Nmech" "HP_Nmech"], []⟩,
   ⟨"bld3", bleedOut p.air ["cool3", "cool4"] d true, [], []⟩,
   ⟨"duct6", duct p.air d true 0 false, [], []⟩,
   ⟨"burner", combustor p.burnt p.fuel d true, [], []⟩,
   ⟨"hpt", turbine p.burnt (fun _ => p.air) p.hpt p.hptBleed ["cool3", "cool4"] d true, [.as "Nmech" "HP_Nmech"], []⟩,
   ⟨"duct43", duct p.burnt d true 0 false, [], []⟩,
   ⟨"lpt", turbine p.burnt (fun _ => p.air) p.lpt p.lptBleed ["cool1", "cool2"] d true, [.as "Nmech" "IP_Nmech"], []⟩,
   ⟨"itduct", duct p.burnt d true 0 false, [], []⟩,
   ⟨"pt", turbine p.burnt (fun _ => p.air) p.pt p.ptBleed [] d true, [.as "Nmech" "LP_Nmech"], []⟩,
   ⟨"duct12", duct p.burnt d true 0 false, [], []⟩,
   ⟨"nozzle", nozzle p.burnt .CV .Cv, [], []⟩]

/-- The flow links (multi_spool_turboshaft.py:111-132). -/
def flows : List Link :=
  [{ src := ("fc", "Fl_O"), tgt := ("inlet", "Fl_I"), w := false },
   { src := ("inlet", "Fl_O"), tgt := ("duct1", "Fl_I") },
   { src := ("duct1", "Fl_O"), tgt := ("lpc", "Fl_I") },
   { src := ("lpc", "Fl_O"), tgt := ("icduct", "Fl_I") },
   { src := ("icduct", "Fl_O"), tgt := ("hpc_axi", "Fl_I") },
   { src := ("hpc_axi", "Fl_O"), tgt := ("bld25", "Fl_I") },
   { src := ("bld25", "Fl_O"), tgt := ("hpc_centri", "Fl_I") },
   { src := ("hpc_centri", "Fl_O"), tgt := ("bld3", "Fl_I") },
   { src := ("bld3", "Fl_O"), tgt := ("duct6", "Fl_I") },
   { src := ("duct6", "Fl_O"), tgt := ("burner", "Fl_I") },
   { src := ("burner", "Fl_O"), tgt := ("hpt", "Fl_I") },
   { src := ("hpt", "Fl_O"), tgt := ("duct43", "Fl_I") },
   { src := ("duct43", "Fl_O"), tgt := ("lpt", "Fl_I") },
   { src := ("lpt", "Fl_O"), tgt := ("itduct", "Fl_I") },
   { src := ("itduct", "Fl_O"), tgt := ("pt", "Fl_I") },
   { src := ("pt", "Fl_O"), tgt := ("duct12", "Fl_I") },
   { src := ("duct12", "Fl_O"), tgt := ("nozzle", "Fl_I") },
   { src := ("bld25", "cool1"), tgt := ("lpt", "cool1"), stat := false },
   { src := ("bld25", "cool2"), tgt := ("lpt", "cool2"), stat := false },
   { src := ("bld3", "cool3"), tgt := ("hpt", "cool3"), stat := false },
   { src := ("bld3", "cool4"), tgt := ("hpt", "cool4"), stat := false }]

/-- The balances (multi_spool_turboshaft.py:71-109). -/
def bals (d : Bool) : List Bal :=
  if d then [.of "W", .of "FAR", .of "lpt_PR", .of "hpt_PR", .of "pt_PR"]
  else [.of "FAR", .of "W", .of "IP_Nmech", .of "HP_Nmech"]

/-- Connections of the balances (multi_spool_turboshaft.py:74-109). -/
def balConns (d : Bool) : List (String × String) :=
  if d then
    [("balance.W", "inlet.Fl_I:stat:W"), ("nozzle.PR", "balance.lhs:W"),
     ("balance.FAR", "burner.Fl_I:FAR"), ("burner.Fl_O:tot:T", "balance.lhs:FAR"),
     ("balance.lpt_PR", "lpt.PR"), ("ip_shaft.pwr_net", "balance.lhs:lpt_PR"),
     ("balance.hpt_PR", "hpt.PR"), ("hp_shaft.pwr_net", "balance.lhs:hpt_PR"),
     ("balance.pt_PR", "pt.PR"), ("lp_shaft.pwr_net", "balance.lhs:pt_PR")]
  else
    [("balance.FAR", "burner.Fl_I:FAR"), ("lp_shaft.pwr_net", "balance.lhs:FAR"),
     ("balance.W", "inlet.Fl_I:stat:W"), ("nozzle.Throat:stat:area", "balance.lhs:W"),
     ("balance.IP_Nmech", "IP_Nmech"), ("ip_shaft.pwr_net", "balance.lhs:IP_Nmech"),
     ("balance.HP_Nmech", "HP_Nmech"), ("hp_shaft.pwr_net", "balance.lhs:HP_Nmech")]

/-- Connections in both modes (multi_spool_turboshaft.py:54-67). -/
def plainConns : List (String × String) :=
  [("duct1.Fl_O:tot:P", "perf.Pt2"), ("hpc_centri.Fl_O:tot:P", "perf.Pt3"), ("burner.Wfuel", "perf.Wfuel_0"),
   ("inlet.F_ram", "perf.ram_drag"), ("nozzle.Fg", "perf.Fg_0"), ("lp_shaft.pwr_in", "perf.power"),
   ("pt.trq", "lp_shaft.trq_0"), ("lpc.trq", "ip_shaft.trq_0"), ("lpt.trq", "ip_shaft.trq_1"),
   ("hpc_axi.trq", "hp_shaft.trq_0"), ("hpc_centri.trq", "hp_shaft.trq_1"), ("hpt.trq", "hp_shaft.trq_2"),
   ("fc.Fl_O:stat:P", "nozzle.Ps_exhaust")]

end MST

/-- `MultiSpoolTurboshaft.setup` (example_cycles/multi_spool_turboshaft.py:15-148); `d` is `options['design']`. Solver
settings are left out; bounds of the balances can only prevent convergence. -/
def mst (p : MstParts) (d : Bool) : Cycle :=
  { members := MST.elements p d
    links := MST.flows
    others :=
      [{ shaftSub 1 [.as "Nmech" "LP_Nmech"] with name := "lp_shaft" },
       { shaftSub 2 [.as "Nmech" "IP_Nmech"] with name := "ip_shaft" },
       { shaftSub 3 [.as "Nmech" "HP_Nmech"] with name := "hp_shaft" },
       performanceSub 1 1, balances (MST.bals d) []]
    conns := MST.plainConns ++ MST.balConns d }

end PyCycle.OM
