import Verif.Model.Turbofan

/-! # A whole engine: the mixed-flow turbofan with afterburner of the examples

`MixedFlowTurbofan.setup` (example_cycles/mixedflow_turbofan.py:9-198), as a design point and as an off-design point.
Thermodynamics, maps, the way the two burners add fuel, the turbines bleed air and the mixer one stream to the other are
left open. -/

namespace PyCycle.OM

/-- What the model leaves open: the gas before the burner, between burner and afterburner and behind it, the maps, the
addition of fuel, of bleed air and of the bypass stream. -/
structure MftfParts where
  air : (ℕ → ℝ) → TPGas
  burnt : (ℕ → ℝ) → TPGas
  hot : (ℕ → ℝ) → TPGas
  fan : Map.CMap
  lpc : Map.CMap
  hpc : Map.CMap
  hpt : Map.TMap
  lpt : Map.TMap
  fuel : Adder
  abFuel : Adder
  hptBleed : BleedAdder
  lptBleed : BleedAdder
  mix : FlowAdder

namespace MFTF

/-- The elements (mixedflow_turbofan.py:26-62); the mixer's stream 1, the core, is the designed one. -/
def elements (p : MftfParts) (d : Bool) : List Member :=
  [⟨"fc", flightConditions p.air none, [], []⟩,
   ⟨"inlet", inlet p.air d true, [], []⟩,
   ⟨"inlet_duct", duct p.air d true 0 false, [], []⟩,
   ⟨"fan", compressor p.air p.fan [] d true, [.as "Nmech" "LP_Nmech"], []⟩,
   ⟨"splitter", splitter p.air d true, [], []⟩,
   ⟨"splitter_core_duct", duct p.air d true 0 false, [], []⟩,
   ⟨"lpc", compressor p.air p.lpc [] d true, [.as "Nmech" "LP_Nmech"], []⟩,
   ⟨"lpc_duct", duct p.air d true 0 false, [], []⟩,
   ⟨"hpc", compressor p.air p.hpc ["cool1"] d true, [.as "Nmech" "HP_Nmech"], []⟩,
   ⟨"bld3", bleedOut p.air ["cool3"] d true, [], []⟩,
   ⟨"burner", combustor p.burnt p.fuel d true, [], []⟩,
   ⟨"hpt", turbine p.burnt (fun _ => p.air) p.hpt p.hptBleed ["cool3"] d true, [.as "Nmech" "HP_Nmech"], []⟩,
   ⟨"hpt_duct", duct p.burnt d true 0 false, [], []⟩,
   ⟨"lpt", turbine p.burnt (fun _ => p.air) p.lpt p.lptBleed ["cool1"] d true, [.as "Nmech" "LP_Nmech"], []⟩,
   ⟨"lpt_duct", duct p.burnt d true 0 false, [], []⟩,
   ⟨"bypass_duct", duct p.air d true 0 false, [], []⟩,
   ⟨"mixer", mixer p.burnt p.mix true d, [], []⟩,
   ⟨"mixer_duct", duct p.burnt d true 0 false, [], []⟩,
   ⟨"afterburner", combustor p.hot p.abFuel d true, [], []⟩,
   ⟨"mixed_nozz", nozzle p.hot .CD .Cfg, [], []⟩]

/-- The flow links (mixedflow_turbofan.py:72-103). -/
def flows : List Link :=
  [{ src := ("fc", "Fl_O"), tgt := ("inlet", "Fl_I") },
   { src := ("inlet", "Fl_O"), tgt := ("inlet_duct", "Fl_I") },
   { src := ("inlet_duct", "Fl_O"), tgt := ("fan", "Fl_I") },
   { src := ("fan", "Fl_O"), tgt := ("splitter", "Fl_I") },
   { src := ("splitter", "Fl_O1"), tgt := ("splitter_core_duct", "Fl_I") },
   { src := ("splitter_core_duct", "Fl_O"), tgt := ("lpc", "Fl_I") },
   { src := ("lpc", "Fl_O"), tgt := ("lpc_duct", "Fl_I") },
   { src := ("lpc_duct", "Fl_O"), tgt := ("hpc", "Fl_I") },
   { src := ("hpc", "Fl_O"), tgt := ("bld3", "Fl_I") },
   { src := ("bld3", "Fl_O"), tgt := ("burner", "Fl_I") },
   { src := ("burner", "Fl_O"), tgt := ("hpt", "Fl_I") },
   { src := ("hpt", "Fl_O"), tgt := ("hpt_duct", "Fl_I") },
   { src := ("hpt_duct", "Fl_O"), tgt := ("lpt", "Fl_I") },
   { src := ("lpt", "Fl_O"), tgt := ("lpt_duct", "Fl_I") },
   { src := ("lpt_duct", "Fl_O"), tgt := ("mixer", "Fl_I1") },
   { src := ("splitter", "Fl_O2"), tgt := ("bypass_duct", "Fl_I") },
   { src := ("bypass_duct", "Fl_O"), tgt := ("mixer", "Fl_I2") },
   { src := ("mixer", "Fl_O"), tgt := ("mixer_duct", "Fl_I") },
   { src := ("mixer_duct", "Fl_O"), tgt := ("afterburner", "Fl_I") },
   { src := ("afterburner", "Fl_O"), tgt := ("mixed_nozz", "Fl_I") },
   { src := ("hpc", "cool1"), tgt := ("lpt", "cool1"), stat := false },
   { src := ("bld3", "cool3"), tgt := ("hpt", "cool3"), stat := false }]

/-- The balances (mixedflow_turbofan.py:124-174). -/
def bals (d : Bool) : List Bal :=
  if d then [.of "W", .of "BPR", .of "FAR_core", .of "FAR_ab", .ofMult "lpt_PR", .ofMult "hpt_PR"]
  else [.of "W", .of "BPR", .of "FAR_core", .of "FAR_ab", .ofMult "LP_Nmech", .ofMult "HP_Nmech"]

/-- Connections of the balances (mixedflow_turbofan.py:124-174); the shafts' powers before loss and extraction. -/
def balConns (d : Bool) : List (String × String) :=
  if d then
    [("balance.W", "fc.W"), ("perf.Fn", "balance.lhs:W"),
     ("balance.BPR", "splitter.BPR"), ("mixer.ER", "balance.lhs:BPR"),
     ("balance.FAR_core", "burner.Fl_I:FAR"), ("burner.Fl_O:tot:T", "balance.lhs:FAR_core"),
     ("balance.FAR_ab", "afterburner.Fl_I:FAR"), ("afterburner.Fl_O:tot:T", "balance.lhs:FAR_ab"),
     ("balance.lpt_PR", "lpt.PR"), ("lp_shaft.pwr_in", "balance.lhs:lpt_PR"), ("lp_shaft.pwr_out", "balance.rhs:lpt_PR"),
     ("balance.hpt_PR", "hpt.PR"), ("hp_shaft.pwr_in", "balance.lhs:hpt_PR"), ("hp_shaft.pwr_out", "balance.rhs:hpt_PR")]
  else
    [("balance.W", "fc.W"), ("mixed_nozz.Throat:stat:area", "balance.lhs:W"),
     ("balance.BPR", "splitter.BPR"), ("mixer.Fl_I1_calc:stat:P", "balance.lhs:BPR"),
     ("bypass_duct.Fl_O:stat:P", "balance.rhs:BPR"),
     ("balance.FAR_core", "burner.Fl_I:FAR"), ("burner.Fl_O:tot:T", "balance.lhs:FAR_core"),
     ("balance.FAR_ab", "afterburner.Fl_I:FAR"), ("afterburner.Fl_O:tot:T", "balance.lhs:FAR_ab"),
     ("balance.LP_Nmech", "LP_Nmech"), ("lp_shaft.pwr_in", "balance.lhs:LP_Nmech"),
     ("lp_shaft.pwr_out", "balance.rhs:LP_Nmech"),
     ("balance.HP_Nmech", "HP_Nmech"), ("hp_shaft.pwr_in", "balance.lhs:HP_Nmech"),
     ("hp_shaft.pwr_out", "balance.rhs:HP_Nmech")]

/-- Connections in both modes (mixedflow_turbofan.py:106-119). -/
def plainConns : List (String × String) :=
  [("inlet.Fl_O:tot:P", "perf.Pt2"), ("hpc.Fl_O:tot:P", "perf.Pt3"), ("burner.Wfuel", "perf.Wfuel_0"),
   ("afterburner.Wfuel", "perf.Wfuel_1"), ("inlet.F_ram", "perf.ram_drag"), ("mixed_nozz.Fg", "perf.Fg_0"),
   ("fan.trq", "lp_shaft.trq_0"), ("lpc.trq", "lp_shaft.trq_1"), ("lpt.trq", "lp_shaft.trq_2"),
   ("hpc.trq", "hp_shaft.trq_0"), ("hpt.trq", "hp_shaft.trq_1"),
   ("fc.Fl_O:stat:P", "mixed_nozz.Ps_exhaust")]

end MFTF

/-- `MixedFlowTurbofan.setup` (example_cycles/mixedflow_turbofan.py:11-198); `d` is `options['design']`. Solver settings
are left out. -/
def mftf (p : MftfParts) (d : Bool) : Cycle :=
  { members := MFTF.elements p d
    links := MFTF.flows
    others :=
      [{ shaftSub 3 [.as "Nmech" "LP_Nmech"] with name := "lp_shaft" },
       { shaftSub 2 [.as "Nmech" "HP_Nmech"] with name := "hp_shaft" },
       performanceSub 1 2, balances (MFTF.bals d) []]
    conns := MFTF.plainConns ++ MFTF.balConns d }

end PyCycle.OM
