import Verif.Model.Turbofan

/-! # A whole engine: the turbojet with afterburner of the examples

`ABTurbojet.setup` (example_cycles/afterburning_turbojet.py:8-116), as a design point and as an off-design point.
Thermodynamics, maps, the way the two burners add fuel and the turbine bleed air are left open. -/

namespace PyCycle.OM

/-- What the model leaves open: the gas before the burner, between burner and afterburner and behind it, the maps, the
addition of fuel and of bleed air. -/
structure AbtjParts where
  air : (ℕ → ℝ) → TPGas
  burnt : (ℕ → ℝ) → TPGas
  hot : (ℕ → ℝ) → TPGas
  comp : Map.CMap
  turb : Map.TMap
  fuel : Adder
  abFuel : Adder
  bleed : BleedAdder

namespace ABTJ

/-- The elements (afterburning_turbojet.py:26-42). -/
def elements (p : AbtjParts) (d : Bool) : List Member :=
  [⟨"fc", flightConditions p.air none, [], []⟩,
   ⟨"inlet", inlet p.air d true, [], []⟩,
   ⟨"duct1", duct p.air d true 0 false, [], []⟩,
   ⟨"comp", compressor p.air p.comp ["cool1", "cool2"] d true, [.as "Nmech" "Nmech"], []⟩,
   ⟨"burner", combustor p.burnt p.fuel d true, [], []⟩,
   ⟨"turb", turbine p.burnt (fun _ => p.air) p.turb p.bleed ["cool1", "cool2"] d true, [.as "Nmech" "Nmech"], []⟩,
   ⟨"ab", combustor p.hot p.abFuel d true, [], []⟩,
   ⟨"nozz", nozzle p.hot .CD .Cv, [], []⟩]

/-- The flow links (afterburning_turbojet.py:93-102). -/
def flows : List Link :=
  [{ src := ("fc", "Fl_O"), tgt := ("inlet", "Fl_I"), w := false },
   { src := ("inlet", "Fl_O"), tgt := ("duct1", "Fl_I"), stat := false },
   { src := ("duct1", "Fl_O"), tgt := ("comp", "Fl_I"), stat := false },
   { src := ("comp", "Fl_O"), tgt := ("burner", "Fl_I"), stat := false },
   { src := ("burner", "Fl_O"), tgt := ("turb", "Fl_I"), stat := false },
   { src := ("turb", "Fl_O"), tgt := ("ab", "Fl_I"), stat := false },
   { src := ("ab", "Fl_O"), tgt := ("nozz", "Fl_I"), stat := false },
   { src := ("comp", "cool1"), tgt := ("turb", "cool1"), stat := false },
   { src := ("comp", "cool2"), tgt := ("turb", "cool2"), stat := false }]

/-- The balances (afterburning_turbojet.py:58-88). -/
def bals (d : Bool) : List Bal :=
  if d then [.of "W", .of "FAR", .of "turb_PR"] else [.of "FAR", .ofMult "Nmech", .of "W"]

/-- Connections of the balances (afterburning_turbojet.py:61-88): at design the net power of the shaft, off design its
powers before loss and extraction, and the R-line of the compressor. -/
def balConns (d : Bool) : List (String × String) :=
  if d then
    [("balance.W", "inlet.Fl_I:stat:W"), ("perf.Fn", "balance.lhs:W"),
     ("balance.FAR", "burner.Fl_I:FAR"), ("burner.Fl_O:tot:T", "balance.lhs:FAR"),
     ("balance.turb_PR", "turb.PR"), ("shaft.pwr_net", "balance.lhs:turb_PR")]
  else
    [("balance.FAR", "burner.Fl_I:FAR"), ("burner.Fl_O:tot:T", "balance.lhs:FAR"),
     ("balance.Nmech", "Nmech"), ("shaft.pwr_in", "balance.lhs:Nmech"), ("shaft.pwr_out", "balance.rhs:Nmech"),
     ("balance.W", "inlet.Fl_I:stat:W"), ("comp.map.RlineMap", "balance.lhs:W")]

/-- Connections in both modes (afterburning_turbojet.py:46-55). -/
def plainConns : List (String × String) :=
  [("duct1.Fl_O:tot:P", "perf.Pt2"), ("comp.Fl_O:tot:P", "perf.Pt3"), ("burner.Wfuel", "perf.Wfuel_0"),
   ("ab.Wfuel", "perf.Wfuel_1"), ("inlet.F_ram", "perf.ram_drag"), ("nozz.Fg", "perf.Fg_0"),
   ("comp.trq", "shaft.trq_0"), ("turb.trq", "shaft.trq_1"), ("fc.Fl_O:stat:P", "nozz.Ps_exhaust")]

end ABTJ

/-- `ABTurbojet.setup` (example_cycles/afterburning_turbojet.py:10-116); `d` is `options['design']`. Solver settings are
left out; bounds of the balances can only prevent convergence. -/
def abtj (p : AbtjParts) (d : Bool) : Cycle :=
  { members := ABTJ.elements p d
    links := ABTJ.flows
    others :=
      [{ shaftSub 2 [.as "Nmech" "Nmech"] with name := "shaft" }, performanceSub 1 2, balances (ABTJ.bals d) []]
    conns := ABTJ.plainConns ++ ABTJ.balConns d }

end PyCycle.OM
