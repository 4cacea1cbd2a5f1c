import Verif.Model.Turbofan

/-! # A whole engine: the turbojet in humid air of the examples

`WetTurbojet.setup` (example_cycles/wet_simple_turbojet.py:8-105), as a design point and as an off-design point. Water
is mixed into the free stream at the ratio `fc.WAR`. Thermodynamics, maps and the way water and fuel are added are left
open. -/

namespace PyCycle.OM

/-- What the model leaves open: the gas before and after the burner, the maps, the addition of water, of fuel and, in the
turbine, of no bleeds. -/
structure WetParts where
  air : (ℕ → ℝ) → TPGas
  burnt : (ℕ → ℝ) → TPGas
  comp : Map.CMap
  turb : Map.TMap
  water : Adder
  fuel : Adder
  bleed : BleedAdder

namespace WTJ

/-- The elements (wet_simple_turbojet.py:21-33); `fc` has `reactant='Water'` and `mix_ratio_name='WAR'`. -/
def elements (p : WetParts) (d : Bool) : List Member :=
  [⟨"fc", flightConditions p.air (some p.water) "WAR", [], []⟩,
   ⟨"inlet", inlet p.air d true, [], []⟩,
   ⟨"comp", compressor p.air p.comp [] d true, [.as "Nmech" "Nmech"], []⟩,
   ⟨"burner", combustor p.burnt p.fuel d true, [], []⟩,
   ⟨"turb", turbine p.burnt (fun _ => p.burnt) p.turb p.bleed [] d true, [.as "Nmech" "Nmech"], []⟩,
   ⟨"nozz", nozzle p.burnt .CD .Cv, [], []⟩]

/-- The flow links (wet_simple_turbojet.py:37-41). -/
def flows : List Link :=
  [{ src := ("fc", "Fl_O"), tgt := ("inlet", "Fl_I"), w := false },
   { src := ("inlet", "Fl_O"), tgt := ("comp", "Fl_I") },
   { src := ("comp", "Fl_O"), tgt := ("burner", "Fl_I") },
   { src := ("burner", "Fl_O"), tgt := ("turb", "Fl_I") },
   { src := ("turb", "Fl_O"), tgt := ("nozz", "Fl_I") }]

/-- The balances (wet_simple_turbojet.py:57-83). -/
def bals (d : Bool) : List Bal :=
  if d then [.of "W", .of "FAR", .of "turb_PR"] else [.of "FAR", .of "Nmech", .of "W"]

/-- Connections of the balances (wet_simple_turbojet.py:60-83). -/
def balConns (d : Bool) : List (String × String) :=
  if d then
    [("balance.W", "inlet.Fl_I:stat:W"), ("perf.Fn", "balance.lhs:W"),
     ("balance.FAR", "burner.Fl_I:FAR"), ("burner.Fl_O:tot:T", "balance.lhs:FAR"),
     ("balance.turb_PR", "turb.PR"), ("shaft.pwr_net", "balance.lhs:turb_PR")]
  else
    [("balance.FAR", "burner.Fl_I:FAR"), ("perf.Fn", "balance.lhs:FAR"),
     ("balance.Nmech", "Nmech"), ("shaft.pwr_net", "balance.lhs:Nmech"),
     ("balance.W", "inlet.Fl_I:stat:W"), ("nozz.Throat:stat:area", "balance.lhs:W")]

/-- Connections in both modes (wet_simple_turbojet.py:44-55). -/
def plainConns : List (String × String) :=
  [("comp.trq", "shaft.trq_0"), ("turb.trq", "shaft.trq_1"), ("fc.Fl_O:stat:P", "nozz.Ps_exhaust"),
   ("inlet.Fl_O:tot:P", "perf.Pt2"), ("comp.Fl_O:tot:P", "perf.Pt3"), ("burner.Wfuel", "perf.Wfuel_0"),
   ("inlet.F_ram", "perf.ram_drag"), ("nozz.Fg", "perf.Fg_0")]

end WTJ

/-- `WetTurbojet.setup` (example_cycles/wet_simple_turbojet.py:10-105); `d` is `options['design']`. Promoting `Nmech` by
name is written as promoting it under the same name. Solver settings are left out; bounds of the balances can only
prevent convergence. -/
def wtj (p : WetParts) (d : Bool) : Cycle :=
  { members := WTJ.elements p d
    links := WTJ.flows
    others :=
      [{ shaftSub 2 [.as "Nmech" "Nmech"] with name := "shaft" }, performanceSub 1 1, balances (WTJ.bals d) []]
    conns := WTJ.plainConns ++ WTJ.balConns d }

end PyCycle.OM
