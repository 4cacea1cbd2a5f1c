import Verif.Model.Turbofan

/-! # A whole engine: the electric propulsor of the examples, dry or wet

`Propulsor.setup` (example_cycles/electric_propulsor.py:13-97) and `WetPropulsor.setup`
(example_cycles/wet_propulsor.py:6-86), as a design point and as an off-design point. -/

namespace PyCycle.OM

/-- What the model leaves open: the gas, the fan's map, and water mixed into the free stream (wet propulsor). The input
that sets its ratio keeps the default name. -/
structure PropulsorParts where
  air : (ℕ → ℝ) → TPGas
  fan : Map.CMap
  water : Option Adder

/-- An `om.IndepVarComp('Nmech', 1.)`: an output any value can be given to (electric_propulsor.py:40). -/
def speedSub : Sub :=
  { name := "shaft", ins := [], outs := ["Nmech"], promI := [], promO := [], eqn := fun _ _ => True }

namespace Propulsor

/-- The elements (electric_propulsor.py:28-32). -/
def elements (p : PropulsorParts) (d : Bool) : List Member :=
  [⟨"fc", flightConditions p.air p.water, [], []⟩,
   ⟨"inlet", inlet p.air d true, [], []⟩,
   ⟨"fan", compressor p.air p.fan [] d true, [], []⟩,
   ⟨"nozz", nozzle p.air .CV .Cv, [], []⟩]

/-- The flow links (electric_propulsor.py:65-67). -/
def flows : List Link :=
  [{ src := ("fc", "Fl_O"), tgt := ("inlet", "Fl_I") },
   { src := ("inlet", "Fl_O"), tgt := ("fan", "Fl_I") },
   { src := ("fan", "Fl_O"), tgt := ("nozz", "Fl_I") }]

/-- The balances (electric_propulsor.py:37-63). -/
def bals (d : Bool) : List Bal := if d then [.of "W"] else [.of "W", .of "Nmech"]

/-- The balance that meets the power has its right-hand side promoted (electric_propulsor.py:44-45, 62-63). -/
def balProms (d : Bool) : List Prom := [.as (if d then "rhs:W" else "rhs:Nmech") "pwr_target"]

/-- Connections of the balances (electric_propulsor.py:41, 46, 53-57). -/
def balConns (d : Bool) : List (String × String) :=
  if d then [("shaft.Nmech", "fan.Nmech"), ("fan.power", "balance.lhs:W")]
  else [("nozz.Throat:stat:area", "balance.lhs:W"), ("balance.Nmech", "fan.Nmech"), ("fan.power", "balance.lhs:Nmech")]

/-- Connections in both modes (electric_propulsor.py:70-76). -/
def plainConns : List (String × String) :=
  [("fc.Fl_O:stat:P", "nozz.Ps_exhaust"), ("inlet.Fl_O:tot:P", "perf.Pt2"), ("fan.Fl_O:tot:P", "perf.Pt3"),
   ("inlet.F_ram", "perf.ram_drag"), ("nozz.Fg", "perf.Fg_0"), ("balance.W", "fc.W")]

end Propulsor

/-- `Propulsor.setup` and `WetPropulsor.setup`; `d` is `options['design']`. Solver settings are left out. -/
def propulsor (p : PropulsorParts) (d : Bool) : Cycle :=
  { members := Propulsor.elements p d
    links := Propulsor.flows
    others := performanceSub 1 0 :: balances (Propulsor.bals d) (Propulsor.balProms d) :: if d then [speedSub] else []
    conns := Propulsor.plainConns ++ Propulsor.balConns d }

end PyCycle.OM
