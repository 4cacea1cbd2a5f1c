import Verif.Model.Turbojet

/-! # A whole engine: the high-bypass turbofan of the examples

`HBTF.setup` (example_cycles/high_bypass_turbofan.py:10-209), as a design point and as an off-design point in both
throttle modes. Thermodynamics, maps, the way the burner adds fuel and the turbines add bleed air are left open. -/

namespace PyCycle.OM

/-- One balance of `om.BalanceComp`: the output it determines, the inputs it compares and, with `use_mult=True`, the
input that multiplies the left-hand side. -/
structure Bal where
  out : String
  lhs : String
  rhs : String
  mult : Option String := none

/-- Its inputs. -/
def Bal.ins (b : Bal) : List String := [b.lhs, b.rhs] ++ b.mult.toList

/-- Names OpenMDAO gives by default (`add_balance(name)`). -/
def Bal.of (n : String) : Bal := { out := n, lhs := "lhs:" ++ n, rhs := "rhs:" ++ n }
def Bal.ofMult (n : String) : Bal := { Bal.of n with mult := some ("mult:" ++ n) }

/-- At convergence the left-hand side, times the multiplier if there is one, is the right-hand side. -/
def Bal.Met (b : Bal) (i : Env) : Prop :=
  (match b.mult with | none => 1 | some m => i.num m) * i.num b.lhs = i.num b.rhs

/-- `om.BalanceComp` with multipliers (a bound of an output may prevent convergence, then nothing is claimed). -/
def balances (bs : List Bal) (promI : List Prom) : Sub :=
  { name := "balance", ins := bs.flatMap Bal.ins, outs := bs.map Bal.out, promI, promO := []
    eqn := fun i _ => ∀ b ∈ bs, b.Met i }

/-- The mode of the engine: options `design` and `throttle_mode` (high_bypass_turbofan.py:14, 23, 149-155). -/
inductive HbtfMode | design | t4 | percentThrust
  deriving DecidableEq

/-- `options['design']`. -/
def HbtfMode.isDesign : HbtfMode → Bool
  | .design => true
  | _ => false

/-- What the model leaves open: the gas before and after the burner, the maps, the addition of fuel and of bleed air. -/
structure HbtfParts where
  air : (ℕ → ℝ) → TPGas
  burnt : (ℕ → ℝ) → TPGas
  fan : Map.CMap
  lpc : Map.CMap
  hpc : Map.CMap
  hpt : Map.TMap
  lpt : Map.TMap
  fuel : Adder
  hptBleed : BleedAdder
  lptBleed : BleedAdder

namespace HBTF

/-- The elements (high_bypass_turbofan.py:37-65). -/
def elements (p : HbtfParts) (d : Bool) : List Member :=
  [⟨"fc", flightConditions p.air none, [], []⟩,
   ⟨"inlet", inlet p.air d true, [], []⟩,
   ⟨"fan", compressor p.air p.fan [] d true, [.as "Nmech" "LP_Nmech"], []⟩,
   ⟨"splitter", splitter p.air d true, [], []⟩,
   ⟨"duct4", duct p.air d true 0 false, [], []⟩,
   ⟨"lpc", compressor p.air p.lpc [] d true, [.as "Nmech" "LP_Nmech"], []⟩,
   ⟨"duct6", duct p.air d true 0 false, [], []⟩,
   ⟨"hpc", compressor p.air p.hpc ["cool1", "cool2", "cust"] d true, [.as "Nmech" "HP_Nmech"], []⟩,
   ⟨"bld3", bleedOut p.air ["cool3", "cool4"] d true, [], []⟩,
   ⟨"burner", combustor p.burnt p.fuel d true, [], []⟩,
   ⟨"hpt", turbine p.burnt (fun _ => p.air) p.hpt p.hptBleed ["cool3", "cool4"] d true, [.as "Nmech" "HP_Nmech"], []⟩,
   ⟨"duct11", duct p.burnt d true 0 false, [], []⟩,
   ⟨"lpt", turbine p.burnt (fun _ => p.air) p.lpt p.lptBleed ["cool1", "cool2"] d true, [.as "Nmech" "LP_Nmech"], []⟩,
   ⟨"duct13", duct p.burnt d true 0 false, [], []⟩,
   ⟨"core_nozz", nozzle p.burnt .CV .Cv, [], []⟩,
   ⟨"byp_bld", bleedOut p.air ["bypBld"] d true, [], []⟩,
   ⟨"duct15", duct p.air d true 0 false, [], []⟩,
   ⟨"byp_nozz", nozzle p.air .CV .Cv, [], []⟩]

/-- The flow links (high_bypass_turbofan.py:187-209). -/
def flows : List Link :=
  [{ src := ("fc", "Fl_O"), tgt := ("inlet", "Fl_I") },
   { src := ("inlet", "Fl_O"), tgt := ("fan", "Fl_I") },
   { src := ("fan", "Fl_O"), tgt := ("splitter", "Fl_I") },
   { src := ("splitter", "Fl_O1"), tgt := ("duct4", "Fl_I") },
   { src := ("duct4", "Fl_O"), tgt := ("lpc", "Fl_I") },
   { src := ("lpc", "Fl_O"), tgt := ("duct6", "Fl_I") },
   { src := ("duct6", "Fl_O"), tgt := ("hpc", "Fl_I") },
   { src := ("hpc", "Fl_O"), tgt := ("bld3", "Fl_I") },
   { src := ("bld3", "Fl_O"), tgt := ("burner", "Fl_I") },
   { src := ("burner", "Fl_O"), tgt := ("hpt", "Fl_I") },
   { src := ("hpt", "Fl_O"), tgt := ("duct11", "Fl_I") },
   { src := ("duct11", "Fl_O"), tgt := ("lpt", "Fl_I") },
   { src := ("lpt", "Fl_O"), tgt := ("duct13", "Fl_I") },
   { src := ("duct13", "Fl_O"), tgt := ("core_nozz", "Fl_I") },
   { src := ("splitter", "Fl_O2"), tgt := ("byp_bld", "Fl_I") },
   { src := ("byp_bld", "Fl_O"), tgt := ("duct15", "Fl_I") },
   { src := ("duct15", "Fl_O"), tgt := ("byp_nozz", "Fl_I") },
   { src := ("hpc", "cool1"), tgt := ("lpt", "cool1"), stat := false },
   { src := ("hpc", "cool2"), tgt := ("lpt", "cool2"), stat := false },
   { src := ("bld3", "cool3"), tgt := ("hpt", "cool3"), stat := false },
   { src := ("bld3", "cool4"), tgt := ("hpt", "cool4"), stat := false }]

/-- The balances of a mode, and what is promoted (high_bypass_turbofan.py:107-179). -/
def bals : HbtfMode → List Bal
  | .design => [.of "W", .of "FAR", .ofMult "lpt_PR", .ofMult "hpt_PR"]
  | .t4 => [.of "FAR", .of "W", .of "BPR", .ofMult "lp_Nmech", .ofMult "hp_Nmech"]
  | .percentThrust => [.ofMult "FAR", .of "W", .of "BPR", .ofMult "lp_Nmech", .ofMult "hp_Nmech"]

def balProms : HbtfMode → List Prom
  | .design => [.as "rhs:W" "Fn_DES", .as "rhs:FAR" "T4_MAX"]
  | .t4 => [.as "rhs:FAR" "T4_MAX"]
  | .percentThrust => [.as "mult:FAR" "PC", .as "lhs:FAR" "Fn_max"]

/-- Connections of the balances (high_bypass_turbofan.py:111-179). -/
def balConns : HbtfMode → List (String × String)
  | .design =>
      [("balance.W", "fc.W"), ("perf.Fn", "balance.lhs:W"),
       ("balance.FAR", "burner.Fl_I:FAR"), ("burner.Fl_O:tot:T", "balance.lhs:FAR"),
       ("balance.lpt_PR", "lpt.PR"), ("lp_shaft.pwr_in_real", "balance.lhs:lpt_PR"),
       ("lp_shaft.pwr_out_real", "balance.rhs:lpt_PR"),
       ("balance.hpt_PR", "hpt.PR"), ("hp_shaft.pwr_in_real", "balance.lhs:hpt_PR"),
       ("hp_shaft.pwr_out_real", "balance.rhs:hpt_PR")]
  | m =>
      [("balance.FAR", "burner.Fl_I:FAR"),
       if m = .percentThrust then ("perf.Fn", "balance.rhs:FAR") else ("burner.Fl_O:tot:T", "balance.lhs:FAR"),
       ("balance.W", "fc.W"), ("core_nozz.Throat:stat:area", "balance.lhs:W"),
       ("balance.BPR", "splitter.BPR"), ("byp_nozz.Throat:stat:area", "balance.lhs:BPR"),
       ("balance.lp_Nmech", "LP_Nmech"), ("lp_shaft.pwr_in_real", "balance.lhs:lp_Nmech"),
       ("lp_shaft.pwr_out_real", "balance.rhs:lp_Nmech"),
       ("balance.hp_Nmech", "HP_Nmech"), ("hp_shaft.pwr_in_real", "balance.lhs:hp_Nmech"),
       ("hp_shaft.pwr_out_real", "balance.rhs:hp_Nmech")]

/-- Connections in every mode (high_bypass_turbofan.py:75-91). -/
def plainConns : List (String × String) :=
  [("inlet.Fl_O:tot:P", "perf.Pt2"), ("hpc.Fl_O:tot:P", "perf.Pt3"), ("burner.Wfuel", "perf.Wfuel_0"),
   ("inlet.F_ram", "perf.ram_drag"), ("core_nozz.Fg", "perf.Fg_0"), ("byp_nozz.Fg", "perf.Fg_1"),
   ("fan.trq", "lp_shaft.trq_0"), ("lpc.trq", "lp_shaft.trq_1"), ("lpt.trq", "lp_shaft.trq_2"),
   ("hpc.trq", "hp_shaft.trq_0"), ("hpt.trq", "hp_shaft.trq_1"),
   ("fc.Fl_O:stat:P", "core_nozz.Ps_exhaust"), ("fc.Fl_O:stat:P", "byp_nozz.Ps_exhaust")]

end HBTF

/-- `HBTF.setup` (example_cycles/high_bypass_turbofan.py:19-209). Solver settings are left out. -/
def hbtf (p : HbtfParts) (m : HbtfMode) : Cycle :=
  { members := HBTF.elements p m.isDesign
    links := HBTF.flows
    others :=
      [{ shaftSub 3 [.as "Nmech" "LP_Nmech"] with name := "lp_shaft" },
       { shaftSub 2 [.as "Nmech" "HP_Nmech"] with name := "hp_shaft" },
       performanceSub 2 1, balances (HBTF.bals m) (HBTF.balProms m)]
    conns := HBTF.plainConns ++ HBTF.balConns m }

end PyCycle.OM
