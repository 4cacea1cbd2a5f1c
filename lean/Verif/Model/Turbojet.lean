import Verif.Model.CycleGroup
import Verif.Model.BleedWiring
import Verif.Model.Shaft
import Verif.Model.Performance

/-! # A whole engine: the single-spool turbojet of the examples

`Turbojet.setup` (example_cycles/simple_turbojet.py:8-114), in both modes. Thermodynamics, compressor and turbine maps
and the way the burner adds fuel are left open; `gasA` is the gas before, `gasB` after the burner. -/

namespace PyCycle.OM

/-- The inputs of the shaft by their names (elements/shaft.py:18-20, 35-37). -/
def shaftIn (n : ℕ) (i : Env) : Shaft.I n → ℝ
  | .Nmech => i.num "Nmech"
  | .HPX => i.num "HPX"
  | .fracLoss => i.num "fracLoss"
  | .trq k => i.num ("trq_" ++ toString k.val)

/-- `Shaft(num_ports=n)` (elements/shaft.py:6-72). -/
def shaftSub (n : ℕ) (promI : List Prom) : Sub :=
  { name := "shaft"
    ins := ["Nmech", "HPX", "fracLoss"] ++ (List.range n).map fun k => "trq_" ++ toString k
    outs := ["trq_in", "trq_out", "trq_net", "pwr_in", "pwr_in_real", "pwr_out", "pwr_out_real", "pwr_net"]
    promI, promO := []
    eqn := fun i o =>
      let y := Shaft.compute (shaftIn n i)
      o.num "trq_in" = y .trq_in ∧ o.num "trq_out" = y .trq_out ∧ o.num "trq_net" = y .trq_net
      ∧ o.num "pwr_in" = y .pwr_in ∧ o.num "pwr_in_real" = y .pwr_in_real ∧ o.num "pwr_out" = y .pwr_out
      ∧ o.num "pwr_out_real" = y .pwr_out_real ∧ o.num "pwr_net" = y .pwr_net }

/-- The inputs of the performance by their names (elements/performance.py:14-32). -/
def perfIn (n m : ℕ) (i : Env) : Perf.I n m → ℝ
  | .Pt2 => i.num "Pt2"
  | .Pt3 => i.num "Pt3"
  | .ram_drag => i.num "ram_drag"
  | .power => i.num "power"
  | .Fg k => i.num ("Fg_" ++ toString k.val)
  | .Wfuel k => i.num ("Wfuel_" ++ toString k.val)

/-- `Performance(num_nozzles=n, num_burners=m)` with a burner (elements/performance.py:4-72). -/
def performanceSub (n m : ℕ) : Sub :=
  { name := "perf"
    ins := ["Pt2", "Pt3", "ram_drag", "power"] ++ (List.range n).map (fun k => "Fg_" ++ toString k)
      ++ (List.range m).map fun k => "Wfuel_" ++ toString k
    outs := ["OPR", "Fg", "Fn", "TSFC", "PSFC", "Wfuel"]
    promI := [], promO := []
    eqn := fun i o =>
      let y := Perf.compute (perfIn n m i)
      o.num "OPR" = y .OPR ∧ o.num "Fg" = y .Fg ∧ o.num "Fn" = y .Fn
      ∧ o.num "TSFC" = y .TSFC ∧ o.num "PSFC" = y .PSFC ∧ o.num "Wfuel" = y .Wfuel }

/-- `Turbojet.setup` (example_cycles/simple_turbojet.py:8-114). Solver settings are left out; bounds of the balances can
only prevent convergence. -/
def simpleTurbojet (gasA gasB : (ℕ → ℝ) → TPGas) (mc : Map.CMap) (mt : Map.TMap) (a : Adder) (ba : BleedAdder)
    (design : Bool) : Cycle :=
  { members :=
      [⟨"fc", flightConditions gasA none, [], []⟩,
       ⟨"inlet", inlet gasA design true, [], []⟩,
       ⟨"comp", compressor gasA mc [] design true, [.var "Nmech"], []⟩,
       ⟨"burner", combustor gasB a design true, [], []⟩,
       ⟨"turb", turbine gasB (fun _ => gasB) mt ba [] design true, [.var "Nmech"], []⟩,
       ⟨"nozz", nozzle gasB .CD .Cv, [], []⟩]
    links :=
      [{ src := ("fc", "Fl_O"), tgt := ("inlet", "Fl_I"), w := false },
       { src := ("inlet", "Fl_O"), tgt := ("comp", "Fl_I") },
       { src := ("comp", "Fl_O"), tgt := ("burner", "Fl_I") },
       { src := ("burner", "Fl_O"), tgt := ("turb", "Fl_I") },
       { src := ("turb", "Fl_O"), tgt := ("nozz", "Fl_I") }]
    others :=
      [shaftSub 2 [.var "Nmech"], performanceSub 1 1,
       if design then balanceComp [("W", "lhs:W", "Fn_target"), ("FAR", "lhs:FAR", "T4_target"),
         ("turb_PR", "lhs:turb_PR", "rhs:turb_PR")] [] []
       else balanceComp [("FAR", "lhs:FAR", "Fn_target"), ("Nmech", "lhs:Nmech", "rhs:Nmech"),
         ("W", "lhs:W", "rhs:W")] [] []]
    conns :=
      [("comp.trq", "shaft.trq_0"), ("turb.trq", "shaft.trq_1"), ("fc.Fl_O:stat:P", "nozz.Ps_exhaust"),
       ("inlet.Fl_O:tot:P", "perf.Pt2"), ("comp.Fl_O:tot:P", "perf.Pt3"), ("burner.Wfuel", "perf.Wfuel_0"),
       ("inlet.F_ram", "perf.ram_drag"), ("nozz.Fg", "perf.Fg_0")]
      ++ (if design then
        [("balance.W", "inlet.Fl_I:stat:W"), ("perf.Fn", "balance.lhs:W"),
         ("balance.FAR", "burner.Fl_I:FAR"), ("burner.Fl_O:tot:T", "balance.lhs:FAR"),
         ("balance.turb_PR", "turb.PR"), ("shaft.pwr_net", "balance.lhs:turb_PR")]
      else
        [("balance.FAR", "burner.Fl_I:FAR"), ("perf.Fn", "balance.lhs:FAR"),
         ("balance.Nmech", "Nmech"), ("shaft.pwr_net", "balance.lhs:Nmech"),
         ("balance.W", "inlet.Fl_I:stat:W"), ("nozz.Throat:stat:area", "balance.lhs:W")]) }

end PyCycle.OM
