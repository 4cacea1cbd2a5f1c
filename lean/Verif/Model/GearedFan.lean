import Verif.Model.Turbofan
import Verif.Model.Gearbox
import Verif.Model.SmallCore
import Verif.Model.CoolingGroup

/-! # A whole engine: the geared turbofan of the N+3 example

`N3.setup` (example_cycles/N+3ref/N3ref.py:17-285) as a design point, as an off-design point and as the off-design point
that sizes the cooling flows of the high-pressure turbine. A design point with `cooling` is refused: `order_add` is
overwritten at line 239, so `set_order` (243) misses four subsystems. Thermodynamics, maps, the way fuel and bleed air
are added are left open. -/

namespace PyCycle.OM

/-- The mode: options `design` and `cooling` (N3ref.py:20, 38-39). -/
inductive N3Mode | design | off | cooled
  deriving DecidableEq

/-- `options['design']`. -/
def N3Mode.isDesign : N3Mode → Bool
  | .design => true
  | _ => false

/-- What the model leaves open: the gas before and after the burner and behind a cooled row, the maps, the addition of
fuel, of bleed air and of coolant. -/
structure N3Parts where
  air : (ℕ → ℝ) → TPGas
  burnt : (ℕ → ℝ) → TPGas
  cooled : (ℕ → ℝ) → TPGas
  fan : Map.CMap
  lpc : Map.CMap
  hpc : Map.CMap
  hpt : Map.TMap
  lpt : Map.TMap
  fuel : Adder
  hptBleed : BleedAdder
  lptBleed : BleedAdder
  coolant : FlowAdder
  /-- the factor by which OpenMDAO converts `hp` to `Btu/s` -/
  hpUnit : ℝ

/-- The variables of the gearbox by their names (gearbox.py:15-33); in design mode `trq_base` is an input and
`gear_ratio` an output, off design it is the other way round. -/
def gearVal (d : Bool) (i o : Env) : Gear.V → ℝ
  | .N_in => i.num "N_in"
  | .N_out => i.num "N_out"
  | .eff => i.num "eff"
  | .trq_in => o.num "trq_in"
  | .trq_out => o.num "trq_out"
  | .trq_base => if d then i.num "trq_base" else o.num "trq_base"
  | .gear_ratio => if d then o.num "gear_ratio" else i.num "gear_ratio"

/-- `Gearbox` (gearbox.py:4-90): at convergence its residuals vanish. -/
def gearboxSub (d : Bool) (promI : List Prom) : Sub :=
  { name := "gearbox"
    ins := ["N_in", "N_out", "eff", if d then "trq_base" else "gear_ratio"]
    outs := ["trq_in", "trq_out", if d then "gear_ratio" else "trq_base"]
    promI, promO := []
    eqn := fun i o => ∀ r, Gear.resid d (gearVal d i o) r = 0 }

/-- `ext_ratio` (N3ref.py:94-99). -/
def extRatioSub : Sub :=
  { name := "ext_ratio", ins := ["core_V_ideal", "core_Cv", "byp_V_ideal", "byp_Cv"], outs := ["ER"], promI := [], promO := []
    eqn := fun i o => o.num "ER"
      = i.num "core_V_ideal" * i.num "core_Cv" / (i.num "byp_V_ideal" * i.num "byp_Cv") }

/-- `hpc_CS` (N3ref.py:155-160): flow corrected to the conditions behind the compressor. -/
noncomputable def coreSizeSub : Sub :=
  { name := "hpc_CS", ins := ["Win", "Tout", "Pout"], outs := ["CS"], promI := [], promO := []
    eqn := fun i o => o.num "CS"
      = i.num "Win" * ((i.num "Tout" / 518.67) ^ (0.5 : ℝ) / (i.num "Pout" / 14.696)) }

/-- `hpc_EtaBalance`: `SmallCoreEffBalance(eng_type='large', tech_level=0)` (N3ref.py:164;
small_core_eff_balance.py:28-88). -/
noncomputable def etaBalanceSub : Sub :=
  { name := "hpc_EtaBalance", ins := ["CS", "eta_p"], outs := ["eta_a"], promI := [], promO := []
    eqn := fun i o => SmallCore.residual .large .t0 (i.num "CS") (i.num "eta_p") (o.num "eta_a") = 0 }

/-- `fan_dia` (N3ref.py:169-172). -/
noncomputable def fanDiaSub : Sub :=
  { name := "fan_dia", ins := ["area", "hub_tip"], outs := ["FanDia"], promI := [], promO := []
    eqn := fun i o => o.num "FanDia"
      = 2 * (i.num "area" / (Real.pi * (1 - i.num "hub_tip" ^ (2 : ℝ)))) ^ (0.5 : ℝ) }

/-- `opr_calc` (N3ref.py:175-179). -/
def oprCalcSub : Sub :=
  { name := "opr_calc", ins := ["FPR", "LPCPR", "HPCPR"], outs := ["OPR_simple"], promI := [], promO := []
    eqn := fun i o => o.num "OPR_simple" = i.num "FPR" * i.num "LPCPR" * i.num "HPCPR" }

/-- `CombineCooling(n_ins=3)` as `hpt_chargable` (N3ref.py:216; cooling.py:10-28). -/
noncomputable def chargeableSub : Sub :=
  { name := "hpt_chargable", ins := ["W_1", "W_2", "W_3"], outs := ["W_cool"], promI := [], promO := []
    eqn := fun i o => o.num "W_cool" = Cool.combine ![i.num "W_1", i.num "W_2", i.num "W_3"] }

/-- The connection of the turbine's power, in `hp`, to the cooling element, which declares `Btu/s` (N3ref.py:225;
turbine.py:253, cooling.py:41): OpenMDAO converts. It is the only connection of the engine between different units. -/
def powerUnitSub (k : ℝ) : Sub :=
  { name := "hpt_power_unit", ins := ["hp"], outs := ["Btu/s"], promI := [], promO := []
    eqn := fun i o => o.num "Btu/s" = k * i.num "hp" }

namespace N3

/-- The elements (N3ref.py:41-69). -/
def elements (p : N3Parts) (d : Bool) : List Member :=
  [⟨"fc", flightConditions p.air none, [], []⟩,
   ⟨"inlet", inlet p.air d true, [], []⟩,
   ⟨"fan", compressor p.air p.fan [] d true, [.as "Nmech" "Fan_Nmech"], []⟩,
   ⟨"splitter", splitter p.air d true, [], []⟩,
   ⟨"duct2", duct p.air d true 2 true, [], []⟩,
   ⟨"lpc", compressor p.air p.lpc [] d true, [.as "Nmech" "LP_Nmech"], []⟩,
   ⟨"bld25", bleedOut p.air ["sbv"] d true, [], []⟩,
   ⟨"duct25", duct p.air d true 2 true, [], []⟩,
   ⟨"hpc", compressor p.air p.hpc ["bld_inlet", "bld_exit", "cust"] d true, [.as "Nmech" "HP_Nmech"], []⟩,
   ⟨"bld3", bleedOut p.air ["bld_inlet", "bld_exit"] d true, [], []⟩,
   ⟨"burner", combustor p.burnt p.fuel d true, [], []⟩,
   ⟨"hpt", turbine p.burnt (fun _ => p.air) p.hpt p.hptBleed ["bld_inlet", "bld_exit"] d true,
     [.as "Nmech" "HP_Nmech"], []⟩,
   ⟨"duct45", duct p.burnt d true 2 true, [], []⟩,
   ⟨"lpt", turbine p.burnt (fun _ => p.air) p.lpt p.lptBleed ["bld_inlet", "bld_exit"] d true,
     [.as "Nmech" "LP_Nmech"], []⟩,
   ⟨"duct5", duct p.burnt d true 2 true, [], []⟩,
   ⟨"core_nozz", nozzle p.burnt .CV .Cv, [], []⟩,
   ⟨"byp_bld", bleedOut p.air ["bypBld"] d true, [], []⟩,
   ⟨"duct17", duct p.air d true 2 true, [], []⟩,
   ⟨"byp_nozz", nozzle p.air .CV .Cv, [], []⟩]

/-- The flow links (N3ref.py:245-267). -/
def flows : List Link :=
  [{ src := ("fc", "Fl_O"), tgt := ("inlet", "Fl_I") },
   { src := ("inlet", "Fl_O"), tgt := ("fan", "Fl_I") },
   { src := ("fan", "Fl_O"), tgt := ("splitter", "Fl_I") },
   { src := ("splitter", "Fl_O1"), tgt := ("duct2", "Fl_I") },
   { src := ("duct2", "Fl_O"), tgt := ("lpc", "Fl_I") },
   { src := ("lpc", "Fl_O"), tgt := ("bld25", "Fl_I") },
   { src := ("bld25", "Fl_O"), tgt := ("duct25", "Fl_I") },
   { src := ("duct25", "Fl_O"), tgt := ("hpc", "Fl_I") },
   { src := ("hpc", "Fl_O"), tgt := ("bld3", "Fl_I") },
   { src := ("bld3", "Fl_O"), tgt := ("burner", "Fl_I") },
   { src := ("burner", "Fl_O"), tgt := ("hpt", "Fl_I") },
   { src := ("hpt", "Fl_O"), tgt := ("duct45", "Fl_I") },
   { src := ("duct45", "Fl_O"), tgt := ("lpt", "Fl_I") },
   { src := ("lpt", "Fl_O"), tgt := ("duct5", "Fl_I") },
   { src := ("duct5", "Fl_O"), tgt := ("core_nozz", "Fl_I") },
   { src := ("splitter", "Fl_O2"), tgt := ("byp_bld", "Fl_I") },
   { src := ("byp_bld", "Fl_O"), tgt := ("duct17", "Fl_I") },
   { src := ("duct17", "Fl_O"), tgt := ("byp_nozz", "Fl_I") },
   { src := ("hpc", "bld_inlet"), tgt := ("lpt", "bld_inlet"), stat := false },
   { src := ("hpc", "bld_exit"), tgt := ("lpt", "bld_exit"), stat := false },
   { src := ("bld3", "bld_inlet"), tgt := ("hpt", "bld_inlet"), stat := false },
   { src := ("bld3", "bld_exit"), tgt := ("hpt", "bld_exit"), stat := false }]

/-- The flow links that show the cooling element the streams it is about (N3ref.py:218-220). -/
def coolLinks : List Link :=
  [{ src := ("bld3", "bld_inlet"), tgt := ("hpt_cooling", "Fl_cool"), stat := false },
   { src := ("burner", "Fl_O"), tgt := ("hpt_cooling", "Fl_turb_I") },
   { src := ("hpt", "Fl_O"), tgt := ("hpt_cooling", "Fl_turb_O") }]

/-- The balances (N3ref.py:114-235). -/
def bals : N3Mode → List Bal
  | .design => [.of "FAR", .of "lpt_PR", .of "hpt_PR", .of "gb_trq", .of "hpc_PR", .of "fan_eff", .of "lpc_eff",
      .of "hpt_eff", .of "lpt_eff"]
  | .off => [.of "FAR", .of "W", .of "BPR", .of "fan_Nmech", .of "lp_Nmech", .of "hp_Nmech"]
  | .cooled => [.of "FAR", .of "W", .of "BPR", .of "fan_Nmech", .of "lp_Nmech", .of "hp_Nmech",
      .of "hpt_nochrg_cool_frac", .of "hpt_chrg_cool_frac"]

/-- Connections of a design point (N3ref.py:115-173). -/
def designConns : List (String × String) :=
  [("balance.FAR", "burner.Fl_I:FAR"), ("burner.Fl_O:tot:T", "balance.lhs:FAR"),
   ("balance.lpt_PR", "lpt.PR"), ("lp_shaft.pwr_net", "balance.lhs:lpt_PR"),
   ("balance.hpt_PR", "hpt.PR"), ("hp_shaft.pwr_net", "balance.lhs:hpt_PR"),
   ("balance.gb_trq", "gearbox.trq_base"), ("fan_shaft.pwr_net", "balance.lhs:gb_trq"),
   ("balance.hpc_PR", "hpc.PR"), ("balance.hpc_PR", "opr_calc.HPCPR"), ("opr_calc.OPR_simple", "balance.lhs:hpc_PR"),
   ("balance.fan_eff", "fan.eff"), ("fan.eff_poly", "balance.lhs:fan_eff"),
   ("balance.lpc_eff", "lpc.eff"), ("lpc.eff_poly", "balance.lhs:lpc_eff"),
   ("balance.hpt_eff", "hpt.eff"), ("hpt.eff_poly", "balance.lhs:hpt_eff"),
   ("balance.lpt_eff", "lpt.eff"), ("lpt.eff_poly", "balance.lhs:lpt_eff"),
   ("duct25.Fl_O:stat:W", "hpc_CS.Win"), ("hpc.Fl_O:tot:T", "hpc_CS.Tout"), ("hpc.Fl_O:tot:P", "hpc_CS.Pout"),
   ("hpc_CS.CS", "hpc_EtaBalance.CS"), ("hpc.eff_poly", "hpc_EtaBalance.eta_p"), ("hpc_EtaBalance.eta_a", "hpc.eff"),
   ("inlet.Fl_O:stat:area", "fan_dia.area")]

/-- Connections of an off-design point (N3ref.py:188-210). -/
def offConns : List (String × String) :=
  [("balance.FAR", "burner.Fl_I:FAR"), ("perf.Fn", "balance.lhs:FAR"),
   ("balance.W", "fc.W"), ("core_nozz.Throat:stat:area", "balance.lhs:W"),
   ("balance.BPR", "splitter.BPR"), ("fan.map.RlineMap", "balance.lhs:BPR"),
   ("balance.fan_Nmech", "Fan_Nmech"), ("fan_shaft.pwr_net", "balance.lhs:fan_Nmech"),
   ("balance.lp_Nmech", "LP_Nmech"), ("lp_shaft.pwr_net", "balance.lhs:lp_Nmech"),
   ("balance.hp_Nmech", "HP_Nmech"), ("hp_shaft.pwr_net", "balance.lhs:hp_Nmech")]

/-- Connections with cooling (N3ref.py:222-235). -/
def coolConns : List (String × String) :=
  [("hpt_cooling.row_1.W_cool", "hpt_chargable.W_1"), ("hpt_cooling.row_2.W_cool", "hpt_chargable.W_2"),
   ("hpt_cooling.row_3.W_cool", "hpt_chargable.W_3"), ("hpt.power", "hpt_power_unit.hp"), ("hpt_power_unit.Btu/s", "hpt_cooling.turb_pwr"),
   ("balance.hpt_nochrg_cool_frac", "bld3.bld_inlet:frac_W"),
   ("bld3.bld_inlet:stat:W", "balance.lhs:hpt_nochrg_cool_frac"),
   ("hpt_cooling.row_0.W_cool", "balance.rhs:hpt_nochrg_cool_frac"),
   ("balance.hpt_chrg_cool_frac", "bld3.bld_exit:frac_W"),
   ("bld3.bld_exit:stat:W", "balance.lhs:hpt_chrg_cool_frac"),
   ("hpt_chargable.W_cool", "balance.rhs:hpt_chrg_cool_frac")]

/-- The connections that depend on the mode. The links of the cooling element are among them: it looks at streams that
go elsewhere. -/
def modeConns : N3Mode → List (String × String)
  | .design => designConns
  | .off => offConns
  | .cooled => offConns ++ (coolConns ++ coolLinks.flatMap Link.conns)

/-- Connections in every mode (N3ref.py:77-102). -/
def plainConns : List (String × String) :=
  [("inlet.Fl_O:tot:P", "perf.Pt2"), ("hpc.Fl_O:tot:P", "perf.Pt3"), ("burner.Wfuel", "perf.Wfuel_0"),
   ("inlet.F_ram", "perf.ram_drag"), ("core_nozz.Fg", "perf.Fg_0"), ("byp_nozz.Fg", "perf.Fg_1"),
   ("fan.trq", "fan_shaft.trq_0"), ("gearbox.trq_out", "fan_shaft.trq_1"),
   ("gearbox.trq_in", "lp_shaft.trq_0"), ("lpc.trq", "lp_shaft.trq_1"), ("lpt.trq", "lp_shaft.trq_2"),
   ("hpc.trq", "hp_shaft.trq_0"), ("hpt.trq", "hp_shaft.trq_1"),
   ("fc.Fl_O:stat:P", "core_nozz.Ps_exhaust"), ("fc.Fl_O:stat:P", "byp_nozz.Ps_exhaust"),
   ("core_nozz.ideal_flow.V", "ext_ratio.core_V_ideal"), ("byp_nozz.ideal_flow.V", "ext_ratio.byp_V_ideal")]

/-- Options of the cooling element (N3ref.py:215): two stages, the metal at 2460 degR, its own `x_factor`. -/
def coolOpt : CoolOpt := { n_stages := 2 }

/-- Components of a mode beside those of every mode (N3ref.py:155-179, 215-216). -/
noncomputable def modeSubs (p : N3Parts) : N3Mode → List Sub
  | .design => [coreSizeSub, etaBalanceSub, fanDiaSub, oprCalcSub]
  | .off => []
  | .cooled => [(turbineCooling p.cooled p.coolant coolOpt true).asSub "hpt_cooling" [] [], chargeableSub,
      powerUnitSub p.hpUnit]

end N3

/-- `N3.setup` (example_cycles/N+3ref/N3ref.py:25-285). Solver settings are left out; bounds of the balances can only
prevent convergence. -/
noncomputable def n3 (p : N3Parts) (m : N3Mode) : Cycle :=
  { members := N3.elements p m.isDesign
    links := N3.flows
    others :=
      [{ shaftSub 2 [.as "Nmech" "Fan_Nmech"] with name := "fan_shaft" },
       gearboxSub m.isDesign [.as "N_in" "LP_Nmech", .as "N_out" "Fan_Nmech"],
       { shaftSub 3 [.as "Nmech" "LP_Nmech"] with name := "lp_shaft" },
       { shaftSub 2 [.as "Nmech" "HP_Nmech"] with name := "hp_shaft" },
       performanceSub 2 1, extRatioSub, balances (N3.bals m) []] ++ N3.modeSubs p m
    conns := N3.plainConns ++ N3.modeConns m }

end PyCycle.OM
