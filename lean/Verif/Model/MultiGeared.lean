import Verif.Model.GearedFan
import Verif.Model.DesOdConns

/-! # The multipoint problems of the N+3 example

`MPN3` (example_cycles/N+3ref/N3ref.py:339-510): the design point is top of climb, the off-design points are rolling
take-off, sea level and cruise. Rolling take-off sizes the cooling of the high-pressure turbine. `N3_SPD.py` uses it as
it is; `N3_MDP.py`, `N3_MDP_Opt.py` and `N3_MDP_verif.py` add balances between the points. -/

namespace PyCycle.OM

/-- The problem: `MPN3` alone (N3_SPD.py:19-45), with the balances of N3_MDP.py (12-62), where the jet velocities at
cruise set the bypass ratio, or with those of N3_MDP_Opt.py (11-60) and N3_MDP_verif.py (14-45), where their ratio does. -/
inductive N3Problem | single | velocity | ratio
  deriving DecidableEq

namespace N3

/-- The points and their modes (N3ref.py:354, 415-424). -/
def pnts : List (String × N3Mode) := [("TOC", .design), ("RTO", .cooled), ("SLS", .off), ("CRZ", .off)]

/-- `pyc_add_cycle_param` calls (N3ref.py:393-412). -/
def mpParams : List String :=
  ["burner.dPqP", "core_nozz.Cv", "byp_nozz.Cv", "lp_shaft.fracLoss", "hp_shaft.HPX", "bld25.sbv:frac_W",
   "hpc.bld_inlet:frac_W", "hpc.bld_inlet:frac_P", "hpc.bld_inlet:frac_work", "hpc.bld_exit:frac_W",
   "hpc.bld_exit:frac_P", "hpc.bld_exit:frac_work", "hpc.cust:frac_W", "hpc.cust:frac_P", "hpc.cust:frac_work",
   "hpt.bld_inlet:frac_P", "hpt.bld_exit:frac_P", "lpt.bld_inlet:frac_P", "lpt.bld_exit:frac_P",
   "byp_bld.bypBld:frac_W"]

/-- Map scalars, the gear ratio and the throat of the core, from the design point to off design (N3ref.py:435-457). -/
def mpScalars : List (String × String) :=
  [("fan.s_PR", "fan.s_PR"), ("fan.s_Wc", "fan.s_Wc"), ("fan.s_eff", "fan.s_eff"), ("fan.s_Nc", "fan.s_Nc"),
   ("lpc.s_PR", "lpc.s_PR"), ("lpc.s_Wc", "lpc.s_Wc"), ("lpc.s_eff", "lpc.s_eff"), ("lpc.s_Nc", "lpc.s_Nc"),
   ("hpc.s_PR", "hpc.s_PR"), ("hpc.s_Wc", "hpc.s_Wc"), ("hpc.s_eff", "hpc.s_eff"), ("hpc.s_Nc", "hpc.s_Nc"),
   ("hpt.s_PR", "hpt.s_PR"), ("hpt.s_Wp", "hpt.s_Wp"), ("hpt.s_eff", "hpt.s_eff"), ("hpt.s_Np", "hpt.s_Np"),
   ("lpt.s_PR", "lpt.s_PR"), ("lpt.s_Wp", "lpt.s_Wp"), ("lpt.s_eff", "lpt.s_eff"), ("lpt.s_Np", "lpt.s_Np"),
   ("gearbox.gear_ratio", "gearbox.gear_ratio"), ("core_nozz.Throat:stat:area", "balance.rhs:W")]

/-- The areas, passed if option `statics` is set (N3ref.py:459-476). -/
def mpAreas : List (String × String) :=
  [("inlet.Fl_O:stat:area", "inlet.area"), ("fan.Fl_O:stat:area", "fan.area"),
   ("splitter.Fl_O1:stat:area", "splitter.area1"), ("splitter.Fl_O2:stat:area", "splitter.area2"),
   ("duct2.Fl_O:stat:area", "duct2.area"), ("lpc.Fl_O:stat:area", "lpc.area"),
   ("bld25.Fl_O:stat:area", "bld25.area"), ("duct25.Fl_O:stat:area", "duct25.area"),
   ("hpc.Fl_O:stat:area", "hpc.area"), ("bld3.Fl_O:stat:area", "bld3.area"),
   ("burner.Fl_O:stat:area", "burner.area"), ("hpt.Fl_O:stat:area", "hpt.area"),
   ("duct45.Fl_O:stat:area", "duct45.area"), ("lpt.Fl_O:stat:area", "lpt.area"),
   ("duct5.Fl_O:stat:area", "duct5.area"), ("byp_bld.Fl_O:stat:area", "byp_bld.area"),
   ("duct17.Fl_O:stat:area", "duct17.area")]

/-- The loss coefficients of the ducts (N3ref.py:478-482). -/
def mpLosses : List (String × String) :=
  [("duct2.s_dPqP", "duct2.s_dPqP"), ("duct25.s_dPqP", "duct25.s_dPqP"), ("duct45.s_dPqP", "duct45.s_dPqP"),
   ("duct5.s_dPqP", "duct5.s_dPqP"), ("duct17.s_dPqP", "duct17.s_dPqP")]

/-- From the design point to each off-design point. -/
def mpConns (statics : Bool) : List (String × String) := mpScalars ++ (if statics then mpAreas else []) ++ mpLosses

/-- The promotions of `pyc_add_pnt('TOC', ...)` (N3ref.py:354-355). -/
def tocProms : List Prom :=
  [.as "fan.PR" "fan:PRdes", .as "lpc.PR" "lpc:PRdes", .as "opr_calc.FPR" "fan:PRdes",
   .as "opr_calc.LPCPR" "lpc:PRdes"]

/-- The cycle parameters of a problem (N3_MDP_Opt.py:16-17; N3_MDP_verif.py:20-21). -/
def params : N3Problem → List String
  | .ratio => ["ext_ratio.core_Cv", "ext_ratio.byp_Cv"] ++ mpParams
  | _ => mpParams

/-- The promotions of a point, with those of the cycle parameters (mp_cycle.py:255-260). -/
def pntProms (k : N3Problem) : N3Mode → List Prom
  | .design => tocProms ++ (params k).map .var
  | _ => (params k).map .var

/-- The cooling fractions found at rolling take-off, given to the other points (N3ref.py:484-491). -/
def mpCooling : List (String × String) :=
  ["TOC", "SLS", "CRZ"].flatMap fun o =>
    [("RTO.balance.hpt_chrg_cool_frac", o ++ "." ++ "bld3.bld_exit:frac_W"),
     ("RTO.balance.hpt_nochrg_cool_frac", o ++ "." ++ "bld3.bld_inlet:frac_W")]

/-- `T4_ratio` (N3ref.py:493-498). -/
def t4RatioSub : Sub :=
  { name := "T4_ratio", ins := ["RTO_T4", "TR"], outs := ["TOC_T4"], promI := [.var "RTO_T4"], promO := []
    eqn := fun i o => o.num "TOC_T4" = i.num "RTO_T4" * i.num "TR" }

/-- The connections between the points (N3ref.py:435-498; mp_cycle.py:263-277). -/
def mpWires (statics : Bool) : List (String × String) :=
  ((mpConns statics).flatMap fun c => ["RTO", "SLS", "CRZ"].map fun o => ("TOC" ++ "." ++ c.1, o ++ "." ++ c.2))
  ++ mpCooling ++ [("T4_ratio.TOC_T4", "TOC.balance.rhs:FAR")]

/-- Balances between the points (N3_MDP.py:19-38; N3_MDP_Opt.py:20-38; N3_MDP_verif.py:25-41). -/
def mdpBals : N3Problem → List Bal
  | .single => []
  | k => [if k = .velocity then .ofMult "TOC_BPR" else .of "TOC_BPR", { Bal.of "TOC_W" with rhs := "RTO_T4" },
      .ofMult "CRZ_Fn_target", .ofMult "SLS_Fn_target"]

/-- `bal` (N3_MDP.py:18; N3_MDP_Opt.py:19; N3_MDP_verif.py:23). -/
def mdpSubs : N3Problem → List Sub
  | .single => []
  | k => [{ balances (mdpBals k) [.var "RTO_T4"] with name := "bal" }]

/-- Connections of the balances (N3_MDP.py:20-38; N3_MDP_Opt.py:22-38; N3_MDP_verif.py:26-41). -/
def mdpConns : N3Problem → List (String × String)
  | .single => []
  | k => (if k = .velocity then [("CRZ.byp_nozz.Fl_O:stat:V", "bal.lhs:TOC_BPR"),
        ("CRZ.core_nozz.Fl_O:stat:V", "bal.rhs:TOC_BPR")]
      else [("CRZ.ext_ratio.ER", "bal.lhs:TOC_BPR")])
    ++ [("bal.TOC_BPR", "TOC.splitter.BPR"), ("bal.TOC_W", "TOC.fc.W"), ("RTO.burner.Fl_O:tot:T", "bal.lhs:TOC_W"),
      ("bal.CRZ_Fn_target", "CRZ.balance.rhs:FAR"), ("TOC.perf.Fn", "bal.lhs:CRZ_Fn_target"),
      ("CRZ.perf.Fn", "bal.rhs:CRZ_Fn_target"), ("bal.SLS_Fn_target", "SLS.balance.rhs:FAR"),
      ("RTO.perf.Fn", "bal.lhs:SLS_Fn_target"), ("SLS.perf.Fn", "bal.rhs:SLS_Fn_target")]

end N3

/-- `MPN3.setup` and `MPCycle.configure` (N3ref.py:351-499; mp_cycle.py:250-277), with the balances of the problem.
Values of `set_input_defaults`, the order of the points, solvers, design variables and constraints are left out. -/
noncomputable def mpN3 (p : N3Parts) (k : N3Problem) (statics : Bool) : Cycle :=
  { members := N3.pnts.map fun o => ⟨o.1, (n3 p o.2).group, N3.pntProms k o.2, []⟩
    links := []
    others := N3.t4RatioSub :: N3.mdpSubs k
    conns := N3.mpWires statics ++ N3.mdpConns k }

end PyCycle.OM
