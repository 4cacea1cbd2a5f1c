import Verif.Model.MultiPoint
import Verif.Model.Turbojet
import Verif.Model.Afterburner
import Verif.Model.MixedFlow
import Verif.Model.MultiSpool
import Verif.Model.Propulsor
import Verif.Model.Turbofan
import Verif.Model.Turboshaft
import Verif.Model.WetTurbojet

/-! # The multipoint examples

The `MPCycle` classes of `example_cycles`: points, cycle parameters, connections from design to off design. Where the
class adds its off-design points in a loop over `od_pts`, their names are left open. Elements without
`default_des_od_conns` (free stream, nozzle, shaft, performance) are left out of the lists of elements. -/

namespace PyCycle.OM

/-- The parts of the turbojet the model leaves open. -/
structure TjParts where
  air : (ℕ → ℝ) → TPGas
  burnt : (ℕ → ℝ) → TPGas
  comp : Map.CMap
  turb : Map.TMap
  fuel : Adder
  bleed : BleedAdder

/-- `Turbojet(design=d)`. -/
def TjParts.cycle (p : TjParts) (d : Bool) : Cycle := simpleTurbojet p.air p.burnt p.comp p.turb p.fuel p.bleed d

/-- `pyc_add_cycle_param` calls (example_cycles/simple_turbojet.py:157-192). -/
def Turbojet.mpParams : List String :=
  ["burner.dPqP", "nozz.Cv"]

/-- Connections from design to off design (example_cycles/simple_turbojet.py:157-192). -/
def Turbojet.mpConns : List (String × String) :=
  turbojetConns

/-- `MPTurbojet.setup` (example_cycles/simple_turbojet.py:157-192); there `ods` is `['OD0', 'OD1']`. -/
def mpTurbojet (p : TjParts) (ods : List String) : Multi :=
  { des := ⟨"DESIGN", p.cycle true⟩
    ods := ods.map fun o => ⟨o, p.cycle false⟩
    params := Turbojet.mpParams
    desOd := Turbojet.mpConns }

/-- `pyc_add_cycle_param` calls (example_cycles/wet_simple_turbojet.py:151-188). -/
def WTJ.mpParams : List String :=
  ["burner.dPqP", "nozz.Cv", "fc.WAR"]

/-- Connections from design to off design (example_cycles/wet_simple_turbojet.py:151-188). -/
def WTJ.mpConns : List (String × String) :=
  desOdConns [("nozz.Throat:stat:area", "balance.rhs:W")]
  [("inlet", areaConns), ("comp", compressorConns), ("burner", areaConns), ("turb", turbineConns)]

/-- `MPWetTurbojet.setup` (example_cycles/wet_simple_turbojet.py:151-188); there `ods` is `['OD1']`. -/
def mpWetTurbojet (p : WetParts) (ods : List String) : Multi :=
  { des := ⟨"DESIGN", wtj p true⟩
    ods := ods.map fun o => ⟨o, wtj p false⟩
    params := WTJ.mpParams
    desOd := WTJ.mpConns }

/-- `pyc_add_cycle_param` calls (example_cycles/afterburning_turbojet.py:167-230). -/
def ABTJ.mpParams : List String :=
  ["duct1.dPqP", "burner.dPqP", "ab.dPqP", "nozz.Cv", "comp.cool1:frac_W", "comp.cool1:frac_P",
   "comp.cool1:frac_work", "comp.cool2:frac_W", "comp.cool2:frac_P", "comp.cool2:frac_work", "turb.cool1:frac_P",
   "turb.cool2:frac_P"]

/-- Connections from design to off design (example_cycles/afterburning_turbojet.py:167-230). -/
def ABTJ.mpConns : List (String × String) :=
  [("comp.s_PR", "comp.s_PR"), ("comp.s_Wc", "comp.s_Wc"), ("comp.s_eff", "comp.s_eff"), ("comp.s_Nc", "comp.s_Nc"),
   ("turb.s_PR", "turb.s_PR"), ("turb.s_Wp", "turb.s_Wp"), ("turb.s_eff", "turb.s_eff"), ("turb.s_Np", "turb.s_Np"),
   ("inlet.Fl_O:stat:area", "inlet.area"), ("duct1.Fl_O:stat:area", "duct1.area"),
   ("comp.Fl_O:stat:area", "comp.area"), ("burner.Fl_O:stat:area", "burner.area"),
   ("turb.Fl_O:stat:area", "turb.area"), ("ab.Fl_O:stat:area", "ab.area")]

/-- `MPABTurbojet.setup` (example_cycles/afterburning_turbojet.py:167-230); there `ods` has ten names. -/
def mpABTurbojet (p : AbtjParts) (ods : List String) : Multi :=
  { des := ⟨"DESIGN", abtj p true⟩
    ods := ods.map fun o => ⟨o, abtj p false⟩
    params := ABTJ.mpParams
    desOd := ABTJ.mpConns }

/-- `pyc_add_cycle_param` calls (example_cycles/electric_propulsor.py:118-142). -/
def Propulsor.mpParams : List String :=
  ["pwr_target"]

/-- Connections from design to off design (example_cycles/electric_propulsor.py:118-142). -/
def Propulsor.mpConns : List (String × String) :=
  desOdConns [("nozz.Throat:stat:area", "balance.rhs:W")] [("inlet", areaConns), ("fan", compressorConns)]

/-- `MPpropulsor.setup` (example_cycles/electric_propulsor.py:118-142) and `MPWetPropulsor.setup`
(example_cycles/wet_propulsor.py:100-129); there `ods` is `['off_design']`. -/
def mpPropulsor (p : PropulsorParts) (ods : List String) : Multi :=
  { des := ⟨"design", propulsor p true⟩
    ods := ods.map fun o => ⟨o, propulsor p false⟩
    params := Propulsor.mpParams
    desOd := Propulsor.mpConns }

/-- `pyc_add_cycle_param` calls (example_cycles/single_spool_turboshaft.py:162-197). -/
def SSTS.mpParams : List String :=
  ["burner.dPqP", "nozz.Cv"]

/-- Connections from design to off design (example_cycles/single_spool_turboshaft.py:162-197). -/
def SSTS.mpConns : List (String × String) :=
  desOdConns [("nozz.Throat:stat:area", "balance.rhs:W")]
  [("inlet", areaConns), ("comp", compressorConns), ("burner", areaConns), ("turb", turbineConns),
   ("pt", turbineConns)]

/-- `MPSingleSpool.setup` (example_cycles/single_spool_turboshaft.py:162-197); there `ods` is `['OD', 'OD2']`. -/
def mpSingleSpool (p : SstsParts) (ods : List String) : Multi :=
  { des := ⟨"DESIGN", ssts p true⟩
    ods := ods.map fun o => ⟨o, ssts p false⟩
    params := SSTS.mpParams
    desOd := SSTS.mpConns }

/-- `pyc_add_cycle_param` calls (example_cycles/multi_spool_turboshaft.py:197-297). -/
def MST.mpParams : List String :=
  ["inlet.ram_recovery", "duct1.dPqP", "icduct.dPqP", "bld25.cool1:frac_W", "bld25.cool2:frac_W",
   "duct6.dPqP", "burner.dPqP", "bld3.cool3:frac_W", "bld3.cool4:frac_W", "duct43.dPqP", "itduct.dPqP",
   "duct12.dPqP", "nozzle.Cv", "hpt.cool3:frac_P", "hpt.cool4:frac_P", "lpt.cool1:frac_P", "lpt.cool2:frac_P"]

/-- Connections from design to off design (example_cycles/multi_spool_turboshaft.py:197-297). -/
def MST.mpConns : List (String × String) :=
  [("lpc.s_PR", "lpc.s_PR"), ("lpc.s_Wc", "lpc.s_Wc"), ("lpc.s_eff", "lpc.s_eff"), ("lpc.s_Nc", "lpc.s_Nc"),
   ("hpc_axi.s_PR", "hpc_axi.s_PR"), ("hpc_axi.s_Wc", "hpc_axi.s_Wc"), ("hpc_axi.s_eff", "hpc_axi.s_eff"),
   ("hpc_axi.s_Nc", "hpc_axi.s_Nc"),
   ("hpc_centri.s_PR", "hpc_centri.s_PR"), ("hpc_centri.s_Wc", "hpc_centri.s_Wc"),
   ("hpc_centri.s_eff", "hpc_centri.s_eff"), ("hpc_centri.s_Nc", "hpc_centri.s_Nc"),
   ("hpt.s_PR", "hpt.s_PR"), ("hpt.s_Wp", "hpt.s_Wp"), ("hpt.s_eff", "hpt.s_eff"), ("hpt.s_Np", "hpt.s_Np"),
   ("lpt.s_PR", "lpt.s_PR"), ("lpt.s_Wp", "lpt.s_Wp"), ("lpt.s_eff", "lpt.s_eff"), ("lpt.s_Np", "lpt.s_Np"),
   ("pt.s_PR", "pt.s_PR"), ("pt.s_Wp", "pt.s_Wp"), ("pt.s_eff", "pt.s_eff"), ("pt.s_Np", "pt.s_Np"),
   ("inlet.Fl_O:stat:area", "inlet.area"), ("duct1.Fl_O:stat:area", "duct1.area"),
   ("lpc.Fl_O:stat:area", "lpc.area"), ("icduct.Fl_O:stat:area", "icduct.area"),
   ("hpc_axi.Fl_O:stat:area", "hpc_axi.area"), ("bld25.Fl_O:stat:area", "bld25.area"),
   ("hpc_centri.Fl_O:stat:area", "hpc_centri.area"), ("bld3.Fl_O:stat:area", "bld3.area"),
   ("burner.Fl_O:stat:area", "burner.area"), ("hpt.Fl_O:stat:area", "hpt.area"),
   ("duct43.Fl_O:stat:area", "duct43.area"), ("lpt.Fl_O:stat:area", "lpt.area"),
   ("itduct.Fl_O:stat:area", "itduct.area"), ("pt.Fl_O:stat:area", "pt.area"),
   ("duct12.Fl_O:stat:area", "duct12.area"), ("nozzle.Throat:stat:area", "balance.rhs:W")]

/-- `MPMultiSpool.setup` (example_cycles/multi_spool_turboshaft.py:197-297); there `ods` is `['OD']`. -/
def mpMultiSpool (p : MstParts) (ods : List String) : Multi :=
  { des := ⟨"DESIGN", mst p true⟩
    ods := ods.map fun o => ⟨o, mst p false⟩
    params := MST.mpParams
    desOd := MST.mpConns }

/-- `pyc_add_cycle_param` calls (example_cycles/mixedflow_turbofan.py:228-333). -/
def MFTF.mpParams : List String :=
  ["balance.rhs:FAR_ab", "hp_shaft.HPX", "inlet.ram_recovery", "inlet_duct.dPqP", "splitter_core_duct.dPqP",
   "lpc_duct.dPqP", "burner.dPqP", "hpt_duct.dPqP", "lpt_duct.dPqP", "bypass_duct.dPqP", "mixer_duct.dPqP",
   "afterburner.dPqP", "mixed_nozz.Cfg", "hpc.cool1:frac_W", "hpc.cool1:frac_P", "hpc.cool1:frac_work",
   "bld3.cool3:frac_W", "hpt.cool3:frac_P", "lpt.cool1:frac_P"]

/-- Connections from design to off design (example_cycles/mixedflow_turbofan.py:228-333). -/
def MFTF.mpConns : List (String × String) :=
  [("fan.s_PR", "fan.s_PR"), ("fan.s_Wc", "fan.s_Wc"), ("fan.s_eff", "fan.s_eff"), ("fan.s_Nc", "fan.s_Nc"),
   ("lpc.s_PR", "lpc.s_PR"), ("lpc.s_Wc", "lpc.s_Wc"), ("lpc.s_eff", "lpc.s_eff"), ("lpc.s_Nc", "lpc.s_Nc"),
   ("hpc.s_PR", "hpc.s_PR"), ("hpc.s_Wc", "hpc.s_Wc"), ("hpc.s_eff", "hpc.s_eff"), ("hpc.s_Nc", "hpc.s_Nc"),
   ("hpt.s_PR", "hpt.s_PR"), ("hpt.s_Wp", "hpt.s_Wp"), ("hpt.s_eff", "hpt.s_eff"), ("hpt.s_Np", "hpt.s_Np"),
   ("lpt.s_PR", "lpt.s_PR"), ("lpt.s_Wp", "lpt.s_Wp"), ("lpt.s_eff", "lpt.s_eff"), ("lpt.s_Np", "lpt.s_Np"),
   ("mixed_nozz.Throat:stat:area", "balance.rhs:W"),
   ("inlet.Fl_O:stat:area", "inlet.area"), ("fan.Fl_O:stat:area", "fan.area"),
   ("splitter.Fl_O1:stat:area", "splitter.area1"), ("splitter.Fl_O2:stat:area", "splitter.area2"),
   ("splitter_core_duct.Fl_O:stat:area", "splitter_core_duct.area"), ("lpc.Fl_O:stat:area", "lpc.area"),
   ("lpc_duct.Fl_O:stat:area", "lpc_duct.area"), ("hpc.Fl_O:stat:area", "hpc.area"),
   ("bld3.Fl_O:stat:area", "bld3.area"), ("burner.Fl_O:stat:area", "burner.area"),
   ("hpt.Fl_O:stat:area", "hpt.area"), ("hpt_duct.Fl_O:stat:area", "hpt_duct.area"),
   ("lpt.Fl_O:stat:area", "lpt.area"), ("lpt_duct.Fl_O:stat:area", "lpt_duct.area"),
   ("bypass_duct.Fl_O:stat:area", "bypass_duct.area"), ("mixer.Fl_O:stat:area", "mixer.area"),
   ("mixer.Fl_I1_calc:stat:area", "mixer.Fl_I1_stat_calc.area"), ("mixer_duct.Fl_O:stat:area", "mixer_duct.area"),
   ("afterburner.Fl_O:stat:area", "afterburner.area")]

/-- `MPMixedFlowTurbofan.setup` (example_cycles/mixedflow_turbofan.py:228-333); there `ods` is `['OD']`. -/
def mpMixedFlow (p : MftfParts) (ods : List String) : Multi :=
  { des := ⟨"DESIGN", mftf p true⟩
    ods := ods.map fun o => ⟨o, mftf p false⟩
    params := MFTF.mpParams
    desOd := MFTF.mpConns }

/-- `pyc_add_cycle_param` calls (example_cycles/high_bypass_turbofan.py:294-375). -/
def HBTF.mpParams : List String :=
  ["inlet.ram_recovery", "duct4.dPqP", "duct6.dPqP", "burner.dPqP", "duct11.dPqP", "duct13.dPqP",
   "duct15.dPqP", "core_nozz.Cv", "byp_bld.bypBld:frac_W", "byp_nozz.Cv", "hpc.cool1:frac_W", "hpc.cool1:frac_P",
   "hpc.cool1:frac_work", "hpc.cool2:frac_W", "hpc.cool2:frac_P", "hpc.cool2:frac_work", "bld3.cool3:frac_W",
   "bld3.cool4:frac_W", "hpc.cust:frac_P", "hpc.cust:frac_work", "hpc.cust:frac_W", "hpt.cool3:frac_P",
   "hpt.cool4:frac_P", "lpt.cool1:frac_P", "lpt.cool2:frac_P", "hp_shaft.HPX"]

/-- Connections from design to off design (example_cycles/high_bypass_turbofan.py:294-375). -/
def HBTF.mpConns : List (String × String) :=
  desOdConns
  [("core_nozz.Throat:stat:area", "balance.rhs:W"), ("byp_nozz.Throat:stat:area", "balance.rhs:BPR")]
  [("inlet", areaConns), ("fan", compressorConns), ("splitter", splitterConns), ("duct4", areaConns),
   ("lpc", compressorConns), ("duct6", areaConns), ("hpc", compressorConns), ("bld3", areaConns),
   ("burner", areaConns), ("hpt", turbineConns), ("duct11", areaConns), ("lpt", turbineConns), ("duct13", areaConns),
   ("byp_bld", areaConns), ("duct15", areaConns)]

/-- `MPhbtf.setup` (example_cycles/high_bypass_turbofan.py:294-375): full power off design and, at part of its thrust,
part power. -/
def mpHbtf (p : HbtfParts) : Multi :=
  { des := ⟨"DESIGN", hbtf p .design⟩
    ods := [⟨"OD_full_pwr", hbtf p .t4⟩, ⟨"OD_part_pwr", hbtf p .percentThrust⟩]
    params := HBTF.mpParams
    desOd := HBTF.mpConns
    extra := [(("OD_full_pwr", "perf.Fn"), ("OD_part_pwr", "Fn_max"))] }

end PyCycle.OM
