import Verif.Model.ElementWiring

/-! # What an element passes from the design point to off design

`default_des_od_conns` of each element: pairs (output at the design point, input off design). `MPCycle.configure`
connects them (mp_cycle.py:269-277; `Verif.Model.MPCycle`). -/

namespace PyCycle.OM

/-- inlet.py:131-134, duct.py:157-160, combustor.py:65-68, bleed_out.py:90-93: the same list. -/
def areaConns : List (String × String) := [("Fl_O:stat:area", "area")]

/-- splitter.py:82-85. -/
def splitterConns : List (String × String) := [("Fl_O1:stat:area", "area1"), ("Fl_O2:stat:area", "area2")]

/-- mixer.py:177-186; `first` is `designed_stream == 1`. -/
def mixerConns (first : Bool) : List (String × String) :=
  if first then [("Fl_O:stat:area", "area"), ("Fl_I1_calc:stat:area", "Fl_I1_stat_calc.area")]
  else [("Fl_O:stat:area", "area"), ("Fl_I2_calc:stat:area", "Fl_I2_stat_calc.area")]

/-- compressor.py:402-409. -/
def compressorConns : List (String × String) :=
  [("s_Wc", "s_Wc"), ("s_PR", "s_PR"), ("s_eff", "s_eff"), ("s_Nc", "s_Nc"), ("Fl_O:stat:area", "area")]

/-- turbine.py:428-435. -/
def turbineConns : List (String × String) :=
  [("s_Wp", "s_Wp"), ("s_PR", "s_PR"), ("s_eff", "s_eff"), ("s_Np", "s_Np"), ("Fl_O:stat:area", "area")]

/-- The connections of `MPCycle.configure` from the design point to an off-design point (mp_cycle.py:262-277), each name
without the point's name in front: `calls` are those of `pyc_connect_des_od`, `elems` the elements with their
`default_des_od_conns`. -/
def desOdConns (calls : List (String × String)) (elems : List (String × List (String × String))) : List (String × String) :=
  calls ++ elems.flatMap fun e => e.2.map fun c => (e.1 ++ "." ++ c.1, e.1 ++ "." ++ c.2)

/-- Those of `MPTurbojet` (example_cycles/simple_turbojet.py:188-190). Flight conditions, nozzle, shaft and performance
have no `default_des_od_conns`. -/
def turbojetConns : List (String × String) :=
  desOdConns [("nozz.Throat:stat:area", "balance.rhs:W")]
    [("inlet", areaConns), ("comp", compressorConns), ("burner", areaConns), ("turb", turbineConns)]

end PyCycle.OM
