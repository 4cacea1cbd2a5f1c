import Verif.Model.OMGroup

/-! # What it means to run on a scaled map -/

namespace PyCycle.OM

/-- The machine's speed, pressure ratio, efficiency and flow are the map's values `N`, `PR`, `eff`, `W` times the
machine's scalars; pressure ratios are scaled by their excess over one. `c` is the letter of speed and flow:
corrected `Nc`, `Wc` or referred `Np`, `Wp`. -/
structure OnMap (E : Env) (c : String) (N PR eff W : ℝ) : Prop where
  speed : E.num ("N" ++ c) = E.num ("s_N" ++ c) * N
  ratio : E.num "PR" - 1 = E.num "s_PR" * (PR - 1)
  efficiency : E.num "eff" = E.num "s_eff" * eff
  flow : E.num ("W" ++ c) = E.num ("s_W" ++ c) * W

end PyCycle.OM
