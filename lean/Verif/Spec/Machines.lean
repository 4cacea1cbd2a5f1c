import Verif.Spec.Station
import Verif.Spec.MapPoint
import Mathlib.Analysis.SpecialFunctions.Log.Basic

/-! # What a compressor and a turbine do

Values are known by the element's own names: stations `Fl_I`, `Fl_O`, one station per bleed, `PR`, `eff`, `Nmech`,
`power`, `trq`. Enthalpies are in Btu/lbm, flows in lbm/s, power in hp (1.4148532 hp per Btu/s), torque in ft lbf
(5252.11 ft lbf per hp and rpm). -/

namespace PyCycle.OM

/-- The gas compressed or expanded from the inlet to pressure `P` without losses has enthalpy `h`: some temperature
gives the inlet's entropy at that pressure, and this enthalpy. -/
def Isentropic (g : TPGas) (S P h : ℝ) : Prop := ∃ T, g.S T P = S ∧ g.h T P = h

/-- One bleed of a compressor: it takes the fraction `frac_W` of the flow, at the fraction `frac_P` of the pressure
rise and `frac_work` of the enthalpy rise, as a state of the compressed gas. -/
structure CompressorBleed (g : TPGas) (E : Env) (b : String) : Prop where
  flow : E.num (b ++ ":stat:W") = E.num (b ++ ":frac_W") * E.num "Fl_I:stat:W"
  pressure : E.at (b ++ ":tot") "P"
    = E.num "Fl_I:tot:P" + E.num (b ++ ":frac_P") * (E.num "Fl_O:tot:P" - E.num "Fl_I:tot:P")
  enthalpy : E.at (b ++ ":tot") "h"
    = E.num "Fl_I:tot:h" + E.num (b ++ ":frac_work") * (E.num "Fl_O:tot:h" - E.num "Fl_I:tot:h")
  state : StateOf g E (b ++ ":tot")
  composition : E.vec (b ++ ":tot" ++ ":" ++ "composition") = E.vec "Fl_I:tot:composition"

/-- A compressor of gas `g` with the bleeds `bs`. -/
structure CompressorLaws (g : TPGas) (bs : List String) (E : Env) : Prop where
  pressure : E.num "Fl_O:tot:P" = E.num "PR" * E.num "Fl_I:tot:P"
  efficiency : E.num "eff" ≠ 0 → Isentropic g (E.num "Fl_I:tot:S") (E.num "Fl_O:tot:P")
    (E.num "Fl_I:tot:h" + E.num "eff" * (E.num "Fl_O:tot:h" - E.num "Fl_I:tot:h"))
  state : StateOf g E "Fl_O:tot"
  composition : E.vec "Fl_O:tot:composition" = E.vec "Fl_I:tot:composition"
  polytropic : E.num "eff_poly" = E.num "Fl_I:tot:R" * Real.log (E.num "PR")
    / (E.num "Fl_I:tot:R" * Real.log (E.num "PR") + E.num "Fl_O:tot:S" - E.num "Fl_I:tot:S")
  bleeds : ∀ b ∈ bs, CompressorBleed g E b
  mass : E.num "Fl_O:stat:W" + (bs.map fun b => E.num (b ++ ":stat:W")).sum = E.num "Fl_I:stat:W"
  energy : E.num "power" = 1.4148532 * (E.num "Fl_I:stat:W" * E.num "Fl_I:tot:h"
    - (E.num "Fl_O:stat:W" * E.num "Fl_O:tot:h"
      + (bs.map fun b => E.num (b ++ ":stat:W") * E.at (b ++ ":tot") "h").sum))
  torque : E.num "Nmech" ≠ 0 → E.num "trq" * E.num "Nmech" = 5252.11 * E.num "power"

/-- One cooling bleed of a turbine: its gas, of its own enthalpy, enters at the fraction `frac_P` of the pressure drop
above the exit pressure, and would have enthalpy `hI` when expanded to the exit pressure without losses. -/
def BleedExpansion (g : TPGas) (E : Env) (b : String) (hI : ℝ) : Prop :=
  ∃ T, let p := E.num "Fl_O:tot:P" + E.num (b ++ ":frac_P") * (E.num "Fl_I:tot:P" - E.num "Fl_O:tot:P")
    g.h T p = E.num (b ++ ":tot:h") ∧ Isentropic g (g.S T p) (E.num "Fl_O:tot:P") hI

/-- A turbine fed with gas `g`, cooled by the bleeds `bs`, each of its own gas, with the outlet gas `go`. -/
structure TurbineLaws (g go : TPGas) (gb : String → TPGas) (bs : List String) (E : Env) : Prop where
  pressure : E.num "Fl_O:tot:P" = E.num "Fl_I:tot:P" / E.num "PR"
  /-- Main stream and bleeds each deliver the fraction `eff` of what an isentropic expansion would. -/
  efficiency : ∃ (hI : ℝ) (hB : String → ℝ), Isentropic g (E.num "Fl_I:tot:S") (E.num "Fl_O:tot:P") hI
    ∧ (∀ b ∈ bs, BleedExpansion (gb b) E b (hB b))
    ∧ E.num "ht_out_b4bld" = E.num "Fl_I:tot:h" - E.num "eff" * (E.num "Fl_I:tot:h" - hI)
    ∧ E.num "power" = 1.4148532 * (E.num "eff" * (E.num "Fl_I:stat:W" * (E.num "Fl_I:tot:h" - hI)
        + (bs.map fun b => E.num (b ++ ":stat:W") * (E.num (b ++ ":tot:h") - hB b)).sum))
  state : StateOf go E "Fl_O:tot"
  /-- From the entropy of the main stream after its expansion, before the bleeds join. -/
  polytropic : ∃ T, g.h T (E.num "Fl_O:tot:P") = E.num "ht_out_b4bld"
    ∧ E.num "eff_poly" = 1 + (g.S T (E.num "Fl_O:tot:P") - E.num "Fl_I:tot:S")
        / (E.num "Fl_I:tot:R" * Real.log (1 / E.num "PR"))
  mass : E.num "Fl_O:stat:W" = E.num "Fl_I:stat:W" + (bs.map fun b => E.num (b ++ ":stat:W")).sum
  energy : E.num "Fl_O:stat:W" ≠ 0 → 1.4148532 * (E.num "Fl_O:stat:W" * E.num "Fl_O:tot:h")
    = 1.4148532 * (E.num "Fl_I:stat:W" * E.num "Fl_I:tot:h"
      + (bs.map fun b => E.num (b ++ ":stat:W") * E.num (b ++ ":tot:h")).sum) - E.num "power"
  torque : E.num "Nmech" ≠ 0 → E.num "trq" * E.num "Nmech" = 5252.11 * E.num "power"

end PyCycle.OM
