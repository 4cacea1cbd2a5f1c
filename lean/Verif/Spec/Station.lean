import Verif.Model.OMGroup

/-! # What a flow station is

A station is a set of values under one name, `fl:T`, `fl:P`, …. These predicates say when the values are
those of one state of one gas, independently of how the code computes them. -/

namespace PyCycle.OM

/-- The value `fl:v`. -/
def Env.at (E : Env) (fl v : String) : ℝ := E.num (fl ++ ":" ++ v)

/-- The values of station `fl` are all properties of the gas `g` at the station's own temperature and
pressure. -/
structure StateOf (g : TPGas) (E : Env) (fl : String) : Prop where
  h : E.at fl "h" = g.h (E.at fl "T") (E.at fl "P")
  S : E.at fl "S" = g.S (E.at fl "T") (E.at fl "P")
  gamma : E.at fl "gamma" = g.gamma (E.at fl "T") (E.at fl "P")
  Cp : E.at fl "Cp" = g.Cp (E.at fl "T") (E.at fl "P")
  Cv : E.at fl "Cv" = g.Cv (E.at fl "T") (E.at fl "P")
  rho : E.at fl "rho" = g.rho (E.at fl "T") (E.at fl "P")
  R : E.at fl "R" = g.R (E.at fl "T") (E.at fl "P")

/-- The moving gas at static station `st` has mass flow `W`, total enthalpy `ht` and entropy `S`: speed of
sound, Mach number, continuity and the energy equation. -/
structure Moving (E : Env) (st : String) (W ht S : ℝ) : Prop where
  flow : E.at st "W" = W
  entropy : E.at st "S" = S
  sound : E.at st "Vsonic" = Real.sqrt (E.at st "gamma" * E.at st "R" * E.at st "T")
  mach : E.at st "V" = E.at st "MN" * E.at st "Vsonic"
  continuity : E.at st "rho" * E.at st "V" * E.at st "area" = W
  energy : E.at st "h" + E.at st "V" ^ 2 / 2 = ht

/-- The static station `st` of an outlet whose totals are `tot`: a state of the gas at the totals' entropy,
passing flow `W` at the Mach number asked for (design) or through the area asked for (off design), with the
energy and continuity equations under the guards of C24. -/
structure StaticOutlet (g : TPGas) (E : Env) (tot st : String) (design : Bool) (W MN area : ℝ) : Prop where
  state : StateOf g E st
  flow : E.at st "W" = W
  entropy : E.at st "S" = E.at tot "S"
  mach : design = true → E.at st "MN" = MN
  size : design = false → E.at st "area" = area
  moving : 0 < E.at st "gamma" * E.at st "R" * E.at st "T" → 0 < E.at st "rho" → E.at tot "h" ≠ 0 →
    (design = true → 1e-16 ≤ MN) → (design = false → area ≠ 0) → Moving E st W (E.at tot "h") (E.at tot "S")

end PyCycle.OM
