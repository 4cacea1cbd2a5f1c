import Verif.Spec.Balance
import Verif.Spec.Mixture

/-! # The accounts of the elements

What each kind of element takes from outside the flow network: an inlet, splitter, bleed, mixer and nozzle nothing, a
duct heat, a combustor fuel with its enthalpy, a compressor and a turbine shaft work (power in hp, 1.4148532 hp per
Btu/s; positive power is delivered). Where the books balance only for a flow that is not zero, this is said. -/

namespace PyCycle.OM

/-- A flow start, flight conditions: the source of the stream, at its own state. -/
def startAccount (gas : (ℕ → ℝ) → TPGas) : Account :=
  { ins := [], outs := ["Fl_O"], gas := fun _ => gas
    mass := fun V => V.num "W", heat := fun V => V.num "W" * V.num "Fl_O:tot:h", ok := fun _ => True }

/-- An inlet: it keeps the total temperature, not the enthalpy, while it lowers the pressure, so for a gas whose
enthalpy depends on pressure it creates energy: the difference of the enthalpies at the two pressures. This is zero for
recovery 1, and for a gas whose enthalpy depends on temperature only. -/
def inletAccount (gas : (ℕ → ℝ) → TPGas) : Account :=
  { ins := ["Fl_I"], outs := ["Fl_O"], gas := fun _ => gas
    mass := fun _ => 0
    heat := fun V =>
      let g := gas (V.vec "Fl_I:tot:composition")
      V.num "Fl_I:stat:W" * (g.h (V.num "Fl_I:tot:T") (V.num "Fl_I:tot:P" * V.num "ram_recovery")
        - g.h (V.num "Fl_I:tot:T") (V.num "Fl_I:tot:P"))
    ok := fun _ => True }

/-- A duct: heat. -/
def ductAccount (gas : (ℕ → ℝ) → TPGas) : Account :=
  { ins := ["Fl_I"], outs := ["Fl_O"], gas := fun _ => gas
    mass := fun _ => 0, heat := fun V => V.num "Q_dot", ok := fun V => V.num "Fl_I:stat:W" ≠ 0 }

/-- A splitter: nothing. -/
def splitterAccount (gas : (ℕ → ℝ) → TPGas) : Account :=
  { ins := ["Fl_I"], outs := ["Fl_O1", "Fl_O2"], gas := fun _ => gas
    mass := fun _ => 0, heat := fun _ => 0, ok := fun _ => True }

/-- Bleed extraction: nothing; each bleed is an outlet. -/
def bleedOutAccount (gas : (ℕ → ℝ) → TPGas) (bs : List String) : Account :=
  { ins := ["Fl_I"], outs := "Fl_O" :: bs, gas := fun _ => gas
    mass := fun _ => 0, heat := fun _ => 0, ok := fun _ => True }

/-- A nozzle: nothing (the exit keeps the total enthalpy). -/
def nozzleAccount (gas : (ℕ → ℝ) → TPGas) : Account :=
  { ins := ["Fl_I"], outs := ["Fl_O"], gas := fun _ => gas
    mass := fun _ => 0, heat := fun _ => 0, ok := fun _ => True }

/-- A compressor: shaft work; each bleed is an outlet. -/
noncomputable def compressorAccount (gas : (ℕ → ℝ) → TPGas) (bs : List String) : Account :=
  { ins := ["Fl_I"], outs := "Fl_O" :: bs, gas := fun _ => gas
    mass := fun _ => 0, heat := fun V => - V.num "power" / 1.4148532, ok := fun _ => True }

/-- A turbine: shaft work; each cooling bleed is an inlet, with its own gas (`gI` also gives the inlet's). -/
noncomputable def turbineAccount (gas : (ℕ → ℝ) → TPGas) (gI : String → (ℕ → ℝ) → TPGas) (bs : List String) : Account :=
  { ins := "Fl_I" :: bs, outs := ["Fl_O"], gas := fun p => if p = "Fl_O" then gas else gI p
    mass := fun _ => 0, heat := fun V => - V.num "power" / 1.4148532, ok := fun V => V.num "Fl_O:stat:W" ≠ 0 }

/-- A combustor: fuel. `okC` says when a composition is not degenerate. -/
def combustorAccount (gas gI : (ℕ → ℝ) → TPGas) (okC : (ℕ → ℝ) → Prop) : Account :=
  { ins := ["Fl_I"], outs := ["Fl_O"], gas := fun p => if p = "Fl_O" then gas else gI
    mass := fun V => V.num "Wfuel", heat := fun V => V.num "Wfuel" * V.num "mix_fuel.mix:h"
    ok := fun V => okC (V.vec "Fl_I:tot:composition") ∧ V.num "Fl_I:stat:W" ≠ 0
      ∧ V.num "Fl_I:stat:W" + V.num "Wfuel" ≠ 0 }

/-- A mixer: nothing. `okC` says when the incoming flows and compositions are not degenerate. -/
def mixerAccount (gas : (ℕ → ℝ) → TPGas) (gI : String → (ℕ → ℝ) → TPGas)
    (okC : ℝ → (ℕ → ℝ) → ℝ → (ℕ → ℝ) → Prop) : Account :=
  { ins := ["Fl_I1", "Fl_I2"], outs := ["Fl_O"], gas := fun p => if p = "Fl_O" then gas else gI p
    mass := fun _ => 0, heat := fun _ => 0
    ok := fun V => okC (V.num "Fl_I1:stat:W") (V.vec "Fl_I1:tot:composition")
      (V.num "Fl_I2:stat:W") (V.vec "Fl_I2:tot:composition") ∧ V.num "Fl_I1:stat:W" + V.num "Fl_I2:stat:W" ≠ 0 }

end PyCycle.OM
