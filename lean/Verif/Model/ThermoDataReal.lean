import Verif.Model.ThermoDataTables
import Verif.Model.CoeffTable
import Verif.Model.SpeciesSetup

/-! # The data modules as inputs of the `Properties` model -/

namespace PyCycle.Data

/-- The temperature data of a product (fields `ranges`, `coeffs` read in species_data.py:166-183). -/
noncomputable def Prod.fit (p : Prod) : TempFit where
  ranges := p.ranges.map (fun q : ℚ => (q : ℝ))
  coeffs := p.coeffs.map (fun r => r.map (fun q : ℚ => (q : ℝ)))

/-- A data module (`products`, `element_wts`, `reactants`; species_data.py:30-31) with real numbers. -/
noncomputable def toThermoData (ps : List Prod) (wts : List (String × ℚ))
    (rs : List (String × List (String × ℚ))) : ThermoData where
  products := ps.map fun p => (p.name, ⟨p.elements.map fun e => (e.1, (e.2 : ℝ)), (p.wt : ℝ)⟩)
  elementWts := wts.map fun e => (e.1, (e.2 : ℝ))
  reactants := rs.map fun r => (r.1, r.2.map fun e => (e.1, (e.2 : ℝ)))

/-- `janaf` as a data module. -/
noncomputable def janafData : ThermoData := toThermoData janaf janaf_wts janaf_reactants
/-- `wet_air` as a data module (wet_air.py). -/
noncomputable def wetAirData : ThermoData := toThermoData wet_air janaf_wts janaf_reactants
/-- `co2_co_o2` as a data module; it has no `reactants`. -/
noncomputable def co2Data : ThermoData := toThermoData co2_co_o2 co2_co_o2_wts []

/-- Number of atoms of an element in a product (`elements.get(e, 0)`, species_data.py:73-74). -/
def Prod.atoms (p : Prod) (e : String) : ℚ := ((p.elements.find? (·.1 == e)).map (·.2)).getD 0

/-- Atomic weight in a list (`element_wts[e]`, species_data.py:71). -/
def weight (wts : List (String × ℚ)) (e : String) : ℚ := ((wts.find? (·.1 == e)).map (·.2)).getD 0

/-- Sum of the weights of a product's atoms. -/
def Prod.atomWeight (wts : List (String × ℚ)) (p : Prod) : ℚ :=
  (p.elements.map fun e => e.2 * weight wts e.1).sum

end PyCycle.Data
