import Verif.Model.PyDict
import Mathlib.Data.Real.Basic
import Mathlib.Algebra.BigOperators.Fin

/-! # `Properties.__init__` (pycycle/thermo/cea/species_data.py:17-105)

Floating-point numbers are idealised as reals. The temperature table part (line 107 and
`build_coeff_table`) is modelled in `Verif.Model.CoeffTable`. -/

namespace PyCycle

open Finset

/-- One entry of `products` in a thermo data module (thermo/cea/thermo_data/*.py). -/
structure Product where
  elements : PyDict ℝ
  wt : ℝ

/-- A thermo data module: `products`, `element_wts`, `reactants`. -/
structure ThermoData where
  products : PyDict Product
  elementWts : PyDict ℝ
  reactants : PyDict (PyDict ℝ)

/-- The atomic weight used for element `e` (0 stands for an absent entry; reading an absent
entry is a `KeyError`, see `mkProperties`). -/
noncomputable def ThermoData.wtOf (data : ThermoData) (e : String) : ℝ :=
  (data.elementWts.get? e).getD 0

/-- The attributes set by `Properties.__init__`. -/
structure Properties where
  elements : List String
  products : List (String × Product)
  elementWt : Fin elements.length → ℝ
  aij : Fin elements.length → Fin products.length → ℝ
  wtMole : Fin products.length → ℝ
  b0 : Fin elements.length → ℝ

/-- `valid_elements` (species_data.py:40-43): all elements used by some product. -/
def validElements (data : ThermoData) : List String :=
  data.products.flatMap (fun p => p.2.elements.keys)

/-- `products` (species_data.py:52-53): the names (here: with their data) of the products all of
whose elements are in `elem_set`. -/
def selectProducts (data : ThermoData) (elemSet : List String) : List (String × Product) :=
  data.products.filter (fun p => p.2.elements.keys.all (fun e => decide (e ∈ elemSet)))

/-- `Properties.__init__` (species_data.py:34-105). `none` is `init_elements=None`. -/
noncomputable def mkProperties (data : ThermoData) (initElements : Option (PyDict ℝ)) :
    Except PyErr Properties :=
  match initElements with
  | none => .error .valueError                                            -- 55-56
  | some init =>
    let elements := init.sortedKeys                                       -- 36-37
    if elements.any (fun e => decide (e ∉ validElements data)) then .error .valueError -- 45-50
    else if elements.any (fun e => (data.elementWts.get? e).isNone) then .error .keyError -- 71
    else
      let products := selectProducts data init.keys                       -- 52-53
      let wt : Fin elements.length → ℝ := fun i => data.wtOf (elements.get i)   -- 70-71, 76
      let b₁ : Fin elements.length → ℝ := fun i => (init.get? (elements.get i)).getD 0  -- 99-101
      let b₂ := fun i => b₁ i * wt i                                      -- 103
      let b₃ := fun i => b₂ i / ∑ k, b₂ k                                 -- 104
      .ok {
        elements := elements
        products := products
        elementWt := wt
        aij := fun i j => ((products.get j).2.elements.get? (elements.get i)).getD 0  -- 73-74
        wtMole := fun j => (products.get j).2.wt                          -- 79-81
        b0 := fun i => b₃ i / wt i }                                      -- 105

end PyCycle
