import Verif.Model.PyDict
import Mathlib.Data.Real.Basic
import Mathlib.Algebra.BigOperators.Fin

/-! # Specification vocabulary for composition vectors

Independent of `ThermoAdd`: what fraction of a stream's mass is chemical element `e`. -/

namespace PyCycle
open Finset

/-- Total mass per unit of a composition vector (`comp i` kmol of element `els[i]`). -/
noncomputable def totalMass (els : List String) (w : String → ℝ) (comp : Fin els.length → ℝ) : ℝ :=
  ∑ i, comp i * w (els.get i)

/-- Mass fraction of the chemical element `e` in a stream whose composition vector, over the
element list `els`, is `comp`; `w` are the atomic weights. -/
noncomputable def elemMassFrac (els : List String) (w : String → ℝ) (comp : Fin els.length → ℝ)
    (e : String) : ℝ :=
  (∑ i, if els.get i = e then comp i * w (els.get i) else 0) / totalMass els w comp

/-- Mass of one mole of a chemical formula. -/
noncomputable def formulaMass (f : PyDict ℝ) (w : String → ℝ) : ℝ :=
  (f.map (fun kv => kv.2 * w kv.1)).sum

/-- Mass fraction of the element `e` in a chemical formula. -/
noncomputable def formulaMassFrac (f : PyDict ℝ) (w : String → ℝ) (e : String) : ℝ :=
  (f.get? e).getD 0 * w e / formulaMass f w

end PyCycle
