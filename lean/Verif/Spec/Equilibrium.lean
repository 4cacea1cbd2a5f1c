import Verif.Model.ChemEq

/-! # Specification: chemical equilibrium of an ideal-gas mixture

Written without reference to the solver's residuals. -/

namespace PyCycle
open Finset

/-- Dimensionless chemical potential `μ_j/(R T)` of species `j` in an ideal-gas mixture with
molar amounts `n` at temperature `T` and pressure `P` (bar). -/
noncomputable def chemPotential {ne np : Nat} (g : Gas ne np) (T P : ℝ) (n : Fin np → ℝ)
    (j : Fin np) : ℝ :=
  g.H0 T j - g.S0 T j + Real.log (n j / (∑ k, n k) * (P / P_REF))

/-- `n` (with element potentials `pi`) is an equilibrium composition for element abundances `b`:
all species present, elements conserved, and each species' chemical potential is the
stoichiometric combination of element potentials (the Lagrange condition for minimum Gibbs
energy). -/
structure IsEquilibrium {ne np : Nat} (g : Gas ne np) (T P : ℝ) (b : Fin ne → ℝ)
    (n : Fin np → ℝ) (pi : Fin ne → ℝ) : Prop where
  pos : ∀ j, 0 < n j
  elements : ∀ i, ∑ j, g.aij i j * n j = b i
  potential : ∀ j, chemPotential g T P n j = ∑ i, pi i * g.aij i j

end PyCycle
