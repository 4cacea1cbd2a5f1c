import Verif.Spec.Equilibrium
import Mathlib.Analysis.Calculus.Deriv.Basic

/-! # Specification: a differentiable family of equilibria

Independent of the code's linear systems: a curve of equilibrium states with fixed element
abundances, and the mixture's extensive enthalpy, entropy and volume. -/

namespace PyCycle
open Finset Topology

variable {ne np : Nat}

/-- Enthalpy of an ideal-gas mixture, `Σ n_j (H_j/RT) · R T`. -/
noncomputable def mixEnthalpy (g : Gas ne np) (T : ℝ) (n : Fin np → ℝ) : ℝ :=
  ∑ j, n j * (g.H0 T j * (R_ENG * T))

/-- Entropy of an ideal-gas mixture: each species at its partial pressure. -/
noncomputable def mixEntropy (g : Gas ne np) (T P : ℝ) (n : Fin np → ℝ) : ℝ :=
  ∑ j, n j * (R_ENG * (g.S0 T j - Real.log (n j / (∑ k, n k) * (P / P_REF))))

/-- Volume of an ideal-gas mixture (up to the choice of unit): `V = N R T / P`. -/
noncomputable def mixVolume (T P : ℝ) (n : Fin np → ℝ) : ℝ := (∑ j, n j) * R_ENG * T / P

/-- Internal energy `U = H - P V`. -/
noncomputable def mixEnergy (g : Gas ne np) (T : ℝ) (n : Fin np → ℝ) : ℝ :=
  mixEnthalpy g T n - (∑ j, n j) * R_ENG * T

/-- A curve `u ↦ (T, P, n, π)` of equilibria for the fixed abundances `b`, differentiable at `s`
with the derivatives `T', P', n', π'`. -/
structure EquilibriumPath (g : Gas ne np) (b : Fin ne → ℝ) (T P : ℝ → ℝ)
    (n : ℝ → Fin np → ℝ) (pi : ℝ → Fin ne → ℝ) (s T' P' : ℝ) (n' : Fin np → ℝ)
    (pi' : Fin ne → ℝ) : Prop where
  equilibrium : ∀ᶠ u in 𝓝 s, IsEquilibrium g (T u) (P u) b (n u) (pi u)
  T_pos : 0 < T s
  P_pos : 0 < P s
  dT : HasDerivAt T T' s
  dP : HasDerivAt P P' s
  dn : ∀ j, HasDerivAt (fun u => n u j) (n' j) s
  dpi : ∀ i, HasDerivAt (fun u => pi u i) (pi' i) s

end PyCycle
