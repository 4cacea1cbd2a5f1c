import Verif.Spec.EquilibriumPath

/-! # Specification: equilibrium states and the Gibbs energy

Written without reference to the solver's residuals or balances. -/

namespace PyCycle
open Finset

variable {ne np : Nat}

/-- Gibbs energy `H - T S` of an ideal-gas mixture. -/
noncomputable def mixGibbs (g : Gas ne np) (T P : ℝ) (n : Fin np → ℝ) : ℝ :=
  mixEnthalpy g T n - T * mixEntropy g T P n

/-- `(h, S, P)` are enthalpy, entropy and pressure of an equilibrium of element abundances `b` at some
temperature of `I`. -/
def GasState (g : Gas ne np) (I : Set ℝ) (b : Fin ne → ℝ) (h S P : ℝ) : Prop :=
  0 < P ∧ ∃ T ∈ I, ∃ n pi, IsEquilibrium g T P b n pi ∧ h = mixEnthalpy g T n ∧ S = mixEntropy g T P n

/-- A range of positive absolute temperatures without gaps in which every species has positive heat
capacity. -/
structure Warm (g : Gas ne np) (I : Set ℝ) : Prop where
  pos : ∀ T ∈ I, 0 < T
  interval : I.OrdConnected
  cp : ∀ T ∈ I, ∀ j, 0 < g.Cp0 T j

end PyCycle
