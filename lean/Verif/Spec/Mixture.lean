import Verif.Spec.GasState

/-! # Specification: states of a gas mixture, reacting or frozen -/

namespace PyCycle
open Finset
variable {ne np : Nat}

/-- `(h, S)` are enthalpy and entropy of *some* non-negative amounts with element abundances `b` at
pressure `P` and some temperature of `I`; not necessarily in equilibrium, species may be absent. -/
def IsMixture (g : Gas ne np) (I : Set ℝ) (b : Fin ne → ℝ) (h S P : ℝ) : Prop :=
  0 < P ∧ ∃ T ∈ I, ∃ m : Fin np → ℝ, (∀ j, 0 ≤ m j) ∧ (∀ i, ∑ j, g.aij i j * m j = b i)
    ∧ h = mixEnthalpy g T m ∧ S = mixEntropy g T P m

theorem GasState.mixture {g : Gas ne np} {I : Set ℝ} {b : Fin ne → ℝ} {h S P : ℝ}
    (hs : GasState g I b h S P) : IsMixture g I b h S P := by
  obtain ⟨hP, T, hT, n, pi, he, h1, h2⟩ := hs
  exact ⟨hP, T, hT, n, fun j => (he.pos j).le, he.elements, h1, h2⟩

end PyCycle
