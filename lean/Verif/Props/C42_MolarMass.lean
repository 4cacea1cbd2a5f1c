import Verif.Model.ThermoDataReal
import Mathlib.Algebra.BigOperators.Group.List.Basic
import Mathlib.Tactic.Ring
import Mathlib.Tactic.Linarith
import Mathlib.Tactic.NormNum

/-! # C42: molar masses and element weights -/

namespace PyCycle.Data

/-- The three data sets with the element weights they are used with. -/
inductive Set3 | janaf | wetAir | co2
  deriving DecidableEq

/-- Products of a data set. -/
def Set3.prods : Set3 → List Prod
  | .janaf => Data.janaf
  | .wetAir => wet_air
  | .co2 => co2_co_o2

/-- Element weights of a data set. -/
def Set3.wts : Set3 → List (String × ℚ)
  | .co2 => co2_co_o2_wts
  | _ => janaf_wts

/-- **C42 (well-formed).** In every data set the product names are distinct, every element of every
product has a weight (so building the species tables cannot fail on a missing weight), and atom counts
are positive whole numbers. -/
theorem C42_well_formed (d : Set3) :
    (d.prods.map (·.name)).Nodup
    ∧ (∀ p ∈ d.prods, ∀ e ∈ p.elements, (d.wts.map (·.1)).contains e.1 = true)
    ∧ (∀ p ∈ d.prods, ∀ e ∈ p.elements, 0 < e.2 ∧ e.2.den = 1)
    ∧ (∀ p ∈ d.prods, (p.elements.map (·.1)).Nodup)
    ∧ (∀ w ∈ d.wts, 0 < w.2) ∧ (∀ p ∈ d.prods, 0 < p.wt) := by
  cases d <;> decide +kernel

/-- **C42 is false.** Carbon monoxide in the JANAF data weighs less than its atoms. -/
theorem C42_refuted :
    ¬ ∀ d : Set3, ∀ p ∈ d.prods, p.wt = p.atomWeight d.wts := by
  intro h
  exact absurd (h .janaf janaf_CO (by simp [Set3.prods, Data.janaf])) (by decide +kernel)

/-- **C42 (what holds).** A product's molar mass is the sum of its atoms' weights minus 0.0063 for each
carbon atom in the JANAF and wet-air data (whose carbon weight, 12.017, should be 12.0107); it is the
sum exactly for every carbon-free product and in the CO2 data set. -/
theorem C42_molar_mass_partial (d : Set3) :
    ∀ p ∈ d.prods, p.wt = p.atomWeight d.wts
      - (match d with | .co2 => 0 | _ => 63 / 10000) * p.atoms "C" := by
  cases d <;> decide +kernel

/-- **C42 (wet air).** No carbon-free product is affected. -/
theorem C42_carbon_free (d : Set3) :
    ∀ p ∈ d.prods, p.atoms "C" = 0 → p.wt = p.atomWeight d.wts := by
  intro p hp hc
  have := C42_molar_mass_partial d p hp
  rw [hc, mul_zero, sub_zero] at this
  exact this

/-- Total mass of a mixture, from the molar masses of its species. -/
noncomputable def speciesMass (ps : List Prod) (n : String → ℝ) : ℝ :=
  (ps.map fun p => n p.name * (p.wt : ℝ)).sum

/-- Amount of an element in a mixture. -/
noncomputable def elementAmount (ps : List Prod) (n : String → ℝ) (e : String) : ℝ :=
  (ps.map fun p => n p.name * (p.atoms e : ℝ)).sum

/-- Total mass of a mixture, from the amounts of its elements. -/
noncomputable def elementMass (ps : List Prod) (wts : List (String × ℚ)) (n : String → ℝ) : ℝ :=
  (wts.map fun w => (w.2 : ℝ) * elementAmount ps n w.1).sum

/-- Summing over the weights or over the product's elements is the same. -/
theorem atomWeight_eq (d : Set3) : ∀ p ∈ d.prods,
    p.atomWeight d.wts = (d.wts.map fun w => w.2 * p.atoms w.1).sum := by
  cases d <;> decide +kernel

theorem sum_map_add' {α : Type} (l : List α) (f g : α → ℝ) :
    (l.map fun a => f a + g a).sum = (l.map f).sum + (l.map g).sum := by
  induction l with
  | nil => simp
  | cons a l ih => simp only [List.map_cons, List.sum_cons, ih]; ring

/-- **C42 (consequence for mixtures).** For any amounts of the species, the mass computed from molar
masses is the mass computed from elements minus 0.0063 (JANAF, wet air) or 0 (CO2 set) times the amount
of carbon: the two bookkeepings disagree exactly when there is carbon. -/
theorem C42_mixture (d : Set3) (n : String → ℝ) :
    speciesMass d.prods n = elementMass d.prods d.wts n
      - (match d with | .co2 => 0 | _ => 63 / 10000) * elementAmount d.prods n "C" := by
  have key : ∀ ps : List Prod, (∀ p ∈ ps, p ∈ d.prods) →
      speciesMass ps n = elementMass ps d.wts n
        - (match d with | .co2 => 0 | _ => 63 / 10000) * elementAmount ps n "C" := by
    intro ps
    induction ps with
    | nil => intro _; simp [speciesMass, elementMass, elementAmount]
    | cons p ps ih =>
      intro h
      have hp := h p (by simp)
      have ih' := ih (fun q hq => h q (by simp [hq]))
      have h1 := C42_molar_mass_partial d p hp
      rw [atomWeight_eq d p hp] at h1
      have e1 : speciesMass (p :: ps) n = n p.name * (p.wt : ℝ) + speciesMass ps n := by
        simp [speciesMass]
      have e2 : ∀ e, elementAmount (p :: ps) n e = n p.name * (p.atoms e : ℝ) + elementAmount ps n e := by
        intro e; simp [elementAmount]
      have e3 : elementMass (p :: ps) d.wts n
          = n p.name * (((d.wts.map fun w => w.2 * p.atoms w.1).sum : ℚ) : ℝ)
            + elementMass ps d.wts n := by
        unfold elementMass
        generalize d.wts = ws
        induction ws with
        | nil => simp
        | cons w ws ih =>
          rw [List.map_cons, List.sum_cons, ih, e2, List.map_cons, List.sum_cons, List.map_cons,
            List.sum_cons, Rat.cast_add, Rat.cast_mul]
          ring
      rw [e1, e2, e3, ih', h1]
      cases d <;> simp only <;> push_cast <;> ring
  exact key d.prods (fun _ h => h)

/-- A mixture with carbon dioxide, for which the two masses differ. -/
example : speciesMass Set3.janaf.prods (fun s => if s = "CO2" then 1 else 0)
    ≠ elementMass Set3.janaf.prods Set3.janaf.wts (fun s => if s = "CO2" then 1 else 0) := by
  rw [C42_mixture]
  have : elementAmount Set3.janaf.prods (fun s => if s = "CO2" then 1 else 0) "C" = 1 := by
    simp [elementAmount, Set3.prods, Data.janaf, janaf_Ar, janaf_CH4, janaf_C2H4, janaf_CO, janaf_CO2,
      janaf_H, janaf_HO2, janaf_H2, janaf_H2O, janaf_H2O2, janaf_N, janaf_NH3, janaf_NO, janaf_NO2,
      janaf_NO3, janaf_N2, janaf_O, janaf_OH, janaf_O2, Prod.atoms]
  rw [this]
  norm_num

/-- **C42 (reactants).** Every reactant is made of weighted elements in positive amounts, so its mass
fractions are defined. -/
theorem C42_reactants :
    ∀ r ∈ janaf_reactants, r.2 ≠ [] ∧ ∀ e ∈ r.2, 0 < e.2 ∧ 0 < weight janaf_wts e.1 := by
  decide +kernel

end PyCycle.Data
