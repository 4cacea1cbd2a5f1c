import Verif.Lemmas.ThermoAdd

/-! # C16: product selection and normalisation in `Properties.__init__` -/

namespace PyCycle
open Finset

/-- **C16 (rejection).** `Properties` rejects a missing composition and rejects, with a
`ValueError`, a composition naming an element that occurs in no product of the data set; a
composition whose elements all occur in products and have a weight is accepted. -/
theorem C16_acceptance (data : ThermoData) :
    mkProperties data none = .error .valueError
    ∧ (∀ d : PyDict ℝ, (∃ e ∈ d.keys, ∀ p ∈ data.products, e ∉ p.2.elements.keys) →
        mkProperties data (some d) = .error .valueError)
    ∧ (∀ d : PyDict ℝ, (∀ e ∈ d.keys, (∃ p ∈ data.products, e ∈ p.2.elements.keys)
          ∧ e ∈ data.elementWts.keys) → ∃ P, mkProperties data (some d) = .ok P) := by
  refine ⟨rfl, ?_, ?_⟩
  · rintro d ⟨e, he, hno⟩
    have : d.sortedKeys.any (fun e => decide (e ∉ validElements data)) = true := by
      rw [List.any_eq_true]
      refine ⟨e, (PyDict.mem_sortedKeys d e).mpr he, ?_⟩
      simp only [decide_eq_true_eq, validElements, List.mem_flatMap, not_exists, not_and]
      exact hno
    simp only [mkProperties]
    rw [if_pos this]
  · intro d hd
    have h1 : d.sortedKeys.any (fun e => decide (e ∉ validElements data)) = false := by
      rw [List.any_eq_false]
      intro e he
      obtain ⟨⟨p, hp, hep⟩, _⟩ := hd e ((PyDict.mem_sortedKeys d e).mp he)
      simp only [decide_eq_true_eq, not_not, validElements, List.mem_flatMap]
      exact ⟨p, hp, hep⟩
    have h2 : d.sortedKeys.any (fun e => (data.elementWts.get? e).isNone) = false := by
      rw [List.any_eq_false]
      intro e he
      have := (hd e ((PyDict.mem_sortedKeys d e).mp he)).2
      rw [PyDict.mem_keys_iff] at this
      simp [Option.isSome_iff_ne_none] at this ⊢
      exact this
    simp only [mkProperties]
    rw [if_neg (by rw [h1]; simp), if_neg (by rw [h2]; simp)]
    exact ⟨_, rfl⟩

private theorem mk_ok_full {data : ThermoData} {d : PyDict ℝ} {P : Properties}
    (h : mkProperties data (some d) = .ok P) :
    P.products = selectProducts data d.keys
    ∧ (∀ i j, P.aij i j = ((P.products.get j).2.elements.get? (P.elements.get i)).getD 0)
    ∧ (∀ j, P.wtMole j = (P.products.get j).2.wt)
    ∧ (∀ i, P.b0 i = ((d.get? (P.elements.get i)).getD 0 * P.elementWt i
        / ∑ k, (d.get? (P.elements.get k)).getD 0 * P.elementWt k) / P.elementWt i) := by
  simp only [mkProperties] at h
  split at h
  · cases h
  · split at h
    · cases h
    · cases h
      exact ⟨rfl, fun _ _ => rfl, fun _ => rfl, fun _ => rfl⟩

/-- **C16 (selection).** The products kept are exactly the data-set entries all of whose
elements are in the composition, in data-set order; the elements are the composition's keys,
sorted; the stoichiometry entry for (element, product) is the number of atoms of that element in
the product; molar masses are those of the data set. -/
theorem C16_selection (data : ThermoData) (d : PyDict ℝ) (P : Properties)
    (h : mkProperties data (some d) = .ok P) :
    (∀ p, p ∈ P.products ↔ p ∈ data.products ∧ ∀ e ∈ p.2.elements.keys, e ∈ d.keys)
    ∧ P.products.Sublist data.products
    ∧ (∀ e, e ∈ P.elements ↔ e ∈ d.keys)
    ∧ P.elements.Pairwise (· ≤ ·)
    ∧ (∀ i j, P.aij i j = ((P.products.get j).2.elements.get? (P.elements.get i)).getD 0)
    ∧ (∀ j, P.wtMole j = (P.products.get j).2.wt) := by
  obtain ⟨h1, h2, h3, h4⟩ := mk_ok_full h
  have he := (mkProperties_ok h).1
  refine ⟨fun p => ?_, ?_, fun e => ?_, ?_, h2, h3⟩
  · rw [h1, selectProducts, List.mem_filter]
    simp
  · rw [h1, selectProducts]; exact List.filter_sublist
  · rw [he, PyDict.mem_sortedKeys]
  · rw [he, PyDict.sortedKeys]
    exact List.pairwise_insertionSort _ _

/-- **C16 (normalisation).** The element vector `b0` is the composition scaled to unit mass:
proportional to the given amounts, with `Σ b0·wt = 1`. -/
theorem C16_normalised (data : ThermoData) (d : PyDict ℝ) (P : Properties)
    (h : mkProperties data (some d) = .ok P) (hwt : ∀ e ∈ d.keys, data.wtOf e ≠ 0)
    (hsum : ∑ k, (d.get? (P.elements.get k)).getD 0 * data.wtOf (P.elements.get k) ≠ 0) :
    (∑ i, P.b0 i * data.wtOf (P.elements.get i) = 1)
    ∧ ∃ c, c ≠ 0 ∧ ∀ i, P.b0 i = c * (d.get? (P.elements.get i)).getD 0 := by
  obtain ⟨-, -, -, h4⟩ := mk_ok_full h
  obtain ⟨he, hw⟩ := mkProperties_ok h
  have hne : ∀ i, data.wtOf (P.elements.get i) ≠ 0 := by
    intro i
    apply hwt
    have := List.get_mem P.elements i
    rw [← PyDict.mem_sortedKeys]
    have hh : ∀ x ∈ P.elements, x ∈ d.sortedKeys := by intro x hx; rw [← he]; exact hx
    exact hh _ this
  simp only [hw] at h4
  constructor
  · have : ∀ i, P.b0 i * data.wtOf (P.elements.get i)
        = (d.get? (P.elements.get i)).getD 0 * data.wtOf (P.elements.get i)
        / ∑ k, (d.get? (P.elements.get k)).getD 0 * data.wtOf (P.elements.get k) := by
      intro i; rw [h4 i]; have := hne i; field_simp
    simp only [this]
    rw [← Finset.sum_div, div_self hsum]
  · refine ⟨1 / ∑ k, (d.get? (P.elements.get k)).getD 0 * data.wtOf (P.elements.get k),
      one_div_ne_zero hsum, fun i => ?_⟩
    rw [h4 i]
    have := hne i
    field_simp

/-- Non-vacuity: a hydrogen/oxygen data set accepts a hydrogen stream and keeps only `H2`. -/
example : ∃ P, mkProperties
      { products := [("H2", ⟨[("H", 2)], 2⟩), ("O2", ⟨[("O", 2)], 32⟩),
          ("H2O", ⟨[("H", 2), ("O", 1)], 18⟩)]
        elementWts := [("H", 1), ("O", 16)], reactants := [] } (some [("H", 1)]) = .ok P
    ∧ P.products.map Prod.fst = ["H2"] := by
  obtain ⟨P, hP⟩ := (C16_acceptance
      { products := [("H2", ⟨[("H", 2)], 2⟩), ("O2", ⟨[("O", 2)], 32⟩),
          ("H2O", ⟨[("H", 2), ("O", 1)], 18⟩)]
        elementWts := [("H", 1), ("O", 16)], reactants := [] }).2.2 [("H", 1)] (by
      intro e he
      simp only [PyDict.keys, List.map_cons, List.map_nil, List.mem_singleton] at he
      subst he
      refine ⟨⟨("H2", ⟨[("H", 2)], 2⟩), by simp, by simp [PyDict.keys]⟩, by simp [PyDict.keys]⟩)
  refine ⟨P, hP, ?_⟩
  rw [(mk_ok_full hP).1]
  simp [selectProducts, PyDict.keys]

end PyCycle
