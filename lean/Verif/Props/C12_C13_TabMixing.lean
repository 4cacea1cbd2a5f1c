import Verif.Model.TabThermoAdd
import Verif.Model.CeaThermoAdd
import Mathlib.Tactic.Ring
import Mathlib.Tactic.FieldSimp
import Mathlib.Tactic.NormNum
import Mathlib.Tactic.Linarith
import Mathlib.Algebra.BigOperators.Field

/-! # C12, C13: tabular mixing, and agreement of the two methods -/

namespace PyCycle
open Finset

/-! ## Specification: what a stream of the tabular method contains -/

/-- Mass of dry air in a stream of flow rate `W` whose additive-to-air ratios are `c`: the
unique number with `air * (1 + Σ c) = W` when `1 + Σ c ≠ 0`. -/
noncomputable def airMass {n : Nat} (W : ℝ) (c : Fin n → ℝ) : ℝ := W / (1 + ∑ i, c i)

/-- Mass of additive `i`. -/
noncomputable def additiveMass {n : Nat} (W : ℝ) (c : Fin n → ℝ) (i : Fin n) : ℝ :=
  airMass W c * c i

/-- The specification is meaningful: air and additives add up to the stream. -/
theorem C12_spec_adds_up {n : Nat} (W : ℝ) (c : Fin n → ℝ) (h : 1 + ∑ i, c i ≠ 0) :
    airMass W c + ∑ i, additiveMass W c i = W := by
  simp only [additiveMass, ← Finset.mul_sum, airMass]
  field_simp

private theorem reactant_fold {n : Nat} (W : ℝ) (compo : Fin n → ℝ) (idx : Fin n)
    (rs : List TabReactant) (a : TabAcc n) :
    let r := rs.foldl (fun a r =>
      let Wm := tabReactantW W compo r
      { a with
        other := fun i => if i = idx then a.other i + Wm else a.other i
        W := a.W + Wm
        hW := a.hW + Wm * r.h }) a
    (∀ i, r.other i = a.other i
      + (if i = idx then (rs.map (fun r => tabReactantW W compo r)).sum else 0))
    ∧ r.W = a.W + (rs.map (fun r => tabReactantW W compo r)).sum
    ∧ r.hW = a.hW + (rs.map (fun r => tabReactantW W compo r * r.h)).sum
    ∧ r.air = a.air := by
  induction rs generalizing a with
  | nil => simp
  | cons r rs ih =>
    simp only [List.foldl_cons, List.map_cons, List.sum_cons]
    obtain ⟨h1, h2, h3, h4⟩ := ih { a with
        other := fun i => if i = idx then a.other i + tabReactantW W compo r else a.other i
        W := a.W + tabReactantW W compo r
        hW := a.hW + tabReactantW W compo r * r.h }
    refine ⟨fun i => ?_, ?_, ?_, ?_⟩
    · rw [h1 i]; by_cases hi : i = idx
      · simp only [hi, if_true]; ring
      · simp only [hi, if_false]
    · rw [h2]; simp only; ring
    · rw [h3]; simp only; ring
    · rw [h4]

/-- **C12 (injection).** Tabular reactant mode: each injected flow is `ratio` times the *air* in
the inflow; total mass, air mass and the mass of each additive are conserved (the injected mass
goes to additive `idx`), and enthalpy is mass-averaged. -/
theorem C12_tab_injection {n : Nat} (W h : ℝ) (compo : Fin n → ℝ) (idx : Fin n)
    (rs : List TabReactant) (hc : 1 + ∑ i, compo i ≠ 0) (hW : W ≠ 0)
    (hout : W + (rs.map (fun r => airMass W compo * r.ratio)).sum ≠ 0) :
    let o := tabReactantCompute W h compo idx rs
    (∀ r, tabReactantW W compo r = airMass W compo * r.ratio)
    ∧ o.W = W + (rs.map (fun r => airMass W compo * r.ratio)).sum
    ∧ airMass o.W o.comp = airMass W compo
    ∧ (∀ i, additiveMass o.W o.comp i = additiveMass W compo i
        + if i = idx then (rs.map (fun r => airMass W compo * r.ratio)).sum else 0)
    ∧ o.W * o.h = W * h + (rs.map (fun r => airMass W compo * r.ratio * r.h)).sum := by
  have hair : airMass W compo ≠ 0 := by unfold airMass; exact div_ne_zero hW hc
  obtain ⟨h1, h2, h3, -⟩ := reactant_fold W compo idx rs (tabStart W h compo)
  have hWr : ∀ r, tabReactantW W compo r = airMass W compo * r.ratio := fun r => rfl
  simp only [hWr] at h1 h2 h3
  intro o
  have hoW : o.W = W + (rs.map (fun r => airMass W compo * r.ratio)).sum := h2
  have hocomp : ∀ i, o.comp i = compo i
      + (if i = idx then (rs.map (fun r => airMass W compo * r.ratio)).sum else 0)
        / airMass W compo := by
    intro i
    show (_ : ℝ) / tabAir W compo = _
    have : tabAir W compo = airMass W compo := rfl
    have := h1 i
    simp only [tabStart] at this
    rw [show tabAir W compo = airMass W compo from rfl]
    rw [show tabAir W compo = airMass W compo from rfl] at this
    refine (congrArg (· / airMass W compo) this).trans ?_
    field_simp
  have hoair : airMass o.W o.comp = airMass W compo := by
    have hsum : 1 + ∑ i, o.comp i = (1 + ∑ i, compo i) + (rs.map (fun r => airMass W compo * r.ratio)).sum / airMass W compo := by
      simp only [hocomp, Finset.sum_add_distrib, ← Finset.sum_div]
      simp
      ring
    have hw' : W = airMass W compo * (1 + ∑ i, compo i) := by unfold airMass; field_simp
    have : o.W = airMass W compo * (1 + ∑ i, o.comp i) := by
      rw [hoW, hsum]
      conv_lhs => rw [hw']
      field_simp
      rw [← hw']
    have hne : 1 + ∑ i, o.comp i ≠ 0 := by
      intro h0; rw [h0, mul_zero, hoW] at this; exact hout this
    conv_lhs => rw [airMass, this]
    field_simp
  refine ⟨hWr, hoW, hoair, ?_, ?_⟩
  · intro i
    rw [additiveMass, hoair, hocomp i, additiveMass]
    field_simp
  · show o.W * (_ / o.W) = _
    have hne : o.W ≠ 0 := by rw [hoW]; exact hout
    rw [mul_div_cancel₀ _ hne]
    exact h3

private theorem flow_fold {n : Nat} (ss : List (TabStream n)) (a : TabAcc n) :
    let r := ss.foldl (fun a s =>
      ({ other := fun i => a.other i + tabAir s.W s.comp * s.comp i
         W := a.W + s.W
         air := a.air + tabAir s.W s.comp
         hW := a.hW + s.W * s.h } : TabAcc n)) a
    (∀ i, r.other i = a.other i + (ss.map (fun s => tabAir s.W s.comp * s.comp i)).sum)
    ∧ r.W = a.W + (ss.map (fun s => s.W)).sum
    ∧ r.air = a.air + (ss.map (fun s => tabAir s.W s.comp)).sum
    ∧ r.hW = a.hW + (ss.map (fun s => s.W * s.h)).sum := by
  induction ss generalizing a with
  | nil => simp
  | cons s ss ih =>
    simp only [List.foldl_cons, List.map_cons, List.sum_cons]
    obtain ⟨h1, h2, h3, h4⟩ := ih
      { other := fun i => a.other i + tabAir s.W s.comp * s.comp i
        W := a.W + s.W
        air := a.air + tabAir s.W s.comp
        hW := a.hW + s.W * s.h }
    refine ⟨fun i => ?_, ?_, ?_, ?_⟩
    · rw [h1 i]; simp only; ring
    · rw [h2]; simp only; ring
    · rw [h3]; simp only; ring
    · rw [h4]; simp only; ring

private theorem listsum_adds_up {n : Nat} (ss : List (TabStream n))
    (hs : ∀ s ∈ ss, 1 + ∑ i, s.comp i ≠ 0) :
    (ss.map (fun s => airMass s.W s.comp)).sum
      + ∑ i, (ss.map (fun s => additiveMass s.W s.comp i)).sum = (ss.map (fun s => s.W)).sum := by
  induction ss with
  | nil => simp
  | cons s ss ih =>
    have h1 := C12_spec_adds_up s.W s.comp (hs s List.mem_cons_self)
    have h2 := ih (fun t ht => hs t (List.mem_cons_of_mem _ ht))
    simp only [List.map_cons, List.sum_cons, Finset.sum_add_distrib]
    linarith

/-- **C12 (mixing).** Tabular flow mode: total mass, air mass and the mass of each additive out
equal the sums over all streams, and enthalpy is mass-averaged. -/
theorem C12_tab_mixing {n : Nat} (W h : ℝ) (compo : Fin n → ℝ) (ss : List (TabStream n))
    (hc : 1 + ∑ i, compo i ≠ 0) (hs : ∀ s ∈ ss, 1 + ∑ i, s.comp i ≠ 0)
    (hair : airMass W compo + (ss.map (fun s => airMass s.W s.comp)).sum ≠ 0)
    (hout : W + (ss.map (fun s => s.W)).sum ≠ 0) :
    let o := tabFlowCompute W h compo ss
    o.W = W + (ss.map (fun s => s.W)).sum
    ∧ airMass o.W o.comp = airMass W compo + (ss.map (fun s => airMass s.W s.comp)).sum
    ∧ (∀ i, additiveMass o.W o.comp i
        = additiveMass W compo i + (ss.map (fun s => additiveMass s.W s.comp i)).sum)
    ∧ o.W * o.h = W * h + (ss.map (fun s => s.W * s.h)).sum := by
  obtain ⟨h1, h2, h3, h4⟩ := flow_fold ss (tabStart W h compo)
  intro o
  have hoW : o.W = W + (ss.map (fun s => s.W)).sum := h2
  set A := airMass W compo + (ss.map (fun s => airMass s.W s.comp)).sum with hA
  have hocomp : ∀ i, o.comp i
      = (additiveMass W compo i + (ss.map (fun s => additiveMass s.W s.comp i)).sum) / A := by
    intro i
    have e1 := h1 i
    have e3 := h3
    show (_ : ℝ) / _ = _
    exact congrArg₂ (· / ·) e1 e3
  have hsum : o.W = A * (1 + ∑ i, o.comp i) := by
    simp only [hocomp, ← Finset.sum_div, Finset.sum_add_distrib]
    have a1 := C12_spec_adds_up W compo hc
    have a2 := listsum_adds_up ss hs
    rw [hoW, mul_add, mul_div_cancel₀ _ hair]
    linarith
  have hne : 1 + ∑ i, o.comp i ≠ 0 := by
    intro h0; rw [h0, mul_zero, hoW] at hsum; exact hout hsum
  have hoair : airMass o.W o.comp = A := by
    conv_lhs => rw [airMass, hsum]
    field_simp
  refine ⟨hoW, hoair, ?_, ?_⟩
  · intro i
    rw [additiveMass, hoair, hocomp i]
    field_simp
  · show o.W * (_ / o.W) = _
    have hne : o.W ≠ 0 := by rw [hoW]; exact hout
    rw [mul_div_cancel₀ _ hne]
    exact h4

/-- Non-vacuity of C12: 100 lbm/s of air-and-fuel (FAR 0.02) mixed with 50 lbm/s of clean air. -/
example : (1 : ℝ) + ∑ i : Fin 1, (fun _ => 0.02 : Fin 1 → ℝ) i ≠ 0
    ∧ airMass 100 (fun _ => 0.02 : Fin 1 → ℝ)
      + ([⟨fun _ => 0, 50, 3⟩] : List (TabStream 1)).foldr (fun s x => airMass s.W s.comp + x) 0 ≠ 0
    ∧ (100 : ℝ) + ([⟨fun _ => 0, 50, 3⟩] : List (TabStream 1)).foldr (fun s x => s.W + x) 0 ≠ 0 := by
  simp [airMass]; norm_num

/-- **C13 is false.** With fuel already present in the inflow (fuel-to-air ratio 0.02) the same
mix ratio 0.03 makes the two methods inject different fuel flows: CEA takes the ratio of the
total inflow, TABULAR of the air in it. -/
theorem C13_refuted :
    ¬ ∀ (W : ℝ) (n : Nat) (compo : Fin n → ℝ) (ratio : ℝ), 0 < W → (∀ i, 0 ≤ compo i) →
      tabReactantW W compo ⟨ratio, 0⟩ = reactantW W (fun _ => ratio) "fuel" := by
  intro hall
  have := hall 100 1 (fun _ => 0.02) 0.03 (by norm_num) (by intro i; norm_num)
  simp [tabReactantW, tabAir, reactantW] at this
  norm_num at this

/-- **C13 (exact relation).** The CEA fuel flow is `1 + Σ compo` times the TABULAR one; so for a
positive inflow and positive ratio the two agree iff the inflow carries no net additive. -/
theorem C13_far_ratio_partial {n : Nat} (W : ℝ) (compo : Fin n → ℝ) (ratio : ℝ) (name : String)
    (hc : 1 + ∑ i, compo i ≠ 0) (hh : ℝ) :
    reactantW W (fun _ => ratio) name = (1 + ∑ i, compo i) * tabReactantW W compo ⟨ratio, hh⟩
    ∧ (W ≠ 0 → ratio ≠ 0 →
        (reactantW W (fun _ => ratio) name = tabReactantW W compo ⟨ratio, hh⟩
          ↔ ∑ i, compo i = 0)) := by
  have h1 : reactantW W (fun _ => ratio) name
      = (1 + ∑ i, compo i) * tabReactantW W compo ⟨ratio, hh⟩ := by
    simp only [reactantW, tabReactantW, tabAir]; field_simp
  refine ⟨h1, fun hW hr => ?_⟩
  have h2 : tabReactantW W compo ⟨ratio, hh⟩ ≠ 0 := by
    simp only [tabReactantW, tabAir]; exact mul_ne_zero (div_ne_zero hW hc) hr
  rw [h1]
  constructor
  · intro h
    have : (1 + ∑ i, compo i) = 1 := by
      apply mul_right_cancel₀ h2; rw [h, one_mul]
    linarith
  · intro h; rw [h]; ring

end PyCycle
