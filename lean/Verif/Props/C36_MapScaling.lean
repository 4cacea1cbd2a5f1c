import Verif.Model.Maps
import Verif.Lemmas.HasD

/-! # C36: map scaling -/

namespace PyCycle.Map

/-- A map point usable for scaling: nonzero speed, efficiency and flow, and pressure ratio not one. -/
def Usable (v : Q → ℝ) : Prop := v .N ≠ 0 ∧ v .PR ≠ 1 ∧ v .eff ≠ 0 ∧ v .W ≠ 0

/-- **C36 (components).** The scalars found from a machine point and a usable map point, applied to
that map point, return the machine point in all four quantities. -/
theorem C36_components (des v : Q → ℝ) (hv : Usable v) :
    scaled (fun | .map q => v q | .s q => scalars (fun | .val q => des q | .map q => v q) q) = des := by
  obtain ⟨h1, h2, h3, h4⟩ := hv
  have h2' : v .PR - 1 ≠ 0 := sub_ne_zero.2 h2
  funext q
  cases q <;> simp only [scaled, scalars] <;> field_simp
  ring

/-- **C36 (compressor).** Running the map off-design with the scalars found at design: at the design
map point both balance residuals vanish and the outputs are the design pressure ratio and efficiency.
If, on the design speed line, flow identifies the map line, this is the only solution. -/
theorem C36_compressor (m : CMap) (alpha N R : ℝ) (des : Q → ℝ) (hv : Usable (m.at alpha N R)) :
    m.offDesign (m.design alpha N R des) alpha N R = des
    ∧ m.residual (m.design alpha N R des) alpha (des .N) (des .W) N R = (0, 0)
    ∧ (Function.Injective (m.W alpha N) → des .N ≠ 0 → des .W ≠ 0 → ∀ N' R',
        m.residual (m.design alpha N R des) alpha (des .N) (des .W) N' R' = (0, 0) →
        N' = N ∧ R' = R) := by
  have h0 : m.offDesign (m.design alpha N R des) alpha N R = des := C36_components des _ hv
  refine ⟨h0, by simp only [CMap.residual, h0, sub_self], fun hi hN hW N' R' h => ?_⟩
  have hv1 : N ≠ 0 := hv.1
  have hv4 : m.W alpha N R ≠ 0 := hv.2.2.2
  simp only [CMap.residual, CMap.offDesign, CMap.design, scaled, scalars, CMap.at,
    Prod.mk.injEq] at h
  obtain ⟨e1, e2⟩ := h
  have a1 : N' = N := by
    field_simp at e1
    rw [mul_zero] at e1
    have := (mul_eq_zero.1 e1).resolve_left hN
    linarith
  subst a1
  refine ⟨rfl, ?_⟩
  have a2 : m.W alpha N' R' = m.W alpha N' R := by
    field_simp at e2
    rw [mul_zero] at e2
    have := (mul_eq_zero.1 e2).resolve_left hW
    linarith
  exact hi a2

/-- **C36 (turbine).** The same for the turbine map, whose second coordinate is the pressure ratio;
the solution respects the declared bounds exactly when the design map point does. -/
theorem C36_turbine (m : TMap) (alpha N PR : ℝ) (des : Q → ℝ) (hv : Usable (m.at alpha N PR)) :
    m.offDesign (m.design alpha N PR des) alpha N PR = des
    ∧ m.residual (m.design alpha N PR des) alpha (des .N) (des .W) N PR = (0, 0)
    ∧ (Function.Injective (m.W alpha N) → des .N ≠ 0 → des .W ≠ 0 → ∀ N' PR',
        m.residual (m.design alpha N PR des) alpha (des .N) (des .W) N' PR' = (0, 0) →
        N' = N ∧ PR' = PR ∧ (TMap.inBounds N' PR' ↔ TMap.inBounds N PR)) := by
  have h0 : m.offDesign (m.design alpha N PR des) alpha N PR = des := C36_components des _ hv
  refine ⟨h0, by simp only [TMap.residual, h0, sub_self], fun hi hN hW N' R' h => ?_⟩
  have hv1 : N ≠ 0 := hv.1
  have hv4 : m.W alpha N PR ≠ 0 := hv.2.2.2
  simp only [TMap.residual, TMap.offDesign, TMap.design, scaled, scalars, TMap.at,
    Prod.mk.injEq] at h
  obtain ⟨e1, e2⟩ := h
  have a1 : N' = N := by
    field_simp at e1
    rw [mul_zero] at e1
    have := (mul_eq_zero.1 e1).resolve_left hN
    linarith
  subst a1
  have a2 : m.W alpha N' R' = m.W alpha N' PR := by
    field_simp at e2
    rw [mul_zero] at e2
    have := (mul_eq_zero.1 e2).resolve_left hW
    linarith
  have a3 := hi a2
  subst a3
  exact ⟨rfl, rfl, Iff.rfl⟩

/-- **C36 (turbine bounds).** States within the bounds declared for the turbine's balance have a positive
speed of at most 200 and a pressure ratio above one, so they are usable for scaling on any map with
nonzero efficiency and flow; and a speed of 0.1 or 200, or a pressure ratio of 1.01, is still allowed. -/
theorem C36_turbine_bounds (m : TMap) (alpha N PR : ℝ) (h : TMap.inBounds N PR)
    (he : m.eff alpha N PR ≠ 0) (hw : m.W alpha N PR ≠ 0) :
    0 < N ∧ N ≤ 200 ∧ 1 < PR ∧ Usable (m.at alpha N PR)
    ∧ TMap.inBounds 0.1 PR ∧ TMap.inBounds 200 PR ∧ TMap.inBounds N 1.01 := by
  obtain ⟨h1, h2, h3⟩ := h
  have p1 : 0 < N := by linarith
  have p2 : 1 < PR := by linarith
  exact ⟨p1, h2, p2, ⟨p1.ne', p2.ne', he, hw⟩, ⟨by norm_num, by norm_num, h3⟩,
    ⟨by norm_num, by norm_num, h3⟩, ⟨h1, h2, le_rfl⟩⟩

/-- **C36 (degenerate map point).** At a map pressure ratio of one the scaled pressure ratio is one
whatever the scalars, so the round trip fails for every design pressure ratio but one. -/
theorem C36_refuted_unit_PR (m : CMap) (alpha N R : ℝ) (des : Q → ℝ) (h : m.PR alpha N R = 1) :
    m.offDesign (m.design alpha N R des) alpha N R .PR = des .PR ↔ des .PR = 1 := by
  simp only [CMap.offDesign, scaled, CMap.at, h]
  constructor
  · intro h; linarith
  · intro h; rw [h]; ring

/-- **C36 (shape).** With positive scalars, scaling keeps the order of two map points in every
quantity, and keeps pressure ratio one fixed. -/
theorem C36_order (v w s : Q → ℝ) (hs : ∀ q, 0 < s q) (q : Q) :
    (scaled (fun | .map q => v q | .s q => s q) q < scaled (fun | .map q => w q | .s q => s q) q
      ↔ v q < w q)
    ∧ (scaled (fun | .map q => v q | .s q => s q) .PR = 1 ↔ v .PR = 1) := by
  have h := hs q
  refine ⟨?_, ?_⟩
  · cases q <;> simp only [scaled] <;> simp [h]
  · simp only [scaled]
    have := (hs .PR).ne'
    simp [this, sub_eq_zero]

/-- **C36 (partials).** -/
theorem C36_partials (x : MI → ℝ) (hx : Usable fun q => x (.map q)) (y : VI → ℝ) :
    ExactPartials scalars scalarsJC x ∧ ExactPartials scalars scalarsJT x
    ∧ ExactPartials scaled scaledJ y := by
  obtain ⟨h1, h2, h3, h4⟩ := hx
  simp only at h1 h2 h3 h4
  have h2' : x (.map .PR) - 1 ≠ 0 := sub_ne_zero.2 h2
  refine ⟨?_, ?_, ?_⟩
  · intro o i
    cases o <;> rcases i with i | i <;> cases i <;>
      simp only [scalars, scalarsJC, zpow_neg, Function.update_of_ne, Function.update_self, ne_eq, reduceCtorEq,
        not_false_eq_true, MI.val.injEq, MI.map.injEq] <;>
      hd (assumption) (fring)
  · intro o i
    cases o <;> rcases i with i | i <;> cases i <;>
      simp only [scalars, scalarsJT, Function.update_of_ne, Function.update_self, ne_eq, reduceCtorEq,
        not_false_eq_true, MI.val.injEq, MI.map.injEq] <;>
      hd (assumption) (fring)
  · intro o i
    cases o <;> rcases i with i | i <;> cases i <;>
      simp only [scaled, scaledJ, Function.update_of_ne, Function.update_self, ne_eq, reduceCtorEq,
        not_false_eq_true, VI.map.injEq, VI.s.injEq] <;>
      hd (assumption) (fring)

/-- **C36 (stall margins).** On the stall line both margins are zero (the constant-flow one at the
solution `NSMW = N` of its balance); with positive map values, `SMN` is positive exactly when the
operating point has a larger flow-to-pressure ratio than the stall point, and `SMW` exactly when the
stall pressure ratio at the same flow is higher. -/
theorem C36_stall (m : CMap) (alpha N R NSMW : ℝ)
    (hP : ∀ N R, 0 < m.PR alpha N R) (hW : ∀ N R, 0 < m.W alpha N R) :
    (R = m.RlineStall → m.margins alpha N R N .SMN = 0 ∧ m.margins alpha N R N .SMW = 0
        ∧ m.smwResidual alpha N R N = 0)
    ∧ (0 < m.margins alpha N R NSMW .SMN ↔
        m.W alpha N m.RlineStall / m.PR alpha N m.RlineStall < m.W alpha N R / m.PR alpha N R)
    ∧ (0 < m.margins alpha N R NSMW .SMW ↔ m.PR alpha N R < m.PR alpha NSMW m.RlineStall)
    ∧ m.PR alpha NSMW m.RlineStall
        = m.PR alpha N R * (1 + m.margins alpha N R NSMW .SMW / 100) := by
  have p1 := hP N R
  have p2 := hP N m.RlineStall
  have w1 := hW N R
  have w2 := hW N m.RlineStall
  refine ⟨?_, ?_, ?_, ?_⟩
  · rintro rfl
    simp only [CMap.margins, stall, CMap.smwResidual, sub_self, zero_div, zero_mul, and_true]
    rw [div_self w2.ne', div_self p2.ne']; simp
  · simp only [CMap.margins, stall]
    rw [mul_pos_iff_of_pos_right (by norm_num), sub_pos, lt_div_iff₀ (by positivity), one_mul,
      div_lt_div_iff₀ p2 w2, div_lt_div_iff₀ p2 p1]
    constructor <;> intro h <;> linarith
  · simp only [CMap.margins, stall]
    rw [mul_pos_iff_of_pos_right (by norm_num), div_pos_iff_of_pos_right p1, sub_pos]
  · simp only [CMap.margins, stall]
    field_simp
    ring

/-- **C36 (stall partials).** -/
theorem C36_stall_partials (x : SI → ℝ) (h1 : x .PR_actual ≠ 0) (h2 : x .PR_SMN ≠ 0)
    (h3 : x .Wc_SMN ≠ 0) : ExactPartials stall stallJ x := by
  have h4 : x .PR_actual / x .PR_SMN ≠ 0 := div_ne_zero h1 h2
  intro o i
  cases o <;> cases i <;>
    simp only [stall, stallJ, Function.update_of_ne, Function.update_self, ne_eq, reduceCtorEq,
      not_false_eq_true] <;>
    hd (assumption) (fring)

/-- The constant-flow margin in terms of the pressure ratios the machine actually delivers. -/
noncomputable def scaledSMW (sPR PRstall PR : ℝ) : ℝ :=
  (((PRstall - 1) * sPR + 1) - ((PR - 1) * sPR + 1)) / ((PR - 1) * sPR + 1) * 100

/-- **C36 (margins are those of the unscaled map).** The reported margin is computed from unscaled map
values. It has the sign of the margin of the scaled machine, but equals it only when the pressure
scalar is one or the point is on the stall line. -/
theorem C36_refuted_stall_scaled (m : CMap) (alpha N R NSMW sPR : ℝ) (hs : 0 < sPR)
    (hP : 1 ≤ m.PR alpha N R) :
    (0 < m.margins alpha N R NSMW .SMW ↔
      0 < scaledSMW sPR (m.PR alpha NSMW m.RlineStall) (m.PR alpha N R))
    ∧ (m.margins alpha N R NSMW .SMW
        = scaledSMW sPR (m.PR alpha NSMW m.RlineStall) (m.PR alpha N R)
      ↔ sPR = 1 ∨ m.PR alpha NSMW m.RlineStall = m.PR alpha N R) := by
  simp only [CMap.margins, stall, scaledSMW]
  generalize m.PR alpha N R = p at *
  generalize m.PR alpha NSMW m.RlineStall = q
  have hp : 0 < p := by linarith
  have hd : 0 < (p - 1) * sPR + 1 := by nlinarith
  have e : ((q - 1) * sPR + 1) - ((p - 1) * sPR + 1) = sPR * (q - p) := by ring
  rw [e]
  refine ⟨?_, ?_⟩
  · rw [mul_pos_iff_of_pos_right (by norm_num), mul_pos_iff_of_pos_right (by norm_num),
      div_pos_iff_of_pos_right hp, div_pos_iff_of_pos_right hd, mul_pos_iff_of_pos_left hs]
  · rw [mul_left_inj' (by norm_num), div_eq_div_iff hp.ne' hd.ne']
    constructor
    · intro h
      have : (q - p) * (1 - sPR) = 0 := by linarith
      rcases mul_eq_zero.1 this with h | h
      · right; linarith
      · left; linarith
    · rintro (h | h)
      · rw [h]; ring
      · rw [h]; ring

/-- A concrete usable map point and its round trip. -/
example : Usable (CMap.at ⟨fun _ N R => 1 + N * (3 - R), fun _ _ _ => 0.9, fun _ N R => N + R, 1⟩ 0 1 2) := by
  refine ⟨?_, ?_, ?_, ?_⟩ <;> norm_num [CMap.at]

example : Function.Injective
    ((⟨fun _ N R => 1 + N * (3 - R), fun _ _ _ => 0.9, fun _ N R => N + R, 1⟩ : CMap).W 0 1) := by
  intro a b h; simpa using h

end PyCycle.Map
