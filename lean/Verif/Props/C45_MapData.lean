import Verif.Model.MapTables
import Verif.Lemmas.MapCheck
import Verif.Props.C36_MapScaling
import Mathlib.Topology.Order.IntermediateValue

/-! # C45: the shipped maps -/

namespace PyCycle.MapData

open Map

set_option maxRecDepth 10000

/-- The highest speed of a map. -/
def CTable.topN (t : CTable) : ℝ := ((t.N.getLastD 0 : ℚ) : ℝ)

/-- **C45 (well formed).** In every shipped map the axes increase strictly and have at least two nodes,
every table has one plane per `alpha`, one row per speed and one entry per third coordinate, the default
point lies on the grid with the default `alpha` its first node, and the stall line is the first line.
The turbine grids respect the bounds of the balance. -/
theorem C45_well_formed :
    (∀ t ∈ compressors, TabQ t.alpha t.N t.R t.W ∧ TabQ t.alpha t.N t.R t.eff
      ∧ TabQ t.alpha t.N t.R t.PR ∧ t.dAlpha = t.alpha.headD 0
      ∧ t.N.headD 0 ≤ t.dN ∧ t.dN ≤ t.N.getLastD 0 ∧ t.R.headD 0 ≤ t.dR ∧ t.dR ≤ t.R.getLastD 0
      ∧ t.stall = t.R.headD 0)
    ∧ (∀ t ∈ turbines, TabQ t.alpha t.N t.PR t.W ∧ TabQ t.alpha t.N t.PR t.eff
      ∧ t.dAlpha = t.alpha.headD 0
      ∧ t.N.headD 0 ≤ t.dN ∧ t.dN ≤ t.N.getLastD 0 ∧ t.PR.headD 0 ≤ t.dPR ∧ t.dPR ≤ t.PR.getLastD 0
      ∧ 1 / 10 ≤ t.N.headD 0 ∧ t.N.getLastD 0 ≤ 200 ∧ 101 / 100 ≤ t.PR.headD 0) := by
  constructor <;> decide +kernel

theorem span_of {l : List ℚ} {x : ℚ} (h1 : l.headD 0 ≤ x) (h2 : x ≤ l.getLastD 0) :
    Span (real l) (x : ℝ) := by
  refine ⟨?_, ?_⟩
  · rw [real_headD]; exact_mod_cast h1
  · rw [real_getLastD]; exact_mod_cast h2

/-- **C45 (default point in range).** -/
theorem C45_default_in_range :
    (∀ t ∈ compressors, t.InRange t.dAlpha t.dN t.dR ∧ t.InRange t.dAlpha t.dN t.map.RlineStall)
    ∧ (∀ t ∈ turbines, t.InRange t.dAlpha t.dN t.dPR ∧ TMap.inBounds t.dN t.dPR) := by
  have head_last : ∀ l : List ℚ, l.IsChain (· < ·) → 2 ≤ l.length → l.headD 0 ≤ l.getLastD 0 := by
    intro l hc h2
    match l, hc, h2 with
    | x :: y :: l, hc, _ =>
      have := List.isChain_iff_pairwise.1 hc
      rw [List.pairwise_cons] at this
      have hm : (x :: y :: l).getLastD 0 ∈ (y :: l) := by
        rw [show (x :: y :: l).getLastD 0 = (y :: l).getLast (by simp) by simp [List.getLastD]]
        exact List.getLast_mem _
      exact (this.1 _ hm).le
  refine ⟨fun t ht => ?_, fun t ht => ?_⟩
  · obtain ⟨T, -, -, ha, h1, h2, h3, h4, h5⟩ := C45_well_formed.1 t ht
    have hA : Span (real t.alpha) (t.dAlpha : ℝ) :=
      span_of ha.ge (ha.le.trans (head_last _ T.1 T.2.2.2.1))
    refine ⟨⟨hA, span_of h1 h2, span_of h3 h4⟩, hA, span_of h1 h2, ?_⟩
    exact span_of h5.ge (h5.le.trans (head_last _ T.2.2.1 T.2.2.2.2.2.1))
  · obtain ⟨T, -, ha, h1, h2, h3, h4, h5, h6, h7⟩ := C45_well_formed.2 t ht
    have hA : Span (real t.alpha) (t.dAlpha : ℝ) :=
      span_of ha.ge (ha.le.trans (head_last _ T.1 T.2.2.2.1))
    refine ⟨⟨hA, span_of h1 h2, span_of h3 h4⟩, ?_, ?_, ?_⟩
    · have : ((1 / 10 : ℚ) : ℝ) ≤ t.dN := by exact_mod_cast h5.trans h1
      push_cast at this; linarith
    · exact_mod_cast h2.trans h6
    · have : ((101 / 100 : ℚ) : ℝ) ≤ t.dPR := by exact_mod_cast h7.trans h3
      push_cast at this; linarith

/-- **C45 (bounds).** Wherever a shipped map can be read, the flow is positive; a compressor's pressure
ratio is at least one and its efficiency lies in `[0, 1)`; a turbine's efficiency in `(0, 1)`. -/
theorem C45_bounds :
    (∀ t ∈ compressors, ∀ a N R, t.InRange a N R →
      0 < t.map.W a N R ∧ 1 ≤ t.map.PR a N R ∧ 0 ≤ t.map.eff a N R ∧ t.map.eff a N R < 1)
    ∧ (∀ t ∈ turbines, ∀ a N P, t.InRange a N P →
      0 < t.map.W a N P ∧ 0 < t.map.eff a N P ∧ t.map.eff a N P < 1) := by
  have hC : ∀ t ∈ compressors,
      (∀ p ∈ t.W, ∀ row ∈ p, ∀ y ∈ row, 0 < y) ∧ (∀ p ∈ t.PR, ∀ row ∈ p, ∀ y ∈ row, 1 ≤ y)
      ∧ (∀ p ∈ t.eff, ∀ row ∈ p, ∀ y ∈ row, 0 ≤ y ∧ y < 1) := by decide +kernel
  have hT : ∀ t ∈ turbines,
      (∀ p ∈ t.W, ∀ row ∈ p, ∀ y ∈ row, 0 < y)
      ∧ (∀ p ∈ t.eff, ∀ row ∈ p, ∀ y ∈ row, 0 < y ∧ y < 1) := by decide +kernel
  refine ⟨fun t ht a N R h => ?_, fun t ht a N R h => ?_⟩
  · obtain ⟨TW, TE, TP, -⟩ := C45_well_formed.1 t ht
    obtain ⟨cW, cP, cE⟩ := hC t ht
    have w := lin3_mem (tab_real TW) (convex_Ioi (0 : ℝ)) h.1 h.2.1 h.2.2
      (real3_entries fun p hp row hr y hy => by
        have := cW p hp row hr y hy; simpa using this)
    have p := lin3_mem (tab_real TP) (convex_Ici (1 : ℝ)) h.1 h.2.1 h.2.2
      (real3_entries fun p hp row hr y hy => by
        have := cP p hp row hr y hy; simp only [Set.mem_Ici]; exact_mod_cast this)
    have e := lin3_mem (tab_real TE) (convex_Ico (0 : ℝ) 1) h.1 h.2.1 h.2.2
      (real3_entries fun p hp row hr y hy => by
        have := cE p hp row hr y hy
        exact ⟨by exact_mod_cast this.1, by exact_mod_cast this.2⟩)
    exact ⟨w, p, e.1, e.2⟩
  · obtain ⟨TW, TE, -⟩ := C45_well_formed.2 t ht
    obtain ⟨cW, cE⟩ := hT t ht
    have w := lin3_mem (tab_real TW) (convex_Ioi (0 : ℝ)) h.1 h.2.1 h.2.2
      (real3_entries fun p hp row hr y hy => by
        have := cW p hp row hr y hy; simpa using this)
    have e := lin3_mem (tab_real TE) (convex_Ioo (0 : ℝ) 1) h.1 h.2.1 h.2.2
      (real3_entries fun p hp row hr y hy => by
        have := cE p hp row hr y hy
        exact ⟨by exact_mod_cast this.1, by exact_mod_cast this.2⟩)
    exact ⟨w, e.1, e.2⟩

/-- **C45 (strict bounds).** Three of the compressor maps stay away from unit pressure ratio and zero
efficiency. -/
theorem C45_bounds_strict : ∀ t ∈ [HPCMap, axi32, axi5], ∀ a N R, t.InRange a N R →
    1 < t.map.PR a N R ∧ 0 < t.map.eff a N R := by
  have hC : ∀ t ∈ [HPCMap, axi32, axi5],
      (∀ p ∈ t.PR, ∀ row ∈ p, ∀ y ∈ row, 1 < y)
      ∧ (∀ p ∈ t.eff, ∀ row ∈ p, ∀ y ∈ row, 0 < y) := by decide +kernel
  have hm : ∀ t ∈ [HPCMap, axi32, axi5], t ∈ compressors := by
    intro t ht
    simp only [List.mem_cons, List.not_mem_nil, or_false] at ht
    rcases ht with rfl | rfl | rfl <;> simp [compressors]
  intro t ht a N R h
  obtain ⟨-, TE, TP, -⟩ := C45_well_formed.1 t (hm t ht)
  obtain ⟨cP, cE⟩ := hC t ht
  have p := lin3_mem (tab_real TP) (convex_Ioi (1 : ℝ)) h.1 h.2.1 h.2.2
    (real3_entries fun p hp row hr y hy => by
      have := cP p hp row hr y hy; simp only [Set.mem_Ioi]; exact_mod_cast this)
  have e := lin3_mem (tab_real TE) (convex_Ioi (0 : ℝ)) h.1 h.2.1 h.2.2
    (real3_entries fun p hp row hr y hy => by
      have := cE p hp row hr y hy; simp only [Set.mem_Ioi]; exact_mod_cast this)
  exact ⟨p, e⟩

/-- **C45 (degenerate entries).** The other three contain a readable point with zero efficiency and unit
pressure ratio: the compressor divides by that efficiency, and the point cannot be used for scaling. -/
theorem C45_refuted_strict : ∀ t ∈ [FanMap, LPCMap, ncp01], ∃ a N R, t.InRange a N R ∧
    t.map.PR a N R = 1 ∧ t.map.eff a N R = 0 ∧ ¬ Usable (t.map.at a N R) := by
  have key : ∀ (t : CTable) (a n r : ℚ),
      (t.alpha.headD 0 ≤ a ∧ a ≤ t.alpha.getLastD 0) ∧ (t.N.headD 0 ≤ n ∧ n ≤ t.N.getLastD 0)
      ∧ (t.R.headD 0 ≤ r ∧ r ≤ t.R.getLastD 0) ∧ lin3 t.alpha t.N t.R t.PR a n r = 1
      ∧ lin3 t.alpha t.N t.R t.eff a n r = 0 →
      ∃ a N R, t.InRange a N R ∧ t.map.PR a N R = 1 ∧ t.map.eff a N R = 0
        ∧ ¬ Usable (t.map.at a N R) := by
    rintro t a n r ⟨ha, hn, hr, hp, he⟩
    have e2 : t.map.eff a n r = 0 := by
      rw [show t.map.eff a n r = _ from lin3_real _ _ _ _ _ _ _, he]; simp
    refine ⟨a, n, r, ⟨span_of ha.1 ha.2, span_of hn.1 hn.2, span_of hr.1 hr.2⟩, ?_, e2, ?_⟩
    · rw [show t.map.PR a n r = _ from lin3_real _ _ _ _ _ _ _, hp]; simp
    · exact fun hu => hu.2.2.1 e2
  intro t ht
  simp only [List.mem_cons, List.not_mem_nil, or_false] at ht
  rcases ht with rfl | rfl | rfl
  · exact key FanMap 0 (3 / 10) 3 (by decide +kernel)
  · exact key LPCMap 0 (3 / 10) 3 (by decide +kernel)
  · exact key ncp01 0 (4 / 5) (16 / 5) (by decide +kernel)

/-- **C45 (flow and speed).** On every shipped compressor map, at fixed vane angle and line, the flow
increases strictly with speed. -/
theorem C45_speed_flow : ∀ t ∈ compressors, ∀ a R, Span (real t.alpha) a → Span (real t.R) R →
    StrictMonoOn (fun N => t.map.W a N R) {N | Span (real t.N) N} := by
  have hC : ∀ t ∈ compressors,
      ∀ p ∈ t.W, p.IsChain (fun row row' => below row row' = true) := by decide +kernel
  intro t ht a R ha hR N hN N' hN' h
  exact lin3_lt_n (tab_real (C45_well_formed.1 t ht).1) ha hN hN' hR (real3_planes (hC t ht)) h

/-- **C45 (flow along a speed line).** The flow does not decrease from the stall line towards choke, on
every shipped compressor map and speed, except on the top segment of `LPC_map`. -/
theorem C45_flow_line : ∀ t ∈ compressors, ∀ a N R R', t.InRange a N R → t.InRange a N R' →
    (t = LPCMap → N ≤ 1.1) → R ≤ R' → t.map.W a N R ≤ t.map.W a N R' := by
  intro t ht a N R R' h h' hx hle
  by_cases e : t = LPCMap
  · subst e
    have hN := hx rfl
    have T := (C45_well_formed.1 _ ht).1
    have TQ : TabQ LPCMap.alpha LPCMap.N.dropLast LPCMap.R (LPCMap.W.map List.dropLast) := by
      decide +kernel
    have ch : ∀ p ∈ LPCMap.W.map List.dropLast, ∀ row ∈ p, row.IsChain (· ≤ ·) := by
      decide +kernel
    have hlast : (real LPCMap.N.dropLast).getLastD 0 = 1.1 := by
      rw [real_getLastD, show LPCMap.N.dropLast.getLastD 0 = 11 / 10 by decide +kernel]; norm_num
    have hhead : (real LPCMap.N.dropLast).headD 0 = (real LPCMap.N).headD 0 := by
      rw [real_headD, real_headD]
      exact_mod_cast (show LPCMap.N.dropLast.headD 0 = LPCMap.N.headD 0 by decide +kernel)
    have hNs : Span (real LPCMap.N.dropLast) N := ⟨by rw [hhead]; exact h.2.1.1, by rw [hlast]; exact hN⟩
    have drop : ∀ r, LPCMap.map.W a N r = lin3 (real LPCMap.alpha) (real LPCMap.N.dropLast)
        (real LPCMap.R) (real3 (LPCMap.W.map List.dropLast)) a N r := by
      intro r
      change lin3 _ _ _ _ _ _ _ = _
      unfold lin3
      congr 1
      simp only [real3, List.map_map]
      refine List.map_congr_left fun p hp => ?_
      simp only [Function.comp]
      have hpl : p.length = LPCMap.N.length := T.2.2.2.2.2.2.2.1 p hp
      rw [lin_dropLast _ _ _ (tab_real T).nc (by simpa [real_length] using hpl)
        (by rw [real_length]; decide +kernel)]
      · congr 1
        · simp [real, List.map_dropLast]
      · rw [show (real LPCMap.N).dropLast = real LPCMap.N.dropLast by simp [real, List.map_dropLast],
          hlast]
        exact hN
    rw [drop, drop]
    exact lin3_mono_r (tab_real TQ) h.1 hNs h.2.2 h'.2.2 (real3_rows_le ch) hle
  · have hC : ∀ t ∈ [FanMap, HPCMap, axi32, axi5, ncp01],
        ∀ p ∈ t.W, ∀ row ∈ p, row.IsChain (· ≤ ·) := by decide +kernel
    have hm : t ∈ [FanMap, HPCMap, axi32, axi5, ncp01] := by
      simp only [compressors, List.mem_cons, List.not_mem_nil, or_false] at ht ⊢
      rcases ht with h | h | h | h | h | h
      · exact Or.inl h
      · exact Or.inr (Or.inl h)
      · exact absurd h e
      · exact Or.inr (Or.inr (Or.inl h))
      · exact Or.inr (Or.inr (Or.inr (Or.inl h)))
      · exact Or.inr (Or.inr (Or.inr (Or.inr h)))
    exact lin3_mono_r (tab_real (C45_well_formed.1 t ht).1) h.1 h.2.1 h.2.2 h'.2.2
      (real3_rows_le (hC t hm)) hle

/-- **C45 (off-design solutions).** Any two solutions of the compressor's map balance for the same
incoming speed and flow have the same map speed, and every line between their lines is a solution too:
the solution set is a segment of one speed line along which the flow is constant. -/
theorem C45_solutions : ∀ t ∈ compressors, ∀ (s : Q → ℝ) (a Nc Wc N₁ R₁ N₂ R₂ : ℝ),
    s .N ≠ 0 → s .W ≠ 0 → t.InRange a N₁ R₁ → t.InRange a N₂ R₂ → (t = LPCMap → N₁ ≤ 1.1) →
    t.map.residual s a Nc Wc N₁ R₁ = (0, 0) → t.map.residual s a Nc Wc N₂ R₂ = (0, 0) →
    N₁ = N₂ ∧ ∀ R, R₁ ≤ R → R ≤ R₂ → t.map.residual s a Nc Wc N₁ R = (0, 0) := by
  intro t ht s a Nc Wc N₁ R₁ N₂ R₂ hsN hsW h1 h2 hx e1 e2
  simp only [CMap.residual, CMap.offDesign, scaled, CMap.at, Prod.mk.injEq, sub_eq_zero] at e1 e2 ⊢
  have hN : N₁ = N₂ := mul_right_cancel₀ hsN (e1.1.symm.trans e2.1)
  subst hN
  refine ⟨rfl, fun R hR1 hR2 => ⟨e1.1, ?_⟩⟩
  have hW : t.map.W a N₁ R₁ = t.map.W a N₁ R₂ := mul_right_cancel₀ hsW (e1.2.symm.trans e2.2)
  have hr : t.InRange a N₁ R :=
    ⟨h1.1, h1.2.1, ⟨h1.2.2.1.trans hR1, hR2.trans h2.2.2.2⟩⟩
  have g1 := C45_flow_line t ht a N₁ R₁ R h1 hr hx hR1
  have g2 := C45_flow_line t ht a N₁ R R₂ hr h2 hx hR2
  have : t.map.W a N₁ R = t.map.W a N₁ R₁ := by linarith
  rw [this]; exact e1.2

/-- **C45 (constant-flow stall balance).** For every readable operating point the balance that finds the
stall speed at the same flow has at most one solution; it has one exactly when the flow does not exceed
the stall-line flow at the top speed. -/
theorem C45_stall_balance : ∀ t ∈ compressors, ∀ a N R, t.InRange a N R →
    (∀ n n', Span (real t.N) n → Span (real t.N) n' → t.map.smwResidual a N R n = 0 →
      t.map.smwResidual a N R n' = 0 → n = n')
    ∧ ((∃ n, Span (real t.N) n ∧ t.map.smwResidual a N R n = 0)
        ↔ t.map.W a N R ≤ t.map.W a t.topN t.map.RlineStall) := by
  intro t ht a N R h
  obtain ⟨T, -, -, ha, h1, h2, h3, h4, h5⟩ := C45_well_formed.1 t ht
  have hst : Span (real t.R) t.map.RlineStall := ((C45_default_in_range.1 t ht).2).2.2
  have mono := C45_speed_flow t ht a t.map.RlineStall h.1 hst
  have hle : (real t.N).headD 0 ≤ (real t.N).getLastD 0 := h.2.1.1.trans h.2.1.2
  have htop : Span (real t.N) t.topN := ⟨by rw [CTable.topN, ← real_getLastD]; exact hle,
    by rw [CTable.topN, ← real_getLastD]⟩
  have hbot : Span (real t.N) ((real t.N).headD 0) := ⟨le_rfl, hle⟩
  refine ⟨fun n n' hn hn' e e' => ?_, fun ⟨n, hn, e⟩ => ?_, fun hW => ?_⟩
  · simp only [CMap.smwResidual, sub_eq_zero] at e e'
    exact mono.injOn hn hn' (e.symm.trans e')
  · simp only [CMap.smwResidual, sub_eq_zero] at e
    rw [e]
    exact mono.monotoneOn hn htop (by rw [CTable.topN, ← real_getLastD]; exact hn.2)
  · have hc : Continuous fun n => t.map.W a n t.map.RlineStall :=
      lin3_continuous_n (tab_real T) h.1
    have low : t.map.W a ((real t.N).headD 0) t.map.RlineStall ≤ t.map.W a N R := by
      have hx : t = LPCMap → (real t.N).headD 0 ≤ 1.1 := by
        rintro rfl
        rw [real_headD, show LPCMap.N.headD 0 = 3 / 10 by decide +kernel]; norm_num
      have hs : t.map.RlineStall ≤ R := by
        have := h.2.2.1
        rw [real_headD] at this
        change ((t.stall : ℚ) : ℝ) ≤ R
        rw [h5]; exact this
      have g1 := C45_flow_line t ht a _ _ R ⟨h.1, hbot, hst⟩ ⟨h.1, hbot, h.2.2⟩ hx hs
      have g2 := (C45_speed_flow t ht a R h.1 h.2.2).monotoneOn hbot h.2.1 h.2.1.1
      exact g1.trans g2
    have hle' : (real t.N).headD 0 ≤ t.topN := htop.1
    obtain ⟨n, hn, e⟩ := intermediate_value_Icc hle' hc.continuousOn ⟨low, hW⟩
    refine ⟨n, ⟨hn.1, by rw [real_getLastD]; exact hn.2⟩, ?_⟩
    simp only [CMap.smwResidual, sub_eq_zero]
    exact e.symm

/-- **C45 (the stall balance can have no solution).** At the top speed of the default compressor map, on
its design line, there is no stall speed of equal flow on the map. -/
theorem C45_refuted_stall_balance : ncp01.InRange 0 1.15 2 ∧
    ¬ ∃ n, Span (real ncp01.N) n ∧ ncp01.map.smwResidual 0 1.15 2 n = 0 := by
  have hr : ncp01.InRange ((0 : ℚ) : ℝ) ((23 / 20 : ℚ) : ℝ) ((2 : ℚ) : ℝ) :=
    ⟨span_of (by decide +kernel) (by decide +kernel), span_of (by decide +kernel) (by decide +kernel),
      span_of (by decide +kernel) (by decide +kernel)⟩
  have e1 : ((23 / 20 : ℚ) : ℝ) = 1.15 := by norm_num
  rw [e1] at hr
  push_cast at hr
  refine ⟨hr, ?_⟩
  rw [(C45_stall_balance ncp01 (by simp [compressors]) 0 1.15 2 hr).2, not_le]
  have a1 : ncp01.map.W ((0 : ℚ) : ℝ) ((23 / 20 : ℚ) : ℝ) ((2 : ℚ) : ℝ) = _ := lin3_real _ _ _ _ _ _ _
  have a2 : ncp01.map.W ((0 : ℚ) : ℝ) ((ncp01.N.getLastD 0 : ℚ) : ℝ) ((ncp01.stall : ℚ) : ℝ) = _ :=
    lin3_real _ _ _ _ _ _ _
  rw [e1] at a1
  push_cast at a1
  rw [Rat.cast_zero] at a2
  change ncp01.map.W 0 ncp01.topN ncp01.map.RlineStall = _ at a2
  rw [a1, a2]
  exact_mod_cast (show lin3 ncp01.alpha ncp01.N ncp01.R ncp01.W 0 (ncp01.N.getLastD 0) ncp01.stall
    < lin3 ncp01.alpha ncp01.N ncp01.R ncp01.W 0 (23 / 20) 2 by decide +kernel)

/-! ## Design point recovery -/

/-- **C45 (compressor design point).** For every shipped compressor map: the default map point can be used
for scaling, and when the map is run off-design at the design speed and flow, the default point is the
only readable solution, so the design pressure ratio and efficiency come back. -/
theorem C45_design_compressor : ∀ t ∈ compressors,
    Usable (t.map.at t.dAlpha t.dN t.dR)
    ∧ ∀ des : Q → ℝ, des .N ≠ 0 → des .W ≠ 0 → ∀ N R, t.InRange t.dAlpha N R →
      (t.map.residual (t.map.design t.dAlpha t.dN t.dR des) t.dAlpha (des .N) (des .W) N R = (0, 0)
        ↔ N = t.dN ∧ R = t.dR) := by
  have hU : ∀ t ∈ compressors, t.dN ≠ 0 ∧ lin3 t.alpha t.N t.R t.PR t.dAlpha t.dN t.dR ≠ 1
      ∧ lin3 t.alpha t.N t.R t.eff t.dAlpha t.dN t.dR ≠ 0
      ∧ lin3 t.alpha t.N t.R t.W t.dAlpha t.dN t.dR ≠ 0 := by decide +kernel
  have hP : ∀ t ∈ compressors, ∃ i w, PeakQ t.alpha t.N t.R t.W t.dAlpha t.dN t.dR i w := by
    intro t ht
    simp only [compressors, List.mem_cons, List.not_mem_nil, or_false] at ht
    rcases ht with rfl | rfl | rfl | rfl | rfl | rfl
    · exact ⟨9, 4 / 5, by decide +kernel⟩
    · exact ⟨9, 1 / 25, by decide +kernel⟩
    · exact ⟨10, 0, by decide +kernel⟩
    · exact ⟨7, 0, by decide +kernel⟩
    · exact ⟨7, 0, by decide +kernel⟩
    · exact ⟨7, 0, by decide +kernel⟩
  intro t ht
  obtain ⟨u1, u2, u3, u4⟩ := hU t ht
  have hu : Usable (t.map.at t.dAlpha t.dN t.dR) := by
    refine ⟨?_, ?_, ?_, ?_⟩
    · change ((t.dN : ℚ) : ℝ) ≠ 0; exact_mod_cast u1
    · change lin3 _ _ _ _ _ _ _ ≠ (1 : ℝ); rw [lin3_real]; exact_mod_cast u2
    · change lin3 _ _ _ _ _ _ _ ≠ (0 : ℝ); rw [lin3_real]; exact_mod_cast u3
    · change lin3 _ _ _ _ _ _ _ ≠ (0 : ℝ); rw [lin3_real]; exact_mod_cast u4
  refine ⟨hu, fun des hN hW N R hr => ⟨fun h => ?_, ?_⟩⟩
  · have hv1 : (t.dN : ℝ) ≠ 0 := hu.1
    have hv4 : t.map.W t.dAlpha t.dN t.dR ≠ 0 := hu.2.2.2
    simp only [CMap.residual, CMap.offDesign, CMap.design, scaled, scalars, CMap.at,
      Prod.mk.injEq] at h
    obtain ⟨e1, e2⟩ := h
    have a1 : N = t.dN := by
      field_simp at e1
      rw [mul_zero] at e1
      have := (mul_eq_zero.1 e1).resolve_left hN
      linarith
    subst a1
    refine ⟨rfl, ?_⟩
    have a2 : t.map.W t.dAlpha t.dN R = t.map.W t.dAlpha t.dN t.dR := by
      field_simp at e2
      rw [mul_zero] at e2
      have := (mul_eq_zero.1 e2).resolve_left hW
      linarith
    obtain ⟨i, w, hp⟩ := hP t ht
    exact peak_inj (C45_well_formed.1 t ht).1 hp (C45_default_in_range.1 t ht).1.2.2 hr.2.2 a2
  · rintro ⟨rfl, rfl⟩
    exact (C36_compressor t.map t.dAlpha t.dN t.dR des hu).2.1

/-- **C45 (turbine design point).** The same for two of the turbine maps. -/
theorem C45_design_turbine : ∀ t ∈ [LPTMap, lpt2269],
    Usable (t.map.at t.dAlpha t.dN t.dPR)
    ∧ ∀ des : Q → ℝ, des .N ≠ 0 → des .W ≠ 0 → ∀ N P, t.InRange t.dAlpha N P →
      (t.map.residual (t.map.design t.dAlpha t.dN t.dPR des) t.dAlpha (des .N) (des .W) N P = (0, 0)
        ↔ N = t.dN ∧ P = t.dPR) := by
  have hU : ∀ t ∈ [LPTMap, lpt2269], t.dN ≠ 0 ∧ t.dPR ≠ 1
      ∧ lin3 t.alpha t.N t.PR t.eff t.dAlpha t.dN t.dPR ≠ 0
      ∧ lin3 t.alpha t.N t.PR t.W t.dAlpha t.dN t.dPR ≠ 0 := by decide +kernel
  have hP : ∀ t ∈ [LPTMap, lpt2269], PeakQ t.alpha t.N t.PR t.W t.dAlpha t.dN t.dPR 4 0 := by
    decide +kernel
  have hm : ∀ t ∈ [LPTMap, lpt2269], t ∈ turbines := by
    intro t ht
    simp only [List.mem_cons, List.not_mem_nil, or_false] at ht
    rcases ht with rfl | rfl <;> simp [turbines]
  intro t ht
  obtain ⟨u1, u2, u3, u4⟩ := hU t ht
  have hu : Usable (t.map.at t.dAlpha t.dN t.dPR) := by
    refine ⟨?_, ?_, ?_, ?_⟩
    · change ((t.dN : ℚ) : ℝ) ≠ 0; exact_mod_cast u1
    · change ((t.dPR : ℚ) : ℝ) ≠ 1; exact_mod_cast u2
    · change lin3 _ _ _ _ _ _ _ ≠ (0 : ℝ); rw [lin3_real]; exact_mod_cast u3
    · change lin3 _ _ _ _ _ _ _ ≠ (0 : ℝ); rw [lin3_real]; exact_mod_cast u4
  refine ⟨hu, fun des hN hW N P hr => ⟨fun h => ?_, ?_⟩⟩
  · have hv1 : (t.dN : ℝ) ≠ 0 := hu.1
    have hv4 : t.map.W t.dAlpha t.dN t.dPR ≠ 0 := hu.2.2.2
    simp only [TMap.residual, TMap.offDesign, TMap.design, scaled, scalars, TMap.at,
      Prod.mk.injEq] at h
    obtain ⟨e1, e2⟩ := h
    have a1 : N = t.dN := by
      field_simp at e1
      rw [mul_zero] at e1
      have := (mul_eq_zero.1 e1).resolve_left hN
      linarith
    subst a1
    refine ⟨rfl, ?_⟩
    have a2 : t.map.W t.dAlpha t.dN P = t.map.W t.dAlpha t.dN t.dPR := by
      field_simp at e2
      rw [mul_zero] at e2
      have := (mul_eq_zero.1 e2).resolve_left hW
      linarith
    exact peak_inj (C45_well_formed.2 t (hm t ht)).1 (hP t ht)
      (C45_default_in_range.2 t (hm t ht)).1.2.2 hr.2.2 a2
  · rintro ⟨rfl, rfl⟩
    exact (C36_turbine t.map t.dAlpha t.dN t.dPR des hu).2.1

/-- **C45 (turbine flow).** On every shipped turbine map the flow does not decrease with pressure ratio. -/
theorem C45_turbine_flow : ∀ t ∈ turbines, ∀ a N P P', t.InRange a N P → t.InRange a N P' → P ≤ P' →
    t.map.W a N P ≤ t.map.W a N P' := by
  have hC : ∀ t ∈ turbines, ∀ p ∈ t.W, ∀ row ∈ p, row.IsChain (· ≤ ·) := by decide +kernel
  intro t ht a N P P' h h' hle
  exact lin3_mono_r (tab_real (C45_well_formed.2 t ht).1) h.1 h.2.1 h.2.2 h'.2.2
    (real3_rows_le (hC t ht)) hle

/-- Flow on a stretch with equal end values is constant. -/
theorem flat_of_ends (t : TTable) (ht : t ∈ turbines) {a N P₁ P₂ P : ℝ} (h1 : t.InRange a N P₁)
    (h2 : t.InRange a N P₂) (e : t.map.W a N P₁ = t.map.W a N P₂) (l1 : P₁ ≤ P) (l2 : P ≤ P₂) :
    t.map.W a N P = t.map.W a N P₁ := by
  have hr : t.InRange a N P := ⟨h1.1, h1.2.1, h1.2.2.1.trans l1, l2.trans h2.2.2.2⟩
  have g1 := C45_turbine_flow t ht a N P₁ P h1 hr l1
  have g2 := C45_turbine_flow t ht a N P P₂ hr h2 l2
  linarith

/-- **C45 (`HPT_map` does not fix the pressure ratio).** At its default vane position the flow of
`HPT_map` does not depend on the pressure ratio at any speed: whatever the scalars and the incoming speed
and flow, if one readable pressure ratio solves the map balance then all of them do, while the delivered
pressure ratios differ. -/
theorem C45_refuted_HPT (s : Q → ℝ) (Np Wp N P P' : ℝ) (h : HPTMap.InRange HPTMap.dAlpha N P)
    (h' : HPTMap.InRange HPTMap.dAlpha N P') :
    HPTMap.map.W HPTMap.dAlpha N P = HPTMap.map.W HPTMap.dAlpha N P'
    ∧ (HPTMap.map.residual s HPTMap.dAlpha Np Wp N P = (0, 0)
        ↔ HPTMap.map.residual s HPTMap.dAlpha Np Wp N P' = (0, 0))
    ∧ (s .PR ≠ 0 → P ≠ P' → HPTMap.map.offDesign s HPTMap.dAlpha N P .PR
        ≠ HPTMap.map.offDesign s HPTMap.dAlpha N P' .PR) := by
  have ht : HPTMap ∈ turbines := by simp [turbines]
  have T := (C45_well_formed.2 _ ht).1
  have hflat : ∀ row ∈ HPTMap.W.headD [], ∀ y ∈ row, y = row.headD 0 := by decide +kernel
  have hmem : HPTMap.W.headD [] ∈ HPTMap.W := by decide +kernel
  have key : ∀ r, Span (real HPTMap.PR) r → HPTMap.map.W HPTMap.dAlpha N r
      = lin (real HPTMap.N) (((real3 HPTMap.W).headD []).map fun row => row.headD 0) N := by
    intro r hr
    have hW : HPTMap.W = HPTMap.W.headD [] :: HPTMap.W.tail := by decide +kernel
    have hA : HPTMap.alpha = [1, 2] := rfl
    have hdA : HPTMap.dAlpha = 1 := rfl
    have hTl : ∃ q, HPTMap.W.tail = [q] := ⟨_, rfl⟩
    obtain ⟨q, hq⟩ := hTl
    change lin3 _ _ _ _ _ _ _ = _
    unfold lin3
    rw [hW, hq, hA, hdA]
    simp only [real, real3, List.map_cons, List.map_nil, List.headD_cons, List.map_map]
    rw [lin_head _ _ _ _ _ _ (by norm_num)]
    congr 1
    refine List.map_congr_left fun row hrow => ?_
    simp only [Function.comp]
    have hl : (real row).length = (real HPTMap.PR).length := by
      rw [real_length, real_length]; exact T.2.2.2.2.2.2.2.2 _ hmem _ hrow
    have := lin_mem (convex_singleton ((real row).headD 0)) (tab_real T).r2 (tab_real T).rc hr hl
      (fun y hy => by
        obtain ⟨z, hz, rfl⟩ := List.mem_map.1 hy
        rw [real_headD, ← hflat row hrow z hz]; rfl)
    exact this
  have e : HPTMap.map.W HPTMap.dAlpha N P = HPTMap.map.W HPTMap.dAlpha N P' := by
    rw [key P h.2.2, key P' h'.2.2]
  refine ⟨e, ?_, ?_⟩
  · simp only [TMap.residual, TMap.offDesign, scaled, TMap.at, e]
  · intro hs hne hc
    simp only [TMap.offDesign, scaled, TMap.at] at hc
    apply hne
    have := mul_right_cancel₀ hs (add_right_cancel hc)
    linarith

/-- **C45 (`hpt1269` does not fix the design pressure ratio).** At the default speed of `hpt1269` every
map pressure ratio from 5.5 to 8 (the default is 6) solves the balance at the design inputs, so running
off-design at the design speed and flow need not return the design pressure ratio. -/
theorem C45_refuted_hpt1269 (des : Q → ℝ) (P : ℝ) (h1 : 5.5 ≤ P) (h2 : P ≤ 8) :
    hpt1269.map.residual (hpt1269.map.design hpt1269.dAlpha hpt1269.dN hpt1269.dPR des)
      hpt1269.dAlpha (des .N) (des .W) hpt1269.dN P = (0, 0)
    ∧ (des .PR ≠ 1 → P ≠ hpt1269.dPR →
      hpt1269.map.offDesign (hpt1269.map.design hpt1269.dAlpha hpt1269.dN hpt1269.dPR des)
        hpt1269.dAlpha hpt1269.dN P .PR ≠ des .PR) := by
  have ht : hpt1269 ∈ turbines := by simp [turbines]
  obtain ⟨hA, hN, hP⟩ := (C45_default_in_range.2 _ ht).1
  have r1 : hpt1269.InRange hpt1269.dAlpha hpt1269.dN ((11 / 2 : ℚ) : ℝ) :=
    ⟨hA, hN, span_of (by decide +kernel) (by decide +kernel)⟩
  have r2 : hpt1269.InRange hpt1269.dAlpha hpt1269.dN ((8 : ℚ) : ℝ) :=
    ⟨hA, hN, span_of (by decide +kernel) (by decide +kernel)⟩
  have ends : hpt1269.map.W hpt1269.dAlpha hpt1269.dN ((11 / 2 : ℚ) : ℝ)
      = hpt1269.map.W hpt1269.dAlpha hpt1269.dN ((8 : ℚ) : ℝ) := by
    change lin3 _ _ _ _ _ _ _ = lin3 _ _ _ _ _ _ _
    rw [lin3_real, lin3_real]
    exact_mod_cast (show lin3 hpt1269.alpha hpt1269.N hpt1269.PR hpt1269.W hpt1269.dAlpha hpt1269.dN
      (11 / 2) = lin3 hpt1269.alpha hpt1269.N hpt1269.PR hpt1269.W hpt1269.dAlpha hpt1269.dN 8 by
        decide +kernel)
  have hd : ((hpt1269.dPR : ℚ) : ℝ) = 6 := by
    rw [show hpt1269.dPR = 6 from rfl]; norm_num
  have f1 := flat_of_ends _ ht r1 r2 ends (P := P) (by push_cast; linarith) (by push_cast; linarith)
  have f2 := flat_of_ends _ ht r1 r2 ends (P := hpt1269.dPR) (by rw [hd]; push_cast; norm_num)
    (by rw [hd]; push_cast; norm_num)
  have e : hpt1269.map.W hpt1269.dAlpha hpt1269.dN P
      = hpt1269.map.W hpt1269.dAlpha hpt1269.dN hpt1269.dPR := by rw [f1, f2]
  have pos := (C45_bounds.2 _ ht _ _ _ (C45_default_in_range.2 _ ht).1).1
  have hNz : ((hpt1269.dN : ℚ) : ℝ) ≠ 0 := by rw [show hpt1269.dN = 100 from rfl]; norm_num
  refine ⟨?_, ?_⟩
  · simp only [TMap.residual, TMap.offDesign, TMap.design, scaled, scalars, TMap.at, e,
      Prod.mk.injEq, sub_eq_zero]
    constructor
    · field_simp
    · field_simp
  · intro hdes hne hc
    simp only [TMap.offDesign, TMap.design, scaled, scalars, TMap.at, hd] at hc
    apply hne
    rw [hd]
    have h' : des .PR - 1 ≠ 0 := sub_ne_zero.2 hdes
    have : (P - 6) * (des .PR - 1) = 0 := by linarith
    have := (mul_eq_zero.1 this).resolve_right h'
    linarith

/-- **C45 (off-design line not unique).** On the default compressor map, on the 100 % speed line, every
line from 2.4 to 3.2 solves the map balance for the same incoming speed and flow, with different
delivered pressure ratios. -/
theorem C45_refuted_unique (s : Q → ℝ) (R : ℝ) (h1 : 2.4 ≤ R) (h2 : R ≤ 3.2) :
    ncp01.map.residual s 0 (1 * s .N) (ncp01.map.W 0 1 2.4 * s .W) 1 R = (0, 0)
    ∧ (s .PR ≠ 0 → ncp01.map.offDesign s 0 1 2.4 .PR ≠ ncp01.map.offDesign s 0 1 3.2 .PR) := by
  have ht : ncp01 ∈ compressors := by simp [compressors]
  have c1 : ((12 / 5 : ℚ) : ℝ) = 2.4 := by norm_num
  have c2 : ((16 / 5 : ℚ) : ℝ) = 3.2 := by norm_num
  have hr : ∀ q : ℚ, ncp01.R.headD 0 ≤ q → q ≤ ncp01.R.getLastD 0 → ncp01.InRange 0 1 (q : ℝ) := by
    intro q hq1 hq2
    have : ncp01.InRange ((0 : ℚ) : ℝ) ((1 : ℚ) : ℝ) (q : ℝ) :=
      ⟨span_of (by decide +kernel) (by decide +kernel), span_of (by decide +kernel) (by decide +kernel),
        span_of hq1 hq2⟩
    simpa using this
  have r1 : ncp01.InRange 0 1 2.4 := by rw [← c1]; exact hr _ (by decide +kernel) (by decide +kernel)
  have r2 : ncp01.InRange 0 1 3.2 := by rw [← c2]; exact hr _ (by decide +kernel) (by decide +kernel)
  have rR : ncp01.InRange 0 1 R := ⟨r1.1, r1.2.1, r1.2.2.1.trans h1, h2.trans r2.2.2.2⟩
  have hx : ncp01 = LPCMap → (1 : ℝ) ≤ 1.1 := fun _ => by norm_num
  have ev : ∀ q : ℚ, ncp01.map.W 0 1 (q : ℝ)
      = ((lin3 ncp01.alpha ncp01.N ncp01.R ncp01.W 0 1 q : ℚ) : ℝ) := fun q => by
    have := lin3_real ncp01.alpha ncp01.N ncp01.R ncp01.W 0 1 q
    rw [Rat.cast_zero, Rat.cast_one] at this
    exact this
  have evP : ∀ q : ℚ, ncp01.map.PR 0 1 (q : ℝ)
      = ((lin3 ncp01.alpha ncp01.N ncp01.R ncp01.PR 0 1 q : ℚ) : ℝ) := fun q => by
    have := lin3_real ncp01.alpha ncp01.N ncp01.R ncp01.PR 0 1 q
    rw [Rat.cast_zero, Rat.cast_one] at this
    exact this
  have ends : ncp01.map.W 0 1 2.4 = ncp01.map.W 0 1 3.2 := by
    rw [← c1, ← c2, ev, ev]
    exact_mod_cast (show lin3 ncp01.alpha ncp01.N ncp01.R ncp01.W 0 1 (12 / 5)
      = lin3 ncp01.alpha ncp01.N ncp01.R ncp01.W 0 1 (16 / 5) by decide +kernel)
  have g1 := C45_flow_line _ ht _ _ _ _ r1 rR hx h1
  have g2 := C45_flow_line _ ht _ _ _ _ rR r2 hx h2
  have e : ncp01.map.W 0 1 R = ncp01.map.W 0 1 2.4 := by linarith
  refine ⟨by simp only [CMap.residual, CMap.offDesign, scaled, CMap.at, e, sub_self], fun hs hc => ?_⟩
  simp only [CMap.offDesign, scaled, CMap.at] at hc
  have := mul_right_cancel₀ hs (add_right_cancel hc)
  rw [← c1, ← c2, evP, evP] at this
  have ne : lin3 ncp01.alpha ncp01.N ncp01.R ncp01.PR 0 1 (12 / 5)
      ≠ lin3 ncp01.alpha ncp01.N ncp01.R ncp01.PR 0 1 (16 / 5) := by decide +kernel
  apply ne
  exact_mod_cast (sub_left_inj.1 this)

/-! ## Stall margins -/

theorem rows_lt_head {as ns rs : List ℝ} {t : List (List (List ℝ))} (T : Tab as ns rs t) {a r r' : ℝ}
    (k : ℕ) (hk : k + 1 < ns.length) (ha : Span as a) (hr : Span rs r) (hr' : Span rs r')
    (h : ∀ p ∈ t, (p.getD (k + 1) []).IsChain (· < ·)) (hlt : r < r') :
    lin3 as ns rs t a (ns.getD (k + 1) 0) r < lin3 as ns rs t a (ns.getD (k + 1) 0) r' := by
  refine lin_lt_lin T.a2 T.ac ha (by simpa using T.tl) (forall₂_map_map fun p hp => ?_)
  have hp' := T.pl p hp
  rw [lin_node _ _ _ T.n2 T.nc (by simpa using hp') hk, lin_node _ _ _ T.n2 T.nc (by simpa using hp') hk]
  have hg : ∀ r, (p.map fun row => lin rs row r).getD (k + 1) 0 = lin rs (p.getD (k + 1) []) r := fun r => by
    rw [List.getD_eq_getElem _ _ (by simp; omega), List.getD_eq_getElem _ _ (by omega)]; simp
  rw [hg, hg]
  refine lin_strictMono T.rc (h p hp) ?_ T.r2 hr hr' hlt
  rw [List.getD_eq_getElem _ _ (by omega)]
  exact T.rl p hp _ (List.getElem_mem _)

theorem real3_getD_row {t : List (List (List ℚ))} {k : ℕ}
    (h : ∀ p ∈ t, (p.getD k []).IsChain (· < ·)) :
    ∀ p ∈ real3 t, (p.getD k []).IsChain (· < ·) := by
  intro p hp
  obtain ⟨p, hp', rfl⟩ := List.mem_map.1 hp
  have e : (p.map real).getD k [] = real (p.getD k []) := by
    simp only [List.getD_eq_getElem?_getD, List.getElem?_map]
    cases p[k]? <;> simp [real]
  rw [e]
  exact real_chain_lt (h p hp')

/-- **C45 (`LPC_map` top line is reversed).** On the 1.15 speed line of `LPC_map` the flow falls and the
pressure ratio rises from the stall line towards choke, so every operating point on that line off the
stall line is reported with a negative constant-speed stall margin. -/
theorem C45_refuted_LPC_top (a R : ℝ) (ha : Span (real LPCMap.alpha) a) (hR : Span (real LPCMap.R) R)
    (hst : 1 < R) (NSMW : ℝ) :
    LPCMap.map.W a 1.15 R < LPCMap.map.W a 1.15 LPCMap.map.RlineStall
    ∧ LPCMap.map.PR a 1.15 LPCMap.map.RlineStall < LPCMap.map.PR a 1.15 R
    ∧ LPCMap.map.margins a 1.15 R NSMW .SMN < 0 := by
  have ht : LPCMap ∈ compressors := by simp [compressors]
  obtain ⟨TW, TE, TP, -⟩ := C45_well_formed.1 _ ht
  have hN : (1.15 : ℝ) = (real LPCMap.N).getD (12 + 1) 0 := by
    rw [real_getD, show LPCMap.N.getD (12 + 1) 0 = 23 / 20 by decide +kernel]; norm_num
  have hS : LPCMap.map.RlineStall = 1 := by
    change ((LPCMap.stall : ℚ) : ℝ) = 1
    rw [show LPCMap.stall = 1 from rfl]; norm_num
  have sS : Span (real LPCMap.R) 1 := by
    have := ((C45_default_in_range.1 _ ht).2).2.2
    rwa [hS] at this
  have hlen : 12 + 1 < (real LPCMap.N).length := by rw [real_length]; decide +kernel
  have cP : ∀ p ∈ LPCMap.PR, (p.getD (12 + 1) []).IsChain (· < ·) := by decide +kernel
  let negW : List (List (List ℚ)) := LPCMap.W.map fun p => p.map fun row => row.map fun y => -y
  have cW : ∀ p ∈ negW, (p.getD (12 + 1) []).IsChain (· < ·) := by decide +kernel
  have TN : TabQ LPCMap.alpha LPCMap.N LPCMap.R negW := by decide +kernel
  have spanN : Span (real LPCMap.N) 1.15 := by
    rw [show (1.15 : ℝ) = ((23 / 20 : ℚ) : ℝ) by norm_num]
    exact span_of (by decide +kernel) (by decide +kernel)
  have neg3 : real3 negW = (real3 LPCMap.W).map fun p => p.map fun row => row.map fun y => -y := by
    simp only [negW, real3, real, List.map_map]
    refine List.map_congr_left fun p _ => ?_
    simp only [Function.comp, List.map_map]
    refine List.map_congr_left fun row _ => ?_
    simp only [real, Function.comp, List.map_map]
    refine List.map_congr_left fun y _ => ?_
    simp
  have p := rows_lt_head (tab_real TP) 12 hlen ha sS hR (real3_getD_row cP) hst
  have w := rows_lt_head (tab_real TN) 12 hlen ha sS hR (real3_getD_row cW) hst
  rw [← hN] at p w
  rw [neg3, lin3_neg (tab_real TW) ha spanN sS, lin3_neg (tab_real TW) ha spanN hR] at w
  have w' : LPCMap.map.W a 1.15 R < LPCMap.map.W a 1.15 1 := by
    change lin3 _ _ _ _ _ _ _ < lin3 _ _ _ _ _ _ _
    linarith
  have p' : LPCMap.map.PR a 1.15 1 < LPCMap.map.PR a 1.15 R := p
  rw [hS]
  refine ⟨w', p', ?_⟩
  obtain ⟨b1, b2, -⟩ := C45_bounds.1 _ ht a 1.15 R ⟨ha, spanN, hR⟩
  obtain ⟨b3, b4, -⟩ := C45_bounds.1 _ ht a 1.15 1 ⟨ha, spanN, sS⟩
  simp only [CMap.margins, stall, hS]
  have q1 : LPCMap.map.W a 1.15 R / LPCMap.map.W a 1.15 1 < 1 := (div_lt_one b3).2 w'
  have q2 : 1 < LPCMap.map.PR a 1.15 R / LPCMap.map.PR a 1.15 1 := (one_lt_div (by linarith)).2 p'
  have : LPCMap.map.W a 1.15 R / LPCMap.map.W a 1.15 1
      / (LPCMap.map.PR a 1.15 R / LPCMap.map.PR a 1.15 1) < 1 := by
    rw [div_lt_one (by linarith)]; linarith
  linarith

/-- **C45 (stall margin of `HPC_map`).** On every readable point of `HPC_map` the constant-speed stall
margin is non-negative. -/
theorem C45_HPC_margin (a N R NSMW : ℝ) (h : HPCMap.InRange a N R) :
    0 ≤ HPCMap.map.margins a N R NSMW .SMN := by
  have ht : HPCMap ∈ compressors := by simp [compressors]
  obtain ⟨TW, TE, TP, -⟩ := C45_well_formed.1 _ ht
  have hne : HPCMap = LPCMap → N ≤ 1.1 := fun e => by
    have : HPCMap.dN = LPCMap.dN := by rw [e]
    exact absurd this (by decide +kernel)
  have hS : HPCMap.map.RlineStall = 1 := by
    change ((HPCMap.stall : ℚ) : ℝ) = 1
    rw [show HPCMap.stall = 1 from rfl]; norm_num
  have sS : Span (real HPCMap.R) 1 := by
    have := ((C45_default_in_range.1 _ ht).2).2.2
    rwa [hS] at this
  have hR1 : 1 ≤ R := by
    have := h.2.2.1
    rw [real_headD, show HPCMap.R.headD 0 = 1 by decide +kernel] at this
    simpa using this
  have w := C45_flow_line _ ht a N 1 R ⟨h.1, h.2.1, sS⟩ h hne hR1
  let negP : List (List (List ℚ)) := HPCMap.PR.map fun p => p.map fun row => row.map fun y => -y
  have cP : ∀ p ∈ negP, ∀ row ∈ p, row.IsChain (· ≤ ·) := by decide +kernel
  have TN : TabQ HPCMap.alpha HPCMap.N HPCMap.R negP := by decide +kernel
  have neg3 : real3 negP = (real3 HPCMap.PR).map fun p => p.map fun row => row.map fun y => -y := by
    simp only [negP, real3, real, List.map_map]
    refine List.map_congr_left fun p _ => ?_
    simp only [Function.comp, List.map_map]
    refine List.map_congr_left fun row _ => ?_
    simp only [real, Function.comp, List.map_map]
    refine List.map_congr_left fun y _ => ?_
    simp
  have p := lin3_mono_r (tab_real TN) h.1 h.2.1 sS h.2.2 (real3_rows_le cP) hR1
  rw [neg3, lin3_neg (tab_real TP) h.1 h.2.1 sS, lin3_neg (tab_real TP) h.1 h.2.1 h.2.2] at p
  have p' : HPCMap.map.PR a N R ≤ HPCMap.map.PR a N 1 := by
    change lin3 _ _ _ _ _ _ _ ≤ lin3 _ _ _ _ _ _ _
    linarith
  obtain ⟨b1, b2, -⟩ := C45_bounds.1 _ ht a N R h
  obtain ⟨b3, b4, -⟩ := C45_bounds.1 _ ht a N 1 ⟨h.1, h.2.1, sS⟩
  simp only [CMap.margins, stall, hS]
  have q1 : 1 ≤ HPCMap.map.W a N R / HPCMap.map.W a N 1 := (one_le_div b3).2 w
  have q2 : HPCMap.map.PR a N R / HPCMap.map.PR a N 1 ≤ 1 := (div_le_one (by linarith)).2 p'
  have q3 : 0 < HPCMap.map.PR a N R / HPCMap.map.PR a N 1 := div_pos (by linarith) (by linarith)
  have : 1 ≤ HPCMap.map.W a N R / HPCMap.map.W a N 1
      / (HPCMap.map.PR a N R / HPCMap.map.PR a N 1) := by
    rw [le_div_iff₀ q3]; linarith
  linarith

end PyCycle.MapData
