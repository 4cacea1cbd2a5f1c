import Verif.Proofs.CoolingNames
import Verif.Props.C32_Cooling
import Verif.Props.C10_C11_CeaMixing
import Verif.Props.C12_C13_TabMixing

/-! # C64: turbine cooling as a whole element, for any number of stages -/

namespace PyCycle.OM

open Cooling

/-- **C64 (interface).** With at least one stage the wiring is accepted. -/
theorem C64_interface (gas : (ℕ → ℝ) → TPGas) (a : FlowAdder) (o : CoolOpt) (own : Bool) (h0 : o.n_stages ≠ 0) :
    (turbineCooling gas a o own).wiring.Accepted := accepted gas a own h0

/-- The variable that carries a quantity into row `i`: of the turbine's inlet for the first row, of the row before it
for the others. -/
def feed (first prev : String) : ℕ → String
  | 0 => first
  | i + 1 => rowName i ++ "." ++ prev

/-- What row `i` does with the stream `W`, `T`, `h` that enters it, `c` being the composition it delivers. -/
structure CooledRow (gas : (ℕ → ℝ) → TPGas) (o : CoolOpt) (E : Env) (i : ℕ) (W T h : ℝ) : Prop where
  /-- no coolant where the gas is colder than the metal may be -/
  cold : Cool.hotGas i o.T_safety T < o.T_metal → E.num (rowName i ++ ".W_cool") = 0
  /-- the coolant of a hot row -/
  cooled : ∀ G, G = Cool.hotGas i o.T_safety T → o.T_metal ≤ G → E.num "Fl_cool:tot:T" < o.T_metal →
    E.num (rowName i ++ ".W_cool") = 0.022 * (4 / 3) * E.num "x_factor" * W
      * (((G - o.T_metal) + (if i = 0 then 0.3 else 0.13) * (G - E.num "Fl_cool:tot:T"))
          / (o.T_metal - E.num "Fl_cool:tot:T")) ^ (1.25 : ℝ)
  mass : E.num (rowName i ++ ".W_out") = W + E.num (rowName i ++ ".W_cool")
  /-- mass-averaged enthalpy less the work of a rotor -/
  enthalpy : E.num (rowName i ++ ".Fl_O:tot:h")
    = (W * h + E.num (rowName i ++ ".W_cool") * E.num "Fl_cool:tot:h") / (W + E.num (rowName i ++ ".W_cool"))
      - (if i % 2 = 0 then 0 else E.num "turb_pwr" / o.n_stages) / W
  /-- the rows of the last stage are at the turbine's inlet pressure, all others at its exit pressure -/
  pressure : E.num (rowName i ++ ".Fl_O:tot:P")
    = if 2 * o.n_stages - 2 ≤ i then E.num "Fl_turb_I:tot:P" else E.num "Fl_turb_O:tot:P"
  /-- the station behind the row is a state of the mixed gas -/
  state : StateOf (gas (E.vec (rowName i ++ ".Fl_O:tot:composition"))) E (rowName i ++ ".Fl_O:tot")

/-! ## One row -/

private theorem row_links :
    (rowW.subs.map (·.name)).Nodup
    ∧ (∀ v ∈ ["turb_pwr", "Pt_in", "Pt_out", "x_factor", "W_primary", "Tt_primary", "Tt_cool", "ht_primary", "ht_cool"],
        rowW.inSrc "cooling_calcs" v = v)
    ∧ rowW.outOf "cooling_calcs" "W_cool" = "W_cool"
    ∧ rowW.inSrc "mixed_flow" "h" = rowW.outOf "cooling_calcs" "ht_out"
    ∧ rowW.inSrc "mixed_flow" "P" = rowW.outOf "cooling_calcs" "Pt_stage"
    ∧ rowW.inSrc "mixed_flow" "composition" = "mix_n.composition_out"
    ∧ rowW.outOf "mix_n" "composition_out" = "mix_n.composition_out"
    ∧ rowW.outOf "mix_n" "Wout" = "W_out"
    ∧ rowW.inSrc "mix_n" "Fl_I:stat:W" = "W_primary" ∧ rowW.inSrc "mix_n" "cool:W" = "W_cool"
    ∧ rowW.inSrc "mix_n" "Fl_I:tot:composition" = "composition_primary"
    ∧ rowW.inSrc "mix_n" "cool:composition" = "cool:composition"
    ∧ rowW.Reports "mixed_flow" "Fl_O:tot" .total_hP := by decide +kernel

/-- A converged row, in its own names. -/
private theorem row_says (gas : (ℕ → ℝ) → TPGas) (a : FlowAdder) (o : Cool.Opt) (E : Env)
    (hc : (coolRow gas a o).Converged E) :
    E.num "W_cool" = Cool.compute o (coolingIn E) .W_cool
    ∧ E.num "W_out" = E.num "W_primary" + E.num "W_cool"
    ∧ E.num "Fl_O:tot:h" = Cool.compute o (coolingIn E) .ht_out
    ∧ E.num "Fl_O:tot:P" = Cool.compute o (coolingIn E) .Pt_stage
    ∧ StateOf (gas (E.vec "Fl_O:tot:composition")) E "Fl_O:tot"
    ∧ E.vec "Fl_O:tot:composition" = E.vec "mix_n.composition_out" := by
  obtain ⟨hn, l1, l2, l3, l4, l5, l6, l7, l8, l9, l10, l11, l12⟩ := row_links
  have hw := row_wiring gas a o
  have c := hc.sub hw hn 0 (coolingCalcsSub o) rfl "cooling_calcs" rfl
  have hin : coolingIn (rowW.rd E "cooling_calcs") = coolingIn E := by
    funext v
    cases v <;> simp only [coolingIn, Wiring.rd] <;> rw [l1 _ (by decide)]
  simp only [coolingCalcsSub, hin] at c
  obtain ⟨c1, c2, c3⟩ := c
  simp only [Wiring.wr, l2] at c1 c2 c3
  have t := hc.station hw hn 3 (gas := gas) (name := "mixed_flow") (m := .total_hP) (fl := "Fl_O:tot") rfl l12
  have t1 := t.state
  obtain ⟨t2, t3⟩ := t.hp rfl
  have t4 := t.comp rfl
  simp only [Wiring.rd, l3, l4, l5, Env.at, String.reduceAppend] at t1 t2 t3 t4
  have m := hc.sub hw hn 2 (coolAddSub a) rfl "mix_n" rfl
  refine ⟨c1, ?_, t2.trans c3, t3.trans c2, by rw [t4]; exact t1, t4⟩
  cases a with
  | cea pin pmix pst =>
    simp only [coolAddSub] at m
    have m := m.2.1
    simp only [Wiring.rd, Wiring.wr, l7, l8, l9] at m
    exact m
  | tab n =>
    simp only [coolAddSub] at m
    have m := m.2.1
    simp only [Wiring.rd, Wiring.wr, l7, l8, l9] at m
    exact m

private theorem row_tab (gas : (ℕ → ℝ) → TPGas) (n : ℕ) (o : Cool.Opt) (E : Env)
    (hc : (coolRow gas (.tab n) o).Converged E) :
    ∃ h h', ∀ k : Fin n, E.vec "Fl_O:tot:composition" k
      = (tabFlowCompute (E.num "W_primary") h (fun k : Fin n => E.vec "composition_primary" k)
          [⟨fun k => E.vec "cool:composition" k, E.num "W_cool", h'⟩]).comp k := by
  obtain ⟨hn, -, -, -, -, -, l6, -, l8, l9, l10, l11, -⟩ := row_links
  have m := hc.sub (row_wiring gas (.tab n) o) hn 2 (coolAddSub (.tab n)) rfl "mix_n" rfl
  rw [(row_says gas (.tab n) o E hc).2.2.2.2.2]
  simp only [coolAddSub] at m
  have m := m.2.2
  simp only [Wiring.rd, Wiring.wr, l6, l8, l9, l10, l11] at m
  exact ⟨_, _, m⟩

private theorem row_cea (gas : (ℕ → ℝ) → TPGas) (p pm pc : Properties) (o : Cool.Opt) (E : Env)
    (hc : (coolRow gas (.cea p pm pc) o).Converged E) :
    ∃ h h', ∀ k : Fin pm.elements.length, E.vec "Fl_O:tot:composition" k
      = (flowCompute p pm (E.num "W_primary") h (fun k => E.vec "composition_primary" k)
          [⟨pc, E.num "W_cool", h', fun k => E.vec "cool:composition" k⟩]).comp k := by
  obtain ⟨hn, -, -, -, -, -, l6, -, l8, l9, l10, l11, -⟩ := row_links
  have m := hc.sub (row_wiring gas (.cea p pm pc) o) hn 2 (coolAddSub (.cea p pm pc)) rfl "mix_n" rfl
  rw [(row_says gas (.cea p pm pc) o E hc).2.2.2.2.2]
  simp only [coolAddSub] at m
  have m := m.2.2
  simp only [Wiring.rd, Wiring.wr, l6, l8, l9, l10, l11] at m
  exact ⟨_, _, m⟩

/-! ## The element -/

section
variable {gas : (ℕ → ℝ) → TPGas} {a : FlowAdder} {o : CoolOpt} {own : Bool} {E : Env}

private theorem src_shared {n : String} (h : '.' ∉ n.toList) :
    (turbineCooling gas a o own).wiring.src n = n := by
  by_cases ho : n ∈ (turbineCooling gas a o own).wiring.outs
  · exact Wiring.src_out ho
  · exact Wiring.src_free ho fun ht => h (target_dot gas a ht)

private theorem src_handed (h0 : o.n_stages ≠ 0) {i : ℕ} (hi : i + 1 < 2 * o.n_stages) {c : String × String}
    (hc : c ∈ handed) :
    (turbineCooling gas a o own).wiring.src (rowName (i + 1) ++ "." ++ c.2) = rowName i ++ "." ++ c.1 :=
  Wiring.src_conn (wired gas a own h0) ((mem_conns gas a).mpr ⟨i, hi, c, hc, rfl⟩)

/-- A row of a converged element, seen under its own names. -/
private theorem row_seen (h0 : o.n_stages ≠ 0) (hc : (turbineCooling gas a o own).Converged E) {i : ℕ}
    (hi : i < 2 * o.n_stages) :
    ∃ F : Env, (coolRow gas a (o.row i)).Converged F
      ∧ (∀ v ∈ rowOuts, E.num (rowName i ++ "." ++ v) = F.num v ∧ E.vec (rowName i ++ "." ++ v) = F.vec v)
      ∧ (∀ v ∈ [("x_factor", "x_factor"), ("Pt_in", "Fl_turb_I:tot:P"), ("Pt_out", "Fl_turb_O:tot:P"),
          ("Tt_cool", "Fl_cool:tot:T"), ("ht_cool", "Fl_cool:tot:h"), ("cool:composition", "Fl_cool:tot:composition"),
          ("turb_pwr", "turb_pwr")], F.num v.1 = E.num v.2 ∧ F.vec v.1 = E.vec v.2)
      ∧ (∀ v ∈ [("W_primary", "Fl_turb_I:stat:W", "W_out"), ("Tt_primary", "Fl_turb_I:tot:T", "Fl_O:tot:T"),
          ("ht_primary", "Fl_turb_I:tot:h", "Fl_O:tot:h"),
          ("composition_primary", "Fl_turb_I:tot:composition", "Fl_O:tot:composition")],
          F.num v.1 = E.num (feed v.2.1 v.2.2 i) ∧ F.vec v.1 = E.vec (feed v.2.1 v.2.2 i)) := by
  have hs : rowSub gas a o i ∈ (turbineCooling gas a o own).subs := by
    rw [subs_eq gas a own h0]
    exact List.mem_append_right _ ((mem_core gas a).mpr (Or.inr ⟨i, hi, rfl⟩))
  obtain ⟨F, hF, h1, h2⟩ := hc _ hs
  have e1 : (coolRow gas a (o.row i)).wiring.externals = rowIns := by rw [row_wiring, row_ins]
  have e2 : (coolRow gas a (o.row i)).wiring.outs = rowOuts := by rw [row_wiring, row_outs]
  rw [e1] at h1
  rw [e2] at h2
  have rd : ∀ v ∈ rowIns, ∀ n, (turbineCooling gas a o own).wiring.src ((rowSub gas a o i).inName v) = n →
      F.num v = E.num n ∧ F.vec v = E.vec n := by
    rintro v hv n rfl
    exact h1 v hv
  refine ⟨F, hF, fun v hv => ?_, fun v hv => ?_, fun v hv => ?_⟩
  · have := h2 v hv
    simp only [writes, outName_plain (show (rowSub gas a o i).promO = [] from rfl)] at this
    exact this
  · have k1 : ∀ b : Bool, ∀ v ∈ [("x_factor", "x_factor"), ("Pt_in", "Fl_turb_I:tot:P"), ("Pt_out", "Fl_turb_O:tot:P"),
          ("Tt_cool", "Fl_cool:tot:T"), ("ht_cool", "Fl_cool:tot:h"), ("cool:composition", "Fl_cool:tot:composition"),
          ("turb_pwr", "turb_pwr")], v.1 ∈ rowIns ∧ promoted (if b then rowProms ++ firstProms else rowProms) v.1 = some v.2
            ∧ '.' ∉ v.2.toList := by decide +kernel
    refine rd v.1 (k1 true v hv).1 v.2 ?_
    have : promoted (rowSub gas a o i).promI v.1 = some v.2 := by
      rw [rowSub_promI]
      by_cases h : i = 0
      · rw [if_pos h]; exact (k1 true v hv).2.1
      · rw [if_neg h]; exact (k1 false v hv).2.1
    rw [Decl.inName, this, Option.getD_some]
    exact src_shared (k1 true v hv).2.2
  · cases i with
    | zero =>
      have k1 : ∀ v ∈ [("W_primary", "Fl_turb_I:stat:W", "W_out"), ("Tt_primary", "Fl_turb_I:tot:T", "Fl_O:tot:T"),
          ("ht_primary", "Fl_turb_I:tot:h", "Fl_O:tot:h"),
          ("composition_primary", "Fl_turb_I:tot:composition", "Fl_O:tot:composition")],
          v.1 ∈ rowIns ∧ promoted (rowProms ++ firstProms) v.1 = some v.2.1 ∧ '.' ∉ v.2.1.toList := by decide +kernel
      refine rd v.1 (k1 v hv).1 _ ?_
      have : promoted (rowSub gas a o 0).promI v.1 = some v.2.1 := by
        rw [rowSub_promI, if_pos rfl]; exact (k1 v hv).2.1
      rw [Decl.inName, this, Option.getD_some]
      exact src_shared (k1 v hv).2.2
    | succ i =>
      have k1 : ∀ v ∈ [("W_primary", "Fl_turb_I:stat:W", "W_out"), ("Tt_primary", "Fl_turb_I:tot:T", "Fl_O:tot:T"),
          ("ht_primary", "Fl_turb_I:tot:h", "Fl_O:tot:h"),
          ("composition_primary", "Fl_turb_I:tot:composition", "Fl_O:tot:composition")],
          v.1 ∈ rowIns ∧ promoted rowProms v.1 = none ∧ (v.2.2, v.1) ∈ handed := by decide +kernel
      refine rd v.1 (k1 v hv).1 _ ?_
      have : promoted (rowSub gas a o (i + 1)).promI v.1 = none := by
        rw [rowSub_promI, if_neg (by omega)]; exact (k1 v hv).2.1
      rw [Decl.inName, this, Option.getD_none]
      exact src_handed h0 hi (k1 v hv).2.2

/-- **C64 (rows).** In every converged cooled turbine each row cools the stream the row before it delivers, the first
row the turbine's inlet flow. -/
theorem C64_rows (h0 : o.n_stages ≠ 0) (hc : (turbineCooling gas a o own).Converged E) (i : ℕ) (hi : i < 2 * o.n_stages) :
    CooledRow gas o E i (E.num (feed "Fl_turb_I:stat:W" "W_out" i)) (E.num (feed "Fl_turb_I:tot:T" "Fl_O:tot:T" i))
      (E.num (feed "Fl_turb_I:tot:h" "Fl_O:tot:h" i)) := by
  obtain ⟨F, hF, ho, hs, hf⟩ := row_seen h0 hc hi
  obtain ⟨r1, r2, r3, r4, r5, -⟩ := row_says gas a _ F hF
  have out : ∀ v, v ∈ rowOuts → E.num (rowName i ++ "." ++ v) = F.num v := fun v hv => (ho v hv).1
  have o1 : E.num (rowName i ++ ".W_cool") = F.num "W_cool" := by
    rw [← out _ (by decide), String.append_assoc]; rfl
  have o2 : E.num (rowName i ++ ".W_out") = F.num "W_out" := by rw [← out _ (by decide), String.append_assoc]; rfl
  have o3 : E.num (rowName i ++ ".Fl_O:tot:h") = F.num "Fl_O:tot:h" := by
    rw [← out _ (by decide), String.append_assoc]; rfl
  have o4 : E.num (rowName i ++ ".Fl_O:tot:P") = F.num "Fl_O:tot:P" := by
    rw [← out _ (by decide), String.append_assoc]; rfl
  have o5 : E.vec (rowName i ++ ".Fl_O:tot:composition") = F.vec "Fl_O:tot:composition" := by
    rw [← (ho _ (by decide)).2, String.append_assoc]; rfl
  have s1 : F.num "x_factor" = E.num "x_factor" := (hs ("x_factor", "x_factor") (by simp)).1
  have s2 : F.num "Pt_in" = E.num "Fl_turb_I:tot:P" := (hs ("Pt_in", "Fl_turb_I:tot:P") (by simp)).1
  have s3 : F.num "Pt_out" = E.num "Fl_turb_O:tot:P" := (hs ("Pt_out", "Fl_turb_O:tot:P") (by simp)).1
  have s4 : F.num "Tt_cool" = E.num "Fl_cool:tot:T" := (hs ("Tt_cool", "Fl_cool:tot:T") (by simp)).1
  have s5 : F.num "ht_cool" = E.num "Fl_cool:tot:h" := (hs ("ht_cool", "Fl_cool:tot:h") (by simp)).1
  have s6 : F.num "turb_pwr" = E.num "turb_pwr" := (hs ("turb_pwr", "turb_pwr") (by simp)).1
  have f1 : F.num "W_primary" = E.num (feed "Fl_turb_I:stat:W" "W_out" i) :=
    (hf ("W_primary", "Fl_turb_I:stat:W", "W_out") (by simp)).1
  have f2 : F.num "Tt_primary" = E.num (feed "Fl_turb_I:tot:T" "Fl_O:tot:T" i) :=
    (hf ("Tt_primary", "Fl_turb_I:tot:T", "Fl_O:tot:T") (by simp)).1
  have f3 : F.num "ht_primary" = E.num (feed "Fl_turb_I:tot:h" "Fl_O:tot:h" i) :=
    (hf ("ht_primary", "Fl_turb_I:tot:h", "Fl_O:tot:h") (by simp)).1
  rw [← f1, ← f2, ← f3]
  refine ⟨fun h => ?_, fun G hG h hC => ?_, ?_, ?_, ?_, ?_⟩
  · rw [o1, r1]; exact (Cool.C32_coolant (o.row i) (coolingIn F)).1 h
  · rw [o1, r1, ← s1, ← s4]
    exact Cool.C32_amount (o.row i) (coolingIn F) G _ hG rfl h (by rw [← s4] at hC; exact hC)
  · rw [o1, o2, r2]
  · rw [o1, o3, r3, ← s5, ← s6, r1]; rfl
  · rw [o4, r4, ← s2, ← s3]
    exact Cool.C32_stage o.n_stages i hi (o.row i) rfl rfl (coolingIn F)
  · rw [o5]
    have st : ∀ v ∈ ["T", "P", "h", "S", "gamma", "Cp", "Cv", "rho", "R"], E.at (rowName i ++ ".Fl_O:tot") v = F.at "Fl_O:tot" v := by
      intro v hv
      have : "Fl_O:tot" ++ ":" ++ v ∈ rowOuts := by
        have k : ∀ v ∈ ["T", "P", "h", "S", "gamma", "Cp", "Cv", "rho", "R"], "Fl_O:tot" ++ ":" ++ v ∈ rowOuts := by
          decide
        exact k v hv
      rw [Env.at, Env.at, ← out _ this]
      simp only [String.append_assoc]
      rfl
    obtain ⟨k1, k2, k3, k4, k5, k6, k7⟩ := r5
    constructor <;> simp only [st "T" (by simp), st "P" (by simp)]
    · rw [st "h" (by simp)]; exact k1
    · rw [st "S" (by simp)]; exact k2
    · rw [st "gamma" (by simp)]; exact k3
    · rw [st "Cp" (by simp)]; exact k4
    · rw [st "Cv" (by simp)]; exact k5
    · rw [st "rho" (by simp)]; exact k6
    · rw [st "R" (by simp)]; exact k7

private theorem feed_succ (f p : String) (i : ℕ) : feed f p (i + 1) = rowName i ++ "." ++ p := rfl

/-- **C64 (mass).** What leaves the first `m` rows is the turbine's inlet flow and their coolant; so the last row
delivers the inlet flow and all the coolant. -/
theorem C64_mass (h0 : o.n_stages ≠ 0) (hc : (turbineCooling gas a o own).Converged E) (m : ℕ) (hm : m ≤ 2 * o.n_stages) :
    E.num (feed "Fl_turb_I:stat:W" "W_out" m)
      = E.num "Fl_turb_I:stat:W" + ∑ i ∈ Finset.range m, E.num (rowName i ++ ".W_cool") := by
  induction m with
  | zero => simp [feed]
  | succ m ih =>
    have h := (C64_rows h0 hc m hm).mass
    rw [Finset.sum_range_succ, ← add_assoc, ← ih (by omega), ← h, feed_succ, String.append_assoc]
    rfl

/-- Rotors share the turbine's power. -/
noncomputable def rotorWork (o : CoolOpt) (pwr : ℝ) (i : ℕ) : ℝ := if i % 2 = 0 then 0 else pwr / o.n_stages

/-- **C64 (energy, partial).** Missing: the last term is not zero. Enthalpy leaving the last row, per unit time: the turbine's inlet flow and all the coolant bring
theirs, the turbine's power is taken out — and for every cooled rotor its work times the ratio of coolant to the flow
entering it, once more (`C32_refuted_energy`). -/
theorem C64_energy_partial (h0 : o.n_stages ≠ 0) (hc : (turbineCooling gas a o own).Converged E)
    (hW : ∀ i ≤ 2 * o.n_stages, E.num (feed "Fl_turb_I:stat:W" "W_out" i) ≠ 0) :
    E.num (feed "Fl_turb_I:stat:W" "W_out" (2 * o.n_stages)) * E.num (feed "Fl_turb_I:tot:h" "Fl_O:tot:h" (2 * o.n_stages))
      = E.num "Fl_turb_I:stat:W" * E.num "Fl_turb_I:tot:h"
        + (∑ i ∈ Finset.range (2 * o.n_stages), E.num (rowName i ++ ".W_cool")) * E.num "Fl_cool:tot:h"
        - E.num "turb_pwr"
        - ∑ i ∈ Finset.range (2 * o.n_stages), rotorWork o (E.num "turb_pwr") i
            * (E.num (rowName i ++ ".W_cool") / E.num (feed "Fl_turb_I:stat:W" "W_out" i)) := by
  have key : ∀ m ≤ 2 * o.n_stages,
      E.num (feed "Fl_turb_I:stat:W" "W_out" m) * E.num (feed "Fl_turb_I:tot:h" "Fl_O:tot:h" m)
      = E.num "Fl_turb_I:stat:W" * E.num "Fl_turb_I:tot:h"
        + (∑ i ∈ Finset.range m, E.num (rowName i ++ ".W_cool")) * E.num "Fl_cool:tot:h"
        - ∑ i ∈ Finset.range m, rotorWork o (E.num "turb_pwr") i
        - ∑ i ∈ Finset.range m, rotorWork o (E.num "turb_pwr") i
            * (E.num (rowName i ++ ".W_cool") / E.num (feed "Fl_turb_I:stat:W" "W_out" i)) := by
    intro m hm
    induction m with
    | zero => simp [feed]
    | succ m ih =>
      have r := C64_rows h0 hc m hm
      have e1 : E.num (feed "Fl_turb_I:stat:W" "W_out" (m + 1))
          = E.num (feed "Fl_turb_I:stat:W" "W_out" m) + E.num (rowName m ++ ".W_cool") := by
        rw [← r.mass, feed_succ, String.append_assoc]; rfl
      have e2 : E.num (feed "Fl_turb_I:tot:h" "Fl_O:tot:h" (m + 1))
          = (E.num (feed "Fl_turb_I:stat:W" "W_out" m) * E.num (feed "Fl_turb_I:tot:h" "Fl_O:tot:h" m)
              + E.num (rowName m ++ ".W_cool") * E.num "Fl_cool:tot:h")
            / (E.num (feed "Fl_turb_I:stat:W" "W_out" m) + E.num (rowName m ++ ".W_cool"))
            - rotorWork o (E.num "turb_pwr") m / E.num (feed "Fl_turb_I:stat:W" "W_out" m) := by
        rw [rotorWork, ← r.enthalpy, feed_succ, String.append_assoc]; rfl
      have n0 := hW m (by omega)
      have n1 := hW (m + 1) hm
      rw [e1] at n1
      have ih := ih (by omega)
      simp only [Finset.sum_range_succ]
      rw [e1, e2]
      generalize E.num (feed "Fl_turb_I:stat:W" "W_out" m) = W at *
      generalize E.num (feed "Fl_turb_I:tot:h" "Fl_O:tot:h" m) = h at *
      generalize E.num (rowName m ++ ".W_cool") = C at *
      generalize rotorWork o (E.num "turb_pwr") m = K at *
      have : (W + C) * ((W * h + C * E.num "Fl_cool:tot:h") / (W + C) - K / W)
          = W * h + C * E.num "Fl_cool:tot:h" - K - K * (C / W) := by
        field_simp
        ring
      rw [this, ih]
      ring
  have w := Cool.C32_work ⟨o.n_stages, 0, 0, 0, 0, 0, 0, 0, E.num "turb_pwr"⟩ h0
  have w : ∑ i ∈ Finset.range (2 * o.n_stages), rotorWork o (E.num "turb_pwr") i = E.num "turb_pwr" := w
  rw [key _ le_rfl, w]

/-- Technology factor not negative, coolant colder than the metal may be, gas flowing into the turbine. -/
structure Runs (o : CoolOpt) (E : Env) : Prop where
  factor : 0 ≤ E.num "x_factor"
  cooler : E.num "Fl_cool:tot:T" < o.T_metal
  flow : 0 < E.num "Fl_turb_I:stat:W"

private theorem flows_pos (h0 : o.n_stages ≠ 0) (hc : (turbineCooling gas a o own).Converged E) (hr : Runs o E) (m : ℕ)
    (hm : m ≤ 2 * o.n_stages) :
    0 < E.num (feed "Fl_turb_I:stat:W" "W_out" m) ∧ ∀ i < m, 0 ≤ E.num (rowName i ++ ".W_cool") := by
  induction m with
  | zero => exact ⟨hr.flow, fun i hi => absurd hi (by omega)⟩
  | succ m ih =>
    obtain ⟨ih1, ih2⟩ := ih (by omega)
    have r := C64_rows h0 hc m hm
    have hC : 0 ≤ E.num (rowName m ++ ".W_cool") := by
      by_cases h : Cool.hotGas m o.T_safety (E.num (feed "Fl_turb_I:tot:T" "Fl_O:tot:T" m)) < o.T_metal
      · rw [r.cold h]
      · rw [r.cooled _ rfl (not_lt.mp h) hr.cooler]
        have h1 := not_lt.mp h
        have h2 := hr.cooler
        have h3 := hr.factor
        have hp : (0 : ℝ) ≤ if m = 0 then 0.3 else 0.13 := by split <;> norm_num
        have h4 : (0 : ℝ) ≤ (if m = 0 then 0.3 else 0.13)
            * (Cool.hotGas m o.T_safety (E.num (feed "Fl_turb_I:tot:T" "Fl_O:tot:T" m)) - E.num "Fl_cool:tot:T") :=
          mul_nonneg hp (by linarith)
        have := Real.rpow_nonneg (div_nonneg (a := Cool.hotGas m o.T_safety (E.num (feed "Fl_turb_I:tot:T" "Fl_O:tot:T" m))
          - o.T_metal + (if m = 0 then 0.3 else 0.13)
            * (Cool.hotGas m o.T_safety (E.num (feed "Fl_turb_I:tot:T" "Fl_O:tot:T" m)) - E.num "Fl_cool:tot:T"))
          (b := o.T_metal - E.num "Fl_cool:tot:T") (by linarith) (by linarith)) (1.25 : ℝ)
        positivity
    refine ⟨?_, fun i hi => ?_⟩
    · have e1 : E.num (feed "Fl_turb_I:stat:W" "W_out" (m + 1))
          = E.num (feed "Fl_turb_I:stat:W" "W_out" m) + E.num (rowName m ++ ".W_cool") := by
        rw [← r.mass, feed_succ, String.append_assoc]; rfl
      rw [e1]; linarith
    · rcases Nat.lt_succ_iff_lt_or_eq.mp hi with h | rfl
      · exact ih2 i h
      · exact hC

/-- **C64 (flows).** In a running turbine the flow never decreases along the rows and no coolant flows backwards. -/
theorem C64_flows (h0 : o.n_stages ≠ 0) (hc : (turbineCooling gas a o own).Converged E) (hr : Runs o E) (i : ℕ)
    (hi : i < 2 * o.n_stages) : 0 ≤ E.num (rowName i ++ ".W_cool")
      ∧ E.num (feed "Fl_turb_I:stat:W" "W_out" i) ≤ E.num (feed "Fl_turb_I:stat:W" "W_out" (i + 1))
      ∧ 0 < E.num (feed "Fl_turb_I:stat:W" "W_out" i) := by
  have h := (flows_pos h0 hc hr (i + 1) hi).2 i (by omega)
  refine ⟨h, ?_, (flows_pos h0 hc hr i (by omega)).1⟩
  rw [C64_mass h0 hc i (by omega), C64_mass h0 hc (i + 1) hi, Finset.sum_range_succ]
  linarith

/-- **C64, refuted (energy).** In a running turbine with positive power and technology factor, one rotor hot enough to
be cooled is enough for the stream to leave with less energy than inlet flow and coolant bring and the power leaves. -/
theorem C64_refuted_energy (h0 : o.n_stages ≠ 0) (hc : (turbineCooling gas a o own).Converged E) (hr : Runs o E)
    (hx : 0 < E.num "x_factor") (hp : 0 < E.num "turb_pwr")
    (hot : ∃ i < 2 * o.n_stages, i % 2 = 1 ∧ o.T_metal ≤ 0.92 * E.num (feed "Fl_turb_I:tot:T" "Fl_O:tot:T" i) + o.T_safety) :
    E.num (feed "Fl_turb_I:stat:W" "W_out" (2 * o.n_stages)) * E.num (feed "Fl_turb_I:tot:h" "Fl_O:tot:h" (2 * o.n_stages))
      < E.num "Fl_turb_I:stat:W" * E.num "Fl_turb_I:tot:h"
        + (∑ i ∈ Finset.range (2 * o.n_stages), E.num (rowName i ++ ".W_cool")) * E.num "Fl_cool:tot:h"
        - E.num "turb_pwr" := by
  rw [C64_energy_partial h0 hc fun i hi => (flows_pos h0 hc hr i hi).1.ne', sub_lt_self_iff]
  have hn : (0 : ℝ) < o.n_stages := by exact_mod_cast Nat.pos_of_ne_zero h0
  have work : ∀ i, 0 ≤ rotorWork o (E.num "turb_pwr") i := by
    intro i; unfold rotorWork; split
    · exact le_rfl
    · positivity
  obtain ⟨i, hi, h1, h2⟩ := hot
  refine Finset.sum_pos' (fun j hj => ?_) ⟨i, Finset.mem_range.mpr hi, ?_⟩
  · obtain ⟨k1, -, k3⟩ := C64_flows h0 hc hr j (Finset.mem_range.mp hj)
    exact mul_nonneg (work j) (div_nonneg k1 k3.le)
  · obtain ⟨-, -, k3⟩ := C64_flows h0 hc hr i hi
    have r := C64_rows h0 hc i hi
    have hG : Cool.hotGas i o.T_safety (E.num (feed "Fl_turb_I:tot:T" "Fl_O:tot:T" i))
        = 0.92 * E.num (feed "Fl_turb_I:tot:T" "Fl_O:tot:T" i) + o.T_safety := by
      rw [Cool.hotGas, if_neg (by rw [Nat.even_iff]; omega)]
    have c := r.cooled _ rfl (by rw [hG]; exact h2) hr.cooler
    have w : 0 < rotorWork o (E.num "turb_pwr") i := by
      rw [rotorWork, if_neg (by omega)]; positivity
    refine mul_pos w (div_pos ?_ k3)
    rw [c, if_neg (by omega : i ≠ 0), hG]
    have h3 := hr.cooler
    have := Real.rpow_pos_of_pos (div_pos (a := 0.92 * E.num (feed "Fl_turb_I:tot:T" "Fl_O:tot:T" i) + o.T_safety - o.T_metal
      + 0.13 * (0.92 * E.num (feed "Fl_turb_I:tot:T" "Fl_O:tot:T" i) + o.T_safety - E.num "Fl_cool:tot:T"))
      (b := o.T_metal - E.num "Fl_cool:tot:T") (by linarith) (by linarith)) (1.25 : ℝ)
    positivity

/-- **C64 (composition, tabular).** In a running turbine, air and each additive leaving the first `m` rows are those of
the turbine's inlet and of the coolant of these rows. -/
theorem C64_tab {n : ℕ} (h0 : o.n_stages ≠ 0) (hc : (turbineCooling gas (.tab n) o own).Converged E) (hr : Runs o E)
    (c1 : 0 < 1 + ∑ k : Fin n, E.vec "Fl_turb_I:tot:composition" k)
    (c2 : 0 < 1 + ∑ k : Fin n, E.vec "Fl_cool:tot:composition" k) (m : ℕ) (hm : m ≤ 2 * o.n_stages) :
    let c : Fin n → ℝ := fun k => E.vec "Fl_cool:tot:composition" k
    let c₀ : Fin n → ℝ := fun k => E.vec "Fl_turb_I:tot:composition" k
    let cₘ : Fin n → ℝ := fun k => E.vec (feed "Fl_turb_I:tot:composition" "Fl_O:tot:composition" m) k
    airMass (E.num (feed "Fl_turb_I:stat:W" "W_out" m)) cₘ = airMass (E.num "Fl_turb_I:stat:W") c₀
        + ∑ i ∈ Finset.range m, airMass (E.num (rowName i ++ ".W_cool")) c
    ∧ ∀ k, additiveMass (E.num (feed "Fl_turb_I:stat:W" "W_out" m)) cₘ k = additiveMass (E.num "Fl_turb_I:stat:W") c₀ k
        + ∑ i ∈ Finset.range m, additiveMass (E.num (rowName i ++ ".W_cool")) c k := by
  intro c c₀
  suffices H : 0 < 1 + ∑ k : Fin n, E.vec (feed "Fl_turb_I:tot:composition" "Fl_O:tot:composition" m) k ∧ _ from H.2
  induction m with
  | zero => exact ⟨c1, by simp [feed, c₀], fun k => by simp [feed, c₀]⟩
  | succ m ih =>
    obtain ⟨ih1, ih2, ih3⟩ := ih (by omega)
    obtain ⟨k1, -, k3⟩ := C64_flows h0 hc hr m hm
    obtain ⟨k4, k5⟩ := flows_pos h0 hc hr (m + 1) hm
    obtain ⟨F, hF, ho, hs, hf⟩ := row_seen h0 hc (i := m) hm
    obtain ⟨h, h', e⟩ := row_tab gas n _ F hF
    have f1 : F.num "W_primary" = E.num (feed "Fl_turb_I:stat:W" "W_out" m) :=
      (hf ("W_primary", "Fl_turb_I:stat:W", "W_out") (by simp)).1
    have f2 : F.vec "composition_primary" = E.vec (feed "Fl_turb_I:tot:composition" "Fl_O:tot:composition" m) :=
      (hf ("composition_primary", "Fl_turb_I:tot:composition", "Fl_O:tot:composition") (by simp)).2
    have f3 : F.vec "cool:composition" = E.vec "Fl_cool:tot:composition" :=
      (hs ("cool:composition", "Fl_cool:tot:composition") (by simp)).2
    have f4 : F.num "W_cool" = E.num (rowName m ++ ".W_cool") := by
      rw [← (ho "W_cool" (by decide)).1, String.append_assoc]; rfl
    have f5 : F.vec "Fl_O:tot:composition" = E.vec (feed "Fl_turb_I:tot:composition" "Fl_O:tot:composition" (m + 1)) :=
      ((ho "Fl_O:tot:composition" (by decide)).2).symm
    rw [f1, f2, f3, f4, f5] at e
    have hW : E.num (feed "Fl_turb_I:stat:W" "W_out" (m + 1))
        = E.num (feed "Fl_turb_I:stat:W" "W_out" m) + E.num (rowName m ++ ".W_cool") := by
      rw [← (C64_rows h0 hc m hm).mass, feed_succ, String.append_assoc]; rfl
    have a1 : 0 < airMass (E.num (feed "Fl_turb_I:stat:W" "W_out" m))
        (fun k : Fin n => E.vec (feed "Fl_turb_I:tot:composition" "Fl_O:tot:composition" m) k) := div_pos k3 ih1
    have a2 : 0 ≤ airMass (E.num (rowName m ++ ".W_cool")) c := div_nonneg k1 c2.le
    obtain ⟨m1, m2, m3, -⟩ := C12_tab_mixing (E.num (feed "Fl_turb_I:stat:W" "W_out" m)) h
      (fun k : Fin n => E.vec (feed "Fl_turb_I:tot:composition" "Fl_O:tot:composition" m) k)
      [⟨c, E.num (rowName m ++ ".W_cool"), h'⟩] ih1.ne' (by simpa using c2.ne')
      (by simp only [List.map_cons, List.map_nil, List.sum_cons, List.sum_nil, add_zero]; linarith)
      (by simp only [List.map_cons, List.map_nil, List.sum_cons, List.sum_nil, add_zero]; rw [← hW]; exact k4.ne')
    have ec : (fun k : Fin n => E.vec (feed "Fl_turb_I:tot:composition" "Fl_O:tot:composition" (m + 1)) k)
        = (tabFlowCompute (E.num (feed "Fl_turb_I:stat:W" "W_out" m)) h
          (fun k : Fin n => E.vec (feed "Fl_turb_I:tot:composition" "Fl_O:tot:composition" m) k)
          [⟨c, E.num (rowName m ++ ".W_cool"), h'⟩]).comp := funext e
    simp only [List.map_cons, List.map_nil, List.sum_cons, List.sum_nil, add_zero] at m1 m2 m3
    rw [← ec, m1, ← hW] at m2
    simp only [← ec, m1, ← hW] at m3
    refine ⟨?_, ?_, fun k => ?_⟩
    · by_contra hneg
      have hneg := not_lt.mp hneg
      have : airMass (E.num (feed "Fl_turb_I:stat:W" "W_out" (m + 1)))
          (fun k : Fin n => E.vec (feed "Fl_turb_I:tot:composition" "Fl_O:tot:composition" (m + 1)) k) ≤ 0 :=
        div_nonpos_of_nonneg_of_nonpos k4.le hneg
      rw [m2] at this
      linarith
    · rw [m2, ih2, Finset.sum_range_succ, add_assoc]
    · rw [m3 k, ih3 k, Finset.sum_range_succ, add_assoc]

/-- **C64 (composition, CEA).** In a running turbine whose coolant brings no new chemical elements, the mass of each
element leaving the first `m` rows is that of the turbine's inlet and of the coolant of these rows. -/
theorem C64_cea {data : ThermoData} {f fc : PyDict ℝ} {p pm pc : Properties} (hin : f.keys.Nodup)
    (h1 : mkProperties data (some f) = .ok p) (h2 : mkProperties data (some fc) = .ok pc)
    (h3 : mkProperties data (some (mixedFlows f [fc])) = .ok pm) (hel : pm.elements = p.elements)
    (hwt : ∀ e ∈ pm.elements, data.wtOf e ≠ 0) (h0 : o.n_stages ≠ 0)
    (hc : (turbineCooling gas (.cea p pm pc) o own).Converged E) (hr : Runs o E)
    (c1 : totalMass p.elements data.wtOf (fun k => E.vec "Fl_turb_I:tot:composition" k) ≠ 0)
    (c2 : totalMass pc.elements data.wtOf (fun k => E.vec "Fl_cool:tot:composition" k) ≠ 0)
    (m : ℕ) (hm : m ≤ 2 * o.n_stages) (e : String) :
    E.num (feed "Fl_turb_I:stat:W" "W_out" m) * elemMassFrac p.elements data.wtOf
        (fun k => E.vec (feed "Fl_turb_I:tot:composition" "Fl_O:tot:composition" m) k) e
      = E.num "Fl_turb_I:stat:W" * elemMassFrac p.elements data.wtOf (fun k => E.vec "Fl_turb_I:tot:composition" k) e
        + (∑ i ∈ Finset.range m, E.num (rowName i ++ ".W_cool"))
          * elemMassFrac pc.elements data.wtOf (fun k => E.vec "Fl_cool:tot:composition" k) e := by
  suffices H : totalMass p.elements data.wtOf
      (fun k => E.vec (feed "Fl_turb_I:tot:composition" "Fl_O:tot:composition" m) k) ≠ 0 ∧ _ from H.2
  induction m with
  | zero => exact ⟨c1, by simp [feed]⟩
  | succ m ih =>
    obtain ⟨ih1, ih2⟩ := ih (by omega)
    obtain ⟨k1, -, k3⟩ := C64_flows h0 hc hr m hm
    obtain ⟨k4, k5⟩ := flows_pos h0 hc hr (m + 1) hm
    obtain ⟨F, hF, ho, hs, hf⟩ := row_seen h0 hc (i := m) hm
    obtain ⟨h, h', ev⟩ := row_cea gas p pm pc _ F hF
    have f1 : F.num "W_primary" = E.num (feed "Fl_turb_I:stat:W" "W_out" m) :=
      (hf ("W_primary", "Fl_turb_I:stat:W", "W_out") (by simp)).1
    have f2 : F.vec "composition_primary" = E.vec (feed "Fl_turb_I:tot:composition" "Fl_O:tot:composition" m) :=
      (hf ("composition_primary", "Fl_turb_I:tot:composition", "Fl_O:tot:composition") (by simp)).2
    have f3 : F.vec "cool:composition" = E.vec "Fl_cool:tot:composition" :=
      (hs ("cool:composition", "Fl_cool:tot:composition") (by simp)).2
    have f4 : F.num "W_cool" = E.num (rowName m ++ ".W_cool") := by
      rw [← (ho "W_cool" (by decide)).1, String.append_assoc]; rfl
    have f5 : F.vec "Fl_O:tot:composition" = E.vec (feed "Fl_turb_I:tot:composition" "Fl_O:tot:composition" (m + 1)) :=
      ((ho "Fl_O:tot:composition" (by decide)).2).symm
    rw [f1, f2, f3, f4, f5] at ev
    have hW : E.num (feed "Fl_turb_I:stat:W" "W_out" (m + 1))
        = E.num (feed "Fl_turb_I:stat:W" "W_out" m) + E.num (rowName m ++ ".W_cool") := by
      rw [← (C64_rows h0 hc m hm).mass, feed_succ, String.append_assoc]; rfl
    obtain ⟨m1, m2, m3, -⟩ := C11_flow_conservation data f hin [fc] p pm h1 h3
      [⟨pc, E.num (rowName m ++ ".W_cool"), h', fun k => E.vec "Fl_cool:tot:composition" k⟩]
      (List.Forall₂.cons h2 List.Forall₂.nil) hwt (E.num (feed "Fl_turb_I:stat:W" "W_out" m)) h
      (fun k => E.vec (feed "Fl_turb_I:tot:composition" "Fl_O:tot:composition" m) k) ih1 (by simpa using c2)
      (by simp only [List.map_cons, List.map_nil, List.sum_cons, List.sum_nil, add_zero]; rw [← hW]; exact k4.ne')
    have ec : (fun k : Fin pm.elements.length => E.vec (feed "Fl_turb_I:tot:composition" "Fl_O:tot:composition" (m + 1)) k)
        = (flowCompute p pm (E.num (feed "Fl_turb_I:stat:W" "W_out" m)) h
          (fun k => E.vec (feed "Fl_turb_I:tot:composition" "Fl_O:tot:composition" m) k)
          [⟨pc, E.num (rowName m ++ ".W_cool"), h', fun k => E.vec "Fl_cool:tot:composition" k⟩]).comp := funext ev
    have m3 := m3 e
    simp only [List.map_cons, List.map_nil, List.sum_cons, List.sum_nil, add_zero] at m1 m3
    rw [← ec] at m2 m3
    rw [m1, ← hW] at m3
    rw [hel] at m2 m3
    refine ⟨by rw [m2]; exact one_ne_zero, ?_⟩
    rw [m3, ih2, Finset.sum_range_succ, add_mul, add_assoc]

end

end PyCycle.OM
