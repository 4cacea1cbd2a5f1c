import Verif.Proofs.TurbineWiring
import Verif.Spec.Machines
import Verif.Props.C35_Turbine
import Verif.Props.C54_MapGroups
import Verif.Props.C10_C11_CeaMixing
import Verif.Props.C12_C13_TabMixing

/-! # C56: the turbine as a whole element, for any bleeds -/

namespace PyCycle.OM
open TurbNames

/-- What a turbine needs besides its inlet station and its bleeds. `bld_add.Fl_I:tot:h` is left unconnected by the
code; nothing that follows uses what is computed from it. -/
def turbineInputs (d s : Bool) : List String :=
  ["Nmech", "map.alphaMap", "bld_add.Fl_I:tot:h"]
    ++ (if d then ["map.NpMap", "map.PRmap", "PR", "eff"] else ["s_Np", "s_PR", "s_eff", "s_Wp"])
    ++ (if s then if d then ["MN"] else ["area", "out_stat.guess:MN"] else [])

/-- **C56 (interface).** For any list of distinct bleed names, possibly empty, that do not clash with the element's
own names, the wiring is accepted, and what is left to supply is the inlet station, speed, the point of the map
(design) or the scalars (off design), the size or Mach number of the outlet and, per bleed, its station and pressure
fraction. -/
theorem C56_interface (gas : (ℕ → ℝ) → TPGas) (gb : String → (ℕ → ℝ) → TPGas) (m : Map.TMap) (a : BleedAdder)
    {bs : List String} (hb : BleedNames turbineTails turbineReserved bs) (d s : Bool) :
    (turbine gas gb m a bs d s).wiring.Accepted
    ∧ ∀ n, n ∈ (turbine gas gb m a bs d s).wiring.externals ↔
        n ∈ flowVarNames "Fl_I" ++ turbineInputs d s
        ∨ ∃ b ∈ bs, n ∈ flowVarNames b ++ [b ++ ":frac_P", "blds." ++ b ++ ":W", "bld_add." ++ b ++ ":h"] := by
  have hp : ∀ b ∈ bs, Plain b := hb.plain
  refine ⟨⟨(ext hp gas gb m a d s).wired hb (per_fits d s) (names hb gas gb m a d s), ?_⟩, ?_⟩
  · have h0 : ∀ d s, ∀ t ∈ (w₀ d s).subs.take 5 ++ (w₀ d s).subs.drop 8, t.PromotesFound := by decide +kernel
    intro t ht
    rw [subs_eq gas gb m a d s] at ht
    simp only [List.mem_append, List.mem_flatMap, List.mem_map, List.mem_cons, List.not_mem_nil, or_false] at ht
    rcases ht with ((((h | ⟨b, hbm, rfl⟩) | (rfl | rfl)) | ⟨b, hbm, u, hu, rfl⟩) | rfl) | h
    · exact h0 d s t (List.mem_append_left _ h)
    · exact port_found b
    · exact press_found hp
    · exact add_found hp a
    · exact solver_found (gb b) b u hu
    · exact pwr_found hp
    · exact h0 d s t (List.mem_append_right _ h)
  · intro n
    rw [(ext hp gas gb m a d s).mem_externals hb (per_fits d s) (names hb gas gb m a d s)]
    have h1 : ∀ d s, (w₀ d s).externals ⊆ flowVarNames "Fl_I" ++ turbineInputs d s
        ∧ flowVarNames "Fl_I" ++ turbineInputs d s ⊆ (w₀ d s).externals := by
      decide +kernel
    refine or_congr ⟨fun h => (h1 d s).1 h, fun h => (h1 d s).2 h⟩ ?_
    have h2 : ∀ q ∈ per.ins, (q ∉ per.outs ∧ q ∉ per.conns.map (·.2)) ↔
        q ∈ portSpecs ++ [("", ":frac_P"), ("blds", ":W"), ("bld_add", ":h")] := by decide +kernel
    have h3 : portSpecs ++ [("", ":frac_P"), ("blds", ":W"), ("bld_add", ":h")] ⊆ per.ins := by decide +kernel
    refine exists_congr fun b => and_congr_right fun hbm => ?_
    have e : flowVarNames b ++ [b ++ ":frac_P", "blds." ++ b ++ ":W", "bld_add." ++ b ++ ":h"]
        = (portSpecs ++ [("", ":frac_P"), ("blds", ":W"), ("bld_add", ":h")]).map (bname b) := by
      rw [List.map_append, ← port_ins, List.map_cons, List.map_cons, List.map_cons, List.map_nil, bname_nil,
        bname_cons b (show ("blds" : String) ≠ "" by decide), bname_cons b (show ("bld_add" : String) ≠ "" by decide)]
      congr 1
      rw [port_ins, flow_names, portSpecs, List.map_map]
      apply List.map_congr_left
      intro v _
      exact (bname_nil b v).symm
    rw [e, List.mem_map]
    constructor
    · rintro ⟨q, hq, h, rfl⟩
      exact ⟨q, (h2 q hq).mp h, rfl⟩
    · rintro ⟨q, hq, rfl⟩
      exact ⟨q, h3 hq, (h2 q (h3 hq)).mpr hq, rfl⟩

/-- **C56, refuted.** Bleed names must be distinct and differ from the element's names. -/
theorem C56_refuted_names (gas : (ℕ → ℝ) → TPGas) (gb : String → (ℕ → ℝ) → TPGas) (m : Map.TMap) (a : BleedAdder)
    (d s : Bool) :
    ¬ (turbine gas gb m a ["c", "c"] d s).wiring.Accepted ∧ ¬ (turbine gas gb m a ["blds"] d s).wiring.Accepted
    ∧ ¬ (turbine gas gb m a ["map"] d s).wiring.Accepted := by
  have : ∀ d s, ¬ (turbine gas0 (fun _ => gas0) m₀ (.tab 0) ["c", "c"] d s).wiring.Accepted
    ∧ ¬ (turbine gas0 (fun _ => gas0) m₀ (.tab 0) ["blds"] d s).wiring.Accepted
    ∧ ¬ (turbine gas0 (fun _ => gas0) m₀ (.tab 0) ["map"] d s).wiring.Accepted := by decide +kernel
  have e : ∀ bs ∈ [["c", "c"], ["blds"], ["map"]],
      (turbine gas gb m a bs d s).wiring = (turbine gas0 (fun _ => gas0) m₀ (.tab 0) bs d s).wiring := by
    intro bs hbs
    fin_cases hbs <;> cases d <;> cases s <;> rfl
  rw [e _ (by simp), e _ (by simp), e _ (by simp)]
  exact this d s

/-! ## Links -/

private abbrev F (d s : Bool) : List Decl := (w₀ d s).subs.take 5 ++ (w₀ d s).subs.drop 8

private theorem F_sub₀ (d s : Bool) : F d s ⊆ (w₀ d s).subs := by
  intro t h
  rcases List.mem_append.mp h with h | h
  · exact List.mem_of_mem_take h
  · exact List.mem_of_mem_drop h

private theorem F_sub {bs : List String} (gas : (ℕ → ℝ) → TPGas) (gb : String → (ℕ → ℝ) → TPGas) (m : Map.TMap)
    (a : BleedAdder) (d s : Bool) : F d s ⊆ (turbine gas gb m a bs d s).wiring.subs := by
  intro t h
  rw [subs_eq]
  simp only [List.mem_append] at h ⊢
  rcases h with h | h
  · exact Or.inl (Or.inl (Or.inl (Or.inl (Or.inl h))))
  · exact Or.inr h

/-- The name a variable of the map group has in the turbine. -/
private def mapName (v : String) : String :=
  if v ∈ ["alphaMap", "NpMap", "PRmap"] then "map." ++ v else v

private def mapVars : List String :=
  ["alphaMap", "NpMap", "PRmap", "Np", "Wp", "PR", "eff", "s_Np", "s_PR", "s_eff", "s_Wp"]

private theorem w₀_map : ∀ d s, ∀ v ∈ mapVars,
    (v ∈ (turbineMap m₀ d).wiring.externals ∧ (w₀ d s).FixedRd (F d s) "map" v (mapName v))
    ∨ (v ∈ (turbineMap m₀ d).wiring.outs ∧ (w₀ d s).FixedWr (F d s) "map" v (mapName v)) := by
  decide +kernel

private theorem w₀_head : ∀ d s,
    ((w₀ d s).FixedRd (F d s) "corrinputs" "Tt" "Fl_I:tot:T" ∧ (w₀ d s).FixedRd (F d s) "corrinputs" "Pt" "Fl_I:tot:P"
      ∧ (w₀ d s).FixedRd (F d s) "corrinputs" "W_in" "Fl_I:stat:W" ∧ (w₀ d s).FixedRd (F d s) "corrinputs" "Nmech" "Nmech"
      ∧ (w₀ d s).FixedWr (F d s) "corrinputs" "Wp" "Wp" ∧ (w₀ d s).FixedWr (F d s) "corrinputs" "Np" "Np")
    ∧ ((w₀ d s).FixedRd (F d s) "press_drop" "PR" "PR" ∧ (w₀ d s).FixedRd (F d s) "press_drop" "Pt_in" "Fl_I:tot:P"
      ∧ (w₀ d s).FixedWr (F d s) "press_drop" "Pt_out" "press_drop.Pt_out")
    ∧ ((w₀ d s).FixedRd (F d s) "ideal_flow" "S" "Fl_I:tot:S" ∧ (w₀ d s).FixedRd (F d s) "ideal_flow" "P" "press_drop.Pt_out"
      ∧ (w₀ d s).FixedRd (F d s) "ideal_flow" "composition" "Fl_I:tot:composition"
      ∧ (w₀ d s).FixedReports (F d s) "ideal_flow" "flow" "ideal_flow.flow" .total_SP
      ∧ (w₀ d s).FixedWr (F d s) "ideal_flow" "h" "ideal_flow.h"
      ∧ (w₀ d s).FixedWr (F d s) "ideal_flow" "flow:h" "ideal_flow.flow:h") := by
  decide +kernel

private theorem w₀_tail : ∀ d s,
    ((w₀ d s).FixedRd (F d s) "real_flow_b4bld" "h" "ht_out_b4bld" ∧ (w₀ d s).FixedRd (F d s) "real_flow_b4bld" "P" "press_drop.Pt_out"
      ∧ (w₀ d s).FixedRd (F d s) "real_flow_b4bld" "composition" "Fl_I:tot:composition"
      ∧ (w₀ d s).FixedReports (F d s) "real_flow_b4bld" "Fl_O_b4bld:tot" "real_flow_b4bld.Fl_O_b4bld:tot" .total_hP)
    ∧ ((w₀ d s).FixedRd (F d s) "eff_poly_calc" "PR" "PR" ∧ (w₀ d s).FixedRd (F d s) "eff_poly_calc" "S_in" "Fl_I:tot:S"
      ∧ (w₀ d s).FixedRd (F d s) "eff_poly_calc" "S_out" "real_flow_b4bld.Fl_O_b4bld:tot:S"
      ∧ (w₀ d s).FixedRd (F d s) "eff_poly_calc" "Rt" "Fl_I:tot:R"
      ∧ (w₀ d s).FixedWr (F d s) "eff_poly_calc" "eff_poly" "eff_poly")
    ∧ ((w₀ d s).FixedRd (F d s) "real_flow" "h" "pwr_turb.ht_out" ∧ (w₀ d s).FixedRd (F d s) "real_flow" "P" "press_drop.Pt_out"
      ∧ (w₀ d s).FixedRd (F d s) "real_flow" "composition" "bld_add.composition_out"
      ∧ (w₀ d s).FixedReports (F d s) "real_flow" "Fl_O:tot" "Fl_O:tot" .total_hP) := by
  decide +kernel

private theorem w₀_stat : ∀ d,
    ((w₀ d true).FixedRd (F d true) "out_stat" "S" ("Fl_O:tot" ++ ":" ++ "S")
      ∧ (w₀ d true).FixedRd (F d true) "out_stat" "ht" ("Fl_O:tot" ++ ":" ++ "h")
      ∧ (w₀ d true).FixedRd (F d true) "out_stat" "W" "W_out"
      ∧ (w₀ d true).FixedRd (F d true) "out_stat" "composition" "bld_add.composition_out"
      ∧ (w₀ true true).FixedRd (F true true) "out_stat" "MN" "MN"
      ∧ (w₀ false true).FixedRd (F false true) "out_stat" "area" "area"
      ∧ (w₀ d true).FixedReports (F d true) "out_stat" "Fl_O:stat" "Fl_O:stat" .static_A)
    ∧ (w₀ d false).FixedRd (F d false) "W_passthru" "W_out" "W_out"
    ∧ (w₀ d false).FixedWr (F d false) "W_passthru" "Fl_O:stat:W" "Fl_O:stat:W" := by
  decide +kernel

private theorem w₀_pwr : ∀ d s,
    (∀ v ∈ (pwrTurbSub []).ins, (pwrTurbSub []).inName v ∈ (w₀ d s).ins
      ∧ (w₀ d s).src ((pwrTurbSub []).inName v)
        = (if v = "ht_out_ideal" then "ideal_flow.h" else (pwrTurbSub []).inName v))
    ∧ (∀ v ∈ (bldPressSub []).ins, (bldPressSub []).inName v ∈ (w₀ d s).ins
      ∧ (w₀ d s).src ((bldPressSub []).inName v) = (if v = "Pt_out" then "press_drop.Pt_out" else "Fl_I:tot:P"))
    ∧ (∀ v ∈ (bldAddSub (.tab 0) []).ins, (bldAddSub (.tab 0) []).inName v ∈ (w₀ d s).ins
      ∧ (w₀ d s).src ((bldAddSub (.tab 0) []).inName v) = (bldAddSub (.tab 0) []).inName v)
    ∧ "press_drop.Pt_out" ∈ (w₀ d s).outs := by
  decide +kernel

private theorem per_free : ∀ q ∈ [("", ":frac_P"), ("", ":stat:W"), ("", ":tot:h"), ("", ":tot:composition")],
    q ∈ per.ins ∧ q ∉ per.outs ∧ q ∉ per.conns.map (·.2) := by decide +kernel

section
variable {bs : List String} (hb : BleedNames turbineTails turbineReserved bs)
  (gas : (ℕ → ℝ) → TPGas) (gb : String → (ℕ → ℝ) → TPGas) (m : Map.TMap) (a : BleedAdder) (d s : Bool)
include hb

private theorem free {b : String} (hbm : b ∈ bs) {v : String}
    (hv : v ∈ [":frac_P", ":stat:W", ":tot:h", ":tot:composition"]) :
    (turbine gas gb m a bs d s).wiring.src (b ++ v) = b ++ v := by
  have h : ("", v) ∈ [("", ":frac_P"), ("", ":stat:W"), ("", ":tot:h"), ("", ":tot:composition")] := by
    simpa using hv
  obtain ⟨k1, k2, k3⟩ := per_free _ h
  have := (ext hb.plain gas gb m a d s).src_free_bld hb (per_fits d s) hbm k1 k2 k3
  rwa [bname_nil] at this

private theorem pwr_links :
    let w := (turbine gas gb m a bs d s).wiring
    (w.inSrc "pwr_turb" "W_in" = "Fl_I:stat:W" ∧ w.inSrc "pwr_turb" "W_out" = "W_out"
      ∧ w.inSrc "pwr_turb" "ht_in" = "Fl_I:tot:h" ∧ w.inSrc "pwr_turb" "ht_out_ideal" = "ideal_flow.h"
      ∧ w.inSrc "pwr_turb" "eff" = "eff" ∧ w.inSrc "pwr_turb" "Nmech" = "Nmech"
      ∧ w.outOf "pwr_turb" "ht_out_b4bld" = "ht_out_b4bld" ∧ w.outOf "pwr_turb" "ht_out" = "pwr_turb.ht_out"
      ∧ w.outOf "pwr_turb" "power" = "power" ∧ w.outOf "pwr_turb" "trq" = "trq")
    ∧ ∀ b ∈ bs, w.inSrc "pwr_turb" (b ++ ":W") = b ++ ":stat:W" ∧ w.inSrc "pwr_turb" (b ++ ":ht") = b ++ ":tot:h"
      ∧ w.inSrc "pwr_turb" (b ++ ":ht_ideal") = b ++ "_ideal.h" := by
  intro w
  have hn := names hb gas gb m a d s
  have he := ext hb.plain gas gb m a d s
  have hf := per_fits d s
  have hm : (pwrTurbSub bs).toDecl ∈ w.subs := by
    rw [show w.subs = _ from subs_eq gas gb m a d s]
    simp
  have ki : ∀ v ∈ (pwrTurbSub []).ins, w.inSrc "pwr_turb" v
      = (if v = "ht_out_ideal" then "ideal_flow.h" else (pwrTurbSub []).inName v) := by
    intro v hv
    rw [show w.inSrc "pwr_turb" v = _ from inSrc_of hn hm, pwr_in_fixed hv,
      he.src_fixed hb hf hn ((w₀_pwr d s).1 v hv).1, ((w₀_pwr d s).1 v hv).2]
  have ko : ∀ v, w.outOf "pwr_turb" v = (pwrTurbSub []).outName v := by
    intro v
    rw [show w.outOf "pwr_turb" v = _ from outOf_of hn hm]; rfl
  refine ⟨⟨ki _ (by decide), ki _ (by decide), ki _ (by decide), ki _ (by decide), ki _ (by decide), ki _ (by decide),
    ko _, ko _, ko _, ko _⟩, fun b hbm => ?_⟩
  obtain ⟨n1, n2, n3⟩ := pwr_in_bld hb.plain hbm
  refine ⟨?_, ?_, ?_⟩
  · rw [show w.inSrc "pwr_turb" (b ++ ":W") = _ from inSrc_of hn hm, n1]
    exact free hb gas gb m a d s hbm (by decide)
  · rw [show w.inSrc "pwr_turb" (b ++ ":ht") = _ from inSrc_of hn hm, n2]
    exact free hb gas gb m a d s hbm (by decide)
  · rw [show w.inSrc "pwr_turb" (b ++ ":ht_ideal") = _ from inSrc_of hn hm, n3]
    have := he.src_out_bld hb hf hbm (q := ("", "_ideal.h")) (by decide +kernel)
    rwa [bname_nil] at this

private theorem press_links :
    let w := (turbine gas gb m a bs d s).wiring
    (w.inSrc "blds" "Pt_in" = "Fl_I:tot:P" ∧ w.inSrc "blds" "Pt_out" = "press_drop.Pt_out")
    ∧ ∀ b ∈ bs, w.inSrc "blds" (b ++ ":frac_P") = b ++ ":frac_P" ∧ w.outOf "blds" (b ++ ":Pt") = "blds." ++ b ++ ":Pt" := by
  intro w
  have hn := names hb gas gb m a d s
  have he := ext hb.plain gas gb m a d s
  have hf := per_fits d s
  have hm : (bldPressSub bs).toDecl ∈ w.subs := by
    rw [show w.subs = _ from subs_eq gas gb m a d s]
    simp
  have ki : ∀ v ∈ (bldPressSub []).ins, w.inSrc "blds" v = (if v = "Pt_out" then "press_drop.Pt_out" else "Fl_I:tot:P") := by
    intro v hv
    rw [show w.inSrc "blds" v = _ from inSrc_of hn hm, press_in_fixed hv,
      he.src_fixed hb hf hn ((w₀_pwr d s).2.1 v hv).1, ((w₀_pwr d s).2.1 v hv).2]
  refine ⟨⟨ki _ (by decide), ki _ (by decide)⟩, fun b hbm => ⟨?_, ?_⟩⟩
  · rw [show w.inSrc "blds" (b ++ ":frac_P") = _ from inSrc_of hn hm, (press_in_bld hb.plain hbm).1]
    exact free hb gas gb m a d s hbm (by decide)
  · rw [show w.outOf "blds" (b ++ ":Pt") = _ from outOf_of hn hm]
    show "blds" ++ "." ++ (b ++ ":Pt") = _
    rw [← String.append_assoc]; rfl

private theorem add_links :
    let w := (turbine gas gb m a bs d s).wiring
    (w.inSrc "bld_add" "Fl_I:stat:W" = "Fl_I:stat:W" ∧ w.inSrc "bld_add" "Fl_I:tot:composition" = "Fl_I:tot:composition"
      ∧ w.outOf "bld_add" "Wout" = "W_out" ∧ w.outOf "bld_add" "composition_out" = "bld_add.composition_out")
    ∧ ∀ b ∈ bs, w.inSrc "bld_add" (b ++ ":W") = b ++ ":stat:W"
      ∧ w.inSrc "bld_add" (b ++ ":composition") = b ++ ":tot:composition" := by
  intro w
  have hn := names hb gas gb m a d s
  have he := ext hb.plain gas gb m a d s
  have hf := per_fits d s
  have hm : (bldAddSub a bs).toDecl ∈ w.subs := by
    rw [show w.subs = _ from subs_eq gas gb m a d s]
    simp
  have ki : ∀ v ∈ (bldAddSub (.tab 0) []).ins, w.inSrc "bld_add" v = (bldAddSub (.tab 0) []).inName v := by
    intro v hv
    rw [show w.inSrc "bld_add" v = _ from inSrc_of hn hm, add_in_fixed hb.plain a hv]
    exact (he.src_fixed hb hf hn ((w₀_pwr d s).2.2.1 v hv).1).trans ((w₀_pwr d s).2.2.1 v hv).2
  have ko : ∀ v, w.outOf "bld_add" v = (bldAddSub (.tab 0) []).outName v := by
    intro v
    rw [show w.outOf "bld_add" v = _ from outOf_of hn hm]; rfl
  refine ⟨⟨ki _ (by decide), ki _ (by decide), ko _, ko _⟩, fun b hbm => ?_⟩
  obtain ⟨-, n1, n2⟩ := add_in_bld hb.plain a hbm
  refine ⟨?_, ?_⟩
  · rw [show w.inSrc "bld_add" (b ++ ":W") = _ from inSrc_of hn hm, n2]
    exact free hb gas gb m a d s hbm (by decide)
  · rw [show w.inSrc "bld_add" (b ++ ":composition") = _ from inSrc_of hn hm, n1]
    exact free hb gas gb m a d s hbm (by decide)

private theorem solver_links {b : String} (hbm : b ∈ bs) :
    let w := (turbine gas gb m a bs d s).wiring
    (w.inSrc (b ++ "_inflow") "h" = b ++ ":tot:h" ∧ w.inSrc (b ++ "_inflow") "P" = "blds." ++ b ++ ":Pt"
      ∧ w.inSrc (b ++ "_inflow") "composition" = b ++ ":tot:composition"
      ∧ w.ReportsAs (b ++ "_inflow") "flow" (b ++ "_inflow.flow") .total_hP)
    ∧ (w.inSrc (b ++ "_ideal") "S" = b ++ "_inflow.flow:S" ∧ w.inSrc (b ++ "_ideal") "P" = "press_drop.Pt_out"
      ∧ w.inSrc (b ++ "_ideal") "composition" = b ++ ":tot:composition"
      ∧ w.ReportsAs (b ++ "_ideal") "flow" (b ++ "_ideal.flow") .total_SP
      ∧ w.outOf (b ++ "_ideal") "h" = b ++ "_ideal.h") := by
  intro w
  have hn := names hb gas gb m a d s
  have he := ext hb.plain gas gb m a d s
  have hf := per_fits d s
  have hms : ∀ u ∈ bleedIn (gb b) b, u.toDecl ∈ w.subs := by
    intro u hu
    rw [show w.subs = _ from subs_eq gas gb m a d s]
    simp only [List.mem_append, List.mem_flatMap, List.mem_map]
    exact Or.inl (Or.inl (Or.inr ⟨b, hbm, u, hu, rfl⟩))
  have h1 := hms _ (List.mem_cons_self)
  have h2 := hms _ (List.mem_cons_of_mem _ List.mem_cons_self)
  have c1 := he.src_conn_bld hb hf hn hbm (c := (.bld ("blds", ":Pt"), ("", "_inflow.P"))) (by decide)
  have c2 := he.src_conn_bld hb hf hn hbm (c := (.bld ("", "_inflow.flow:S"), ("", "_ideal.S"))) (by decide)
  have c3 := he.src_conn_bld hb hf hn hbm (c := (.fixed "press_drop.Pt_out", ("", "_ideal.P"))) (by decide)
  simp only [Ref.at, bname_nil] at c1 c2 c3
  have e1 := solver_names (gb b) b [.as "composition" (b ++ ":tot:composition"), .as "h" (b ++ ":tot:h")] .total_hP "_inflow" "P" rfl
  have e2 := solver_names (gb b) b [.as "composition" (b ++ ":tot:composition")] .total_SP "_ideal" "S" rfl
  have e3 := solver_names (gb b) b [.as "composition" (b ++ ":tot:composition")] .total_SP "_ideal" "P" rfl
  simp only [bname_nil] at e1 e2 e3
  have oi : ∀ v, w.outOf (b ++ "_inflow") v = b ++ "_inflow" ++ "." ++ v := fun v => outOf_of hn h1
  have od : ∀ v, w.outOf (b ++ "_ideal") v = b ++ "_ideal" ++ "." ++ v := fun v => outOf_of hn h2
  refine ⟨⟨?_, ?_, ?_, ⟨fun v _ => ?_, fun h => absurd h (by decide)⟩⟩, ?_, ?_, ?_,
    ⟨fun v _ => ?_, fun h => absurd h (by decide)⟩, ?_⟩
  · exact (inSrc_of hn h1).trans (free hb gas gb m a d s hbm (v := ":tot:h") (by decide))
  · refine (inSrc_of hn h1).trans ((congrArg w.src e1).trans (c1.trans ?_))
    rw [bname_cons b (by decide)]; rfl
  · exact (inSrc_of hn h1).trans (free hb gas gb m a d s hbm (v := ":tot:composition") (by decide))
  · rw [oi]; simp only [String.append_assoc]; rfl
  · exact (inSrc_of hn h2).trans ((congrArg w.src e2).trans c2)
  · exact (inSrc_of hn h2).trans ((congrArg w.src e3).trans c3)
  · exact (inSrc_of hn h2).trans (free hb gas gb m a d s hbm (v := ":tot:composition") (by decide))
  · rw [od]; simp only [String.append_assoc]; rfl
  · rw [od]; simp only [String.append_assoc]; rfl

end

/-! ## Laws -/

private theorem tab_mass {n : ℕ} (W h : ℝ) (c : Fin n → ℝ) (ss : List (TabStream n)) :
    (tabFlowCompute W h c ss).W = W + (ss.map (·.W)).sum := by
  have : ∀ (l : List (TabStream n)) (a : TabAcc n), (l.foldl (fun a s =>
      { other := fun i => a.other i + tabAir s.W s.comp * s.comp i
        W := a.W + s.W
        air := a.air + tabAir s.W s.comp
        hW := a.hW + s.W * s.h : TabAcc n }) a).W = a.W + (l.map (·.W)).sum := by
    intro l
    induction l with
    | nil => simp
    | cons b l ih => intro a; rw [List.foldl_cons, ih, List.map_cons, List.sum_cons]; ring
  exact this ss (tabStart W h c)

/-- **C56 (expansion).** A converged turbine with any bleeds, each of its own gas, obeys `TurbineLaws`, and with
statics its outlet passes the whole flow at the given Mach number or area. -/
theorem C56_turbine (gas : (ℕ → ℝ) → TPGas) (gb : String → (ℕ → ℝ) → TPGas) (m : Map.TMap) (a : BleedAdder)
    {bs : List String} (hb : BleedNames turbineTails turbineReserved bs) (d s : Bool) (E : Env)
    (hc : (turbine gas gb m a bs d s).Converged E) :
    TurbineLaws (gas (E.vec "Fl_I:tot:composition")) (gas (E.vec "Fl_O:tot:composition"))
      (fun b => gb b (E.vec (b ++ ":tot:composition"))) bs E
    ∧ (s = true → StaticOutlet (gas (E.vec "Fl_O:tot:composition")) E "Fl_O:tot" "Fl_O:stat" d
        (E.num "Fl_O:stat:W") (E.num "MN") (E.num "area"))
    ∧ E.vec "Fl_O:tot:composition" = E.vec "bld_add.composition_out" := by
  have hn := names hb gas gb m a d s
  have hf := per_fits d s
  have he := ext hb.plain gas gb m a d s
  have hF := F_sub (bs := bs) gas gb m a d s
  have hF₀ := F_sub₀ d s
  have rd : ∀ {n v x : String}, (w₀ d s).FixedRd (F d s) n v x → (turbine gas gb m a bs d s).wiring.inSrc n v = x :=
    fun h => FixedRd.transfer hb hf he hn hF hF₀ h
  have wr : ∀ {n v x : String}, (w₀ d s).FixedWr (F d s) n v x → (turbine gas gb m a bs d s).wiring.outOf n v = x :=
    fun h => FixedWr.transfer hf hn hF hF₀ h
  obtain ⟨-, ⟨p1, p2, p3⟩, i1, i2, i3, i4, i5, i6⟩ := w₀_head d s
  obtain ⟨⟨b1, b2, b3, b4⟩, ⟨y1, y2, y3, y4, y5⟩, r1, r2, r3, r4⟩ := w₀_tail d s
  -- pressure
  have hp : E.num "press_drop.Pt_out" = E.num "Fl_I:tot:P" / E.num "PR" := by
    have := hc.eqn hn (s := (turbineHead gas m d)[3]'(by simp [turbineHead])) (by simp [turbine, turbineHead])
    simp only [turbineHead, List.getElem_cons_succ, List.getElem_cons_zero, Wiring.rd, Wiring.wr, NC.rd, NC.wr, NC.inSrc_eq, NC.outOf_eq, rd p1, rd p2, wr p3] at this
    exact this
  -- ideal state
  have hid : thermo gas "ideal_flow" .total_SP "flow"
      [.as "S" "Fl_I:tot:S", .as "composition" "Fl_I:tot:composition"] [] ∈ (turbine gas gb m a bs d s).subs := by
    simp [turbine, turbineHead]
  have ti := hc.stationMem rfl hn hid "ideal_flow.flow" (FixedReports.transfer hf hn hF hF₀ i4)
  have ci := thermo_copies (hc.eqn hn hid) (.baseThermo, .h, .h) (by decide)
  have si := ti.state
  have sp := ti.sp rfl
  simp only [Wiring.rd, rd i1, rd i2, rd i3] at si sp
  have ci' : E.num "ideal_flow.h" = E.at "ideal_flow.flow" "h" := by
    have := ci
    simp only [Wiring.wr, nm, String.reduceAppend, reduceCtorEq, if_false] at this
    rw [show (thermo gas "ideal_flow" TG.Mode.total_SP "flow" [Prom.as "S" "Fl_I:tot:S",
      Prom.as "composition" "Fl_I:tot:composition"] []).name = "ideal_flow" from rfl, wr i5, wr i6] at this
    exact this
  -- main stream after its expansion
  have tb := hc.stationMem rfl hn (gas := gas) (name := "real_flow_b4bld") (m := .total_hP) (fl := "Fl_O_b4bld:tot")
      (pI := [.as "composition" "Fl_I:tot:composition"]) (pO := [])
      (by simp [turbine, turbineTail]) "real_flow_b4bld.Fl_O_b4bld:tot" (FixedReports.transfer hf hn hF hF₀ b4)
  have sb1 := tb.state
  have sb2 := tb.hp rfl
  simp only [Wiring.rd, rd b1, rd b2, rd b3] at sb1 sb2
  have hy : E.num "eff_poly" = Turb.effPoly (fun
      | .PR => E.num "PR" | .S_in => E.num "Fl_I:tot:S" | .S_out => E.num "real_flow_b4bld.Fl_O_b4bld:tot:S"
      | .Rt => E.num "Fl_I:tot:R") := by
    have := hc.eqn hn (s := (turbineTail gas d s)[1]'(by simp [turbineTail])) (by simp [turbine, turbineTail])
    simp only [turbineTail, List.getElem_cons_succ, List.getElem_cons_zero, Wiring.rd, Wiring.wr, NC.rd, NC.wr, NC.inSrc_eq, NC.outOf_eq, rd y1, rd y2, rd y3,
      rd y4, wr y5] at this
    exact this
  -- outlet
  have tr := hc.stationMem rfl hn (gas := gas) (name := "real_flow") (m := .total_hP) (fl := "Fl_O:tot")
      (pI := []) (pO := [.pre "Fl_O:tot:"])
      (by simp [turbine, turbineTail]) "Fl_O:tot" (FixedReports.transfer hf hn hF hF₀ r4)
  have s1 := tr.state
  have s2 := tr.hp rfl
  have s3 := tr.comp rfl
  simp only [Wiring.rd, rd r1, rd r2, rd r3, Env.at, String.reduceAppend] at s1 s2 s3
  -- bleeds
  obtain ⟨⟨l1, l2⟩, lb⟩ := press_links hb gas gb m a d s
  have hPb : ∀ b ∈ bs, E.num ("blds." ++ b ++ ":Pt") = E.num "press_drop.Pt_out"
      + E.num (b ++ ":frac_P") * (E.num "Fl_I:tot:P" - E.num "press_drop.Pt_out") := by
    intro b hbm
    obtain ⟨k, hk, rfl⟩ := List.getElem_of_mem hbm
    have := hc.eqn hn (s := bldPressSub bs) (by simp [turbine]) ⟨k, hk⟩
    obtain ⟨u1, u2⟩ := lb bs[k] hbm
    simp only [show (bldPressSub bs).name = "blds" from rfl, Wiring.rd, Wiring.wr, NC.rd, NC.wr, NC.inSrc_eq, NC.outOf_eq, Turb.bldPt, l1, l2, Fin.getElem_fin, u1,
      u2] at this
    exact this
  have hbl : ∀ b ∈ bs, BleedExpansion (gb b (E.vec (b ++ ":tot:composition"))) E b (E.num (b ++ "_ideal.h")) := by
    intro b hbm
    obtain ⟨⟨f1, f2, f3, f4⟩, g1, g2, g3, g4, g5⟩ := solver_links hb gas gb m a d s hbm
    have hm1 : thermo (gb b) (b ++ "_inflow") .total_hP "flow"
        [.as "composition" (b ++ ":tot:composition"), .as "h" (b ++ ":tot:h")] [] ∈ (turbine gas gb m a bs d s).subs := by
      simp only [turbine, List.mem_append, List.mem_flatMap]
      exact Or.inl (Or.inl (Or.inr ⟨b, hbm, by simp [bleedIn]⟩))
    have hm2 : thermo (gb b) (b ++ "_ideal") .total_SP "flow"
        [.as "composition" (b ++ ":tot:composition")] [] ∈ (turbine gas gb m a bs d s).subs := by
      simp only [turbine, List.mem_append, List.mem_flatMap]
      exact Or.inl (Or.inl (Or.inr ⟨b, hbm, by simp [bleedIn]⟩))
    have t1 := hc.stationMem rfl hn hm1 (b ++ "_inflow.flow") f4
    have t2 := hc.stationMem rfl hn hm2 (b ++ "_ideal.flow") g4
    have a1 := t1.state
    have a2 := t1.hp rfl
    have a3 := t2.state
    have a4 := t2.sp rfl
    have a5 := thermo_copies (hc.eqn hn hm2) (.baseThermo, .h, .h) (by decide)
    simp only [Wiring.rd, f1, f2, f3, g1, g2, g3] at a1 a2 a3 a4
    have a5' : E.num (b ++ "_ideal.h") = E.at (b ++ "_ideal.flow") "h" := by
      have h2 := g4.1 .h (by decide)
      simp only [Wiring.wr, nm, String.reduceAppend, reduceCtorEq, if_false] at a5 h2
      rw [show (thermo (gb b) (b ++ "_ideal") .total_SP "flow"
        [.as "composition" (b ++ ":tot:composition")] []).name = b ++ "_ideal" from rfl, g5, h2] at a5
      exact a5
    have a6 : E.num (b ++ "_inflow.flow:S") = E.at (b ++ "_inflow.flow") "S" := by
      simp only [Env.at, String.append_assoc]; rfl
    have hpb := hPb b hbm
    rw [← s2.2] at hpb a4
    refine ⟨E.at (b ++ "_inflow.flow") "T", ?_, E.at (b ++ "_ideal.flow") "T", ?_, ?_⟩
    · rw [← hpb, ← a2.2, ← a1.h, a2.1]
    · rw [← hpb, ← a4.2, ← a3.S, a4.1, a6, a1.S, a2.2]
    · rw [← a4.2, ← a3.h, a5']
  -- power
  obtain ⟨⟨c1, c2, c3, c4, c5, c6, c7, c8, c9, c10⟩, cb⟩ := pwr_links hb gas gb m a d s
  obtain ⟨x, x1, x2, x3, x4, x5, x6, xb, hB, hH, hP, hT⟩ : ∃ x : Turb.EI bs.length → ℝ, x .W_in = E.num "Fl_I:stat:W"
      ∧ x .W_out = E.num "W_out" ∧ x .ht_in = E.num "Fl_I:tot:h" ∧ x .ht_out_ideal = E.num "ideal_flow.h"
      ∧ x .eff = E.num "eff" ∧ x .Nmech = E.num "Nmech"
      ∧ (∀ k : Fin bs.length, x (.W k) = E.num (bs[k] ++ ":stat:W") ∧ x (.ht k) = E.num (bs[k] ++ ":tot:h")
        ∧ x (.ht_ideal k) = E.num (bs[k] ++ "_ideal.h"))
      ∧ E.num "ht_out_b4bld" = Turb.enthPower x .ht_out_b4bld ∧ E.num "pwr_turb.ht_out" = Turb.enthPower x .ht_out
      ∧ E.num "power" = Turb.enthPower x .power ∧ E.num "trq" = Turb.enthPower x .trq := by
    obtain ⟨h1, h2, h3, h4⟩ := hc.eqn hn (s := pwrTurbSub bs) (by simp [turbine])
    refine ⟨_, congrArg E.num c1, congrArg E.num c2, congrArg E.num c3, congrArg E.num c4, congrArg E.num c5,
      congrArg E.num c6, fun k => ?_, (congrArg E.num c7).symm.trans h1, (congrArg E.num c8).symm.trans h2,
      (congrArg E.num c9).symm.trans h3, (congrArg E.num c10).symm.trans h4⟩
    obtain ⟨u1, u2, u3⟩ := cb bs[k] (List.getElem_mem _)
    exact ⟨congrArg E.num u1, congrArg E.num u2, congrArg E.num u3⟩
  -- mass
  obtain ⟨⟨m1, m2, m3, m4⟩, mb⟩ := add_links hb gas gb m a d s
  have hW : E.num "W_out" = E.num "Fl_I:stat:W" + (bs.map fun b => E.num (b ++ ":stat:W")).sum := by
    have h := hc.eqn hn (s := bldAddSub a bs) (by simp [turbine])
    have hs : (bs.map fun b => E.num ((turbine gas gb m a bs d s).wiring.inSrc "bld_add" (b ++ ":W"))).sum
        = (bs.map fun b => E.num (b ++ ":stat:W")).sum := by
      congr 1
      exact List.map_congr_left fun b hbm => congrArg E.num (mb b hbm).1
    rw [← hs, ← m3]
    cases a with
    | cea pin pmix pb =>
      refine h.2.1.trans ((Turb.C35_mass _ _ _ _ _ _).trans ?_)
      rw [List.map_map]
      exact congrArg (· + _) (congrArg E.num m1)
    | tab n =>
      refine h.2.1.trans ((tab_mass _ _ _ _).trans ?_)
      rw [List.map_map]
      exact congrArg (· + _) (congrArg E.num m1)
  -- statics
  obtain ⟨hq, hps⟩ := w₀_stat d
  have hst : s = true → StaticOutlet (gas (E.vec "bld_add.composition_out")) E "Fl_O:tot" "Fl_O:stat" d
        (E.num "W_out") (E.num "MN") (E.num "area") := by
    rintro rfl
    obtain ⟨q1, q2, q3, q4, q5, q6, q7⟩ := hq
    refine hc.staticOutletMem (d := d) (gas := gas) (name := "out_stat")
      (pI := [.var "MN"]) (pO := [.pre "Fl_O:stat:"]) (pI' := [.var "area"]) (pO' := [.pre "Fl_O:stat:"])
      rfl hn (by simp [turbine, turbineTail]) (FixedReports.transfer hf hn hF hF₀ q7)
      (rd q1) (rd q2) (rd q3) (rd q4) ?_ ?_
    · rintro rfl; exact rd q5
    · rintro rfl; exact rd q6
  have hWo : E.num "Fl_O:stat:W" = E.num "W_out" := by
    cases s
    · have hw := hc.eqn hn (s := passThrough "W_passthru" "W_out" "Fl_O:stat:W") (by simp [turbine, turbineTail])
      have e1 := rd hps.1
      have e2 := wr hps.2
      simp only [passThrough, Wiring.rd, Wiring.wr] at hw
      rw [e1, e2] at hw
      exact hw
    · exact (hst rfl).flow
  rw [← hWo] at hst hW x2
  rw [s3]
  refine ⟨⟨by rw [s2.2, hp], ⟨E.num "ideal_flow.h", fun b => E.num (b ++ "_ideal.h"), ?_, hbl, ?_, ?_⟩, s1, ?_, hW, ?_,
    ?_⟩, hst, rfl⟩
  · exact ⟨E.at "ideal_flow.flow" "T", by rw [s2.2, ← sp.2, ← si.S, sp.1], by rw [s2.2, ← sp.2, ← si.h, ci']⟩
  · have := (Turb.C35_efficiency x).1
    rw [← hB, x3, x4, x5] at this
    linarith
  · rw [← sum_bleeds, hP]
    by_cases h0 : x .W_out = 0
    · have := (Turb.C35_energy (Function.update x .W_out 1) (by simp)).2
      have e : Turb.enthPower (Function.update x .W_out 1) .power = Turb.enthPower x .power := by
        simp [Turb.enthPower, Turb.pwr]
      rw [e] at this
      simp only [ne_eq, reduceCtorEq, not_false_eq_true, Function.update_of_ne, x1, x3, x4, x5, (xb _).1, (xb _).2.1,
        (xb _).2.2, BTU_s2HP] at this
      exact this
    · have := (Turb.C35_energy x h0).2
      simp only [x1, x3, x4, x5, (xb _).1, (xb _).2.1, (xb _).2.2, BTU_s2HP] at this
      exact this
  · refine ⟨E.at "real_flow_b4bld.Fl_O_b4bld:tot" "T", ?_, ?_⟩
    · rw [s2.2, ← sb2.2, ← sb1.h, sb2.1]
    · rw [hy, s2.2, ← sb2.2, ← sb1.S]; rfl
  · intro h0
    rw [← x2] at h0
    have := (Turb.C35_energy x h0).1
    rw [← hH, ← hP, ← s2.1] at this
    simp only [x1, x2, x3, (xb _).1, (xb _).2.1, BTU_s2HP] at this
    rw [← sum_bleeds bs fun b => E.num (b ++ ":stat:W") * E.num (b ++ ":tot:h")]
    exact this
  · intro h0
    rw [← x6] at h0 ⊢
    rw [hT, hP]
    exact Turb.C35_torque x h0

/-- **C56 (map).** The turbine runs at a point of its map: referred speed and flow are those of the inlet, the
machine's values are the scalars times the map's (at design for a usable point). -/
theorem C56_map (gas : (ℕ → ℝ) → TPGas) (gb : String → (ℕ → ℝ) → TPGas) (m : Map.TMap) (a : BleedAdder)
    {bs : List String} (hb : BleedNames turbineTails turbineReserved bs) (d s : Bool) (E : Env)
    (hc : (turbine gas gb m a bs d s).Converged E) :
    let al := E.num "map.alphaMap"
    let N := E.num "map.NpMap"
    let P := E.num "map.PRmap"
    (0 < E.num "Fl_I:tot:T" → E.num "Np" * √(E.num "Fl_I:tot:T") = E.num "Nmech")
    ∧ E.num "Wp" = E.num "Fl_I:stat:W" * √(E.num "Fl_I:tot:T") / E.num "Fl_I:tot:P"
    ∧ ((d = true → Map.Usable (m.at al N P)) → OnMap E "p" N P (m.eff al N P) (m.W al N P)) := by
  intro al N P
  have hn := names hb gas gb m a d s
  have hf := per_fits d s
  have he := ext hb.plain gas gb m a d s
  have hF := F_sub (bs := bs) gas gb m a d s
  have hF₀ := F_sub₀ d s
  have rd : ∀ {n v x : String}, (w₀ d s).FixedRd (F d s) n v x → (turbine gas gb m a bs d s).wiring.inSrc n v = x :=
    fun h => FixedRd.transfer hb hf he hn hF hF₀ h
  have wr : ∀ {n v x : String}, (w₀ d s).FixedWr (F d s) n v x → (turbine gas gb m a bs d s).wiring.outOf n v = x :=
    fun h => FixedWr.transfer hf hn hF hF₀ h
  obtain ⟨⟨c1, c2, c3, c4, c5, c6⟩, -⟩ := w₀_head d s
  have h1 := hc.eqn hn (s := (turbineHead gas m d)[1]'(by simp [turbineHead])) (by simp [turbine, turbineHead])
  simp only [turbineHead, List.getElem_cons_succ, List.getElem_cons_zero, Wiring.rd, Wiring.wr, NC.rd, NC.wr, NC.inSrc_eq, NC.outOf_eq, rd c1, rd c2, rd c3,
    rd c4, wr c5, wr c6, Turb.corr] at h1
  obtain ⟨hW, hN⟩ := h1
  -- the map group
  have hmap : ∃ pI pO, (turbineMap m d).asSub "map" pI pO ∈ (turbine gas gb m a bs d s).subs := by
    cases d
    · exact ⟨[.var "Np", .var "Wp", .var "s_PR", .var "s_Wp", .var "s_eff", .var "s_Np"], [.var "PR", .var "eff"],
        by simp [turbine, turbineHead]⟩
    · exact ⟨[.var "Np", .var "Wp", .var "PR", .var "eff"], [.var "s_PR", .var "s_Wp", .var "s_eff", .var "s_Np"],
        by simp [turbine, turbineHead]⟩
  obtain ⟨pI, pO, hmem⟩ := hmap
  obtain ⟨E', hE', hi, ho⟩ := hc.eqn hn hmem
  have hw : (turbineMap m d).wiring = (turbineMap m₀ d).wiring := by cases d <;> rfl
  have hv : ∀ v ∈ mapVars, E'.num v = E.num (mapName v) := by
    intro v hv
    rcases w₀_map d s v hv with ⟨h, k⟩ | ⟨h, k⟩
    · rw [← hw] at h
      rw [(hi v h).1]
      exact congrArg E.num (rd k)
    · rw [← hw] at h
      rw [← (ho v h).1]
      exact congrArg E.num (wr k)
  have v1 := hv "alphaMap" (by decide)
  have v2 := hv "NpMap" (by decide)
  have v3 := hv "PRmap" (by decide)
  have v4 := hv "Np" (by decide)
  have v5 := hv "Wp" (by decide)
  have v6 := hv "PR" (by decide)
  have v7 := hv "eff" (by decide)
  have v8 := hv "s_Np" (by decide)
  have v9 := hv "s_PR" (by decide)
  have v10 := hv "s_eff" (by decide)
  have v11 := hv "s_Wp" (by decide)
  have hm := C54_turbine_map m d E' hE'
  simp only [show mapName "alphaMap" = "map.alphaMap" from rfl, show mapName "NpMap" = "map.NpMap" from rfl,
    show mapName "PRmap" = "map.PRmap" from rfl] at v1 v2 v3
  simp only [v1, v2, v3] at hm
  refine ⟨fun hT => ?_, ?_, fun hu => ?_⟩
  · rw [hN, Real.sqrt_eq_rpow, mul_assoc, ← Real.rpow_add hT]
    norm_num
  · rw [hW, Real.sqrt_eq_rpow]; norm_num
  · have := hm hu
    have q1 := this.speed
    have q2 := this.ratio
    have q3 := this.efficiency
    have q4 := this.flow
    simp only [String.reduceAppend] at q1 q4
    rw [v4, v8] at q1
    rw [v6, v9] at q2
    rw [v7, v10] at q3
    rw [v5, v11] at q4
    exact ⟨q1, q2, q3, q4⟩

/-- **C56 (mixture, CEA).** The outlet composition has unit mass and carries, element by element, what the main
stream and the bleeds bring. -/
theorem C56_cea (gas : (ℕ → ℝ) → TPGas) (gb : String → (ℕ → ℝ) → TPGas) (m : Map.TMap)
    {bs : List String} (hb : BleedNames turbineTails turbineReserved bs) (d s : Bool) (E : Env)
    (data : ThermoData) (f : PyDict ℝ) (fb : String → PyDict ℝ) (hin : f.keys.Nodup) (p pm : Properties)
    (pb : String → Properties) (h1 : mkProperties data (some f) = .ok p)
    (h2 : ∀ b ∈ bs, mkProperties data (some (fb b)) = .ok (pb b))
    (hm : mkProperties data (some (mixedFlows f (bs.map fb))) = .ok pm)
    (hwt : ∀ e ∈ pm.elements, data.wtOf e ≠ 0)
    (hc1 : totalMass p.elements data.wtOf (fun k => E.vec "Fl_I:tot:composition" k) ≠ 0)
    (hc2 : ∀ b ∈ bs, totalMass (pb b).elements data.wtOf (fun k => E.vec (b ++ ":tot:composition") k) ≠ 0)
    (hW : E.num "Fl_O:stat:W" ≠ 0)
    (hc : (turbine gas gb m (.cea p pm pb) bs d s).Converged E) :
    totalMass pm.elements data.wtOf (fun k => E.vec "Fl_O:tot:composition" k) = 1
    ∧ ∀ e, E.num "Fl_O:stat:W" * elemMassFrac pm.elements data.wtOf (fun k => E.vec "Fl_O:tot:composition" k) e
        = E.num "Fl_I:stat:W" * elemMassFrac p.elements data.wtOf (fun k => E.vec "Fl_I:tot:composition" k) e
          + (bs.map fun b => E.num (b ++ ":stat:W")
              * elemMassFrac (pb b).elements data.wtOf (fun k => E.vec (b ++ ":tot:composition") k) e).sum := by
  obtain ⟨hl, -, hcomp⟩ := C56_turbine gas gb m _ hb d s E hc
  obtain ⟨⟨m1, m2, m3, m4⟩, mb⟩ := add_links hb gas gb m (.cea p pm pb) d s
  have hn := names hb gas gb m (.cea p pm pb) d s
  have ha := hc.eqn hn (s := bldAddSub (.cea p pm pb) bs) (by simp [turbine])
  set w := (turbine gas gb m (.cea p pm pb) bs d s).wiring
  set S : List MixStream := bs.map fun b => ⟨pb b, E.num (b ++ ":stat:W"), E.num (w.inSrc "bld_add" (b ++ ":h")),
    fun k => E.vec (b ++ ":tot:composition") k⟩ with hS
  set h0 := E.num (w.inSrc "bld_add" "Fl_I:tot:h")
  have hSe : (bs.map fun b => (⟨pb b, (w.rd E "bld_add").num (b ++ ":W"), (w.rd E "bld_add").num (b ++ ":h"),
      fun k => (w.rd E "bld_add").vec (b ++ ":composition") k⟩ : MixStream)) = S := by
    refine List.map_congr_left fun b hbm => ?_
    simp only [Wiring.rd, (mb b hbm).1, (mb b hbm).2]
  have ha : E.num "W_out" = (flowCompute p pm (E.num "Fl_I:stat:W") h0 (fun k => E.vec "Fl_I:tot:composition" k) S).W
      ∧ ∀ k : Fin pm.elements.length, E.vec "bld_add.composition_out" k
        = (flowCompute p pm (E.num "Fl_I:stat:W") h0 (fun k => E.vec "Fl_I:tot:composition" k) S).comp k := by
    simp only [bldAddSub, hSe] at ha
    simp only [Wiring.rd, Wiring.wr, NC.rd, NC.wr, NC.inSrc_eq, NC.outOf_eq, m1, m2, m3, m4] at ha
    exact ⟨ha.2.1, ha.2.2⟩
  have hsum : (S.map (·.W)).sum = (bs.map fun b => E.num (b ++ ":stat:W")).sum := by
    rw [hS, List.map_map]; rfl
  have hWo := hl.mass
  obtain ⟨k1, k2, k3, -⟩ := C11_flow_conservation data f hin (bs.map fb) p pm h1 hm S
    (by rw [hS, List.forall₂_map_left_iff, List.forall₂_map_right_iff]
        exact List.forall₂_same.mpr fun b hbm => h2 b hbm)
    hwt (E.num "Fl_I:stat:W") h0 (fun k => E.vec "Fl_I:tot:composition" k) hc1
    (by intro t ht
        rw [hS, List.mem_map] at ht
        obtain ⟨b, hbm, rfl⟩ := ht
        exact hc2 b hbm)
    (by rw [hsum, ← hWo]; exact hW)
  have hcv : (fun k : Fin pm.elements.length => E.vec "Fl_O:tot:composition" k)
      = (flowCompute p pm (E.num "Fl_I:stat:W") h0 (fun k => E.vec "Fl_I:tot:composition" k) S).comp := by
    funext k; rw [hcomp]; exact ha.2 k
  refine ⟨by rw [hcv]; exact k2, fun e => ?_⟩
  have k1' : E.num "Fl_O:stat:W" = (flowCompute p pm (E.num "Fl_I:stat:W") h0 (fun k => E.vec "Fl_I:tot:composition" k) S).W := by
    rw [Turb.C35_mass, hWo, hsum]
  rw [hcv, k1', k3 e, List.map_map]
  simp only [Function.comp_def]
  rw [hS, List.map_map]
  rfl

/-- **C56 (mixture, tabular).** Air and each additive of the main stream and the bleeds add up. -/
theorem C56_tab (gas : (ℕ → ℝ) → TPGas) (gb : String → (ℕ → ℝ) → TPGas) (m : Map.TMap)
    {bs : List String} (hb : BleedNames turbineTails turbineReserved bs) (d s : Bool) (E : Env) (n : ℕ)
    (hc1 : 1 + ∑ i : Fin n, E.vec "Fl_I:tot:composition" i ≠ 0)
    (hc2 : ∀ b ∈ bs, 1 + ∑ i : Fin n, E.vec (b ++ ":tot:composition") i ≠ 0)
    (hair : airMass (E.num "Fl_I:stat:W") (fun k : Fin n => E.vec "Fl_I:tot:composition" k)
      + (bs.map fun b => airMass (E.num (b ++ ":stat:W")) (fun k : Fin n => E.vec (b ++ ":tot:composition") k)).sum ≠ 0)
    (hW : E.num "Fl_O:stat:W" ≠ 0)
    (hc : (turbine gas gb m (.tab n) bs d s).Converged E) :
    let c : String → Fin n → ℝ := fun st k => E.vec (st ++ ":tot:composition") k
    airMass (E.num "Fl_O:stat:W") (c "Fl_O") = airMass (E.num "Fl_I:stat:W") (c "Fl_I")
        + (bs.map fun b => airMass (E.num (b ++ ":stat:W")) (c b)).sum
    ∧ ∀ i, additiveMass (E.num "Fl_O:stat:W") (c "Fl_O") i = additiveMass (E.num "Fl_I:stat:W") (c "Fl_I") i
        + (bs.map fun b => additiveMass (E.num (b ++ ":stat:W")) (c b) i).sum := by
  intro c
  obtain ⟨hl, -, hcomp⟩ := C56_turbine gas gb m _ hb d s E hc
  obtain ⟨⟨m1, m2, m3, m4⟩, mb⟩ := add_links hb gas gb m (.tab n) d s
  have hn := names hb gas gb m (.tab n) d s
  have ha := hc.eqn hn (s := bldAddSub (.tab n) bs) (by simp [turbine])
  set w := (turbine gas gb m (.tab n) bs d s).wiring
  set S : List (TabStream n) := bs.map fun b => ⟨c b, E.num (b ++ ":stat:W"), E.num (w.inSrc "bld_add" (b ++ ":h"))⟩ with hS
  set h0 := E.num (w.inSrc "bld_add" "Fl_I:tot:h")
  have hSe : (bs.map fun b => (⟨fun k => (w.rd E "bld_add").vec (b ++ ":composition") k, (w.rd E "bld_add").num (b ++ ":W"),
      (w.rd E "bld_add").num (b ++ ":h")⟩ : TabStream n)) = S := by
    refine List.map_congr_left fun b hbm => ?_
    simp only [Wiring.rd, (mb b hbm).1, (mb b hbm).2]
    rfl
  have ha : ∀ k : Fin n, E.vec "bld_add.composition_out" k
        = (tabFlowCompute (E.num "Fl_I:stat:W") h0 (c "Fl_I") S).comp k := by
    simp only [bldAddSub, hSe] at ha
    simp only [Wiring.rd, Wiring.wr, NC.rd, NC.wr, NC.inSrc_eq, NC.outOf_eq, m1, m2, m3, m4] at ha
    exact ha.2.2
  have hsum : (S.map (·.W)).sum = (bs.map fun b => E.num (b ++ ":stat:W")).sum := by
    rw [hS, List.map_map]; rfl
  have hWo := hl.mass
  obtain ⟨k1, k2, k3, -⟩ := C12_tab_mixing (E.num "Fl_I:stat:W") h0 (c "Fl_I") S hc1
    (by intro t ht
        rw [hS, List.mem_map] at ht
        obtain ⟨b, hbm, rfl⟩ := ht
        exact hc2 b hbm)
    (by rw [hS, List.map_map]; exact hair)
    (by rw [hsum, ← hWo]; exact hW)
  have hcv : c "Fl_O" = (tabFlowCompute (E.num "Fl_I:stat:W") h0 (c "Fl_I") S).comp := by
    funext k
    show E.vec "Fl_O:tot:composition" k = _
    rw [hcomp]; exact ha k
  have k1' : E.num "Fl_O:stat:W" = (tabFlowCompute (E.num "Fl_I:stat:W") h0 (c "Fl_I") S).W := by
    rw [k1, hsum, hWo]
  rw [hcv, k1']
  refine ⟨?_, fun i => ?_⟩
  · rw [k2, hS, List.map_map]; rfl
  · rw [k3 i, hS, List.map_map]; rfl

/-! ## A converged example -/

namespace C56Example
open C48Example (unitGas tot sta)
open C50Example (mov mov_ok)
open C54Example (tmap expanding expanding_converged)

/-- Two bleeds. -/
abbrev two : List String := ["ngv", "rotor"]

theorem two_ok : BleedNames turbineTails turbineReserved two :=
  ⟨by decide, by decide, by decide +kernel, by decide +kernel⟩

/-- Ideal state of the main stream. -/
noncomputable def ideal : TG.Station := ⟨0.25, 2, 0.25, 0, 1, 1, 1, 1, 1⟩
/-- Main stream after its expansion. -/
noncomputable def main : TG.Station := ⟨1.75, 2, 1.75, 0, 1, 1, 1, 1, 1⟩
/-- The bleeds where they enter. -/
noncomputable def cool : TG.Station := ⟨1.5, 6, 1.5, 0, 1, 1, 1, 1, 1⟩
/-- The bleeds after an ideal expansion. -/
noncomputable def coolIdeal : TG.Station := ⟨0.5, 2, 0.5, 0, 1, 1, 1, 1, 1⟩

/-- Half fuel, half air. -/
noncomputable def rich : ℕ → ℝ := fun k => if k = 0 then 1 else 0
/-- A quarter fuel. -/
noncomputable def lean : ℕ → ℝ := fun k => if k = 0 then 1 / 3 else 0

/-- Pressure ratio 5 at efficiency 1/4; each bleed of air is half as much as the main stream and enters half way. -/
noncomputable def spun : Env := Env.ofTable
  ([("Fl_I:stat:W", 80), ("Fl_I:tot:T", 2.25), ("Fl_I:tot:P", 10), ("Fl_I:tot:h", 2.25), ("Fl_I:tot:S", 0), ("Fl_I:tot:R", 1),
    ("ngv:stat:W", 40), ("rotor:stat:W", 40), ("ngv:tot:h", 1.5), ("rotor:tot:h", 1.5), ("ngv:frac_P", 0.5),
    ("rotor:frac_P", 0.5), ("blds.ngv:Pt", 6), ("blds.rotor:Pt", 6), ("MN", 1), ("Nmech", 9), ("W_out", 160),
    ("ht_out_b4bld", 1.75), ("pwr_turb.ht_out", 1.5), ("power", 84.891192), ("trq", 84.891192 / 9 * 5252.11),
    ("press_drop.Pt_out", 2), ("eff_poly", 1),
    ("map.alphaMap", 0), ("map.NpMap", 2), ("map.PRmap", 3), ("map.effMap", 0.5), ("map.WpMap", 6),
    ("Np", 6), ("PR", 5), ("eff", 0.25), ("Wp", 12), ("s_Np", 3), ("s_PR", 2), ("s_eff", 0.5), ("s_Wp", 2)]
    ++ stationRows "ideal_flow." ideal ++ stationRows "ideal_flow.flow:" ideal
    ++ stationRows "real_flow_b4bld." main ++ stationRows "real_flow_b4bld.Fl_O_b4bld:tot:" main
    ++ stationRows "real_flow." tot ++ stationRows "Fl_O:tot:" tot
    ++ stationRows "ngv_inflow." cool ++ stationRows "ngv_inflow.flow:" cool
    ++ stationRows "rotor_inflow." cool ++ stationRows "rotor_inflow.flow:" cool
    ++ stationRows "ngv_ideal." coolIdeal ++ stationRows "ngv_ideal.flow:" coolIdeal
    ++ stationRows "rotor_ideal." coolIdeal ++ stationRows "rotor_ideal.flow:" coolIdeal
    ++ stationRows "out_stat." sta
    ++ stationRows "Fl_O:stat:" sta ++ staticRows "out_stat." (mov 160) 160
    ++ staticRows "Fl_O:stat:" (mov 160) 160)
  [("Fl_I:tot:composition", rich), ("ideal_flow.flow:composition", rich),
   ("real_flow_b4bld.Fl_O_b4bld:tot:composition", rich), ("bld_add.composition_out", lean),
   ("Fl_O:tot:composition", lean)]

set_option maxHeartbeats 2000000 in
theorem spun_converged : (turbine unitGas (fun _ => unitGas) tmap (.tab 1) two true true).Converged spun := by
  refine Group.converged_quick rfl (names two_ok unitGas (fun _ => unitGas) tmap (.tab 1) true true) ?_
  obtain ⟨⟨c1, c2, c3, c4, c5, c6, c7, c8, c9, c10⟩, cb⟩ := pwr_links two_ok unitGas (fun _ => unitGas) tmap (.tab 1) true true
  obtain ⟨⟨l1, l2⟩, lb⟩ := press_links two_ok unitGas (fun _ => unitGas) tmap (.tab 1) true true
  obtain ⟨⟨m1, m2, m3, m4⟩, mb⟩ := add_links two_ok unitGas (fun _ => unitGas) tmap (.tab 1) true true
  intro s hs
  simp only [turbine, turbineHead, turbineTail, bleedIn, List.flatMap_cons, List.flatMap_nil, if_true, List.cons_append,
    List.nil_append, List.mem_cons, List.not_mem_nil, or_false, List.map_cons, List.map_nil] at hs
  have q1 : (2.25 : ℝ) ^ (0.5 : ℝ) = 1.5 := by
    rw [show (0.5 : ℝ) = 1 / 2 by norm_num, ← Real.sqrt_eq_rpow, show (2.25 : ℝ) = 1.5 ^ 2 by norm_num]
    exact Real.sqrt_sq (by norm_num)
  have q2 : (2.25 : ℝ) ^ (-0.5 : ℝ) = 1 / 1.5 := by
    rw [Real.rpow_neg (by norm_num), q1, one_div]
  rcases hs with rfl | rfl | rfl | rfl | rfl | rfl | rfl | rfl | rfl | rfl | rfl | rfl | rfl | rfl | rfl | rfl | rfl | rfl
  · exact trivial
  · show (12 : ℝ) = 80 * (2.25 : ℝ) ^ (0.5 : ℝ) / 10 ∧ (6 : ℝ) = 9 * (2.25 : ℝ) ^ (-0.5 : ℝ)
    rw [q1, q2]; norm_num
  · refine ⟨expanding, expanding_converged, ?_, ?_⟩
    · intro n hn
      have : n ∈ turbineMapInputs true := (C54_turbine_interface tmap true).2 n |>.mp hn
      simp only [turbineMapInputs, if_true, List.cons_append, List.nil_append] at this
      fin_cases this <;> exact ⟨by krfl, by krfl⟩
    · intro n hn
      have hl : (turbineMap tmap true).wiring.outs = ["effMap", "WpMap", "s_Np", "s_PR", "s_eff", "s_Wp"] := by
        rw [show (turbineMap tmap true).wiring = (turbineMap m₀ true).wiring from rfl]
        decide +kernel
      rw [hl] at hn
      fin_cases hn <;> exact ⟨by krfl, by krfl⟩
  · show (2 : ℝ) = 10 / 5
    norm_num
  · total_of ideal
  · exact trivial
  · exact trivial
  · have b1 : spun.num "Fl_I:tot:P" = 10 := rfl
    have b2 : spun.num "press_drop.Pt_out" = 2 := rfl
    have hB : ∀ b ∈ two, spun.num (b ++ ":frac_P") = 0.5 ∧ spun.num ("blds." ++ b ++ ":Pt") = 6 := by
      intro b hb
      fin_cases hb <;> exact ⟨by krfl, by krfl⟩
    generalize spun = E at *
    intro k
    obtain ⟨u1, u2⟩ := lb _ (List.getElem_mem k.2)
    obtain ⟨v1, v2⟩ := hB _ (List.getElem_mem k.2)
    simp only [show (bldPressSub two).name = "blds" from rfl, Wiring.rd, Wiring.wr, NC.rd, NC.wr, NC.inSrc_eq, NC.outOf_eq, Turb.bldPt, l1, l2, Fin.getElem_fin, u1,
      u2, v1, v2, b1, b2]
    norm_num
  · have b1 : spun.num "Fl_I:stat:W" = 80 := rfl
    have b2 : spun.num "W_out" = 160 := rfl
    have b3 : spun.vec "Fl_I:tot:composition" = rich := rfl
    have b4 : spun.vec "bld_add.composition_out" = lean := rfl
    have d1 : spun.num "ngv:stat:W" = 40 := rfl
    have d2 : spun.num "rotor:stat:W" = 40 := rfl
    have d3 : spun.vec "ngv:tot:composition" = 0 := rfl
    have d4 : spun.vec "rotor:tot:composition" = 0 := rfl
    have hh : ∀ v ∈ ["Fl_I:tot:h", "ngv:h", "rotor:h"], spun.num
        ((turbine unitGas (fun _ => unitGas) tmap (.tab 1) two true true).wiring.inSrc "bld_add" v) = 0 := by
      intro v hv
      fin_cases hv <;> rfl
    have hm : spun.num
        ((turbine unitGas (fun _ => unitGas) tmap (.tab 1) two true true).wiring.outOf "bld_add" "mass_avg_h") = 0 := rfl
    have h1 := hh _ (by simp : "Fl_I:tot:h" ∈ _)
    have h2 := hh _ (by simp : "ngv:h" ∈ _)
    have h3 := hh _ (by simp : "rotor:h" ∈ _)
    obtain ⟨u1, u2⟩ := mb "ngv" (by decide)
    obtain ⟨u3, u4⟩ := mb "rotor" (by decide)
    clear hh
    generalize spun = E at *
    simp only [String.reduceAppend] at u1 u2 u3 u4
    simp only [show (bldAddSub (.tab 1) two).name = "bld_add" from rfl, bldAddSub, Wiring.rd, Wiring.wr, NC.rd, NC.wr, NC.inSrc_eq, NC.outOf_eq, List.map_cons,
      List.map_nil, String.reduceAppend, m1, m2, m3, m4, u1, u2, u3, u4, b1, b2, b3, b4, d1, d2, d3, d4, h1, h2, h3, hm,
      tabFlowCompute, tabStart, tabAir, List.foldl_cons, List.foldl_nil]
    refine ⟨by norm_num, by norm_num, ?_⟩
    intro k
    fin_cases k
    norm_num [rich, lean]
  · total_of cool
  · total_of coolIdeal
  · total_of cool
  · total_of coolIdeal
  · have b1 : spun.num "Fl_I:stat:W" = 80 := rfl
    have b2 : spun.num "W_out" = 160 := rfl
    have b3 : spun.num "Fl_I:tot:h" = 2.25 := rfl
    have b4 : spun.num "ideal_flow.h" = 0.25 := rfl
    have b5 : spun.num "eff" = 0.25 := rfl
    have b6 : spun.num "Nmech" = 9 := rfl
    have b7 : spun.num "ht_out_b4bld" = 1.75 := rfl
    have b8 : spun.num "pwr_turb.ht_out" = 1.5 := rfl
    have b9 : spun.num "power" = 84.891192 := rfl
    have b10 : spun.num "trq" = 84.891192 / 9 * 5252.11 := rfl
    have hB : ∀ b ∈ two, spun.num (b ++ ":stat:W") = 40 ∧ spun.num (b ++ ":tot:h") = 1.5
        ∧ spun.num (b ++ "_ideal.h") = 0.5 := by
      intro b hb
      fin_cases hb <;> exact ⟨rfl, rfl, rfl⟩
    generalize spun = E at *
    simp only [show (pwrTurbSub two).name = "pwr_turb" from rfl, pwrTurbSub, Wiring.rd, Wiring.wr, NC.rd, NC.wr, NC.inSrc_eq, NC.outOf_eq, c1, c2, c3, c4, c5, c6,
      c7, c8, c9, c10, b7, b8, b9, b10]
    have fw : ∀ k : Fin two.length, E.num ((turbine unitGas (fun _ => unitGas) tmap (.tab 1) two true true).wiring.inSrc
        "pwr_turb" (two[k] ++ ":W")) = 40 := fun k =>
      (congrArg E.num (cb _ (List.getElem_mem k.2)).1).trans (hB _ (List.getElem_mem k.2)).1
    have fh : ∀ k : Fin two.length, E.num ((turbine unitGas (fun _ => unitGas) tmap (.tab 1) two true true).wiring.inSrc
        "pwr_turb" (two[k] ++ ":ht")) = 1.5 := fun k =>
      (congrArg E.num (cb _ (List.getElem_mem k.2)).2.1).trans (hB _ (List.getElem_mem k.2)).2.1
    have fi : ∀ k : Fin two.length, E.num ((turbine unitGas (fun _ => unitGas) tmap (.tab 1) two true true).wiring.inSrc
        "pwr_turb" (two[k] ++ ":ht_ideal")) = 0.5 := fun k =>
      (congrArg E.num (cb _ (List.getElem_mem k.2)).2.2).trans (hB _ (List.getElem_mem k.2)).2.2
    simp only [fw, fh, fi, b1, b2, b3, b4, b5, b6, Turb.enthPower, Turb.b4bld, Turb.htOut, Turb.pwr]
    refine ⟨by norm_num, ?_, ?_, ?_⟩
    · show (1.5 : ℝ) = 80 / 160 * (2.25 * (1 - 0.25) + 0.25 * 0.25) + 40 / 160 * (1.5 * (1 - 0.25) + 0.5 * 0.25)
        + 40 / 160 * (1.5 * (1 - 0.25) + 0.5 * 0.25)
      norm_num
    · show (84.891192 : ℝ) = 80 * 0.25 * (2.25 - 0.25) * 1.4148532 + 40 * 0.25 * (1.5 - 0.5) * 1.4148532
        + 40 * 0.25 * (1.5 - 0.5) * 1.4148532
      norm_num
    · show (84.891192 / 9 * 5252.11 : ℝ) = (80 * 0.25 * (2.25 - 0.25) * 1.4148532 + 40 * 0.25 * (1.5 - 0.5) * 1.4148532
        + 40 * 0.25 * (1.5 - 0.5) * 1.4148532) / 9 * 5252.11
      norm_num
  · total_of main
  · show (1 : ℝ) = 1 + (0 - 0) / (1 * Real.log (1 / 5))
    simp
  · total_of tot
  · static_of sta (mov 160) 1.5 160 (fun v => if v = .guessPt then 2 else 1) (mov_ok 160 (by norm_num))

set_option maxHeartbeats 1000000 in
/-- The outlet of the example is a state of the gas, and the guards of the theorems hold. -/
example : StateOf (unitGas (spun.vec "Fl_O:tot:composition")) spun "Fl_O:tot"
    ∧ spun.num "Nmech" ≠ 0 ∧ 0 < spun.num "Fl_I:tot:T" ∧ spun.num "Fl_O:stat:W" ≠ 0
    ∧ Map.Usable (tmap.at (spun.num "map.alphaMap") (spun.num "map.NpMap") (spun.num "map.PRmap"))
    ∧ 1 + ∑ i : Fin 1, spun.vec "Fl_I:tot:composition" i ≠ 0
    ∧ (∀ b ∈ two, 1 + ∑ i : Fin 1, spun.vec (b ++ ":tot:composition") i ≠ 0)
    ∧ airMass (spun.num "Fl_I:stat:W") (fun k : Fin 1 => spun.vec "Fl_I:tot:composition" k)
      + (two.map fun b => airMass (spun.num (b ++ ":stat:W"))
          (fun k : Fin 1 => spun.vec (b ++ ":tot:composition") k)).sum ≠ 0 := by
  have v1 : spun.vec "Fl_I:tot:composition" = rich := rfl
  have v2 : spun.vec "ngv:tot:composition" = 0 := rfl
  have v3 : spun.vec "rotor:tot:composition" = 0 := rfl
  refine ⟨⟨rfl, rfl, rfl, rfl, rfl, rfl, rfl⟩, ?_, ?_, ?_, ?_, ?_, ?_, ?_⟩
  · show (9 : ℝ) ≠ 0
    norm_num
  · show (0 : ℝ) < 2.25
    norm_num
  · show (160 : ℝ) ≠ 0
    norm_num
  · show (2 : ℝ) ≠ 0 ∧ (3 : ℝ) ≠ 1 ∧ (0.5 : ℝ) ≠ 0 ∧ (2 * 3 : ℝ) ≠ 0
    norm_num
  · generalize spun = E at *
    rw [v1]; norm_num [rich]
  · have h0 : ∀ b ∈ two, spun.vec (b ++ ":tot:composition") = 0 := by
      intro b hb
      fin_cases hb
      · exact v2
      · exact v3
    generalize spun = E at *
    intro b hb
    rw [h0 b hb]; norm_num
  · have key : ∀ E : Env, E.vec "Fl_I:tot:composition" = rich → E.vec "ngv:tot:composition" = 0 →
        E.vec "rotor:tot:composition" = 0 → E.num "Fl_I:stat:W" = 80 → E.num "ngv:stat:W" = 40 →
        E.num "rotor:stat:W" = 40 → airMass (E.num "Fl_I:stat:W") (fun k : Fin 1 => E.vec "Fl_I:tot:composition" k)
        + (airMass (E.num "ngv:stat:W") (fun k : Fin 1 => E.vec "ngv:tot:composition" k)
        + (airMass (E.num "rotor:stat:W") (fun k : Fin 1 => E.vec "rotor:tot:composition" k) + 0)) ≠ 0 := by
      intro E v1 v2 v3 w1 w2 w3
      rw [v1, v2, v3, w1, w2, w3]
      norm_num [airMass, rich]
    exact key spun v1 v2 v3 rfl rfl rfl

end C56Example

end PyCycle.OM
