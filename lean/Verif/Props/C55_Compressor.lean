import Verif.Proofs.CompressorNames
import Verif.Spec.Machines
import Verif.Props.C34_Compressor
import Verif.Props.C54_MapGroups

/-! # C55: the compressor as a whole element, for any bleeds -/

namespace PyCycle.OM
open CompNames

/-- What a compressor needs besides its inlet station and its bleeds' fractions. -/
def compressorInputs (d s : Bool) : List String :=
  ["Nmech", "map.alphaMap"]
    ++ (if d then ["map.NcMap", "map.RlineMap", "PR", "eff"] else ["s_Nc", "s_PR", "s_eff", "s_Wc"])
    ++ (if s then if d then ["MN"] else ["area", "out_stat.guess:MN"] else [])

/-- **C55 (interface).** For any list of distinct bleed names, possibly empty, that do not clash with the element's
own names, the wiring is accepted, and what is left to supply is the inlet station, speed, the point of the map
(design) or the scalars (off design), the size or Mach number of the outlet and three fractions per bleed. -/
theorem C55_interface (gas : (ℕ → ℝ) → TPGas) (m : Map.CMap) {bs : List String}
    (hb : BleedNames compressorTails compressorReserved bs) (d s : Bool) :
    (compressor gas m bs d s).wiring.Accepted
    ∧ ∀ n, n ∈ (compressor gas m bs d s).wiring.externals ↔
        n ∈ flowVarNames "Fl_I" ++ compressorInputs d s
        ∨ ∃ b ∈ bs, ∃ v ∈ [":frac_W", ":frac_P", ":frac_work"], n = b ++ v := by
  refine ⟨⟨(ext gas m d s).wired hb (per_fits d s) (names hb gas m d s), ?_⟩, ?_⟩
  · have h0 : ∀ d s, ∀ t ∈ (w₀ d s).subs.take 8 ++ (w₀ d s).subs.drop 9, t.PromotesFound := by decide +kernel
    intro t ht
    rw [subs_eq gas m d s] at ht
    simp only [List.mem_append, List.mem_flatMap, List.mem_singleton, List.not_mem_nil, and_false, exists_false,
      or_false] at ht
    rcases ht with ((h | rfl) | ⟨b, hbm, rfl⟩) | h
    · exact h0 d s t (List.mem_append_left _ h)
    · exact pwr_found hb
    · exact flow_found gas b
    · exact h0 d s t (List.mem_append_right _ h)
  · intro n
    rw [(ext gas m d s).mem_externals hb (per_fits d s) (names hb gas m d s)]
    have h1 : ∀ d s, (w₀ d s).externals ⊆ flowVarNames "Fl_I" ++ compressorInputs d s
        ∧ flowVarNames "Fl_I" ++ compressorInputs d s ⊆ (w₀ d s).externals := by
      decide +kernel
    refine or_congr ⟨fun h => (h1 d s).1 h, fun h => (h1 d s).2 h⟩ ?_
    have h2 : ∀ q ∈ per.ins, (q ∉ per.outs ∧ q ∉ per.conns.map (·.2)) ↔
        q ∈ [("", ":frac_W"), ("", ":frac_P"), ("", ":frac_work")] := by decide +kernel
    refine exists_congr fun b => and_congr_right fun hbm => ?_
    constructor
    · rintro ⟨q, hq, h, rfl⟩
      have := (h2 q hq).mp h
      simp only [List.mem_cons, List.not_mem_nil, or_false] at this
      rcases this with rfl | rfl | rfl
      · exact ⟨":frac_W", by simp, bname_nil _ _⟩
      · exact ⟨":frac_P", by simp, bname_nil _ _⟩
      · exact ⟨":frac_work", by simp, bname_nil _ _⟩
    · rintro ⟨v, hv, rfl⟩
      have hq : ("", v) ∈ [("", ":frac_W"), ("", ":frac_P"), ("", ":frac_work")] := by
        simp only [List.mem_cons, List.not_mem_nil, or_false] at hv
        rcases hv with rfl | rfl | rfl <;> decide
      have hi : ("", v) ∈ per.ins := by
        have : [("", ":frac_W"), ("", ":frac_P"), ("", ":frac_work")] ⊆ per.ins := by decide +kernel
        exact this hq
      exact ⟨_, hi, (h2 _ hi).mpr hq, (bname_nil _ _).symm⟩

/-- **C55, refuted.** Bleed names must be distinct and differ from the element's names: otherwise two subsystems or
two outputs have one name. -/
theorem C55_refuted_names (gas : (ℕ → ℝ) → TPGas) (m : Map.CMap) (d s : Bool) :
    ¬ (compressor gas m ["a", "a"] d s).wiring.Accepted ∧ ¬ (compressor gas m ["Fl_O"] d s).wiring.Accepted
    ∧ ¬ (compressor gas m ["ideal"] d s).wiring.Accepted := by
  have : ∀ d s, ¬ (compressor gas0 m₀ ["a", "a"] d s).wiring.Accepted
    ∧ ¬ (compressor gas0 m₀ ["Fl_O"] d s).wiring.Accepted
    ∧ ¬ (compressor gas0 m₀ ["ideal"] d s).wiring.Accepted := by decide +kernel
  have e : ∀ bs ∈ [["a", "a"], ["Fl_O"], ["ideal"]],
      (compressor gas m bs d s).wiring = (compressor gas0 m₀ bs d s).wiring := by
    intro bs hbs
    fin_cases hbs <;> cases d <;> cases s <;> rfl
  rw [e _ (by simp), e _ (by simp), e _ (by simp)]
  exact this d s

/-! ## Laws -/

private abbrev F (d s : Bool) : List Decl := (w₀ d s).subs.take 8 ++ (w₀ d s).subs.drop 9

private theorem F_sub₀ (d s : Bool) : F d s ⊆ (w₀ d s).subs := by
  intro t h
  rcases List.mem_append.mp h with h | h
  · exact List.mem_of_mem_take h
  · exact List.mem_of_mem_drop h

private theorem F_sub {bs : List String} (gas : (ℕ → ℝ) → TPGas) (m : Map.CMap) (d s : Bool) :
    F d s ⊆ (compressor gas m bs d s).wiring.subs := by
  intro t h
  rw [subs_eq]
  simp only [List.mem_append] at h ⊢
  rcases h with h | h
  · exact Or.inl (Or.inl (Or.inl (Or.inl (Or.inl h))))
  · exact Or.inr h

/-- The name a variable of the map group has in the compressor. -/
private def mapName (v : String) : String :=
  if v ∈ ["alphaMap", "NcMap", "RlineMap"] then "map." ++ v else v

private def mapVars : List String :=
  ["alphaMap", "NcMap", "RlineMap", "Nc", "Wc", "PR", "eff", "s_Nc", "s_PR", "s_eff", "s_Wc", "SMN", "SMW"]

private theorem w₀_map : ∀ d s, ∀ v ∈ mapVars,
    (v ∈ (compressorMap m₀ d).wiring.externals ∧ (w₀ d s).FixedRd (F d s) "map" v (mapName v))
    ∨ (v ∈ (compressorMap m₀ d).wiring.outs ∧ (w₀ d s).FixedWr (F d s) "map" v (mapName v)) := by
  decide +kernel

private theorem w₀_head : ∀ d s,
    ((w₀ d s).FixedRd (F d s) "corrinputs" "Tt" "Fl_I:tot:T" ∧ (w₀ d s).FixedRd (F d s) "corrinputs" "Pt" "Fl_I:tot:P"
      ∧ (w₀ d s).FixedRd (F d s) "corrinputs" "W_in" "Fl_I:stat:W" ∧ (w₀ d s).FixedRd (F d s) "corrinputs" "Nmech" "Nmech"
      ∧ (w₀ d s).FixedWr (F d s) "corrinputs" "Wc" "Wc" ∧ (w₀ d s).FixedWr (F d s) "corrinputs" "Nc" "Nc")
    ∧ ((w₀ d s).FixedRd (F d s) "press_rise" "PR" "PR" ∧ (w₀ d s).FixedRd (F d s) "press_rise" "Pt_in" "Fl_I:tot:P"
      ∧ (w₀ d s).FixedWr (F d s) "press_rise" "Pt_out" "press_rise.Pt_out")
    ∧ ((w₀ d s).FixedRd (F d s) "ideal_flow" "S" "Fl_I:tot:S" ∧ (w₀ d s).FixedRd (F d s) "ideal_flow" "P" "press_rise.Pt_out"
      ∧ (w₀ d s).FixedRd (F d s) "ideal_flow" "composition" "Fl_I:tot:composition"
      ∧ (w₀ d s).FixedReports (F d s) "ideal_flow" "flow" "ideal_flow.flow" .total_SP
      ∧ (w₀ d s).FixedWr (F d s) "ideal_flow" "h" "ideal_flow.h"
      ∧ (w₀ d s).FixedWr (F d s) "ideal_flow" "flow:h" "ideal_flow.flow:h")
    ∧ ((w₀ d s).FixedRd (F d s) "enth_rise" "ideal_ht" "ideal_flow.h" ∧ (w₀ d s).FixedRd (F d s) "enth_rise" "inlet_ht" "Fl_I:tot:h"
      ∧ (w₀ d s).FixedRd (F d s) "enth_rise" "eff" "eff" ∧ (w₀ d s).FixedWr (F d s) "enth_rise" "ht_out" "enth_rise.ht_out")
    ∧ ((w₀ d s).FixedRd (F d s) "real_flow" "h" "enth_rise.ht_out" ∧ (w₀ d s).FixedRd (F d s) "real_flow" "P" "press_rise.Pt_out"
      ∧ (w₀ d s).FixedRd (F d s) "real_flow" "composition" "Fl_I:tot:composition"
      ∧ (w₀ d s).FixedReports (F d s) "real_flow" "Fl_O:tot" "Fl_O:tot" .total_hP)
    ∧ ((w₀ d s).FixedRd (F d s) "eff_poly_calc" "PR" "PR" ∧ (w₀ d s).FixedRd (F d s) "eff_poly_calc" "S_in" "Fl_I:tot:S"
      ∧ (w₀ d s).FixedRd (F d s) "eff_poly_calc" "S_out" "Fl_O:tot:S" ∧ (w₀ d s).FixedRd (F d s) "eff_poly_calc" "Rt" "Fl_I:tot:R"
      ∧ (w₀ d s).FixedWr (F d s) "eff_poly_calc" "eff_poly" "eff_poly") := by
  decide +kernel

private theorem w₀_tail : ∀ d,
    ((w₀ d true).FixedRd (F d true) "out_stat" "S" ("Fl_O:tot" ++ ":" ++ "S")
      ∧ (w₀ d true).FixedRd (F d true) "out_stat" "ht" ("Fl_O:tot" ++ ":" ++ "h")
      ∧ (w₀ d true).FixedRd (F d true) "out_stat" "W" "W_out"
      ∧ (w₀ d true).FixedRd (F d true) "out_stat" "composition" "Fl_I:tot:composition"
      ∧ (w₀ true true).FixedRd (F true true) "out_stat" "MN" "MN"
      ∧ (w₀ false true).FixedRd (F false true) "out_stat" "area" "area"
      ∧ (w₀ d true).FixedReports (F d true) "out_stat" "Fl_O:stat" "Fl_O:stat" .static_A)
    ∧ (w₀ d false).FixedRd (F d false) "W_passthru" "W_out" "W_out"
    ∧ (w₀ d false).FixedWr (F d false) "W_passthru" "Fl_O:stat:W" "Fl_O:stat:W" := by
  decide +kernel

private theorem w₀_pwr : ∀ d s,
    ∀ v ∈ (bldsPwrSub []).ins, (bldsPwrSub []).inName v ∈ (w₀ d s).ins
      ∧ (w₀ d s).src ((bldsPwrSub []).inName v) = (if v = "ht_out" then "enth_rise.ht_out" else (bldsPwrSub []).inName v) := by
  decide +kernel

section
variable {bs : List String} (hb : BleedNames compressorTails compressorReserved bs)
  (gas : (ℕ → ℝ) → TPGas) (m : Map.CMap) (d s : Bool)
include hb

private theorem pwr_links :
    let w := (compressor gas m bs d s).wiring
    (w.inSrc "blds_pwr" "W_in" = "Fl_I:stat:W" ∧ w.inSrc "blds_pwr" "ht_out" = "enth_rise.ht_out"
      ∧ w.inSrc "blds_pwr" "ht_in" = "Fl_I:tot:h" ∧ w.inSrc "blds_pwr" "Pt_out" = "Fl_O:tot:P"
      ∧ w.inSrc "blds_pwr" "Pt_in" = "Fl_I:tot:P" ∧ w.inSrc "blds_pwr" "Nmech" = "Nmech"
      ∧ w.outOf "blds_pwr" "W_out" = "W_out" ∧ w.outOf "blds_pwr" "power" = "power"
      ∧ w.outOf "blds_pwr" "trq" = "trq")
    ∧ ∀ b ∈ bs, (∀ v ∈ [":frac_W", ":frac_P", ":frac_work"], w.inSrc "blds_pwr" (b ++ v) = b ++ v)
      ∧ ∀ v ∈ [":stat:W", ":Pt", ":ht"], w.outOf "blds_pwr" (b ++ v) = b ++ v := by
  intro w
  have hn := names hb gas m d s
  have he := ext (bs := bs) gas m d s
  have hf := per_fits d s
  have hm : (bldsPwrSub bs).toDecl ∈ w.subs := by
    rw [show w.subs = _ from subs_eq gas m d s]
    simp
  have ki : ∀ v ∈ (bldsPwrSub []).ins, w.inSrc "blds_pwr" v
      = (if v = "ht_out" then "enth_rise.ht_out" else (bldsPwrSub []).inName v) := by
    intro v hv
    rw [show w.inSrc "blds_pwr" v = _ from inSrc_of hn hm, pwr_in_fixed hv,
      he.src_fixed hb hf hn (w₀_pwr d s v hv).1, (w₀_pwr d s v hv).2]
  have ko : ∀ v ∈ (bldsPwrSub []).outs, w.outOf "blds_pwr" v = (bldsPwrSub []).outName v := by
    intro v hv
    rw [show w.outOf "blds_pwr" v = _ from outOf_of hn hm, pwr_out_fixed hv]
  refine ⟨⟨ki _ (by decide), ki _ (by decide), ki _ (by decide), ki _ (by decide), ki _ (by decide), ki _ (by decide),
    ko _ (by decide), ko _ (by decide), ko _ (by decide)⟩, fun b hbm => ⟨fun v hv => ?_, fun v hv => ?_⟩⟩
  · rw [show w.inSrc "blds_pwr" (b ++ v) = _ from inSrc_of hn hm, pwr_in_bld hbm hv]
    have h2 : ∀ v ∈ [":frac_W", ":frac_P", ":frac_work"], ("", v) ∈ per.ins ∧ ("", v) ∉ per.outs
        ∧ ("", v) ∉ per.conns.map (·.2) := by decide +kernel
    obtain ⟨k1, k2, k3⟩ := h2 v hv
    have := he.src_free_bld hb hf hbm k1 k2 k3
    rwa [bname_nil] at this
  · exact (outOf_of hn hm).trans (pwr_out_bld hbm hv)

private theorem flow_links {b : String} (hbm : b ∈ bs) :
    let w := (compressor gas m bs d s).wiring
    w.inSrc (b ++ "_flow") "h" = b ++ ":ht" ∧ w.inSrc (b ++ "_flow") "P" = b ++ ":Pt"
    ∧ w.inSrc (b ++ "_flow") "composition" = "Fl_I:tot:composition"
    ∧ w.ReportsAs (b ++ "_flow") (b ++ ":tot") (b ++ ":tot") .total_hP := by
  intro w
  have hn := names hb gas m d s
  have he := ext (bs := bs) gas m d s
  have hf := per_fits d s
  have hm : (bleedFlow gas b).toDecl ∈ w.subs := by
    rw [show w.subs = _ from subs_eq gas m d s]
    simp only [List.mem_append, List.mem_flatMap, List.mem_singleton]
    exact Or.inl (Or.inl (Or.inr ⟨b, hbm, rfl⟩))
  obtain ⟨n1, n2, n3⟩ := flow_in_names gas b
  refine ⟨?_, ?_, ?_, ?_⟩
  · rw [show w.inSrc (b ++ "_flow") "h" = _ from inSrc_of hn hm, n1]
    have := he.src_conn_bld hb hf hn hbm (c := (.bld ("", ":ht"), ("", "_flow.h"))) (by decide)
    rw [this]; exact bname_nil _ _
  · rw [show w.inSrc (b ++ "_flow") "P" = _ from inSrc_of hn hm, n2]
    have := he.src_conn_bld hb hf hn hbm (c := (.bld ("", ":Pt"), ("", "_flow.P"))) (by decide)
    rw [this]; exact bname_nil _ _
  · rw [show w.inSrc (b ++ "_flow") "composition" = _ from inSrc_of hn hm, n3,
      he.src_fixed hb hf hn (by clear * -; revert d s; decide +kernel)]
    clear * -; revert d s; decide +kernel
  · refine ⟨fun v hv => ?_, fun h => absurd h (by decide)⟩
    rw [show w.outOf (b ++ "_flow") _ = _ from outOf_of hn hm]
    exact thermo_reports_own gas .total_hP b "_flow" ":tot" _ v

end

/-- **C55 (compression).** A converged compressor with any bleeds obeys the laws of `CompressorLaws` for the incoming
gas, and with statics its outlet passes what the bleeds leave, at the given Mach number or area. -/
theorem C55_compressor (gas : (ℕ → ℝ) → TPGas) (m : Map.CMap) {bs : List String}
    (hb : BleedNames compressorTails compressorReserved bs) (d s : Bool) (E : Env)
    (hc : (compressor gas m bs d s).Converged E) :
    CompressorLaws (gas (E.vec "Fl_I:tot:composition")) bs E
    ∧ (s = true → StaticOutlet (gas (E.vec "Fl_I:tot:composition")) E "Fl_O:tot" "Fl_O:stat" d
        (E.num "Fl_O:stat:W") (E.num "MN") (E.num "area")) := by
  have hn := names hb gas m d s
  have hf := per_fits d s
  have he := ext (bs := bs) gas m d s
  have hF := F_sub (bs := bs) gas m d s
  have hF₀ := F_sub₀ d s
  have rd : ∀ {n v x : String}, (w₀ d s).FixedRd (F d s) n v x → (compressor gas m bs d s).wiring.inSrc n v = x :=
    fun h => FixedRd.transfer hb hf he hn hF hF₀ h
  have wr : ∀ {n v x : String}, (w₀ d s).FixedWr (F d s) n v x → (compressor gas m bs d s).wiring.outOf n v = x :=
    fun h => FixedWr.transfer hf hn hF hF₀ h
  obtain ⟨-, ⟨p1, p2, p3⟩, ⟨i1, i2, i3, i4, i5, i6⟩, ⟨e1, e2, e3, e4⟩, ⟨r1, r2, r3, r4⟩, y1, y2, y3, y4, y5⟩ := w₀_head d s
  -- pressure
  have hp := hc.eqn hn (s := (compressorHead gas m d)[3]'(by simp [compressorHead]))
      (by simp [compressor, compressorHead])
  have hp : E.num "press_rise.Pt_out" = Comp.pressRise
      (fun | .PR => E.num "PR" | .Pt_in => E.num "Fl_I:tot:P") := by
    have := hp
    simp only [compressorHead, List.getElem_cons_succ, List.getElem_cons_zero, Wiring.rd, Wiring.wr, NC.rd, NC.wr, NC.inSrc_eq, NC.outOf_eq, rd p1, rd p2, wr p3] at this
    exact this
  -- ideal state
  have hid : thermo gas "ideal_flow" .total_SP "flow"
      [.as "S" "Fl_I:tot:S", .as "composition" "Fl_I:tot:composition"] [] ∈ (compressor gas m bs d s).subs := by
    simp [compressor, compressorHead]
  have ti := hc.stationMem rfl hn hid "ideal_flow.flow" (FixedReports.transfer hf hn hF hF₀ i4)
  have ci := thermo_copies (hc.eqn hn hid) (.baseThermo, .h, .h) (by decide)
  have si := ti.state
  have sp := ti.sp rfl
  simp only [Wiring.rd, rd i1, rd i2, rd i3] at si sp
  have ci' : E.num "ideal_flow.h" = E.at "ideal_flow.flow" "h" := by
    have := ci
    simp only [Wiring.wr, nm, String.reduceAppend, reduceCtorEq, if_false] at this
    rw [show (thermo gas "ideal_flow" TG.Mode.total_SP "flow" [Prom.as "S" "Fl_I:tot:S",
      Prom.as "composition" "Fl_I:tot:composition"] []).name = "ideal_flow" from rfl, wr i5, wr i6] at this
    exact this
  -- enthalpy
  have hh := hc.eqn hn (s := (compressorHead gas m d)[5]'(by simp [compressorHead]))
      (by simp [compressor, compressorHead])
  have hh : E.num "enth_rise.ht_out" = Comp.enthRise (fun
      | .ideal_ht => E.num "ideal_flow.h" | .inlet_ht => E.num "Fl_I:tot:h" | .eff => E.num "eff") := by
    have := hh
    simp only [compressorHead, List.getElem_cons_succ, List.getElem_cons_zero, Wiring.rd, Wiring.wr, NC.rd, NC.wr, NC.inSrc_eq, NC.outOf_eq, rd e1, rd e2, rd e3,
      wr e4] at this
    exact this
  -- outlet
  have tr := hc.stationMem rfl hn (gas := gas) (name := "real_flow") (m := .total_hP) (fl := "Fl_O:tot")
      (pI := [.as "composition" "Fl_I:tot:composition"]) (pO := [.pre "Fl_O:tot:"])
      (by simp [compressor, compressorHead]) "Fl_O:tot" (FixedReports.transfer hf hn hF hF₀ r4)
  have s1 := tr.state
  have s2 := tr.hp rfl
  have s3 := tr.comp rfl
  simp only [Wiring.rd, rd r1, rd r2, rd r3, Env.at, String.reduceAppend] at s1 s2 s3
  -- polytropic efficiency
  have hy := hc.eqn hn (s := (compressorHead gas m d)[7]'(by simp [compressorHead]))
      (by simp [compressor, compressorHead])
  have hy : E.num "eff_poly" = Comp.effPoly (fun
      | .PR => E.num "PR" | .S_in => E.num "Fl_I:tot:S" | .S_out => E.num "Fl_O:tot:S" | .Rt => E.num "Fl_I:tot:R") := by
    have := hy
    simp only [compressorHead, List.getElem_cons_succ, List.getElem_cons_zero, Wiring.rd, Wiring.wr, NC.rd, NC.wr, NC.inSrc_eq, NC.outOf_eq, rd y1, rd y2, rd y3,
      rd y4, wr y5] at this
    exact this
  -- bleeds and power
  obtain ⟨⟨c1, c2, c3, c4, c5, c6, c7, c8, c9⟩, cb⟩ := pwr_links hb gas m d s
  obtain ⟨x, x1, x2, x3, x4, x5, x6, xb, hW, hP, hT, hB⟩ : ∃ x : Comp.BI bs.length → ℝ, x .W_in = E.num "Fl_I:stat:W"
      ∧ x .ht_out = E.num "enth_rise.ht_out" ∧ x .ht_in = E.num "Fl_I:tot:h" ∧ x .Pt_out = E.num "Fl_O:tot:P"
      ∧ x .Pt_in = E.num "Fl_I:tot:P" ∧ x .Nmech = E.num "Nmech"
      ∧ (∀ k : Fin bs.length, x (.frac_W k) = E.num (bs[k] ++ ":frac_W") ∧ x (.frac_P k) = E.num (bs[k] ++ ":frac_P")
        ∧ x (.frac_work k) = E.num (bs[k] ++ ":frac_work"))
      ∧ E.num "W_out" = Comp.blds x .W_out ∧ E.num "power" = Comp.blds x .power ∧ E.num "trq" = Comp.blds x .trq
      ∧ ∀ k : Fin bs.length, E.num (bs[k] ++ ":stat:W") = Comp.blds x (.W k)
        ∧ E.num (bs[k] ++ ":Pt") = Comp.blds x (.Pt k) ∧ E.num (bs[k] ++ ":ht") = Comp.blds x (.ht k) := by
    obtain ⟨hW, hP, hT, hB⟩ := hc.eqn hn (s := bldsPwrSub bs) (by simp [compressor])
    refine ⟨_, congrArg E.num c1, congrArg E.num c2, congrArg E.num c3, congrArg E.num c4, congrArg E.num c5,
      congrArg E.num c6, fun k => ?_, (congrArg E.num c7).symm.trans hW, (congrArg E.num c8).symm.trans hP,
      (congrArg E.num c9).symm.trans hT, fun k => ?_⟩
    · have h := (cb bs[k] (List.getElem_mem _)).1
      exact ⟨congrArg E.num (h _ (by simp)), congrArg E.num (h _ (by simp)), congrArg E.num (h _ (by simp))⟩
    · have h := (cb bs[k] (List.getElem_mem _)).2
      exact ⟨(congrArg E.num (h _ (by simp))).symm.trans (hB k).1, (congrArg E.num (h _ (by simp))).symm.trans (hB k).2.1,
        (congrArg E.num (h _ (by simp))).symm.trans (hB k).2.2⟩
  rw [← s2.1] at x2
  -- each bleed
  have hbl : ∀ b ∈ bs, CompressorBleed (gas (E.vec "Fl_I:tot:composition")) E b := by
    intro b hbm
    obtain ⟨f1, f2, f3, f4⟩ := flow_links hb gas m d s hbm
    have t := hc.stationMem rfl hn (gas := gas) (name := b ++ "_flow") (m := .total_hP) (fl := b ++ ":tot")
      (pI := [.as "composition" "Fl_I:tot:composition"]) (pO := [.pre (b ++ ":tot:")])
      (by simp only [compressor, List.mem_append, List.mem_map]; exact Or.inl (Or.inr ⟨b, hbm, rfl⟩)) (b ++ ":tot") f4
    have t1 := t.state
    have t2 := t.hp rfl
    have t3 := t.comp rfl
    simp only [Wiring.rd, f1, f2, f3] at t1 t2 t3
    obtain ⟨k, hk, rfl⟩ := List.getElem_of_mem hbm
    obtain ⟨b1, b2, b3⟩ := hB ⟨k, hk⟩
    obtain ⟨a1, a2, a3⟩ := xb ⟨k, hk⟩
    obtain ⟨g1, g2, g3, -⟩ := Comp.C34_bleed x ⟨k, hk⟩
    refine ⟨?_, ?_, ?_, t1, t3⟩
    · rw [show E.num (bs[k] ++ ":stat:W") = _ from b1, g3, x1, a1]; exact mul_comm _ _
    · rw [t2.2, show E.num (bs[k] ++ ":Pt") = _ from b2, eq_add_of_sub_eq g1, x4, x5, a2]; exact add_comm _ _
    · rw [t2.1, show E.num (bs[k] ++ ":ht") = _ from b3, eq_add_of_sub_eq g2, x2, x3, a3]; exact add_comm _ _
  -- statics
  obtain ⟨hq, hps⟩ := w₀_tail d
  have hst : s = true → StaticOutlet (gas (E.vec "Fl_I:tot:composition")) E "Fl_O:tot" "Fl_O:stat" d
        (E.num "W_out") (E.num "MN") (E.num "area") := by
    rintro rfl
    obtain ⟨q1, q2, q3, q4, q5, q6, q7⟩ := hq
    refine hc.staticOutletMem (d := d) (gas := gas) (name := "out_stat")
      (pI := [.var "MN", .as "composition" "Fl_I:tot:composition"]) (pO := [.pre "Fl_O:stat:"])
      (pI' := [.var "area", .as "composition" "Fl_I:tot:composition"]) (pO' := [.pre "Fl_O:stat:"])
      rfl hn (by simp [compressor]) (FixedReports.transfer hf hn hF hF₀ q7)
      (rd q1) (rd q2) (rd q3) (rd q4) ?_ ?_
    · rintro rfl; exact rd q5
    · rintro rfl; exact rd q6
  have hWo : E.num "Fl_O:stat:W" = E.num "W_out" := by
    cases s
    · have hw := hc.eqn hn (s := passThrough "W_passthru" "W_out" "Fl_O:stat:W") (by simp [compressor])
      have e1 := rd hps.1
      have e2 := wr hps.2
      simp only [passThrough, Wiring.rd, Wiring.wr] at hw
      rw [e1, e2] at hw
      exact hw
    · exact (hst rfl).flow
  rw [← hWo] at hst hW
  refine ⟨⟨?_, ?_, s1, s3, ?_, hbl, ?_, ?_, ?_⟩, hst⟩
  · rw [s2.2, hp]; rfl
  · intro h0
    refine ⟨E.at "ideal_flow.flow" "T", ?_, ?_⟩
    · rw [s2.2, ← sp.2, ← si.S, sp.1]
    · rw [s2.1, hh, s2.2, ← sp.2, ← si.h, ci']
      simp only [Comp.enthRise]
      field_simp
      ring
  · rw [hy]; rfl
  · rw [← sum_bleeds, ← x1, Comp.C34_mass x, hW]
    congr 1
    exact Finset.sum_congr rfl fun k _ => (hB k).1
  · have h := Comp.C34_energy x
    rw [← hP, x1, x2, x3, ← hW] at h
    rw [h, show BTU_s2HP = 1.4148532 from rfl, ← sum_bleeds]
    refine congrArg (fun z => 1.4148532 * (E.num "Fl_I:stat:W" * E.num "Fl_I:tot:h"
      - (E.num "Fl_O:stat:W" * E.num "Fl_O:tot:h" + z))) (Finset.sum_congr rfl fun k _ => ?_)
    obtain ⟨f1, -, -, f4⟩ := flow_links hb gas m d s (List.getElem_mem k.2)
    have t := hc.stationMem rfl hn (gas := gas) (name := bs[k] ++ "_flow") (m := .total_hP) (fl := bs[k] ++ ":tot")
      (pI := [.as "composition" "Fl_I:tot:composition"]) (pO := [.pre (bs[k] ++ ":tot:")])
      (by simp only [compressor, List.mem_append, List.mem_map]
          exact Or.inl (Or.inr ⟨bs[k], List.getElem_mem _, rfl⟩)) (bs[k] ++ ":tot") f4
    have t2 := t.hp rfl
    simp only [Wiring.rd, Fin.getElem_fin] at t2
    rw [f1] at t2
    have e2 := (hB k).2.2
    have e1 := (hB k).1
    simp only [Fin.getElem_fin] at e1 e2 ⊢
    rw [t2.1, e2, e1]
  · intro h0
    rw [← x6] at h0 ⊢
    rw [hT, hP]
    exact (Comp.C34_torque x h0).1

/-- **C55 (map).** The compressor runs at a point of its map: corrected speed and flow are those of the inlet, the
machine's values are the scalars times the map's (at design for a usable point), and the stall margins compare that
point with the stall line. -/
theorem C55_map (gas : (ℕ → ℝ) → TPGas) (m : Map.CMap) {bs : List String}
    (hb : BleedNames compressorTails compressorReserved bs) (d s : Bool) (E : Env)
    (hc : (compressor gas m bs d s).Converged E) :
    let a := E.num "map.alphaMap"
    let N := E.num "map.NcMap"
    let R := E.num "map.RlineMap"
    (0 < E.num "Fl_I:tot:T" → E.num "Nc" * √(E.num "Fl_I:tot:T" / 518.67) = E.num "Nmech")
    ∧ E.num "Wc" = E.num "Fl_I:stat:W" * √(E.num "Fl_I:tot:T" / 518.67) / (E.num "Fl_I:tot:P" / 14.695951)
    ∧ ((d = true → Map.Usable (m.at a N R)) → OnMap E "c" N (m.PR a N R) (m.eff a N R) (m.W a N R))
    ∧ E.num "SMN" = ((m.W a N R / m.W a N m.RlineStall) / (m.PR a N R / m.PR a N m.RlineStall) - 1) * 100
    ∧ ∃ N', m.W a N' m.RlineStall = m.W a N R
      ∧ E.num "SMW" = (m.PR a N' m.RlineStall - m.PR a N R) / m.PR a N R * 100 := by
  intro a N R
  have hn := names hb gas m d s
  have hf := per_fits d s
  have he := ext (bs := bs) gas m d s
  have hF := F_sub (bs := bs) gas m d s
  have hF₀ := F_sub₀ d s
  have rd : ∀ {n v x : String}, (w₀ d s).FixedRd (F d s) n v x → (compressor gas m bs d s).wiring.inSrc n v = x :=
    fun h => FixedRd.transfer hb hf he hn hF hF₀ h
  have wr : ∀ {n v x : String}, (w₀ d s).FixedWr (F d s) n v x → (compressor gas m bs d s).wiring.outOf n v = x :=
    fun h => FixedWr.transfer hf hn hF hF₀ h
  obtain ⟨⟨c1, c2, c3, c4, c5, c6⟩, -⟩ := w₀_head d s
  have h1 := hc.eqn hn (s := (compressorHead gas m d)[1]'(by simp [compressorHead]))
      (by simp [compressor, compressorHead])
  simp only [compressorHead, List.getElem_cons_succ, List.getElem_cons_zero, Wiring.rd, Wiring.wr, NC.rd, NC.wr, NC.inSrc_eq, NC.outOf_eq, rd c1, rd c2, rd c3,
    rd c4, wr c5, wr c6, Comp.corr, Comp.cacheOf, T_STDeng, P_STDeng] at h1
  obtain ⟨hW, hN⟩ := h1
  -- the map group
  obtain ⟨E', hE', hi, ho⟩ := hc.eqn hn (s := (compressorHead gas m d)[2]'(by simp [compressorHead]))
      (by simp [compressor, compressorHead])
  have hw : (compressorMap m d).wiring = (compressorMap m₀ d).wiring := by cases d <;> rfl
  have hv : ∀ v ∈ mapVars, E'.num v = E.num (mapName v) := by
    intro v hv
    rcases w₀_map d s v hv with ⟨h, k⟩ | ⟨h, k⟩
    · rw [← hw] at h
      rw [(hi v h).1]
      exact congrArg E.num (rd k)
    · rw [← hw] at h
      rw [← (ho v h).1]
      exact congrArg E.num (wr k)
  have v1 := hv "alphaMap" (by decide)
  have v2 := hv "NcMap" (by decide)
  have v3 := hv "RlineMap" (by decide)
  have v4 := hv "Nc" (by decide)
  have v5 := hv "Wc" (by decide)
  have v6 := hv "PR" (by decide)
  have v7 := hv "eff" (by decide)
  have v8 := hv "s_Nc" (by decide)
  have v9 := hv "s_PR" (by decide)
  have v10 := hv "s_eff" (by decide)
  have v11 := hv "s_Wc" (by decide)
  have v12 := hv "SMN" (by decide)
  have v13 := hv "SMW" (by decide)
  have hs := C54_stall m d E' hE'
  have hm := C54_compressor_map m d E' hE'
  simp only [show mapName "alphaMap" = "map.alphaMap" from rfl, show mapName "NcMap" = "map.NcMap" from rfl,
    show mapName "RlineMap" = "map.RlineMap" from rfl, show mapName "SMN" = "SMN" from rfl,
    show mapName "SMW" = "SMW" from rfl] at v1 v2 v3 v12 v13
  simp only [v1, v2, v3, v12, v13] at hs hm
  refine ⟨fun hT => ?_, ?_, fun hu => ?_, hs⟩
  · have hp : 0 < E.num "Fl_I:tot:T" / 518.67 := by positivity
    rw [hN, Real.sqrt_eq_rpow, mul_assoc, ← Real.rpow_add hp]
    norm_num
  · rw [hW, Real.sqrt_eq_rpow]; norm_num
  · have := hm hu
    have q1 := this.speed
    have q2 := this.ratio
    have q3 := this.efficiency
    have q4 := this.flow
    simp only [String.reduceAppend] at q1 q4
    rw [v4, v8] at q1
    rw [v6, v9] at q2
    rw [v7, v10] at q3
    rw [v5, v11] at q4
    exact ⟨q1, q2, q3, q4⟩

/-! ## A converged example -/

namespace C55Example
open C48Example (unitGas tot sta)
open C50Example (mov mov_ok)
open C54Example (cmap atDesign atDesign_converged)

/-- Two bleeds. -/
abbrev two : List String := ["cust", "cool"]

theorem two_ok : BleedNames compressorTails compressorReserved two :=
  ⟨by decide, by decide, by decide +kernel, by decide +kernel⟩

/-- Inlet temperature over standard. -/
noncomputable abbrev θ : ℝ := 1.1 / 518.67
/-- Inlet pressure over standard. -/
noncomputable abbrev δ : ℝ := 0.4 / 14.695951
/-- Inlet flow. -/
noncomputable def w : ℝ := 8 * δ / θ ^ (0.5 : ℝ)

theorem w_ne : w ≠ 0 := by
  have : (0 : ℝ) < θ ^ (0.5 : ℝ) := Real.rpow_pos_of_pos (by norm_num) _
  unfold w
  positivity

/-- Speed. -/
noncomputable def rpm : ℝ := 6 * θ ^ (0.5 : ℝ)
/-- The power taken: half the flow is compressed all the way, two quarters half the way. -/
noncomputable def hp : ℝ := -(1.4148532 * 0.4 * 0.75 * w)

/-- Ideal outlet. -/
noncomputable def ideal : TG.Station := ⟨1.2, 2, 1.2, 0, 1, 1, 1, 1, 1⟩
/-- State of the bleeds. -/
noncomputable def mid : TG.Station := ⟨1.3, 1.2, 1.3, 0, 1, 1, 1, 1, 1⟩

/-- Pressure ratio 5 at efficiency 1/4, each bleed taking a quarter of the flow half way. -/
noncomputable def squeezed : Env := Env.ofTable
  ([("Fl_I:stat:W", w), ("Fl_I:tot:T", 1.1), ("Fl_I:tot:P", 0.4), ("Fl_I:tot:h", 1.1), ("Fl_I:tot:S", 0), ("Fl_I:tot:R", 1),
    ("cust:frac_W", 0.25), ("cool:frac_W", 0.25), ("cust:frac_P", 0.5), ("cool:frac_P", 0.5), ("cust:frac_work", 0.5),
    ("cool:frac_work", 0.5), ("MN", 1), ("Nmech", rpm), ("W_out", w / 2), ("cust:stat:W", w / 4), ("cool:stat:W", w / 4),
    ("cust:Pt", 1.2), ("cool:Pt", 1.2), ("cust:ht", 1.3), ("cool:ht", 1.3), ("power", hp), ("trq", 5252.11 * hp / rpm),
    ("press_rise.Pt_out", 2), ("enth_rise.ht_out", 1.5), ("eff_poly", 1),
    ("map.alphaMap", 0), ("map.NcMap", 2), ("map.RlineMap", 2), ("map.PRmap", 3), ("map.effMap", 0.5), ("map.WcMap", 4),
    ("Nc", 6), ("PR", 5), ("eff", 0.25), ("Wc", 8), ("s_Nc", 3), ("s_PR", 2), ("s_eff", 0.5), ("s_Wc", 2),
    ("map.stall_R.RlineStall", 1), ("map.SMN_map.PRmap", 3), ("map.SMN_map.WcMap", 2), ("map.SMN_map.effMap", 0.5),
    ("map.SMW_map.PRmap", 5), ("map.SMW_map.WcMap", 4), ("map.SMW_map.effMap", 0.5), ("map.SMW_bal.NcMap", 4),
    ("SMN", 100), ("SMW", 200 / 3)]
    ++ stationRows "ideal_flow." ideal ++ stationRows "ideal_flow.flow:" ideal
    ++ stationRows "real_flow." tot ++ stationRows "Fl_O:tot:" tot
    ++ stationRows "cust_flow." mid ++ stationRows "cust:tot:" mid ++ stationRows "cool_flow." mid
    ++ stationRows "cool:tot:" mid
    ++ stationRows "out_stat." sta
    ++ stationRows "Fl_O:stat:" sta ++ staticRows "out_stat." (mov (w / 2)) (w / 2)
    ++ staticRows "Fl_O:stat:" (mov (w / 2)) (w / 2))
  []

set_option maxHeartbeats 2000000 in
theorem squeezed_converged : (compressor unitGas cmap two true true).Converged squeezed := by
  refine Group.converged_quick rfl (names two_ok unitGas cmap true true) ?_
  obtain ⟨⟨c1, c2, c3, c4, c5, c6, c7, c8, c9⟩, cb⟩ := pwr_links two_ok unitGas cmap true true
  obtain ⟨d1, d2⟩ := cb "cust" (by decide)
  obtain ⟨d3, d4⟩ := cb "cool" (by decide)
  intro s hs
  simp only [compressor, compressorHead, if_true, List.cons_append, List.nil_append, List.mem_cons, List.not_mem_nil,
    or_false, List.map_cons, List.map_nil] at hs
  have hθ : (0 : ℝ) < θ ^ (0.5 : ℝ) := Real.rpow_pos_of_pos (by norm_num) _
  rcases hs with rfl | rfl | rfl | rfl | rfl | rfl | rfl | rfl | rfl | rfl | rfl | rfl
  · exact trivial
  · show (8 : ℝ) = w * θ ^ (0.5 : ℝ) / δ ∧ (6 : ℝ) = rpm * θ ^ (-0.5 : ℝ)
    constructor
    · unfold w; field_simp
    · unfold rpm
      rw [mul_assoc, ← Real.rpow_add (by norm_num)]
      norm_num
  · refine ⟨atDesign, atDesign_converged, ?_, ?_⟩
    · intro n hn
      have : n ∈ compressorMapInputs true := (C54_compressor_interface cmap true).2 n |>.mp hn
      simp only [compressorMapInputs, if_true, List.cons_append, List.nil_append] at this
      fin_cases this <;> exact ⟨by krfl, by krfl⟩
    · intro n hn
      have hl : (compressorMap cmap true).wiring.outs = ["effMap", "PRmap", "WcMap", "s_Nc", "s_PR", "s_eff", "s_Wc",
          "stall_R.RlineStall", "SMN_map.effMap", "SMN_map.PRmap", "SMN_map.WcMap", "SMW_map.effMap", "SMW_map.PRmap",
          "SMW_map.WcMap", "SMW_bal.NcMap", "SMN", "SMW"] := by
        rw [show (compressorMap cmap true).wiring = (compressorMap m₀ true).wiring from rfl]
        decide +kernel
      rw [hl] at hn
      fin_cases hn <;> exact ⟨by krfl, by krfl⟩
  · show (2 : ℝ) = 5 * 0.4
    norm_num
  · total_of ideal
  · show (1.5 : ℝ) = (1.2 - 1.1) / 0.25 + 1.1
    norm_num
  · total_of tot
  · show (1 : ℝ) = 1 * Real.log 5 / (1 * Real.log 5 + 0 - 0)
    have : Real.log 5 ≠ 0 := (Real.log_pos (by norm_num)).ne'
    rw [one_mul, add_zero, sub_zero, div_self this]
  · have b1 : squeezed.num "Fl_I:stat:W" = w := rfl
    have b2 : squeezed.num "enth_rise.ht_out" = 1.5 := rfl
    have b3 : squeezed.num "Fl_I:tot:h" = 1.1 := rfl
    have b4 : squeezed.num "Fl_O:tot:P" = 2 := rfl
    have b5 : squeezed.num "Fl_I:tot:P" = 0.4 := rfl
    have b6 : squeezed.num "Nmech" = rpm := rfl
    have b7 : squeezed.num "W_out" = w / 2 := rfl
    have b8 : squeezed.num "power" = hp := rfl
    have b9 : squeezed.num "trq" = 5252.11 * hp / rpm := rfl
    have hB : ∀ b ∈ two, squeezed.num (b ++ ":frac_W") = 0.25 ∧ squeezed.num (b ++ ":frac_P") = 0.5
        ∧ squeezed.num (b ++ ":frac_work") = 0.5 ∧ squeezed.num (b ++ ":stat:W") = w / 4
        ∧ squeezed.num (b ++ ":Pt") = 1.2 ∧ squeezed.num (b ++ ":ht") = 1.3 := by
      intro b hb
      fin_cases hb <;> exact ⟨rfl, rfl, rfl, rfl, rfl, rfl⟩
    generalize squeezed = E at *
    simp only [show (bldsPwrSub two).name = "blds_pwr" from rfl, bldsPwrSub, Wiring.rd, Wiring.wr, NC.rd, NC.wr, NC.inSrc_eq, NC.outOf_eq, c1, c2, c3, c4, c5, c6,
      c7, c8, c9]
    have fw : ∀ k : Fin two.length, (compressor unitGas cmap two true true).wiring.inSrc "blds_pwr" (two[k] ++ ":frac_W")
        = two[k] ++ ":frac_W" := fun k => (cb _ (List.getElem_mem k.2)).1 _ (by simp)
    have fp : ∀ k : Fin two.length, (compressor unitGas cmap two true true).wiring.inSrc "blds_pwr" (two[k] ++ ":frac_P")
        = two[k] ++ ":frac_P" := fun k => (cb _ (List.getElem_mem k.2)).1 _ (by simp)
    have fh : ∀ k : Fin two.length, (compressor unitGas cmap two true true).wiring.inSrc "blds_pwr" (two[k] ++ ":frac_work")
        = two[k] ++ ":frac_work" := fun k => (cb _ (List.getElem_mem k.2)).1 _ (by simp)
    have ow : ∀ k : Fin two.length, (compressor unitGas cmap two true true).wiring.outOf "blds_pwr" (two[k] ++ ":stat:W")
        = two[k] ++ ":stat:W" := fun k => (cb _ (List.getElem_mem k.2)).2 _ (by simp)
    have op : ∀ k : Fin two.length, (compressor unitGas cmap two true true).wiring.outOf "blds_pwr" (two[k] ++ ":Pt")
        = two[k] ++ ":Pt" := fun k => (cb _ (List.getElem_mem k.2)).2 _ (by simp)
    have oh : ∀ k : Fin two.length, (compressor unitGas cmap two true true).wiring.outOf "blds_pwr" (two[k] ++ ":ht")
        = two[k] ++ ":ht" := fun k => (cb _ (List.getElem_mem k.2)).2 _ (by simp)
    have hk : ∀ k : Fin two.length, E.num (two[k] ++ ":frac_W") = 0.25 ∧ E.num (two[k] ++ ":frac_P") = 0.5
        ∧ E.num (two[k] ++ ":frac_work") = 0.5 ∧ E.num (two[k] ++ ":stat:W") = w / 4
        ∧ E.num (two[k] ++ ":Pt") = 1.2 ∧ E.num (two[k] ++ ":ht") = 1.3 := fun k => hB _ (List.getElem_mem k.2)
    simp only [fw, fp, fh, ow, op, oh, b1, b2, b3, b4, b5, b6, b7, b8, b9, (hk _).1, (hk _).2.1, (hk _).2.2.1, (hk _).2.2.2.1,
      (hk _).2.2.2.2.1, (hk _).2.2.2.2.2, Comp.blds, Comp.wOut, Comp.bldPower, Comp.statW, Comp.bldHt]
    refine ⟨?_, ?_, ?_, fun k => ⟨?_, ?_, ?_⟩⟩
    · show w / 2 = w - w * 0.25 - w * 0.25
      ring
    · show hp = w * (1.1 - 1.5) * 1.4148532 - w * 0.25 * (1.1 + 0.5 * (1.5 - 1.1) - 1.5) * 1.4148532
        - w * 0.25 * (1.1 + 0.5 * (1.5 - 1.1) - 1.5) * 1.4148532
      unfold hp; ring
    · show 5252.11 * hp / rpm = 5252.11 * (w * (1.1 - 1.5) * 1.4148532
        - w * 0.25 * (1.1 + 0.5 * (1.5 - 1.1) - 1.5) * 1.4148532
        - w * 0.25 * (1.1 + 0.5 * (1.5 - 1.1) - 1.5) * 1.4148532) / rpm
      unfold hp; ring
    · ring
    · norm_num
    · norm_num
  · total_of mid
  · total_of mid
  · static_of sta (mov (w / 2)) 1.5 (w / 2) (fun v => if v = .guessPt then 2 else 1)
      (mov_ok (w / 2) (div_ne_zero w_ne two_ne_zero))

/-- The outlet of the example is a state of the gas, and the guards of the theorems hold. -/
example : StateOf (unitGas (squeezed.vec "Fl_I:tot:composition")) squeezed "Fl_O:tot"
    ∧ squeezed.num "eff" ≠ 0 ∧ squeezed.num "Nmech" ≠ 0 ∧ 0 < squeezed.num "Fl_I:tot:T"
    ∧ Map.Usable (cmap.at (squeezed.num "map.alphaMap") (squeezed.num "map.NcMap") (squeezed.num "map.RlineMap")) := by
  refine ⟨⟨rfl, rfl, rfl, rfl, rfl, rfl, rfl⟩, ?_, ?_, ?_, ?_⟩
  · show (0.25 : ℝ) ≠ 0
    norm_num
  · show rpm ≠ 0
    have : (0 : ℝ) < θ ^ (0.5 : ℝ) := Real.rpow_pos_of_pos (by norm_num) _
    unfold rpm
    positivity
  · show (0 : ℝ) < 1.1
    norm_num
  · show (2 : ℝ) ≠ 0 ∧ (1 + 2 : ℝ) ≠ 1 ∧ (0.5 : ℝ) ≠ 0 ∧ (2 * 2 : ℝ) ≠ 0
    norm_num

end C55Example

end PyCycle.OM
