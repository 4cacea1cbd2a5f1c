import Verif.Model.BleedWiring
import Verif.Proofs.BleedNamesLemmas
import Verif.Props.C28_SplitBleed
import Verif.Props.C48_Combustor
import Verif.Props.C52_Nozzle

/-! # C53: bleed extraction as a whole element, for any bleeds -/

namespace PyCycle.OM

/-- Names a bleed of `BleedOut` cannot have: its subsystems and stations. -/
def bleedOutReserved : List String :=
  ["flow_in", "bld_calcs", "real_flow", "out_stat", "W_passthru", "Fl_I", "Fl_O"]

/-- Endings `BleedOut` adds to a bleed name. -/
def bleedTails : List String := ["", "_flow"]

private abbrev w₀ (d s : Bool) : Wiring := (bleedOut gas0 [] d s).wiring

private def per : PerBleed :=
  { outs := [("", ":stat:W")] ++ ownSpecs .total_TP "_flow" ":tot"
    ins := [("", ":frac_W")]
    conns := [] }

private theorem per_fits : ∀ d s, per.Fits bleedTails bleedOutReserved (w₀ d s) := by decide +kernel

section
variable {bs : List String} (hb : BleedNames bleedTails bleedOutReserved bs)
include hb

omit hb in
private theorem calcs_W_out : (bleedCalcsSub bs).outName "W_out" = "W_out" := by
  have : promoted (bleedCalcsSub bs).promO "W_out" = some "W_out" := by
    refine promoted_exact ⟨.var "W_out", by simp [bleedCalcsSub], by decide⟩ ?_
    intro p hp
    simp only [bleedCalcsSub, List.mem_append, List.mem_singleton, List.mem_map] at hp
    rcases hp with rfl | ⟨b, -, rfl⟩
    · right; decide
    · left; rfl
  simp only [Decl.outName, this, Option.getD_some]

omit hb in
private theorem calcs_stat {b : String} (hbm : b ∈ bs) :
    (bleedCalcsSub bs).outName (b ++ ":stat:W") = b ++ ":stat:W" := by
  have : promoted (bleedCalcsSub bs).promO (b ++ ":stat:W") = some (b ++ ":stat:W") := by
    refine promoted_fits ⟨.pre (b ++ ":"), ?_, ?_⟩ ?_
    · simp only [bleedCalcsSub, List.mem_append, List.mem_map]
      exact Or.inr ⟨b, hbm, rfl⟩
    · have : b ++ ":stat:W" = b ++ ":" ++ "stat:W" := by rw [String.append_assoc]; rfl
      rw [this]; exact pre_fits _ _
    · intro p hp
      simp only [bleedCalcsSub, List.mem_append, List.mem_singleton, List.mem_map] at hp
      rcases hp with rfl | ⟨b', -, rfl⟩
      · exact exact_var_ne (ne_plain b (by decide) (by decide)).symm
      · rfl
  simp only [Decl.outName, this, Option.getD_some]

omit hb in
private theorem calcs_frac (b : String) : (bleedCalcsSub bs).inName (b ++ ":frac_W") = b ++ ":frac_W" := by
  have : promoted (bleedCalcsSub bs).promI (b ++ ":frac_W") = some (b ++ ":frac_W") := by
    refine promoted_fits ⟨.suf ":frac_W", by simp [bleedCalcsSub], suf_fits _ _⟩ ?_
    intro p hp
    simp only [bleedCalcsSub, List.mem_cons, List.not_mem_nil, or_false] at hp
    rcases hp with rfl | rfl
    · exact exact_as_ne (ne_plain b (by decide) (by decide)).symm
    · rfl
  simp only [Decl.inName, this, Option.getD_some]

omit hb in
private theorem calcs_outs :
    (bleedCalcsSub bs).outs.map (bleedCalcsSub bs).outName
      = ["W_out"] ++ bs.flatMap fun b => [("", ":stat:W")].map (bname b) := by
  refine map_names (F := ["W_out"]) (V := [":stat:W"]) (spec := fun v => ("", v)) (f₀ := id) ?_ ?_
  · intro v hv
    rw [List.mem_singleton] at hv
    subst hv
    exact calcs_W_out
  · intro b hbm v hv
    rw [List.mem_singleton] at hv
    subst hv
    rw [calcs_stat hbm, bname_nil]

omit hb in
private theorem calcs_ins :
    (bleedCalcsSub bs).ins.map (bleedCalcsSub bs).inName
      = ["Fl_I:stat:W"] ++ bs.flatMap fun b => [("", ":frac_W")].map (bname b) := by
  refine map_names (F := ["W_in"]) (V := [":frac_W"]) (spec := fun v => ("", v)) (f₀ := fun _ => "Fl_I:stat:W") ?_ ?_
  · intro v hv
    rw [List.mem_singleton] at hv
    subst hv
    rfl
  · intro b _ v hv
    rw [List.mem_singleton] at hv
    subst hv
    rw [calcs_frac, bname_nil]

omit hb in
private theorem flow_outs (gas : (ℕ → ℝ) → TPGas) (b : String) :
    (extractFlow gas b).outs.map (extractFlow gas b).outName
      = (ownSpecs .total_TP "_flow" ":tot").map (bname b) := by
  have e : b ++ ":tot:" = b ++ (":tot" ++ ":") := rfl
  unfold extractFlow
  rw [e]
  exact thermo_own gas .total_TP rfl b "_flow" ":tot" (by decide) _

omit hb in
private theorem flow_ins (gas : (ℕ → ℝ) → TPGas) (b : String) :
    (extractFlow gas b).ins.map (extractFlow gas b).inName
      = ["Fl_I:tot:T", "Fl_I:tot:P", "Fl_I:tot:composition"] := rfl

omit hb in
private theorem subs_eq (gas : (ℕ → ℝ) → TPGas) (d s : Bool) :
    (bleedOut gas bs d s).wiring.subs
      = (w₀ d s).subs.take 1 ++ bs.flatMap (fun _ => []) ++ [(bleedCalcsSub bs).toDecl]
        ++ (bs.flatMap fun b => [(extractFlow gas b).toDecl]) ++ [] ++ (w₀ d s).subs.drop 2 := by
  have e1 : bs.flatMap (fun _ => ([] : List Decl)) = [] := by simp
  have e2 : (bs.flatMap fun b => [(extractFlow gas b).toDecl]) = bs.map fun b => (extractFlow gas b).toDecl :=
    List.flatMap_pure_eq_map _ _
  rw [e1, e2]
  cases d <;> cases s <;>
    simp only [Group.wiring, bleedOut, List.map_append, List.map_map, Function.comp_def, List.append_nil] <;> rfl

private theorem names (gas : (ℕ → ℝ) → TPGas) (d s : Bool) :
    ((bleedOut gas bs d s).wiring.subs.map (·.name)).Nodup := by
  have h := names_nodup hb (ts := ["_flow"]) (fixed := (w₀ d s).subs.map (·.name)) (by decide) (by decide)
    (per_fits d s).acc.1 (by clear * -; revert d s; decide +kernel)
  refine (List.Perm.nodup_iff ?_).mpr h
  rw [subs_eq gas d s, ← List.flatMap_pure_eq_map]
  refine (segs_perm bs _ _ _ _ _ _ _ ["bld_calcs"] [] (fun _ => []) (fun _ => []) (fun _ => []) (fun b => [b ++ "_flow"])
    (by simp; rfl) (by simp) (by simp) ?_).trans ?_
  · intro b _; rfl
  · refine List.Perm.append (List.Perm.of_eq ?_) (List.Perm.of_eq ?_)
    · clear * -; cases d <;> cases s <;> rfl
    · simp

private theorem ext (gas : (ℕ → ℝ) → TPGas) (d s : Bool) :
    Extends (w₀ d s) per bs (bleedOut gas bs d s).wiring := by
  refine ⟨?_, ?_, ?_⟩
  · rw [Wiring.outs, subs_eq]
    refine (segs_perm bs _ _ _ _ _ _ _ ["W_out"] [] (fun b => [("", ":stat:W")].map (bname b)) (fun _ => [])
      (fun _ => []) (fun b => (ownSpecs .total_TP "_flow" ":tot").map (bname b)) ?_ (by simp) (by simp) ?_).trans ?_
    · rw [List.flatMap_cons, List.flatMap_nil, List.append_nil]; exact calcs_outs
    · intro b _
      rw [List.flatMap_cons, List.flatMap_nil, List.append_nil]; exact flow_outs gas b
    · refine List.Perm.append (List.Perm.of_eq ?_) (List.Perm.of_eq ?_)
      · clear * -; revert d s; decide +kernel
      · simp [per]
  · intro n
    rw [Wiring.ins, subs_eq]
    rw [(segs_perm bs _ _ _ _ _ _ _ ["Fl_I:stat:W"] [] (fun b => [("", ":frac_W")].map (bname b)) (fun _ => [])
      (fun _ => []) (fun b => ["Fl_I:tot:T", "Fl_I:tot:P", "Fl_I:tot:composition"]) ?_ (by simp) (by simp) ?_).mem_iff]
    · have e : ((w₀ d s).subs.take 1).flatMap (fun s => s.ins.map s.inName) ++ ["Fl_I:stat:W"] ++ []
          ++ ((w₀ d s).subs.drop 2).flatMap (fun s => s.ins.map s.inName) = (w₀ d s).ins := by
        clear * -; revert d s; decide +kernel
      have m : ["Fl_I:tot:T", "Fl_I:tot:P", "Fl_I:tot:composition"] ⊆ (w₀ d s).ins := by
        clear * -; revert d s; decide +kernel
      rw [e, List.mem_append, List.mem_flatMap]
      simp only [List.nil_append, List.append_nil, List.mem_append, per, List.mem_singleton]
      constructor
      · rintro (h | ⟨b, hbm, h | h⟩)
        · exact Or.inl h
        · exact Or.inr ⟨b, hbm, _, rfl, by simpa using h⟩
        · exact Or.inl (m h)
      · rintro (h | ⟨b, hbm, q, rfl, h⟩)
        · exact Or.inl h
        · exact Or.inr ⟨b, hbm, Or.inl (by simpa using h)⟩
    · rw [List.flatMap_cons, List.flatMap_nil, List.append_nil]; exact calcs_ins
    · intro b _
      rfl
  · have : (bleedOut gas bs d s).wiring.conns = (w₀ d s).conns := rfl
    have e : (bs.flatMap fun b => per.conns.map fun c => (c.1.at b, bname b c.2)) = [] := by
      simp only [per, List.map_nil, List.flatMap_eq_nil_iff, implies_true]
    rw [this, e, List.append_nil]

omit hb in
private theorem flow_found (gas : (ℕ → ℝ) → TPGas) (b : String) : (extractFlow gas b).PromotesFound := by
  constructor
  · have : ∀ p ∈ (extractFlow gas "").promI, ∃ v ∈ (extractFlow gas "").ins,
        taker (extractFlow gas "").promI v = some p := by
      show ∀ p ∈ (extractFlow gas0 "").promI, ∃ v ∈ (extractFlow gas0 "").ins,
        taker (extractFlow gas0 "").promI v = some p
      decide +kernel
    exact fun p hp => Or.inl (this p hp)
  · intro p hp
    rw [show (extractFlow gas b).promO = [.pre (b ++ ":tot:")] from rfl, List.mem_singleton] at hp
    subst hp
    refine Or.inl ⟨b ++ ":tot" ++ ":" ++ "T", ?_, ?_⟩
    · simp only [extractFlow, thermo, List.mem_append, List.mem_map]
      exact Or.inl (Or.inr ⟨.T, by decide, rfl⟩)
    · have e : b ++ ":tot" ++ ":" ++ "T" = b ++ ":tot:" ++ "T" := by simp only [String.append_assoc]; rfl
      rw [show (extractFlow gas b).promO = [.pre (b ++ ":tot:")] from rfl, e]
      exact taker_fits List.mem_cons_self (pre_fits _ _) (by simp [Prom.exact]) (by simp)

private theorem calcs_found (hne : bs ≠ []) : (bleedCalcsSub bs).PromotesFound := by
  obtain ⟨b₀, h₀⟩ := List.exists_mem_of_ne_nil bs hne
  constructor
  · intro p hp
    left
    simp only [bleedCalcsSub, List.mem_cons, List.not_mem_nil, or_false] at hp
    rcases hp with rfl | rfl
    · exact ⟨"W_in", by simp [bleedCalcsSub], rfl⟩
    · refine ⟨b₀ ++ ":frac_W", ?_, ?_⟩
      · simp only [bleedCalcsSub, List.mem_append, List.mem_flatMap, List.mem_singleton]
        exact Or.inr ⟨b₀, h₀, rfl⟩
      · refine taker_fits (by simp [bleedCalcsSub]) (suf_fits _ _) ?_ ?_
        · intro q hq
          simp only [bleedCalcsSub, List.mem_cons, List.not_mem_nil, or_false] at hq
          rcases hq with rfl | rfl
          · exact exact_as_ne (ne_plain _ (by decide) (by decide)).symm
          · rfl
        · intro q hq h
          simp only [bleedCalcsSub, List.mem_cons, List.not_mem_nil, or_false] at hq
          rcases hq with rfl | rfl
          · simp [Prom.fits] at h
          · rfl
  · intro p hp
    left
    have hmem : ∀ q ∈ (bleedCalcsSub bs).promO, q = .var "W_out" ∨ ∃ b ∈ bs, q = .pre (b ++ ":") := by
      intro q hq
      simp only [bleedCalcsSub, List.mem_append, List.mem_singleton, List.mem_map] at hq
      rcases hq with rfl | ⟨b, h, rfl⟩
      · exact Or.inl rfl
      · exact Or.inr ⟨b, h, rfl⟩
    rcases hmem p hp with rfl | ⟨b, hbm, rfl⟩
    · refine ⟨"W_out", by simp [bleedCalcsSub], taker_exact hp (by decide) ?_⟩
      intro q hq h
      rcases hmem q hq with rfl | ⟨b, hbm, rfl⟩
      · rfl
      · simp [Prom.exact] at h
    · refine ⟨b ++ ":stat:W", ?_, ?_⟩
      · simp only [bleedCalcsSub, List.mem_append, List.mem_flatMap, List.mem_singleton]
        exact Or.inr ⟨b, hbm, rfl⟩
      · refine taker_fits hp ?_ ?_ ?_
        · have : b ++ ":stat:W" = b ++ ":" ++ "stat:W" := by rw [String.append_assoc]; rfl
          rw [this]; exact pre_fits _ _
        · intro q hq
          rcases hmem q hq with rfl | ⟨b', hbm', rfl⟩
          · exact exact_var_ne (ne_plain b (by decide) (by decide)).symm
          · rfl
        · intro q hq h
          rcases hmem q hq with rfl | ⟨b', hbm', rfl⟩
          · simp [Prom.fits] at h
          · rw [plain_prefix (hb.plain b' hbm') (hb.plain b hbm) (by decide) (by decide) h]

end

/-- **C53 (interface).** For any non-empty list of distinct bleed names that do not clash with the element's own
names, the wiring is accepted, and what is left to supply is the inlet station, a fraction for each bleed and
the size or Mach number of the outlet. -/
theorem C53_interface (gas : (ℕ → ℝ) → TPGas) {bs : List String} (hb : BleedNames bleedTails bleedOutReserved bs)
    (hne : bs ≠ []) (d s : Bool) :
    (bleedOut gas bs d s).wiring.Accepted
    ∧ ∀ n, n ∈ (bleedOut gas bs d s).wiring.externals ↔
        n ∈ inletPort ++ ["flow_in.Fl_I:FAR"]
          ++ (if s then if d then ["MN"] else ["area", "out_stat.guess:MN"] else [])
        ∨ ∃ b ∈ bs, n = b ++ ":frac_W" := by
  refine ⟨⟨(ext hb gas d s).wired hb (per_fits d s) (names hb gas d s), ?_⟩, ?_⟩
  · have h0 : ∀ d s, ∀ t ∈ (w₀ d s).subs.take 1 ++ (w₀ d s).subs.drop 2, t.PromotesFound := by decide +kernel
    intro t ht
    rw [subs_eq gas d s] at ht
    simp only [List.mem_append, List.mem_flatMap, List.mem_singleton, List.not_mem_nil, and_false, exists_false,
      or_false] at ht
    rcases ht with ((h | rfl) | ⟨b, hbm, rfl⟩) | h
    · exact h0 d s t (List.mem_append_left _ h)
    · exact calcs_found hb hne
    · exact flow_found gas b
    · exact h0 d s t (List.mem_append_right _ h)
  · intro n
    rw [(ext hb gas d s).mem_externals hb (per_fits d s) (names hb gas d s)]
    have h1 : ∀ d s, (w₀ d s).externals ⊆ inletPort ++ ["flow_in.Fl_I:FAR"]
          ++ (if s then if d then ["MN"] else ["area", "out_stat.guess:MN"] else [])
        ∧ inletPort ++ ["flow_in.Fl_I:FAR"]
          ++ (if s then if d then ["MN"] else ["area", "out_stat.guess:MN"] else []) ⊆ (w₀ d s).externals := by
      decide +kernel
    refine or_congr ⟨fun h => (h1 d s).1 h, fun h => (h1 d s).2 h⟩ ?_
    have h2 : ("", ":frac_W") ∉ per.outs := by decide +kernel
    simp only [per, List.mem_singleton, List.map_nil, List.not_mem_nil, not_false_eq_true, and_true]
    constructor
    · rintro ⟨b, hbm, q, rfl, -, rfl⟩
      exact ⟨b, hbm, bname_nil _ _⟩
    · rintro ⟨b, hbm, rfl⟩
      exact ⟨b, hbm, _, rfl, h2, (bname_nil _ _).symm⟩

/-- **C53, refuted.** Without bleeds, the default of the option, the wiring is refused: `'*:frac_W'` finds no
input. -/
theorem C53_refuted_no_bleeds (gas : (ℕ → ℝ) → TPGas) (d s : Bool) : ¬ (bleedOut gas [] d s).wiring.Accepted := by
  have : ∀ d s, ¬ (w₀ d s).Accepted := by decide +kernel
  have e : (bleedOut gas [] d s).wiring = w₀ d s := by cases d <;> cases s <;> rfl
  rw [e]; exact this d s

/-- **C53, refuted.** Bleed names must be distinct and differ from the element's names: otherwise two
subsystems or two outputs have one name. -/
theorem C53_refuted_names (gas : (ℕ → ℝ) → TPGas) (d s : Bool) :
    ¬ (bleedOut gas ["a", "a"] d s).wiring.Accepted ∧ ¬ (bleedOut gas ["Fl_O"] d s).wiring.Accepted
    ∧ ¬ (bleedOut gas ["real"] d s).wiring.Accepted := by
  have : ∀ d s, ¬ (bleedOut gas0 ["a", "a"] d s).wiring.Accepted ∧ ¬ (bleedOut gas0 ["Fl_O"] d s).wiring.Accepted
    ∧ ¬ (bleedOut gas0 ["real"] d s).wiring.Accepted := by decide +kernel
  have e : ∀ bs ∈ [["a", "a"], ["Fl_O"], ["real"]], (bleedOut gas bs d s).wiring = (bleedOut gas0 bs d s).wiring := by
    intro bs hbs
    fin_cases hbs <;> cases d <;> cases s <;> rfl
  rw [e _ (by simp), e _ (by simp), e _ (by simp)]
  exact this d s

section
variable {bs : List String} (hb : BleedNames bleedTails bleedOutReserved bs)

private theorem mem_subs (gas : (ℕ → ℝ) → TPGas) (d s : Bool) {t : Decl} (h : t ∈ (w₀ d s).subs.drop 2) :
    t ∈ (bleedOut gas bs d s).wiring.subs ∧ t ∈ (w₀ d s).subs :=
  ⟨by rw [subs_eq]; exact List.mem_append_right _ h, List.mem_of_mem_drop h⟩

include hb

private theorem calcs_links (gas : (ℕ → ℝ) → TPGas) (d s : Bool) :
    let w := (bleedOut gas bs d s).wiring
    w.inSrc "bld_calcs" "W_in" = "Fl_I:stat:W" ∧ w.outOf "bld_calcs" "W_out" = "W_out"
    ∧ ∀ b ∈ bs, w.inSrc "bld_calcs" (b ++ ":frac_W") = b ++ ":frac_W"
      ∧ w.outOf "bld_calcs" (b ++ ":stat:W") = b ++ ":stat:W" := by
  intro w
  have hn := names hb gas d s
  have he := ext hb gas d s
  have hf := per_fits d s
  have hm : (bleedCalcsSub bs).toDecl ∈ w.subs := by
    rw [show w.subs = _ from subs_eq gas d s]
    simp
  refine ⟨?_, ?_, fun b hbm => ⟨?_, ?_⟩⟩
  · rw [show w.inSrc "bld_calcs" "W_in" = _ from inSrc_of hn hm (v := "W_in"),
      show (bleedCalcsSub bs).inName "W_in" = "Fl_I:stat:W" from rfl,
      he.src_fixed hb hf hn (by clear * -; revert d s; decide +kernel)]
    clear * -; revert d s; decide +kernel
  · exact (outOf_of hn hm).trans calcs_W_out
  · rw [show w.inSrc "bld_calcs" (b ++ ":frac_W") = _ from inSrc_of hn hm, calcs_frac]
    have := he.src_free_bld hb hf hbm (q := ("", ":frac_W")) (by decide) (by decide +kernel) (by decide)
    rwa [bname_nil] at this
  · exact (outOf_of hn hm).trans (calcs_stat hbm)

private theorem flow_links (gas : (ℕ → ℝ) → TPGas) (d s : Bool) {b : String} (hbm : b ∈ bs) :
    let w := (bleedOut gas bs d s).wiring
    w.inSrc (b ++ "_flow") "T" = "Fl_I:tot:T" ∧ w.inSrc (b ++ "_flow") "P" = "Fl_I:tot:P"
    ∧ w.inSrc (b ++ "_flow") "composition" = "Fl_I:tot:composition"
    ∧ w.ReportsAs (b ++ "_flow") (b ++ ":tot") (b ++ ":tot") .total_TP := by
  intro w
  have hn := names hb gas d s
  have he := ext hb gas d s
  have hf := per_fits d s
  have hm : (extractFlow gas b).toDecl ∈ w.subs := by
    rw [show w.subs = _ from subs_eq gas d s]
    simp only [List.mem_append, List.mem_flatMap, List.mem_singleton]
    exact Or.inl (Or.inl (Or.inr ⟨b, hbm, rfl⟩))
  have key : ∀ v n, (extractFlow gas b).inName v = n → n ∈ (w₀ d s).ins → (w₀ d s).src n = n →
      w.inSrc (b ++ "_flow") v = n := by
    intro v n h1 h2 h3
    rw [show w.inSrc (b ++ "_flow") v = _ from inSrc_of hn hm, h1, he.src_fixed hb hf hn h2, h3]
  refine ⟨key _ _ rfl ?_ ?_, key _ _ rfl ?_ ?_, key _ _ rfl ?_ ?_, ?_⟩
  iterate 6 · clear * -; revert d s; decide +kernel
  refine ⟨fun v hv => ?_, fun h => absurd h (by decide)⟩
  rw [show w.outOf (b ++ "_flow") _ = _ from outOf_of hn hm]
  exact thermo_reports_own gas .total_TP b "_flow" ":tot" _ v

end

private abbrev F (d s : Bool) : List Decl := (w₀ d s).subs.drop 2

private theorem w₀_links : ∀ d s,
    ((w₀ d s).FixedRd (F d s) "real_flow" "T" "Fl_I:tot:T" ∧ (w₀ d s).FixedRd (F d s) "real_flow" "P" "Fl_I:tot:P"
      ∧ (w₀ d s).FixedRd (F d s) "real_flow" "composition" "Fl_I:tot:composition"
      ∧ (w₀ d s).FixedReports (F d s) "real_flow" "Fl_O:tot" "Fl_O:tot" .total_TP)
    ∧ ((w₀ d true).FixedRd (F d true) "out_stat" "S" ("Fl_O:tot" ++ ":" ++ "S")
      ∧ (w₀ d true).FixedRd (F d true) "out_stat" "ht" ("Fl_O:tot" ++ ":" ++ "h")
      ∧ (w₀ d true).FixedRd (F d true) "out_stat" "W" "W_out"
      ∧ (w₀ d true).FixedRd (F d true) "out_stat" "composition" "Fl_I:tot:composition"
      ∧ (w₀ true true).FixedRd (F true true) "out_stat" "MN" "MN"
      ∧ (w₀ false true).FixedRd (F false true) "out_stat" "area" "area"
      ∧ (w₀ d true).FixedReports (F d true) "out_stat" "Fl_O:stat" "Fl_O:stat" .static_A)
    ∧ (w₀ d false).FixedRd (F d false) "W_passthru" "W_out" "W_out"
    ∧ (w₀ d false).FixedWr (F d false) "W_passthru" "Fl_O:stat:W" "Fl_O:stat:W" := by
  decide +kernel

/-- **C53 (bleed extraction).** In a converged `BleedOut` with any bleeds, each bleed takes its fraction of the
incoming flow, the outlet flow and the bleeds add up to the incoming flow, the outlet and every bleed have the
incoming temperature, pressure and composition and the properties of that state, and the streams carry the
incoming energy and entropy. With statics, the static outlet passes what the bleeds leave. -/
theorem C53_bleed_out (gas : (ℕ → ℝ) → TPGas) {bs : List String} (hb : BleedNames bleedTails bleedOutReserved bs)
    (d s : Bool) (E : Env) (hc : (bleedOut gas bs d s).Converged E) :
    (∀ b ∈ bs, E.num (b ++ ":stat:W") = E.num (b ++ ":frac_W") * E.num "Fl_I:stat:W"
      ∧ E.at (b ++ ":tot") "T" = E.num "Fl_I:tot:T" ∧ E.at (b ++ ":tot") "P" = E.num "Fl_I:tot:P"
      ∧ E.vec (b ++ ":tot" ++ ":" ++ "composition") = E.vec "Fl_I:tot:composition"
      ∧ StateOf (gas (E.vec "Fl_I:tot:composition")) E (b ++ ":tot"))
    ∧ E.num "Fl_O:stat:W" + (bs.map fun b => E.num (b ++ ":stat:W")).sum = E.num "Fl_I:stat:W"
    ∧ E.num "Fl_O:tot:T" = E.num "Fl_I:tot:T" ∧ E.num "Fl_O:tot:P" = E.num "Fl_I:tot:P"
    ∧ E.vec "Fl_O:tot:composition" = E.vec "Fl_I:tot:composition"
    ∧ StateOf (gas (E.vec "Fl_I:tot:composition")) E "Fl_O:tot"
    ∧ (StateOf (gas (E.vec "Fl_I:tot:composition")) E "Fl_I:tot" →
        E.num "Fl_O:stat:W" * E.num "Fl_O:tot:h"
            + (bs.map fun b => E.num (b ++ ":stat:W") * E.at (b ++ ":tot") "h").sum
          = E.num "Fl_I:stat:W" * E.num "Fl_I:tot:h"
        ∧ E.num "Fl_O:stat:W" * E.num "Fl_O:tot:S"
            + (bs.map fun b => E.num (b ++ ":stat:W") * E.at (b ++ ":tot") "S").sum
          = E.num "Fl_I:stat:W" * E.num "Fl_I:tot:S")
    ∧ (s = true → StaticOutlet (gas (E.vec "Fl_I:tot:composition")) E "Fl_O:tot" "Fl_O:stat" d
        (E.num "Fl_O:stat:W") (E.num "MN") (E.num "area")) := by
  have hn := names hb gas d s
  have hf := per_fits d s
  have he := ext hb gas d s
  have hF : F d s ⊆ (bleedOut gas bs d s).wiring.subs := fun t h => (mem_subs gas d s h).1
  have hF₀ : F d s ⊆ (w₀ d s).subs := fun t h => List.mem_of_mem_drop h
  obtain ⟨⟨r1, r2, r3, r4⟩, hq, hp⟩ := w₀_links d s
  -- flows
  obtain ⟨c1, c2, c3⟩ := calcs_links hb gas d s
  obtain ⟨x, hx1, hx2, hW, hB⟩ : ∃ x : Bleed.I bs.length → ℝ, x .W_in = E.num "Fl_I:stat:W"
      ∧ (∀ k : Fin bs.length, x (.frac k) = E.num (bs[k] ++ ":frac_W"))
      ∧ E.num "W_out" = Bleed.compute x .W_out
      ∧ ∀ k : Fin bs.length, E.num (bs[k] ++ ":stat:W") = Bleed.compute x (.W k) := by
    obtain ⟨hW, hB⟩ := hc.eqn hn (s := bleedCalcsSub bs) (by simp [bleedOut])
    refine ⟨_, ?_, ?_, (congrArg E.num c2).symm.trans hW,
      fun k => (congrArg E.num (c3 bs[k] (List.getElem_mem _)).2).symm.trans (hB k)⟩
    · exact congrArg E.num c1
    · exact fun k => congrArg E.num (c3 bs[k] (List.getElem_mem _)).1
  have hsum : E.num "W_out" + (bs.map fun b => E.num (b ++ ":stat:W")).sum = E.num "Fl_I:stat:W" := by
    rw [← sum_bleeds, ← hx1, ← (Bleed.C28_bleeds x).1, hW]
    congr 1
    exact Finset.sum_congr rfl fun k _ => hB k
  -- bleeds
  have hbl : ∀ b ∈ bs, E.num (b ++ ":stat:W") = E.num (b ++ ":frac_W") * E.num "Fl_I:stat:W"
      ∧ E.at (b ++ ":tot") "T" = E.num "Fl_I:tot:T" ∧ E.at (b ++ ":tot") "P" = E.num "Fl_I:tot:P"
      ∧ E.vec (b ++ ":tot" ++ ":" ++ "composition") = E.vec "Fl_I:tot:composition"
      ∧ StateOf (gas (E.vec "Fl_I:tot:composition")) E (b ++ ":tot") := by
    intro b hbm
    obtain ⟨f1, f2, f3, f4⟩ := flow_links hb gas d s hbm
    have t := hc.stationMem rfl hn (gas := gas) (name := b ++ "_flow") (m := .total_TP) (fl := b ++ ":tot")
      (pI := [.as "composition" "Fl_I:tot:composition", .as "T" "Fl_I:tot:T", .as "P" "Fl_I:tot:P"])
      (pO := [.pre (b ++ ":tot:")])
      (by simp only [bleedOut, List.mem_append, List.mem_map]; exact Or.inl (Or.inr ⟨b, hbm, rfl⟩)) (b ++ ":tot") f4
    have s1 := t.state
    have s2 := t.tp rfl
    have s3 := t.comp rfl
    simp only [Wiring.rd, f1, f2, f3] at s1 s2 s3
    obtain ⟨k, hk, rfl⟩ := List.getElem_of_mem hbm
    refine ⟨?_, s2.1, s2.2, s3, s1⟩
    have := (hB ⟨k, hk⟩).trans ((Bleed.C28_bleeds x).2 ⟨k, hk⟩)
    rw [hx1, hx2] at this
    exact this
  -- outlet
  have t := hc.stationMem rfl hn (gas := gas) (name := "real_flow") (m := .total_TP) (fl := "Fl_O:tot")
      (pI := [.as "composition" "Fl_I:tot:composition", .as "T" "Fl_I:tot:T", .as "P" "Fl_I:tot:P"])
      (pO := [.pre "Fl_O:"]) (by simp [bleedOut]) "Fl_O:tot" (FixedReports.transfer hf hn hF hF₀ r4)
  have s1 := t.state
  have s2 := t.tp rfl
  have s3 := t.comp rfl
  simp only [Wiring.rd, FixedRd.transfer hb hf he hn hF hF₀ r1, FixedRd.transfer hb hf he hn hF hF₀ r2,
    FixedRd.transfer hb hf he hn hF hF₀ r3, Env.at, String.reduceAppend] at s1 s2 s3
  -- statics
  have hst : s = true → StaticOutlet (gas (E.vec "Fl_I:tot:composition")) E "Fl_O:tot" "Fl_O:stat" d
        (E.num "W_out") (E.num "MN") (E.num "area") := by
    rintro rfl
    obtain ⟨q1, q2, q3, q4, q5, q6, q7⟩ := hq
    refine hc.staticOutletMem (d := d) (gas := gas) (name := "out_stat")
      (pI := [.as "composition" "Fl_I:tot:composition", .var "MN"]) (pO := [.pre "Fl_O:stat:"])
      (pI' := [.as "composition" "Fl_I:tot:composition", .var "area"]) (pO' := [.pre "Fl_O:stat:"])
      rfl hn (by simp [bleedOut]) (FixedReports.transfer hf hn hF hF₀ q7)
      (FixedRd.transfer hb hf he hn hF hF₀ q1) (FixedRd.transfer hb hf he hn hF hF₀ q2) (FixedRd.transfer hb hf he hn hF hF₀ q3)
      (FixedRd.transfer hb hf he hn hF hF₀ q4) ?_ ?_
    · rintro rfl; exact FixedRd.transfer hb hf he hn hF hF₀ q5
    · rintro rfl; exact FixedRd.transfer hb hf he hn hF hF₀ q6
  have hWo : E.num "Fl_O:stat:W" = E.num "W_out" := by
    cases s
    · have hw := hc.eqn hn (s := passThrough "W_passthru" "W_out" "Fl_O:stat:W") (by simp [bleedOut])
      have e1 := FixedRd.transfer hb hf he hn hF hF₀ hp.1
      have e2 := FixedWr.transfer hf hn hF hF₀ hp.2
      simp only [passThrough, Wiring.rd, Wiring.wr] at hw
      rw [e1, e2] at hw
      exact hw
    · exact (hst rfl).flow
  rw [← hWo] at hsum hst
  refine ⟨hbl, hsum, s2.1, s2.2, s3, s1, ?_, hst⟩
  intro hI
  have eh : ∀ b ∈ bs, E.at (b ++ ":tot") "h" = E.num "Fl_I:tot:h" := by
    intro b hbm
    obtain ⟨-, k1, k2, -, k3⟩ := hbl b hbm
    have := hI.h
    simp only [Env.at, String.reduceAppend] at this
    rw [k3.h, k1, k2, this]
  have eS : ∀ b ∈ bs, E.at (b ++ ":tot") "S" = E.num "Fl_I:tot:S" := by
    intro b hbm
    obtain ⟨-, k1, k2, -, k3⟩ := hbl b hbm
    have := hI.S
    simp only [Env.at, String.reduceAppend] at this
    rw [k3.S, k1, k2, this]
  have oh : E.num "Fl_O:tot:h" = E.num "Fl_I:tot:h" := by
    have h1 := s1.h
    have h2 := hI.h
    simp only [Env.at, String.reduceAppend] at h1 h2
    rw [h1, h2, s2.1, s2.2]
  have oS : E.num "Fl_O:tot:S" = E.num "Fl_I:tot:S" := by
    have h1 := s1.S
    have h2 := hI.S
    simp only [Env.at, String.reduceAppend] at h1 h2
    rw [h1, h2, s2.1, s2.2]
  rw [List.map_congr_left fun b hbm => by rw [eh b hbm],
    List.map_congr_left (f := fun b => E.num (b ++ ":stat:W") * E.at (b ++ ":tot") "S") fun b hbm => by rw [eS b hbm],
    List.sum_map_mul_right, List.sum_map_mul_right, oh, oS, ← add_mul, ← add_mul, hsum]
  exact ⟨rfl, rfl⟩

/-! ## A converged example -/

namespace C53Example
open C48Example (unitGas tot sta)
open C50Example (mov mov_ok)

/-- Two bleeds. -/
abbrev two : List String := ["cust", "cool"]

theorem two_ok : BleedNames bleedTails bleedOutReserved two :=
  ⟨by decide, by decide, by decide +kernel, by decide +kernel⟩

/-- Of flow 4 each bleed takes a quarter. -/
noncomputable def bled : Env := Env.ofTable
  ([("Fl_I:stat:W", 4), ("Fl_I:tot:T", 1.5), ("Fl_I:tot:P", 2), ("cust:frac_W", 0.25), ("cool:frac_W", 0.25), ("MN", 1),
    ("W_out", 2), ("cust:stat:W", 1), ("cool:stat:W", 1)]
    ++ stationRows "Fl_I:tot:" tot
    ++ stationRows "cust_flow." tot ++ stationRows "cust:tot:" tot ++ stationRows "cool_flow." tot
    ++ stationRows "cool:tot:" tot
    ++ stationRows "real_flow." tot ++ stationRows "Fl_O:tot:" tot ++ stationRows "out_stat." sta
    ++ stationRows "Fl_O:stat:" sta ++ staticRows "out_stat." (mov 2) 2 ++ staticRows "Fl_O:stat:" (mov 2) 2)
  []

theorem bled_converged : (bleedOut unitGas two true true).Converged bled := by
  refine Group.converged_quick rfl (names two_ok unitGas true true) ?_
  obtain ⟨c1, c2, c3⟩ := calcs_links two_ok unitGas true true
  obtain ⟨c4, c5⟩ := c3 "cust" (by decide)
  obtain ⟨c6, c7⟩ := c3 "cool" (by decide)
  intro s hs
  simp only [bleedOut, if_true, List.cons_append, List.nil_append, List.mem_cons, List.not_mem_nil,
    or_false, List.map_cons, List.map_nil] at hs
  rcases hs with rfl | rfl | rfl | rfl | rfl | rfl
  · exact trivial
  · have b1 : bled.num "Fl_I:stat:W" = 4 := rfl
    have b2 : bled.num "W_out" = 2 := rfl
    have b3 : bled.num "cust:frac_W" = 0.25 := rfl
    have b4 : bled.num "cool:frac_W" = 0.25 := rfl
    have b5 : bled.num "cust:stat:W" = 1 := rfl
    have b6 : bled.num "cool:stat:W" = 1 := rfl
    simp only [String.reduceAppend] at c4 c5 c6 c7
    refine ⟨?_, fun k => ?_⟩
    · simp only [show (bleedCalcsSub two).name = "bld_calcs" from rfl, Wiring.rd, Wiring.wr, NC.rd, NC.wr, NC.inSrc_eq, NC.outOf_eq, c1, c2, Bleed.compute, Bleed.wOut,
        List.ofFn_succ, List.ofFn_zero, List.foldl_cons, List.foldl_nil]
      simp only [Fin.getElem_fin, Fin.val_zero, Fin.val_succ, zero_add, List.getElem_cons_zero, List.getElem_cons_succ,
        String.reduceAppend, c4, c6, b1, b2, b3, b4]
      norm_num
    · fin_cases k <;>
      simp only [show (bleedCalcsSub two).name = "bld_calcs" from rfl, Wiring.rd, Wiring.wr, NC.rd, NC.wr, NC.inSrc_eq, NC.outOf_eq, c1, c2, Bleed.compute]
      · show bled.num (Wiring.outOf _ "bld_calcs" "cust:stat:W") = bled.num "Fl_I:stat:W"
          * bled.num (Wiring.inSrc _ "bld_calcs" "cust:frac_W")
        rw [c5, c4, b1, b3, b5]; norm_num
      · show bled.num (Wiring.outOf _ "bld_calcs" "cool:stat:W") = bled.num "Fl_I:stat:W"
          * bled.num (Wiring.inSrc _ "bld_calcs" "cool:frac_W")
        rw [c7, c6, b1, b4, b6]; norm_num
  · total_of tot
  · total_of tot
  · total_of tot
  · static_of sta (mov 2) 1.5 2 (fun v => if v = .guessPt then 2 else 1) (mov_ok 2 (by norm_num))

/-- The inlet of the example is a state of the gas, and the guards of the static outlet hold. -/
example : StateOf (unitGas (bled.vec "Fl_I:tot:composition")) bled "Fl_I:tot"
    ∧ 0 < bled.num "Fl_O:stat:rho" ∧ bled.num "Fl_O:tot:h" ≠ 0 :=
  ⟨⟨rfl, rfl, rfl, rfl, rfl, rfl, rfl⟩, by show (0 : ℝ) < 1; norm_num, by show (1.5 : ℝ) ≠ 0; norm_num⟩

end C53Example

end PyCycle.OM
