import Verif.Proofs.BleedNamesLemmas
import Verif.Props.C53_BleedOut

/-! # Names of the compressor's variables, for any bleeds -/

namespace PyCycle.OM

/-- Endings a compressor adds to a bleed name. -/
def compressorTails : List String := ["", "_flow"]

/-- Names a bleed of a compressor cannot have: its subsystems and stations. -/
def compressorReserved : List String :=
  ["flow_in", "corrinputs", "map", "press_rise", "ideal_flow", "enth_rise", "real_flow", "eff_poly_calc", "blds_pwr",
   "out_stat", "W_passthru", "Fl_I", "Fl_O"]

namespace CompNames

/-- A map, for the names. -/
def m₀ : Map.CMap := ⟨fun _ _ _ => 0, fun _ _ _ => 0, fun _ _ _ => 0, 0⟩

/-- The wiring without bleeds. -/
abbrev w₀ (d s : Bool) : Wiring := (compressor gas0 m₀ [] d s).wiring

/-- What a bleed adds. -/
def per : PerBleed :=
  { outs := [("", ":stat:W"), ("", ":Pt"), ("", ":ht")] ++ ownSpecs .total_hP "_flow" ":tot"
    ins := [("", ":frac_W"), ("", ":frac_P"), ("", ":frac_work"), ("", "_flow.h"), ("", "_flow.P")]
    conns := [(.bld ("", ":ht"), ("", "_flow.h")), (.bld ("", ":Pt"), ("", "_flow.P"))] }

theorem per_fits : ∀ d s, per.Fits compressorTails compressorReserved (w₀ d s) := by decide +kernel

section
variable {bs : List String}

/-- The bleed entries of `blds_pwr` concern no plain name. -/
theorem bldI_skip {v : String} (hv : Plain v) :
    ∀ p ∈ (bs.flatMap fun b => [Prom.var (b ++ ":frac_W"), .var (b ++ ":frac_P"), .var (b ++ ":frac_work")]),
      p.exact v = none ∧ p.fits v = false := by
  intro p hp
  obtain ⟨b, -, hp⟩ := List.mem_flatMap.mp hp
  simp only [List.mem_cons, List.not_mem_nil, or_false] at hp
  rcases hp with rfl | rfl | rfl <;> exact ⟨exact_var_ne (ne_plain b (by decide) hv), rfl⟩

theorem bldO_skip {v : String} (hv : Plain v) :
    ∀ p ∈ (bs.map fun b => Prom.pre (b ++ ":")), p.exact v = none ∧ p.fits v = false := by
  intro p hp
  obtain ⟨b, -, rfl⟩ := List.mem_map.mp hp
  exact ⟨rfl, pre_plain b (by decide) hv⟩

theorem pwr_in_fixed {v : String} (hv : v ∈ (bldsPwrSub []).ins) :
    (bldsPwrSub bs).inName v = (bldsPwrSub []).inName v := by
  have hp : Plain v := by revert v; decide
  have e : promoted (bldsPwrSub bs).promI v = promoted (bldsPwrSub []).promI v := by
    have e1 : promoted (bldsPwrSub bs).promI v = _ := promoted_left (bldI_skip hp)
    rw [e1]; rfl
  simp only [Decl.inName, e]; rfl

theorem pwr_out_fixed {v : String} (hv : v ∈ (bldsPwrSub []).outs) :
    (bldsPwrSub bs).outName v = (bldsPwrSub []).outName v := by
  have hp : Plain v := by revert v; decide
  have e : promoted (bldsPwrSub bs).promO v = promoted (bldsPwrSub []).promO v := by
    have e1 : promoted (bldsPwrSub bs).promO v = _ := promoted_left (bldO_skip hp)
    rw [e1]; rfl
  simp only [Decl.outName, e]; rfl

theorem pwr_in_bld {b v : String} (hb : b ∈ bs) (hv : v ∈ [":frac_W", ":frac_P", ":frac_work"]) :
    (bldsPwrSub bs).inName (b ++ v) = b ++ v := by
  have hs : SepHead v := by revert v; decide
  have : promoted (bldsPwrSub bs).promI (b ++ v) = some (b ++ v) := by
    refine promoted_exact ⟨.var (b ++ v), ?_, by simp [Prom.exact]⟩ ?_
    · refine List.mem_append_right _ (List.mem_flatMap.mpr ⟨b, hb, ?_⟩)
      simp only [List.mem_cons, List.not_mem_nil, or_false] at hv
      rcases hv with rfl | rfl | rfl <;> simp
    · intro p hp
      simp only [bldsPwrSub, List.mem_append, List.mem_flatMap, List.mem_cons, List.not_mem_nil, or_false] at hp
      have key : ∀ w, (Prom.var w).exact (b ++ v) = none ∨ (Prom.var w).exact (b ++ v) = some (b ++ v) := by
        intro w
        simp only [Prom.exact]
        split_ifs <;> simp
      rcases hp with (rfl | rfl | rfl | rfl | rfl) | ⟨b', -, rfl | rfl | rfl⟩
      · exact key _
      iterate 4 exact Or.inl (exact_as_ne (ne_plain b hs.parted (by decide)).symm)
      all_goals exact key _
  simp only [Decl.inName, this, Option.getD_some]

theorem pwr_out_bld {b v : String} (hb : b ∈ bs) (hv : v ∈ [":stat:W", ":Pt", ":ht"]) :
    (bldsPwrSub bs).outName (b ++ v) = b ++ v := by
  have hs : SepHead v := by revert v; decide
  have : promoted (bldsPwrSub bs).promO (b ++ v) = some (b ++ v) := by
    refine promoted_fits ⟨.pre (b ++ ":"), ?_, ?_⟩ ?_
    · exact List.mem_append_right _ (List.mem_map_of_mem hb)
    · obtain ⟨r, rfl⟩ : ∃ r, v = ":" ++ r := by
        simp only [List.mem_cons, List.not_mem_nil, or_false] at hv
        rcases hv with rfl | rfl | rfl
        · exact ⟨"stat:W", rfl⟩
        · exact ⟨"Pt", rfl⟩
        · exact ⟨"ht", rfl⟩
      rw [← String.append_assoc]
      exact pre_fits _ _
    · intro p hp
      simp only [bldsPwrSub, List.mem_append, List.mem_map, List.mem_cons, List.not_mem_nil, or_false] at hp
      rcases hp with (rfl | rfl | rfl) | ⟨b', -, rfl⟩
      iterate 3 exact exact_var_ne (ne_plain b hs.parted (by decide)).symm
      rfl
  simp only [Decl.outName, this, Option.getD_some]

theorem pwr_outs :
    (bldsPwrSub bs).outs.map (bldsPwrSub bs).outName
      = ["W_out", "power", "trq"]
        ++ bs.flatMap fun b => [("", ":stat:W"), ("", ":Pt"), ("", ":ht")].map (bname b) := by
  refine map_names (F := ["W_out", "power", "trq"]) (V := [":stat:W", ":Pt", ":ht"]) (spec := fun v => ("", v))
    (f₀ := (bldsPwrSub []).outName) ?_ ?_
  · exact fun v hv => pwr_out_fixed hv
  · intro b hb v hv
    rw [pwr_out_bld hb hv, bname_nil]

theorem pwr_ins :
    (bldsPwrSub bs).ins.map (bldsPwrSub bs).inName
      = ["Fl_I:stat:W", "blds_pwr.ht_out", "Fl_I:tot:h", "Fl_O:tot:P", "Fl_I:tot:P", "Nmech"]
        ++ bs.flatMap fun b => [("", ":frac_W"), ("", ":frac_P"), ("", ":frac_work")].map (bname b) := by
  refine map_names (F := ["W_in", "ht_out", "ht_in", "Pt_out", "Pt_in", "Nmech"])
    (V := [":frac_W", ":frac_P", ":frac_work"]) (spec := fun v => ("", v)) (f₀ := (bldsPwrSub []).inName) ?_ ?_
  · exact fun v hv => pwr_in_fixed hv
  · intro b hb v hv
    rw [pwr_in_bld hb hv, bname_nil]

theorem flow_outs (gas : (ℕ → ℝ) → TPGas) (b : String) :
    (bleedFlow gas b).outs.map (bleedFlow gas b).outName = (ownSpecs .total_hP "_flow" ":tot").map (bname b) := by
  have e : b ++ ":tot:" = b ++ (":tot" ++ ":") := rfl
  unfold bleedFlow
  rw [e]
  exact thermo_own gas .total_hP rfl b "_flow" ":tot" (by decide) _

theorem flow_in_names (gas : (ℕ → ℝ) → TPGas) (b : String) :
    (bleedFlow gas b).inName "h" = bname b ("", "_flow.h") ∧ (bleedFlow gas b).inName "P" = bname b ("", "_flow.P")
    ∧ (bleedFlow gas b).inName "composition" = "Fl_I:tot:composition" := by
  refine ⟨?_, ?_, rfl⟩
  · show b ++ "_flow" ++ "." ++ "h" = _
    rw [bname_nil]; simp only [String.append_assoc]; rfl
  · show b ++ "_flow" ++ "." ++ "P" = _
    rw [bname_nil]; simp only [String.append_assoc]; rfl

theorem flow_ins (gas : (ℕ → ℝ) → TPGas) (b : String) :
    (bleedFlow gas b).ins.map (bleedFlow gas b).inName
      = [bname b ("", "_flow.h"), bname b ("", "_flow.P"), "Fl_I:tot:composition"] := by
  obtain ⟨h1, h2, h3⟩ := flow_in_names gas b
  show [(bleedFlow gas b).inName "h", (bleedFlow gas b).inName "P", (bleedFlow gas b).inName "composition"] = _
  rw [h1, h2, h3]

theorem subs_eq (gas : (ℕ → ℝ) → TPGas) (m : Map.CMap) (d s : Bool) :
    (compressor gas m bs d s).wiring.subs
      = (w₀ d s).subs.take 8 ++ bs.flatMap (fun _ => []) ++ [(bldsPwrSub bs).toDecl]
        ++ (bs.flatMap fun b => [(bleedFlow gas b).toDecl]) ++ [] ++ (w₀ d s).subs.drop 9 := by
  have e1 : bs.flatMap (fun _ => ([] : List Decl)) = [] := by simp
  have e2 : (bs.flatMap fun b => [(bleedFlow gas b).toDecl]) = bs.map fun b => (bleedFlow gas b).toDecl :=
    List.flatMap_pure_eq_map _ _
  rw [e1, e2]
  cases d <;> cases s <;>
    simp only [Group.wiring, compressor, List.map_append, List.map_map, Function.comp_def, List.append_nil] <;> rfl

variable (hb : BleedNames compressorTails compressorReserved bs)
include hb

theorem names (gas : (ℕ → ℝ) → TPGas) (m : Map.CMap) (d s : Bool) :
    ((compressor gas m bs d s).wiring.subs.map (·.name)).Nodup := by
  have h := names_nodup hb (ts := ["_flow"]) (fixed := (w₀ d s).subs.map (·.name)) (by decide) (by decide)
    (per_fits d s).acc.1 (by clear * -; revert d s; decide +kernel)
  refine (List.Perm.nodup_iff ?_).mpr h
  rw [subs_eq gas m d s, ← List.flatMap_pure_eq_map]
  refine (segs_perm bs _ _ _ _ _ _ _ ["blds_pwr"] [] (fun _ => []) (fun _ => []) (fun _ => []) (fun b => [b ++ "_flow"])
    (by simp; rfl) (by simp) (by simp) ?_).trans ?_
  · intro b _; rfl
  · refine List.Perm.append (List.Perm.of_eq ?_) (List.Perm.of_eq ?_)
    · clear * -; cases d <;> cases s <;> rfl
    · simp

omit hb in
theorem ext (gas : (ℕ → ℝ) → TPGas) (m : Map.CMap) (d s : Bool) :
    Extends (w₀ d s) per bs (compressor gas m bs d s).wiring := by
  refine ⟨?_, ?_, ?_⟩
  · rw [Wiring.outs, subs_eq]
    refine (segs_perm bs _ _ _ _ _ _ _ ["W_out", "power", "trq"] []
      (fun b => [("", ":stat:W"), ("", ":Pt"), ("", ":ht")].map (bname b)) (fun _ => [])
      (fun _ => []) (fun b => (ownSpecs .total_hP "_flow" ":tot").map (bname b)) ?_ (by simp) (by simp) ?_).trans ?_
    · rw [List.flatMap_cons, List.flatMap_nil, List.append_nil]; exact pwr_outs
    · intro b _
      rw [List.flatMap_cons, List.flatMap_nil, List.append_nil]; exact flow_outs gas b
    · refine List.Perm.append (List.Perm.of_eq ?_) (List.Perm.of_eq ?_)
      · clear * -; revert d s; decide +kernel
      · simp [per]
  · intro n
    rw [Wiring.ins, subs_eq]
    rw [(segs_perm bs _ _ _ _ _ _ _
      ["Fl_I:stat:W", "blds_pwr.ht_out", "Fl_I:tot:h", "Fl_O:tot:P", "Fl_I:tot:P", "Nmech"] []
      (fun b => [("", ":frac_W"), ("", ":frac_P"), ("", ":frac_work")].map (bname b)) (fun _ => []) (fun _ => [])
      (fun b => [bname b ("", "_flow.h"), bname b ("", "_flow.P"), "Fl_I:tot:composition"]) ?_ (by simp) (by simp)
      ?_).mem_iff]
    · have e : ((w₀ d s).subs.take 8).flatMap (fun s => s.ins.map s.inName)
          ++ ["Fl_I:stat:W", "blds_pwr.ht_out", "Fl_I:tot:h", "Fl_O:tot:P", "Fl_I:tot:P", "Nmech"] ++ []
          ++ ((w₀ d s).subs.drop 9).flatMap (fun s => s.ins.map s.inName) = (w₀ d s).ins := by
        clear * -; revert d s; decide +kernel
      have hm : "Fl_I:tot:composition" ∈ (w₀ d s).ins := by
        clear * -; revert d s; decide +kernel
      rw [e, List.mem_append, List.mem_flatMap]
      simp only [List.nil_append, List.append_nil, List.mem_append, per, List.map_cons, List.map_nil, List.mem_cons,
        List.not_mem_nil, or_false]
      constructor
      · rintro (h | ⟨b, hbm, (h | h | h) | h | h | h⟩)
        · exact Or.inl h
        · exact Or.inr ⟨b, hbm, _, Or.inl rfl, h⟩
        · exact Or.inr ⟨b, hbm, _, Or.inr (Or.inl rfl), h⟩
        · exact Or.inr ⟨b, hbm, _, Or.inr (Or.inr (Or.inl rfl)), h⟩
        · exact Or.inr ⟨b, hbm, _, Or.inr (Or.inr (Or.inr (Or.inl rfl))), h⟩
        · exact Or.inr ⟨b, hbm, _, Or.inr (Or.inr (Or.inr (Or.inr rfl))), h⟩
        · exact Or.inl (h ▸ hm)
      · rintro (h | ⟨b, hbm, q, rfl | rfl | rfl | rfl | rfl, h⟩)
        · exact Or.inl h
        · exact Or.inr ⟨b, hbm, Or.inl (Or.inl h)⟩
        · exact Or.inr ⟨b, hbm, Or.inl (Or.inr (Or.inl h))⟩
        · exact Or.inr ⟨b, hbm, Or.inl (Or.inr (Or.inr h))⟩
        · exact Or.inr ⟨b, hbm, Or.inr (Or.inl h)⟩
        · exact Or.inr ⟨b, hbm, Or.inr (Or.inr (Or.inl h))⟩
    · rw [List.flatMap_cons, List.flatMap_nil, List.append_nil]; exact pwr_ins
    · intro b _
      rw [List.flatMap_cons, List.flatMap_nil, List.append_nil]; exact flow_ins gas b
  · have e1 : (compressor gas m bs d s).wiring.conns
        = (w₀ d s).conns.take 5
          ++ (bs.flatMap fun b => [(b ++ ":ht", b ++ "_flow" ++ ".h"), (b ++ ":Pt", b ++ "_flow" ++ ".P")])
          ++ (w₀ d s).conns.drop 5 := by
      cases d <;> cases s <;> rfl
    have e2 : (bs.flatMap fun b => per.conns.map fun c => (c.1.at b, bname b c.2))
        = bs.flatMap fun b => [(b ++ ":ht", b ++ "_flow" ++ ".h"), (b ++ ":Pt", b ++ "_flow" ++ ".P")] := by
      apply List.flatMap_congr
      intro b _
      simp only [per, List.map_cons, List.map_nil, Ref.at, bname_nil, String.append_assoc]
      rfl
    rw [e1, e2]
    generalize (bs.flatMap fun b => [(b ++ ":ht", b ++ "_flow" ++ ".h"), (b ++ ":Pt", b ++ "_flow" ++ ".P")]) = X
    rw [List.append_assoc]
    refine (List.Perm.append_left _ List.perm_append_comm).trans ?_
    rw [← List.append_assoc, List.take_append_drop]

omit hb in
theorem flow_found (gas : (ℕ → ℝ) → TPGas) (b : String) : (bleedFlow gas b).PromotesFound := by
  constructor
  · have : ∀ p ∈ (bleedFlow gas "").promI, ∃ v ∈ (bleedFlow gas "").ins,
        taker (bleedFlow gas "").promI v = some p := by
      show ∀ p ∈ (bleedFlow gas0 "").promI, ∃ v ∈ (bleedFlow gas0 "").ins,
        taker (bleedFlow gas0 "").promI v = some p
      decide +kernel
    exact fun p hp => Or.inl (this p hp)
  · intro p hp
    rw [show (bleedFlow gas b).promO = [.pre (b ++ ":tot:")] from rfl, List.mem_singleton] at hp
    subst hp
    refine Or.inl ⟨b ++ ":tot" ++ ":" ++ "T", ?_, ?_⟩
    · simp only [bleedFlow, thermo, List.mem_append, List.mem_map]
      exact Or.inl (Or.inr ⟨.T, by decide, rfl⟩)
    · have e : b ++ ":tot" ++ ":" ++ "T" = b ++ ":tot:" ++ "T" := by simp only [String.append_assoc]; rfl
      rw [show (bleedFlow gas b).promO = [.pre (b ++ ":tot:")] from rfl, e]
      exact taker_fits List.mem_cons_self (pre_fits _ _) (by simp [Prom.exact]) (by simp)

theorem pwr_found : (bldsPwrSub bs).PromotesFound := by
  have hI : ∀ q ∈ (bldsPwrSub bs).promI, q ∈ (bldsPwrSub []).promI
      ∨ ∃ b ∈ bs, ∃ v ∈ [":frac_W", ":frac_P", ":frac_work"], q = .var (b ++ v) := by
    intro q hq
    rcases List.mem_append.mp hq with h | h
    · exact Or.inl (List.mem_append_left _ h)
    · obtain ⟨b, hbm, h⟩ := List.mem_flatMap.mp h
      simp only [List.mem_cons, List.not_mem_nil, or_false] at h
      rcases h with rfl | rfl | rfl
      · exact Or.inr ⟨b, hbm, ":frac_W", by decide, rfl⟩
      · exact Or.inr ⟨b, hbm, ":frac_P", by decide, rfl⟩
      · exact Or.inr ⟨b, hbm, ":frac_work", by decide, rfl⟩
  have hO : ∀ q ∈ (bldsPwrSub bs).promO, q ∈ (bldsPwrSub []).promO ∨ ∃ b ∈ bs, q = .pre (b ++ ":") := by
    intro q hq
    rcases List.mem_append.mp hq with h | h
    · exact Or.inl (List.mem_append_left _ h)
    · obtain ⟨b, hbm, rfl⟩ := List.mem_map.mp h
      exact Or.inr ⟨b, hbm, rfl⟩
  constructor
  · intro p hp
    left
    rcases hI p hp with h | ⟨b, hbm, v, hv, rfl⟩
    · have h0 : ∀ p ∈ (bldsPwrSub []).promI, ∃ v ∈ (bldsPwrSub []).ins, (p.exact v).isSome = true
          ∧ ∀ q ∈ (bldsPwrSub []).promI, (q.exact v).isSome = true → q = p := by decide +kernel
      obtain ⟨v, hv, h1, h2⟩ := h0 p h
      have hp' : Plain v := by clear h1 h2; revert v; decide
      refine ⟨v, List.mem_append_left _ hv, taker_exact hp h1 ?_⟩
      intro q hq hs
      rcases hI q hq with h | ⟨b, hbm, u, hu, rfl⟩
      · exact h2 q h hs
      · have hs' : SepHead u := by clear hs hq; revert u; decide
        rw [exact_var_ne (ne_plain b hs'.parted hp')] at hs
        cases hs
    · have hs' : SepHead v := by clear hp; revert v; decide
      refine ⟨b ++ v, List.mem_append_right _ (List.mem_flatMap.mpr ⟨b, hbm, ?_⟩), taker_exact hp (by simp [Prom.exact]) ?_⟩
      · simp only [List.mem_cons, List.not_mem_nil, or_false] at hv
        rcases hv with rfl | rfl | rfl <;> simp
      · intro q hq hs
        rcases hI q hq with h | ⟨b', hbm', u, hu, rfl⟩
        · exfalso
          simp only [bldsPwrSub, List.flatMap_nil, List.append_nil, List.mem_cons, List.not_mem_nil, or_false] at h
          rcases h with rfl | rfl | rfl | rfl | rfl
          · rw [exact_var_ne (ne_plain b hs'.parted (by decide)).symm] at hs
            cases hs
          all_goals
            rw [exact_as_ne (ne_plain b hs'.parted (by decide)).symm] at hs
            cases hs
        · by_cases e : b' ++ u = b ++ v
          · rw [e]
          · rw [exact_var_ne e] at hs
            cases hs
  · intro p hp
    left
    rcases hO p hp with h | ⟨b, hbm, rfl⟩
    · have h0 : ∀ p ∈ (bldsPwrSub []).promO, ∃ v ∈ (bldsPwrSub []).outs, (p.exact v).isSome = true
          ∧ ∀ q ∈ (bldsPwrSub []).promO, (q.exact v).isSome = true → q = p := by decide +kernel
      obtain ⟨v, hv, h1, h2⟩ := h0 p h
      refine ⟨v, List.mem_append_left _ hv, taker_exact hp h1 ?_⟩
      intro q hq hs
      rcases hO q hq with h | ⟨b, hbm, rfl⟩
      · exact h2 q h hs
      · simp [Prom.exact] at hs
    · refine ⟨b ++ ":stat:W", List.mem_append_right _ (List.mem_flatMap.mpr ⟨b, hbm, by simp⟩), ?_⟩
      refine taker_fits hp ?_ ?_ ?_
      · have : b ++ ":stat:W" = b ++ ":" ++ "stat:W" := by rw [String.append_assoc]; rfl
        rw [this]; exact pre_fits _ _
      · intro q hq
        rcases hO q hq with h | ⟨b', hbm', rfl⟩
        · simp only [bldsPwrSub, List.map_nil, List.append_nil, List.mem_cons, List.not_mem_nil, or_false] at h
          rcases h with rfl | rfl | rfl <;> exact exact_var_ne (ne_plain b (by decide) (by decide)).symm
        · rfl
      · intro q hq h
        rcases hO q hq with h' | ⟨b', hbm', rfl⟩
        · simp only [bldsPwrSub, List.map_nil, List.append_nil, List.mem_cons, List.not_mem_nil, or_false] at h'
          rcases h' with rfl | rfl | rfl <;> simp [Prom.fits] at h
        · rw [plain_prefix (hb.plain b' hbm') (hb.plain b hbm) (by decide) (by decide) h]

end

end CompNames

end PyCycle.OM
