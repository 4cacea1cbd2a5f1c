import Verif.Proofs.TurbineNames

/-! # The turbine's wiring for any bleeds -/

namespace PyCycle.OM
namespace TurbNames

variable {bs : List String}

theorem subs_eq (gas : (ℕ → ℝ) → TPGas) (gb : String → (ℕ → ℝ) → TPGas) (m : Map.TMap) (a : BleedAdder) (d s : Bool) :
    (turbine gas gb m a bs d s).wiring.subs
      = (w₀ d s).subs.take 5 ++ (bs.flatMap fun b => [(bleedPort b).toDecl])
        ++ [(bldPressSub bs).toDecl, (bldAddSub a bs).toDecl]
        ++ (bs.flatMap fun b => (bleedIn (gb b) b).map (·.toDecl)) ++ [(pwrTurbSub bs).toDecl] ++ (w₀ d s).subs.drop 8 := by
  have e2 : (bs.flatMap fun b => [(bleedPort b).toDecl]) = bs.map fun b => (bleedPort b).toDecl :=
    List.flatMap_pure_eq_map _ _
  rw [e2]
  cases d <;> cases s <;>
    simp only [Group.wiring, turbine, List.map_append, List.map_map, List.map_flatMap, Function.comp_def] <;> rfl

theorem names (hb : BleedNames turbineTails turbineReserved bs) (gas : (ℕ → ℝ) → TPGas)
    (gb : String → (ℕ → ℝ) → TPGas) (m : Map.TMap) (a : BleedAdder) (d s : Bool) :
    ((turbine gas gb m a bs d s).wiring.subs.map (·.name)).Nodup := by
  have h := names_nodup hb (ts := ["", "_inflow", "_ideal"]) (fixed := (w₀ d s).subs.map (·.name)) (by decide) (by decide)
    (per_fits d s).acc.1 (by clear * -; revert d s; decide +kernel)
  refine (List.Perm.nodup_iff ?_).mpr h
  rw [subs_eq gas gb m a d s, ← List.flatMap_pure_eq_map]
  refine (segs_perm' bs _ _ _ _ _ _ _ ["blds", "bld_add"] ["pwr_turb"] (fun _ => []) (fun _ => []) (fun b => [b])
    (fun b => [b ++ "_inflow", b ++ "_ideal"]) (List.Perm.of_eq (by simp; exact ⟨rfl, rfl⟩))
    (List.Perm.of_eq (by simp; rfl)) ?_ ?_).trans ?_
  · intro b _; rfl
  · intro b _; rfl
  · refine List.Perm.append (List.Perm.of_eq ?_) (List.Perm.of_eq ?_)
    · clear * -; cases d <;> cases s <;> rfl
    · simp

theorem ext (hp : ∀ b ∈ bs, Plain b) (gas : (ℕ → ℝ) → TPGas) (gb : String → (ℕ → ℝ) → TPGas) (m : Map.TMap)
    (a : BleedAdder) (d s : Bool) :
    Extends (w₀ d s) per bs (turbine gas gb m a bs d s).wiring := by
  have lf : ∀ (g : (ℕ → ℝ) → TPGas) (b : String) (f : Decl → List String),
      ((bleedIn g b).map (·.toDecl)).flatMap f = (bleedIn g b).flatMap fun s => f s.toDecl := by
    intro g b f; rw [List.flatMap_map]
  refine ⟨?_, ?_, ?_⟩
  · rw [Wiring.outs, subs_eq]
    refine (segs_perm' bs _ _ _ _ _ _ _ ["bld_add.mass_avg_h", "W_out", "bld_add.composition_out"]
      ["ht_out_b4bld", "pwr_turb.ht_out", "power", "trq"]
      (fun b => [("blds", ":Pt")].map (bname b)) (fun _ => [])
      (fun b => [("", ".foo")].map (bname b))
      (fun b => (soleSpecs .total_hP "_inflow" "flow" ++ soleSpecs .total_SP "_ideal" "flow").map (bname b))
      ?_ ?_ ?_ ?_).trans ?_
    · rw [List.flatMap_cons, List.flatMap_cons, List.flatMap_nil, List.append_nil, press_outs, List.nil_append]
      exact List.perm_append_comm
    · apply List.Perm.of_eq
      rw [show (bs.flatMap fun _ => ([] : List String)) = [] by simp]
      rfl
    · intro b _
      rw [List.flatMap_cons, List.flatMap_nil, List.append_nil]
      show [b ++ "." ++ "foo"] = [bname b ("", ".foo")]
      rw [bname_nil, String.append_assoc]
      rfl
    · intro b _
      rw [lf]
      exact solver_outs (gb b) b
    · refine List.Perm.append (List.Perm.of_eq ?_) (List.Perm.of_eq ?_)
      · clear * -; revert d s; decide +kernel
      · simp only [per, List.map_append, List.map_nil]
  · intro n
    rw [Wiring.ins, subs_eq]
    rw [(segs_perm' bs _ _ _ _ _ _ _
      ["Fl_I:tot:P", "blds.Pt_out", "Fl_I:stat:W", "bld_add.Fl_I:tot:h", "Fl_I:tot:composition"]
      ["Fl_I:stat:W", "W_out", "Fl_I:tot:h", "pwr_turb.ht_out_ideal", "eff", "Nmech"]
      (fun b => addSpecs.map (bname b)) (fun b => powerSpecs.map (bname b)) (fun b => portSpecs.map (bname b))
      (fun b => solverSpecs.map (bname b)) ?_ ?_ ?_ ?_).mem_iff]
    · have e : ((w₀ d s).subs.take 5).flatMap (fun s => s.ins.map s.inName)
          ++ ["Fl_I:tot:P", "blds.Pt_out", "Fl_I:stat:W", "bld_add.Fl_I:tot:h", "Fl_I:tot:composition"]
          ++ ["Fl_I:stat:W", "W_out", "Fl_I:tot:h", "pwr_turb.ht_out_ideal", "eff", "Nmech"]
          ++ ((w₀ d s).subs.drop 8).flatMap (fun s => s.ins.map s.inName) = (w₀ d s).ins := by
        clear * -; revert d s; decide +kernel
      rw [e, List.mem_append]
      refine or_congr Iff.rfl ?_
      simp only [← List.map_append, List.mem_flatMap, List.mem_map]
      refine exists_congr fun b => and_congr_right fun _ => exists_congr fun q => and_congr_right fun _ => eq_comm
    · rw [List.flatMap_cons, List.flatMap_cons, List.flatMap_nil, List.append_nil]
      have := two_segs bs (press_ins hp) (add_ins hp a)
      refine this.trans (List.Perm.of_eq ?_)
      congr 1
    · rw [List.flatMap_cons, List.flatMap_nil, List.append_nil]
      exact List.Perm.of_eq (pwr_ins hp)
    · intro b _
      rw [List.flatMap_cons, List.flatMap_nil, List.append_nil]; exact port_ins b
    · intro b _
      rw [lf]
      exact solver_ins (gb b) b
  · have e1 : (turbine gas gb m a bs d s).wiring.conns
        = (w₀ d s).conns.take 2
          ++ (bs.flatMap fun b => [("blds." ++ b ++ ":Pt", b ++ "_inflow" ++ ".P"),
            (b ++ "_inflow" ++ ".flow:S", b ++ "_ideal" ++ ".S"), ("press_drop.Pt_out", b ++ "_ideal" ++ ".P")])
          ++ (w₀ d s).conns.drop 2 := by
      cases d <;> cases s <;> simp only [Group.wiring, turbine, List.append_assoc] <;> rfl
    have e2 : (bs.flatMap fun b => per.conns.map fun c => (c.1.at b, bname b c.2))
        = bs.flatMap fun b => [("blds." ++ b ++ ":Pt", b ++ "_inflow" ++ ".P"),
            (b ++ "_inflow" ++ ".flow:S", b ++ "_ideal" ++ ".S"), ("press_drop.Pt_out", b ++ "_ideal" ++ ".P")] := by
      apply List.flatMap_congr
      intro b _
      simp only [per, List.map_cons, List.map_nil, Ref.at, bname_nil, bname_cons b (show ("blds" : String) ≠ "" by decide),
        String.append_assoc]
      rfl
    rw [e1, e2]
    generalize (bs.flatMap fun b => [("blds." ++ b ++ ":Pt", b ++ "_inflow" ++ ".P"),
            (b ++ "_inflow" ++ ".flow:S", b ++ "_ideal" ++ ".S"), ("press_drop.Pt_out", b ++ "_ideal" ++ ".P")]) = X
    rw [List.append_assoc]
    refine (List.Perm.append_left _ List.perm_append_comm).trans ?_
    rw [← List.append_assoc, List.take_append_drop]

/-! ## Promotions find their variables -/

theorem port_found (b : String) : (bleedPort b).PromotesFound := by
  constructor
  · intro p hp
    rw [show (bleedPort b).promI = [.pre (b ++ ":")] from rfl, List.mem_singleton] at hp
    subst hp
    refine Or.inl ⟨b ++ ":" ++ "tot:h", ?_, ?_⟩
    · show _ ∈ flowVarNames b
      simp [flowVarNames]
    · rw [show (bleedPort b).promI = [.pre (b ++ ":")] from rfl]
      exact taker_fits List.mem_cons_self (pre_fits _ _) (by simp [Prom.exact]) (by simp)
  · intro p hp
    cases hp

theorem solver_found (gas : (ℕ → ℝ) → TPGas) (b : String) : ∀ t ∈ bleedIn gas b, t.PromotesFound := by
  intro t ht
  simp only [bleedIn, List.mem_cons, List.not_mem_nil, or_false] at ht
  have nn : ("composition" : String) ≠ "h" := by decide
  rcases ht with rfl | rfl
  · refine ⟨?_, fun p hp => by cases hp⟩
    intro p hp
    left
    have hp' : p ∈ [Prom.as "composition" (b ++ ":tot:composition"), .as "h" (b ++ ":tot:h")] := hp
    simp only [List.mem_cons, List.not_mem_nil, or_false] at hp'
    rcases hp' with rfl | rfl
    · exact ⟨"composition", by show _ ∈ ["h", "P", "composition"]; simp, rfl⟩
    · exact ⟨"h", by show _ ∈ ["h", "P", "composition"]; simp, rfl⟩
  · refine ⟨?_, fun p hp => by cases hp⟩
    intro p hp
    left
    have hp' : p ∈ [Prom.as "composition" (b ++ ":tot:composition")] := hp
    rw [List.mem_singleton] at hp'
    subst hp'
    exact ⟨"composition", by show _ ∈ ["S", "P", "composition"]; simp, rfl⟩

section
variable (hp : ∀ b ∈ bs, Plain b)
include hp

theorem press_found : (bldPressSub bs).PromotesFound := by
  refine ⟨?_, fun p hp => by cases hp⟩
  intro p h
  left
  rw [press_promI] at h ⊢
  revert p h
  refine found_fam hp (by decide) (by decide) ?_ ?_ ?_
  · intro b hb q hq
    rw [List.mem_singleton] at hq
    subst hq
    exact List.mem_append_right _ (List.mem_flatMap.mpr ⟨b, hb, by simp⟩)
  · intro b hb q hq p h
    rw [List.mem_singleton] at hq h
    subst hq h
    exact exact_as_ne (ne_plain b (by decide) (by decide)).symm
  · intro p h
    rw [List.mem_singleton] at h
    subst h
    refine ⟨"Pt_in", List.mem_append_left _ (by decide), by decide, by simp, ?_⟩
    intro b hb q hq
    rw [List.mem_singleton] at hq
    subst hq
    exact ne_plain b (by decide) (by decide)

theorem add_found (a : BleedAdder) : (bldAddSub a bs).PromotesFound := by
  refine ⟨?_, ?_⟩
  · intro p h
    left
    rw [add_promI] at h ⊢
    revert p h
    refine found_fam hp (by decide) (by decide) ?_ ?_ ?_
    · intro b hb q hq
      refine List.mem_append_right _ (List.mem_flatMap.mpr ⟨b, hb, ?_⟩)
      simp only [List.mem_cons, List.not_mem_nil, or_false] at hq
      rcases hq with rfl | rfl <;> simp
    · intro b hb q hq p h
      refine (add_skip hp hb ?_ p h).1
      simp only [List.mem_cons, List.not_mem_nil, or_false] at hq
      rcases hq with rfl | rfl <;> decide
    · intro p h
      simp only [List.mem_cons, List.not_mem_nil, or_false] at h
      rcases h with rfl | rfl
      · refine ⟨"Fl_I:stat:W", List.mem_append_left _ (by decide), by decide, by decide, ?_⟩
        intro b hb q hq
        simp only [List.mem_cons, List.not_mem_nil, or_false] at hq
        rcases hq with rfl | rfl <;>
          exact ne_inlet (t := ":stat:W") (hp b hb) (by decide) (by decide) (by decide)
      · refine ⟨"Fl_I:tot:composition", List.mem_append_left _ (by decide), by decide, by decide, ?_⟩
        intro b hb q hq
        simp only [List.mem_cons, List.not_mem_nil, or_false] at hq
        rcases hq with rfl | rfl <;>
          exact ne_inlet (t := ":tot:composition") (hp b hb) (by decide) (by decide) (by decide)
  · intro p h
    rw [show (bldAddSub a bs).promO = [.as "Wout" "W_out"] from rfl, List.mem_singleton] at h
    subst h
    exact Or.inl ⟨"Wout", by show _ ∈ ["mass_avg_h", "Wout", "composition_out"]; decide, rfl⟩

theorem pwr_found : (pwrTurbSub bs).PromotesFound := by
  refine ⟨?_, ?_⟩
  · intro p h
    left
    rw [pwr_promI] at h ⊢
    revert p h
    refine found_fam hp (by decide) (by decide) ?_ ?_ ?_
    · intro b hb q hq
      refine List.mem_append_right _ (List.mem_flatMap.mpr ⟨b, hb, ?_⟩)
      simp only [List.mem_cons, List.not_mem_nil, or_false] at hq
      rcases hq with rfl | rfl | rfl <;> simp
    · intro b hb q hq
      refine pwr_skip ?_
      simp only [List.mem_cons, List.not_mem_nil, or_false] at hq
      rcases hq with rfl | rfl | rfl <;> decide
    · intro p h
      have h0 : ∀ p ∈ [Prom.var "Nmech", .var "eff", .var "W_out", .as "W_in" "Fl_I:stat:W", .as "ht_in" "Fl_I:tot:h"],
          ∃ v ∈ ["W_in", "W_out", "ht_in", "ht_out_ideal", "eff", "Nmech"], (p.exact v).isSome = true
          ∧ (∀ p' ∈ [Prom.var "Nmech", .var "eff", .var "W_out", .as "W_in" "Fl_I:stat:W", .as "ht_in" "Fl_I:tot:h"],
            (p'.exact v).isSome = true → p' = p) ∧ Plain v := by decide +kernel
      obtain ⟨v, hv, h1, h2, h3⟩ := h0 p h
      refine ⟨v, List.mem_append_left _ hv, h1, h2, ?_⟩
      intro b hb q hq
      simp only [List.mem_cons, List.not_mem_nil, or_false] at hq
      rcases hq with rfl | rfl | rfl <;> exact ne_plain b (by decide) h3
  · intro p h
    left
    revert p h
    show ∀ p ∈ [Prom.var "power", .var "trq", .var "ht_out_b4bld"], ∃ v ∈ ["ht_out_b4bld", "ht_out", "power", "trq"],
      taker [Prom.var "power", .var "trq", .var "ht_out_b4bld"] v = some p
    decide +kernel

end

end TurbNames
end PyCycle.OM
