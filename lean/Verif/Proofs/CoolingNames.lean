import Verif.Model.CoolingGroup
import Verif.Proofs.CycleNames
import Verif.Props.C48_Combustor

/-! # The names of the rows of a cooled turbine, for any number of stages -/

namespace PyCycle.OM

theorem rowName_plain (i : ℕ) : Plain (rowName i) := by
  intro c hc
  rw [rowName, String.toList_append, List.mem_append] at hc
  rcases hc with hc | hc
  · revert c; decide
  · rw [Nat.toList_repr] at hc
    have h := Nat.isDigit_of_mem_toDigits (by omega) (by omega) hc
    rw [isSep]
    by_contra hs
    simp only [Bool.or_eq_false_iff, not_and, beq_eq_false_iff_ne] at hs
    have hd : ∀ d ∈ ['.', ':', '_'], d.isDigit = false := by decide
    by_cases h1 : c ∈ ['.', ':', '_']
    · rw [hd c h1] at h; exact absurd h (by decide)
    · simp_all

theorem rowName_inj {i j : ℕ} (h : rowName i = rowName j) : i = j := by
  have h : i.repr = j.repr := append_right_inj h
  have h : Nat.toDigits 10 i = Nat.toDigits 10 j := by rw [← Nat.toList_repr, ← Nat.toList_repr, h]
  rw [← Nat.ofDigitChars_ten_toDigits (n := i), ← Nat.ofDigitChars_ten_toDigits (n := j), h]

theorem rowName_ne (i : ℕ) {n : String} (h : ¬ "row_".toList <+: n.toList) : n ≠ rowName i := by
  rintro rfl
  exact h (by rw [rowName, String.toList_append]; exact List.prefix_append _ _)

namespace Cooling

/-- The wiring of a row does not depend on its gas and options. -/
abbrev rowW : Wiring := (coolRow gas0 (.tab 0) ⟨0, 0, 0, 0⟩).wiring

theorem row_wiring (gas : (ℕ → ℝ) → TPGas) (a : FlowAdder) (o : Cool.Opt) : (coolRow gas a o).wiring = rowW := rfl

theorem row_accepted : rowW.Accepted := by decide +kernel

/-- What a row needs. -/
def rowIns : List String :=
  ["turb_pwr", "Pt_in", "Pt_out", "x_factor", "Tt_primary", "Tt_cool", "ht_primary", "ht_cool", "W_primary",
   "mix_n.Fl_I:tot:h", "composition_primary", "mix_n.cool:h", "cool:composition"]

/-- What a row delivers. -/
def rowOuts : List String :=
  ["W_cool", "cooling_calcs.Pt_stage", "cooling_calcs.ht_out", "consts.bld_frac_P", "mix_n.mass_avg_h", "W_out",
   "mix_n.composition_out"]
  ++ ["S", "gamma", "Cp", "Cv", "rho", "R", "T"].map ("mixed_flow." ++ ·)
  ++ ["T", "P", "h", "S", "gamma", "Cp", "Cv", "rho", "R", "composition"].map ("Fl_O:tot:" ++ ·)

theorem row_outs : rowW.outs = rowOuts := by decide +kernel

theorem row_ins : rowW.externals = rowIns := by decide +kernel

variable (gas : (ℕ → ℝ) → TPGas) (a : FlowAdder) (o : CoolOpt) (own : Bool)

/-- Row `i`. -/
def rowSub (i : ℕ) : Sub :=
  (coolRow gas a (o.row i)).asSub (rowName i) (if i = 0 then rowProms ++ firstProms else rowProms) []

theorem asSub_ins (g : Group) (n : String) (p q : List Prom) : (g.asSub n p q).ins = g.wiring.externals := rfl
theorem asSub_outs (g : Group) (n : String) (p q : List Prom) : (g.asSub n p q).outs = g.wiring.outs := rfl

theorem rowSub_ins (i : ℕ) : (rowSub gas a o i).ins = rowIns := by
  rw [rowSub, asSub_ins, row_wiring, row_ins]

theorem rowSub_outs (i : ℕ) : (rowSub gas a o i).outs = rowOuts := by
  rw [rowSub, asSub_outs, row_wiring, row_outs]

theorem rowSub_promI (i : ℕ) : (rowSub gas a o i).promI = if i = 0 then rowProms ++ firstProms else rowProms := rfl

/-- The three ports. -/
def ports : List Sub :=
  [flowIn "turb_in_flow" "Fl_turb_I" [.pre "Fl_turb_I:tot:", .pre "Fl_turb_I:stat:"] [],
   flowIn "turb_out_flow" "Fl_turb_O" [.pre "Fl_turb_O:tot:", .pre "Fl_turb_O:stat:"] [],
   flowIn "cool_in_flow" "Fl_cool" [.pre "Fl_cool:tot:", .pre "Fl_cool:stat:"] []]

/-- The element without `indeps`. -/
def core : Group :=
  ⟨ports ++ (List.range (2 * o.n_stages)).map (rowSub gas a o), (List.range (2 * o.n_stages - 1)).flatMap rowLinks⟩

variable {o} (h0 : o.n_stages ≠ 0)
include h0

theorem subs_eq : (turbineCooling gas a o own).subs = (if own then [coolIndeps] else []) ++ (core gas a o).subs := by
  obtain ⟨k, hk⟩ : ∃ k, 2 * o.n_stages = k + 1 := ⟨2 * o.n_stages - 1, by omega⟩
  simp only [turbineCooling, core, hk, Nat.add_sub_cancel, List.range_succ_eq_map, List.map_cons, List.map_map,
    List.append_assoc, Function.comp_def]
  rfl

omit h0 in
theorem mem_core {s : Sub} : s ∈ (core gas a o).subs ↔ s ∈ ports ∨ ∃ i < 2 * o.n_stages, s = rowSub gas a o i := by
  simp only [core, List.mem_append, List.mem_map, List.mem_range]
  exact or_congr_right ⟨fun ⟨i, h, e⟩ => ⟨i, h, e.symm⟩, fun ⟨i, h, e⟩ => ⟨i, h, e.symm⟩⟩

/-- The targets in a later row, and where they are taken from. -/
def handed : List (String × String) :=
  [("W_out", "W_primary"), ("Fl_O:tot:T", "Tt_primary"), ("Fl_O:tot:h", "ht_primary"),
   ("Fl_O:tot:composition", "composition_primary")]

omit h0 in
theorem mem_conns {x : String × String} : x ∈ (core gas a o).conns ↔
    ∃ i, i + 1 < 2 * o.n_stages ∧ ∃ c ∈ handed, x = (rowName i ++ "." ++ c.1, rowName (i + 1) ++ "." ++ c.2) := by
  simp only [core, List.mem_flatMap, List.mem_range, rowLinks, List.mem_map]
  constructor
  · rintro ⟨i, h, c, hc, rfl⟩; exact ⟨i, by omega, c, hc, rfl⟩
  · rintro ⟨i, h, c, hc, rfl⟩; exact ⟨i, by omega, c, hc, rfl⟩

omit h0 in
theorem core_names : ((core gas a o).subs.map (·.name)).Nodup := by
  rw [core, List.map_append, List.map_map]
  refine List.Nodup.append (by decide) ?_ ?_
  · exact List.nodup_range.map_on fun i _ j _ e => rowName_inj e
  · intro n h1 h2
    obtain ⟨i, -, rfl⟩ := List.mem_map.mp h2
    have : ∀ n ∈ ports.map (·.name), ¬ "row_".toList <+: n.toList := by decide
    exact rowName_ne i (this _ h1) rfl

omit h0 in
theorem core_wired : (core gas a o).wiring.Wired := by
  refine Group.wired_of (core_names gas a) ?_ ?_ ?_ ?_
  · intro s hs
    rcases (mem_core gas a).mp hs with h | ⟨i, -, rfl⟩
    · have : ∀ n ∈ ports.map (·.name), Plain n := by decide
      exact this _ (List.mem_map_of_mem h)
    · exact rowName_plain i
  · intro s hs
    rcases (mem_core gas a).mp hs with h | ⟨i, -, rfl⟩
    · simp only [ports, List.mem_cons, List.not_mem_nil, or_false] at h
      rcases h with rfl | rfl | rfl <;> exact ⟨rfl, by decide⟩
    · exact ⟨rfl, by rw [rowSub_outs]; decide⟩
  · simp only [core, List.map_flatMap, List.nodup_flatMap]
    refine ⟨fun i _ => ?_, ?_⟩
    · simp only [rowLinks, List.map_map]
      refine List.Nodup.map_on (fun c hc c' hc' e => ?_) (by decide)
      have e := (dot_split (rowName_plain _) (rowName_plain _) e).2
      have : ∀ c ∈ handed, ∀ c' ∈ handed, c.2 = c'.2 → c = c' := by decide
      exact this c hc c' hc' e
    · refine List.Pairwise.imp_of_mem (R := fun i j => i ≠ j) ?_ List.nodup_range
      intro i j _ _ hij x hx hy
      simp only [rowLinks, List.map_map, List.mem_map, Function.comp_apply] at hx hy
      obtain ⟨c, -, rfl⟩ := hx
      obtain ⟨c', -, e⟩ := hy
      have := rowName_inj (dot_split (rowName_plain _) (rowName_plain _) e).1
      omega
  · intro x hx
    obtain ⟨i, hi, c, hc, rfl⟩ := (mem_conns gas a).mp hx
    refine ⟨⟨rowSub gas a o i, (mem_core gas a).mpr (Or.inr ⟨i, by omega, rfl⟩), c.1, ?_, rfl⟩,
      ⟨rowSub gas a o (i + 1), (mem_core gas a).mpr (Or.inr ⟨i + 1, hi, rfl⟩), c.2, ?_, ?_, Or.inl ⟨?_, rfl⟩⟩⟩
    · have : ∀ c ∈ handed, c.1 ∈ rowOuts := by decide
      rw [rowSub_outs]; exact this c hc
    · have : ∀ c ∈ handed, c.2 ∈ rowIns := by decide
      rw [rowSub_ins]; exact this c hc
    · have : ∀ c ∈ handed, c.2 ∉ rowOuts := by decide
      rw [rowSub_outs]; exact this c hc
    · have : ∀ c ∈ handed, promoted rowProms c.2 = none := by decide
      exact this c hc

theorem outs_eq : (turbineCooling gas a o own).wiring.outs
    = (if own then ["x_factor"] else []) ++ (core gas a o).wiring.outs := by
  rw [Wiring.outs, Group.wiring, subs_eq gas a own h0]
  cases own <;> rfl

theorem ins_eq : (turbineCooling gas a o own).wiring.ins = (core gas a o).wiring.ins := by
  rw [Wiring.ins, Group.wiring, subs_eq gas a own h0]
  cases own <;> rfl

omit h0 in
theorem core_outs_dot {n : String} (h : n ∈ (core gas a o).wiring.outs) : '.' ∈ n.toList := by
  simp only [Wiring.outs, Group.wiring, List.mem_flatMap, List.mem_map] at h
  obtain ⟨_, ⟨s, hs, rfl⟩, v, -, rfl⟩ := h
  have e : s.promO = [] := by
    rcases (mem_core gas a).mp hs with h | ⟨i, -, rfl⟩
    · simp only [ports, List.mem_cons, List.not_mem_nil, or_false] at h
      rcases h with rfl | rfl | rfl <;> rfl
    · rfl
  rw [outName_plain e]
  simp [String.toList_append]

omit h0 in
theorem target_dot {n : String} (h : n ∈ (core gas a o).conns.map (·.2)) : '.' ∈ n.toList := by
  obtain ⟨x, hx, rfl⟩ := List.mem_map.mp h
  obtain ⟨i, -, c, -, rfl⟩ := (mem_conns gas a).mp hx
  simp [String.toList_append]

theorem wired : (turbineCooling gas a o own).wiring.Wired := by
  obtain ⟨c1, c2, c3, c4⟩ := core_wired gas a (o := o)
  refine ⟨?_, ?_, c3, fun x hx => ?_⟩
  · rw [Group.wiring, subs_eq gas a own h0]
    cases own
    · exact c1
    · have : ("indeps" :: (core gas a o).subs.map (·.name)).Nodup := by
        rw [List.nodup_cons]
        refine ⟨fun h => ?_, core_names gas a⟩
        obtain ⟨s, hs, e⟩ := List.mem_map.mp h
        rcases (mem_core gas a).mp hs with h | ⟨i, -, rfl⟩
        · have : "indeps" ∉ ports.map (·.name) := by decide
          exact this (e ▸ List.mem_map_of_mem h)
        · exact rowName_ne i (n := "indeps") (by decide) e.symm
      rw [List.map_map]; exact this
  · rw [outs_eq gas a own h0]
    cases own
    · exact c2
    · refine List.nodup_cons.mpr ⟨fun h => ?_, c2⟩
      have := core_outs_dot gas a h
      revert this; decide
  · obtain ⟨k1, k2, k3⟩ := c4 x hx
    refine ⟨?_, ?_, ?_⟩
    · rw [outs_eq gas a own h0]; exact List.mem_append_right _ k1
    · rw [ins_eq gas a own h0]; exact k2
    · rw [outs_eq gas a own h0, List.mem_append]
      rintro (h | h)
      · have hd := target_dot gas a (List.mem_map_of_mem (f := (·.2)) hx)
        cases own
        · cases h
        · have h : x.2 = "x_factor" := by simpa using h
          rw [h] at hd
          revert hd; decide
      · exact k3 h

/-- The wiring is accepted. -/
theorem accepted : (turbineCooling gas a o own).wiring.Accepted := by
  refine ⟨wired gas a own h0, ?_⟩
  intro d hd
  obtain ⟨s, hs, rfl⟩ := List.mem_map.mp hd
  rw [subs_eq gas a own h0, List.mem_append] at hs
  rcases hs with h | h
  · cases own
    · cases h
    · have h : s = coolIndeps := by simpa using h
      subst h; decide +kernel
  · rcases (mem_core gas a).mp h with h | ⟨i, -, rfl⟩
    · simp only [ports, List.mem_cons, List.not_mem_nil, or_false] at h
      rcases h with rfl | rfl | rfl <;> decide +kernel
    · have e : ∀ b : Bool, (⟨"", rowIns, rowOuts, if b then rowProms ++ firstProms else rowProms, []⟩ :
          Decl).PromotesFound := by decide +kernel
      unfold Decl.PromotesFound
      rw [rowSub_ins, rowSub_outs, rowSub_promI]
      by_cases hi : i = 0
      · rw [if_pos hi]; exact e true
      · rw [if_neg hi]; exact e false

end Cooling

end PyCycle.OM
