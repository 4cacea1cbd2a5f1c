import Verif.Proofs.BleedNamesLemmas
import Verif.Props.C55_Compressor

/-! # Names of the turbine's variables, for any bleeds -/

namespace PyCycle.OM

/-! ## Families of promotions -/

/-- The entry promoting `b ++ t` as `b ++ u`. -/
def famEntry (b : String) (q : String × String) : Prom :=
  if q.1 = q.2 then .var (b ++ q.1) else .as (b ++ q.1) (b ++ q.2)

/-- Entries for all bleeds. -/
def fam (bs : List String) (L : List (String × String)) : List Prom := L.flatMap fun q => bs.map fun b => famEntry b q

theorem famEntry_exact (b : String) (q : String × String) (v : String) :
    (famEntry b q).exact v = if b ++ q.1 = v then some (b ++ q.2) else none := by
  unfold famEntry
  split_ifs with h1 h2 h2
  · simp only [Prom.exact, h2, if_true]; rw [← h1, h2]
  · simp [Prom.exact, h2]
  · simp [Prom.exact, h2]
  · simp [Prom.exact, h2]

theorem famEntry_fits (b : String) (q : String × String) (v : String) : (famEntry b q).fits v = false := by
  unfold famEntry
  split_ifs <;> rfl

theorem mem_fam {bs : List String} {L : List (String × String)} {p : Prom} :
    p ∈ fam bs L ↔ ∃ b ∈ bs, ∃ q ∈ L, p = famEntry b q := by
  simp only [fam, List.mem_flatMap, List.mem_map]
  constructor
  · rintro ⟨q, hq, b, hb, rfl⟩; exact ⟨b, hb, q, hq, rfl⟩
  · rintro ⟨b, hb, q, hq, rfl⟩; exact ⟨q, hq, b, hb, rfl⟩

section
variable {bs : List String} {L : List (String × String)} {fixed : List Prom}

/-- A variable no bleed has. -/
theorem promoted_fam_fixed {v : String} (h : ∀ b ∈ bs, ∀ q ∈ L, b ++ q.1 ≠ v) :
    promoted (fixed ++ fam bs L) v = promoted fixed v := by
  refine promoted_left fun p hp => ?_
  obtain ⟨b, hb, q, hq, rfl⟩ := mem_fam.mp hp
  exact ⟨by rw [famEntry_exact, if_neg (h b hb q hq)], famEntry_fits _ _ _⟩

variable (hp : ∀ b ∈ bs, Plain b) (hL : ∀ q ∈ L, SepHead q.1)
include hp hL

/-- A variable promoted for each bleed. -/
theorem promoted_fam (hn : (L.map (·.1)).Nodup) {b : String} (hb : b ∈ bs) {q : String × String} (hq : q ∈ L)
    (hf : ∀ p ∈ fixed, p.exact (b ++ q.1) = none) : promoted (fixed ++ fam bs L) (b ++ q.1) = some (b ++ q.2) := by
  refine promoted_exact ⟨famEntry b q, List.mem_append_right _ (mem_fam.mpr ⟨b, hb, q, hq, rfl⟩), ?_⟩ ?_
  · rw [famEntry_exact, if_pos rfl]
  · intro p hpm
    rcases List.mem_append.mp hpm with h | h
    · exact Or.inl (hf p h)
    · obtain ⟨b', hb', q', hq', rfl⟩ := mem_fam.mp h
      rw [famEntry_exact]
      split_ifs with e
      · obtain ⟨e1, e2⟩ := plain_split (hp b' hb') (hp b hb) (hL q' hq') (hL q hq) e
        have := List.inj_on_of_nodup_map hn hq' hq e2
        subst e1 this
        exact Or.inr rfl
      · exact Or.inl rfl

/-- A variable of each bleed that is not promoted. -/
theorem promoted_fam_none {b s : String} (hb : b ∈ bs) (hs : SepHead s) (h : s ∉ L.map (·.1))
    (hf : ∀ p ∈ fixed, p.exact (b ++ s) = none ∧ p.fits (b ++ s) = false) : promoted (fixed ++ fam bs L) (b ++ s) = none := by
  refine promoted_none fun p hpm => ?_
  rcases List.mem_append.mp hpm with h' | h'
  · exact hf p h'
  · obtain ⟨b', hb', q', hq', rfl⟩ := mem_fam.mp h'
    refine ⟨?_, famEntry_fits _ _ _⟩
    rw [famEntry_exact, if_neg]
    intro e
    obtain ⟨-, e2⟩ := plain_split (hp b' hb') (hp b hb) (hL q' hq') hs e
    exact h (e2 ▸ List.mem_map_of_mem hq')

/-- Every entry finds a variable. -/
theorem found_fam (hn : (L.map (·.1)).Nodup) {ins : List String}
    (hi : ∀ b ∈ bs, ∀ q ∈ L, b ++ q.1 ∈ ins) (hf : ∀ b ∈ bs, ∀ q ∈ L, ∀ p ∈ fixed, p.exact (b ++ q.1) = none)
    (h0 : ∀ p ∈ fixed, ∃ v ∈ ins, (p.exact v).isSome = true ∧ (∀ p' ∈ fixed, (p'.exact v).isSome = true → p' = p)
      ∧ ∀ b ∈ bs, ∀ q ∈ L, b ++ q.1 ≠ v) :
    ∀ p ∈ fixed ++ fam bs L, ∃ v ∈ ins, taker (fixed ++ fam bs L) v = some p := by
  intro p hpm
  rcases List.mem_append.mp hpm with h | h
  · obtain ⟨v, hv, h1, h2, h3⟩ := h0 p h
    refine ⟨v, hv, taker_exact hpm h1 ?_⟩
    intro p' hp' hs
    rcases List.mem_append.mp hp' with h' | h'
    · exact h2 p' h' hs
    · obtain ⟨b', hb', q', hq', rfl⟩ := mem_fam.mp h'
      rw [famEntry_exact, if_neg (h3 b' hb' q' hq')] at hs
      cases hs
  · obtain ⟨b, hb, q, hq, rfl⟩ := mem_fam.mp h
    refine ⟨b ++ q.1, hi b hb q hq, taker_exact hpm (by rw [famEntry_exact, if_pos rfl]; rfl) ?_⟩
    intro p' hp' hs
    rcases List.mem_append.mp hp' with h' | h'
    · rw [hf b hb q hq p' h'] at hs; cases hs
    · obtain ⟨b', hb', q', hq', rfl⟩ := mem_fam.mp h'
      rw [famEntry_exact] at hs
      split_ifs at hs with e
      · obtain ⟨e1, e2⟩ := plain_split (hp b' hb') (hp b hb) (hL q' hq') (hL q hq) e
        rw [e1, List.inj_on_of_nodup_map hn hq' hq e2]
      · cases hs

end

/-- As `segs_perm`, up to order. -/
theorem segs_perm' {α β : Type} (bs : List String) (h : α → List β) (A D₁ D₂ Z : List α) (P G : String → List α)
    (x₁ x₂ : List β) (f₁ f₂ p g : String → List β) (h₁ : (D₁.flatMap h).Perm (x₁ ++ bs.flatMap f₁))
    (h₂ : (D₂.flatMap h).Perm (x₂ ++ bs.flatMap f₂)) (hp : ∀ b ∈ bs, (P b).flatMap h = p b)
    (hg : ∀ b ∈ bs, (G b).flatMap h = g b) :
    ((A ++ bs.flatMap P ++ D₁ ++ bs.flatMap G ++ D₂ ++ Z).flatMap h).Perm
      ((A.flatMap h ++ x₁ ++ x₂ ++ Z.flatMap h) ++ bs.flatMap fun b => p b ++ f₁ b ++ g b ++ f₂ b) := by
  have k1 := List.flatMap_append_perm bs p f₁
  have k2 := List.flatMap_append_perm bs (fun x => p x ++ f₁ x) g
  have k3 := List.flatMap_append_perm bs (fun x => p x ++ f₁ x ++ g x) f₂
  have hp' : (bs.flatMap P).flatMap h = bs.flatMap p := by
    rw [List.flatMap_assoc]; exact List.flatMap_congr hp
  have hg' : (bs.flatMap G).flatMap h = bs.flatMap g := by
    rw [List.flatMap_assoc]; exact List.flatMap_congr hg
  simp only [List.flatMap_append, hp', hg']
  rw [← Multiset.coe_eq_coe] at k1 k2 k3 h₁ h₂ ⊢
  simp only [← Multiset.coe_add] at k1 k2 k3 h₁ h₂ ⊢
  rw [← k3, ← k2, ← k1, h₁, h₂]
  abel

/-- Two subsystems with variables for the bleeds. -/
theorem two_segs {β : Type} (bs : List String) {x y z u : List β} {f g : String → List β} (h : z = x ++ bs.flatMap f)
    (h' : u = y ++ bs.flatMap g) : (z ++ u).Perm (x ++ y ++ bs.flatMap fun b => f b ++ g b) := by
  have k := List.flatMap_append_perm bs f g
  rw [h, h', ← Multiset.coe_eq_coe]
  rw [← Multiset.coe_eq_coe] at k
  simp only [← Multiset.coe_add] at k ⊢
  rw [← k]
  abel

/-! ## Turbine -/

/-- Endings a turbine adds to a bleed name. -/
def turbineTails : List String := ["", "_inflow", "_ideal"]

/-- Names a bleed of a turbine cannot have: its subsystems and stations. -/
def turbineReserved : List String :=
  ["in_flow", "corrinputs", "map", "press_drop", "ideal_flow", "blds", "bld_add", "pwr_turb", "real_flow_b4bld",
   "eff_poly_calc", "real_flow", "out_stat", "W_passthru", "Fl_I", "Fl_O"]

namespace TurbNames

/-- A map, for the names. -/
def m₀ : Map.TMap := ⟨fun _ _ _ => 0, fun _ _ _ => 0⟩

/-- The wiring without bleeds. -/
abbrev w₀ (d s : Bool) : Wiring := (turbine gas0 (fun _ => gas0) m₀ (.tab 0) [] d s).wiring

/-- Inputs of a bleed's port. -/
def portSpecs : List (String × String) := (flowVarNames "").map (("", ·))
/-- Inputs of `blds` and `bld_add` for a bleed. -/
def addSpecs : List (String × String) :=
  [("", ":frac_P"), ("blds", ":W"), ("bld_add", ":h"), ("", ":tot:composition"), ("", ":stat:W")]
/-- Inputs of a bleed's solvers. -/
def solverSpecs : List (String × String) :=
  [("", ":tot:h"), ("", "_inflow.P"), ("", ":tot:composition"), ("", "_ideal.S"), ("", "_ideal.P"), ("", ":tot:composition")]
/-- Inputs of `pwr_turb` for a bleed. -/
def powerSpecs : List (String × String) := [("", ":stat:W"), ("", ":tot:h"), ("", "_ideal.h")]

/-- What a bleed adds. -/
def per : PerBleed :=
  { outs := [("", ".foo")] ++ [("blds", ":Pt")]
      ++ (soleSpecs .total_hP "_inflow" "flow" ++ soleSpecs .total_SP "_ideal" "flow") ++ []
    ins := portSpecs ++ addSpecs ++ solverSpecs ++ powerSpecs
    conns := [(.bld ("blds", ":Pt"), ("", "_inflow.P")), (.bld ("", "_inflow.flow:S"), ("", "_ideal.S")),
      (.fixed "press_drop.Pt_out", ("", "_ideal.P"))] }

theorem per_specs : ∀ q ∈ per.outs ++ per.ins, SpecOk turbineTails turbineReserved q
    ∧ q.1 ∈ ["", "blds", "bld_add"] := by decide +kernel

theorem w₀_names : ∀ d s, ∀ n ∈ (w₀ d s).outs ++ (w₀ d s).ins, ∀ r ∈ ["", "blds", "bld_add"],
    NameOk turbineReserved (r, "") n := by decide +kernel

theorem per_fits (d s : Bool) : per.Fits turbineTails turbineReserved (w₀ d s) :=
  { acc := by revert d s; decide +kernel
    outsNodup := by clear d s; decide +kernel
    targetsNodup := by clear d s; decide +kernel
    sources := by
      have h : ∀ d s, "press_drop.Pt_out" ∈ (w₀ d s).outs := by decide +kernel
      have h2 : ("blds", ":Pt") ∈ per.outs ∧ ("", "_inflow.flow:S") ∈ per.outs := by decide +kernel
      intro c hc
      simp only [per, List.mem_cons, List.not_mem_nil, or_false] at hc
      rcases hc with rfl | rfl | rfl
      · exact h2.1
      · exact h2.2
      · exact h d s
    targets := by clear d s; decide +kernel
    specs := fun q hq => (per_specs q hq).1
    names := fun q hq n hn => w₀_names d s n hn q.1 (per_specs q hq).2 }

section
variable {bs : List String}

theorem press_promI : (bldPressSub bs).promI = [.as "Pt_in" "Fl_I:tot:P"] ++ fam bs [(":frac_P", ":frac_P")] := by
  simp [bldPressSub, fam, famEntry]

theorem add_promI (a : BleedAdder) : (bldAddSub a bs).promI = [.var "Fl_I:stat:W", .var "Fl_I:tot:composition"]
    ++ fam bs [(":W", ":stat:W"), (":composition", ":tot:composition")] := by
  simp [bldAddSub, fam, famEntry]

theorem pwr_promI : (pwrTurbSub bs).promI
    = [.var "Nmech", .var "eff", .var "W_out", .as "W_in" "Fl_I:stat:W", .as "ht_in" "Fl_I:tot:h"]
    ++ fam bs [(":W", ":stat:W"), (":ht", ":tot:h"), (":ht_ideal", "_ideal.h")] := by
  simp [pwrTurbSub, fam, famEntry]

/-- Names of the inlet's port are no bleed's. -/
theorem ne_inlet {b s t : String} (hb : Plain b) (hs : SepHead s) (ht : SepHead t) (h : s ≠ t) : b ++ s ≠ "Fl_I" ++ t :=
  fun e => h (plain_split hb (by decide) hs ht e).2

theorem press_in_fixed {v : String} (hv : v ∈ ["Pt_in", "Pt_out"]) :
    (bldPressSub bs).inName v = (bldPressSub []).inName v := by
  have hp : Plain v := by revert v; decide
  have e : promoted (bldPressSub bs).promI v = promoted (bldPressSub []).promI v := by
    rw [press_promI, press_promI, promoted_fam_fixed, promoted_fam_fixed]
    · exact fun b hb => absurd hb (by simp)
    · intro b _ q hq
      rw [List.mem_singleton] at hq
      subst hq
      exact ne_plain b (by decide) hp
  simp only [Decl.inName, e]; rfl

variable (hp : ∀ b ∈ bs, Plain b)
include hp

theorem press_in_bld {b : String} (hb : b ∈ bs) : (bldPressSub bs).inName (b ++ ":frac_P") = b ++ ":frac_P"
    ∧ (bldPressSub bs).inName (b ++ ":W") = bname b ("blds", ":W") := by
  constructor
  · simp only [Decl.inName]
    rw [press_promI, promoted_fam (q := (":frac_P", ":frac_P")) hp (by decide) (by decide) hb (by simp)]
    · rfl
    · intro p h
      rw [List.mem_singleton] at h
      subst h
      exact exact_as_ne (ne_plain b (by decide) (by decide)).symm
  · simp only [Decl.inName]
    rw [press_promI, promoted_fam_none hp (by decide) hb (by decide) (by decide)]
    · rw [bname_cons b (by decide)]; rfl
    · intro p h
      rw [List.mem_singleton] at h
      subst h
      exact ⟨exact_as_ne (ne_plain b (by decide) (by decide)).symm, rfl⟩

theorem add_in_fixed (a : BleedAdder) {v : String} (hv : v ∈ ["Fl_I:stat:W", "Fl_I:tot:h", "Fl_I:tot:composition"]) :
    (bldAddSub a bs).inName v = (bldAddSub a []).inName v := by
  have e : promoted (bldAddSub a bs).promI v = promoted (bldAddSub a []).promI v := by
    rw [add_promI, add_promI, promoted_fam_fixed, promoted_fam_fixed]
    · exact fun b hb => absurd hb (by simp)
    · intro b hb q hq
      simp only [List.mem_cons, List.not_mem_nil, or_false] at hq hv
      rcases hv with rfl | rfl | rfl <;> rcases hq with rfl | rfl
      · exact ne_inlet (t := ":stat:W") (hp b hb) (by decide) (by decide) (by decide)
      · exact ne_inlet (t := ":stat:W") (hp b hb) (by decide) (by decide) (by decide)
      · exact ne_inlet (t := ":tot:h") (hp b hb) (by decide) (by decide) (by decide)
      · exact ne_inlet (t := ":tot:h") (hp b hb) (by decide) (by decide) (by decide)
      · exact ne_inlet (t := ":tot:composition") (hp b hb) (by decide) (by decide) (by decide)
      · exact ne_inlet (t := ":tot:composition") (hp b hb) (by decide) (by decide) (by decide)
  simp only [Decl.inName, e]; rfl

theorem add_skip {b s : String} (hb : b ∈ bs) (hs : s ∈ [":h", ":composition", ":W"]) :
    ∀ p ∈ [Prom.var "Fl_I:stat:W", .var "Fl_I:tot:composition"], p.exact (b ++ s) = none ∧ p.fits (b ++ s) = false := by
  have h1 : SepHead s := by revert s; decide
  have h2 : s ≠ ":stat:W" ∧ s ≠ ":tot:composition" := by revert s; decide
  intro p h
  simp only [List.mem_cons, List.not_mem_nil, or_false] at h
  rcases h with rfl | rfl
  · exact ⟨exact_var_ne (ne_inlet (t := ":stat:W") (hp b hb) h1 (by decide) h2.1).symm, rfl⟩
  · exact ⟨exact_var_ne (ne_inlet (t := ":tot:composition") (hp b hb) h1 (by decide) h2.2).symm, rfl⟩

theorem add_in_bld (a : BleedAdder) {b : String} (hb : b ∈ bs) :
    (bldAddSub a bs).inName (b ++ ":h") = bname b ("bld_add", ":h")
    ∧ (bldAddSub a bs).inName (b ++ ":composition") = b ++ ":tot:composition"
    ∧ (bldAddSub a bs).inName (b ++ ":W") = b ++ ":stat:W" := by
  refine ⟨?_, ?_, ?_⟩
  · simp only [Decl.inName]
    rw [add_promI, promoted_fam_none hp (by decide) hb (by decide) (by decide) (add_skip hp hb (by decide)),
      bname_cons b (by decide)]
    rfl
  · simp only [Decl.inName]
    rw [add_promI, promoted_fam (q := (":composition", ":tot:composition")) hp (by decide) (by decide) hb (by simp)
      fun p h => (add_skip hp hb (by decide) p h).1]
    rfl
  · simp only [Decl.inName]
    rw [add_promI, promoted_fam (q := (":W", ":stat:W")) hp (by decide) (by decide) hb (by simp)
      fun p h => (add_skip hp hb (by decide) p h).1]
    rfl

omit hp in
theorem pwr_in_fixed {v : String} (hv : v ∈ ["W_in", "W_out", "ht_in", "ht_out_ideal", "eff", "Nmech"]) :
    (pwrTurbSub bs).inName v = (pwrTurbSub []).inName v := by
  have hp : Plain v := by revert v; decide
  have e : promoted (pwrTurbSub bs).promI v = promoted (pwrTurbSub []).promI v := by
    rw [pwr_promI, pwr_promI, promoted_fam_fixed, promoted_fam_fixed]
    · exact fun b hb => absurd hb (by simp)
    · intro b _ q hq
      simp only [List.mem_cons, List.not_mem_nil, or_false] at hq
      rcases hq with rfl | rfl | rfl <;> exact ne_plain b (by decide) hp
  simp only [Decl.inName, e]; rfl

omit hp in
theorem pwr_skip {b s : String} (hs : SepHead s) :
    ∀ p ∈ [Prom.var "Nmech", .var "eff", .var "W_out", .as "W_in" "Fl_I:stat:W", .as "ht_in" "Fl_I:tot:h"],
      p.exact (b ++ s) = none := by
  intro p h
  simp only [List.mem_cons, List.not_mem_nil, or_false] at h
  rcases h with rfl | rfl | rfl | rfl | rfl
  iterate 3 exact exact_var_ne (ne_plain b hs.parted (by decide)).symm
  all_goals exact exact_as_ne (ne_plain b hs.parted (by decide)).symm

theorem pwr_in_bld {b : String} (hb : b ∈ bs) :
    (pwrTurbSub bs).inName (b ++ ":W") = b ++ ":stat:W" ∧ (pwrTurbSub bs).inName (b ++ ":ht") = b ++ ":tot:h"
    ∧ (pwrTurbSub bs).inName (b ++ ":ht_ideal") = b ++ "_ideal.h" := by
  refine ⟨?_, ?_, ?_⟩
  · simp only [Decl.inName]
    rw [pwr_promI, promoted_fam (q := (":W", ":stat:W")) hp (by decide) (by decide) hb (by simp) (pwr_skip (by decide))]
    rfl
  · simp only [Decl.inName]
    rw [pwr_promI, promoted_fam (q := (":ht", ":tot:h")) hp (by decide) (by decide) hb (by simp) (pwr_skip (by decide))]
    rfl
  · simp only [Decl.inName]
    rw [pwr_promI, promoted_fam (q := (":ht_ideal", "_ideal.h")) hp (by decide) (by decide) hb (by simp)
      (pwr_skip (by decide))]
    rfl

/-! ### Lists of names -/

omit hp in
theorem press_outs : (bldPressSub bs).outs.map (bldPressSub bs).outName
    = [] ++ bs.flatMap fun b => [("blds", ":Pt")].map (bname b) := by
  refine map_names (F := []) (V := [":Pt"]) (spec := fun v => ("blds", v)) (f₀ := id) (by simp) ?_
  intro b _ v _
  rw [bname_cons b (by decide)]
  rfl

theorem press_ins : (bldPressSub bs).ins.map (bldPressSub bs).inName
    = ["Fl_I:tot:P", "blds.Pt_out"] ++ bs.flatMap fun b => [("", ":frac_P"), ("blds", ":W")].map (bname b) := by
  refine map_names (F := ["Pt_in", "Pt_out"]) (V := [":frac_P", ":W"])
    (spec := fun v => if v = ":W" then ("blds", v) else ("", v)) (f₀ := (bldPressSub []).inName) ?_ ?_
  · exact fun v hv => press_in_fixed hv
  · intro b hb v hv
    simp only [List.mem_cons, List.not_mem_nil, or_false] at hv
    obtain ⟨h1, h2⟩ := press_in_bld hp hb
    rcases hv with rfl | rfl
    · rw [h1]; exact (bname_nil _ _).symm
    · rw [h2]; rfl

theorem add_ins (a : BleedAdder) : (bldAddSub a bs).ins.map (bldAddSub a bs).inName
    = ["Fl_I:stat:W", "bld_add.Fl_I:tot:h", "Fl_I:tot:composition"]
      ++ bs.flatMap fun b => [("bld_add", ":h"), ("", ":tot:composition"), ("", ":stat:W")].map (bname b) := by
  refine map_names (F := ["Fl_I:stat:W", "Fl_I:tot:h", "Fl_I:tot:composition"]) (V := [":h", ":composition", ":W"])
    (spec := fun v => if v = ":h" then ("bld_add", v) else if v = ":W" then ("", ":stat:W") else ("", ":tot:composition"))
    (f₀ := (bldAddSub a []).inName) ?_ ?_
  · exact fun v hv => add_in_fixed hp a hv
  · intro b hb v hv
    simp only [List.mem_cons, List.not_mem_nil, or_false] at hv
    obtain ⟨h1, h2, h3⟩ := add_in_bld hp a hb
    rcases hv with rfl | rfl | rfl
    · rw [h1]; rfl
    · rw [h2]; exact (bname_nil _ _).symm
    · rw [h3]; exact (bname_nil _ _).symm

theorem pwr_ins : (pwrTurbSub bs).ins.map (pwrTurbSub bs).inName
    = ["Fl_I:stat:W", "W_out", "Fl_I:tot:h", "pwr_turb.ht_out_ideal", "eff", "Nmech"]
      ++ bs.flatMap fun b => powerSpecs.map (bname b) := by
  refine map_names (F := ["W_in", "W_out", "ht_in", "ht_out_ideal", "eff", "Nmech"]) (V := [":W", ":ht", ":ht_ideal"])
    (spec := fun v => if v = ":W" then ("", ":stat:W") else if v = ":ht" then ("", ":tot:h") else ("", "_ideal.h"))
    (f₀ := (pwrTurbSub []).inName) ?_ ?_
  · exact fun v hv => pwr_in_fixed hv
  · intro b hb v hv
    simp only [List.mem_cons, List.not_mem_nil, or_false] at hv
    obtain ⟨h1, h2, h3⟩ := pwr_in_bld hp hb
    rcases hv with rfl | rfl | rfl
    · rw [h1]; exact (bname_nil _ _).symm
    · rw [h2]; exact (bname_nil _ _).symm
    · rw [h3]; exact (bname_nil _ _).symm

omit hp in
theorem flow_names (b : String) : flowVarNames b = (flowVarNames "").map (b ++ ·) := by
  simp only [flowVarNames, List.map_map]
  apply List.map_congr_left
  intro v _
  simp only [Function.comp, String.append_assoc]
  rfl

omit hp in
theorem port_in (b : String) {s : String} : (bleedPort b).inName (b ++ (":" ++ s)) = b ++ (":" ++ s) := by
  have : promoted (bleedPort b).promI (b ++ (":" ++ s)) = some (b ++ (":" ++ s)) := by
    refine promoted_fits ⟨.pre (b ++ ":"), by simp [bleedPort, flowIn], ?_⟩ ?_
    · rw [← String.append_assoc]; exact pre_fits _ _
    · intro p h
      rw [show (bleedPort b).promI = [.pre (b ++ ":")] from rfl, List.mem_singleton] at h
      subst h; rfl
  simp only [Decl.inName, this, Option.getD_some]

omit hp in
theorem port_ins (b : String) : (bleedPort b).ins.map (bleedPort b).inName = portSpecs.map (bname b) := by
  rw [show (bleedPort b).ins = flowVarNames b from rfl, flow_names, portSpecs, List.map_map, List.map_map]
  apply List.map_congr_left
  intro v hv
  simp only [flowVarNames, List.mem_map] at hv
  obtain ⟨u, -, rfl⟩ := hv
  simp only [Function.comp]
  rw [bname_nil, show "" ++ ":" ++ u = ":" ++ u by rw [show "" ++ ":" = ":" from rfl]]
  exact port_in b

omit hp in
theorem solver_names (gas : (ℕ → ℝ) → TPGas) (b : String) (pI : List Prom) (m : TG.Mode) (t v : String)
    (h : promoted pI v = none) :
    (thermo gas (b ++ t) m "flow" pI []).inName v = bname b ("", t ++ "." ++ v) := by
  simp only [Decl.inName]
  rw [show (thermo gas (b ++ t) m "flow" pI []).promI = pI from rfl, h, bname_nil]
  show b ++ t ++ "." ++ v = _
  simp only [String.append_assoc]

omit hp in
theorem solver_ins (gas : (ℕ → ℝ) → TPGas) (b : String) :
    (bleedIn gas b).flatMap (fun s => s.ins.map s.inName) = solverSpecs.map (bname b) := by
  simp only [bleedIn, List.flatMap_cons, List.flatMap_nil, List.append_nil, solverSpecs, List.map_cons, List.map_nil]
  have e1 := solver_names gas b [.as "composition" (b ++ ":tot:composition"), .as "h" (b ++ ":tot:h")] .total_hP "_inflow" "P" rfl
  have e2 := solver_names gas b [.as "composition" (b ++ ":tot:composition")] .total_SP "_ideal" "S" rfl
  have e3 := solver_names gas b [.as "composition" (b ++ ":tot:composition")] .total_SP "_ideal" "P" rfl
  rw [bname_nil b ":tot:h", bname_nil b ":tot:composition"]
  exact congrArg₂ (· ++ ·) (congrArg (fun z => [b ++ ":tot:h", z, b ++ ":tot:composition"]) e1)
    (congrArg₂ (fun y z => [y, z, b ++ ":tot:composition"]) e2 e3)

omit hp in
theorem solver_outs (gas : (ℕ → ℝ) → TPGas) (b : String) :
    (bleedIn gas b).flatMap (fun s => s.outs.map s.outName)
      = (soleSpecs .total_hP "_inflow" "flow" ++ soleSpecs .total_SP "_ideal" "flow").map (bname b) := by
  simp only [bleedIn, List.flatMap_cons, List.flatMap_nil, List.append_nil, List.map_append]
  exact congrArg₂ (· ++ ·) (thermo_sole gas .total_hP rfl b "_inflow" "flow" _) (thermo_sole gas .total_SP rfl b "_ideal" "flow" _)

end

end TurbNames

end PyCycle.OM
