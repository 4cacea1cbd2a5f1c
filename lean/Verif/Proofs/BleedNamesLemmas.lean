import Verif.Model.BleedWiring
import Verif.Proofs.BleedLemmas

/-! # Names of the variables of subsystems with bleeds -/

namespace PyCycle.OM

/-! ## Promotion -/

theorem findSome_skip {ps : List Prom} {v : String} (h : ∀ p ∈ ps, p.exact v = none) :
    ps.findSome? (Prom.exact v) = none := by
  rw [List.findSome?_eq_none_iff]; exact h

/-- Entries that do not concern a variable can be dropped on the right. -/
theorem promoted_left {l r : List Prom} {v : String} (h : ∀ p ∈ r, p.exact v = none ∧ p.fits v = false) :
    promoted (l ++ r) v = promoted l v := by
  unfold promoted
  rw [List.findSome?_append, findSome_skip (ps := r) fun p hp => (h p hp).1, List.any_append]
  have : r.any (Prom.fits v) = false := by
    rw [List.any_eq_false]; intro p hp; simp [(h p hp).2]
  rw [this]
  simp

/-- Entries that do not concern a variable can be dropped on the left. -/
theorem promoted_right {l r : List Prom} {v : String} (h : ∀ p ∈ l, p.exact v = none ∧ p.fits v = false) :
    promoted (l ++ r) v = promoted r v := by
  unfold promoted
  rw [List.findSome?_append, findSome_skip (ps := l) fun p hp => (h p hp).1, List.any_append]
  have : l.any (Prom.fits v) = false := by
    rw [List.any_eq_false]; intro p hp; simp [(h p hp).2]
  rw [this]
  simp

/-- An exact entry. -/
theorem promoted_exact {ps : List Prom} {v t : String} (h : ∃ p ∈ ps, p.exact v = some t)
    (h' : ∀ p ∈ ps, p.exact v = none ∨ p.exact v = some t) : promoted ps v = some t := by
  have : ps.findSome? (Prom.exact v) = some t := by
    obtain ⟨p, hp, e⟩ := h
    cases hf : ps.findSome? (Prom.exact v) with
    | none => rw [List.findSome?_eq_none_iff] at hf; rw [hf p hp] at e; cases e
    | some u =>
      obtain ⟨q, hq, e'⟩ := List.exists_of_findSome?_eq_some hf
      rcases h' q hq with h2 | h2 <;> rw [h2] at e'
      · cases e'
      · exact e'.symm
  simp [promoted, this]

/-- A pattern. -/
theorem promoted_fits {ps : List Prom} {v : String} (h : ∃ p ∈ ps, p.fits v = true)
    (h' : ∀ p ∈ ps, p.exact v = none) : promoted ps v = some v := by
  have : ps.any (Prom.fits v) = true := by rw [List.any_eq_true]; exact h
  simp [promoted, findSome_skip h', this]

/-- No entry. -/
theorem promoted_none {ps : List Prom} {v : String} (h : ∀ p ∈ ps, p.exact v = none ∧ p.fits v = false) :
    promoted ps v = none := by
  have : ps.any (Prom.fits v) = false := by
    rw [List.any_eq_false]; intro p hp; simp [(h p hp).2]
  simp [promoted, findSome_skip fun p hp => (h p hp).1, this]

/-! ## Strings -/

/-- The string has a separator. -/
def Parted (s : String) : Prop := ∃ c ∈ s.toList, isSep c = true

instance (s : String) : Decidable (Parted s) := by unfold Parted; infer_instance

theorem ne_plain (b : String) {s n : String} (hs : Parted s) (hn : Plain n) : b ++ s ≠ n := by
  rintro rfl
  obtain ⟨c, hc, h⟩ := hs
  have := hn c (by rw [String.toList_append]; exact List.mem_append_right _ hc)
  rw [this] at h; cases h

theorem append_left_inj {a b s : String} (h : a ++ s = b ++ s) : a = b := by
  have := congrArg String.toList h
  rw [String.toList_append, String.toList_append] at this
  exact String.toList_inj.mp (List.append_cancel_right this)

theorem append_right_inj {a s t : String} (h : a ++ s = a ++ t) : s = t := by
  have := congrArg String.toList h
  rw [String.toList_append, String.toList_append] at this
  exact String.toList_inj.mp (List.append_cancel_left this)

theorem pre_fits (b s : String) : (Prom.pre b).fits (b ++ s) = true := by
  simp [Prom.fits, String.toList_append]

theorem pre_plain (b : String) {s n : String} (hs : Parted s) (hn : Plain n) :
    (Prom.pre (b ++ s)).fits n = false := by
  rw [Bool.eq_false_iff]
  intro h
  simp only [Prom.fits, List.isPrefixOf_iff_prefix] at h
  obtain ⟨c, hc, h'⟩ := hs
  have := hn c (h.subset (by rw [String.toList_append]; exact List.mem_append_right _ hc))
  rw [this] at h'; cases h'

theorem suf_fits (b s : String) : (Prom.suf s).fits (b ++ s) = true := by
  simp [Prom.fits, String.toList_append]

theorem exact_var_ne {w v : String} (h : w ≠ v) : (Prom.var w).exact v = none := by simp [Prom.exact, h]
theorem exact_as_ne {w t v : String} (h : w ≠ v) : (Prom.as w t).exact v = none := by simp [Prom.exact, h]

theorem bname_nil (b s : String) : bname b ("", s) = b ++ s := by simp [bname]

theorem bname_cons (b : String) {r : String} (hr : r ≠ "") (s : String) :
    bname b (r, s) = r ++ "." ++ (b ++ s) := by simp [bname, hr]

end PyCycle.OM

namespace PyCycle.OM

/-! ## Lists of names -/

/-- What the subsystems of an element with bleeds contribute: fixed subsystems `A`, `Z`, subsystems `P b`, `G b`
for each bleed, subsystems `D₁`, `D₂` some of whose variables are the bleeds'. -/
theorem segs_perm {α β : Type} (bs : List String) (h : α → List β) (A D₁ D₂ Z : List α) (P G : String → List α)
    (x₁ x₂ : List β) (f₁ f₂ p g : String → List β) (h₁ : D₁.flatMap h = x₁ ++ bs.flatMap f₁)
    (h₂ : D₂.flatMap h = x₂ ++ bs.flatMap f₂) (hp : ∀ b ∈ bs, (P b).flatMap h = p b)
    (hg : ∀ b ∈ bs, (G b).flatMap h = g b) :
    ((A ++ bs.flatMap P ++ D₁ ++ bs.flatMap G ++ D₂ ++ Z).flatMap h).Perm
      ((A.flatMap h ++ x₁ ++ x₂ ++ Z.flatMap h) ++ bs.flatMap fun b => p b ++ f₁ b ++ g b ++ f₂ b) := by
  have k1 := List.flatMap_append_perm bs p f₁
  have k2 := List.flatMap_append_perm bs (fun x => p x ++ f₁ x) g
  have k3 := List.flatMap_append_perm bs (fun x => p x ++ f₁ x ++ g x) f₂
  have hp' : (bs.flatMap P).flatMap h = bs.flatMap p := by
    rw [List.flatMap_assoc]; exact List.flatMap_congr hp
  have hg' : (bs.flatMap G).flatMap h = bs.flatMap g := by
    rw [List.flatMap_assoc]; exact List.flatMap_congr hg
  simp only [List.flatMap_append, hp', hg', h₁, h₂]
  rw [← Multiset.coe_eq_coe] at k1 k2 k3 ⊢
  simp only [← Multiset.coe_add] at k1 k2 k3 ⊢
  rw [← k3, ← k2, ← k1]
  abel

/-- Subsystem names: fixed ones and, for each bleed, one per ending. -/
theorem names_nodup {tails reserved bs : List String} (hb : BleedNames tails reserved bs) {ts fixed : List String}
    (ht : ts.Nodup) (htt : ts ⊆ tails) (hf : fixed.Nodup) (hfr : fixed ⊆ reserved) :
    (fixed ++ bs.flatMap fun b => ts.map (b ++ ·)).Nodup := by
  rw [List.nodup_append]
  refine ⟨hf, ?_, ?_⟩
  · rw [List.nodup_flatMap]
    constructor
    · intro b _
      exact ht.map fun _ _ e => append_right_inj e
    · refine List.Pairwise.imp_of_mem ?_ (show bs.Pairwise fun a b => a ≠ b from hb.nodup)
      intro a b ha hbm hne x hx hx'
      obtain ⟨t, ht, rfl⟩ := List.mem_map.mp hx
      obtain ⟨t', ht', e⟩ := List.mem_map.mp hx'
      exact hne (hb.apart b hbm a ha t' (htt ht') t (htt ht) e).symm
  · rintro n hn x hx rfl
    obtain ⟨b, hbm, hx⟩ := List.mem_flatMap.mp hx
    obtain ⟨t, ht, rfl⟩ := List.mem_map.mp hx
    exact hb.fresh b hbm t (htt ht) (hfr hn)

/-! ## Solvers of a bleed -/

/-- Outputs of a `Thermo` called `b ++ t` whose station `b ++ f` is promoted. -/
def ownSpecs (m : TG.Mode) (t f : String) : List (String × String) :=
  (thermoOuts m).map (fun o => ("", t ++ "." ++ nm o.2.2)) ++ TG.flowVars.map (fun v => ("", f ++ ":" ++ nm v))

theorem plain_nm (v : TG.Var) (h : v ≠ .lhsT ∧ v ≠ .rhsT ∧ v ≠ .guessGamt ∧ v ≠ .guessPt ∧ v ≠ .guessMN) :
    Plain (nm v) := by
  revert h
  cases v <;> decide

theorem thermo_own (gas : (ℕ → ℝ) → TPGas) (m : TG.Mode) (hm : isStat m = false) (b t f : String)
    (hf : Parted f) (pI : List Prom) :
    (thermo gas (b ++ t) m (b ++ f) pI [.pre (b ++ (f ++ ":"))]).outs.map
        (thermo gas (b ++ t) m (b ++ f) pI [.pre (b ++ (f ++ ":"))]).outName
      = (ownSpecs m t f).map (bname b) := by
  simp only [thermo, hm, Bool.false_eq_true, if_false, List.append_nil, List.map_append, List.map_map, ownSpecs]
  congr 1
  · apply List.map_congr_left
    intro o ho
    have hp : Plain (nm o.2.2) := by
      apply plain_nm
      revert o
      cases m <;> first | decide | exact absurd hm (by decide)
    have : promoted [.pre (b ++ (f ++ ":"))] (nm o.2.2) = none := by
      refine promoted_none fun p hp' => ?_
      rw [List.mem_singleton] at hp'
      subst hp'
      refine ⟨rfl, pre_plain _ ?_ hp⟩
      obtain ⟨c, hc, h⟩ := hf
      exact ⟨c, by rw [String.toList_append]; exact List.mem_append_left _ hc, h⟩
    simp only [Function.comp, Decl.outName, this, Option.getD_none, bname_nil, String.append_assoc]
  · apply List.map_congr_left
    intro v _
    have e : b ++ f ++ ":" ++ nm v = b ++ (f ++ ":") ++ nm v := by simp only [String.append_assoc]
    have : promoted [.pre (b ++ (f ++ ":"))] (b ++ f ++ ":" ++ nm v) = some (b ++ f ++ ":" ++ nm v) := by
      refine promoted_fits ⟨_, List.mem_singleton.mpr rfl, ?_⟩ ?_
      · rw [e]; exact pre_fits _ _
      · intro p hp; rw [List.mem_singleton] at hp; subst hp; rfl
    simp only [Function.comp, Decl.outName]
    rw [this]
    simp only [Option.getD_some, bname_nil, String.append_assoc]

theorem thermo_reports_own (gas : (ℕ → ℝ) → TPGas) (m : TG.Mode) (b t f : String) (pI : List Prom) (v : TG.Var) :
    (thermo gas (b ++ t) m (b ++ f) pI [.pre (b ++ (f ++ ":"))]).outName (b ++ f ++ ":" ++ nm v)
      = b ++ f ++ ":" ++ nm v := by
  have e : b ++ f ++ ":" ++ nm v = b ++ (f ++ ":") ++ nm v := by simp only [String.append_assoc]
  have : promoted [.pre (b ++ (f ++ ":"))] (b ++ f ++ ":" ++ nm v) = some (b ++ f ++ ":" ++ nm v) := by
    refine promoted_fits ⟨_, List.mem_singleton.mpr rfl, ?_⟩ ?_
    · rw [e]; exact pre_fits _ _
    · intro p hp; rw [List.mem_singleton] at hp; subst hp; rfl
  simp only [Decl.outName]
  rw [show (thermo gas (b ++ t) m (b ++ f) pI [.pre (b ++ (f ++ ":"))]).promO = [.pre (b ++ (f ++ ":"))] from rfl,
    this]
  rfl

/-- Outputs of a `Thermo` called `b ++ t` of which nothing is promoted. -/
def soleSpecs (m : TG.Mode) (t fl : String) : List (String × String) :=
  (thermoOuts m).map (fun o => ("", t ++ "." ++ nm o.2.2)) ++ TG.flowVars.map (fun v => ("", t ++ "." ++ (fl ++ ":" ++ nm v)))

theorem thermo_sole (gas : (ℕ → ℝ) → TPGas) (m : TG.Mode) (hm : isStat m = false) (b t fl : String)
    (pI : List Prom) :
    (thermo gas (b ++ t) m fl pI []).outs.map (thermo gas (b ++ t) m fl pI []).outName
      = (soleSpecs m t fl).map (bname b) := by
  simp only [thermo, hm, Bool.false_eq_true, if_false, List.append_nil, List.map_append, List.map_map, soleSpecs]
  congr 1 <;>
  · apply List.map_congr_left
    intro o ho
    simp only [Function.comp, Decl.outName, promoted, List.findSome?_nil, List.any_nil, Bool.false_eq_true,
      if_false, Option.getD_none, bname_nil, String.append_assoc]

/-! ## Names with and without bleeds -/

/-- The string begins with a separator. -/
def SepHead (s : String) : Prop := s.toList.head?.any isSep = true

instance (s : String) : Decidable (SepHead s) := by unfold SepHead; infer_instance

theorem segL_sep {s : String} (h : SepHead s) : segL s.toList = [] := by
  unfold SepHead at h
  unfold segL
  cases e : s.toList with
  | nil => rfl
  | cons c r =>
    rw [e] at h
    have hc : isSep c = true := by simpa using h
    simp [hc]

theorem SepHead.parted {s : String} (h : SepHead s) : Parted s := by
  unfold SepHead at h
  cases e : s.toList with
  | nil => rw [e] at h; simp at h
  | cons c r =>
    rw [e] at h
    exact ⟨c, by rw [e]; exact List.mem_cons_self, by simpa using h⟩

theorem plain_split {a b s t : String} (ha : Plain a) (hb : Plain b) (hs : SepHead s) (ht : SepHead t)
    (h : a ++ s = b ++ t) : a = b ∧ s = t := by
  have e := congrArg (fun z => segL z.toList) h
  simp only [String.toList_append] at e
  rw [segL_append ha, segL_append hb, segL_sep hs, segL_sep ht, List.append_nil, List.append_nil] at e
  have e' := String.toList_inj.mp e
  subst e'
  exact ⟨rfl, append_right_inj h⟩

theorem plain_prefix {a b s t : String} (ha : Plain a) (hb : Plain b) (hs : SepHead s) (ht : SepHead t)
    (h : (Prom.pre (a ++ s)).fits (b ++ t) = true) : a = b := by
  simp only [Prom.fits, List.isPrefixOf_iff_prefix] at h
  obtain ⟨r, h⟩ := h
  have e := congrArg segL h
  rw [String.toList_append, String.toList_append, List.append_assoc, segL_append ha, segL_append hb, segL_sep ht,
    List.append_nil] at e
  have h2 : segL (s.toList ++ r) = [] := by
    unfold SepHead at hs
    unfold segL
    cases e : s.toList with
    | nil => rw [e] at hs; simp at hs
    | cons c q =>
      rw [e] at hs
      have hc : isSep c = true := by simpa using hs
      simp [hc]
  rw [h2, List.append_nil] at e
  exact String.toList_inj.mp e

/-! ## Which entry promotes a variable -/

theorem find_unique {α : Type} {l : List α} {f : α → Bool} {p : α} (hp : p ∈ l) (h : f p = true)
    (hu : ∀ q ∈ l, f q = true → q = p) : l.find? f = some p := by
  cases e : l.find? f with
  | none => rw [List.find?_eq_none] at e; exact absurd h (e p hp)
  | some q =>
    have h1 := List.find?_some e
    have h2 := List.mem_of_find?_eq_some e
    rw [hu q h2 h1]

theorem taker_exact {ps : List Prom} {v : String} {p : Prom} (hp : p ∈ ps) (h : (p.exact v).isSome = true)
    (hu : ∀ q ∈ ps, (q.exact v).isSome = true → q = p) : taker ps v = some p := by
  simp only [taker, find_unique hp h hu]

theorem taker_fits {ps : List Prom} {v : String} {p : Prom} (hp : p ∈ ps) (h : p.fits v = true)
    (he : ∀ q ∈ ps, q.exact v = none) (hu : ∀ q ∈ ps, q.fits v = true → q = p) : taker ps v = some p := by
  have : ps.find? (fun p => (p.exact v).isSome) = none := by
    rw [List.find?_eq_none]; intro q hq; simp [he q hq]
  simp only [taker, this, find_unique hp h hu]

/-! ## From closed data to data with bleeds -/

/-- A subsystem with fixed variables and some for each bleed. -/
theorem map_names {bs : List String} {F : List String} {V : List String} {f f₀ : String → String}
    {spec : String → String × String} (h : ∀ v ∈ F, f v = f₀ v)
    (h' : ∀ b ∈ bs, ∀ v ∈ V, f (b ++ v) = bname b (spec v)) :
    (F ++ bs.flatMap fun b => V.map (b ++ ·)).map f
      = F.map f₀ ++ bs.flatMap fun b => (V.map spec).map (bname b) := by
  rw [List.map_append, List.map_congr_left h, List.map_flatMap]
  congr 1
  apply List.flatMap_congr
  intro b hb
  rw [List.map_map, List.map_map]
  exact List.map_congr_left fun v hv => h' b hb v hv

section
variable {tails reserved bs : List String} {w₀ w : Wiring} {p : PerBleed}
variable (hb : BleedNames tails reserved bs) (hf : p.Fits tails reserved w₀) (he : Extends w₀ p bs w)
  (hn : (w.subs.map (·.name)).Nodup)
include hb hf he hn

/-- A fixed input of a subsystem reads what it reads without bleeds. -/
theorem Extends.inSrc_fixed {s s₀ : Decl} (hs : s ∈ w.subs) (hs₀ : s₀ ∈ w₀.subs) (e : s.name = s₀.name)
    {v : String} (hv : v ∈ s₀.ins) (hi : s.inName v = s₀.inName v) : w.inSrc s₀.name v = w₀.inSrc s₀.name v := by
  have h1 : w.find s₀.name = some s := e ▸ Wiring.find_of_mem hn hs
  have h2 : w₀.find s₀.name = some s₀ := Wiring.find_of_mem hf.acc.1 hs₀
  simp only [Wiring.inSrc, h1, h2, hi]
  refine he.src_fixed hb hf hn ?_
  exact List.mem_flatMap.mpr ⟨s₀, hs₀, List.mem_map_of_mem hv⟩

omit hb hf he in
/-- What an input of a subsystem reads. -/
theorem inSrc_of {s : Decl} (hs : s ∈ w.subs) {v : String} : w.inSrc s.name v = w.src (s.inName v) := by
  simp only [Wiring.inSrc, Wiring.find_of_mem hn hs]

omit hb hf he in
/-- The name of an output of a subsystem. -/
theorem outOf_of {s : Decl} (hs : s ∈ w.subs) {v : String} : w.outOf s.name v = s.outName v := by
  simp only [Wiring.outOf, Wiring.find_of_mem hn hs]

omit hb he in
/-- Outputs of a fixed subsystem have the names they have without bleeds. -/
theorem Extends.outOf_fixed {t : Decl} (ht : t ∈ w.subs) (ht₀ : t ∈ w₀.subs)
    (v : String) : w.outOf t.name v = w₀.outOf t.name v := by
  rw [outOf_of hn ht, outOf_of hf.acc.1 ht₀]

omit hb he in
/-- A fixed `Thermo` reports the station it reports without bleeds. -/
theorem Extends.reports_fixed {t : Decl} (ht : t ∈ w.subs) (ht₀ : t ∈ w₀.subs)
    {fl st : String} {m : TG.Mode} (h : w₀.ReportsAs t.name fl st m) : w.ReportsAs t.name fl st m := by
  refine ⟨fun v hv => ?_, fun hm v hv => ?_⟩
  · rw [outOf_fixed hf hn ht ht₀]; exact h.1 v hv
  · rw [outOf_fixed hf hn ht ht₀]; exact h.2 hm v hv

end

/-- Input `v` of `n`, one of the fixed subsystems `F`, reads `x` without bleeds. -/
def Wiring.FixedRd (w₀ : Wiring) (F : List Decl) (n v x : String) : Prop :=
  (∃ t ∈ F, t.name = n ∧ v ∈ t.ins) ∧ w₀.inSrc n v = x

noncomputable instance (w₀ : Wiring) (F : List Decl) (n v x : String) : Decidable (w₀.FixedRd F n v x) := by
  unfold Wiring.FixedRd; infer_instance

/-- Output `v` of `n`, one of the fixed subsystems `F`, is called `x` without bleeds. -/
def Wiring.FixedWr (w₀ : Wiring) (F : List Decl) (n v x : String) : Prop :=
  (∃ t ∈ F, t.name = n) ∧ w₀.outOf n v = x

noncomputable instance (w₀ : Wiring) (F : List Decl) (n v x : String) : Decidable (w₀.FixedWr F n v x) := by
  unfold Wiring.FixedWr; infer_instance

/-- `n`, one of the fixed subsystems `F`, reports a station without bleeds. -/
def Wiring.FixedReports (w₀ : Wiring) (F : List Decl) (n fl st : String) (m : TG.Mode) : Prop :=
  (∃ t ∈ F, t.name = n) ∧ w₀.ReportsAs n fl st m

noncomputable instance (w₀ : Wiring) (F : List Decl) (n fl st : String) (m : TG.Mode) : Decidable (w₀.FixedReports F n fl st m) := by
  unfold Wiring.FixedReports; infer_instance

section
variable {tails reserved bs : List String} {w₀ w : Wiring} {p : PerBleed}
variable (hb : BleedNames tails reserved bs) (hf : p.Fits tails reserved w₀) (he : Extends w₀ p bs w)
  (hn : (w.subs.map (·.name)).Nodup) {F : List Decl} (hF : F ⊆ w.subs) (hF₀ : F ⊆ w₀.subs)
include hf hn hF hF₀

include hb he in
theorem FixedRd.transfer {n v x : String} (h : w₀.FixedRd F n v x) : w.inSrc n v = x := by
  obtain ⟨⟨t, ht, rfl, hv⟩, h⟩ := h
  rw [he.inSrc_fixed hb hf hn (hF ht) (hF₀ ht) rfl hv rfl, h]

theorem FixedWr.transfer {n v x : String} (h : w₀.FixedWr F n v x) : w.outOf n v = x := by
  obtain ⟨⟨t, ht, rfl⟩, h⟩ := h
  rw [Extends.outOf_fixed hf hn (hF ht) (hF₀ ht), h]

theorem FixedReports.transfer {n fl st : String} {m : TG.Mode} (h : w₀.FixedReports F n fl st m) :
    w.ReportsAs n fl st m := by
  obtain ⟨⟨t, ht, rfl⟩, h⟩ := h
  exact Extends.reports_fixed hf hn (hF ht) (hF₀ ht) h

end

/-- Sums over the bleeds. -/
theorem sum_bleeds (bs : List String) (f : String → ℝ) : ∑ k : Fin bs.length, f bs[k] = (bs.map f).sum := by
  rw [← List.sum_ofFn]
  congr 1
  apply List.ext_getElem
  · simp
  · intro i h1 h2; simp

end PyCycle.OM
