import Verif.Spec.BleedNames
import Verif.Proofs.OMLemmas
import Mathlib.Data.List.Nodup
import Mathlib.Data.List.Perm.Basic

/-! # Groups with a variable number of bleeds

The wiring for any list of bleeds is the wiring without bleeds plus, for each bleed, the same additions. What an
input reads is then computed from closed data. -/

namespace PyCycle.OM

/-- The part of a name before the first separator. -/
def segL (l : List Char) : List Char := l.takeWhile fun c => !isSep c

theorem segL_append {l m : List Char} (h : ∀ c ∈ l, isSep c = false) : segL (l ++ m) = l ++ segL m := by
  unfold segL
  rw [List.takeWhile_append_of_pos]
  intro c hc
  simp [h c hc]

/-- A name built from bleed `b`: `b ++ s`, or `r.b ++ s` for a variable of subsystem `r` that is not promoted. -/
def bname (b : String) (q : String × String) : String :=
  if q.1 = "" then b ++ q.2 else q.1 ++ "." ++ (b ++ q.2)

/-- A legal pattern of such names. -/
def SpecOk (tails reserved : List String) (q : String × String) : Prop :=
  (q.1 = "" ∨ (q.1 ∈ reserved ∧ Plain q.1)) ∧ segL q.2.toList ≠ q.2.toList
  ∧ ∃ t ∈ tails, t.toList = segL q.2.toList

instance (tails reserved : List String) (q : String × String) : Decidable (SpecOk tails reserved q) := by
  unfold SpecOk; infer_instance

/-- `n` is no `b ++ s`. -/
def CharsOk (reserved : List String) (n : List Char) : Prop :=
  segL n = n ∨ ∃ r ∈ reserved, r.toList = segL n

instance (reserved : List String) (n : List Char) : Decidable (CharsOk reserved n) := by
  unfold CharsOk; infer_instance

/-- The fixed name `n` cannot be of pattern `q`. -/
def NameOk (reserved : List String) (q : String × String) (n : String) : Prop :=
  if q.1 = "" then CharsOk reserved n.toList
  else ¬ (q.1 ++ ".").toList <+: n.toList ∨ CharsOk reserved (n.toList.drop (q.1 ++ ".").toList.length)

instance (reserved : List String) (q : String × String) (n : String) : Decidable (NameOk reserved q n) := by
  unfold NameOk; infer_instance

variable {tails reserved bs : List String}

theorem chars_ne (hb : BleedNames tails reserved bs) {b : String} (hbm : b ∈ bs) {s : String}
    (hs : segL s.toList ≠ s.toList ∧ ∃ t ∈ tails, t.toList = segL s.toList) {n : List Char}
    (hn : CharsOk reserved n) : n ≠ b.toList ++ s.toList := by
  rintro rfl
  obtain ⟨h1, t, ht, e⟩ := hs
  have hp := hb.plain b hbm
  rcases hn with h | ⟨r, hr, h⟩
  · rw [segL_append hp] at h
    exact h1 (List.append_cancel_left h)
  · rw [segL_append hp, ← e, ← String.toList_append] at h
    exact hb.fresh b hbm t ht ((String.toList_inj.mp h) ▸ hr)

theorem bname_ne (hb : BleedNames tails reserved bs) {b : String} (hbm : b ∈ bs) {q : String × String}
    (hq : SpecOk tails reserved q) {n : String} (hn : NameOk reserved q n) : n ≠ bname b q := by
  intro e
  unfold NameOk at hn
  unfold bname at e
  split_ifs at hn e with h
  · exact chars_ne hb hbm hq.2 hn (by rw [e, String.toList_append])
  · have e' : n.toList = (q.1 ++ ".").toList ++ (b.toList ++ q.2.toList) := by
      rw [e, String.toList_append, String.toList_append (s := b)]
    rcases hn with h' | h'
    · exact h' ⟨_, e'.symm⟩
    · refine chars_ne hb hbm hq.2 h' ?_
      rw [e', List.drop_left]

theorem bname_inj (hb : BleedNames tails reserved bs) {b b' : String} (hbm : b ∈ bs) (hbm' : b' ∈ bs)
    {q q' : String × String} (hq : SpecOk tails reserved q) (hq' : SpecOk tails reserved q')
    (e : bname b q = bname b' q') : b = b' ∧ q = q' := by
  obtain ⟨h1, h2, t, ht, et⟩ := hq
  obtain ⟨h1', h2', t', ht', et'⟩ := hq'
  have hp := hb.plain b hbm
  have hp' := hb.plain b' hbm'
  have core : b ++ q.2 = b' ++ q'.2 → b = b' ∧ q.2 = q'.2 := by
    intro e
    have es : segL (b.toList ++ q.2.toList) = segL (b'.toList ++ q'.2.toList) := by
      rw [← String.toList_append, ← String.toList_append, e]
    rw [segL_append hp, segL_append hp', ← et, ← et', ← String.toList_append, ← String.toList_append] at es
    have hbb := hb.apart b hbm b' hbm' t ht t' ht' (String.toList_inj.mp es)
    subst hbb
    refine ⟨rfl, String.toList_inj.mp ?_⟩
    have : b.toList ++ q.2.toList = b.toList ++ q'.2.toList := by
      rw [← String.toList_append, ← String.toList_append, e]
    exact List.append_cancel_left this
  have seg2 : ∀ {r : String} (x : String), Plain r → segL ((r ++ "." ++ x).toList) = r.toList := by
    intro r x hr
    rw [String.toList_append, String.toList_append, List.append_assoc, segL_append hr]
    simp [segL, isSep]
  obtain ⟨r, s⟩ := q
  obtain ⟨r', s'⟩ := q'
  simp only at *
  unfold bname at e
  simp only at e
  split_ifs at e with g g' g'
  · subst g g'
    obtain ⟨x, y⟩ := core e
    exact ⟨x, by rw [y]⟩
  · exfalso
    rcases h1' with h | ⟨h, hp2⟩
    · exact g' h
    · have := congrArg (fun z => segL z.toList) e
      rw [seg2 _ hp2, String.toList_append, segL_append hp, ← et, ← String.toList_append] at this
      exact hb.fresh b hbm t ht ((String.toList_inj.mp this) ▸ h)
  · exfalso
    rcases h1 with h | ⟨h, hp2⟩
    · exact g h
    · have := congrArg (fun z => segL z.toList) e
      rw [seg2 _ hp2, String.toList_append, segL_append hp', ← et', ← String.toList_append] at this
      exact hb.fresh b' hbm' t' ht' ((String.toList_inj.mp this.symm) ▸ h)
  · rcases h1 with h | ⟨-, hr⟩
    · exact absurd h g
    rcases h1' with h | ⟨-, hr'⟩
    · exact absurd h g'
    have := congrArg (fun z => segL z.toList) e
    rw [seg2 _ hr, seg2 _ hr'] at this
    have hrr := String.toList_inj.mp this
    subst hrr
    have e2 : b ++ s = b' ++ s' := by
      apply String.toList_inj.mp
      have := congrArg String.toList e
      rw [String.toList_append, String.toList_append (t := b' ++ s')] at this
      exact List.append_cancel_left this
    obtain ⟨x, y⟩ := core e2
    exact ⟨x, by rw [y]⟩

/-! ## Additions per bleed -/

/-- A name in the additions: fixed, or built from the bleed. -/
inductive Ref
  | fixed (n : String)
  | bld (q : String × String)
  deriving DecidableEq

/-- The name. -/
def Ref.at (b : String) : Ref → String
  | .fixed n => n
  | .bld q => bname b q

/-- What each bleed adds to a wiring: outputs, inputs, connections (source, target). -/
structure PerBleed where
  outs : List (String × String)
  ins : List (String × String)
  conns : List (Ref × (String × String))

/-- `w` is `w₀` with the additions for each bleed. -/
structure Extends (w₀ : Wiring) (p : PerBleed) (bs : List String) (w : Wiring) : Prop where
  outs : w.outs.Perm (w₀.outs ++ bs.flatMap fun b => p.outs.map (bname b))
  ins : ∀ n, n ∈ w.ins ↔ n ∈ w₀.ins ∨ ∃ b ∈ bs, ∃ q ∈ p.ins, n = bname b q
  conns : w.conns.Perm (w₀.conns ++ bs.flatMap fun b => p.conns.map fun c => (c.1.at b, bname b c.2))

/-- The closed conditions on the additions. -/
structure PerBleed.Fits (tails reserved : List String) (w₀ : Wiring) (p : PerBleed) : Prop where
  acc : w₀.Wired
  outsNodup : p.outs.Nodup
  targetsNodup : (p.conns.map (·.2)).Nodup
  sources : ∀ c ∈ p.conns, match c.1 with
    | .fixed n => n ∈ w₀.outs
    | .bld q => q ∈ p.outs
  targets : ∀ c ∈ p.conns, c.2 ∈ p.ins ∧ c.2 ∉ p.outs
  specs : ∀ q ∈ p.outs ++ p.ins, SpecOk tails reserved q
  names : ∀ q ∈ p.outs ++ p.ins, ∀ n ∈ w₀.outs ++ w₀.ins, NameOk reserved q n

noncomputable instance (tails reserved : List String) (w₀ : Wiring) (p : PerBleed) : Decidable (p.Fits tails reserved w₀) :=
  decidable_of_iff
    (w₀.Wired ∧ p.outs.Nodup ∧ (p.conns.map (·.2)).Nodup
      ∧ (∀ c ∈ p.conns, (match c.1 with | .fixed n => decide (n ∈ w₀.outs) | .bld q => decide (q ∈ p.outs)) = true)
      ∧ (∀ c ∈ p.conns, c.2 ∈ p.ins ∧ c.2 ∉ p.outs) ∧ (∀ q ∈ p.outs ++ p.ins, SpecOk tails reserved q)
      ∧ ∀ q ∈ p.outs ++ p.ins, ∀ n ∈ w₀.outs ++ w₀.ins, NameOk reserved q n)
    ⟨fun ⟨a, b, c, d, e, f, g⟩ => ⟨a, b, c, fun x hx => by
        have := d x hx
        revert this
        cases x.1 <;> simp, e, f, g⟩,
      fun h => ⟨h.acc, h.outsNodup, h.targetsNodup, fun x hx => by
        have := h.sources x hx
        revert this
        cases x.1 <;> simp, h.targets, h.specs, h.names⟩⟩

section
variable {w₀ w : Wiring} {p : PerBleed}

theorem nodup_bnames (hb : BleedNames tails reserved bs) {S : List (String × String)} (hS : S.Nodup)
    (ok : ∀ q ∈ S, SpecOk tails reserved q) : (bs.flatMap fun b => S.map (bname b)).Nodup := by
  rw [List.nodup_flatMap]
  constructor
  · intro b hbm
    exact hS.map_on (fun q hq q' hq' e => (bname_inj hb hbm hbm (ok q hq) (ok q' hq') e).2)
  · have : bs.Pairwise fun a b => a ≠ b := hb.nodup
    refine List.Pairwise.imp_of_mem ?_ this
    intro a b ha hbm hne x hx hx'
    obtain ⟨q, hq, rfl⟩ := List.mem_map.mp hx
    obtain ⟨q', hq', e⟩ := List.mem_map.mp hx'
    exact hne (bname_inj hb ha hbm (ok q hq) (ok q' hq') e.symm).1

variable (hb : BleedNames tails reserved bs) (hf : p.Fits tails reserved w₀) (he : Extends w₀ p bs w)
include hb hf he

theorem Extends.mem_outs_fixed {n : String} (hn : n ∈ w₀.outs ++ w₀.ins) : n ∈ w.outs ↔ n ∈ w₀.outs := by
  rw [he.outs.mem_iff, List.mem_append]
  refine or_iff_left ?_
  rw [List.mem_flatMap]
  rintro ⟨b, hbm, hx⟩
  obtain ⟨q, hq, e⟩ := List.mem_map.mp hx
  exact bname_ne hb hbm (hf.specs q (List.mem_append_left _ hq)) (hf.names q (List.mem_append_left _ hq) n hn)
    e.symm

theorem Extends.mem_outs_bld {b : String} (hbm : b ∈ bs) {q : String × String} (hq : q ∈ p.outs ++ p.ins) :
    bname b q ∈ w.outs ↔ q ∈ p.outs := by
  rw [he.outs.mem_iff, List.mem_append, List.mem_flatMap]
  constructor
  · rintro (h | ⟨b', hb', h⟩)
    · exact absurd rfl (bname_ne hb hbm (hf.specs q hq) (hf.names q hq _ (List.mem_append_left _ h)))
    · obtain ⟨q', hq', e⟩ := List.mem_map.mp h
      obtain ⟨-, rfl⟩ := bname_inj hb hb' hbm (hf.specs q' (List.mem_append_left _ hq')) (hf.specs q hq) e
      exact hq'
  · intro h
    exact Or.inr ⟨b, hbm, List.mem_map_of_mem h⟩

/-- The wiring with bleeds is wired. -/
theorem Extends.wired (hn : (w.subs.map (·.name)).Nodup) : w.Wired := by
  obtain ⟨-, a2, a3, a4⟩ := hf.acc
  refine ⟨hn, ?_, ?_, ?_⟩
  · rw [he.outs.nodup_iff, List.nodup_append]
    refine ⟨a2, nodup_bnames hb hf.outsNodup fun q hq => hf.specs q (List.mem_append_left _ hq), ?_⟩
    rintro n hn' x hx rfl
    obtain ⟨b, hbm, hx⟩ := List.mem_flatMap.mp hx
    obtain ⟨q, hq, e⟩ := List.mem_map.mp hx
    exact bname_ne hb hbm (hf.specs q (List.mem_append_left _ hq))
      (hf.names q (List.mem_append_left _ hq) n (List.mem_append_left _ hn')) e.symm
  · rw [(he.conns.map _).nodup_iff, List.map_append, List.map_flatMap, List.nodup_append]
    have hT : (bs.flatMap fun b => (p.conns.map fun c => (c.1.at b, bname b c.2)).map (·.2))
        = bs.flatMap fun b => (p.conns.map (·.2)).map (bname b) := by
      simp [List.map_map, Function.comp_def]
    have ok : ∀ q ∈ p.conns.map (·.2), SpecOk tails reserved q := by
      intro q hq
      obtain ⟨c, hc, rfl⟩ := List.mem_map.mp hq
      exact hf.specs _ (List.mem_append_right _ (hf.targets c hc).1)
    rw [hT]
    refine ⟨a3, nodup_bnames hb hf.targetsNodup ok, ?_⟩
    rintro n hn' x hx rfl
    obtain ⟨c, hc, rfl⟩ := List.mem_map.mp hn'
    obtain ⟨b, hbm, hx⟩ := List.mem_flatMap.mp hx
    obtain ⟨q, hq, e⟩ := List.mem_map.mp hx
    obtain ⟨c', hc', rfl⟩ := List.mem_map.mp hq
    have hi := List.mem_append_right p.outs (hf.targets c' hc').1
    exact bname_ne hb hbm (hf.specs _ hi) (hf.names _ hi _ (List.mem_append_right _ (a4 c hc).2.1)) e.symm
  · intro c hc
    rw [he.conns.mem_iff, List.mem_append] at hc
    rcases hc with hc | hc
    · obtain ⟨k1, k2, k3⟩ := a4 c hc
      refine ⟨(he.mem_outs_fixed hb hf (List.mem_append_left _ k1)).mpr k1, (he.ins _).mpr (Or.inl k2), ?_⟩
      rw [he.mem_outs_fixed hb hf (List.mem_append_right _ k2)]
      exact k3
    · obtain ⟨b, hbm, hc⟩ := List.mem_flatMap.mp hc
      obtain ⟨c', hc', rfl⟩ := List.mem_map.mp hc
      obtain ⟨k1, k2⟩ := hf.targets c' hc'
      have hs := hf.sources c' hc'
      refine ⟨?_, (he.ins _).mpr (Or.inr ⟨b, hbm, _, k1, rfl⟩), ?_⟩
      · revert hs
        cases hr : c'.1 with
        | fixed n =>
          intro hs
          exact (he.mem_outs_fixed hb hf (List.mem_append_left _ hs)).mpr hs
        | bld q =>
          intro hs
          exact (he.mem_outs_bld hb hf hbm (List.mem_append_left _ hs)).mpr hs
      · rw [he.mem_outs_bld hb hf hbm (List.mem_append_right _ k1)]
        exact k2

omit hb hf he in
theorem Wiring.src_out {w : Wiring} {n : String} (h : n ∈ w.outs) : w.src n = n := by simp [Wiring.src, h]

omit hb hf he in
theorem Wiring.src_conn {w : Wiring} (ha : w.Wired) {a n : String} (h : (a, n) ∈ w.conns) : w.src n = a := by
  obtain ⟨-, -, a3, a4⟩ := ha
  have hn := (a4 _ h).2.2
  simp only at hn
  simp only [Wiring.src, hn, if_false]
  have : w.conns.find? (fun c => c.2 = n) = some (a, n) := by
    generalize w.conns = l at a3 h
    induction l with
    | nil => cases h
    | cons c l ih =>
      simp only [List.map_cons, List.nodup_cons] at a3
      rcases List.mem_cons.mp h with rfl | h'
      · simp
      · have : c.2 ≠ n := fun e => a3.1 (e ▸ List.mem_map_of_mem (f := (·.2)) h')
        rw [List.find?_cons_of_neg (by simpa using this)]
        exact ih a3.2 h'
  rw [this]; rfl

omit hb hf he in
theorem Wiring.src_free {w : Wiring} {n : String} (h : n ∉ w.outs) (h' : n ∉ w.conns.map (·.2)) : w.src n = n := by
  have : w.conns.find? (fun c => c.2 = n) = none := by
    rw [List.find?_eq_none]
    intro c hc e
    exact h' (List.mem_map.mpr ⟨c, hc, by simpa using e⟩)
  simp [Wiring.src, h, this]

omit hb hf he in
theorem Wiring.mem_externals {w : Wiring} (ha : w.Wired) (n : String) :
    n ∈ w.externals ↔ n ∈ w.ins ∧ n ∉ w.outs ∧ n ∉ w.conns.map (·.2) := by
  simp only [Wiring.externals, List.mem_dedup, List.mem_filter, List.mem_map, Bool.not_eq_true',
    List.contains_eq_mem, decide_eq_false_iff_not]
  constructor
  · rintro ⟨⟨i, hi, rfl⟩, hn⟩
    by_cases ho : i ∈ w.outs
    · rw [Wiring.src_out ho] at hn; exact absurd ho hn
    by_cases hc : i ∈ w.conns.map (·.2)
    · obtain ⟨⟨a, t⟩, hc2, rfl⟩ := List.mem_map.mp hc
      rw [Wiring.src_conn ha hc2] at hn
      exact absurd (ha.2.2.2 _ hc2).1 hn
    · rw [Wiring.src_free ho hc]
      exact ⟨hi, ho, by simpa using hc⟩
  · rintro ⟨hi, ho, hc⟩
    have hc' : n ∉ w.conns.map (·.2) := by simpa using hc
    exact ⟨⟨n, hi, Wiring.src_free ho hc'⟩, ho⟩

theorem Extends.mem_targets_fixed {n : String} (hn : n ∈ w₀.outs ++ w₀.ins) :
    n ∈ w.conns.map (·.2) ↔ n ∈ w₀.conns.map (·.2) := by
  rw [(he.conns.map _).mem_iff, List.map_append, List.mem_append]
  refine or_iff_left ?_
  rw [List.map_flatMap, List.mem_flatMap]
  rintro ⟨b, hbm, hx⟩
  obtain ⟨c, hc, e⟩ := List.mem_map.mp hx
  obtain ⟨c', hc', rfl⟩ := List.mem_map.mp hc
  have hi := List.mem_append_right p.outs (hf.targets c' hc').1
  exact bname_ne hb hbm (hf.specs _ hi) (hf.names _ hi n hn) e.symm

theorem Extends.mem_targets_bld {b : String} (hbm : b ∈ bs) {q : String × String} (hq : q ∈ p.outs ++ p.ins) :
    bname b q ∈ w.conns.map (·.2) ↔ q ∈ p.conns.map (·.2) := by
  rw [(he.conns.map _).mem_iff, List.map_append, List.mem_append, List.map_flatMap, List.mem_flatMap]
  constructor
  · rintro (h | ⟨b', hb', h⟩)
    · obtain ⟨c, hc, e⟩ := List.mem_map.mp h
      exact absurd e (bname_ne hb hbm (hf.specs q hq)
        (hf.names q hq _ (List.mem_append_right _ (hf.acc.2.2.2 c hc).2.1)))
    · obtain ⟨c, hc, e⟩ := List.mem_map.mp h
      obtain ⟨c', hc', rfl⟩ := List.mem_map.mp hc
      have hi := List.mem_append_right p.outs (hf.targets c' hc').1
      obtain ⟨-, e⟩ := bname_inj hb hb' hbm (hf.specs _ hi) (hf.specs q hq) e
      exact e ▸ List.mem_map_of_mem hc'
  · intro h
    obtain ⟨c, hc, rfl⟩ := List.mem_map.mp h
    exact Or.inr ⟨b, hbm, List.mem_map.mpr ⟨_, List.mem_map_of_mem hc, rfl⟩⟩

/-- Fixed inputs read what they read without bleeds. -/
theorem Extends.src_fixed (hn : (w.subs.map (·.name)).Nodup) {n : String} (h : n ∈ w₀.ins) :
    w.src n = w₀.src n := by
  have hm := List.mem_append_right w₀.outs h
  by_cases ho : n ∈ w₀.outs
  · rw [Wiring.src_out ho, Wiring.src_out ((he.mem_outs_fixed hb hf hm).mpr ho)]
  by_cases hc : n ∈ w₀.conns.map (·.2)
  · obtain ⟨⟨a, t⟩, hc2, rfl⟩ := List.mem_map.mp hc
    rw [Wiring.src_conn hf.acc hc2, Wiring.src_conn (he.wired hb hf hn)]
    rw [he.conns.mem_iff]
    exact List.mem_append_left _ hc2
  · rw [Wiring.src_free ho hc, Wiring.src_free]
    · rwa [he.mem_outs_fixed hb hf hm]
    · rwa [he.mem_targets_fixed hb hf hm]

/-- Inputs of a bleed that another subsystem provides. -/
theorem Extends.src_out_bld {b : String} (hbm : b ∈ bs) {q : String × String} (h : q ∈ p.outs) :
    w.src (bname b q) = bname b q :=
  Wiring.src_out ((he.mem_outs_bld hb hf hbm (List.mem_append_left _ h)).mpr h)

/-- Inputs of a bleed that are connected. -/
theorem Extends.src_conn_bld (hn : (w.subs.map (·.name)).Nodup) {b : String} (hbm : b ∈ bs)
    {c : Ref × (String × String)} (h : c ∈ p.conns) : w.src (bname b c.2) = c.1.at b := by
  refine Wiring.src_conn (he.wired hb hf hn) ?_
  rw [he.conns.mem_iff]
  exact List.mem_append_right _ (List.mem_flatMap.mpr ⟨b, hbm, List.mem_map.mpr ⟨c, h, rfl⟩⟩)

/-- Inputs of a bleed left to the outside. -/
theorem Extends.src_free_bld {b : String} (hbm : b ∈ bs) {q : String × String} (h : q ∈ p.ins)
    (ho : q ∉ p.outs) (hc : q ∉ p.conns.map (·.2)) : w.src (bname b q) = bname b q := by
  have hm := List.mem_append_right p.outs h
  refine Wiring.src_free ?_ ?_
  · rwa [he.mem_outs_bld hb hf hbm hm]
  · rwa [he.mem_targets_bld hb hf hbm hm]

/-- The inputs left to the outside. -/
theorem Extends.mem_externals (hn : (w.subs.map (·.name)).Nodup) (n : String) :
    n ∈ w.externals ↔ n ∈ w₀.externals
      ∨ ∃ b ∈ bs, ∃ q ∈ p.ins, (q ∉ p.outs ∧ q ∉ p.conns.map (·.2)) ∧ n = bname b q := by
  rw [Wiring.mem_externals (he.wired hb hf hn), Wiring.mem_externals hf.acc, he.ins]
  constructor
  · rintro ⟨h | ⟨b, hbm, q, hq, rfl⟩, ho, hc⟩
    · have hm := List.mem_append_right w₀.outs h
      left
      rw [he.mem_outs_fixed hb hf hm] at ho
      rw [he.mem_targets_fixed hb hf hm] at hc
      exact ⟨h, ho, hc⟩
    · have hm := List.mem_append_right p.outs hq
      right
      rw [he.mem_outs_bld hb hf hbm hm] at ho
      rw [he.mem_targets_bld hb hf hbm hm] at hc
      exact ⟨b, hbm, q, hq, ⟨ho, hc⟩, rfl⟩
  · rintro (⟨h, ho, hc⟩ | ⟨b, hbm, q, hq, ⟨ho, hc⟩, rfl⟩)
    · have hm := List.mem_append_right w₀.outs h
      rw [← he.mem_outs_fixed hb hf hm] at ho
      rw [← he.mem_targets_fixed hb hf hm] at hc
      exact ⟨Or.inl h, ho, hc⟩
    · have hm := List.mem_append_right p.outs hq
      rw [← he.mem_outs_bld hb hf hbm hm] at ho
      rw [← he.mem_targets_bld hb hf hbm hm] at hc
      exact ⟨Or.inr ⟨b, hbm, q, hq, rfl⟩, ho, hc⟩

end

end PyCycle.OM
