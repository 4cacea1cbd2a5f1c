import Verif.Proofs.Closed

/-! # Checking the wiring of an engine by its ports

An engine is described by its parts, each with the ports and variables it is known to have; the connections are then
checked against this description, which is finite data. -/

namespace PyCycle.OM

/-! ## Ports and variables of a part -/

/-- Ports and variables: full outlet stations, outlets without statics (bleeds), inlets, other outputs, other inputs. -/
structure Iface where
  outlets : List String := []
  bleeds : List String := []
  inlets : List String := []
  outs : List String := []
  ins : List String := []

/-- A subsystem has these ports and variables. -/
structure Iface.Of (i : Iface) (s : Sub) : Prop where
  nodup : s.outs.Nodup
  outlets : ∀ p ∈ i.outlets, ∀ v ∈ linkOutVars, p ++ ":" ++ v ∈ s.outs
  bleeds : ∀ p ∈ i.bleeds, ∀ v ∈ portVars, p ++ ":" ++ v ∈ s.outs
  inlets : ∀ p ∈ i.inlets, ∀ v ∈ linkInVars, p ++ ":" ++ v ∈ s.ins ∧ p ++ ":" ++ v ∉ s.outs
  outs : ∀ v ∈ i.outs, v ∈ s.outs
  ins : ∀ v ∈ i.ins, v ∈ s.ins ∧ v ∉ s.outs

/-- For an element. -/
theorem Iface.Of.element {i : Iface} {g : Group} {name : String} {pI pO : List Prom} (hn : g.wiring.outs.Nodup)
    (h1 : ∀ p ∈ i.outlets, ∀ v ∈ linkOutVars, p ++ ":" ++ v ∈ g.wiring.outs)
    (h2 : ∀ p ∈ i.bleeds, ∀ v ∈ portVars, p ++ ":" ++ v ∈ g.wiring.outs)
    (h3 : ∀ p ∈ i.inlets, ∀ v ∈ linkInVars, p ++ ":" ++ v ∈ g.wiring.externals)
    (h4 : ∀ v ∈ i.outs, v ∈ g.wiring.outs) (h5 : ∀ v ∈ i.ins, v ∈ g.wiring.externals) :
    i.Of (g.asSub name pI pO) :=
  ⟨hn, h1, h2, fun p hp v hv => ⟨h3 p hp v hv, mem_externals_not_out (h3 p hp v hv)⟩, h4,
    fun v hv => ⟨h5 v hv, mem_externals_not_out (h5 v hv)⟩⟩

/-- For a component. -/
theorem Iface.Of.comp {s : Sub} (hn : s.outs.Nodup) (h : ∀ v ∈ s.ins, v ∉ s.outs) :
    Iface.Of { outs := s.outs, ins := s.ins } s :=
  ⟨hn, by simp, by simp, by simp, fun _ h => h, fun v hv => ⟨hv, h v hv⟩⟩

/-! ## The description of an engine -/

structure Part where
  name : String
  promI : List Prom
  iface : Iface

structure Skel where
  parts : List Part
  links : List Link
  conns : List (String × String)

namespace Skel

def OkSrc (k : Skel) (l : Link) : Prop := ∃ p ∈ k.parts, p.name = l.src.1
  ∧ (l.src.2 ∈ p.iface.outlets ∨ (l.stat = false ∧ l.src.2 ∈ p.iface.bleeds))
def OkTgt (k : Skel) (l : Link) : Prop := Plain l.tgt.1 ∧ Plain l.tgt.2 ∧ ∃ p ∈ k.parts, p.name = l.tgt.1
  ∧ l.tgt.2 ∈ p.iface.inlets ∧ ∀ v ∈ linkInVars, promoted p.promI (l.tgt.2 ++ ":" ++ v) = none
def OkFrom (k : Skel) (n : String) : Prop := ∃ p ∈ k.parts,
  (∃ v ∈ p.iface.outs, n = p.name ++ "." ++ v)
  ∨ ∃ q ∈ p.iface.outlets, ∃ v ∈ linkOutVars, n = p.name ++ "." ++ (q ++ ":" ++ v)
def OkTo (k : Skel) (n : String) : Prop :=
  (∃ p ∈ k.parts, ∃ v ∈ p.iface.ins, promoted p.promI v = none ∧ n = p.name ++ "." ++ v)
  ∨ (Plain n ∧ ∃ p ∈ k.parts, ∃ v ∈ p.iface.ins, promoted p.promI v = some n)
  ∨ (∃ p ∈ k.parts, ∃ q ∈ p.iface.inlets, ∃ v ∈ linkInVars, promoted p.promI (q ++ ":" ++ v) = none
      ∧ n = p.name ++ "." ++ (q ++ ":" ++ v))
def Fresh (k : Skel) (n : String) : Prop := ∀ l ∈ k.links, (cut n).1 = l.tgt.1 →
  ∀ v ∈ linkInVars, v ≠ "stat:W" ∨ l.w = true → (cut n).2 ≠ l.tgt.2 ++ ":" ++ v

/-- The connections are in order. -/
structure Ok (k : Skel) : Prop where
  names : (k.parts.map (·.name)).Nodup
  plain : ∀ p ∈ k.parts, Plain p.name
  links : ∀ l ∈ k.links, k.OkSrc l ∧ k.OkTgt l
  tgts : (k.links.map Link.tgt).Nodup
  froms : ∀ x ∈ k.conns, k.OkFrom x.1
  tos : ∀ x ∈ k.conns, k.OkTo x.2
  conns : (k.conns.map (·.2)).Nodup
  fresh : ∀ x ∈ k.conns, k.Fresh x.2
  proms : ∀ p ∈ k.parts, ∀ q ∈ p.promI, ∃ v ∈ p.iface.ins, taker p.promI v = some q

/-! ### The check, on finite data -/

def okLink (k : Skel) (l : Link) : Bool :=
  (k.parts.any fun p => p.name == l.src.1 && (p.iface.outlets.contains l.src.2 || (!l.stat && p.iface.bleeds.contains l.src.2)))
  && decide (Plain l.tgt.1) && decide (Plain l.tgt.2)
  && k.parts.any fun p => p.name == l.tgt.1 && p.iface.inlets.contains l.tgt.2
      && linkInVars.all fun v => promoted p.promI (l.tgt.2 ++ ":" ++ v) == none

def okFrom (k : Skel) (n : String) : Bool := k.parts.any fun p => p.name == (cut n).1 && (
  (p.iface.outs.any fun v => n == p.name ++ "." ++ v)
  || p.iface.outlets.any fun q => linkOutVars.any fun v => n == p.name ++ "." ++ (q ++ ":" ++ v))

def okTo (k : Skel) (n : String) : Bool :=
  (k.parts.any fun p => p.name == (cut n).1 && p.iface.ins.any fun v => promoted p.promI v == none && n == p.name ++ "." ++ v)
  || (decide (Plain n) && k.parts.any fun p => p.iface.ins.any fun v => promoted p.promI v == some n)
  || (k.parts.any fun p => p.name == (cut n).1 && p.iface.inlets.any fun q => linkInVars.any fun v =>
      promoted p.promI (q ++ ":" ++ v) == none && n == p.name ++ "." ++ (q ++ ":" ++ v))

def okFresh (k : Skel) (n : String) : Bool := k.links.all fun l => !((cut n).1 == l.tgt.1)
  || linkInVars.all fun v => (v == "stat:W" && !l.w) || !((cut n).2 == l.tgt.2 ++ ":" ++ v)

def check (k : Skel) : Bool :=
  decide (k.parts.map (·.name)).Nodup && (k.parts.all fun p => decide (Plain p.name))
  && k.links.all k.okLink && decide (k.links.map Link.tgt).Nodup && (k.conns.all fun x => k.okFrom x.1)
  && (k.conns.all fun x => k.okTo x.2) && decide (k.conns.map (·.2)).Nodup && (k.conns.all fun x => k.okFresh x.2)
  && k.parts.all fun p => p.promI.all fun q => p.iface.ins.any fun v => taker p.promI v == some q

theorem ok_of_check {k : Skel} (h : k.check = true) : k.Ok := by
  simp only [check, Bool.and_eq_true, decide_eq_true_eq, List.all_eq_true] at h
  obtain ⟨⟨⟨⟨⟨⟨⟨⟨h1, h2⟩, h3⟩, h4⟩, h5⟩, h6⟩, h7⟩, h8⟩, h9⟩ := h
  refine ⟨h1, h2, fun l hl => ?_, h4, fun x hx => ?_, fun x hx => ?_, h7, fun x hx => ?_, fun p hp q hq => ?_⟩
  · have := h3 l hl
    simp only [okLink, Bool.and_eq_true, List.any_eq_true, Bool.or_eq_true, beq_iff_eq, decide_eq_true_eq,
      List.all_eq_true, List.contains_iff_mem, Bool.not_eq_true'] at this
    obtain ⟨⟨⟨⟨p, hp, e, ho⟩, t1⟩, t2⟩, q, hq, ⟨e', hi⟩, hv⟩ := this
    exact ⟨⟨p, hp, e, ho⟩, t1, t2, q, hq, e', hi, hv⟩
  · have := h5 x hx
    simp only [okFrom, Bool.and_eq_true, List.any_eq_true, Bool.or_eq_true, beq_iff_eq] at this
    obtain ⟨p, hp, -, h⟩ := this
    exact ⟨p, hp, h⟩
  · have := h6 x hx
    simp only [okTo, Bool.and_eq_true, List.any_eq_true, Bool.or_eq_true, beq_iff_eq, decide_eq_true_eq] at this
    rcases this with (⟨p, hp, -, v, hv, h, h'⟩ | h) | ⟨p, hp, -, q, hq, v, hv, h, h'⟩
    · exact Or.inl ⟨p, hp, v, hv, h, h'⟩
    · exact Or.inr (Or.inl h)
    · exact Or.inr (Or.inr ⟨p, hp, q, hq, v, hv, h, h'⟩)
  · have := h8 x hx
    simp only [okFresh, List.all_eq_true, Bool.or_eq_true, Bool.not_eq_true', beq_eq_false_iff_ne, Bool.and_eq_true,
      beq_iff_eq] at this
    intro l hl e v hv hw
    rcases this l hl with h | h
    · exact absurd e h
    · rcases h v hv with ⟨h, h'⟩ | h
      · rcases hw with hw | hw
        · exact absurd h hw
        · rw [h'] at hw; cases hw
      · exact h
  · have := h9 p hp q hq
    simpa only [List.any_eq_true, beq_iff_eq] using this

end Skel

/-! ## What a link joins -/

theorem link_pairs (l : Link) : ∀ x ∈ connectFlowCalls [l.src.1, l.src.2] [l.tgt.1, l.tgt.2] l.stat l.tot l.w,
    ∃ v v', v ∈ linkOutVars ∧ (l.stat = false → v ∈ portVars) ∧ v' ∈ linkInVars ∧ (v' ≠ "stat:W" ∨ l.w = true)
      ∧ x = (⟨[l.src.1, l.src.2], v⟩, ⟨[l.tgt.1, l.tgt.2], v'⟩) := by
  intro x hx
  simp only [connectFlowCalls, connectSame, List.mem_append, List.mem_cons, List.not_mem_nil, or_false] at hx
  have same : ∀ vs : List String, vs ⊆ linkOutVars → (l.stat = false → vs ⊆ portVars) →
      (∀ v ∈ vs, v ≠ "stat:W" ∨ l.w = true) →
      x ∈ vs.map (fun v => ((⟨[l.src.1, l.src.2], v⟩, ⟨[l.tgt.1, l.tgt.2], v⟩) : FlowVar × FlowVar)) →
      ∃ v v', v ∈ linkOutVars ∧ (l.stat = false → v ∈ portVars) ∧ v' ∈ linkInVars ∧ (v' ≠ "stat:W" ∨ l.w = true)
        ∧ x = (⟨[l.src.1, l.src.2], v⟩, ⟨[l.tgt.1, l.tgt.2], v'⟩) := by
    intro vs hvs hp hw hx
    obtain ⟨v, hv, rfl⟩ := List.mem_map.mp hx
    exact ⟨v, v, hvs hv, fun h => hp h hv, List.mem_cons_of_mem _ (hvs hv), hw v hv, rfl⟩
  rcases hx with (((rfl | rfl) | hx) | hx) | hx
  · exact ⟨_, _, by decide, fun _ => by decide, by decide, Or.inl (by decide), rfl⟩
  · exact ⟨_, _, by decide, fun _ => by decide, by decide, Or.inl (by decide), rfl⟩
  · split at hx
    · exact same _ (by decide) (fun _ => by decide) (by intro v hv; left; revert v; decide) hx
    · cases hx
  · split at hx
    · rename_i hs
      have ns : ∀ {vs : List String}, l.stat = false → vs ⊆ portVars := fun h => by rw [h] at hs; cases hs
      rcases List.mem_append.mp hx with hx | hx
      · exact same _ (by decide) ns (by intro v hv; left; revert v; decide) hx
      · exact same _ (by decide) ns (by intro v hv; left; revert v; decide) hx
    · cases hx
  · split at hx
    · rename_i hw
      exact same _ (by decide) (fun _ => by decide) (fun _ _ => Or.inr hw) hx
    · cases hx

theorem port_split {p q u v : String} (hp : Plain p) (hq : Plain q) (h : p ++ ":" ++ u = q ++ ":" ++ v) : p = q ∧ u = v := by
  rw [String.append_assoc, String.append_assoc] at h
  have hs : ∀ u : String, SepHead (":" ++ u) := fun u => by
    simp [SepHead, String.toList_append]; decide
  obtain ⟨e1, e2⟩ := plain_split hp hq (hs u) (hs v) h
  exact ⟨e1, append_right_inj e2⟩

theorem link_tgt_vars (l : Link) : ((connectFlowCalls [l.src.1, l.src.2] [l.tgt.1, l.tgt.2] l.stat l.tot l.w).map
    (·.2.var)).Nodup := by
  obtain ⟨a, b, s, t, w⟩ := l
  have h : ∀ s t w, ((connectFlowCalls [] [] s t w).map (·.2.var)).Nodup := by decide
  have e : ∀ s t w, (connectFlowCalls [a.1, a.2] [b.1, b.2] s t w).map (·.2.var) = (connectFlowCalls [] [] s t w).map (·.2.var) := by
    intro s t w; cases s <;> cases t <;> cases w <;> rfl
  rw [e]; exact h s t w

theorem Link.tgts_nodup {l : Link} (h2 : Plain l.tgt.2) (h1 : Plain l.tgt.1) : (l.conns.map (·.2)).Nodup := by
  have key : l.conns.map (·.2) = ((connectFlowCalls [l.src.1, l.src.2] [l.tgt.1, l.tgt.2] l.stat l.tot l.w).map
      (·.2.var)).map fun v => l.tgt.1 ++ "." ++ (l.tgt.2 ++ ":" ++ v) := by
    rw [Link.conns, List.map_map, List.map_map]
    refine List.map_congr_left fun x hx => ?_
    obtain ⟨v, v', -, -, -, -, rfl⟩ := link_pairs l x hx
    exact Cycle.render_pair _ _ _
  rw [key]
  refine (link_tgt_vars l).map ?_
  intro u v e
  exact (port_split h2 h2 (dot_split h1 h1 e).2).2

/-! ## The engine is accepted -/

theorem forall₂_left {α β : Type*} {R : α → β → Prop} {l : List α} {l' : List β} (h : List.Forall₂ R l l') :
    ∀ a ∈ l, ∃ b ∈ l', R a b := by
  induction h with
  | nil => intro a ha; cases ha
  | cons h _ ih =>
    intro a ha
    rcases List.mem_cons.mp ha with rfl | ha
    · exact ⟨_, List.mem_cons_self .., h⟩
    · obtain ⟨b, hb, r⟩ := ih a ha
      exact ⟨b, List.mem_cons_of_mem _ hb, r⟩

theorem forall₂_right {α β : Type*} {R : α → β → Prop} {l : List α} {l' : List β} (h : List.Forall₂ R l l') :
    ∀ b ∈ l', ∃ a ∈ l, R a b := by
  induction h with
  | nil => intro a ha; cases ha
  | cons h _ ih =>
    intro a ha
    rcases List.mem_cons.mp ha with rfl | ha
    · exact ⟨_, List.mem_cons_self .., h⟩
    · obtain ⟨b, hb, r⟩ := ih a ha
      exact ⟨b, List.mem_cons_of_mem _ hb, r⟩

/-- A subsystem is described by a part. -/
def Part.Of (p : Part) (s : Sub) : Prop := s.name = p.name ∧ s.promI = p.promI ∧ s.promO = [] ∧ p.iface.Of s

/-- A group whose description is in order is accepted. -/
theorem Group.accepted_of {g : Group} {k : Skel} (hk : k.Ok) (hg : List.Forall₂ (fun s p => Part.Of p s) g.subs k.parts)
    (hc : g.conns = k.links.flatMap Link.conns ++ k.conns) : g.wiring.Accepted := by
  have L := forall₂_left hg
  have R := forall₂_right hg
  have hnames : g.subs.map (·.name) = k.parts.map (·.name) := by
    clear L R
    generalize g.subs = l at hg
    generalize k.parts = l' at hg
    induction hg with
    | nil => rfl
    | cons h _ ih => simp only [List.map_cons, h.1, ih]
  have lt : ∀ l ∈ k.links, Plain l.tgt.1 ∧ Plain l.tgt.2 := fun l hl => ⟨(hk.links l hl).2.1, (hk.links l hl).2.2.1⟩
  have ltn : ∀ l ∈ k.links, ∀ x ∈ l.conns, ∃ v ∈ linkInVars, (v ≠ "stat:W" ∨ l.w = true)
      ∧ x.2 = l.tgt.1 ++ "." ++ (l.tgt.2 ++ ":" ++ v) := by
    intro l _ x hx
    obtain ⟨y, hy, rfl⟩ := List.mem_map.mp hx
    obtain ⟨v, v', -, -, h1, h2, rfl⟩ := link_pairs l y hy
    exact ⟨v', h1, h2, Cycle.render_pair _ _ _⟩
  refine ⟨Group.wired_of (hnames ▸ hk.names) ?_ ?_ ?_ ?_, ?_⟩
  · intro s hs
    obtain ⟨p, hp, e, -⟩ := L s hs
    rw [e]; exact hk.plain p hp
  · intro s hs
    obtain ⟨p, hp, -, -, h, i⟩ := L s hs
    exact ⟨h, i.nodup⟩
  · rw [hc, List.map_append, List.nodup_append]
    refine ⟨?_, hk.conns, ?_⟩
    · rw [List.map_flatMap, List.nodup_flatMap]
      refine ⟨fun l hl => Link.tgts_nodup (lt l hl).2 (lt l hl).1, ?_⟩
      have ht := hk.tgts
      rw [List.Nodup, List.pairwise_map] at ht
      refine ht.imp_of_mem ?_
      intro l l' hl hl' hne x hx hy
      obtain ⟨y, hy', rfl⟩ := List.mem_map.mp hx
      obtain ⟨z, hz, e⟩ := List.mem_map.mp hy
      obtain ⟨v, -, -, e1⟩ := ltn l hl y hy'
      obtain ⟨v', -, -, e2⟩ := ltn l' hl' z hz
      rw [e1, e2] at e
      obtain ⟨a1, a2⟩ := dot_split (lt l' hl').1 (lt l hl).1 e
      obtain ⟨b1, -⟩ := port_split (lt l' hl').2 (lt l hl).2 a2
      exact hne (Prod.ext a1 b1).symm
    · intro n hn m hm e
      subst e
      obtain ⟨x, hx, rfl⟩ := List.mem_map.mp hm
      obtain ⟨y, hy, e⟩ := List.mem_map.mp hn
      obtain ⟨l, hl, hy⟩ := List.mem_flatMap.mp hy
      obtain ⟨v, hv, hw, e'⟩ := ltn l hl y hy
      have hf := hk.fresh x hx l hl
      rw [← e, e', cut_dot (lt l hl).1] at hf
      exact hf rfl v hv hw rfl
  · intro x hx
    rw [hc] at hx
    rcases List.mem_append.mp hx with hx | hx
    · obtain ⟨l, hl, hx⟩ := List.mem_flatMap.mp hx
      obtain ⟨y, hy, rfl⟩ := List.mem_map.mp hx
      obtain ⟨v, v', hv, hvp, hv', -, rfl⟩ := link_pairs l y hy
      obtain ⟨⟨p, hp, e, ho⟩, -, -, q, hq, e', hi, hn⟩ := hk.links l hl
      obtain ⟨s, hs, es, -, -, is⟩ := R p hp
      obtain ⟨t, ht, et, pt, -, it⟩ := R q hq
      refine ⟨⟨s, hs, l.src.2 ++ ":" ++ v, ?_, ?_⟩, t, ht, l.tgt.2 ++ ":" ++ v', (it.inlets _ hi _ hv').1, (it.inlets _ hi _ hv').2,
        Or.inl ⟨?_, ?_⟩⟩
      · rcases ho with ho | ⟨hs', ho⟩
        · exact is.outlets _ ho _ hv
        · exact is.bleeds _ ho _ (hvp hs')
      · rw [es, e]; exact Cycle.render_pair _ _ _
      · rw [pt]; exact hn v' hv'
      · rw [et, e']; exact Cycle.render_pair _ _ _
    · refine ⟨?_, ?_⟩
      · obtain ⟨p, hp, h⟩ := hk.froms x hx
        obtain ⟨s, hs, es, -, -, is⟩ := R p hp
        rcases h with ⟨v, hv, e⟩ | ⟨q, hq, v, hv, e⟩
        · exact ⟨s, hs, v, is.outs v hv, by rw [es, e]⟩
        · exact ⟨s, hs, _, is.outlets q hq v hv, by rw [es, e]⟩
      · rcases hk.tos x hx with ⟨p, hp, v, hv, h, e⟩ | ⟨hx', p, hp, v, hv, h⟩ | ⟨p, hp, q, hq, v, hv, h, e⟩
        all_goals obtain ⟨s, hs, es, ps, -, is⟩ := R p hp
        · exact ⟨s, hs, v, (is.ins v hv).1, (is.ins v hv).2, Or.inl ⟨by rw [ps, h], by rw [es, e]⟩⟩
        · exact ⟨s, hs, v, (is.ins v hv).1, (is.ins v hv).2, Or.inr ⟨by rw [ps, h], hx'⟩⟩
        · exact ⟨s, hs, _, (is.inlets q hq v hv).1, (is.inlets q hq v hv).2, Or.inl ⟨by rw [ps, h], by rw [es, e]⟩⟩
  · intro d hd
    obtain ⟨s, hs, rfl⟩ := List.mem_map.mp hd
    obtain ⟨p, hp, -, ps, po, is⟩ := L s hs
    refine ⟨fun q hq => Or.inl ?_, fun q hq => ?_⟩
    · rw [ps] at hq
      obtain ⟨v, hv, e⟩ := hk.proms p hp q hq
      exact ⟨v, (is.ins v hv).1, by rw [ps]; exact e⟩
    · rw [po] at hq; cases hq

/-! ## Values of a solved engine -/

/-- The values an element sees under its own names. -/
def Env.of (E : Env) (m : Member) : Env := ⟨fun n => E.num (m.sub.inName n), fun n => E.vec (m.sub.inName n)⟩

namespace Cycle.Solved
variable {c : Cycle} {E : Env} (h : c.Solved E)
include h

/-- Every element is converged, with the values known in the cycle. -/
theorem member {m : Member} (hm : m ∈ c.members) (hp : m.promO = []) (hl : m.group.Closed)
    (hn : ∀ n ∈ m.group.wiring.outs, promoted m.promI n = none) : m.group.Converged (E.of m) := by
  obtain ⟨V, hV, hi, ho⟩ := h.seen hm hp
  refine hl.converged (fun n hx => ?_) hV
  rcases hx with hx | hx
  · exact hi n hx
  · have e : m.sub.inName n = m.name ++ "." ++ n := by
      simp only [Decl.inName, Member.sub, Group.asSub, hn n hx, Option.getD_none]
    simp only [Env.of, e]
    exact ho n hx

theorem member_plain {m : Member} (hm : m ∈ c.members) (hp : m.promO = []) (hi : m.promI = []) (hl : m.group.Closed) :
    m.group.Converged (E.of m) := h.member hm hp hl fun n _ => by rw [hi]; rfl

theorem member_as {m : Member} {x t : String} (hm : m ∈ c.members) (hp : m.promO = []) (hi : m.promI = [.as x t])
    (hx : x ∈ m.group.wiring.externals) (hl : m.group.Closed) : m.group.Converged (E.of m) :=
  h.member hm hp hl fun n hn => by
    have : x ≠ n := fun e => mem_externals_not_out hx (e ▸ hn)
    rw [hi]; simp [promoted, Prom.exact, Prom.fits, this]

/-- Links hand on totals and flow. -/
theorem handed {l : Link} (hl : l ∈ c.links) (ht : l.tot = true) {v : String} (hv : v ∈ portVars)
    (hw : v = "stat:W" → l.w = true) :
    E.num (l.tgt.1 ++ "." ++ (l.tgt.2 ++ ":" ++ v)) = E.num (l.src.1 ++ "." ++ (l.src.2 ++ ":" ++ v))
    ∧ E.vec (l.tgt.1 ++ "." ++ (l.tgt.2 ++ ":" ++ v)) = E.vec (l.src.1 ++ "." ++ (l.src.2 ++ ":" ++ v)) := by
  have : (⟨[l.src.1, l.src.2], v⟩, ⟨[l.tgt.1, l.tgt.2], v⟩) ∈
      connectFlowCalls [l.src.1, l.src.2] [l.tgt.1, l.tgt.2] l.stat l.tot l.w := by
    by_cases hW : v = "stat:W"
    · simp [connectFlowCalls, connectSame, hw hW, hW]
    · simp only [portVars, List.mem_cons, List.not_mem_nil, or_false] at hv
      simp only [connectFlowCalls, connectSame, ht, if_true]
      rcases hv with rfl | rfl | rfl | rfl | rfl | rfl | rfl | rfl | rfl | rfl | rfl <;> simp at hW ⊢
  have := List.mem_map_of_mem (f := fun c : FlowVar × FlowVar => (FlowVar.render c.1, FlowVar.render c.2)) this
  simp only [Cycle.render_pair] at this
  have := h.agrees _ (List.mem_append_left _ (List.mem_flatMap.mpr ⟨l, hl, this⟩))
  exact ⟨this.1.symm, this.2.symm⟩

end Cycle.Solved

/-- Converged cycles can be completed to solved ones. -/
theorem Cycle.complete {c : Cycle} (hw : c.group.wiring.Wired) (ho : ∀ s ∈ c.others, s.Local) {E : Env}
    (hc : c.group.Converged E) : ∃ E', c.Solved E'
      ∧ ∀ n ∈ c.group.wiring.outs, E'.num n = E.num n ∧ E'.vec n = E.vec n := by
  have hl : ∀ s ∈ c.group.subs, s.Local := by
    intro s hs
    rcases List.mem_append.mp hs with hs | hs
    · obtain ⟨m, -, rfl⟩ := List.mem_map.mp hs
      exact Group.asSub_local _ _ _ _
    · exact ho s hs
  obtain ⟨h1, h2, h3⟩ := Group.transfer_converged hw hl hc
  exact ⟨_, ⟨h1, h2⟩, h3⟩

end PyCycle.OM
