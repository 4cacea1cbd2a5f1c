import Verif.Proofs.CycleLemmas
import Verif.Proofs.BleedNamesLemmas

/-! # When the connections of a cycle are in order -/

namespace PyCycle.OM

/-- An output of a subsystem, by its path. -/
def Group.HasOut (g : Group) (n : String) : Prop := ∃ s ∈ g.subs, ∃ v ∈ s.outs, n = s.name ++ "." ++ v

/-- An input that no output of the same subsystem supplies, by its path or promoted to a plain name. -/
def Group.HasIn (g : Group) (n : String) : Prop := ∃ s ∈ g.subs, ∃ v ∈ s.ins, v ∉ s.outs
  ∧ ((promoted s.promI v = none ∧ n = s.name ++ "." ++ v) ∨ (promoted s.promI v = some n ∧ Plain n))

theorem dot_split {a b u v : String} (ha : Plain a) (hb : Plain b) (h : a ++ "." ++ u = b ++ "." ++ v) :
    a = b ∧ u = v := by
  rw [String.append_assoc, String.append_assoc] at h
  have hs : ∀ u : String, SepHead ("." ++ u) := fun u => by
    simp [SepHead, String.toList_append]; decide
  obtain ⟨e1, e2⟩ := plain_split ha hb (hs u) (hs v) h
  exact ⟨e1, append_right_inj e2⟩

theorem outName_plain {s : Decl} (h : s.promO = []) (v : String) : s.outName v = s.name ++ "." ++ v := by
  simp [Decl.outName, promoted, h]

/-- A group without promoted outputs, with distinct plain names of subsystems, is wired if its connections go from
outputs to inputs, at most one to each. -/
theorem Group.wired_of {g : Group} (hn : (g.subs.map (·.name)).Nodup) (hp : ∀ s ∈ g.subs, Plain s.name)
    (ho : ∀ s ∈ g.subs, s.promO = [] ∧ s.outs.Nodup) (ht : (g.conns.map (·.2)).Nodup)
    (he : ∀ x ∈ g.conns, g.HasOut x.1 ∧ g.HasIn x.2) : g.wiring.Wired := by
  have mem_outs : ∀ n, n ∈ g.wiring.outs ↔ g.HasOut n := by
    intro n
    simp only [Wiring.outs, Group.wiring, List.mem_flatMap, List.mem_map, Group.HasOut]
    constructor
    · rintro ⟨_, ⟨s, hs, rfl⟩, v, hv, rfl⟩
      exact ⟨s, hs, v, hv, outName_plain (ho s hs).1 v⟩
    · rintro ⟨s, hs, v, hv, rfl⟩
      exact ⟨_, ⟨s, hs, rfl⟩, v, hv, outName_plain (ho s hs).1 v⟩
  have inj : ∀ s ∈ g.subs, ∀ t ∈ g.subs, s.name = t.name → s = t := fun s hs t ht e =>
    List.inj_on_of_nodup_map hn hs ht e
  refine ⟨?_, ?_, ht, ?_⟩
  · simpa [Group.wiring, List.map_map, Function.comp_def] using hn
  · rw [Wiring.outs, Group.wiring, List.flatMap_map, List.nodup_flatMap]
    refine ⟨fun s hs => ?_, ?_⟩
    · refine (ho s hs).2.map_on ?_
      intro u _ v _ e
      rw [outName_plain (ho s hs).1, outName_plain (ho s hs).1] at e
      exact (dot_split (hp s hs) (hp s hs) e).2
    · refine (List.pairwise_iff_forall_sublist.mpr ?_)
      intro s t hst x hx hy
      have hm : s ∈ g.subs ∧ t ∈ g.subs := ⟨hst.subset (by simp), hst.subset (by simp)⟩
      obtain ⟨u, -, rfl⟩ := List.mem_map.mp hx
      obtain ⟨v, -, e⟩ := List.mem_map.mp hy
      rw [outName_plain (ho s hm.1).1, outName_plain (ho t hm.2).1] at e
      have hne : s.name ≠ t.name := by
        have := (hst.map (·.name)).nodup hn
        simpa using this
      exact hne (dot_split (hp t hm.2) (hp s hm.1) e).1.symm
  · intro x hx
    obtain ⟨h1, s, hs, v, hv, hvo, hi⟩ := he x hx
    refine ⟨(mem_outs _).mpr h1, ?_, ?_⟩
    · simp only [Wiring.ins, Group.wiring, List.mem_flatMap, List.mem_map]
      refine ⟨_, ⟨s, hs, rfl⟩, v, hv, ?_⟩
      rcases hi with ⟨k, e⟩ | ⟨k, -⟩
      · simp [Decl.inName, k, e]
      · simp [Decl.inName, k]
    · rw [mem_outs]
      rintro ⟨t, ht', u, hu, e⟩
      rcases hi with ⟨-, e'⟩ | ⟨-, k⟩
      · rw [e'] at e
        obtain ⟨e1, rfl⟩ := dot_split (hp s hs) (hp t ht') e
        have := inj s hs t ht' e1
        subst this
        exact hvo hu
      · have : '.' ∈ x.2.toList := by rw [e]; simp [String.toList_append]
        have := k _ this
        simp [isSep] at this

/-- What a link takes from the outlet and gives to the inlet. -/
def linkOutVars : List String :=
  ["tot:composition", "tot:h", "tot:T", "tot:P", "tot:S", "tot:rho", "tot:gamma", "tot:Cp", "tot:Cv", "tot:R",
   "stat:V", "stat:Vsonic", "stat:Cp", "stat:Cv", "stat:MN", "stat:P", "stat:S", "stat:T", "stat:area", "stat:gamma",
   "stat:h", "stat:rho", "stat:W"]
def linkInVars : List String := "stat:composition" :: linkOutVars

theorem mem_externals_not_out {w : Wiring} {n : String} (h : n ∈ w.externals) : n ∉ w.outs := by
  simp only [Wiring.externals, List.mem_dedup, List.mem_filter] at h
  simpa using h.2

theorem Link.ends {c : Cycle} {l : Link} {m m' : Member} (hm : m ∈ c.members) (hm' : m' ∈ c.members)
    (e : m.name = l.src.1) (e' : m'.name = l.tgt.1)
    (ho : ∀ v ∈ linkOutVars, l.src.2 ++ ":" ++ v ∈ m.group.wiring.outs)
    (hi : ∀ v ∈ linkInVars, l.tgt.2 ++ ":" ++ v ∈ m'.group.wiring.externals)
    (hp : ∀ v ∈ linkInVars, promoted m'.promI (l.tgt.2 ++ ":" ++ v) = none) :
    ∀ x ∈ l.conns, c.group.HasOut x.1 ∧ c.group.HasIn x.2 := by
  have key : ∀ x ∈ connectFlowCalls [l.src.1, l.src.2] [l.tgt.1, l.tgt.2] l.stat l.tot l.w,
      ∃ v ∈ linkOutVars, ∃ v' ∈ linkInVars, x = (⟨[l.src.1, l.src.2], v⟩, ⟨[l.tgt.1, l.tgt.2], v'⟩) := by
    intro x hx
    simp only [connectFlowCalls, connectSame, List.mem_append, List.mem_cons, List.not_mem_nil, or_false] at hx
    have same : ∀ vs : List String, vs ⊆ linkOutVars →
        x ∈ vs.map (fun v => ((⟨[l.src.1, l.src.2], v⟩, ⟨[l.tgt.1, l.tgt.2], v⟩) : FlowVar × FlowVar)) →
        ∃ v ∈ linkOutVars, ∃ v' ∈ linkInVars, x = (⟨[l.src.1, l.src.2], v⟩, ⟨[l.tgt.1, l.tgt.2], v'⟩) := by
      intro vs hvs hx
      obtain ⟨v, hv, rfl⟩ := List.mem_map.mp hx
      exact ⟨v, hvs hv, v, List.mem_cons_of_mem _ (hvs hv), rfl⟩
    rcases hx with (((rfl | rfl) | hx) | hx) | hx
    · exact ⟨_, by decide, _, by decide, rfl⟩
    · exact ⟨_, by decide, _, by decide, rfl⟩
    · split at hx
      · exact same _ (by decide) hx
      · cases hx
    · split at hx
      · rcases List.mem_append.mp hx with hx | hx
        · exact same _ (by decide) hx
        · exact same _ (by decide) hx
      · cases hx
    · split at hx
      · exact same _ (by decide) hx
      · cases hx
  intro x hx
  obtain ⟨y, hy, rfl⟩ := List.mem_map.mp hx
  obtain ⟨v, hv, v', hv', rfl⟩ := key y hy
  have hs : m.sub ∈ c.group.subs := List.mem_append_left _ (List.mem_map_of_mem hm)
  have hs' : m'.sub ∈ c.group.subs := List.mem_append_left _ (List.mem_map_of_mem hm')
  refine ⟨⟨m.sub, hs, _, ho v hv, ?_⟩, ⟨m'.sub, hs', _, hi v' hv', mem_externals_not_out (hi v' hv'), Or.inl ⟨hp v' hv', ?_⟩⟩⟩
  · simp only [Cycle.render_pair, Member.sub, Group.asSub, e]
  · simp only [Cycle.render_pair, Member.sub, Group.asSub, e']

/-- An element's outputs at a port, and its inputs at a port, that links use. -/
def Member.Outlet (m : Member) (p : String) : Prop := ∀ v ∈ linkOutVars, p ++ ":" ++ v ∈ m.group.wiring.outs
def Member.Inlet (m : Member) (p : String) : Prop := ∀ v ∈ linkInVars, p ++ ":" ++ v ∈ m.group.wiring.externals
  ∧ promoted m.promI (p ++ ":" ++ v) = none

/-- A cycle is wired if its links go from outlets to inlets of elements, its other connections from outputs to inputs,
and no input is connected twice. -/
theorem Cycle.wired_of {c : Cycle} (hn : (c.group.subs.map (·.name)).Nodup) (hp : ∀ s ∈ c.group.subs, Plain s.name)
    (hm : ∀ m ∈ c.members, m.promO = [] ∧ m.group.wiring.outs.Nodup) (ho : ∀ s ∈ c.others, s.promO = [] ∧ s.outs.Nodup)
    (ht : (c.group.conns.map (·.2)).Nodup)
    (hl : ∀ l ∈ c.links, ∃ m ∈ c.members, ∃ m' ∈ c.members, m.name = l.src.1 ∧ m'.name = l.tgt.1
      ∧ m.Outlet l.src.2 ∧ m'.Inlet l.tgt.2)
    (hc : ∀ x ∈ c.conns, c.group.HasOut x.1 ∧ c.group.HasIn x.2) : c.group.wiring.Wired := by
  refine Group.wired_of hn hp ?_ ht ?_
  · intro s hs
    rcases List.mem_append.mp hs with h | h
    · obtain ⟨m, hmm, rfl⟩ := List.mem_map.mp h
      exact hm m hmm
    · exact ho s h
  · intro x hx
    rcases List.mem_append.mp hx with h | h
    · obtain ⟨l, hlm, hx⟩ := List.mem_flatMap.mp h
      obtain ⟨m, h1, m', h2, e, e', h3, h4⟩ := hl l hlm
      exact Link.ends h1 h2 e e' h3 (fun v hv => (h4 v hv).1) (fun v hv => (h4 v hv).2) x hx
    · exact hc x h

end PyCycle.OM
