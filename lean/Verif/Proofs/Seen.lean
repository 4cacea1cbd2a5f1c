import Verif.Proofs.Glue

/-! # Values of a solved cycle -/

namespace PyCycle.OM

theorem Group.src_src {g : Group} (hw : g.wiring.Wired) (n : String) :
    g.wiring.src (g.wiring.src n) = g.wiring.src n := by
  by_cases ho : n ∈ g.wiring.outs
  · rw [Wiring.src_out ho, Wiring.src_out ho]
  · by_cases hc : n ∈ g.wiring.conns.map (·.2)
    · obtain ⟨x, hx, rfl⟩ := List.mem_map.mp hc
      have e : g.wiring.src x.2 = x.1 := Wiring.src_conn hw (a := x.1) (by simpa [Group.wiring] using hx)
      rw [e]
      exact Wiring.src_out (hw.2.2.2 x hx).1
    · rw [Wiring.src_free ho hc, Wiring.src_free ho hc]

theorem Group.asSub_local (g : Group) (name : String) (promI promO : List Prom) : (g.asSub name promI promO).Local := by
  rintro i i' o o' hi ho ⟨V, h1, h2, h3⟩
  exact ⟨V, h1, fun n hn => ⟨(h2 n hn).1.trans (hi n hn).1, (h2 n hn).2.trans (hi n hn).2⟩,
    fun n hn => ⟨(ho n hn).1.symm.trans (h3 n hn).1, (ho n hn).2.symm.trans (h3 n hn).2⟩⟩

/-- A converged state completed this way is converged, agrees, and has the same outputs. -/
theorem Group.transfer_converged {g : Group} (hw : g.wiring.Wired) (hl : ∀ s ∈ g.subs, s.Local) {E : Env}
    (hc : g.Converged E) : g.Converged (g.transfer E) ∧ g.Agrees (g.transfer E)
    ∧ ∀ n ∈ g.wiring.outs, (g.transfer E).num n = E.num n ∧ (g.transfer E).vec n = E.vec n := by
  have hout : ∀ n ∈ g.wiring.outs, (g.transfer E).num n = E.num n ∧ (g.transfer E).vec n = E.vec n := by
    intro n hn
    simp only [Group.transfer, Wiring.src_out hn, and_self]
  refine ⟨?_, ?_, hout⟩
  · intro s hs
    have e1 : g.wiring.reads (g.transfer E) s.toDecl = g.wiring.reads E s.toDecl := by
      simp only [Wiring.reads, Group.transfer, Group.src_src hw]
    rw [e1]
    refine hl s hs _ _ _ _ (fun v _ => ⟨rfl, rfl⟩) (fun v hv => ?_) (hc s hs)
    have : s.outName v ∈ g.wiring.outs := by
      simp only [Wiring.outs, Group.wiring, List.mem_flatMap, List.mem_map]
      exact ⟨_, ⟨s, hs, rfl⟩, v, hv, rfl⟩
    exact ⟨(hout _ this).1.symm, (hout _ this).2.symm⟩
  · intro x hx
    have e : g.wiring.src x.2 = x.1 := Wiring.src_conn hw (a := x.1) (by simpa [Group.wiring] using hx)
    have e' : g.wiring.src x.1 = x.1 := Wiring.src_out (hw.2.2.2 x hx).1
    simp only [Group.transfer, e, e', and_self]

namespace Cycle.Solved
variable {c : Cycle} {E : Env} (h : c.Solved E)
include h

/-- An element is converged, with the values known under `element.variable`, or under the promoted name. -/
theorem seen {m : Member} (hm : m ∈ c.members) (hp : m.promO = []) : ∃ V, m.group.Converged V
    ∧ (∀ n ∈ m.group.wiring.externals, V.num n = E.num (m.sub.inName n) ∧ V.vec n = E.vec (m.sub.inName n))
    ∧ ∀ n ∈ m.group.wiring.outs, V.num n = E.num (m.name ++ "." ++ n) ∧ V.vec n = E.vec (m.name ++ "." ++ n) := by
  obtain ⟨V, h1, h2, h3⟩ := h.converged m.sub (List.mem_append_left _ (List.mem_map_of_mem hm))
  refine ⟨V, h1, fun n hn => ?_, fun n hn => ?_⟩
  · have := h2 n hn
    simpa only [Wiring.reads, (h.agrees.src _).1, (h.agrees.src _).2] using this
  · have := h3 n hn
    have e : m.sub.outName n = m.name ++ "." ++ n := outName_plain (s := m.sub.toDecl) hp n
    simp only [writes, e] at this
    exact ⟨this.1.symm, this.2.symm⟩

/-- What an element sees. -/
theorem view_eq {m : Member} (hp : m.promO = []) {n : String}
    (hn : n ∈ m.group.wiring.outs ∨ promoted m.promI n = none) :
    (c.view E m).num n = E.num (m.name ++ "." ++ n) ∧ (c.view E m).vec n = E.vec (m.name ++ "." ++ n) := by
  by_cases ho : n ∈ m.group.wiring.outs
  · have e : m.sub.outName n = m.name ++ "." ++ n := outName_plain (s := m.sub.toDecl) hp n
    simp only [Cycle.view, ho, if_true, e, and_self]
  · have e : m.sub.inName n = m.name ++ "." ++ n := by
      simp [Decl.inName, Member.sub, Group.asSub, hn.resolve_left ho]
    simp only [Cycle.view, ho, if_false, (h.agrees.src _).1, (h.agrees.src _).2, e, and_self]

/-- A component satisfies its equations, with these values. -/
theorem other {s : Sub} (hs : s ∈ c.others) : s.eqn ⟨fun v => E.num (s.inName v), fun v => E.vec (s.inName v)⟩
    ⟨fun v => E.num (s.outName v), fun v => E.vec (s.outName v)⟩ := by
  have := h.converged s (List.mem_append_right _ hs)
  simpa only [Wiring.reads, writes, (h.agrees.src _).1, (h.agrees.src _).2] using this

/-- A connection. -/
theorem conn {a b : String} (hx : (a, b) ∈ c.conns) : E.num a = E.num b ∧ E.vec a = E.vec b :=
  h.agrees (a, b) (List.mem_append_right _ hx)

end Cycle.Solved

theorem Link.mem_conns (l : Link) {v : String} (hv : v ∈ linkOutVars) (hw : v = "stat:W" → l.w = true)
    (ht : l.tot = true) (hs : l.stat = true) :
    (l.src.1 ++ "." ++ (l.src.2 ++ ":" ++ v), l.tgt.1 ++ "." ++ (l.tgt.2 ++ ":" ++ v)) ∈ l.conns := by
  have : (⟨[l.src.1, l.src.2], v⟩, ⟨[l.tgt.1, l.tgt.2], v⟩) ∈
      connectFlowCalls [l.src.1, l.src.2] [l.tgt.1, l.tgt.2] l.stat l.tot l.w := by
    by_cases hW : v = "stat:W"
    · simp [connectFlowCalls, connectSame, hw hW, hW]
    · simp only [linkOutVars, List.mem_cons, List.not_mem_nil, or_false] at hv
      simp only [connectFlowCalls, connectSame, ht, hs, if_true]
      rcases hv with rfl | rfl | rfl | rfl | rfl | rfl | rfl | rfl | rfl | rfl | rfl | rfl | rfl | rfl | rfl | rfl | rfl
        | rfl | rfl | rfl | rfl | rfl | rfl <;> simp at hW ⊢
  have := List.mem_map_of_mem (f := fun c : FlowVar × FlowVar => (FlowVar.render c.1, FlowVar.render c.2)) this
  simp only [Cycle.render_pair] at this
  exact this

/-- A full link carries the values of the outlet to the inlet. -/
theorem Cycle.Solved.link {c : Cycle} {E : Env} (h : c.Solved E) {l : Link} (hl : l ∈ c.links) {v : String}
    (hv : v ∈ linkOutVars) (hw : v = "stat:W" → l.w = true) (ht : l.tot = true) (hs : l.stat = true) :
    E.num (l.src.1 ++ "." ++ (l.src.2 ++ ":" ++ v)) = E.num (l.tgt.1 ++ "." ++ (l.tgt.2 ++ ":" ++ v))
    ∧ E.vec (l.src.1 ++ "." ++ (l.src.2 ++ ":" ++ v)) = E.vec (l.tgt.1 ++ "." ++ (l.tgt.2 ++ ":" ++ v)) :=
  h.agrees _ (List.mem_append_left _ (List.mem_flatMap.mpr ⟨l, hl, l.mem_conns hv hw ht hs⟩))

end PyCycle.OM
