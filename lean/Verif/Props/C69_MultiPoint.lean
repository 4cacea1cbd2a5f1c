import Verif.Proofs.MultiKit
import Verif.Model.MPCycle

/-! # C69: multipoint problems

What a solved multipoint problem is, for any cycles as points. -/

namespace PyCycle.OM

variable {m : Multi}

/-- **C69 (interface).** A multipoint problem whose calls make sense is accepted: every connection joins an output to an
input, none is connected twice, every promotion of a cycle parameter finds an input of every point. -/
theorem C69_interface (h : m.Sound) : m.cycle.group.wiring.Accepted := h.accepted_cycle

/-- **C69 (points).** In a solved multipoint problem every point is a solved state of its own cycle. -/
theorem C69_points (h : m.Sound) {E : Env} (hE : m.cycle.Solved E) : ∀ o ∈ m.points, ∃ V, m.Flies E o V :=
  fun _ ho => h.flies hE ho

/-- **C69 (passed).** What is connected from design to off design has, at every off-design point, the value of the design
point; what a class connects between points has the same value at both ends; cycle parameters have the same value at
all points. -/
theorem C69_passed (h : m.Sound) {E : Env} (hE : m.cycle.Solved E) {V : Point → Env}
    (hV : ∀ o ∈ m.points, m.Flies E o (V o)) :
    (∀ o ∈ m.ods, ∀ c ∈ m.desOd, (V o).num c.2 = (V m.des).num c.1)
    ∧ (∀ x ∈ m.extra, ∀ o ∈ m.points, ∀ o' ∈ m.points, o.name = x.1.1 → o'.name = x.2.1 →
      (V o').num x.2.2 = (V o).num x.1.2)
    ∧ ∀ n ∈ m.params, ∀ o ∈ m.points, (V o).num n = (V m.des).num n := by
  have hd : m.des ∈ m.points := List.mem_cons_self ..
  refine ⟨fun o ho c hc => ?_, fun x hx o ho o' ho' e e' => ?_, fun n hn o ho => ?_⟩
  · exact (h.passed hE ho (hV _ hd) (hV o (List.mem_cons_of_mem _ ho)) hc).1
  · exact (h.handed hE hx ho ho' e e' (hV o ho) (hV o' ho')).1
  · exact (h.shared ho hd (hV o ho) (hV _ hd) hn).1

/-- **C69 (together).** Conversely, solved states of the points that agree where they are connected, and on the cycle
parameters, are a solved multipoint problem: it has no other solutions and no fewer. -/
theorem C69_together (h : m.Sound) (hq : ∀ n ∈ m.params, ∀ o ∈ m.points, ∀ v, n ≠ o.name ++ "." ++ v)
    (V : String → Env) (hV : ∀ o ∈ m.points, o.cycle.Solved (V o.name))
    (hd : ∀ c ∈ m.desOd, ∀ o ∈ m.ods, (V o.name).num c.2 = (V m.des.name).num c.1
      ∧ (V o.name).vec c.2 = (V m.des.name).vec c.1)
    (hx : ∀ x ∈ m.extra, (V x.2.1).num x.2.2 = (V x.1.1).num x.1.2 ∧ (V x.2.1).vec x.2.2 = (V x.1.1).vec x.1.2)
    (hp : ∀ n ∈ m.params, ∀ o ∈ m.points, (V o.name).num n = (V m.des.name).num n
      ∧ (V o.name).vec n = (V m.des.name).vec n) :
    ∃ E, m.cycle.Solved E ∧ ∀ o ∈ m.points, m.Flies E o (V o.name) := h.together hq V hV hd hx hp

/-! ## The calls of `MPCycle` -/

/-- Connections among the commands of `configure`. -/
def connectCmds {T : Type} (cmds : List (MP.Cmd T)) : List (String × String) :=
  cmds.filterMap fun
    | .connect a s b t => some (a ++ "." ++ s, b ++ "." ++ t)
    | _ => none

/-- Elements with their `default_des_od_conns`, those skipped left out. -/
def defaultElems {T : Type} (s : MP.State T) (elems : List MP.ElemConns) : List (String × List (String × String)) :=
  if s.useDefault then elems.filterMap fun e => if s.skip.skips e.name then none else e.conns.map fun cs => (e.name, cs)
  else []

theorem connectCmds_append {T : Type} (a b : List (MP.Cmd T)) : connectCmds (a ++ b) = connectCmds a ++ connectCmds b := by
  simp [connectCmds, List.filterMap_append]

/-- **C69 (configure).** For every history of calls: what `configure` connects is what the model of the multipoint
problem connects, and what it promotes are the cycle parameters, from every point. -/
theorem C69_configure {T : Type} (calls : List (MP.Op T)) (elems : List MP.ElemConns) (m : Multi)
    (hd : (MP.run calls).desPnt = some m.des.name) (ho : (MP.run calls).odPnts = m.ods.map (·.name))
    (hp : (MP.run calls).cycleParams.map (·.1) = m.params)
    (hc : m.desOd = desOdConns (MP.run calls).desOd (defaultElems (MP.run calls) elems)) :
    ∃ cmds, MP.configure (MP.run calls) elems = some cmds ∧ connectCmds cmds = m.passes
      ∧ ∀ pnt n, MP.Cmd.promotes pnt n ∈ cmds ↔ pnt ∈ m.points.map (·.name) ∧ n ∈ m.params := by
  generalize MP.run calls = s at *
  refine ⟨_, by simp only [MP.configure, hd]; rfl, ?_, ?_⟩
  · have h1 : connectCmds (MP.paramCmds s m.des.name) = [] := by
      simp [connectCmds, MP.paramCmds, List.filterMap_eq_nil_iff]
      rintro a x y h (rfl | rfl | ⟨z, -, rfl⟩) <;> rfl
    have h2 : connectCmds (MP.pairCmds s m.des.name)
        = s.desOd.flatMap fun c => m.ods.map fun o => (m.des.name ++ "." ++ c.1, o.name ++ "." ++ c.2) := by
      simp only [connectCmds, MP.pairCmds, ho, List.filterMap_flatMap, List.map_map, List.filterMap_map]
      congr 1; funext c
      exact List.filterMap_eq_map (f := fun o : Point => (m.des.name ++ "." ++ c.1, o.name ++ "." ++ c.2)) ▸ rfl
    rw [connectCmds_append, connectCmds_append, h1, h2, Multi.passes, hc, desOdConns, List.flatMap_append, List.nil_append]
    congr 1
    cases hu : s.useDefault with
    | false => simp [defaultElems, hu, connectCmds]
    | true =>
      simp only [defaultElems, hu, if_true]
      clear hc h1 h2
      have one : ∀ (x : String) (cs : List (String × String)),
          connectCmds (T := T) (cs.flatMap fun st => s.odPnts.map fun q =>
            .connect m.des.name (x ++ "." ++ st.1) q (x ++ "." ++ st.2))
          = (cs.map fun c => (x ++ "." ++ c.1, x ++ "." ++ c.2)).flatMap fun c =>
            m.ods.map fun o => (m.des.name ++ "." ++ c.1, o.name ++ "." ++ c.2) := by
        intro x cs
        simp only [connectCmds, ho, List.filterMap_flatMap, List.map_map, List.filterMap_map, List.flatMap_map]
        congr 1; funext c
        exact List.filterMap_eq_map (f := fun o : Point => (m.des.name ++ "." ++ (x ++ "." ++ c.1),
          o.name ++ "." ++ (x ++ "." ++ c.2))) ▸ rfl
      induction elems with
      | nil => simp [connectCmds, MP.defaultCmds]
      | cons e es ih =>
        have hd' : MP.defaultCmds s m.des.name (e :: es)
            = MP.defaultCmds s m.des.name [e] ++ MP.defaultCmds s m.des.name es := by
          simp [MP.defaultCmds]
        rw [hd', connectCmds_append, ih, List.filterMap_cons]
        by_cases hk : s.skip.skips e.name = true
        · simp [MP.defaultCmds, hk, connectCmds]
        · cases hcs : e.conns with
          | none => simp [MP.defaultCmds, hk, hcs, connectCmds]
          | some cs =>
            have := one e.name cs
            simp only [MP.defaultCmds, List.flatMap_cons, List.flatMap_nil, List.append_nil, hk, hcs, if_false,
              Option.map_some, Bool.false_eq_true, List.flatMap_append]
            rw [this]
  · intro pnt n
    have hdef : MP.Cmd.promotes pnt n ∉ (if s.useDefault then MP.defaultCmds s m.des.name elems else []) := by
      split_ifs with hu
      · simp only [MP.defaultCmds, List.mem_flatMap, not_exists, not_and]
        intro e _
        split_ifs
        · simp
        · cases e.conns <;> simp
      · simp
    have hpair : MP.Cmd.promotes pnt n ∉ MP.pairCmds s m.des.name := by simp [MP.pairCmds]
    rw [List.mem_append, List.mem_append, or_iff_left hdef, or_iff_left hpair, ← hp]
    simp only [MP.paramCmds, ho, Multi.points, List.mem_flatMap, List.mem_append, List.mem_cons, List.mem_map,
      List.not_mem_nil, or_false, reduceCtorEq, false_or, MP.Cmd.promotes.injEq, List.map_cons]
    constructor
    · rintro ⟨pv, hpv, ⟨rfl, rfl⟩ | ⟨o, ⟨q, hq, rfl⟩, rfl, rfl⟩⟩
      · exact ⟨Or.inl rfl, pv, hpv, rfl⟩
      · exact ⟨Or.inr ⟨q, hq, rfl⟩, pv, hpv, rfl⟩
    · rintro ⟨rfl | ⟨q, hq, rfl⟩, pv, hpv, rfl⟩
      · exact ⟨pv, hpv, Or.inl ⟨rfl, rfl⟩⟩
      · exact ⟨pv, hpv, Or.inr ⟨q.name, ⟨q, hq, rfl⟩, rfl, rfl⟩⟩

end PyCycle.OM
