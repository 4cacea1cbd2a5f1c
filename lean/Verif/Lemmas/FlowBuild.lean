import Verif.Lemmas.FlowGraph
import Verif.Spec.FlowNetwork
import Mathlib.Data.Finite.Defs
import Mathlib.Order.WellFounded
import Mathlib.Order.Preorder.Finite
import Mathlib.Data.Fintype.Basic
import Mathlib.Data.Fintype.EquivFin
import Mathlib.Data.Finset.Union

/-! The graph built by a sequence of `Cycle` calls. -/

namespace PyCycle
open Spec
variable {D : Type}

theorem buildCycle_append (ops : List CycleOp) (op : CycleOp) :
    buildCycle (ops ++ [op]) = (buildCycle ops).apply op := by
  simp [buildCycle]

@[simp] theorem touch_edges (G : Graph) (v) : (G.touch v).edges = G.edges := by
  unfold Graph.touch; split <;> rfl
@[simp] theorem touch_attr (G : Graph) (v) : (G.touch v).attr = G.attr := by
  unfold Graph.touch; split <;> rfl
@[simp] theorem mem_touch_nodes (G : Graph) (v u) : u ∈ (G.touch v).nodes ↔ u ∈ G.nodes ∨ u = v := by
  unfold Graph.touch; split
  · rename_i h
    constructor
    · exact Or.inl
    · rintro (h' | rfl) <;> assumption
  · simp
@[simp] theorem addNode_edges (G : Graph) (v f) : (G.addNode v f).edges = G.edges := by
  simp [Graph.addNode]
@[simp] theorem mem_addNode_nodes (G : Graph) (v f u) :
    u ∈ (G.addNode v f).nodes ↔ u ∈ G.nodes ∨ u = v := by
  simp [Graph.addNode]
theorem addNode_attr (G : Graph) (v f u) :
    (G.addNode v f).attr u = if u = v then f (G.attr v) else G.attr u := by
  simp [Graph.addNode]
@[simp] theorem mem_addEdge_edges (G : Graph) (u v e) :
    e ∈ (G.addEdge u v).edges ↔ e ∈ G.edges ∨ e = (u, v) := by
  unfold Graph.addEdge
  simp only [touch_edges]
  split
  · rename_i h
    simp only [touch_edges]
    constructor
    · exact Or.inl
    · rintro (h' | rfl) <;> assumption
  · simp
@[simp] theorem mem_addEdge_nodes (G : Graph) (u v x) :
    x ∈ (G.addEdge u v).nodes ↔ x ∈ G.nodes ∨ x = u ∨ x = v := by
  unfold Graph.addEdge
  simp only [touch_edges]
  split <;> simp [or_assoc]
@[simp] theorem addEdge_attr (G : Graph) (u v) : (G.addEdge u v).attr = G.attr := by
  unfold Graph.addEdge
  simp only [touch_edges]
  split <;> simp

theorem mem_build_elems (ops : List CycleOp) (n : String) :
    n ∈ (buildCycle ops).elems ↔ IsElement ops n := by
  induction ops using List.reverseRecOn with
  | nil => simp [buildCycle, IsElement]
  | append_singleton ops op ih =>
    rw [buildCycle_append]
    unfold IsElement at *
    cases op with
    | addSubsystem m b => cases b <;> simp [CycleState.apply, ih]
    | connectFlow s t => simp [CycleState.apply, ih]

theorem mem_build_edges (ops : List CycleOp) (u v : Key) :
    (u, v) ∈ (buildCycle ops).graph.edges ↔
      ∃ s t, CycleOp.connectFlow s t ∈ ops ∧
        ((u = [elementName s] ∧ v = s) ∨ (u = s ∧ v = t) ∨ (u = t ∧ v = [elementName t])) := by
  induction ops using List.reverseRecOn with
  | nil => simp [buildCycle]
  | append_singleton ops op ih =>
    rw [buildCycle_append]
    cases op with
    | addSubsystem m b => cases b <;> simp [CycleState.apply, ih]
    | connectFlow s t =>
      simp only [CycleState.apply, mem_addEdge_edges, addNode_edges, ih, Prod.mk.injEq,
        List.mem_append, List.mem_singleton, CycleOp.connectFlow.injEq]
      constructor
      · rintro (((⟨s', t', h, h'⟩ | h) | h) | h)
        · exact ⟨s', t', Or.inl h, h'⟩
        · exact ⟨s, t, Or.inr ⟨rfl, rfl⟩, Or.inl h⟩
        · exact ⟨s, t, Or.inr ⟨rfl, rfl⟩, Or.inr (Or.inl h)⟩
        · exact ⟨s, t, Or.inr ⟨rfl, rfl⟩, Or.inr (Or.inr h)⟩
      · rintro ⟨s', t', h | ⟨rfl, rfl⟩, h'⟩
        · exact Or.inl (Or.inl (Or.inl ⟨s', t', h, h'⟩))
        · rcases h' with h | h | h
          · exact Or.inl (Or.inl (Or.inr h))
          · exact Or.inl (Or.inr h)
          · exact Or.inr h

theorem mem_build_nodes (ops : List CycleOp) (v : Key) :
    v ∈ (buildCycle ops).graph.nodes ↔
      (∃ n, IsElement ops n ∧ v = [n]) ∨
      ∃ s t, CycleOp.connectFlow s t ∈ ops ∧
        (v = [elementName s] ∨ v = s ∨ v = t ∨ v = [elementName t]) := by
  induction ops using List.reverseRecOn with
  | nil => simp [buildCycle, IsElement]
  | append_singleton ops op ih =>
    rw [buildCycle_append]
    unfold IsElement at *
    cases op with
    | addSubsystem m b =>
      cases b
      · simp [CycleState.apply, ih]
      · simp only [CycleState.apply, mem_addNode_nodes, ih, List.mem_append, List.mem_singleton,
          CycleOp.addSubsystem.injEq, and_true, reduceCtorEq, or_false]
        constructor
        · rintro ((⟨n, h, rfl⟩ | h) | rfl)
          · exact Or.inl ⟨n, Or.inl h, rfl⟩
          · exact Or.inr h
          · exact Or.inl ⟨m, Or.inr rfl, rfl⟩
        · rintro (⟨n, h | rfl, rfl⟩ | h)
          · exact Or.inl (Or.inl ⟨n, h, rfl⟩)
          · exact Or.inr rfl
          · exact Or.inl (Or.inr h)
    | connectFlow s t =>
      simp only [CycleState.apply, mem_addEdge_nodes, mem_addNode_nodes, ih, List.mem_append,
        List.mem_singleton, CycleOp.connectFlow.injEq, reduceCtorEq, or_false]
      constructor
      · rintro ((((((h | ⟨s', t', h, h'⟩) | h) | h) | h | h) | h | h) | h | h)
        · exact Or.inl h
        · exact Or.inr ⟨s', t', Or.inl h, h'⟩
        all_goals exact Or.inr ⟨s, t, Or.inr ⟨rfl, rfl⟩, by tauto⟩
      · rintro (h | ⟨s', t', h | ⟨rfl, rfl⟩, h'⟩)
        · exact Or.inl (Or.inl (Or.inl (Or.inl (Or.inl (Or.inl h)))))
        · exact Or.inl (Or.inl (Or.inl (Or.inl (Or.inl (Or.inr ⟨s', t', h, h'⟩)))))
        · rcases h' with h | h | h | h
          · exact Or.inl (Or.inl (Or.inr (Or.inl h)))
          · exact Or.inl (Or.inr (Or.inl h))
          · exact Or.inr (Or.inl h)
          · exact Or.inr (Or.inr h)

theorem build_closed (ops : List CycleOp) : (buildCycle ops).graph.Closed := by
  intro u v h
  obtain ⟨s, t, hc, h⟩ := (mem_build_edges ops u v).1 h
  constructor <;> refine (mem_build_nodes ops _).2 (Or.inr ⟨s, t, hc, ?_⟩) <;> tauto

@[simp] theorem elementName_pair (a p : String) : elementName [a, p] = a := by
  simp [elementName, String.join]
@[simp] theorem portName_pair (a p : String) : portName [a, p] = p := by
  simp [portName]

/-- Attributes of the nodes of a well-formed network. -/
structure AttrOK (ops : List CycleOp) (G : Graph) : Prop where
  elem : ∀ n, IsElement ops n → (G.attr [n]).kind = some .element
  elemOnly : ∀ n, ¬ IsElement ops n → (G.attr [n]).kind = none
  src : ∀ s t, CycleOp.connectFlow s t ∈ ops →
    G.attr s = ⟨some .outPort, some [elementName s], some (portName s)⟩
  tgt : ∀ s t, CycleOp.connectFlow s t ∈ ops →
    G.attr t = ⟨some .inPort, some [elementName t], some (portName t)⟩

theorem build_attr (ops : List CycleOp) (h1 : OneLevel ops) (h2 : NoDualUse ops) :
    AttrOK ops (buildCycle ops).graph := by
  induction ops using List.reverseRecOn with
  | nil => constructor <;> simp [buildCycle, IsElement]
  | append_singleton ops op ih =>
    have ih := ih (fun s t h => h1 s t (List.mem_append_left _ h))
      (fun s t s' t' h h' => h2 s t s' t' (List.mem_append_left _ h) (List.mem_append_left _ h'))
    rw [buildCycle_append]
    cases op with
    | addSubsystem m b =>
      cases b
      · constructor
        · intro n h; simp [IsElement] at h; exact ih.elem n h
        · intro n h; simp [IsElement] at h; exact ih.elemOnly n h
        · intro s t h; simp at h; exact ih.src s t h
        · intro s t h; simp at h; exact ih.tgt s t h
      · constructor
        · intro n h
          simp only [CycleState.apply, addNode_attr]
          split
          · rfl
          · rename_i hne
            simp [IsElement] at h
            rcases h with h | rfl
            · exact ih.elem n h
            · exact absurd rfl hne
        · intro n h
          simp only [CycleState.apply, addNode_attr]
          simp [IsElement] at h
          split
          · rename_i hne; simp at hne; exact absurd hne h.2
          · exact ih.elemOnly n h.1
        · intro s t h
          obtain ⟨a, p, b, q, rfl, rfl⟩ := h1 s t h
          simp at h
          simp only [CycleState.apply, addNode_attr]
          rw [if_neg (by simp)]
          exact ih.src _ _ h
        · intro s t h
          obtain ⟨a, p, b, q, rfl, rfl⟩ := h1 s t h
          simp at h
          simp only [CycleState.apply, addNode_attr]
          rw [if_neg (by simp)]
          exact ih.tgt _ _ h
    | connectFlow s t =>
      obtain ⟨a, p, b, q, rfl, rfl⟩ := h1 s t (by simp)
      have hst : ([a, p] : Key) ≠ [b, q] := h2 [a, p] [b, q] [a, p] [b, q] (by simp) (by simp)
      have hA : ∀ x, ((buildCycle ops).apply (.connectFlow [a, p] [b, q])).graph.attr x =
          if x = [b, q] then ⟨some .inPort, some [b], some q⟩
          else if x = [a, p] then ⟨some .outPort, some [a], some p⟩
          else (buildCycle ops).graph.attr x := by
        intro x
        simp only [CycleState.apply, addEdge_attr, addNode_attr, elementName_pair, portName_pair]
      constructor
      · intro n h
        rw [hA, if_neg (by simp), if_neg (by simp)]
        simp [IsElement] at h
        exact ih.elem n h
      · intro n h
        rw [hA, if_neg (by simp), if_neg (by simp)]
        simp [IsElement] at h
        exact ih.elemOnly n h
      · intro s t h
        have hs : s ≠ [b, q] := h2 s t [a, p] [b, q] h (by simp)
        rw [hA, if_neg hs]
        split
        · rename_i he; subst he; simp
        · rename_i he
          simp at h
          rcases h with h | h
          · exact ih.src s t h
          · exact absurd h.1 he
      · intro s t h
        rw [hA]
        split
        · rename_i he; subst he; simp
        · rename_i he
          have ht : t ≠ [a, p] := fun hh => h2 [a, p] [b, q] s t (by simp) h hh.symm
          rw [if_neg ht]
          simp at h
          rcases h with h | h
          · exact ih.tgt s t h
          · exact absurd h.2 he

/-! ### Accessibility in the graph and in the network -/

theorem acc_graph_iff (ops : List CycleOp) (h1 : OneLevel ops) (h2 : NoDualUse ops) (e : String) :
    Acc (fun a b => (a, b) ∈ (buildCycle ops).graph.edges) [e] ↔ Acc (Feeds ops) e := by
  have edgeIn : ∀ u x, (u, [x]) ∈ (buildCycle ops).graph.edges →
      ∃ s q, CycleOp.connectFlow s [x, q] ∈ ops ∧ u = [x, q] := by
    intro u x h
    obtain ⟨s, t, hc, h⟩ := (mem_build_edges ops _ _).1 h
    obtain ⟨a, p, b, q, rfl, rfl⟩ := h1 s t hc
    rcases h with ⟨_, h⟩ | ⟨_, h⟩ | ⟨hu, h⟩
    · simp at h
    · simp at h
    · simp at h; subst h; exact ⟨_, q, hc, hu⟩
  have edgeTgt : ∀ u s0 t0, CycleOp.connectFlow s0 t0 ∈ ops →
      (u, t0) ∈ (buildCycle ops).graph.edges → CycleOp.connectFlow u t0 ∈ ops := by
    intro u s0 t0 h0 h
    obtain ⟨s, t, hc, h⟩ := (mem_build_edges ops _ _).1 h
    rcases h with ⟨_, h⟩ | ⟨hu, h⟩ | ⟨hu, h⟩
    · exact absurd h.symm (h2 s t s0 t0 hc h0)
    · subst hu; subst h; exact hc
    · obtain ⟨_, _, _, _, _, h'⟩ := h1 s0 t0 h0
      rw [h'] at h; simp at h
  have edgeSrc : ∀ u s0 t0, CycleOp.connectFlow s0 t0 ∈ ops →
      (u, s0) ∈ (buildCycle ops).graph.edges → u = [elementName s0] := by
    intro u s0 t0 h0 h
    obtain ⟨s, t, hc, h⟩ := (mem_build_edges ops _ _).1 h
    rcases h with ⟨hu, h⟩ | ⟨hu, h⟩ | ⟨hu, h⟩
    · rw [h]; exact hu
    · exact absurd h (h2 s0 t0 s t h0 hc)
    · obtain ⟨_, _, _, _, h', _⟩ := h1 s0 t0 h0
      rw [h'] at h; simp at h
  constructor
  · intro h
    generalize hx : ([e] : Key) = x at h
    -- strengthen: all three node kinds
    have key : ∀ x, Acc (fun a b => (a, b) ∈ (buildCycle ops).graph.edges) x →
        (∀ e, x = [e] → Acc (Feeds ops) e) := by
      intro x hacc
      have gen : Acc (Relation.TransGen (fun a b => (a, b) ∈ (buildCycle ops).graph.edges)) x :=
        hacc.transGen
      clear hacc
      induction gen with
      | intro x _ ih =>
        rintro e rfl
        constructor
        intro a ⟨p, q, hc⟩
        have e1 : ([a], [a, p]) ∈ (buildCycle ops).graph.edges :=
          (mem_build_edges ops _ _).2 ⟨_, _, hc, Or.inl (by simp)⟩
        have e2 : ([a, p], [e, q]) ∈ (buildCycle ops).graph.edges :=
          (mem_build_edges ops _ _).2 ⟨_, _, hc, Or.inr (Or.inl (by simp))⟩
        have e3 : ([e, q], [e]) ∈ (buildCycle ops).graph.edges :=
          (mem_build_edges ops _ _).2 ⟨_, _, hc, Or.inr (Or.inr (by simp))⟩
        exact ih [a] (((Relation.TransGen.single e1).tail e2).tail e3) a rfl
    exact key x h e hx.symm
  · intro h
    induction h with
    | intro e _ ih =>
      constructor
      intro u hu
      obtain ⟨s, q, hc, rfl⟩ := edgeIn u e hu
      constructor
      intro u hu
      have hc' := edgeTgt u _ _ hc hu
      constructor
      intro x hx
      have := edgeSrc x _ _ hc' hx
      obtain ⟨a, p, b, q', hs, ht⟩ := h1 _ _ hc'
      subst hs
      rw [this, elementName_pair]
      exact ih a ⟨p, q, hc'⟩

theorem acc_iff_not_onOrAfterLoop (ops : List CycleOp) (e : String) :
    Acc (Feeds ops) e ↔ ¬ OnOrAfterLoop ops e := by
  constructor
  · rintro h ⟨c, hc, hce⟩
    have hacc : Acc (Feeds ops) c := by
      clear hc
      induction hce with
      | refl => exact h
      | tail _ hbc ih => exact ih (h.inv hbc)
    have irr : ∀ c, Acc (Relation.TransGen (Feeds ops)) c → ¬ Relation.TransGen (Feeds ops) c c := by
      intro c hacc
      induction hacc with
      | intro x _ ih => intro hx; exact ih x hx hx
    exact irr c hacc.transGen hc
  · intro h
    -- ancestors form a finite set on which the relation is a strict order
    let A := {x : String // Relation.ReflTransGen (Feeds ops) x e}
    let names : List String := e :: ops.map (fun o => match o with
      | .connectFlow s _ => s.headD ""
      | _ => "")
    have hfin : Finite A := by
      have hsub : ∀ x : A, x.1 ∈ names.toFinset := by
        rintro ⟨x, hx⟩
        rcases Relation.ReflTransGen.cases_head hx with rfl | ⟨y, ⟨p, q, hc⟩, _⟩
        · simp [names]
        · simp only [names, List.mem_toFinset, List.mem_cons, List.mem_map]
          exact Or.inr ⟨_, hc, by simp⟩
      exact Finite.of_injective (fun x : A => (⟨x.1, hsub x⟩ : names.toFinset))
        (by intro a b hab; simp at hab; exact Subtype.ext hab)
    let r : A → A → Prop := fun a b => Relation.TransGen (Feeds ops) a.1 b.1
    have : Std.Irrefl r := ⟨fun a ha => h ⟨a.1, ha, a.2⟩⟩
    have : IsTrans A r := ⟨fun _ _ _ hab hbc => Relation.TransGen.trans hab hbc⟩
    have wf : WellFounded r := Finite.wellFounded_of_trans_of_irrefl r
    have key : ∀ a : A, Acc (Feeds ops) a.1 := by
      intro a
      induction wf.apply a with
      | intro a _ ih =>
        constructor
        intro y hy
        exact ih ⟨y, Relation.ReflTransGen.head hy a.2⟩ (Relation.TransGen.single hy)
    exact key ⟨e, Relation.ReflTransGen.refl⟩

end PyCycle
