import Verif.Spec.Solved
import Verif.Proofs.CycleNames

/-! # A cycle is converged if its elements are, and its connections hold

Values of the elements, each under its own names, are put together to values of the cycle. -/

namespace PyCycle.OM

/-- The name up to the first dot, and the rest after it. -/
def cut (n : String) : String × String :=
  match n.toList.span (· ≠ '.') with
  | (a, _ :: x) => (String.ofList a, String.ofList x)
  | (_, []) => ("", n)

/-- The values `V a x` under the names `a.x`, and `V "" x` under plain names `x`. -/
def Env.glue (V : String → Env) : Env :=
  ⟨fun n => (V (cut n).1).num (cut n).2, fun n => (V (cut n).1).vec (cut n).2⟩

theorem span_dot {a : List Char} (h : ∀ c ∈ a, c ≠ '.') (x : List Char) :
    (a ++ '.' :: x).span (· ≠ '.') = (a, '.' :: x) := by
  rw [List.span_eq_takeWhile_dropWhile]
  induction a with
  | nil => simp
  | cons c a ih =>
    have hc := h c (by simp)
    have := ih fun d hd => h d (by simp [hd])
    simp only [Prod.mk.injEq] at this
    simp [hc] at this ⊢
    exact this

theorem plain_no_dot {a : String} (h : Plain a) : ∀ c ∈ a.toList, c ≠ '.' := by
  intro c hc e
  have := h c hc
  subst e
  simp [isSep] at this

theorem cut_dot {a : String} (h : Plain a) (x : String) : cut (a ++ "." ++ x) = (a, x) := by
  have : (a ++ "." ++ x).toList = a.toList ++ '.' :: x.toList := by simp [String.toList_append]
  simp only [cut, this, span_dot (plain_no_dot h), String.ofList_toList]

theorem cut_plain {n : String} (h : Plain n) : cut n = ("", n) := by
  have h' := plain_no_dot h
  have : n.toList.span (· ≠ '.') = (n.toList, []) := by
    rw [List.span_eq_takeWhile_dropWhile]
    have e : ∀ c ∈ n.toList, (decide (c ≠ '.')) = true := fun c hc => by simpa using h' c hc
    generalize n.toList = l at e
    induction l with
    | nil => rfl
    | cons c l ih =>
      have hc := e c (by simp)
      have := ih fun d hd => e d (by simp [hd])
      simp only [Prod.mk.injEq] at this
      simp only [decide_eq_true_eq] at hc
      simp [hc] at this ⊢
      exact this
  simp only [cut, this]

theorem Group.Agrees.src {g : Group} {E : Env} (h : g.Agrees E) (n : String) :
    E.num (g.wiring.src n) = E.num n ∧ E.vec (g.wiring.src n) = E.vec n := by
  unfold Wiring.src
  split
  · exact ⟨rfl, rfl⟩
  · cases hf : g.wiring.conns.find? fun c => c.2 = n with
    | none => simp
    | some x =>
      have h1 := List.mem_of_find?_eq_some hf
      have h2 := List.find?_some hf
      simp only [decide_eq_true_eq] at h2
      have := h x h1
      rw [h2] at this
      simpa using this

/-- A subsystem promotes to names under which its own values are known. -/
def Decl.Fits (s : Decl) (V : String → Env) : Prop :=
  Plain s.name ∧ s.promO = [] ∧ ∀ v t, promoted s.promI v = some t →
    (Env.glue V).num t = (V s.name).num v ∧ (Env.glue V).vec t = (V s.name).vec v

theorem Decl.Fits.none {s : Decl} {V : String → Env} (h : Plain s.name) (ho : s.promO = []) (hi : s.promI = []) :
    s.Fits V := ⟨h, ho, fun v t e => by simp [hi, promoted] at e⟩

theorem Decl.Fits.one {s : Decl} {V : String → Env} {x : String} (h : Plain s.name) (ho : s.promO = [])
    (hi : s.promI = [.var x]) (hx : Plain x) (e : (V "").num x = (V s.name).num x ∧ (V "").vec x = (V s.name).vec x) :
    s.Fits V := by
  refine ⟨h, ho, fun v t k => ?_⟩
  by_cases hv : x = v
  · subst hv
    simp [hi, promoted, Prom.exact] at k
    subst k
    simpa only [Env.glue, cut_plain hx] using e
  · simp [hi, promoted, Prom.exact, Prom.fits, hv] at k

theorem glue_in {s : Decl} {V : String → Env} (h : s.Fits V) (v : String) :
    (Env.glue V).num (s.inName v) = (V s.name).num v ∧ (Env.glue V).vec (s.inName v) = (V s.name).vec v := by
  unfold Decl.inName
  cases hp : promoted s.promI v with
  | none => simp only [Option.getD_none, Env.glue, cut_dot h.1, and_self]
  | some t => simpa using h.2.2 v t hp

theorem glue_out {s : Decl} {V : String → Env} (h : s.Fits V) (v : String) :
    (Env.glue V).num (s.outName v) = (V s.name).num v ∧ (Env.glue V).vec (s.outName v) = (V s.name).vec v := by
  rw [outName_plain h.2.1]
  simp only [Env.glue, cut_dot h.1, and_self]

/-- Elements that are converged and agree where they are connected make a converged cycle. -/
theorem Cycle.converged_of {c : Cycle} {V : String → Env} (hf : ∀ s ∈ c.group.subs, s.Fits V)
    (ha : c.group.Agrees (Env.glue V)) (hm : ∀ m ∈ c.members, m.group.Converged (V m.name))
    (ho : ∀ s ∈ c.others, s.eqn (V s.name) (V s.name)) : c.group.Converged (Env.glue V) := by
  have hr : ∀ s ∈ c.group.subs, c.group.wiring.reads (Env.glue V) s.toDecl = V s.name := by
    intro s hs
    simp only [Wiring.reads, (ha.src _).1, (ha.src _).2, (glue_in (hf s hs) _).1, (glue_in (hf s hs) _).2]
  have hw : ∀ s ∈ c.group.subs, writes (Env.glue V) s.toDecl = V s.name := by
    intro s hs
    simp only [writes, (glue_out (hf s hs) _).1, (glue_out (hf s hs) _).2]
  intro s hs
  rw [hr s hs, hw s hs]
  rcases List.mem_append.mp hs with h | h
  · obtain ⟨m, hmm, rfl⟩ := List.mem_map.mp h
    exact ⟨V m.name, hm m hmm, fun n _ => ⟨rfl, rfl⟩, fun n _ => ⟨rfl, rfl⟩⟩
  · exact ho s h

/-- A link agrees if outlet and inlet have the same values. -/
theorem Link.agrees {l : Link} {V : String → Env} (h : Plain l.src.1) (h' : Plain l.tgt.1)
    (hc : (V l.src.1).num (l.src.2 ++ ":tot:composition") = (V l.tgt.1).num (l.tgt.2 ++ ":stat:composition")
      ∧ (V l.src.1).vec (l.src.2 ++ ":tot:composition") = (V l.tgt.1).vec (l.tgt.2 ++ ":stat:composition"))
    (hv : ∀ v ∈ linkOutVars, (v = "stat:W" → l.w = true) →
      (V l.src.1).num (l.src.2 ++ ":" ++ v) = (V l.tgt.1).num (l.tgt.2 ++ ":" ++ v)
      ∧ (V l.src.1).vec (l.src.2 ++ ":" ++ v) = (V l.tgt.1).vec (l.tgt.2 ++ ":" ++ v)) :
    ∀ x ∈ l.conns, (Env.glue V).num x.1 = (Env.glue V).num x.2 ∧ (Env.glue V).vec x.1 = (Env.glue V).vec x.2 := by
  have key : ∀ x ∈ connectFlowCalls [l.src.1, l.src.2] [l.tgt.1, l.tgt.2] l.stat l.tot l.w,
      (∃ v ∈ linkOutVars, (v = "stat:W" → l.w = true) ∧
        x = (⟨[l.src.1, l.src.2], v⟩, ⟨[l.tgt.1, l.tgt.2], v⟩))
      ∨ x = (⟨[l.src.1, l.src.2], "tot:composition"⟩, ⟨[l.tgt.1, l.tgt.2], "stat:composition"⟩) := by
    intro x hx
    simp only [connectFlowCalls, connectSame, List.mem_append, List.mem_cons, List.not_mem_nil, or_false] at hx
    have same : ∀ vs : List String, vs ⊆ linkOutVars → (∀ v ∈ vs, v = "stat:W" → l.w = true) →
        x ∈ vs.map (fun v => ((⟨[l.src.1, l.src.2], v⟩, ⟨[l.tgt.1, l.tgt.2], v⟩) : FlowVar × FlowVar)) →
        ∃ v ∈ linkOutVars, (v = "stat:W" → l.w = true) ∧ x = (⟨[l.src.1, l.src.2], v⟩, ⟨[l.tgt.1, l.tgt.2], v⟩) := by
      intro vs hvs hw hx
      obtain ⟨v, hv, rfl⟩ := List.mem_map.mp hx
      exact ⟨v, hvs hv, hw v hv, rfl⟩
    rcases hx with (((rfl | rfl) | hx) | hx) | hx
    · exact Or.inl ⟨_, by decide, fun e => absurd e (by decide), rfl⟩
    · exact Or.inr rfl
    · left
      split at hx
      · exact same _ (by decide) (fun v hv e => absurd hv (by subst e; decide)) hx
      · cases hx
    · left
      split at hx
      · rcases List.mem_append.mp hx with hx | hx
        · exact same _ (by decide) (fun v hv e => absurd hv (by subst e; decide)) hx
        · exact same _ (by decide) (fun v hv e => absurd hv (by subst e; decide)) hx
      · cases hx
    · left
      split at hx
      · rename_i hw
        exact same _ (by decide) (fun _ _ _ => hw) hx
      · cases hx
  intro x hx
  obtain ⟨y, hy, rfl⟩ := List.mem_map.mp hx
  rcases key y hy with ⟨v, hvm, hw, rfl⟩ | rfl
  · simp only [Cycle.render_pair, Env.glue, cut_dot h, cut_dot h']
    exact hv v hvm hw
  · simp only [Cycle.render_pair, Env.glue, cut_dot h, cut_dot h']
    simpa only [String.append_assoc, String.reduceAppend] using hc

end PyCycle.OM
