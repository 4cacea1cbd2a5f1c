import Verif.Spec.Balance
import Verif.Proofs.BleedLemmas

/-! # Summing accounts over a cycle -/

namespace PyCycle.OM

variable {α : Type} [DecidableEq α]

omit [DecidableEq α] in
theorem sum_split (L : List α) (f : α → ℝ) (k : α → Bool) :
    (L.map f).sum = ((L.filter k).map f).sum + ((L.filter fun x => !k x).map f).sum := by
  induction L with
  | nil => simp
  | cons x L ih =>
    cases h : k x <;> simp [h, ih] <;> ring

omit [DecidableEq α] in
theorem sum_filter_perm {L K : List α} (hL : L.Nodup) (hK : K.Nodup) (k : α → Bool)
    (h : ∀ x, x ∈ L ∧ k x = true ↔ x ∈ K) (f : α → ℝ) : ((L.filter k).map f).sum = (K.map f).sum := by
  have : (L.filter k).Perm K := by
    rw [List.perm_ext_iff_of_nodup (hL.filter _) hK]
    intro x; rw [List.mem_filter, h]
  exact (this.map f).sum_eq

namespace Cycle

variable {c : Cycle} {acc : String → Account}

theorem names_nodup (h : c.group.wiring.Wired) : (c.members.map (·.name)).Nodup := by
  have := h.1
  simp only [Cycle.group, Group.wiring, List.map_append, List.map_map] at this
  have := (List.nodup_append.mp this).1
  exact this

theorem member_ext (h : c.group.wiring.Wired) {m m' : Member} (hm : m ∈ c.members) (hm' : m' ∈ c.members)
    (e : m.name = m'.name) : m = m' := List.inj_on_of_nodup_map (names_nodup h) hm hm' e

theorem members_nodup (h : c.group.wiring.Wired) : c.members.Nodup := List.Nodup.of_map _ (names_nodup h)

theorem ports_nodup (h : c.group.wiring.Wired) (f : Member → List String) (hf : ∀ m ∈ c.members, (f m).Nodup) :
    (c.members.flatMap fun m => (f m).map (m, ·)).Nodup := by
  rw [List.nodup_flatMap]
  refine ⟨fun m hm => (hf m hm).map fun _ _ e => (Prod.mk.inj e).2, ?_⟩
  refine (members_nodup h).imp ?_
  intro a b hab x hx hy
  obtain ⟨_, -, rfl⟩ := List.mem_map.mp hx
  obtain ⟨_, -, e⟩ := List.mem_map.mp hy
  exact hab (Prod.mk.inj e).1.symm

theorem sum_ports (ms : List Member) (f : Member → List String) (g : Member × String → ℝ) :
    ((ms.flatMap fun m => (f m).map (m, ·)).map g).sum = (ms.map fun m => ((f m).map fun p => g (m, p)).sum).sum := by
  induction ms with
  | nil => rfl
  | cons m ms ih =>
    simp only [List.flatMap_cons, List.map_append, List.sum_append, ih, List.map_cons, List.sum_cons, List.map_map]
    rfl

/-- A converged cycle has converged elements that agree with what they see. -/
theorem nested {E : Env} (hc : c.group.Converged E) {m : Member} (hm : m ∈ c.members) :
    ∃ V, m.group.Converged V ∧ ∀ n, n ∈ m.group.wiring.externals ∨ n ∈ m.group.wiring.outs →
      V.num n = (c.view E m).num n ∧ V.vec n = (c.view E m).vec n := by
  obtain ⟨V, h1, h2, h3⟩ := hc m.sub (List.mem_append_left _ (List.mem_map_of_mem hm))
  refine ⟨V, h1, fun n hn => ?_⟩
  by_cases ho : n ∈ m.group.wiring.outs
  · simp only [Cycle.view, ho, if_true]
    exact ⟨(h3 n ho).1.symm, (h3 n ho).2.symm⟩
  · have he := hn.resolve_right ho
    simp only [Cycle.view, ho, if_false]
    exact h2 n he

section
variable (N : c.Network acc) {E : Env} (hc : c.group.Converged E)
include N

theorem port_seen {m : Member} (hm : m ∈ c.members) {p : String}
    (hp : p ∈ (acc m.name).ins ∨ p ∈ (acc m.name).outs) {v : String} (hv : v ∈ portVars) :
    p ++ ":" ++ v ∈ m.group.wiring.externals ∨ p ++ ":" ++ v ∈ m.group.wiring.outs := by
  rcases hp with h | h
  · exact Or.inl ((N.accounts m hm).ins p h v hv)
  · exact Or.inr ((N.accounts m hm).outs p h v hv)

theorem seen_W {m : Member} (hm : m ∈ c.members) {V V' : Env}
    (hV : ∀ n, n ∈ m.group.wiring.externals ∨ n ∈ m.group.wiring.outs → V.num n = V'.num n ∧ V.vec n = V'.vec n)
    {p : String} (hp : p ∈ (acc m.name).ins ∨ p ∈ (acc m.name).outs) : V.W p = V'.W p ∧ V.H p = V'.H p := by
  have a := (hV _ (port_seen N hm hp (v := "stat:W") (by decide))).1
  have b := (hV _ (port_seen N hm hp (v := "tot:h") (by decide))).1
  have e : ∀ v : String, p ++ ":" ++ v = p ++ (":" ++ v) := fun v => String.append_assoc ..
  rw [e] at a b
  simp only [String.reduceAppend] at a b
  exact ⟨a, by simp only [Env.H, a, b]⟩

theorem seen_state {m : Member} (hm : m ∈ c.members) {V V' : Env}
    (hV : ∀ n, n ∈ m.group.wiring.externals ∨ n ∈ m.group.wiring.outs → V.num n = V'.num n ∧ V.vec n = V'.vec n)
    {p : String} (hp : p ∈ (acc m.name).ins ∨ p ∈ (acc m.name).outs) (h : (acc m.name).IsState V p) :
    (acc m.name).IsState V' p := by
  have e : ∀ v : String, p ++ ":" ++ v = p ++ (":" ++ v) := fun v => String.append_assoc ..
  have a : ∀ v ∈ portVars, V.num (p ++ (":" ++ v)) = V'.num (p ++ (":" ++ v)) := fun v hv => by
    rw [← e]; exact (hV _ (port_seen N hm hp hv)).1
  have b : V.vec (p ++ ":tot:composition") = V'.vec (p ++ ":tot:composition") := by
    have := (hV _ (port_seen N hm hp (v := "tot:composition") (by decide))).2
    rw [e] at this; exact this
  obtain ⟨h1, h2, h3, h4, h5, h6, h7⟩ := h
  have f : ∀ v : String, p ++ ":tot" ++ ":" ++ v = p ++ (":tot:" ++ v) := fun v => by
    rw [String.append_assoc, String.append_assoc]; rfl
  simp only [Env.at, f, String.reduceAppend, b] at h1 h2 h3 h4 h5 h6 h7
  have aT := a "tot:T" (by decide)
  have aP := a "tot:P" (by decide)
  simp only [String.reduceAppend] at aT aP
  constructor <;> simp only [Env.at, f, String.reduceAppend]
  · have := a "tot:h" (by decide); simp only [String.reduceAppend] at this; rw [← this, ← aT, ← aP, h1]
  · have := a "tot:S" (by decide); simp only [String.reduceAppend] at this; rw [← this, ← aT, ← aP, h2]
  · have := a "tot:gamma" (by decide); simp only [String.reduceAppend] at this; rw [← this, ← aT, ← aP, h3]
  · have := a "tot:Cp" (by decide); simp only [String.reduceAppend] at this; rw [← this, ← aT, ← aP, h4]
  · have := a "tot:Cv" (by decide); simp only [String.reduceAppend] at this; rw [← this, ← aT, ← aP, h5]
  · have := a "tot:rho" (by decide); simp only [String.reduceAppend] at this; rw [← this, ← aT, ← aP, h6]
  · have := a "tot:R" (by decide); simp only [String.reduceAppend] at this; rw [← this, ← aT, ← aP, h7]

theorem view_out {m : Member} (hm : m ∈ c.members) {p : String} (hp : p ∈ (acc m.name).outs) {v : String}
    (hv : v ∈ portVars) :
    (c.view E m).num (p ++ ":" ++ v) = E.num (m.name ++ "." ++ (p ++ ":" ++ v))
    ∧ (c.view E m).vec (p ++ ":" ++ v) = E.vec (m.name ++ "." ++ (p ++ ":" ++ v)) := by
  have ho := (N.accounts m hm).outs p hp v hv
  have hn : m.sub.outName (p ++ ":" ++ v) = m.name ++ "." ++ (p ++ ":" ++ v) := by
    simp [Decl.outName, Member.sub, Group.asSub, N.plainOut m hm p hp v hv]
  simp only [Cycle.view, ho, if_true, hn, and_self]

theorem view_in {m : Member} (hm : m ∈ c.members) {p : String} (hp : p ∈ (acc m.name).ins) {v : String}
    (hv : v ∈ portVars) :
    (c.view E m).num (p ++ ":" ++ v) = E.num (c.group.wiring.src (m.name ++ "." ++ (p ++ ":" ++ v)))
    ∧ (c.view E m).vec (p ++ ":" ++ v) = E.vec (c.group.wiring.src (m.name ++ "." ++ (p ++ ":" ++ v))) := by
  have hi := (N.accounts m hm).ins p hp v hv
  have ho : p ++ ":" ++ v ∉ m.group.wiring.outs := by
    simp only [Wiring.externals, List.mem_dedup, List.mem_filter] at hi
    simpa using hi.2
  have hn : m.sub.inName (p ++ ":" ++ v) = m.name ++ "." ++ (p ++ ":" ++ v) := by
    simp [Decl.inName, Member.sub, Group.asSub, N.plainIn m hm p hp v hv]
  simp only [Cycle.view, ho, if_false, hn, and_self]

omit N in
theorem render_pair (a p v : String) : FlowVar.render ⟨[a, p], v⟩ = a ++ "." ++ (p ++ ":" ++ v) := by
  have h : String.intercalate "." [a, p] = a ++ "." ++ p := rfl
  simp only [FlowVar.render, h, String.append_assoc]

omit N in
theorem conn_mem {l : Link} (hl : l ∈ c.links) {v : String}
    (hv : (⟨[l.src.1, l.src.2], v⟩, ⟨[l.tgt.1, l.tgt.2], v⟩) ∈
      connectFlowCalls [l.src.1, l.src.2] [l.tgt.1, l.tgt.2] l.stat l.tot l.w) :
    (l.src.1 ++ "." ++ (l.src.2 ++ ":" ++ v), l.tgt.1 ++ "." ++ (l.tgt.2 ++ ":" ++ v)) ∈ c.group.wiring.conns := by
  refine List.mem_append_left _ (List.mem_flatMap.mpr ⟨l, hl, ?_⟩)
  have := List.mem_map_of_mem (f := fun c : FlowVar × FlowVar => (FlowVar.render c.1, FlowVar.render c.2)) hv
  simp only [render_pair] at this
  exact this

/-- A link makes the inlet see what the outlet says. -/
theorem view_link {l : Link} (hl : l ∈ c.links) {m m' : Member} (hm : m ∈ c.members) (hm' : m' ∈ c.members)
    (e : m.name = l.src.1) (e' : m'.name = l.tgt.1) (hp : l.src.2 ∈ (acc m.name).outs)
    (hp' : l.tgt.2 ∈ (acc m'.name).ins) {v : String} (hv : v ∈ portVars)
    (hmem : (⟨[l.src.1, l.src.2], v⟩, ⟨[l.tgt.1, l.tgt.2], v⟩) ∈
      connectFlowCalls [l.src.1, l.src.2] [l.tgt.1, l.tgt.2] l.stat l.tot l.w) :
    (c.view E m').num (l.tgt.2 ++ ":" ++ v) = (c.view E m).num (l.src.2 ++ ":" ++ v)
    ∧ (c.view E m').vec (l.tgt.2 ++ ":" ++ v) = (c.view E m).vec (l.src.2 ++ ":" ++ v) := by
  have h := view_in N (E := E) hm' hp' hv
  have h' := view_out N (E := E) hm hp hv
  rw [e'] at h; rw [e] at h'
  have hs := Wiring.src_conn N.wired (conn_mem hl hmem)
  rw [hs] at h
  exact ⟨h.1.trans h'.1.symm, h.2.trans h'.2.symm⟩

theorem link_W {l : Link} (hl : l ∈ c.links) {m m' : Member} (hm : m ∈ c.members) (hm' : m' ∈ c.members)
    (e : m.name = l.src.1) (e' : m'.name = l.tgt.1) (hp : l.src.2 ∈ (acc m.name).outs)
    (hp' : l.tgt.2 ∈ (acc m'.name).ins) (hw : l.w = true) :
    (c.view E m').W l.tgt.2 = (c.view E m).W l.src.2 := by
  have := (view_link N (E := E) hl hm hm' e e' hp hp' (v := "stat:W") (by decide)
    (by simp [connectFlowCalls, connectSame, hw])).1
  simpa only [String.append_assoc, String.reduceAppend, Env.W] using this

theorem link_h {l : Link} (hl : l ∈ c.links) {m m' : Member} (hm : m ∈ c.members) (hm' : m' ∈ c.members)
    (e : m.name = l.src.1) (e' : m'.name = l.tgt.1) (hp : l.src.2 ∈ (acc m.name).outs)
    (hp' : l.tgt.2 ∈ (acc m'.name).ins) (ht : l.tot = true) :
    (c.view E m').num (l.tgt.2 ++ ":tot:h") = (c.view E m).num (l.src.2 ++ ":tot:h") := by
  have := (view_link N (E := E) hl hm hm' e e' hp hp' (v := "tot:h") (by decide)
    (by simp [connectFlowCalls, connectSame, ht])).1
  simpa only [String.append_assoc, String.reduceAppend] using this

/-- Totals arrive as a whole: an inlet linked to an outlet sees a state of its gas if the outlet is one. -/
theorem link_state {l : Link} (hl : l ∈ c.links) {m m' : Member} (hm : m ∈ c.members) (hm' : m' ∈ c.members)
    (e : m.name = l.src.1) (e' : m'.name = l.tgt.1) (hp : l.src.2 ∈ (acc m.name).outs)
    (hp' : l.tgt.2 ∈ (acc m'.name).ins) (ht : l.tot = true)
    (hg : (acc m'.name).gas l.tgt.2 = (acc m.name).gas l.src.2)
    (h : (acc m.name).IsState (c.view E m) l.src.2) : (acc m'.name).IsState (c.view E m') l.tgt.2 := by
  have k : ∀ v ∈ ["tot:h", "tot:T", "tot:P", "tot:S", "tot:rho", "tot:gamma", "tot:Cp", "tot:Cv", "tot:R"],
      (c.view E m').num (l.tgt.2 ++ (":" ++ v)) = (c.view E m).num (l.src.2 ++ (":" ++ v)) := by
    intro v hv
    have := (view_link N (E := E) hl hm hm' e e' hp hp' (v := v) (by revert v; decide)
      (by simp only [connectFlowCalls, connectSame, ht, if_true, List.mem_append]
          refine Or.inl (Or.inl (Or.inr (List.mem_map.mpr ⟨v, hv, rfl⟩))))).1
    simpa only [String.append_assoc] using this
  have kc : (c.view E m').vec (l.tgt.2 ++ ":tot:composition") = (c.view E m).vec (l.src.2 ++ ":tot:composition") := by
    have := (view_link N (E := E) hl hm hm' e e' hp hp' (v := "tot:composition") (by decide)
      (by simp [connectFlowCalls])).2
    simpa only [String.append_assoc, String.reduceAppend] using this
  have f : ∀ p v : String, p ++ ":tot" ++ ":" ++ v = p ++ (":tot:" ++ v) := fun p v => by
    rw [String.append_assoc, String.append_assoc]; rfl
  obtain ⟨h1, h2, h3, h4, h5, h6, h7⟩ := h
  simp only [Env.at, f, String.reduceAppend] at h1 h2 h3 h4 h5 h6 h7
  have kT := k "tot:T" (by decide)
  have kP := k "tot:P" (by decide)
  simp only [String.reduceAppend] at kT kP
  constructor <;> simp only [Env.at, f, String.reduceAppend, hg, kc, kT, kP]
  · have := k "tot:h" (by decide); simp only [String.reduceAppend] at this; rw [this, h1]
  · have := k "tot:S" (by decide); simp only [String.reduceAppend] at this; rw [this, h2]
  · have := k "tot:gamma" (by decide); simp only [String.reduceAppend] at this; rw [this, h3]
  · have := k "tot:Cp" (by decide); simp only [String.reduceAppend] at this; rw [this, h4]
  · have := k "tot:Cv" (by decide); simp only [String.reduceAppend] at this; rw [this, h5]
  · have := k "tot:rho" (by decide); simp only [String.reduceAppend] at this; rw [this, h6]
  · have := k "tot:R" (by decide); simp only [String.reduceAppend] at this; rw [this, h7]

theorem tgts_nodup : (c.links.map Link.tgt).Nodup := by
  have h := N.wired.2.2.1
  simp only [Cycle.group, Group.wiring, List.map_append] at h
  have h1 := (List.nodup_append.mp h).1
  have h2 : (c.links.map fun l => FlowVar.render ⟨[l.tgt.1, l.tgt.2], "tot:composition"⟩).Sublist
      ((c.links.flatMap Link.conns).map (·.2)) := by
    induction c.links with
    | nil => exact List.Sublist.slnil
    | cons l ls ih =>
      simp only [List.map_cons, List.flatMap_cons, List.map_append]
      rw [← List.singleton_append]
      refine List.Sublist.append ?_ ih
      rw [List.singleton_sublist]
      simp [Link.conns, connectFlowCalls]
  have h3 := h2.nodup h1
  have h4 : (c.links.map fun l => FlowVar.render ⟨[l.tgt.1, l.tgt.2], "tot:composition"⟩)
      = (c.links.map Link.tgt).map fun q => FlowVar.render ⟨[q.1, q.2], "tot:composition"⟩ := by
    rw [List.map_map]; rfl
  rw [h4] at h3
  exact List.Nodup.of_map _ h3

/-- A quantity of ports, by the name of the element. -/
def byName (c : Cycle) (f : Member × String → ℝ) (q : String × String) : ℝ :=
  match c.members.find? fun m => m.name = q.1 with
  | some m => f (m, q.2)
  | none => 0

omit N in
theorem byName_eq (hw : c.group.wiring.Wired) (f : Member × String → ℝ) {m : Member} (hm : m ∈ c.members) (p : String) :
    byName c f (m.name, p) = f (m, p) := by
  have : c.members.find? (fun m' => m'.name = m.name) = some m := by
    have hn := names_nodup hw
    generalize c.members = l at hm hn
    induction l with
    | nil => cases hm
    | cons x l ih =>
      simp only [List.map_cons, List.nodup_cons] at hn
      rcases List.mem_cons.mp hm with rfl | h'
      · simp
      · have : x.name ≠ m.name := fun e => hn.1 (e ▸ List.mem_map_of_mem (f := (·.name)) h')
        rw [List.find?_cons_of_neg (by simpa using this)]
        exact ih h' hn.2
  simp [byName, this]

omit N in
theorem sum_linked (hw : c.group.wiring.Wired) (ports : Member → List String)
    (hp : ∀ m ∈ c.members, (ports m).Nodup) (f : Member × String → ℝ) (K : List (String × String)) (hK : K.Nodup)
    (hKm : ∀ q ∈ K, ∃ m ∈ c.members, m.name = q.1 ∧ q.2 ∈ ports m) (k : Member × String → Bool)
    (hk : ∀ q, k q = true ↔ (q.1.name, q.2) ∈ K) :
    (((c.members.flatMap fun m => (ports m).map (m, ·)).filter k).map f).sum = (K.map (byName c f)).sum := by
  set L := c.members.flatMap fun m => (ports m).map (m, ·) with hL
  have hLn : L.Nodup := ports_nodup hw ports hp
  have hmem : ∀ q ∈ L, q.1 ∈ c.members ∧ q.2 ∈ ports q.1 := by
    intro q hq
    obtain ⟨m, hm, hq⟩ := List.mem_flatMap.mp hq
    obtain ⟨p, hp, rfl⟩ := List.mem_map.mp hq
    exact ⟨hm, hp⟩
  have hinj : ∀ q ∈ L, ∀ q' ∈ L, (q.1.name, q.2) = (q'.1.name, q'.2) → q = q' := by
    intro q hq q' hq' e
    obtain ⟨e1, e2⟩ := Prod.mk.inj e
    exact Prod.ext (member_ext hw (hmem q hq).1 (hmem q' hq').1 e1) e2
  have hperm : ((L.filter k).map fun q => (q.1.name, q.2)).Perm K := by
    rw [List.perm_ext_iff_of_nodup _ hK]
    · intro x
      simp only [List.mem_map, List.mem_filter]
      constructor
      · rintro ⟨q, ⟨-, h2⟩, rfl⟩
        exact (hk q).mp h2
      · intro hx
        obtain ⟨m, hm, e, hpm⟩ := hKm x hx
        have hx' : (m.name, x.2) = x := Prod.ext e rfl
        exact ⟨(m, x.2), ⟨List.mem_flatMap.mpr ⟨m, hm, List.mem_map_of_mem hpm⟩, (hk _).mpr (by rw [hx']; exact hx)⟩, hx'⟩
    · refine List.Nodup.map_on ?_ (hLn.filter _)
      intro q hq q' hq' e
      exact hinj q (List.mem_of_mem_filter hq) q' (List.mem_of_mem_filter hq') e
  rw [← (hperm.map (byName c f)).sum_eq, List.map_map]
  congr 1
  refine List.map_congr_left fun q hq => ?_
  exact (byName_eq hw f (hmem q (List.mem_of_mem_filter hq)).1 q.2).symm

omit N in
theorem sum_counted (hw : c.group.wiring.Wired) (ports : Member → List String)
    (hp : ∀ m ∈ c.members, (ports m).Nodup) (f : Member × String → ℝ) (K : List (String × String))
    (hKm : ∀ q ∈ K, ∃ m ∈ c.members, m.name = q.1 ∧ q.2 ∈ ports m) :
    ((c.members.flatMap fun m => (ports m).map (m, ·)).map fun q => (K.count (q.1.name, q.2) : ℝ) * f q).sum
      = (K.map (byName c f)).sum := by
  induction K with
  | nil => simp
  | cons x K ih =>
    have h1 := sum_linked hw ports hp f [x] (List.nodup_singleton _) (by simpa using hKm x (by simp))
      (fun q => decide (x = (q.1.name, q.2))) (by intro q; simp [eq_comm])
    have h2 : ∀ L : List (Member × String), (L.map fun q => ((x :: K).count (q.1.name, q.2) : ℝ) * f q).sum
        = (L.map fun q => (K.count (q.1.name, q.2) : ℝ) * f q).sum
          + ((L.filter fun q => decide (x = (q.1.name, q.2))).map f).sum := by
      intro L
      induction L with
      | nil => simp
      | cons q L ihL =>
        simp only [List.map_cons, List.sum_cons, ihL]
        by_cases hx : x = (q.1.name, q.2)
        · simp [hx]; ring
        · simp [hx]; ring
    rw [h2, h1, ih fun q hq => hKm q (by simp [hq])]
    simp; ring

/-- Adding up a quantity that elements balance and links hand on. -/
theorem network_excess (f : Member × String → ℝ) (g : Member → ℝ) (k : Link → Bool)
    (hb : ∀ m ∈ c.members, ((acc m.name).outs.map fun p => f (m, p)).sum
      = ((acc m.name).ins.map fun p => f (m, p)).sum + g m)
    (hl : ∀ l ∈ c.links, k l = true → ∀ m ∈ c.members, ∀ m' ∈ c.members, m.name = l.src.1 → m'.name = l.tgt.1 →
      l.src.2 ∈ (acc m.name).outs → l.tgt.2 ∈ (acc m'.name).ins → f (m', l.tgt.2) = f (m, l.src.2)) :
    ((c.openOutlets acc k).map f).sum = ((c.openInlets acc k).map f).sum + (c.members.map g).sum
      + (((c.outlets acc).filter (c.feeds k)).map fun q => ((c.copies k q : ℝ) - 1) * f q).sum := by
  have hsum : ((c.outlets acc).map f).sum = ((c.inlets acc).map f).sum + (c.members.map g).sum := by
    simp only [outlets, inlets, sum_ports]
    have hb' : ∀ ms : List Member, (∀ m ∈ ms, m ∈ c.members) →
        (ms.map fun m => ((acc m.name).outs.map fun p => f (m, p)).sum).sum
        = (ms.map fun m => ((acc m.name).ins.map fun p => f (m, p)).sum).sum + (ms.map g).sum := by
      intro ms
      induction ms with
      | nil => simp
      | cons m ms ih =>
        intro h
        simp only [List.map_cons, List.sum_cons, hb m (h m (List.mem_cons_self ..)),
          ih fun m' hm' => h m' (List.mem_cons_of_mem _ hm')]
        ring
    exact hb' _ fun _ h => h
  have ho := sum_counted N.wired (fun m => (acc m.name).outs) (fun m hm => (N.accounts m hm).outsNodup) f
    ((c.links.filter k).map Link.src)
    (by intro q hq
        obtain ⟨l, hlm, rfl⟩ := List.mem_map.mp hq
        exact (N.linked l (List.mem_of_mem_filter hlm)).1)
  have hi := sum_linked N.wired (fun m => (acc m.name).ins) (fun m hm => (N.accounts m hm).insNodup) f
    ((c.links.filter k).map Link.tgt) ((List.filter_sublist.map _).nodup (tgts_nodup N))
    (by intro q hq
        obtain ⟨l, hlm, rfl⟩ := List.mem_map.mp hq
        exact (N.linked l (List.mem_of_mem_filter hlm)).2) (c.fed k)
    (by intro q; simp [fed, List.mem_map, List.mem_filter, and_assoc])
  have heq : (((c.links.filter k).map Link.src).map (byName c f)).sum
      = (((c.links.filter k).map Link.tgt).map (byName c f)).sum := by
    rw [List.map_map, List.map_map]
    congr 1
    refine List.map_congr_left fun l hlm => ?_
    obtain ⟨hlc, hkl⟩ := List.mem_filter.mp hlm
    obtain ⟨⟨m, hm, e, hp⟩, m', hm', e', hp'⟩ := N.linked l hlc
    have h1 := byName_eq N.wired f hm l.src.2
    have h2 := byName_eq N.wired f hm' l.tgt.2
    rw [e] at h1; rw [e'] at h2
    exact h1.trans ((hl l hlc hkl m hm m' hm' e e' hp hp').symm.trans h2.symm)
  have s1 := sum_split (c.outlets acc) (fun q => ((c.copies k q : ℝ) - 1) * f q) (c.feeds k)
  have s2 := sum_split (c.inlets acc) f (c.fed k)
  have s3 : (((c.outlets acc).filter fun q => !c.feeds k q).map fun q => ((c.copies k q : ℝ) - 1) * f q).sum
      = - (((c.outlets acc).filter fun q => !c.feeds k q).map f).sum := by
    have h0 : ∀ q ∈ (c.outlets acc).filter fun q => !c.feeds k q, ((c.copies k q : ℝ) - 1) * f q = -1 * f q := by
      intro q hq
      have h0 : c.copies k q = 0 := by
        rw [copies, List.count_eq_zero]
        intro h
        have := (List.mem_filter.mp hq).2
        simp only [feeds, Bool.not_eq_true', List.any_eq_false] at this
        obtain ⟨l, hlm, e⟩ := List.mem_map.mp h
        obtain ⟨h1, h2⟩ := List.mem_filter.mp hlm
        exact this l h1 (by simp [h2, e])
      rw [h0]; simp
    rw [List.map_congr_left h0, List.sum_map_mul_left]; ring
  have s4 : ((c.outlets acc).map fun q => ((c.copies k q : ℝ) - 1) * f q).sum
      = ((c.outlets acc).map fun q => (c.copies k q : ℝ) * f q).sum - ((c.outlets acc).map f).sum := by
    generalize c.outlets acc = L
    induction L with
    | nil => simp
    | cons q L ih => simp only [List.map_cons, List.sum_cons, ih]; ring
  have ho' : ((c.outlets acc).map fun q => (c.copies k q : ℝ) * f q).sum
      = (((c.links.filter k).map Link.src).map (byName c f)).sum := ho
  simp only [openOutlets, openInlets]
  simp only [outlets, inlets] at *
  linarith


end

end Cycle

end PyCycle.OM
