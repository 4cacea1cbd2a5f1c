import Verif.Spec.MultiPoint
import Verif.Proofs.Slots
import Verif.Proofs.TurbofanNames

/-! # Multipoint problems -/

namespace PyCycle.OM

theorem promoted_vars (ps : List String) (v : String) :
    promoted (ps.map .var) v = if v ∈ ps then some v else none := by
  have h2 : (ps.map Prom.var).any (Prom.fits v) = false := by
    simp [Prom.fits]
  have h1 : (ps.map Prom.var).findSome? (Prom.exact v) = if v ∈ ps then some v else none := by
    clear h2
    induction ps with
    | nil => rfl
    | cons a ps ih =>
      rw [List.map_cons, List.findSome?_cons]
      by_cases h : a = v
      · simp [Prom.exact, h]
      · simp only [Prom.exact, h, if_false, ih, List.mem_cons, Ne.symm h, false_or]
  simp only [promoted, h1, h2]
  split_ifs <;> simp_all

theorem taker_vars {ps : List String} {v : String} (h : v ∈ ps) : taker (ps.map .var) v = some (.var v) := by
  have h1 : (ps.map Prom.var).find? (fun p => (p.exact v).isSome) = some (.var v) := by
    induction ps with
    | nil => cases h
    | cons a ps ih =>
      rw [List.map_cons, List.find?_cons]
      by_cases e : a = v
      · simp [Prom.exact, e]
      · simp only [Prom.exact, e, if_false, Option.isSome_none]
        rcases List.mem_cons.mp h with h | h
        · exact absurd h.symm e
        · exact ih h
  simp [taker, h1]

/-- Converged cycles can be completed to solved ones, with the same outputs and the same free inputs. -/
theorem Cycle.complete_in {c : Cycle} (hw : c.group.wiring.Wired) (ho : ∀ s ∈ c.others, s.Local) {E : Env}
    (hc : c.group.Converged E) : ∃ E', c.Solved E'
      ∧ (∀ n ∈ c.group.wiring.outs, E'.num n = E.num n ∧ E'.vec n = E.vec n)
      ∧ ∀ n ∈ c.group.wiring.externals, E'.num n = E.num n ∧ E'.vec n = E.vec n := by
  have hl : ∀ s ∈ c.group.subs, s.Local := by
    intro s hs
    rcases List.mem_append.mp hs with hs | hs
    · obtain ⟨m, -, rfl⟩ := List.mem_map.mp hs
      exact Group.asSub_local _ _ _ _
    · exact ho s hs
  obtain ⟨h1, h2, h3⟩ := Group.transfer_converged hw hl hc
  refine ⟨_, ⟨h1, h2⟩, h3, fun n hn => ?_⟩
  have h := (Wiring.mem_externals hw n).mp hn
  simp only [Group.transfer, Wiring.src_free h.2.1 h.2.2, and_self]

namespace Multi
variable {m : Multi}

theorem subs_eq (m : Multi) : m.cycle.group.subs = m.points.map fun o => (m.member o).sub := by
  simp [Cycle.group, cycle, List.map_map, Function.comp_def]

theorem conns_eq (m : Multi) : m.cycle.group.conns
    = m.passes ++ m.extra.map fun x => (x.1.1 ++ "." ++ x.1.2, x.2.1 ++ "." ++ x.2.2) := rfl

theorem inName (m : Multi) (o : Point) (v : String) :
    (m.member o).sub.inName v = if v ∈ m.params then v else o.name ++ "." ++ v := by
  simp only [Decl.inName, Member.sub, Group.asSub, member, promoted_vars]
  split_ifs <;> rfl

theorem Sound.accepted_cycle (h : m.Sound) : m.cycle.group.wiring.Accepted := by
  have hod : ∀ o ∈ m.ods, o ∈ m.points := fun o ho => List.mem_cons_of_mem _ ho
  have hd : m.des ∈ m.points := List.mem_cons_self ..
  have inj : ∀ o ∈ m.points, ∀ o' ∈ m.points, o.name = o'.name → o = o' := fun o ho o' ho' e =>
    List.inj_on_of_nodup_map h.names ho ho' e
  have hnod : (m.ods.map (·.name)).Nodup := (List.nodup_cons.mp h.names).2
  have out : ∀ o ∈ m.points, ∀ v ∈ o.cycle.group.wiring.outs, m.cycle.group.HasOut (o.name ++ "." ++ v) :=
    fun o ho v hv => ⟨(m.member o).sub, by rw [subs_eq]; exact List.mem_map_of_mem ho, v, hv, rfl⟩
  have inp : ∀ o ∈ m.points, ∀ v ∈ o.cycle.group.wiring.externals, v ∉ m.params →
      m.cycle.group.HasIn (o.name ++ "." ++ v) := fun o ho v hv hp =>
    ⟨(m.member o).sub, by rw [subs_eq]; exact List.mem_map_of_mem ho, v, hv, mem_externals_not_out hv,
      Or.inl ⟨by simp only [Member.sub, Group.asSub, member, promoted_vars, hp, if_false], rfl⟩⟩
  refine ⟨Group.wired_of ?_ ?_ ?_ ?_ ?_, ?_⟩
  · rw [subs_eq, List.map_map]; exact h.names
  · rw [subs_eq]; intro s hs
    obtain ⟨o, ho, rfl⟩ := List.mem_map.mp hs
    exact h.plain o ho
  · rw [subs_eq]; intro s hs
    obtain ⟨o, ho, rfl⟩ := List.mem_map.mp hs
    exact ⟨rfl, (h.accepted o ho).1.2.1⟩
  · rw [conns_eq, List.map_append, List.nodup_append]
    refine ⟨?_, ?_, ?_⟩
    · rw [passes, List.map_flatMap, List.nodup_flatMap]
      refine ⟨fun c _ => ?_, ?_⟩
      · rw [List.map_map, List.Nodup, List.pairwise_map]
        have := hnod
        rw [List.Nodup, List.pairwise_map] at this
        refine this.imp_of_mem ?_
        intro o o' ho ho' hne e
        exact hne (dot_split (h.plain o (hod o ho)) (h.plain o' (hod o' ho')) e).1
      · have := h.once
        rw [List.Nodup, List.pairwise_map] at this
        refine this.imp ?_
        intro c c' hne x hx hx'
        simp only [List.map_map, List.mem_map, Function.comp] at hx hx'
        obtain ⟨o, ho, rfl⟩ := hx
        obtain ⟨o', ho', e⟩ := hx'
        exact hne (dot_split (h.plain o' (hod o' ho')) (h.plain o (hod o ho)) e).2.symm
    · rw [List.map_map, List.Nodup, List.pairwise_map]
      have := h.extraOnce
      rw [List.Nodup, List.pairwise_map] at this
      refine this.imp_of_mem ?_
      intro x x' hx hx' hne e
      obtain ⟨o, ho, e1, -⟩ := h.extraIn x hx
      obtain ⟨o', ho', e2, -⟩ := h.extraIn x' hx'
      obtain ⟨a, b⟩ := dot_split (e1 ▸ h.plain o ho) (e2 ▸ h.plain o' ho') e
      exact hne (Prod.ext a b)
    · intro n hn n' hn' e
      subst e
      simp only [List.map_map, List.mem_map, Function.comp] at hn'
      obtain ⟨x, hx, rfl⟩ := hn'
      obtain ⟨y, hy, e⟩ := List.mem_map.mp hn
      simp only [passes, List.mem_flatMap, List.mem_map] at hy
      obtain ⟨c, hc, o, ho, rfl⟩ := hy
      obtain ⟨o', ho', e2, -, -, hnot⟩ := h.extraIn x hx
      obtain ⟨-, b⟩ := dot_split (h.plain o (hod o ho)) (e2 ▸ h.plain o' ho') e
      exact hnot (List.mem_map.mpr ⟨c, hc, b⟩)
  · rw [conns_eq]; intro x hx
    rcases List.mem_append.mp hx with hx | hx
    · simp only [passes, List.mem_flatMap, List.mem_map] at hx
      obtain ⟨c, hc, o, ho, rfl⟩ := hx
      exact ⟨out _ hd _ (h.gives c hc), inp o (hod o ho) _ (h.takes c hc o ho).1 (h.takes c hc o ho).2⟩
    · obtain ⟨y, hy, rfl⟩ := List.mem_map.mp hx
      obtain ⟨o, ho, e, h1⟩ := h.extraOut y hy
      obtain ⟨o', ho', e', h2, h3, -⟩ := h.extraIn y hy
      exact ⟨e ▸ out o ho _ h1, e' ▸ inp o' ho' _ h2 h3⟩
  · intro d hd'
    obtain ⟨s, hs, rfl⟩ := List.mem_map.mp hd'
    rw [subs_eq] at hs
    obtain ⟨o, ho, rfl⟩ := List.mem_map.mp hs
    refine ⟨fun q hq => Or.inl ?_, fun q hq => ?_⟩
    · obtain ⟨v, hv, rfl⟩ := List.mem_map.mp hq
      exact ⟨v, h.params v hv o ho, taker_vars hv⟩
    · cases hq

/-- Each point of a solved problem, on its own. -/
theorem Sound.flies (h : m.Sound) {E : Env} (hE : m.cycle.Solved E) {o : Point} (ho : o ∈ m.points) :
    ∃ V, m.Flies E o V := by
  obtain ⟨V, h1, h2, h3⟩ := hE.seen (m := m.member o) (List.mem_map_of_mem ho) rfl
  obtain ⟨V', s1, s2, s3⟩ := Cycle.complete_in (h.accepted o ho).1 (h.locals o ho) h1
  have hi : ∀ n ∈ o.cycle.group.wiring.externals, V'.num n = E.num ((m.member o).sub.inName n)
      ∧ V'.vec n = E.vec ((m.member o).sub.inName n) := fun n hn =>
    ⟨(s3 n hn).1.trans (h2 n hn).1, (s3 n hn).2.trans (h2 n hn).2⟩
  refine ⟨V', s1, fun n hn => ⟨(s2 n hn).1.trans (h3 n hn).1, (s2 n hn).2.trans (h3 n hn).2⟩, fun n hn hp => ?_,
    fun n hn hp => ?_⟩
  · have := hi n hn
    rwa [inName, if_neg hp] at this
  · have := hi n hn
    rwa [inName, if_pos hp] at this

theorem Sound.passed (h : m.Sound) {E : Env} (hE : m.cycle.Solved E) {o : Point} (ho : o ∈ m.ods) {V W : Env}
    (hV : m.Flies E m.des V) (hW : m.Flies E o W) {c : String × String} (hc : c ∈ m.desOd) :
    W.num c.2 = V.num c.1 ∧ W.vec c.2 = V.vec c.1 := by
  have k := hE.conn (a := m.des.name ++ "." ++ c.1) (b := o.name ++ "." ++ c.2) (by
    refine List.mem_append_left _ ?_
    simp only [passes, List.mem_flatMap, List.mem_map]
    exact ⟨c, hc, o, ho, rfl⟩)
  obtain ⟨h1, h2⟩ := h.takes c hc o ho
  have a := hV.outs c.1 (h.gives c hc)
  have b := hW.ins c.2 h1 h2
  exact ⟨b.1.trans (k.1.symm.trans a.1.symm), b.2.trans (k.2.symm.trans a.2.symm)⟩

theorem Sound.handed (h : m.Sound) {E : Env} (hE : m.cycle.Solved E) {x : (String × String) × (String × String)}
    (hx : x ∈ m.extra) {o o' : Point} (ho : o ∈ m.points) (ho' : o' ∈ m.points) (e : o.name = x.1.1) (e' : o'.name = x.2.1)
    {V W : Env} (hV : m.Flies E o V) (hW : m.Flies E o' W) : W.num x.2.2 = V.num x.1.2 ∧ W.vec x.2.2 = V.vec x.1.2 := by
  have k := hE.conn (a := x.1.1 ++ "." ++ x.1.2) (b := x.2.1 ++ "." ++ x.2.2)
    (List.mem_append_right _ (List.mem_map.mpr ⟨x, hx, rfl⟩))
  obtain ⟨q, hq, eq, h1⟩ := h.extraOut x hx
  obtain ⟨q', hq', eq', h2, h3, -⟩ := h.extraIn x hx
  obtain rfl := List.inj_on_of_nodup_map h.names hq ho (eq.trans e.symm)
  obtain rfl := List.inj_on_of_nodup_map h.names hq' ho' (eq'.trans e'.symm)
  have a := hV.outs _ h1
  have b := hW.ins _ h2 h3
  rw [e] at a; rw [e'] at b
  exact ⟨b.1.trans (k.1.symm.trans a.1.symm), b.2.trans (k.2.symm.trans a.2.symm)⟩

theorem Sound.shared (h : m.Sound) {E : Env} {o o' : Point} (ho : o ∈ m.points) (ho' : o' ∈ m.points) {V W : Env}
    (hV : m.Flies E o V) (hW : m.Flies E o' W) {n : String} (hn : n ∈ m.params) : V.num n = W.num n ∧ V.vec n = W.vec n := by
  have a := hV.params n (h.params n hn o ho) hn
  have b := hW.params n (h.params n hn o' ho') hn
  exact ⟨a.1.trans b.1.symm, a.2.trans b.2.symm⟩

/-- Solved points that agree make a solved problem. -/
theorem Sound.together (h : m.Sound) (hq : ∀ n ∈ m.params, ∀ o ∈ m.points, ∀ v, n ≠ o.name ++ "." ++ v)
    (V : String → Env) (hV : ∀ o ∈ m.points, o.cycle.Solved (V o.name))
    (hd : ∀ c ∈ m.desOd, ∀ o ∈ m.ods, (V o.name).num c.2 = (V m.des.name).num c.1
      ∧ (V o.name).vec c.2 = (V m.des.name).vec c.1)
    (hx : ∀ x ∈ m.extra, (V x.2.1).num x.2.2 = (V x.1.1).num x.1.2 ∧ (V x.2.1).vec x.2.2 = (V x.1.1).vec x.1.2)
    (hp : ∀ n ∈ m.params, ∀ o ∈ m.points, (V o.name).num n = (V m.des.name).num n
      ∧ (V o.name).vec n = (V m.des.name).vec n) :
    ∃ E, m.cycle.Solved E ∧ ∀ o ∈ m.points, m.Flies E o (V o.name) := by
  let E : Env := ⟨fun n => if n ∈ m.params then (V m.des.name).num n else (V (cut n).1).num (cut n).2,
    fun n => if n ∈ m.params then (V m.des.name).vec n else (V (cut n).1).vec (cut n).2⟩
  have dot : ∀ o ∈ m.points, ∀ v, E.num (o.name ++ "." ++ v) = (V o.name).num v
      ∧ E.vec (o.name ++ "." ++ v) = (V o.name).vec v := by
    intro o ho v
    have : o.name ++ "." ++ v ∉ m.params := fun hm => hq _ hm o ho v rfl
    simp only [E, this, if_false, cut_dot (h.plain o ho), and_self]
  have par : ∀ o ∈ m.points, ∀ n ∈ m.params, E.num n = (V o.name).num n ∧ E.vec n = (V o.name).vec n := by
    intro o ho n hn
    simp only [E, hn, if_true]
    exact ⟨(hp n hn o ho).1.symm, (hp n hn o ho).2.symm⟩
  have hag : m.cycle.group.Agrees E := by
    intro x hx'
    rw [conns_eq] at hx'
    rcases List.mem_append.mp hx' with hx' | hx'
    · simp only [passes, List.mem_flatMap, List.mem_map] at hx'
      obtain ⟨c, hc, o, ho, rfl⟩ := hx'
      have a := dot m.des (List.mem_cons_self ..) c.1
      have b := dot o (List.mem_cons_of_mem _ ho) c.2
      have k := hd c hc o ho
      exact ⟨a.1.trans (k.1.symm.trans b.1.symm), a.2.trans (k.2.symm.trans b.2.symm)⟩
    · obtain ⟨y, hy, rfl⟩ := List.mem_map.mp hx'
      obtain ⟨o, ho, e, -⟩ := h.extraOut y hy
      obtain ⟨o', ho', e', -⟩ := h.extraIn y hy
      have a := dot o ho y.1.2
      have b := dot o' ho' y.2.2
      have k := hx y hy
      rw [e] at a; rw [e'] at b
      exact ⟨a.1.trans (k.1.symm.trans b.1.symm), a.2.trans (k.2.symm.trans b.2.symm)⟩
  refine ⟨E, ⟨?_, hag⟩, fun o ho => ⟨hV o ho, fun n _ => ?_, fun n _ _ => ?_, fun n _ hn => ?_⟩⟩
  · intro s hs
    rw [subs_eq] at hs
    obtain ⟨o, ho, rfl⟩ := List.mem_map.mp hs
    refine ⟨V o.name, (hV o ho).converged, fun n hn => ?_, fun n hn => ?_⟩
    · simp only [Wiring.reads, (hag.src _).1, (hag.src _).2, inName]
      split_ifs with hm
      · exact ⟨(par o ho n hm).1.symm, (par o ho n hm).2.symm⟩
      · exact ⟨(dot o ho n).1.symm, (dot o ho n).2.symm⟩
    · have e : (m.member o).sub.outName n = o.name ++ "." ++ n := outName_plain (s := (m.member o).sub.toDecl) rfl n
      simp only [writes, e]
      exact dot o ho n
  · exact ⟨(dot o ho n).1.symm, (dot o ho n).2.symm⟩
  · exact ⟨(dot o ho n).1.symm, (dot o ho n).2.symm⟩
  · exact ⟨(par o ho n hn).1.symm, (par o ho n hn).2.symm⟩

/-! ## Checking a multipoint problem by its slots -/

/-- What is known of a cycle. -/
structure Fit (c : Cycle) (k : Skel) (ps : List Slot) : Prop where
  ok : k.Ok
  parts : List.Forall₂ (fun s p => Part.Of p s) c.group.subs k.parts
  conns : c.group.conns = k.links.flatMap Link.conns ++ k.conns
  slots : List.Forall₂ (fun s p => Slot.Of p s) c.group.subs ps
  locals : ∀ s ∈ c.others, s.Local

theorem Fit.accepted {c : Cycle} {k : Skel} {ps : List Slot} (h : Fit c k ps) : c.group.wiring.Accepted :=
  Group.accepted_of h.ok h.parts h.conns
theorem Fit.out {c : Cycle} {k : Skel} {ps : List Slot} (h : Fit c k ps) {n : String} (hn : Slots.gives ps n = true) :
    n ∈ c.group.wiring.outs := Slots.mem_outs h.slots hn
theorem Fit.free {c : Cycle} {k : Skel} {ps : List Slot} (h : Fit c k ps) {n : String} (hn : Slots.free ps k n = true) :
    n ∈ c.group.wiring.externals := Slots.mem_externals h.ok h.parts h.conns h.slots hn

/-- The check of the design point. -/
def okDes (params : List String) (conns : List (String × String)) (k : Skel) (ps : List Slot) : Bool :=
  (params.all fun n => Slots.free ps k n) && conns.all fun c => Slots.gives ps c.1
/-- The check of an off-design point. -/
def okOd (params : List String) (conns : List (String × String)) (k : Skel) (ps : List Slot) : Bool :=
  (params.all fun n => Slots.free ps k n) && conns.all fun c => Slots.free ps k c.2 && !params.contains c.2

theorem sound_of (hn : (m.points.map (·.name)).Nodup) (hp : ∀ o ∈ m.points, Plain o.name)
    (hd : ∃ k ps, Fit m.des.cycle k ps ∧ okDes m.params m.desOd k ps = true)
    (ho : ∀ o ∈ m.ods, ∃ k ps, Fit o.cycle k ps ∧ okOd m.params m.desOd k ps = true) (h1 : (m.desOd.map (·.2)).Nodup)
    (h2 : ∀ x ∈ m.extra, ∃ o ∈ m.points, o.name = x.1.1 ∧ x.1.2 ∈ o.cycle.group.wiring.outs)
    (h3 : ∀ x ∈ m.extra, ∃ o ∈ m.points, o.name = x.2.1 ∧ x.2.2 ∈ o.cycle.group.wiring.externals ∧ x.2.2 ∉ m.params
      ∧ x.2.2 ∉ m.desOd.map (·.2))
    (h4 : (m.extra.map (·.2)).Nodup) : m.Sound := by
  obtain ⟨k, ps, f, fc⟩ := hd
  simp only [okDes, Bool.and_eq_true, List.all_eq_true] at fc
  have hfit : ∀ o ∈ m.points, ∃ k ps, Fit o.cycle k ps ∧ ∀ n ∈ m.params, Slots.free ps k n = true := by
    intro o ho'
    rcases List.mem_cons.mp ho' with rfl | ho'
    · exact ⟨k, ps, f, fc.1⟩
    · obtain ⟨k, ps, g, gc⟩ := ho o ho'
      simp only [okOd, Bool.and_eq_true, List.all_eq_true] at gc
      exact ⟨k, ps, g, gc.1⟩
  refine ⟨hn, hp, fun o ho => ?_, fun o ho => ?_, fun n hn o ho => ?_, fun c hc => f.out (fc.2 c hc), fun c hc o ho' => ?_,
    h1, h2, h3, h4⟩
  · obtain ⟨k, ps, g, -⟩ := hfit o ho; exact g.accepted
  · obtain ⟨k, ps, g, -⟩ := hfit o ho; exact g.locals
  · obtain ⟨k, ps, g, gc⟩ := hfit o ho; exact g.free (gc n hn)
  · obtain ⟨k, ps, g, gc⟩ := ho o ho'
    simp only [okOd, Bool.and_eq_true, List.all_eq_true, Bool.not_eq_true', List.contains_eq_mem,
      decide_eq_false_iff_not] at gc
    exact ⟨g.free (gc.2 c hc).1, (gc.2 c hc).2⟩

/-- For off-design points that differ in name only. -/
theorem sound_of_same {m : Multi} {x : String} {d o : Cycle} {names : List String} (hdes : m.des = ⟨x, d⟩)
    (hods : m.ods = names.map fun n => ⟨n, o⟩) (hn : (x :: names).Nodup) (hp : ∀ n ∈ x :: names, Plain n) {k k' : Skel}
    {ps ps' : List Slot} (fd : Fit d k ps) (fo : Fit o k' ps') (hx : m.extra = []) {P : List String}
    {C : List (String × String)} (eP : m.params = P) (eC : m.desOd = C)
    (hc : okDes P C k ps = true ∧ okOd P C k' ps' = true) (h1 : (C.map (·.2)).Nodup) : m.Sound := by
  subst eP eC
  refine sound_of ?_ ?_ ⟨k, ps, by rw [hdes]; exact fd, hc.1⟩ ?_ h1 (by simp [hx]) (by simp [hx]) (by simp [hx])
  · simpa [points, hdes, hods, List.map_map, Function.comp_def] using hn
  · intro q hq
    refine hp q.name ?_
    rw [points, hdes, hods] at hq
    rcases List.mem_cons.mp hq with rfl | hq
    · exact List.mem_cons_self ..
    · obtain ⟨n, hn, rfl⟩ := List.mem_map.mp hq
      exact List.mem_cons_of_mem _ hn
  · intro q hq
    rw [hods] at hq
    obtain ⟨n, -, rfl⟩ := List.mem_map.mp hq
    exact ⟨k', ps', fo, hc.2⟩

/-- What is passed under its own name is kept. -/
theorem keeps_passed {names : List String} (h : ∀ n ∈ names, (n, n) ∈ m.desOd) : m.Keeps names := by
  intro E hE o ho n hn
  refine (hE.conn (a := m.des.name ++ "." ++ n) (b := o.name ++ "." ++ n) ?_).1.symm
  refine List.mem_append_left _ ?_
  simp only [passes, List.mem_flatMap, List.mem_map]
  exact ⟨(n, n), h n hn, o, ho, rfl⟩

/-- An output that equals an input off design is kept if it is passed to that input. -/
theorem Sound.keeps (h : m.Sound) {pairs : List (String × String)} (hp : ∀ c ∈ pairs, c ∈ m.desOd)
    (hl : ∀ o ∈ m.ods, ∀ c ∈ pairs, c.1 ∈ o.cycle.group.wiring.outs ∧ ∀ W, o.cycle.Solved W → W.num c.1 = W.num c.2) :
    m.Keeps (pairs.map (·.1)) := by
  intro E hE o ho n hn
  obtain ⟨c, hc, rfl⟩ := List.mem_map.mp hn
  obtain ⟨W, hW⟩ := h.flies hE (List.mem_cons_of_mem _ ho)
  obtain ⟨V, hV⟩ := h.flies hE (o := m.des) (List.mem_cons_self ..)
  obtain ⟨h1, h2⟩ := hl o ho c hc
  have a := (hW.outs c.1 h1).1
  have b := (hV.outs c.1 (h.gives c (hp c hc))).1
  exact a.symm.trans ((h2 W hW.solved).trans ((h.passed hE ho hV hW (hp c hc)).1.trans b))

/-- For off-design points that differ in name only. -/
theorem Sound.keeps_same (h : m.Sound) {o : Cycle} {names : List String} (hods : m.ods = names.map fun n => ⟨n, o⟩)
    {k : Skel} {ps : List Slot} (fo : Fit o k ps) {C pairs : List (String × String)} (hC : m.desOd = C)
    (hp : (pairs.all fun c => C.contains c && Slots.gives ps c.1) = true)
    (hl : ∀ W, o.Solved W → ∀ c ∈ pairs, W.num c.1 = W.num c.2) : m.Keeps (pairs.map (·.1)) := by
  subst hC
  simp only [List.all_eq_true, Bool.and_eq_true, List.contains_iff_mem] at hp
  refine h.keeps (fun c hc => (hp c hc).1) ?_
  intro q hq c hc
  rw [hods] at hq
  obtain ⟨n, -, rfl⟩ := List.mem_map.mp hq
  exact ⟨fo.out (hp c hc).2, fun W hW => hl W hW c hc⟩

/-- Exits and the areas given for them. -/
def areaPairs (xs : List String) : List (String × String) :=
  xs.map fun x => (x ++ "." ++ "Fl_O:stat:area", x ++ "." ++ "area")

theorem areaPairs_law {xs : List String} {W : Env}
    (h : ∀ x ∈ xs, W.num (x ++ "." ++ "Fl_O:stat:area") = W.num (x ++ "." ++ "area")) :
    ∀ c ∈ areaPairs xs, W.num c.1 = W.num c.2 := by
  intro c hc
  obtain ⟨x, hx, rfl⟩ := List.mem_map.mp hc
  exact h x hx

theorem areaPairs_fst (xs : List String) : (areaPairs xs).map (·.1) = exitAreas xs := by
  simp [areaPairs, exitAreas, List.map_map, Function.comp_def]

theorem law_append {a b : List (String × String)} {W : Env} (ha : ∀ c ∈ a, W.num c.1 = W.num c.2)
    (hb : ∀ c ∈ b, W.num c.1 = W.num c.2) : ∀ c ∈ a ++ b, W.num c.1 = W.num c.2 :=
  fun c hc => (List.mem_append.mp hc).elim (ha c) (hb c)

theorem Keeps.append {a b : List String} (ha : m.Keeps a) (hb : m.Keeps b) : m.Keeps (a ++ b) :=
  fun E hE o ho n hn => (List.mem_append.mp hn).elim (ha E hE o ho n) (hb E hE o ho n)

theorem Keeps.sub {a b : List String} (hb : m.Keeps b) (h : ∀ n ∈ a, n ∈ b) : m.Keeps a :=
  fun E hE o ho n hn => hb E hE o ho n (h n hn)

end Multi
end PyCycle.OM
