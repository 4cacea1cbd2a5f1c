import Verif.Props.C69_Engines

/-! # C69: the two ducts left out

`MPMultiSpool` passes no area to `duct6` and `MPMixedFlowTurbofan` none to `inlet_duct`. Off design the size of that duct
is an input of the problem that nothing feeds: the user's default, not the size that was designed. -/

namespace PyCycle.OM

/-- An input of a point that is not passed, handed or a cycle parameter is an input of the problem. -/
theorem Multi.Sound.left {m : Multi} (h : m.Sound) {o : Point} (ho : o ∈ m.points) {v : String}
    (hv : v ∈ o.cycle.group.wiring.externals) (hp : v ∉ m.params) (hc : v ∉ m.desOd.map (·.2)) (hx : m.extra = []) :
    o.name ++ "." ++ v ∈ m.cycle.group.wiring.externals := by
  have hi : m.cycle.group.HasIn (o.name ++ "." ++ v) :=
    ⟨(m.member o).sub, by rw [Multi.subs_eq]; exact List.mem_map_of_mem ho, v, hv, mem_externals_not_out hv,
      Or.inl ⟨by simp only [Member.sub, Group.asSub, Multi.member, promoted_vars, hp, if_false], rfl⟩⟩
  have ha := h.accepted_cycle
  rw [Wiring.mem_externals ha.1]
  refine ⟨Slots.hasIn_mem hi, Slots.hasIn_not_out ?_ ?_ hi, ?_⟩
  · rw [Multi.subs_eq, List.map_map]; exact h.names
  · rw [Multi.subs_eq]; intro s hs
    obtain ⟨q, hq, rfl⟩ := List.mem_map.mp hs
    exact ⟨h.plain q hq, rfl⟩
  · intro hm
    have hm : o.name ++ "." ++ v ∈ m.cycle.group.conns.map (·.2) := hm
    rw [Multi.conns_eq, hx, List.map_nil, List.append_nil] at hm
    simp only [Multi.passes, List.map_flatMap, List.mem_flatMap, List.map_map, List.mem_map] at hm
    obtain ⟨c, hc', q, hq, e⟩ := hm
    obtain ⟨-, e2⟩ := dot_split (h.plain q (List.mem_cons_of_mem _ hq)) (h.plain o ho) e
    exact hc (List.mem_map.mpr ⟨c, hc', e2⟩)

/-- Off design its area is that input. -/
theorem Multi.Sound.left_area {m : Multi} (h : m.Sound) {o : Point} (ho : o ∈ m.points) {k : Skel} {ps : List Slot}
    (fo : Multi.Fit o.cycle k ps) {a v : String} (hv : Slots.free ps k v = true) (ha : Slots.gives ps a = true)
    (hp : v ∉ m.params) (hc : v ∉ m.desOd.map (·.2)) (hx : m.extra = [])
    (hl : ∀ W, o.cycle.Solved W → W.num a = W.num v) :
    o.name ++ "." ++ v ∈ m.cycle.group.wiring.externals
    ∧ ∀ E, m.cycle.Solved E → E.num (o.name ++ "." ++ a) = E.num (o.name ++ "." ++ v) := by
  refine ⟨h.left ho (fo.free hv) hp hc hx, fun E hE => ?_⟩
  obtain ⟨W, hW⟩ := h.flies hE ho
  rw [← (hW.outs a (fo.out ha)).1, hl W hW.solved, (hW.ins v (fo.free hv) hp).1]

/-- **C69 (`duct6` of `MPMultiSpool`).** Its area off design is an input of the problem, which nothing sets. -/
theorem C69_multi_spool_duct6 (p : MstParts) {ods : List String} (hn : ("DESIGN" :: ods).Nodup)
    (hp : ∀ n ∈ ods, Plain n) : ∀ o ∈ ods,
    o ++ "." ++ "duct6.area" ∈ (mpMultiSpool p ods).cycle.group.wiring.externals
    ∧ ∀ E, (mpMultiSpool p ods).cycle.Solved E →
      E.num (o ++ "." ++ "duct6.Fl_O:stat:area") = E.num (o ++ "." ++ "duct6.area") := by
  intro o ho
  refine (MST.mpSound p hn hp).left_area (o := ⟨o, mst p false⟩) (List.mem_cons_of_mem _ (List.mem_map_of_mem ho))
    (MST.fit p false) (by decide +kernel) (by decide +kernel) ?_ ?_ rfl fun W hW => ?_
  · change "duct6.area" ∉ MST.mpParams; decide +kernel
  · change "duct6.area" ∉ MST.mpConns.map (·.2); decide +kernel
  · exact hW.duct_area (x := "duct6") (List.mem_of_getElem? (i := 9) rfl)

/-- **C69 (`inlet_duct` of `MPMixedFlowTurbofan`).** Likewise. -/
theorem C69_mixed_flow_inlet_duct (p : MftfParts) {ods : List String} (hn : ("DESIGN" :: ods).Nodup)
    (hp : ∀ n ∈ ods, Plain n) : ∀ o ∈ ods,
    o ++ "." ++ "inlet_duct.area" ∈ (mpMixedFlow p ods).cycle.group.wiring.externals
    ∧ ∀ E, (mpMixedFlow p ods).cycle.Solved E →
      E.num (o ++ "." ++ "inlet_duct.Fl_O:stat:area") = E.num (o ++ "." ++ "inlet_duct.area") := by
  intro o ho
  refine (MFTF.mpSound p hn hp).left_area (o := ⟨o, mftf p false⟩) (List.mem_cons_of_mem _ (List.mem_map_of_mem ho))
    (MFTF.fit p false) (by decide +kernel) (by decide +kernel) ?_ ?_ rfl fun W hW => ?_
  · change "inlet_duct.area" ∉ MFTF.mpParams; decide +kernel
  · change "inlet_duct.area" ∉ MFTF.mpConns.map (·.2); decide +kernel
  · exact hW.duct_area (x := "inlet_duct") (List.mem_of_getElem? (i := 2) rfl)

end PyCycle.OM
