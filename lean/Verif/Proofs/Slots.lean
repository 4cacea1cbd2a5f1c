import Verif.Proofs.Ifaces

/-! # Sizes and settings of the elements of an engine

What an element of an engine offers and takes besides its ports: sizes, map scalars, losses, bleed fractions. -/

namespace PyCycle.OM

/-- A subsystem of an engine: some of its outputs, some of its inputs. -/
structure Slot where
  name : String
  promI : List Prom
  outs : List String
  ins : List String

/-- A subsystem has these. -/
structure Slot.Of (p : Slot) (s : Sub) : Prop where
  name : s.name = p.name
  promI : s.promI = p.promI
  promO : s.promO = []
  outs : ∀ v ∈ p.outs, v ∈ s.outs
  ins : ∀ v ∈ p.ins, v ∈ s.ins ∧ v ∉ s.outs

theorem Slot.Of.element {p : Slot} {g : Group} (h4 : ∀ v ∈ p.outs, v ∈ g.wiring.outs)
    (h5 : ∀ v ∈ p.ins, v ∈ g.wiring.externals) : p.Of (g.asSub p.name p.promI []) :=
  ⟨rfl, rfl, rfl, h4, fun v hv => ⟨h5 v hv, mem_externals_not_out (h5 v hv)⟩⟩

theorem Slot.Of.comp {s : Sub} (h0 : s.promO = []) (h : ∀ v ∈ s.ins, v ∉ s.outs) :
    Slot.Of ⟨s.name, s.promI, s.outs, s.ins⟩ s :=
  ⟨rfl, rfl, h0, fun _ h => h, fun v hv => ⟨hv, h v hv⟩⟩

namespace Slots

/-- Name of an output among the slots. -/
def gives (ps : List Slot) (n : String) : Bool := ps.any fun p => p.name == (cut n).1 &&
  p.outs.any fun v => n == p.name ++ "." ++ v

/-- Name of an input among the slots. -/
def takes (ps : List Slot) (n : String) : Bool :=
  (ps.any fun p => p.name == (cut n).1 && p.ins.any fun v => promoted p.promI v == none && n == p.name ++ "." ++ v)
  || (decide (Plain n) && ps.any fun p => p.ins.any fun v => promoted p.promI v == some n)

/-- Name of an input that no connection feeds. -/
def free (ps : List Slot) (k : Skel) (n : String) : Bool :=
  takes ps n && !((k.conns.map (·.2)).contains n) && k.okFresh n

variable {g : Group} {ps : List Slot}

theorem mem_outs (hg : List.Forall₂ (fun s p => Slot.Of p s) g.subs ps) {n : String} (h : gives ps n = true) :
    n ∈ g.wiring.outs := by
  simp only [gives, List.any_eq_true, Bool.and_eq_true, beq_iff_eq] at h
  obtain ⟨p, hp, -, v, hv, rfl⟩ := h
  obtain ⟨s, hs, i⟩ := forall₂_right hg p hp
  simp only [Wiring.outs, Group.wiring, List.mem_flatMap, List.mem_map]
  exact ⟨_, ⟨s, hs, rfl⟩, v, i.outs v hv, by rw [outName_plain i.promO, i.name]⟩

theorem hasIn (hg : List.Forall₂ (fun s p => Slot.Of p s) g.subs ps) {n : String} (h : takes ps n = true) : g.HasIn n := by
  simp only [takes, List.any_eq_true, Bool.and_eq_true, beq_iff_eq, Bool.or_eq_true, decide_eq_true_eq] at h
  rcases h with ⟨p, hp, -, v, hv, h, rfl⟩ | ⟨hn, p, hp, v, hv, h⟩
  all_goals obtain ⟨s, hs, i⟩ := forall₂_right hg p hp
  · exact ⟨s, hs, v, (i.ins v hv).1, (i.ins v hv).2, Or.inl ⟨by rw [i.promI, h], by rw [i.name]⟩⟩
  · exact ⟨s, hs, v, (i.ins v hv).1, (i.ins v hv).2, Or.inr ⟨by rw [i.promI, h], hn⟩⟩

theorem hasIn_mem {n : String} (h : g.HasIn n) : n ∈ g.wiring.ins := by
  obtain ⟨s, hs, v, hv, -, hi⟩ := h
  simp only [Wiring.ins, Group.wiring, List.mem_flatMap, List.mem_map]
  refine ⟨_, ⟨s, hs, rfl⟩, v, hv, ?_⟩
  rcases hi with ⟨k, e⟩ | ⟨k, -⟩
  · simp [Decl.inName, k, e]
  · simp [Decl.inName, k]

theorem hasIn_not_out (hn : (g.subs.map (·.name)).Nodup) (hp : ∀ s ∈ g.subs, Plain s.name ∧ s.promO = []) {n : String}
    (h : g.HasIn n) : n ∉ g.wiring.outs := by
  obtain ⟨s, hs, v, hv, hvo, hi⟩ := h
  simp only [Wiring.outs, Group.wiring, List.mem_flatMap, List.mem_map]
  rintro ⟨_, ⟨t, ht, rfl⟩, u, hu, e⟩
  rw [outName_plain (hp t ht).2] at e
  rcases hi with ⟨-, e'⟩ | ⟨-, k⟩
  · rw [e'] at e
    obtain ⟨e1, rfl⟩ := dot_split (hp t ht).1 (hp s hs).1 e
    have := List.inj_on_of_nodup_map hn ht hs e1
    subst this
    exact hvo hu
  · have : '.' ∈ n.toList := by rw [← e]; simp [String.toList_append]
    have := k _ this
    simp [isSep] at this

theorem mem_externals_of {k : Skel} (hk : k.Ok) (hp : List.Forall₂ (fun s p => Part.Of p s) g.subs k.parts)
    (hw : g.wiring.Wired) (hc : ∀ x ∈ g.conns, x ∈ k.links.flatMap Link.conns ++ k.conns)
    (hg : List.Forall₂ (fun s p => Slot.Of p s) g.subs ps) {n : String} (h : free ps k n = true) :
    n ∈ g.wiring.externals := by
  simp only [free, Bool.and_eq_true, Bool.not_eq_true', List.contains_eq_mem, decide_eq_false_iff_not] at h
  obtain ⟨⟨h1, h2⟩, h3⟩ := h
  have hi := hasIn hg h1
  rw [Wiring.mem_externals hw]
  refine ⟨hasIn_mem hi, hasIn_not_out ?_ ?_ hi, ?_⟩
  · have := hw.1
    simpa [Group.wiring, List.map_map, Function.comp_def] using this
  · intro s hs
    obtain ⟨p, hp', e, -, e', -⟩ := forall₂_left hp s hs
    exact ⟨e ▸ hk.plain p hp', e'⟩
  · intro hm
    obtain ⟨x, hx, e⟩ := List.mem_map.mp (show n ∈ g.conns.map (·.2) from hm)
    have hm : n ∈ (k.links.flatMap Link.conns ++ k.conns).map (·.2) := e ▸ List.mem_map_of_mem (hc x hx)
    clear hx e x
    rw [List.map_append, List.mem_append] at hm
    rcases hm with hm | hm
    · obtain ⟨x, hx, rfl⟩ := List.mem_map.mp hm
      obtain ⟨l, hl, hx⟩ := List.mem_flatMap.mp hx
      obtain ⟨y, hy, rfl⟩ := List.mem_map.mp hx
      obtain ⟨v, v', -, -, hv, hw', rfl⟩ := link_pairs l y hy
      have e : FlowVar.render ⟨[l.tgt.1, l.tgt.2], v'⟩ = l.tgt.1 ++ "." ++ (l.tgt.2 ++ ":" ++ v') := Cycle.render_pair _ _ _
      simp only [Skel.okFresh, List.all_eq_true, Bool.or_eq_true, Bool.not_eq_true', beq_eq_false_iff_ne, Bool.and_eq_true,
        beq_iff_eq] at h3
      rw [e] at h3
      rcases h3 l hl with h | h
      · rw [cut_dot (hk.links l hl).2.1] at h
        exact h rfl
      · rcases h v' hv with ⟨q, q'⟩ | q
        · rcases hw' with w | w
          · exact w q
          · rw [w] at q'; cases q'
        · rw [cut_dot (hk.links l hl).2.1] at q
          exact q rfl
    · exact h2 hm

theorem mem_externals {k : Skel} (hk : k.Ok) (hp : List.Forall₂ (fun s p => Part.Of p s) g.subs k.parts)
    (hc : g.conns = k.links.flatMap Link.conns ++ k.conns)
    (hg : List.Forall₂ (fun s p => Slot.Of p s) g.subs ps) {n : String} (h : free ps k n = true) :
    n ∈ g.wiring.externals :=
  mem_externals_of hk hp (Group.accepted_of hk hp hc).1 (fun x hx => hc ▸ hx) hg h

/-! ## Elements -/

def fc (x : String) (more : List String) : Slot := ⟨x, [], [], ["alt", "dTs", "MN", "W"] ++ more⟩
def inlet (x : String) (d : Bool) : Slot :=
  ⟨x, [], ["Fl_O:stat:area"], ["ram_recovery"] ++ if d then ["MN"] else ["area"]⟩
def comp (x : String) (pI : List Prom) (bs : List String) (d : Bool) : Slot :=
  ⟨x, pI, "Fl_O:stat:area" :: (if d then ["s_Wc", "s_PR", "s_eff", "s_Nc"] else []),
    (bs.flatMap fun b => [b ++ ":frac_W", b ++ ":frac_P", b ++ ":frac_work"])
      ++ if d then ["MN", "PR", "eff"] else ["area", "s_Wc", "s_PR", "s_eff", "s_Nc"]⟩
def splitter (x : String) (d : Bool) : Slot :=
  ⟨x, [], ["Fl_O1:stat:area", "Fl_O2:stat:area"], "BPR" :: if d then ["MN1", "MN2"] else ["area1", "area2"]⟩
def duct (x : String) (d : Bool) : Slot := ⟨x, [], ["Fl_O:stat:area"], "dPqP" :: if d then ["MN"] else ["area"]⟩
def bleedOut (x : String) (bs : List String) (d : Bool) : Slot :=
  ⟨x, [], ["Fl_O:stat:area"], (bs.map fun b => b ++ ":frac_W") ++ if d then ["MN"] else ["area"]⟩
def burner (x : String) (d : Bool) : Slot :=
  ⟨x, [], ["Fl_O:stat:area"], ["dPqP", "Fl_I:FAR"] ++ if d then ["MN"] else ["area"]⟩
def turb (x : String) (pI : List Prom) (bs : List String) (d : Bool) : Slot :=
  ⟨x, pI, "Fl_O:stat:area" :: (if d then ["s_Wp", "s_PR", "s_eff", "s_Np"] else []),
    (bs.map fun b => b ++ ":frac_P") ++ if d then ["MN", "PR", "eff"] else ["area", "s_Wp", "s_PR", "s_eff", "s_Np"]⟩
def nozz (x : String) (l : Noz.Loss) : Slot := ⟨x, [], ["Throat:stat:area"], nozInputs l⟩
def mixer (x : String) (d : Bool) : Slot :=
  ⟨x, [], ["Fl_O:stat:area", "Fl_I1_calc:stat:area"], if d then [] else ["area", "Fl_I1_stat_calc.area"]⟩

section
open C49
variable (gas : (ℕ → ℝ) → TPGas) (x : String)

theorem fc_of : (fc x []).Of ((flightConditions gas none).asSub x [] []) := by
  refine .element (p := fc x []) (by simp [fc]) ?_
  intro v hv; rw [(C49_flight_interface gas none).2]
  simp only [fc, List.append_nil] at hv
  exact List.mem_append_left _ hv

theorem outletArea {i : Iface} {s : Sub} (h : i.Of s) {p : String} (hp : p ∈ i.outlets) : p ++ ":" ++ "stat:area" ∈ s.outs :=
  h.outlets p hp _ (by decide)

theorem inlet_of (d : Bool) : (inlet x d).Of ((OM.inlet gas d true).asSub x [] []) := by
  refine .element (p := inlet x d) ?_ ?_
  · intro v hv; obtain rfl := List.mem_singleton.mp hv
    exact outletArea (p := "Fl_O") (Ifaces.inlet_of gas x [] [] d) (by simp [Ifaces.inlet])
  · intro v hv; rw [(C50_inlet_interface gas d true).2]
    have h : ∀ d, ∀ v ∈ (inlet "" d).ins, v ∈ inletPort ++ ["flow_in.Fl_I:FAR", "ram_recovery"]
        ++ (if true then if d then ["MN"] else ["area", "out_stat.guess:MN"] else []) := by decide +kernel
    exact h d v hv

theorem splitter_of (d : Bool) : (splitter x d).Of ((OM.splitter gas d true).asSub x [] []) := by
  have hi := Ifaces.splitter_of gas x [] [] d
  refine .element (p := splitter x d) ?_ ?_
  · intro v hv
    simp only [splitter, List.mem_cons, List.not_mem_nil, or_false] at hv
    rcases hv with rfl | rfl
    · exact outletArea (p := "Fl_O1") hi (by simp [Ifaces.splitter])
    · exact outletArea (p := "Fl_O2") hi (by simp [Ifaces.splitter])
  · intro v hv; rw [(C50_splitter_interface gas d true).2]
    have h : ∀ d, ∀ v ∈ (splitter "" d).ins, v ∈ flowVarNames "Fl_I" ++ ["BPR"]
          ++ (if true then if d then ["MN1", "MN2"]
            else ["area1", "area2", "out1_stat.guess:MN", "out2_stat.guess:MN"] else []) := by decide +kernel
    exact h d v hv

theorem duct_of (d : Bool) (e : ℝ) : (duct x d).Of ((OM.duct gas d true e false).asSub x [] []) := by
  refine .element (p := duct x d) ?_ ?_
  · intro v hv; obtain rfl := List.mem_singleton.mp hv
    exact outletArea (p := "Fl_O") (Ifaces.duct_of gas x [] [] d e false) (by simp [Ifaces.duct])
  · intro v hv; rw [(C50_duct_interface gas d true e false).2]
    have h : ∀ d, ∀ v ∈ (duct "" d).ins, v ∈ inletPort ++ ["flow_in.Fl_I:FAR"] ++ ductInputs d true false := by
      decide +kernel
    exact h d v hv

theorem burner_of (a : Adder) (d : Bool) : (burner x d).Of ((combustor gas a d true).asSub x [] []) := by
  refine .element (p := burner x d) ?_ ?_
  · intro v hv; obtain rfl := List.mem_singleton.mp hv
    exact outletArea (p := "Fl_O") (Ifaces.burner_of gas x [] [] a d) (by simp [Ifaces.burner])
  · intro v hv; rw [(C48_interface gas a d true).2]
    have h : ∀ d, ∀ v ∈ (burner "" d).ins, v ∈ (flowVarNames "Fl_I").filter (· ≠ "Fl_I:FAR") ++ ["in_flow.Fl_I:FAR"]
          ++ ["Fl_I:FAR", "dPqP", "mix_fuel.mix:h"]
          ++ (if true then if d then ["MN"] else ["area", "out_stat.guess:MN"] else []) := by decide +kernel
    exact h d v hv

theorem nozz_of (k : Noz.NozzType) (l : Noz.Loss) : (nozz x l).Of ((nozzle gas k l).asSub x [] []) := by
  refine .element (p := nozz x l) ?_ ?_
  · intro v hv; obtain rfl := List.mem_singleton.mp hv
    exact (Ifaces.nozz_of gas x [] [] k l).outs _ (by simp [Ifaces.nozz])
  · intro v hv; rw [(C52_interface gas k l).2]; exact List.mem_append_right _ hv

theorem mixer_of (a : FlowAdder) (d : Bool) : (mixer x d).Of ((OM.mixer gas a true d).asSub x [] []) := by
  refine .element (p := mixer x d) ?_ ?_
  · have e : (OM.mixer gas a true d).wiring = (OM.mixer gas0 (.tab 1) true d).wiring := by cases d <;> rfl
    have h : ∀ d, ∀ v ∈ (mixer "" d).outs, v ∈ (OM.mixer gas0 (.tab 1) true d).wiring.outs := by decide +kernel
    rw [e]; exact h d
  · intro v hv; rw [(C51_interface gas a true d).2]
    have h : ∀ d, ∀ v ∈ (mixer "" d).ins, v ∈ mixInputs true d := by decide +kernel
    exact List.mem_append_right _ (h d v hv)

theorem bleedOut_of {bs : List String} (hb : BleedNames bleedTails bleedOutReserved bs) (hne : bs ≠ []) (d : Bool) :
    (bleedOut x bs d).Of ((OM.bleedOut gas bs d true).asSub x [] []) := by
  refine .element (p := bleedOut x bs d) ?_ ?_
  · intro v hv; obtain rfl := List.mem_singleton.mp hv
    exact outletArea (p := "Fl_O") (Ifaces.bleedOut_of gas x [] [] hb hne d) (by simp [Ifaces.bleedOut])
  · intro v hv; rw [(C53_interface gas hb hne d true).2]
    rcases List.mem_append.mp hv with hv | hv
    · obtain ⟨b, hb, rfl⟩ := List.mem_map.mp hv
      exact Or.inr ⟨b, hb, rfl⟩
    · have h : ∀ d : Bool, ∀ v ∈ (if d then ["MN"] else ["area"]), v ∈ inletPort ++ ["flow_in.Fl_I:FAR"]
          ++ (if true then if d then ["MN"] else ["area", "out_stat.guess:MN"] else []) := by decide +kernel
      exact Or.inl (h d v hv)

theorem comp_of (pI : List Prom) (m : Map.CMap) {bs : List String} (hb : BleedNames compressorTails compressorReserved bs)
    (d : Bool) : (comp x pI bs d).Of ((compressor gas m bs d true).asSub x pI []) := by
  have ho : ∀ n ∈ (CompNames.w₀ d true).outs, n ∈ (compressor gas m bs d true).wiring.outs := fun n hn => by
    rw [(CompNames.ext gas m d true).outs.mem_iff]; exact List.mem_append_left _ hn
  refine .element (p := comp x pI bs d) ?_ ?_
  · have h : ∀ d, ∀ v ∈ (comp "" [] [] d).outs, v ∈ (CompNames.w₀ d true).outs := by decide +kernel
    exact fun v hv => ho v (h d v hv)
  · intro v hv; rw [(C55_interface gas m hb d true).2]
    rcases List.mem_append.mp hv with hv | hv
    · obtain ⟨b, hb, hv⟩ := List.mem_flatMap.mp hv
      refine Or.inr ⟨b, hb, ?_⟩
      simp only [List.mem_cons, List.not_mem_nil, or_false] at hv
      rcases hv with rfl | rfl | rfl
      exacts [⟨":frac_W", by simp, rfl⟩, ⟨":frac_P", by simp, rfl⟩, ⟨":frac_work", by simp, rfl⟩]
    · have h : ∀ d, ∀ v ∈ (comp "" [] [] d).ins, v ∈ flowVarNames "Fl_I" ++ compressorInputs d true := by decide +kernel
      exact Or.inl (h d v hv)

theorem turb_of (pI : List Prom) (gb : String → (ℕ → ℝ) → TPGas) (m : Map.TMap) (a : BleedAdder) {bs : List String}
    (hb : BleedNames turbineTails turbineReserved bs) (d : Bool) :
    (turb x pI bs d).Of ((turbine gas gb m a bs d true).asSub x pI []) := by
  have ho : ∀ n ∈ (TurbNames.w₀ d true).outs, n ∈ (turbine gas gb m a bs d true).wiring.outs := fun n hn => by
    rw [(TurbNames.ext hb.plain gas gb m a d true).outs.mem_iff]; exact List.mem_append_left _ hn
  refine .element (p := turb x pI bs d) ?_ ?_
  · have h : ∀ d, ∀ v ∈ (turb "" [] [] d).outs, v ∈ (TurbNames.w₀ d true).outs := by decide +kernel
    exact fun v hv => ho v (h d v hv)
  · intro v hv; rw [(C56_interface gas gb m a hb d true).2]
    rcases List.mem_append.mp hv with hv | hv
    · obtain ⟨b, hb, rfl⟩ := List.mem_map.mp hv
      exact Or.inr ⟨b, hb, by simp⟩
    · have h : ∀ d, ∀ v ∈ (turb "" [] [] d).ins, v ∈ flowVarNames "Fl_I" ++ turbineInputs d true := by decide +kernel
      exact Or.inl (h d v hv)

end
end Slots

/-! ## Areas off design -/

theorem promoted_nil (v : String) : promoted [] v = none := rfl

namespace Cycle.Solved
variable {c : Cycle} {E : Env} (h : c.Solved E)
include h

/-- A law between an output and an input of an element, in the engine. -/
theorem law {x : String} {g : Group} {pI : List Prom} (hm : ⟨x, g, pI, []⟩ ∈ c.members) {p : Slot}
    (hs : p.Of (g.asSub x pI [])) {a b : String} (hl : ∀ V, g.Converged V → V.num a = V.num b) (ha : a ∈ p.outs)
    (hb : b ∈ p.ins) (hn : promoted pI b = none) : E.num (x ++ "." ++ a) = E.num (x ++ "." ++ b) := by
  obtain ⟨V, h1, h2, h3⟩ := h.seen hm rfl
  have e : (⟨x, g, pI, []⟩ : Member).sub.inName b = x ++ "." ++ b := by simp [Decl.inName, Member.sub, Group.asSub, hn]
  have e1 := (h3 a (hs.outs a ha)).1
  have e2 := (h2 b (hs.ins b hb).1).1
  rw [e] at e2
  exact e1.symm.trans ((hl V h1).trans e2)

variable {x : String} {gas : (ℕ → ℝ) → TPGas}

theorem inlet_area (hm : ⟨x, inlet gas false true, [], []⟩ ∈ c.members) :
    E.num (x ++ "." ++ "Fl_O:stat:area") = E.num (x ++ "." ++ "area") :=
  h.law hm (Slots.inlet_of gas x false)
    (fun V hV => (C50_inlet gas false true V hV).2.2.2.2.2.2 rfl |>.size rfl)
    (by simp [Slots.inlet]) (by simp [Slots.inlet]) (promoted_nil _)

theorem duct_area {e : ℝ} (hm : ⟨x, duct gas false true e false, [], []⟩ ∈ c.members) :
    E.num (x ++ "." ++ "Fl_O:stat:area") = E.num (x ++ "." ++ "area") :=
  h.law hm (Slots.duct_of gas x false e)
    (fun V hV => (C50_duct gas false true e false V hV).2.2.2.2.2.2 rfl |>.size rfl)
    (by simp [Slots.duct]) (by simp [Slots.duct]) (promoted_nil _)

theorem burner_area {a : Adder} (hm : ⟨x, combustor gas a false true, [], []⟩ ∈ c.members) :
    E.num (x ++ "." ++ "Fl_O:stat:area") = E.num (x ++ "." ++ "area") :=
  h.law hm (Slots.burner_of gas x a false)
    (fun V hV => (C48_static gas a false V hV).2.2.1 rfl)
    (by simp [Slots.burner]) (by simp [Slots.burner]) (promoted_nil _)

theorem splitter_areas (hm : ⟨x, splitter gas false true, [], []⟩ ∈ c.members) :
    E.num (x ++ "." ++ "Fl_O1:stat:area") = E.num (x ++ "." ++ "area1")
    ∧ E.num (x ++ "." ++ "Fl_O2:stat:area") = E.num (x ++ "." ++ "area2") :=
  ⟨h.law hm (Slots.splitter_of gas x false)
    (fun V hV => ((C50_splitter gas false true V hV).2.2.2.2 rfl).1.size rfl)
    (by simp [Slots.splitter]) (by simp [Slots.splitter]) (promoted_nil _),
   h.law hm (Slots.splitter_of gas x false)
    (fun V hV => ((C50_splitter gas false true V hV).2.2.2.2 rfl).2.size rfl)
    (by simp [Slots.splitter]) (by simp [Slots.splitter]) (promoted_nil _)⟩

theorem bleedOut_area {bs : List String} (hb : BleedNames bleedTails bleedOutReserved bs) (hne : bs ≠ [])
    (hm : ⟨x, bleedOut gas bs false true, [], []⟩ ∈ c.members) :
    E.num (x ++ "." ++ "Fl_O:stat:area") = E.num (x ++ "." ++ "area") :=
  h.law hm (Slots.bleedOut_of gas x hb hne false)
    (fun V hV => (C53_bleed_out gas hb false true V hV).2.2.2.2.2.2.2 rfl |>.size rfl)
    (by simp [Slots.bleedOut]) (by simp [Slots.bleedOut]) (promoted_nil _)

theorem compressor_area {m : Map.CMap} {bs : List String} (hb : BleedNames compressorTails compressorReserved bs)
    {pI : List Prom} (hm : ⟨x, compressor gas m bs false true, pI, []⟩ ∈ c.members) (hp : promoted pI "area" = none) :
    E.num (x ++ "." ++ "Fl_O:stat:area") = E.num (x ++ "." ++ "area") :=
  h.law hm (Slots.comp_of gas x pI m hb false)
    (fun V hV => (C55_compressor gas m hb false true V hV).2 rfl |>.size rfl)
    (by simp [Slots.comp]) (by simp [Slots.comp]) hp

theorem turbine_area {gb : String → (ℕ → ℝ) → TPGas} {m : Map.TMap} {a : BleedAdder} {bs : List String}
    (hb : BleedNames turbineTails turbineReserved bs) {pI : List Prom}
    (hm : ⟨x, turbine gas gb m a bs false true, pI, []⟩ ∈ c.members) (hp : promoted pI "area" = none) :
    E.num (x ++ "." ++ "Fl_O:stat:area") = E.num (x ++ "." ++ "area") :=
  h.law hm (Slots.turb_of gas x pI gb m a hb false)
    (fun V hV => (C56_turbine gas gb m a hb false true V hV).2.1 rfl |>.size rfl)
    (by simp [Slots.turb]) (by simp [Slots.turb]) hp

theorem mixer_areas {a : FlowAdder} (hm : ⟨x, mixer gas a true false, [], []⟩ ∈ c.members) :
    E.num (x ++ "." ++ "Fl_O:stat:area") = E.num (x ++ "." ++ "area")
    ∧ E.num (x ++ "." ++ "Fl_I1_calc:stat:area") = E.num (x ++ "." ++ "Fl_I1_stat_calc.area") :=
  ⟨h.law hm (Slots.mixer_of gas x a false)
    (fun V hV => (C51_momentum gas a true false V hV).2.1)
    (by simp [Slots.mixer]) (by simp [Slots.mixer]) (promoted_nil _),
   h.law hm (Slots.mixer_of gas x a false)
    (fun V hV => (C51_recomputed gas a true false V hV).2.2.2.2.1 rfl)
    (by simp [Slots.mixer]) (by simp [Slots.mixer]) (promoted_nil _)⟩

end Cycle.Solved
end PyCycle.OM
