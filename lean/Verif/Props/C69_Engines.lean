import Verif.Proofs.MultiSlots
import Verif.Proofs.MultiSlots2
import Verif.Props.C58_Turbojet
import Verif.Props.C60_Turbofan
import Verif.Props.C61_MixedFlow
import Verif.Props.C62_Turboshaft
import Verif.Props.C63_Propulsor
import Verif.Props.C67_MultiSpool
import Verif.Props.C68_WetTurbojet

/-! # C69: the multipoint examples

Each multipoint example is accepted whatever its off-design points are called, and each of its off-design points flies
the engine that was designed: same areas, same map scalars. Two examples leave out a duct. -/

namespace PyCycle.OM

theorem Multi.allOf {α : Type} {P : α → Prop} {x : α} {xs : List α} (h : P x) (t : ∀ y ∈ xs, P y) :
    ∀ y ∈ x :: xs, P y := List.forall_mem_cons.mpr ⟨h, t⟩

theorem Multi.allNil {α : Type} {P : α → Prop} : ∀ y ∈ ([] : List α), P y := by simp

/-- Areas and scalars of one engine. -/
theorem Multi.Sound.keeps_engine {m : Multi} (h : m.Sound) {o : Cycle} {names : List String}
    (hods : m.ods = names.map fun n => ⟨n, o⟩) {k : Skel} {ps : List Slot} (fo : Fit o k ps)
    {C : List (String × String)} (hC : m.desOd = C) {xs : List String} {extra : List (String × String)}
    {maps : List String}
    (hp : ((areaPairs xs ++ extra).all fun c => C.contains c && Slots.gives ps c.1) = true)
    (hm : (maps.all fun n => C.contains (n, n)) = true)
    (hx : ∀ W, o.Solved W → ∀ x ∈ xs, W.num (x ++ "." ++ "Fl_O:stat:area") = W.num (x ++ "." ++ "area"))
    (he : ∀ W, o.Solved W → ∀ c ∈ extra, W.num c.1 = W.num c.2) :
    m.Keeps (exitAreas xs ++ extra.map (·.1) ++ maps) := by
  have := h.keeps_same hods fo hC hp fun W hW => law_append (areaPairs_law (hx W hW)) (he W hW)
  rw [List.map_append, areaPairs_fst] at this
  refine this.append (keeps_passed fun n hn => ?_)
  simp only [List.all_eq_true, List.contains_iff_mem] at hm
  exact hC ▸ hm n hn

open Multi

/-- **C69 (`MPTurbojet`).** -/
theorem C69_turbojet (p : TjParts) {ods : List String} (hn : ("DESIGN" :: ods).Nodup) (hp : ∀ n ∈ ods, Plain n) :
    (mpTurbojet p ods).Sound
    ∧ (mpTurbojet p ods).Keeps (exitAreas ["inlet", "comp", "burner", "turb"] ++ ["nozz.Throat:stat:area"]
      ++ mapScalars ["comp"] ["turb"]) := by
  have s := Turbojet.mpSound p hn hp
  refine ⟨s, s.keeps_engine rfl (Turbojet.fit p false) (C := Turbojet.mpConns) rfl
    (extra := [("nozz.Throat:stat:area", "balance.rhs:W")]) (by decide +kernel) (by decide +kernel) ?_ ?_⟩
  · intro W hW
    have mem : ∀ {i a}, (p.cycle false).members[i]? = some a → a ∈ (p.cycle false).members := List.mem_of_getElem?
    exact allOf (hW.inlet_area (mem (i := 1) rfl)) <|
      allOf (hW.compressor_area Turbojet.noComp (mem (i := 2) rfl) (by decide)) <|
      allOf (hW.burner_area (mem (i := 3) rfl)) <|
      allOf (hW.turbine_area Turbojet.noTurb (mem (i := 4) rfl) (by decide)) allNil
  · exact fun W hW => allOf ((C58_targets hW).2.1 rfl).1 allNil

/-- **C69 (`MPWetTurbojet`).** -/
theorem C69_wet_turbojet (p : WetParts) {ods : List String} (hn : ("DESIGN" :: ods).Nodup) (hp : ∀ n ∈ ods, Plain n) :
    (mpWetTurbojet p ods).Sound
    ∧ (mpWetTurbojet p ods).Keeps (exitAreas ["inlet", "comp", "burner", "turb"] ++ ["nozz.Throat:stat:area"]
      ++ mapScalars ["comp"] ["turb"]) := by
  have s := WTJ.mpSound p hn hp
  refine ⟨s, s.keeps_engine rfl (WTJ.fit p false) (C := WTJ.mpConns) rfl
    (extra := [("nozz.Throat:stat:area", "balance.rhs:W")]) (by decide +kernel) (by decide +kernel) ?_ ?_⟩
  · intro W hW
    have mem : ∀ {i a}, (wtj p false).members[i]? = some a → a ∈ (wtj p false).members := List.mem_of_getElem?
    exact allOf (hW.inlet_area (mem (i := 1) rfl)) <|
      allOf (hW.compressor_area WTJ.compNames (mem (i := 2) rfl) (by decide)) <|
      allOf (hW.burner_area (mem (i := 3) rfl)) <|
      allOf (hW.turbine_area WTJ.turbNames (mem (i := 4) rfl) (by decide)) allNil
  · exact fun W hW => allOf ((C68_targets hW).2.1 rfl).2.1 allNil

/-- **C69 (`MPABTurbojet`).** Its nozzle is of variable throat: the throat is not passed. -/
theorem C69_afterburner (p : AbtjParts) {ods : List String} (hn : ("DESIGN" :: ods).Nodup) (hp : ∀ n ∈ ods, Plain n) :
    (mpABTurbojet p ods).Sound
    ∧ (mpABTurbojet p ods).Keeps (exitAreas ["inlet", "duct1", "comp", "burner", "turb", "ab"]
      ++ mapScalars ["comp"] ["turb"]) := by
  have s := ABTJ.mpSound p hn hp
  refine ⟨s, ?_⟩
  have := s.keeps_engine rfl (ABTJ.fit p false) (C := ABTJ.mpConns) rfl
    (xs := ["inlet", "duct1", "comp", "burner", "turb", "ab"])
    (extra := []) (maps := mapScalars ["comp"] ["turb"]) (by decide +kernel) (by decide +kernel) ?_ fun W hW => allNil
  · simpa only [List.map_nil, List.append_nil] using this
  · intro W hW
    have mem : ∀ {i a}, (abtj p false).members[i]? = some a → a ∈ (abtj p false).members := List.mem_of_getElem?
    exact allOf (hW.inlet_area (mem (i := 1) rfl)) <|
      allOf (hW.duct_area (mem (i := 2) rfl)) <|
      allOf (hW.compressor_area ABTJ.compNames (mem (i := 3) rfl) (by decide)) <|
      allOf (hW.burner_area (mem (i := 4) rfl)) <|
      allOf (hW.turbine_area ABTJ.turbNames (mem (i := 5) rfl) (by decide)) <|
      allOf (hW.burner_area (mem (i := 6) rfl)) allNil

/-- **C69 (`MPpropulsor`, `MPWetPropulsor`).** -/
theorem C69_propulsor (p : PropulsorParts) {ods : List String} (hn : ("design" :: ods).Nodup) (hp : ∀ n ∈ ods, Plain n) :
    (mpPropulsor p ods).Sound
    ∧ (mpPropulsor p ods).Keeps (exitAreas ["inlet", "fan"] ++ ["nozz.Throat:stat:area"] ++ mapScalars ["fan"] []) := by
  have s := Propulsor.mpSound p hn hp
  refine ⟨s, s.keeps_engine rfl (Propulsor.fit p false) (C := Propulsor.mpConns) rfl
    (extra := [("nozz.Throat:stat:area", "balance.rhs:W")]) (by decide +kernel) (by decide +kernel) ?_ ?_⟩
  · intro W hW
    have mem : ∀ {i a}, (propulsor p false).members[i]? = some a → a ∈ (propulsor p false).members :=
      List.mem_of_getElem?
    exact allOf (hW.inlet_area (mem (i := 1) rfl)) <|
      allOf (hW.compressor_area Turbojet.noComp (mem (i := 2) rfl) (by decide)) allNil
  · exact fun W hW => allOf ((C63_targets hW).2.2.1 rfl).1 allNil

/-- **C69 (`MPSingleSpool`).** -/
theorem C69_turboshaft (p : SstsParts) {ods : List String} (hn : ("DESIGN" :: ods).Nodup) (hp : ∀ n ∈ ods, Plain n) :
    (mpSingleSpool p ods).Sound
    ∧ (mpSingleSpool p ods).Keeps (exitAreas ["inlet", "comp", "burner", "turb", "pt"] ++ ["nozz.Throat:stat:area"]
      ++ mapScalars ["comp"] ["turb", "pt"]) := by
  have s := SSTS.mpSound p hn hp
  refine ⟨s, s.keeps_engine rfl (SSTS.fit p false) (C := SSTS.mpConns) rfl
    (extra := [("nozz.Throat:stat:area", "balance.rhs:W")]) (by decide +kernel) (by decide +kernel) ?_ ?_⟩
  · intro W hW
    have mem : ∀ {i a}, (ssts p false).members[i]? = some a → a ∈ (ssts p false).members := List.mem_of_getElem?
    exact allOf (hW.inlet_area (mem (i := 1) rfl)) <|
      allOf (hW.compressor_area Turbojet.noComp (mem (i := 2) rfl) (by decide)) <|
      allOf (hW.burner_area (mem (i := 3) rfl)) <|
      allOf (hW.turbine_area Turbojet.noTurb (mem (i := 4) rfl) (by decide)) <|
      allOf (hW.turbine_area Turbojet.noTurb (mem (i := 5) rfl) (by decide)) allNil
  · exact fun W hW => allOf ((C62_targets hW).2.2.1 rfl).1 allNil

/-- **C69 (`MPMultiSpool`).** All sizes but that of `duct6`. -/
theorem C69_multi_spool_partial (p : MstParts) {ods : List String} (hn : ("DESIGN" :: ods).Nodup) (hp : ∀ n ∈ ods, Plain n) :
    (mpMultiSpool p ods).Sound
    ∧ (mpMultiSpool p ods).Keeps (exitAreas ["inlet", "duct1", "lpc", "icduct", "hpc_axi", "bld25", "hpc_centri", "bld3",
        "burner", "hpt", "duct43", "lpt", "itduct", "pt", "duct12"] ++ ["nozzle.Throat:stat:area"]
      ++ mapScalars ["lpc", "hpc_axi", "hpc_centri"] ["hpt", "lpt", "pt"]) := by
  have s := MST.mpSound p hn hp
  refine ⟨s, s.keeps_engine rfl (MST.fit p false) (C := MST.mpConns) rfl
    (extra := [("nozzle.Throat:stat:area", "balance.rhs:W")]) (by decide +kernel) (by decide +kernel) ?_ ?_⟩
  · intro W hW
    have mem : ∀ {i a}, (mst p false).members[i]? = some a → a ∈ (mst p false).members := List.mem_of_getElem?
    exact allOf (hW.inlet_area (mem (i := 1) rfl)) <|
      allOf (hW.duct_area (mem (i := 2) rfl)) <|
      allOf (hW.compressor_area Turbojet.noComp (mem (i := 3) rfl) (by decide)) <|
      allOf (hW.duct_area (mem (i := 4) rfl)) <|
      allOf (hW.compressor_area Turbojet.noComp (mem (i := 5) rfl) (by decide)) <|
      allOf (hW.bleedOut_area MST.bld25Names (by simp) (mem (i := 6) rfl)) <|
      allOf (hW.compressor_area Turbojet.noComp (mem (i := 7) rfl) (by decide)) <|
      allOf (hW.bleedOut_area HBTF.bld3Names (by simp) (mem (i := 8) rfl)) <|
      allOf (hW.burner_area (mem (i := 10) rfl)) <|
      allOf (hW.turbine_area HBTF.hptNames (mem (i := 11) rfl) (by decide)) <|
      allOf (hW.duct_area (mem (i := 12) rfl)) <|
      allOf (hW.turbine_area HBTF.lptNames (mem (i := 13) rfl) (by decide)) <|
      allOf (hW.duct_area (mem (i := 14) rfl)) <|
      allOf (hW.turbine_area Turbojet.noTurb (mem (i := 15) rfl) (by decide)) <|
      allOf (hW.duct_area (mem (i := 16) rfl)) allNil
  · exact fun W hW => allOf ((C67_targets hW).2.1 rfl).2.1 allNil

/-- **C69 (`MPMixedFlowTurbofan`).** All sizes but that of `inlet_duct`. -/
theorem C69_mixed_flow_partial (p : MftfParts) {ods : List String} (hn : ("DESIGN" :: ods).Nodup) (hp : ∀ n ∈ ods, Plain n) :
    (mpMixedFlow p ods).Sound
    ∧ (mpMixedFlow p ods).Keeps (exitAreas ["inlet", "fan", "splitter_core_duct", "lpc", "lpc_duct", "hpc", "bld3",
        "burner", "hpt", "hpt_duct", "lpt", "lpt_duct", "bypass_duct", "mixer", "mixer_duct", "afterburner"]
      ++ ["splitter.Fl_O1:stat:area", "splitter.Fl_O2:stat:area", "mixer.Fl_I1_calc:stat:area",
        "mixed_nozz.Throat:stat:area"]
      ++ mapScalars ["fan", "lpc", "hpc"] ["hpt", "lpt"]) := by
  have s := MFTF.mpSound p hn hp
  refine ⟨s, s.keeps_engine rfl (MFTF.fit p false) (C := MFTF.mpConns) rfl
    (extra := [("splitter.Fl_O1:stat:area", "splitter.area1"), ("splitter.Fl_O2:stat:area", "splitter.area2"),
      ("mixer.Fl_I1_calc:stat:area", "mixer.Fl_I1_stat_calc.area"), ("mixed_nozz.Throat:stat:area", "balance.rhs:W")])
    (by decide +kernel) (by decide +kernel) ?_ ?_⟩
  · intro W hW
    have mem : ∀ {i a}, (mftf p false).members[i]? = some a → a ∈ (mftf p false).members := List.mem_of_getElem?
    exact allOf (hW.inlet_area (mem (i := 1) rfl)) <|
      allOf (hW.compressor_area Turbojet.noComp (mem (i := 3) rfl) (by decide)) <|
      allOf (hW.duct_area (mem (i := 5) rfl)) <|
      allOf (hW.compressor_area Turbojet.noComp (mem (i := 6) rfl) (by decide)) <|
      allOf (hW.duct_area (mem (i := 7) rfl)) <|
      allOf (hW.compressor_area MFTF.hpcNames (mem (i := 8) rfl) (by decide)) <|
      allOf (hW.bleedOut_area MFTF.bld3Names (by simp) (mem (i := 9) rfl)) <|
      allOf (hW.burner_area (mem (i := 10) rfl)) <|
      allOf (hW.turbine_area MFTF.hptNames (mem (i := 11) rfl) (by decide)) <|
      allOf (hW.duct_area (mem (i := 12) rfl)) <|
      allOf (hW.turbine_area MFTF.lptNames (mem (i := 13) rfl) (by decide)) <|
      allOf (hW.duct_area (mem (i := 14) rfl)) <|
      allOf (hW.duct_area (mem (i := 15) rfl)) <|
      allOf (hW.mixer_areas (mem (i := 16) rfl)).1 <|
      allOf (hW.duct_area (mem (i := 17) rfl)) <|
      allOf (hW.burner_area (mem (i := 18) rfl)) allNil
  · intro W hW
    have mem : ∀ {i a}, (mftf p false).members[i]? = some a → a ∈ (mftf p false).members := List.mem_of_getElem?
    have sp := hW.splitter_areas (x := "splitter") (mem (i := 4) rfl)
    exact allOf sp.1 <| allOf sp.2 <| allOf (hW.mixer_areas (x := "mixer") (mem (i := 16) rfl)).2 <|
      allOf ((C61_targets hW).2.2.2.1 rfl).1 allNil

/-- Areas of the high-bypass turbofan off design. -/
theorem HBTF.areas {p : HbtfParts} {m : HbtfMode} (hm : m ≠ .design) {W : Env} (hW : (hbtf p m).Solved W) :
    ∀ c ∈ areaPairs ["inlet", "fan", "duct4", "lpc", "duct6", "hpc", "bld3", "burner", "hpt", "duct11", "lpt", "duct13",
        "byp_bld", "duct15"]
      ++ [("splitter.Fl_O1:stat:area", "splitter.area1"), ("splitter.Fl_O2:stat:area", "splitter.area2"),
        ("core_nozz.Throat:stat:area", "balance.rhs:W"), ("byp_nozz.Throat:stat:area", "balance.rhs:BPR")],
    W.num c.1 = W.num c.2 := by
  have e : (hbtf p m).members = HBTF.elements p false := by cases m <;> first | exact absurd rfl hm | rfl
  have mem : ∀ {i : ℕ} {a : Member}, (HBTF.elements p false)[i]? = some a → a ∈ (hbtf p m).members := by
    intro i a h; rw [e]; exact List.mem_of_getElem? h
  have sp := hW.splitter_areas (x := "splitter") (mem (i := 3) rfl)
  have t := (C60_targets hW).2.2.2.1 hm
  refine law_append (areaPairs_law ?_) (allOf sp.1 <| allOf sp.2 <| allOf t.1 <| allOf t.2.1 allNil)
  exact allOf (hW.inlet_area (mem (i := 1) rfl)) <|
      allOf (hW.compressor_area Turbojet.noComp (mem (i := 2) rfl) (by decide)) <|
      allOf (hW.duct_area (mem (i := 4) rfl)) <|
      allOf (hW.compressor_area Turbojet.noComp (mem (i := 5) rfl) (by decide)) <|
      allOf (hW.duct_area (mem (i := 6) rfl)) <|
      allOf (hW.compressor_area HBTF.hpcNames (mem (i := 7) rfl) (by decide)) <|
      allOf (hW.bleedOut_area HBTF.bld3Names (by simp) (mem (i := 8) rfl)) <|
      allOf (hW.burner_area (mem (i := 9) rfl)) <|
      allOf (hW.turbine_area HBTF.hptNames (mem (i := 10) rfl) (by decide)) <|
      allOf (hW.duct_area (mem (i := 11) rfl)) <|
      allOf (hW.turbine_area HBTF.lptNames (mem (i := 12) rfl) (by decide)) <|
      allOf (hW.duct_area (mem (i := 13) rfl)) <|
      allOf (hW.bleedOut_area HBTF.bypNames (by simp) (mem (i := 15) rfl)) <|
      allOf (hW.duct_area (mem (i := 16) rfl)) allNil

/-- **C69 (`MPhbtf`).** And part power is a part of the thrust of full power. -/
theorem C69_hbtf (p : HbtfParts) :
    (mpHbtf p).Sound
    ∧ (mpHbtf p).Keeps (exitAreas ["inlet", "fan", "duct4", "lpc", "duct6", "hpc", "bld3", "burner", "hpt", "duct11",
        "lpt", "duct13", "byp_bld", "duct15"]
      ++ ["splitter.Fl_O1:stat:area", "splitter.Fl_O2:stat:area", "core_nozz.Throat:stat:area",
        "byp_nozz.Throat:stat:area"]
      ++ mapScalars ["fan", "lpc", "hpc"] ["hpt", "lpt"])
    ∧ ∀ E, (mpHbtf p).cycle.Solved E →
      E.num "OD_part_pwr.perf.Fn" = E.num "OD_part_pwr.PC" * E.num "OD_full_pwr.perf.Fn" := by
  have s := HBTF.mpSound p
  refine ⟨s, ?_, ?_⟩
  · have hc : ∀ m, m ≠ .design → ((areaPairs ["inlet", "fan", "duct4", "lpc", "duct6", "hpc", "bld3", "burner", "hpt",
        "duct11", "lpt", "duct13", "byp_bld", "duct15"]
      ++ [("splitter.Fl_O1:stat:area", "splitter.area1"), ("splitter.Fl_O2:stat:area", "splitter.area2"),
        ("core_nozz.Throat:stat:area", "balance.rhs:W"), ("byp_nozz.Throat:stat:area", "balance.rhs:BPR")]).all
        fun c => HBTF.mpConns.contains c && Slots.gives (HBTF.slots m) c.1) = true := by
      intro m hm; cases m <;> first | exact absurd rfl hm | decide +kernel
    have hm : ((mapScalars ["fan", "lpc", "hpc"] ["hpt", "lpt"]).all fun n => HBTF.mpConns.contains (n, n)) = true := by
      decide +kernel
    simp only [List.all_eq_true, List.contains_iff_mem, Bool.and_eq_true] at hc hm
    have k := s.keeps (fun c h => (hc .t4 (by simp) c h).1) (by
      refine allOf (fun c h => ⟨(HBTF.fit p .t4).out (hc .t4 (by simp) c h).2, fun W hW => ?_⟩) <|
        allOf (fun c h => ⟨(HBTF.fit p .percentThrust).out (hc .percentThrust (by simp) c h).2, fun W hW => ?_⟩) allNil
      · exact HBTF.areas (by simp) hW c h
      · exact HBTF.areas (by simp) hW c h)
    rw [List.map_append, areaPairs_fst] at k
    exact k.append (keeps_passed fun n hn => hm n hn)
  · intro E hE
    have h1 : (⟨"OD_full_pwr", hbtf p .t4⟩ : Point) ∈ (mpHbtf p).points := List.mem_of_getElem? (i := 1) rfl
    have h2 : (⟨"OD_part_pwr", hbtf p .percentThrust⟩ : Point) ∈ (mpHbtf p).points := List.mem_of_getElem? (i := 2) rfl
    obtain ⟨V, hV⟩ := s.flies hE h1
    obtain ⟨W, hW⟩ := s.flies hE h2
    have x := (s.handed hE (List.mem_of_getElem? (i := 0) rfl) h1 h2 rfl rfl hV hW).1
    have t := (C60_targets hW.solved).2.2.1 rfl
    have g : ∀ m, Slots.gives (HBTF.slots m) "perf.Fn" = true := by intro m; cases m <;> decide +kernel
    have o1 := (hV.outs "perf.Fn" ((HBTF.fit p _).out (g _))).1
    have o2 := (hW.outs "perf.Fn" ((HBTF.fit p _).out (g _))).1
    have f : Slots.free (HBTF.slots .percentThrust) (HBTF.skel .percentThrust) "PC" = true := by decide +kernel
    have o3 := (hW.ins "PC" ((HBTF.fit p _).free f) (by change "PC" ∉ HBTF.mpParams; decide +kernel)).1
    rw [x, o1, o2, o3] at t
    exact t

end PyCycle.OM
