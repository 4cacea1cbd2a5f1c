import Verif.Proofs.MultiSlots

/-! # Sizes and settings of the example engines: turbofan, propulsor, turbojet -/

namespace PyCycle.OM

namespace HBTF

def slots (m : HbtfMode) : List Slot :=
  [Slots.empty "fc" [], Slots.inlet "inlet" m.isDesign, Slots.comp "fan" [.as "Nmech" "LP_Nmech"] [] m.isDesign,
   Slots.splitter "splitter" m.isDesign, Slots.duct "duct4" m.isDesign,
   Slots.comp "lpc" [.as "Nmech" "LP_Nmech"] [] m.isDesign, Slots.duct "duct6" m.isDesign,
   Slots.comp "hpc" [.as "Nmech" "HP_Nmech"] ["cool1", "cool2", "cust"] m.isDesign,
   Slots.bleedOut "bld3" ["cool3", "cool4"] m.isDesign, Slots.burner "burner" m.isDesign,
   Slots.turb "hpt" [.as "Nmech" "HP_Nmech"] ["cool3", "cool4"] m.isDesign, Slots.duct "duct11" m.isDesign,
   Slots.turb "lpt" [.as "Nmech" "LP_Nmech"] ["cool1", "cool2"] m.isDesign, Slots.duct "duct13" m.isDesign,
   Slots.nozz "core_nozz" .Cv, Slots.bleedOut "byp_bld" ["bypBld"] m.isDesign, Slots.duct "duct15" m.isDesign,
   Slots.nozz "byp_nozz" .Cv, Slots.shaft "lp_shaft" 3 [.as "Nmech" "LP_Nmech"],
   Slots.shaft "hp_shaft" 2 [.as "Nmech" "HP_Nmech"], Slots.perf, Slots.bal (bals m) (balProms m)]

theorem slots_of (p : HbtfParts) (m : HbtfMode) :
    List.Forall₂ (fun s p => Slot.Of p s) (hbtf p m).group.subs (slots m) := by
  simp only [Cycle.group, hbtf, elements, List.map_cons, List.map_nil, List.cons_append, List.nil_append, slots]
  refine .cons (Slots.empty_of rfl rfl rfl) <| .cons (Slots.inlet_of ..) <|
    .cons (Slots.comp_of (hb := Turbojet.noComp) ..) <| .cons (Slots.splitter_of ..) <| .cons (Slots.duct_of ..) <|
    .cons (Slots.comp_of (hb := Turbojet.noComp) ..) <| .cons (Slots.duct_of ..) <|
    .cons (Slots.comp_of (hb := hpcNames) ..) <| .cons (Slots.bleedOut_of (hb := bld3Names) (hne := by simp) ..) <|
    .cons (Slots.burner_of ..) <| .cons (Slots.turb_of (hb := hptNames) ..) <| .cons (Slots.duct_of ..) <|
    .cons (Slots.turb_of (hb := lptNames) ..) <| .cons (Slots.duct_of ..) <| .cons (Slots.nozz_of ..) <|
    .cons (Slots.bleedOut_of (hb := bypNames) (hne := by simp) ..) <| .cons (Slots.duct_of ..) <|
    .cons (Slots.nozz_of ..) <| .cons (Slots.shaft_of (hn := by decide +kernel) ..) <|
    .cons (Slots.shaft_of (hn := by decide +kernel) ..) <| .cons (Slots.perf_of ..) <|
    .cons (Slots.bal_of _ _ (by cases m <;> decide +kernel)) .nil

theorem fit (p : HbtfParts) (m : HbtfMode) : Multi.Fit (hbtf p m) (skel m) (slots m) := by
  refine ⟨skel_ok m, parts_of p m, rfl, slots_of p m, ?_⟩
  simp only [hbtf, List.forall_mem_cons]
  exact ⟨(shaftSub_local 3 _).rename "lp_shaft", (shaftSub_local 2 _).rename "hp_shaft", performanceSub_local _ _,
    balances_local _ _, by simp⟩

theorem mpSound (p : HbtfParts) : (mpHbtf p).Sound := by
  have hc : Multi.okDes mpParams mpConns (skel .design) (slots .design) = true := by decide +kernel
  have h1 : Multi.okOd mpParams mpConns (skel .t4) (slots .t4) = true := by decide +kernel
  have h2 : Multi.okOd mpParams mpConns (skel .percentThrust) (slots .percentThrust) = true := by decide +kernel
  have hx : "Fn_max" ∉ mpParams ∧ "Fn_max" ∉ mpConns.map (·.2) := by decide +kernel
  refine Multi.sound_of ?_ ?_ ⟨_, _, fit p .design, hc⟩ ?_ ?_ ?_ ?_ ?_
  · show (["DESIGN", "OD_full_pwr", "OD_part_pwr"] : List String).Nodup
    decide
  · intro o ho
    simp only [Multi.points, mpHbtf, List.mem_cons, List.not_mem_nil, or_false] at ho
    rcases ho with rfl | rfl | rfl
    · show Plain "DESIGN"; decide
    · show Plain "OD_full_pwr"; decide
    · show Plain "OD_part_pwr"; decide
  · intro o ho
    simp only [mpHbtf, List.mem_cons, List.not_mem_nil, or_false] at ho
    rcases ho with rfl | rfl
    · exact ⟨_, _, fit p .t4, h1⟩
    · exact ⟨_, _, fit p .percentThrust, h2⟩
  · show (mpConns.map (·.2)).Nodup
    decide +kernel
  · intro x hx
    obtain rfl := List.mem_singleton.mp hx
    exact ⟨⟨"OD_full_pwr", hbtf p .t4⟩, List.mem_of_getElem? (i := 1) rfl, rfl, (fit p .t4).out (by decide +kernel)⟩
  · intro x hx'
    obtain rfl := List.mem_singleton.mp hx'
    exact ⟨⟨"OD_part_pwr", hbtf p .percentThrust⟩, List.mem_of_getElem? (i := 2) rfl, rfl,
      (fit p .percentThrust).free (by decide +kernel), hx.1, hx.2⟩
  · exact List.nodup_singleton _

end HBTF

namespace Propulsor

def slots (d : Bool) : List Slot :=
  [Slots.empty "fc" [], Slots.inlet "inlet" d, Slots.comp "fan" [] [] d, Slots.nozz "nozz" .Cv, Slots.perf,
   Slots.bal (bals d) (balProms d)] ++ if d then [Slots.empty "shaft" []] else []

theorem slots_of (p : PropulsorParts) (d : Bool) :
    List.Forall₂ (fun s p => Slot.Of p s) (propulsor p d).group.subs (slots d) := by
  cases d <;> (
    simp only [Cycle.group, propulsor, elements, List.map_cons, List.map_nil, List.cons_append, List.nil_append, slots,
      Bool.false_eq_true, if_false, if_true]
    refine .cons (Slots.empty_of rfl rfl rfl) <| .cons (Slots.inlet_of ..) <|
      .cons (Slots.comp_of (hb := Turbojet.noComp) ..) <| .cons (Slots.nozz_of ..) <| .cons (Slots.perf_of ..) <|
      .cons (Slots.bal_of _ _ (by decide +kernel)) ?_)
  · exact .nil
  · exact .cons (Slots.empty_of rfl rfl rfl) .nil

theorem fit (p : PropulsorParts) (d : Bool) : Multi.Fit (propulsor p d) (skel d) (slots d) := by
  refine ⟨skel_ok d, parts_of p d, rfl, slots_of p d, ?_⟩
  have hs : speedSub.Local := fun _ _ _ _ _ _ _ => trivial
  simp only [propulsor, List.forall_mem_cons]
  refine ⟨performanceSub_local _ _, balances_local _ _, ?_⟩
  cases d <;> simp [hs]

theorem mpSound (p : PropulsorParts) {ods : List String} (hn : ("design" :: ods).Nodup) (hp : ∀ n ∈ ods, Plain n) :
    (mpPropulsor p ods).Sound := by
  refine Multi.sound_of_same rfl rfl hn ?_ (fit p true) (fit p false) rfl (P := mpParams) (C := mpConns) rfl rfl ?_ ?_
  · exact List.forall_mem_cons.mpr ⟨by decide, hp⟩
  · decide +kernel
  · decide +kernel

end Propulsor

namespace Turbojet

/-- The balances. -/
def mpBals (d : Bool) : List (String × String × String) :=
  if d then [("W", "lhs:W", "Fn_target"), ("FAR", "lhs:FAR", "T4_target"), ("turb_PR", "lhs:turb_PR", "rhs:turb_PR")]
  else [("FAR", "lhs:FAR", "Fn_target"), ("Nmech", "lhs:Nmech", "rhs:Nmech"), ("W", "lhs:W", "rhs:W")]

def mpParts (d : Bool) : List Part :=
  [⟨"fc", [], Ifaces.fc⟩, ⟨"inlet", [], Ifaces.inlet⟩, ⟨"comp", [.var "Nmech"], Ifaces.comp []⟩,
   ⟨"burner", [], Ifaces.burner⟩, ⟨"turb", [.var "Nmech"], Ifaces.turb d []⟩, ⟨"nozz", [], Ifaces.nozz⟩,
   ⟨"shaft", [.var "Nmech"], { outs := (shaftSub 2 []).outs, ins := (shaftSub 2 []).ins }⟩,
   ⟨"perf", [], { outs := (performanceSub 1 1).outs, ins := (performanceSub 1 1).ins }⟩,
   ⟨"balance", [], { outs := (balanceComp (mpBals d) [] []).outs, ins := (balanceComp (mpBals d) [] []).ins }⟩]

def mpFlows : List Link :=
  [{ src := ("fc", "Fl_O"), tgt := ("inlet", "Fl_I"), w := false }, { src := ("inlet", "Fl_O"), tgt := ("comp", "Fl_I") },
   { src := ("comp", "Fl_O"), tgt := ("burner", "Fl_I") }, { src := ("burner", "Fl_O"), tgt := ("turb", "Fl_I") },
   { src := ("turb", "Fl_O"), tgt := ("nozz", "Fl_I") }]

def mpPlain (d : Bool) : List (String × String) :=
  [("comp.trq", "shaft.trq_0"), ("turb.trq", "shaft.trq_1"), ("fc.Fl_O:stat:P", "nozz.Ps_exhaust"),
   ("inlet.Fl_O:tot:P", "perf.Pt2"), ("comp.Fl_O:tot:P", "perf.Pt3"), ("burner.Wfuel", "perf.Wfuel_0"),
   ("inlet.F_ram", "perf.ram_drag"), ("nozz.Fg", "perf.Fg_0")]
  ++ if d then
    [("balance.W", "inlet.Fl_I:stat:W"), ("perf.Fn", "balance.lhs:W"),
     ("balance.FAR", "burner.Fl_I:FAR"), ("burner.Fl_O:tot:T", "balance.lhs:FAR"),
     ("balance.turb_PR", "turb.PR"), ("shaft.pwr_net", "balance.lhs:turb_PR")]
  else
    [("balance.FAR", "burner.Fl_I:FAR"), ("perf.Fn", "balance.lhs:FAR"),
     ("balance.Nmech", "Nmech"), ("shaft.pwr_net", "balance.lhs:Nmech"),
     ("balance.W", "inlet.Fl_I:stat:W"), ("nozz.Throat:stat:area", "balance.lhs:W")]

def skel (d : Bool) : Skel := ⟨mpParts d, mpFlows, mpPlain d⟩

theorem skel_ok (d : Bool) : (skel d).Ok := by
  apply Skel.ok_of_check
  cases d <;> decide +kernel

def slots (d : Bool) : List Slot :=
  [Slots.empty "fc" [], Slots.inlet "inlet" d, Slots.comp "comp" [.var "Nmech"] [] d, Slots.burner "burner" d,
   Slots.turb "turb" [.var "Nmech"] [] d, Slots.nozz "nozz" .Cv, Slots.shaft "shaft" 2 [.var "Nmech"], Slots.perf,
   ⟨"balance", [], (balanceComp (mpBals d) [] []).outs, (balanceComp (mpBals d) [] []).ins⟩]

theorem bal_eq (d : Bool) : (if d then balanceComp [("W", "lhs:W", "Fn_target"), ("FAR", "lhs:FAR", "T4_target"),
    ("turb_PR", "lhs:turb_PR", "rhs:turb_PR")] [] []
    else balanceComp [("FAR", "lhs:FAR", "Fn_target"), ("Nmech", "lhs:Nmech", "rhs:Nmech"),
      ("W", "lhs:W", "rhs:W")] [] []) = balanceComp (mpBals d) [] [] := by
  cases d <;> rfl

theorem fit (p : TjParts) (d : Bool) : Multi.Fit (p.cycle d) (skel d) (slots d) := by
  have hb : ∀ v ∈ (balanceComp (mpBals d) [] []).ins, v ∉ (balanceComp (mpBals d) [] []).outs := by
    cases d <;> decide +kernel
  have hn : (balanceComp (mpBals d) [] []).outs.Nodup := by cases d <;> decide +kernel
  refine ⟨skel_ok d, ?_, rfl, ?_, ?_⟩
  · simp only [Cycle.group, TjParts.cycle, simpleTurbojet, bal_eq, List.map_cons, List.map_nil, List.cons_append,
      List.nil_append, skel, mpParts]
    refine .cons ⟨rfl, rfl, rfl, Ifaces.fc_of ..⟩ <| .cons ⟨rfl, rfl, rfl, Ifaces.inlet_of ..⟩ <|
      .cons ⟨rfl, rfl, rfl, Ifaces.comp_of (hb := noComp) ..⟩ <|
      .cons ⟨rfl, rfl, rfl, Ifaces.burner_of ..⟩ <| .cons ⟨rfl, rfl, rfl, Ifaces.turb_of (hb := noTurb) ..⟩ <|
      .cons ⟨rfl, rfl, rfl, Ifaces.nozz_of ..⟩ <|
      .cons ⟨rfl, rfl, rfl, Ifaces.shaft_of (name := "shaft") (hn := by decide +kernel) ..⟩ <|
      .cons ⟨rfl, rfl, rfl, Ifaces.perf_of (h := by decide +kernel) ..⟩ <|
      .cons ⟨rfl, rfl, rfl, Iface.Of.comp hn hb⟩ .nil
  · simp only [Cycle.group, TjParts.cycle, simpleTurbojet, bal_eq, List.map_cons, List.map_nil, List.cons_append,
      List.nil_append, slots]
    refine .cons (Slots.empty_of rfl rfl rfl) <| .cons (Slots.inlet_of ..) <|
      .cons (Slots.comp_of (hb := noComp) ..) <| .cons (Slots.burner_of ..) <|
      .cons (Slots.turb_of (hb := noTurb) ..) <| .cons (Slots.nozz_of ..) <|
      .cons (Slots.shaft_of (x := "shaft") (hn := by decide +kernel) ..) <| .cons (Slots.perf_of ..) <|
      .cons (Slot.Of.comp rfl hb) .nil
  · simp only [TjParts.cycle, simpleTurbojet, bal_eq, List.forall_mem_cons]
    exact ⟨shaftSub_local 2 _, performanceSub_local _ _, balanceComp_local _ _ _, by simp⟩

theorem mpSound (p : TjParts) {ods : List String} (hn : ("DESIGN" :: ods).Nodup) (hp : ∀ n ∈ ods, Plain n) :
    (mpTurbojet p ods).Sound := by
  refine Multi.sound_of_same rfl rfl hn ?_ (fit p true) (fit p false) rfl (P := mpParams) (C := mpConns) rfl rfl ?_ ?_
  · exact List.forall_mem_cons.mpr ⟨by decide, hp⟩
  · decide +kernel
  · decide +kernel

end Turbojet
end PyCycle.OM
