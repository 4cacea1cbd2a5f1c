import Verif.Model.MultiGeared
import Verif.Proofs.GearedFanNames
import Verif.Proofs.MultiSlots

/-! # Sizes and settings of the geared turbofan, and the wiring of its multipoint problem -/

namespace PyCycle.OM

namespace Slots

/-- A duct whose loss is scaled off design. -/
def ductMap (x : String) (d : Bool) : Slot :=
  ⟨x, [], "Fl_O:stat:area" :: (if d then ["s_dPqP"] else []), if d then ["dPqP", "MN"] else ["area", "s_dPqP"]⟩

theorem ductMap_of (gas : (ℕ → ℝ) → TPGas) (x : String) (d : Bool) (e : ℝ) :
    (ductMap x d).Of ((OM.duct gas d true e true).asSub x [] []) := by
  refine .element (p := ductMap x d) ?_ ?_
  · have e' : (OM.duct gas d true e true).wiring = (OM.duct gas0 d true 0 true).wiring := by cases d <;> rfl
    have h : ∀ d, ∀ v ∈ (ductMap "" d).outs, v ∈ (OM.duct gas0 d true 0 true).wiring.outs := by decide +kernel
    rw [e']; exact h d
  · intro v hv; rw [(C50_duct_interface gas d true e true).2]
    have h : ∀ d, ∀ v ∈ (ductMap "" d).ins, v ∈ inletPort ++ ["flow_in.Fl_I:FAR"] ++ ductInputs d true true := by
      decide +kernel
    exact h d v hv

/-- More outputs of a subsystem. -/
def more (s : Slot) (xs : List String) : Slot := { s with outs := xs ++ s.outs }

theorem more_of {s : Slot} {g : Sub} (h : s.Of g) {xs : List String} (hx : ∀ v ∈ xs, v ∈ g.outs) : (more s xs).Of g :=
  ⟨h.name, h.promI, h.promO, fun v hv => (List.mem_append.mp hv).elim (hx v) (h.outs v), h.ins⟩

theorem burnerT_of (gas : (ℕ → ℝ) → TPGas) (x : String) (a : Adder) (d : Bool) :
    (more (burner x d) ["Fl_O:tot:T"]).Of ((combustor gas a d true).asSub x [] []) := by
  refine more_of (burner_of ..) fun v hv => ?_
  obtain rfl := List.mem_singleton.mp hv
  exact (Ifaces.burner_of gas x [] [] a d).outlets "Fl_O" (by simp [Ifaces.burner]) "tot:T" (by decide)

theorem nozzV_of (gas : (ℕ → ℝ) → TPGas) (x : String) (k : Noz.NozzType) (l : Noz.Loss) :
    (more (nozz x l) ["Fl_O:stat:V"]).Of ((nozzle gas k l).asSub x [] []) := by
  refine more_of (nozz_of ..) ?_
  have e : (nozzle gas k l).wiring.outs = (nozzle gas0 .CV l).wiring.outs := by cases k <;> cases l <;> rfl
  have h : ∀ v ∈ ["Fl_O:stat:V"], v ∈ (nozzle gas0 .CV l).wiring.outs := by cases l <;> decide +kernel
  show ∀ v ∈ ["Fl_O:stat:V"], v ∈ (nozzle gas k l).wiring.outs
  rw [e]; exact h

end Slots

theorem Cycle.Solved.duct_map_area {c : Cycle} {E : Env} (h : c.Solved E) {x : String} {gas : (ℕ → ℝ) → TPGas} {e : ℝ}
    (hm : ⟨x, duct gas false true e true, [], []⟩ ∈ c.members) :
    E.num (x ++ "." ++ "Fl_O:stat:area") = E.num (x ++ "." ++ "area") :=
  h.law hm (Slots.ductMap_of gas x false e)
    (fun V hV => (C50_duct gas false true e true V hV).2.2.2.2.2.2 rfl |>.size rfl)
    (by simp [Slots.ductMap]) (by simp [Slots.ductMap]) (promoted_nil _)

namespace N3

/-! ## One engine -/

def modeSlots : N3Mode → List Slot
  | .design => [Slots.empty "hpc_CS" [], Slots.empty "hpc_EtaBalance" [], Slots.empty "fan_dia" [],
      ⟨"opr_calc", [], ["OPR_simple"], ["FPR", "LPCPR", "HPCPR"]⟩]
  | .off => []
  | .cooled => [Slots.empty "hpt_cooling" [], Slots.empty "hpt_chargable" [], Slots.empty "hpt_power_unit" []]

def slots (m : N3Mode) : List Slot :=
  [Slots.fc "fc" [], Slots.inlet "inlet" m.isDesign, Slots.comp "fan" [.as "Nmech" "Fan_Nmech"] [] m.isDesign,
   Slots.splitter "splitter" m.isDesign, Slots.ductMap "duct2" m.isDesign,
   Slots.comp "lpc" [.as "Nmech" "LP_Nmech"] [] m.isDesign, Slots.bleedOut "bld25" ["sbv"] m.isDesign,
   Slots.ductMap "duct25" m.isDesign,
   Slots.comp "hpc" [.as "Nmech" "HP_Nmech"] ["bld_inlet", "bld_exit", "cust"] m.isDesign,
   Slots.bleedOut "bld3" ["bld_inlet", "bld_exit"] m.isDesign, Slots.more (Slots.burner "burner" m.isDesign) ["Fl_O:tot:T"],
   Slots.turb "hpt" [.as "Nmech" "HP_Nmech"] ["bld_inlet", "bld_exit"] m.isDesign, Slots.ductMap "duct45" m.isDesign,
   Slots.turb "lpt" [.as "Nmech" "LP_Nmech"] ["bld_inlet", "bld_exit"] m.isDesign, Slots.ductMap "duct5" m.isDesign,
   Slots.more (Slots.nozz "core_nozz" .Cv) ["Fl_O:stat:V"], Slots.bleedOut "byp_bld" ["bypBld"] m.isDesign, Slots.ductMap "duct17" m.isDesign,
   Slots.more (Slots.nozz "byp_nozz" .Cv) ["Fl_O:stat:V"], Slots.shaft "fan_shaft" 2 [.as "Nmech" "Fan_Nmech"],
   ⟨"gearbox", [.as "N_in" "LP_Nmech", .as "N_out" "Fan_Nmech"], (gearboxSub m.isDesign []).outs,
     (gearboxSub m.isDesign []).ins⟩,
   Slots.shaft "lp_shaft" 3 [.as "Nmech" "LP_Nmech"], Slots.shaft "hp_shaft" 2 [.as "Nmech" "HP_Nmech"], Slots.perf,
   ⟨"ext_ratio", [], ["ER"], extRatioSub.ins⟩, Slots.bal (bals m) []] ++ modeSlots m

variable (p : N3Parts) (m : N3Mode)

theorem modeSlots_of : List.Forall₂ (fun s p => Slot.Of p s) (modeSubs p m) (modeSlots m) := by
  cases m
  · exact .cons (Slots.empty_of rfl rfl rfl) <| .cons (Slots.empty_of rfl rfl rfl) <|
      .cons (Slots.empty_of rfl rfl rfl) <|
      .cons (Slot.Of.comp (s := oprCalcSub) rfl (by simp [oprCalcSub])) .nil
  · exact .nil
  · exact .cons (Slots.empty_of rfl rfl rfl) <| .cons (Slots.empty_of rfl rfl rfl) <|
      .cons (Slots.empty_of rfl rfl rfl) .nil

theorem slots_of : List.Forall₂ (fun s p => Slot.Of p s) (n3 p m).group.subs (slots m) := by
  have hm := modeSlots_of p m
  simp only [Cycle.group, n3, elements, List.map_cons, List.map_nil, List.cons_append, List.nil_append, slots]
  refine .cons (Slots.fc_of ..) <| .cons (Slots.inlet_of ..) <|
    .cons (Slots.comp_of (hb := Turbojet.noComp) ..) <| .cons (Slots.splitter_of ..) <| .cons (Slots.ductMap_of ..) <|
    .cons (Slots.comp_of (hb := Turbojet.noComp) ..) <|
    .cons (Slots.bleedOut_of (hb := bld25Names) (hne := by simp) ..) <| .cons (Slots.ductMap_of ..) <|
    .cons (Slots.comp_of (hb := hpcNames) ..) <| .cons (Slots.bleedOut_of (hb := bld3Names) (hne := by simp) ..) <|
    .cons (Slots.burnerT_of ..) <| .cons (Slots.turb_of (hb := turbNames) ..) <| .cons (Slots.ductMap_of ..) <|
    .cons (Slots.turb_of (hb := turbNames) ..) <| .cons (Slots.ductMap_of ..) <| .cons (Slots.nozzV_of ..) <|
    .cons (Slots.bleedOut_of (hb := HBTF.bypNames) (hne := by simp) ..) <| .cons (Slots.ductMap_of ..) <|
    .cons (Slots.nozzV_of ..) <| .cons (Slots.shaft_of (hn := by decide +kernel) ..) <|
    .cons (Slot.Of.comp (s := gearboxSub m.isDesign _) rfl (by cases m <;> decide +kernel)) <|
    .cons (Slots.shaft_of (hn := by decide +kernel) ..) <|
    .cons (Slots.shaft_of (hn := by decide +kernel) ..) <| .cons (Slots.perf_of ..) <|
    .cons (Slot.Of.comp (s := extRatioSub) rfl (by simp [extRatioSub])) <|
    .cons (Slots.bal_of _ _ (by cases m <;> decide +kernel)) hm

theorem out {n : String} (h : Slots.gives (slots m) n = true) : n ∈ (n3 p m).group.wiring.outs :=
  Slots.mem_outs (slots_of p m) h

/-- Outputs known from the ports. -/
def shows (k : List Part) (n : String) : Bool := k.any fun a => a.name == (cut n).1 &&
  ((a.iface.outlets.any fun q => linkOutVars.any fun v => n == a.name ++ "." ++ (q ++ ":" ++ v))
  || (a.iface.bleeds.any fun q => portVars.any fun v => n == a.name ++ "." ++ (q ++ ":" ++ v))
  || a.iface.outs.any fun v => n == a.name ++ "." ++ v)

theorem shown {n : String} (h : shows (parts m) n = true) : n ∈ (n3 p m).group.wiring.outs := by
  simp only [shows, List.any_eq_true, Bool.and_eq_true, beq_iff_eq, Bool.or_eq_true] at h
  obtain ⟨a, ha, -, h⟩ := h
  obtain ⟨s, hs, i1, -, i3, i⟩ := forall₂_right (parts_of p m) a ha
  have k : ∀ v ∈ s.outs, a.name ++ "." ++ v ∈ (n3 p m).group.wiring.outs := by
    intro v hv
    simp only [Wiring.outs, Group.wiring, List.mem_flatMap, List.mem_map]
    exact ⟨_, ⟨s, hs, rfl⟩, v, hv, by rw [outName_plain i3, i1]⟩
  rcases h with (⟨q, hq, v, hv, rfl⟩ | ⟨q, hq, v, hv, rfl⟩) | ⟨v, hv, rfl⟩
  · exact k _ (i.outlets q hq v hv)
  · exact k _ (i.bleeds q hq v hv)
  · exact k _ (i.outs v hv)

theorem free {n : String} (h : Slots.free (slots m) (skel m) n = true) : n ∈ (n3 p m).group.wiring.externals := by
  refine Slots.mem_externals_of (skel_ok m) (parts_of p m) (accepted p m).1 ?_ (slots_of p m) h
  intro x hx
  exact (conns_perm m).mem_iff.mpr hx

theorem locals : ∀ s ∈ (n3 p m).others, s.Local := by
  simp only [n3, List.forall_mem_append, List.forall_mem_cons]
  refine ⟨⟨(shaftSub_local 2 _).rename "fan_shaft", gearbox_local _ _, (shaftSub_local 3 _).rename "lp_shaft",
    (shaftSub_local 2 _).rename "hp_shaft", performanceSub_local _ _, extRatio_local, balances_local _ _, by simp⟩, ?_⟩
  cases m
  · simp only [modeSubs, List.forall_mem_cons]
    exact ⟨coreSize_local, etaBalance_local, fanDia_local, oprCalc_local, by simp⟩
  · simp [modeSubs]
  · simp only [modeSubs, List.forall_mem_cons]
    exact ⟨Group.asSub_local _ _ _ _, chargeable_local, powerUnit_local _, by simp⟩

/-! ## The multipoint problem -/

/-- Outputs of a point that matter to the problem. -/
def pntOuts : N3Mode → List String
  | .design => "perf.Fn" :: (mpConns true).map (·.1)
  | .cooled => ["balance.hpt_chrg_cool_frac", "balance.hpt_nochrg_cool_frac", "perf.Fn", "burner.Fl_O:tot:T"]
  | .off => ["perf.Fn", "byp_nozz.Fl_O:stat:V", "core_nozz.Fl_O:stat:V", "ext_ratio.ER"]

/-- Inputs of a point that matter to the problem. -/
def pntIns : N3Mode → List String
  | .design => ["fan.PR", "lpc.PR", "opr_calc.FPR", "opr_calc.LPCPR"] ++ params .ratio ++ ["bld3.bld_exit:frac_W",
      "bld3.bld_inlet:frac_W", "balance.rhs:FAR", "splitter.BPR", "fc.W"]
  | .cooled => params .ratio ++ (mpConns true).map (·.2)
  | .off => params .ratio ++ ((mpConns true).map (·.2) ++ ["bld3.bld_exit:frac_W", "bld3.bld_inlet:frac_W",
      "balance.rhs:FAR"])

theorem pntOuts_ok : (pntOuts m).all (Slots.gives (slots m)) = true := by
  cases m <;> decide +kernel

theorem pntIns_ok : (pntIns m).all (Slots.free (slots m) (skel m)) = true := by
  cases m <;> decide +kernel

/-- The parts of the problem. -/
def mpParts (k : N3Problem) : List Part :=
  (pnts.map fun o => ⟨o.1, pntProms k o.2, { outs := pntOuts o.2, ins := pntIns o.2 }⟩)
  ++ ⟨"T4_ratio", [.var "RTO_T4"], { outs := ["TOC_T4"], ins := ["RTO_T4", "TR"] }⟩
  :: (mdpSubs k).map fun s => ⟨s.name, s.promI, { outs := s.outs, ins := s.ins }⟩

theorem mpCheck : ∀ st, (⟨mpParts .single, [], mpWires st ++ mdpConns .single⟩ : Skel).check = true := by decide +kernel
theorem mpCheck_velocity : ∀ st, (⟨mpParts .velocity, [], mpWires st ++ mdpConns .velocity⟩ : Skel).check = true := by
  decide +kernel
theorem mpCheck_ratio : ∀ st, (⟨mpParts .ratio, [], mpWires st ++ mdpConns .ratio⟩ : Skel).check = true := by
  decide +kernel

theorem point_of (x : String) (pI : List Prom) :
    Iface.Of { outs := pntOuts m, ins := pntIns m } ((n3 p m).group.asSub x pI []) := by
  refine .element (accepted p m).1.2.1 (by simp) (by simp) (by simp) (fun v hv => ?_) (fun v hv => ?_)
  · exact out p m (List.all_eq_true.mp (pntOuts_ok m) v hv)
  · exact free p m (List.all_eq_true.mp (pntIns_ok m) v hv)

theorem mdp_of : ∀ k, ∀ s ∈ mdpSubs k, s.promO = [] ∧ Iface.Of { outs := s.outs, ins := s.ins } s := by
  intro k s hs
  have h : ∀ k, ∀ s ∈ mdpSubs k, s.promO = [] ∧ s.outs.Nodup ∧ ∀ v ∈ s.ins, v ∉ s.outs := by
    intro k; cases k <;> decide +kernel
  exact ⟨(h k s hs).1, Iface.Of.comp (h k s hs).2.1 (h k s hs).2.2⟩

theorem forall₂_map {α β : Type} {R : α → β → Prop} {f : α → β} {xs : List α} (h : ∀ x ∈ xs, R x (f x)) :
    List.Forall₂ R xs (xs.map f) := by
  induction xs with
  | nil => exact .nil
  | cons x xs ih => exact .cons (h x (List.mem_cons_self ..)) (ih fun y hy => h y (List.mem_cons_of_mem _ hy))

theorem mpParts_of (k : N3Problem) (st : Bool) :
    List.Forall₂ (fun s p => Part.Of p s) (mpN3 p k st).group.subs (mpParts k) := by
  simp only [Cycle.group, mpN3, pnts, List.map_cons, List.map_nil, List.cons_append, List.nil_append, mpParts]
  refine .cons ⟨rfl, rfl, rfl, point_of ..⟩ <| .cons ⟨rfl, rfl, rfl, point_of ..⟩ <|
    .cons ⟨rfl, rfl, rfl, point_of ..⟩ <| .cons ⟨rfl, rfl, rfl, point_of ..⟩ <| .cons ⟨rfl, rfl, rfl, ?_⟩ <|
    forall₂_map fun s hs => ⟨rfl, rfl, (mdp_of k s hs).1, (mdp_of k s hs).2⟩
  exact Iface.Of.comp (s := t4RatioSub) (by simp [t4RatioSub]) (by simp [t4RatioSub])

theorem mpAccepted (k : N3Problem) (st : Bool) : (mpN3 p k st).group.wiring.Accepted := by
  refine Group.accepted_of (k := ⟨mpParts k, [], mpWires st ++ mdpConns k⟩) (Skel.ok_of_check ?_) (mpParts_of p k st) rfl
  cases k
  · exact mpCheck st
  · exact mpCheck_velocity st
  · exact mpCheck_ratio st

end N3
end PyCycle.OM
