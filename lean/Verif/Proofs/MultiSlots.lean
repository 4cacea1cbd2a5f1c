import Verif.Proofs.MultiKit
import Verif.Proofs.AfterburnerNames
import Verif.Proofs.MixedFlowNames
import Verif.Proofs.MultiSpoolNames
import Verif.Proofs.PropulsorNames
import Verif.Proofs.TurboshaftNames
import Verif.Proofs.WetNames
import Verif.Model.MultiExamples

/-! # Sizes and settings of the example engines -/

namespace PyCycle.OM

namespace Slots

def empty (x : String) (pI : List Prom) : Slot := ⟨x, pI, [], []⟩
theorem empty_of {x : String} {pI : List Prom} {s : Sub} (h1 : s.name = x) (h2 : s.promI = pI) (h3 : s.promO = []) :
    (empty x pI).Of s := ⟨h1, h2, h3, by simp [empty], by simp [empty]⟩

def shaft (x : String) (n : ℕ) (pI : List Prom) : Slot := ⟨x, pI, [], (shaftSub n []).ins⟩
theorem shaft_of (x : String) (n : ℕ) (pI : List Prom) (hn : ∀ v ∈ (shaftSub n pI).ins, v ∉ (shaftSub n pI).outs) :
    (shaft x n pI).Of { shaftSub n pI with name := x } :=
  ⟨rfl, rfl, rfl, by simp [shaft], fun v hv => ⟨hv, hn v hv⟩⟩

def perf : Slot := ⟨"perf", [], ["Fn"], []⟩
theorem perf_of (n m : ℕ) : perf.Of (performanceSub n m) :=
  ⟨rfl, rfl, rfl, by simp [perf, performanceSub], by simp [perf]⟩

def bal (bs : List Bal) (pI : List Prom) : Slot := ⟨"balance", pI, bs.map Bal.out, bs.flatMap Bal.ins⟩
theorem bal_of (bs : List Bal) (pI : List Prom) (h : ∀ v ∈ bs.flatMap Bal.ins, v ∉ bs.map Bal.out) :
    (bal bs pI).Of (balances bs pI) := ⟨rfl, rfl, rfl, fun _ h => h, fun v hv => ⟨hv, h v hv⟩⟩

end Slots

namespace WTJ

theorem fc_slot (gas : (ℕ → ℝ) → TPGas) (a : Adder) (x : String) :
    (Slots.fc x ["WAR"]).Of ((flightConditions gas (some a) "WAR").asSub x [] []) := by
  have hx := C68_interface gas a (ratio := "WAR") (Or.inr rfl)
  refine .element (p := Slots.fc x ["WAR"]) (by simp [Slots.fc]) ?_
  intro v hv; rw [hx.2]
  have h : ∀ v ∈ (Slots.fc "" ["WAR"]).ins, v ∈ ["alt", "dTs", "MN", "W"] ++ ["WAR"] := by decide +kernel
  have := h v hv
  simp at this ⊢
  tauto

def slots (d : Bool) : List Slot :=
  [Slots.fc "fc" ["WAR"], Slots.inlet "inlet" d, Slots.comp "comp" [.as "Nmech" "Nmech"] [] d,
   Slots.burner "burner" d, Slots.turb "turb" [.as "Nmech" "Nmech"] [] d, Slots.nozz "nozz" .Cv,
   Slots.shaft "shaft" 2 [.as "Nmech" "Nmech"], Slots.perf, Slots.bal (bals d) []]

theorem slots_of (p : WetParts) (d : Bool) : List.Forall₂ (fun s p => Slot.Of p s) (wtj p d).group.subs (slots d) := by
  simp only [Cycle.group, wtj, elements, List.map_cons, List.map_nil, List.cons_append, List.nil_append, slots]
  refine .cons (fc_slot ..) <| .cons (Slots.inlet_of ..) <| .cons (Slots.comp_of (hb := compNames) ..) <|
    .cons (Slots.burner_of ..) <| .cons (Slots.turb_of (hb := turbNames) ..) <| .cons (Slots.nozz_of ..) <|
    .cons (Slots.shaft_of (hn := by decide +kernel) ..) <| .cons (Slots.perf_of ..) <|
    .cons (Slots.bal_of _ _ (by cases d <;> decide +kernel)) .nil

theorem fit (p : WetParts) (d : Bool) : Multi.Fit (wtj p d) (skel d) (slots d) := by
  refine ⟨skel_ok d, parts_of p d, rfl, slots_of p d, ?_⟩
  simp only [wtj, List.forall_mem_cons]
  exact ⟨(shaftSub_local 2 _).rename "shaft", performanceSub_local _ _, balances_local _ _,
    by simp⟩

end WTJ

namespace ABTJ

def slots (d : Bool) : List Slot :=
  [Slots.empty "fc" [], Slots.inlet "inlet" d, Slots.duct "duct1" d,
   Slots.comp "comp" [.as "Nmech" "Nmech"] ["cool1", "cool2"] d, Slots.burner "burner" d,
   Slots.turb "turb" [.as "Nmech" "Nmech"] ["cool1", "cool2"] d, Slots.burner "ab" d, Slots.nozz "nozz" .Cv,
   Slots.shaft "shaft" 2 [.as "Nmech" "Nmech"], Slots.perf, Slots.bal (bals d) []]

theorem slots_of (p : AbtjParts) (d : Bool) : List.Forall₂ (fun s p => Slot.Of p s) (abtj p d).group.subs (slots d) := by
  simp only [Cycle.group, abtj, elements, List.map_cons, List.map_nil, List.cons_append, List.nil_append, slots]
  refine .cons (Slots.empty_of rfl rfl rfl) <| .cons (Slots.inlet_of ..) <| .cons (Slots.duct_of ..) <|
    .cons (Slots.comp_of (hb := compNames) ..) <| .cons (Slots.burner_of ..) <|
    .cons (Slots.turb_of (hb := turbNames) ..) <| .cons (Slots.burner_of ..) <| .cons (Slots.nozz_of ..) <|
    .cons (Slots.shaft_of (hn := by decide +kernel) ..) <| .cons (Slots.perf_of ..) <|
    .cons (Slots.bal_of _ _ (by cases d <;> decide +kernel)) .nil

theorem fit (p : AbtjParts) (d : Bool) : Multi.Fit (abtj p d) (skel d) (slots d) := by
  refine ⟨skel_ok d, parts_of p d, rfl, slots_of p d, ?_⟩
  simp only [abtj, List.forall_mem_cons]
  exact ⟨(shaftSub_local 2 _).rename "shaft", performanceSub_local _ _, balances_local _ _,
    by simp⟩

end ABTJ

namespace SSTS

def slots (d : Bool) : List Slot :=
  [Slots.empty "fc" [], Slots.inlet "inlet" d, Slots.comp "comp" [.as "Nmech" "HP_Nmech"] [] d,
   Slots.burner "burner" d, Slots.turb "turb" [.as "Nmech" "HP_Nmech"] [] d,
   Slots.turb "pt" [.as "Nmech" "LP_Nmech"] [] d, Slots.nozz "nozz" .Cv,
   Slots.shaft "HP_shaft" 2 [.as "Nmech" "HP_Nmech"], Slots.shaft "LP_shaft" 1 [.as "Nmech" "LP_Nmech"], Slots.perf,
   Slots.bal (bals d) []]

theorem slots_of (p : SstsParts) (d : Bool) : List.Forall₂ (fun s p => Slot.Of p s) (ssts p d).group.subs (slots d) := by
  simp only [Cycle.group, ssts, elements, List.map_cons, List.map_nil, List.cons_append, List.nil_append, slots]
  refine .cons (Slots.empty_of rfl rfl rfl) <| .cons (Slots.inlet_of ..) <|
    .cons (Slots.comp_of (hb := Turbojet.noComp) ..) <| .cons (Slots.burner_of ..) <|
    .cons (Slots.turb_of (hb := Turbojet.noTurb) ..) <| .cons (Slots.turb_of (hb := Turbojet.noTurb) ..) <|
    .cons (Slots.nozz_of ..) <| .cons (Slots.shaft_of (hn := by decide +kernel) ..) <|
    .cons (Slots.shaft_of (hn := by decide +kernel) ..) <| .cons (Slots.perf_of ..) <|
    .cons (Slots.bal_of _ _ (by cases d <;> decide +kernel)) .nil

theorem fit (p : SstsParts) (d : Bool) : Multi.Fit (ssts p d) (skel d) (slots d) := by
  refine ⟨skel_ok d, parts_of p d, rfl, slots_of p d, ?_⟩
  simp only [ssts, List.forall_mem_cons]
  exact ⟨(shaftSub_local 2 _).rename "HP_shaft", (shaftSub_local 1 _).rename "LP_shaft", performanceSub_local _ _, balances_local _ _,
    by simp⟩

end SSTS

namespace MST

def slots (d : Bool) : List Slot :=
  [Slots.empty "fc" [], Slots.inlet "inlet" d, Slots.duct "duct1" d, Slots.comp "lpc" [.as "Nmech" "IP_Nmech"] [] d,
   Slots.duct "icduct" d, Slots.comp "hpc_axi" [.as "Nmech" "HP_Nmech"] [] d,
   Slots.bleedOut "bld25" ["cool1", "cool2"] d, Slots.comp "hpc_centri" [.as "Nmech" "HP_Nmech"] [] d,
   Slots.bleedOut "bld3" ["cool3", "cool4"] d, Slots.duct "duct6" d, Slots.burner "burner" d,
   Slots.turb "hpt" [.as "Nmech" "HP_Nmech"] ["cool3", "cool4"] d, Slots.duct "duct43" d,
   Slots.turb "lpt" [.as "Nmech" "IP_Nmech"] ["cool1", "cool2"] d, Slots.duct "itduct" d,
   Slots.turb "pt" [.as "Nmech" "LP_Nmech"] [] d, Slots.duct "duct12" d, Slots.nozz "nozzle" .Cv,
   Slots.shaft "lp_shaft" 1 [.as "Nmech" "LP_Nmech"], Slots.shaft "ip_shaft" 2 [.as "Nmech" "IP_Nmech"],
   Slots.shaft "hp_shaft" 3 [.as "Nmech" "HP_Nmech"], Slots.perf, Slots.bal (bals d) []]

theorem slots_of (p : MstParts) (d : Bool) : List.Forall₂ (fun s p => Slot.Of p s) (mst p d).group.subs (slots d) := by
  simp only [Cycle.group, mst, elements, List.map_cons, List.map_nil, List.cons_append, List.nil_append, slots]
  refine .cons (Slots.empty_of rfl rfl rfl) <| .cons (Slots.inlet_of ..) <| .cons (Slots.duct_of ..) <|
    .cons (Slots.comp_of (hb := Turbojet.noComp) ..) <| .cons (Slots.duct_of ..) <|
    .cons (Slots.comp_of (hb := Turbojet.noComp) ..) <|
    .cons (Slots.bleedOut_of (hb := bld25Names) (hne := by simp) ..) <|
    .cons (Slots.comp_of (hb := Turbojet.noComp) ..) <|
    .cons (Slots.bleedOut_of (hb := HBTF.bld3Names) (hne := by simp) ..) <| .cons (Slots.duct_of ..) <|
    .cons (Slots.burner_of ..) <| .cons (Slots.turb_of (hb := HBTF.hptNames) ..) <| .cons (Slots.duct_of ..) <|
    .cons (Slots.turb_of (hb := HBTF.lptNames) ..) <| .cons (Slots.duct_of ..) <|
    .cons (Slots.turb_of (hb := Turbojet.noTurb) ..) <| .cons (Slots.duct_of ..) <| .cons (Slots.nozz_of ..) <|
    .cons (Slots.shaft_of (hn := by decide +kernel) ..) <| .cons (Slots.shaft_of (hn := by decide +kernel) ..) <|
    .cons (Slots.shaft_of (hn := by decide +kernel) ..) <| .cons (Slots.perf_of ..) <|
    .cons (Slots.bal_of _ _ (by cases d <;> decide +kernel)) .nil

theorem fit (p : MstParts) (d : Bool) : Multi.Fit (mst p d) (skel d) (slots d) := by
  refine ⟨skel_ok d, parts_of p d, rfl, slots_of p d, ?_⟩
  simp only [mst, List.forall_mem_cons]
  exact ⟨(shaftSub_local 1 _).rename "lp_shaft", (shaftSub_local 2 _).rename "ip_shaft", (shaftSub_local 3 _).rename "hp_shaft", performanceSub_local _ _, balances_local _ _,
    by simp⟩

end MST

namespace MFTF

def slots (d : Bool) : List Slot :=
  [Slots.empty "fc" [], Slots.inlet "inlet" d, Slots.duct "inlet_duct" d,
   Slots.comp "fan" [.as "Nmech" "LP_Nmech"] [] d, Slots.splitter "splitter" d, Slots.duct "splitter_core_duct" d,
   Slots.comp "lpc" [.as "Nmech" "LP_Nmech"] [] d, Slots.duct "lpc_duct" d,
   Slots.comp "hpc" [.as "Nmech" "HP_Nmech"] ["cool1"] d, Slots.bleedOut "bld3" ["cool3"] d, Slots.burner "burner" d,
   Slots.turb "hpt" [.as "Nmech" "HP_Nmech"] ["cool3"] d, Slots.duct "hpt_duct" d,
   Slots.turb "lpt" [.as "Nmech" "LP_Nmech"] ["cool1"] d, Slots.duct "lpt_duct" d, Slots.duct "bypass_duct" d,
   Slots.mixer "mixer" d, Slots.duct "mixer_duct" d, Slots.burner "afterburner" d, Slots.nozz "mixed_nozz" .Cfg,
   Slots.shaft "lp_shaft" 3 [.as "Nmech" "LP_Nmech"], Slots.shaft "hp_shaft" 2 [.as "Nmech" "HP_Nmech"], Slots.perf,
   Slots.bal (bals d) []]

theorem slots_of (p : MftfParts) (d : Bool) : List.Forall₂ (fun s p => Slot.Of p s) (mftf p d).group.subs (slots d) := by
  simp only [Cycle.group, mftf, elements, List.map_cons, List.map_nil, List.cons_append, List.nil_append, slots]
  refine .cons (Slots.empty_of rfl rfl rfl) <| .cons (Slots.inlet_of ..) <| .cons (Slots.duct_of ..) <|
    .cons (Slots.comp_of (hb := Turbojet.noComp) ..) <| .cons (Slots.splitter_of ..) <| .cons (Slots.duct_of ..) <|
    .cons (Slots.comp_of (hb := Turbojet.noComp) ..) <| .cons (Slots.duct_of ..) <|
    .cons (Slots.comp_of (hb := hpcNames) ..) <| .cons (Slots.bleedOut_of (hb := bld3Names) (hne := by simp) ..) <|
    .cons (Slots.burner_of ..) <| .cons (Slots.turb_of (hb := hptNames) ..) <| .cons (Slots.duct_of ..) <|
    .cons (Slots.turb_of (hb := lptNames) ..) <| .cons (Slots.duct_of ..) <| .cons (Slots.duct_of ..) <|
    .cons (Slots.mixer_of ..) <| .cons (Slots.duct_of ..) <| .cons (Slots.burner_of ..) <| .cons (Slots.nozz_of ..) <|
    .cons (Slots.shaft_of (hn := by decide +kernel) ..) <| .cons (Slots.shaft_of (hn := by decide +kernel) ..) <|
    .cons (Slots.perf_of ..) <| .cons (Slots.bal_of _ _ (by cases d <;> decide +kernel)) .nil

theorem fit (p : MftfParts) (d : Bool) : Multi.Fit (mftf p d) (skel d) (slots d) := by
  refine ⟨skel_ok d, parts_of p d, rfl, slots_of p d, ?_⟩
  simp only [mftf, List.forall_mem_cons]
  exact ⟨(shaftSub_local 3 _).rename "lp_shaft", (shaftSub_local 2 _).rename "hp_shaft", performanceSub_local _ _, balances_local _ _,
    by simp⟩

end MFTF

theorem WTJ.mpSound (p : WetParts) {ods : List String} (hn : ("DESIGN" :: ods).Nodup) (hp : ∀ n ∈ ods, Plain n) :
    (mpWetTurbojet p ods).Sound := by
  refine Multi.sound_of_same rfl rfl hn ?_ (WTJ.fit p true) (WTJ.fit p false) rfl (P := WTJ.mpParams)
    (C := WTJ.mpConns) rfl rfl ?_ ?_
  · exact List.forall_mem_cons.mpr ⟨by decide, hp⟩
  · decide +kernel
  · decide +kernel

theorem ABTJ.mpSound (p : AbtjParts) {ods : List String} (hn : ("DESIGN" :: ods).Nodup) (hp : ∀ n ∈ ods, Plain n) :
    (mpABTurbojet p ods).Sound := by
  refine Multi.sound_of_same rfl rfl hn ?_ (ABTJ.fit p true) (ABTJ.fit p false) rfl (P := ABTJ.mpParams)
    (C := ABTJ.mpConns) rfl rfl ?_ ?_
  · exact List.forall_mem_cons.mpr ⟨by decide, hp⟩
  · decide +kernel
  · decide +kernel

theorem SSTS.mpSound (p : SstsParts) {ods : List String} (hn : ("DESIGN" :: ods).Nodup) (hp : ∀ n ∈ ods, Plain n) :
    (mpSingleSpool p ods).Sound := by
  refine Multi.sound_of_same rfl rfl hn ?_ (SSTS.fit p true) (SSTS.fit p false) rfl (P := SSTS.mpParams)
    (C := SSTS.mpConns) rfl rfl ?_ ?_
  · exact List.forall_mem_cons.mpr ⟨by decide, hp⟩
  · decide +kernel
  · decide +kernel

theorem MST.mpSound (p : MstParts) {ods : List String} (hn : ("DESIGN" :: ods).Nodup) (hp : ∀ n ∈ ods, Plain n) :
    (mpMultiSpool p ods).Sound := by
  refine Multi.sound_of_same rfl rfl hn ?_ (MST.fit p true) (MST.fit p false) rfl (P := MST.mpParams)
    (C := MST.mpConns) rfl rfl ?_ ?_
  · exact List.forall_mem_cons.mpr ⟨by decide, hp⟩
  · decide +kernel
  · decide +kernel

theorem MFTF.mpSound (p : MftfParts) {ods : List String} (hn : ("DESIGN" :: ods).Nodup) (hp : ∀ n ∈ ods, Plain n) :
    (mpMixedFlow p ods).Sound := by
  refine Multi.sound_of_same rfl rfl hn ?_ (MFTF.fit p true) (MFTF.fit p false) rfl (P := MFTF.mpParams)
    (C := MFTF.mpConns) rfl rfl ?_ ?_
  · exact List.forall_mem_cons.mpr ⟨by decide, hp⟩
  · decide +kernel
  · decide +kernel

end PyCycle.OM
