import Verif.Model.MixedFlow
import Verif.Proofs.TurbofanNames

/-! # Names of the mixed-flow turbofan -/

namespace PyCycle.OM.MFTF

theorem hpcNames : BleedNames compressorTails compressorReserved ["cool1"] := by
  constructor <;> decide +kernel
theorem bld3Names : BleedNames bleedTails bleedOutReserved ["cool3"] := by
  constructor <;> decide +kernel
theorem hptNames : BleedNames turbineTails turbineReserved ["cool3"] := by
  constructor <;> decide +kernel
theorem lptNames : BleedNames turbineTails turbineReserved ["cool1"] := by
  constructor <;> decide +kernel

/-- The parts. -/
def parts (d : Bool) : List Part :=
  [⟨"fc", [], Ifaces.fc⟩, ⟨"inlet", [], Ifaces.inlet⟩, ⟨"inlet_duct", [], Ifaces.duct⟩,
   ⟨"fan", [.as "Nmech" "LP_Nmech"], Ifaces.comp []⟩, ⟨"splitter", [], Ifaces.splitter⟩,
   ⟨"splitter_core_duct", [], Ifaces.duct⟩, ⟨"lpc", [.as "Nmech" "LP_Nmech"], Ifaces.comp []⟩,
   ⟨"lpc_duct", [], Ifaces.duct⟩, ⟨"hpc", [.as "Nmech" "HP_Nmech"], Ifaces.comp ["cool1"]⟩,
   ⟨"bld3", [], Ifaces.bleedOut ["cool3"]⟩, ⟨"burner", [], Ifaces.burner⟩,
   ⟨"hpt", [.as "Nmech" "HP_Nmech"], Ifaces.turb d ["cool3"]⟩, ⟨"hpt_duct", [], Ifaces.duct⟩,
   ⟨"lpt", [.as "Nmech" "LP_Nmech"], Ifaces.turb d ["cool1"]⟩, ⟨"lpt_duct", [], Ifaces.duct⟩,
   ⟨"bypass_duct", [], Ifaces.duct⟩, ⟨"mixer", [], Ifaces.mixer⟩, ⟨"mixer_duct", [], Ifaces.duct⟩,
   ⟨"afterburner", [], Ifaces.burner⟩, ⟨"mixed_nozz", [], Ifaces.nozz⟩,
   ⟨"lp_shaft", [.as "Nmech" "LP_Nmech"], { outs := (shaftSub 3 []).outs, ins := (shaftSub 3 []).ins }⟩,
   ⟨"hp_shaft", [.as "Nmech" "HP_Nmech"], { outs := (shaftSub 2 []).outs, ins := (shaftSub 2 []).ins }⟩,
   ⟨"perf", [], { outs := (performanceSub 1 2).outs, ins := (performanceSub 1 2).ins }⟩,
   ⟨"balance", [], { outs := (bals d).map Bal.out, ins := (bals d).flatMap Bal.ins }⟩]

def skel (d : Bool) : Skel := ⟨parts d, flows, plainConns ++ balConns d⟩

theorem skel_ok (d : Bool) : (skel d).Ok := by
  apply Skel.ok_of_check
  cases d <;> decide +kernel

variable (p : MftfParts) (d : Bool)

theorem parts_of : List.Forall₂ (fun s p => Part.Of p s) (mftf p d).group.subs (parts d) := by
  have hbal : Iface.Of { outs := (bals d).map Bal.out, ins := (bals d).flatMap Bal.ins } (balances (bals d) []) := by
    refine Iface.Of.comp (s := balances (bals d) []) ?_ ?_ <;> cases d <;> decide +kernel
  simp only [Cycle.group, mftf, elements, List.map_cons, List.map_nil, List.cons_append, List.nil_append, parts]
  refine .cons ⟨rfl, rfl, rfl, Ifaces.fc_of ..⟩ <| .cons ⟨rfl, rfl, rfl, Ifaces.inlet_of ..⟩ <|
    .cons ⟨rfl, rfl, rfl, Ifaces.duct_of ..⟩ <|
    .cons ⟨rfl, rfl, rfl, Ifaces.comp_of (hb := Turbojet.noComp) ..⟩ <| .cons ⟨rfl, rfl, rfl, Ifaces.splitter_of ..⟩ <|
    .cons ⟨rfl, rfl, rfl, Ifaces.duct_of ..⟩ <| .cons ⟨rfl, rfl, rfl, Ifaces.comp_of (hb := Turbojet.noComp) ..⟩ <|
    .cons ⟨rfl, rfl, rfl, Ifaces.duct_of ..⟩ <| .cons ⟨rfl, rfl, rfl, Ifaces.comp_of (hb := hpcNames) ..⟩ <|
    .cons ⟨rfl, rfl, rfl, Ifaces.bleedOut_of (hb := bld3Names) (hne := by simp) ..⟩ <|
    .cons ⟨rfl, rfl, rfl, Ifaces.burner_of ..⟩ <| .cons ⟨rfl, rfl, rfl, Ifaces.turb_of (hb := hptNames) ..⟩ <|
    .cons ⟨rfl, rfl, rfl, Ifaces.duct_of ..⟩ <| .cons ⟨rfl, rfl, rfl, Ifaces.turb_of (hb := lptNames) ..⟩ <|
    .cons ⟨rfl, rfl, rfl, Ifaces.duct_of ..⟩ <| .cons ⟨rfl, rfl, rfl, Ifaces.duct_of ..⟩ <|
    .cons ⟨rfl, rfl, rfl, Ifaces.mixer_of ..⟩ <| .cons ⟨rfl, rfl, rfl, Ifaces.duct_of ..⟩ <|
    .cons ⟨rfl, rfl, rfl, Ifaces.burner_of ..⟩ <| .cons ⟨rfl, rfl, rfl, Ifaces.nozz_of ..⟩ <|
    .cons ⟨rfl, rfl, rfl, Ifaces.shaft_of (hn := by decide +kernel) ..⟩ <|
    .cons ⟨rfl, rfl, rfl, Ifaces.shaft_of (hn := by decide +kernel) ..⟩ <|
    .cons ⟨rfl, rfl, rfl, Ifaces.perf_of (h := by decide +kernel) ..⟩ <| .cons ⟨rfl, rfl, rfl, hbal⟩ .nil

theorem accepted : (mftf p d).group.wiring.Accepted :=
  Group.accepted_of (skel_ok d) (parts_of p d) rfl

end PyCycle.OM.MFTF
