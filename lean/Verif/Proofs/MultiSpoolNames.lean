import Verif.Model.MultiSpool
import Verif.Proofs.TurbofanNames

/-! # Names of the turboshaft with two gas generator spools -/

namespace PyCycle.OM.MST

theorem bld25Names : BleedNames bleedTails bleedOutReserved ["cool1", "cool2"] := by
  constructor <;> decide +kernel

/-- The parts. -/
def parts (d : Bool) : List Part :=
  [⟨"fc", [], Ifaces.fc⟩, ⟨"inlet", [], Ifaces.inlet⟩, ⟨"duct1", [], Ifaces.duct⟩,
   ⟨"lpc", [.as "Nmech" "IP_Nmech"], Ifaces.comp []⟩, ⟨"icduct", [], Ifaces.duct⟩,
   ⟨"hpc_axi", [.as "Nmech" "HP_Nmech"], Ifaces.comp []⟩, ⟨"bld25", [], Ifaces.bleedOut ["cool1", "cool2"]⟩,
   ⟨"hpc_centri", [.as "Nmech" "HP_Nmech"], Ifaces.comp []⟩, ⟨"bld3", [], Ifaces.bleedOut ["cool3", "cool4"]⟩,
   ⟨"duct6", [], Ifaces.duct⟩, ⟨"burner", [], Ifaces.burner⟩,
   ⟨"hpt", [.as "Nmech" "HP_Nmech"], Ifaces.turb d ["cool3", "cool4"]⟩, ⟨"duct43", [], Ifaces.duct⟩,
   ⟨"lpt", [.as "Nmech" "IP_Nmech"], Ifaces.turb d ["cool1", "cool2"]⟩, ⟨"itduct", [], Ifaces.duct⟩,
   ⟨"pt", [.as "Nmech" "LP_Nmech"], Ifaces.turb d []⟩, ⟨"duct12", [], Ifaces.duct⟩, ⟨"nozzle", [], Ifaces.nozz⟩,
   ⟨"lp_shaft", [.as "Nmech" "LP_Nmech"], { outs := (shaftSub 1 []).outs, ins := (shaftSub 1 []).ins }⟩,
   ⟨"ip_shaft", [.as "Nmech" "IP_Nmech"], { outs := (shaftSub 2 []).outs, ins := (shaftSub 2 []).ins }⟩,
   ⟨"hp_shaft", [.as "Nmech" "HP_Nmech"], { outs := (shaftSub 3 []).outs, ins := (shaftSub 3 []).ins }⟩,
   ⟨"perf", [], { outs := (performanceSub 1 1).outs, ins := (performanceSub 1 1).ins }⟩,
   ⟨"balance", [], { outs := (bals d).map Bal.out, ins := (bals d).flatMap Bal.ins }⟩]

def skel (d : Bool) : Skel := ⟨parts d, flows, plainConns ++ balConns d⟩

theorem skel_ok (d : Bool) : (skel d).Ok := by
  apply Skel.ok_of_check
  cases d <;> decide +kernel

variable (p : MstParts) (d : Bool)

theorem parts_of : List.Forall₂ (fun s p => Part.Of p s) (mst p d).group.subs (parts d) := by
  have hbal : Iface.Of { outs := (bals d).map Bal.out, ins := (bals d).flatMap Bal.ins } (balances (bals d) []) := by
    refine Iface.Of.comp (s := balances (bals d) []) ?_ ?_ <;> cases d <;> decide +kernel
  simp only [Cycle.group, mst, elements, List.map_cons, List.map_nil, List.cons_append, List.nil_append, parts]
  refine .cons ⟨rfl, rfl, rfl, Ifaces.fc_of ..⟩ <| .cons ⟨rfl, rfl, rfl, Ifaces.inlet_of ..⟩ <|
    .cons ⟨rfl, rfl, rfl, Ifaces.duct_of ..⟩ <|
    .cons ⟨rfl, rfl, rfl, Ifaces.comp_of (hb := Turbojet.noComp) ..⟩ <| .cons ⟨rfl, rfl, rfl, Ifaces.duct_of ..⟩ <|
    .cons ⟨rfl, rfl, rfl, Ifaces.comp_of (hb := Turbojet.noComp) ..⟩ <|
    .cons ⟨rfl, rfl, rfl, Ifaces.bleedOut_of (hb := bld25Names) (hne := by simp) ..⟩ <|
    .cons ⟨rfl, rfl, rfl, Ifaces.comp_of (hb := Turbojet.noComp) ..⟩ <|
    .cons ⟨rfl, rfl, rfl, Ifaces.bleedOut_of (hb := HBTF.bld3Names) (hne := by simp) ..⟩ <|
    .cons ⟨rfl, rfl, rfl, Ifaces.duct_of ..⟩ <|
    .cons ⟨rfl, rfl, rfl, Ifaces.burner_of ..⟩ <| .cons ⟨rfl, rfl, rfl, Ifaces.turb_of (hb := HBTF.hptNames) ..⟩ <|
    .cons ⟨rfl, rfl, rfl, Ifaces.duct_of ..⟩ <| .cons ⟨rfl, rfl, rfl, Ifaces.turb_of (hb := HBTF.lptNames) ..⟩ <|
    .cons ⟨rfl, rfl, rfl, Ifaces.duct_of ..⟩ <| .cons ⟨rfl, rfl, rfl, Ifaces.turb_of (hb := Turbojet.noTurb) ..⟩ <|
    .cons ⟨rfl, rfl, rfl, Ifaces.duct_of ..⟩ <| .cons ⟨rfl, rfl, rfl, Ifaces.nozz_of ..⟩ <|
    .cons ⟨rfl, rfl, rfl, Ifaces.shaft_of (hn := by decide +kernel) ..⟩ <|
    .cons ⟨rfl, rfl, rfl, Ifaces.shaft_of (hn := by decide +kernel) ..⟩ <|
    .cons ⟨rfl, rfl, rfl, Ifaces.shaft_of (hn := by decide +kernel) ..⟩ <|
    .cons ⟨rfl, rfl, rfl, Ifaces.perf_of (h := by decide +kernel) ..⟩ <| .cons ⟨rfl, rfl, rfl, hbal⟩ .nil

theorem accepted : (mst p d).group.wiring.Accepted :=
  Group.accepted_of (skel_ok d) (parts_of p d) rfl

end PyCycle.OM.MST
