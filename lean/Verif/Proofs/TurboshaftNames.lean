import Verif.Model.Turboshaft
import Verif.Proofs.TurbofanNames

/-! # Names of the turboshaft -/

namespace PyCycle.OM.SSTS

/-- The parts. -/
def parts (d : Bool) : List Part :=
  [⟨"fc", [], Ifaces.fc⟩, ⟨"inlet", [], Ifaces.inlet⟩, ⟨"comp", [.as "Nmech" "HP_Nmech"], Ifaces.comp []⟩,
   ⟨"burner", [], Ifaces.burner⟩, ⟨"turb", [.as "Nmech" "HP_Nmech"], Ifaces.turb d []⟩,
   ⟨"pt", [.as "Nmech" "LP_Nmech"], Ifaces.turb d []⟩, ⟨"nozz", [], Ifaces.nozz⟩,
   ⟨"HP_shaft", [.as "Nmech" "HP_Nmech"], { outs := (shaftSub 2 []).outs, ins := (shaftSub 2 []).ins }⟩,
   ⟨"LP_shaft", [.as "Nmech" "LP_Nmech"], { outs := (shaftSub 1 []).outs, ins := (shaftSub 1 []).ins }⟩,
   ⟨"perf", [], { outs := (performanceSub 1 1).outs, ins := (performanceSub 1 1).ins }⟩,
   ⟨"balance", [], { outs := (bals d).map Bal.out, ins := (bals d).flatMap Bal.ins }⟩]

def skel (d : Bool) : Skel := ⟨parts d, flows, plainConns ++ balConns d⟩

theorem skel_ok (d : Bool) : (skel d).Ok := by
  apply Skel.ok_of_check
  cases d <;> decide +kernel

variable (p : SstsParts) (d : Bool)

theorem parts_of : List.Forall₂ (fun s p => Part.Of p s) (ssts p d).group.subs (parts d) := by
  have hbal : Iface.Of { outs := (bals d).map Bal.out, ins := (bals d).flatMap Bal.ins } (balances (bals d) []) := by
    refine Iface.Of.comp (s := balances (bals d) []) ?_ ?_ <;> cases d <;> decide +kernel
  simp only [Cycle.group, ssts, elements, List.map_cons, List.map_nil, List.cons_append, List.nil_append, parts]
  refine .cons ⟨rfl, rfl, rfl, Ifaces.fc_of ..⟩ <| .cons ⟨rfl, rfl, rfl, Ifaces.inlet_of ..⟩ <|
    .cons ⟨rfl, rfl, rfl, Ifaces.comp_of (hb := Turbojet.noComp) ..⟩ <|
    .cons ⟨rfl, rfl, rfl, Ifaces.burner_of ..⟩ <| .cons ⟨rfl, rfl, rfl, Ifaces.turb_of (hb := Turbojet.noTurb) ..⟩ <|
    .cons ⟨rfl, rfl, rfl, Ifaces.turb_of (hb := Turbojet.noTurb) ..⟩ <|
    .cons ⟨rfl, rfl, rfl, Ifaces.nozz_of ..⟩ <|
    .cons ⟨rfl, rfl, rfl, Ifaces.shaft_of (hn := by decide +kernel) ..⟩ <|
    .cons ⟨rfl, rfl, rfl, Ifaces.shaft_of (hn := by decide +kernel) ..⟩ <|
    .cons ⟨rfl, rfl, rfl, Ifaces.perf_of (h := by decide +kernel) ..⟩ <| .cons ⟨rfl, rfl, rfl, hbal⟩ .nil

theorem accepted : (ssts p d).group.wiring.Accepted :=
  Group.accepted_of (skel_ok d) (parts_of p d) rfl

end PyCycle.OM.SSTS
