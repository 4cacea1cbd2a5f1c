import Verif.Model.WetTurbojet
import Verif.Props.C68_WetAir
import Verif.Proofs.TurbofanNames

/-! # Names of the turbojet in humid air -/

namespace PyCycle.OM.WTJ
open C68

theorem compNames : BleedNames compressorTails compressorReserved [] := by constructor <;> decide +kernel
theorem turbNames : BleedNames turbineTails turbineReserved [] := by constructor <;> decide +kernel

/-- Free stream with a reactant. -/
theorem fc_of (gas : (ℕ → ℝ) → TPGas) (a : Adder) (name : String) (pI pO : List Prom) :
    Ifaces.fc.Of ((flightConditions gas (some a) "WAR").asSub name pI pO) := by
  have hx := C68_interface gas a (ratio := "WAR") (Or.inr rfl)
  refine .element hx.1.1.2.1 ?_ (by simp [Ifaces.fc]) (by simp [Ifaces.fc]) (by simp [Ifaces.fc]) ?_
  · rw [show (flightConditions gas (some a) "WAR").wiring = ww true from ww_eq gas a true]
    have h : ∀ r, ∀ p ∈ ["Fl_O"], ∀ v ∈ linkOutVars, p ++ ":" ++ v ∈ (ww r).outs := by decide +kernel
    exact h _
  · intro v hv; rw [hx.2]; obtain rfl := List.mem_singleton.mp hv; simp

/-- The parts. -/
def parts (d : Bool) : List Part :=
  [⟨"fc", [], Ifaces.fc⟩, ⟨"inlet", [], Ifaces.inlet⟩, ⟨"comp", [.as "Nmech" "Nmech"], Ifaces.comp []⟩,
   ⟨"burner", [], Ifaces.burner⟩, ⟨"turb", [.as "Nmech" "Nmech"], Ifaces.turb d []⟩, ⟨"nozz", [], Ifaces.nozz⟩,
   ⟨"shaft", [.as "Nmech" "Nmech"], { outs := (shaftSub 2 []).outs, ins := (shaftSub 2 []).ins }⟩,
   ⟨"perf", [], { outs := (performanceSub 1 1).outs, ins := (performanceSub 1 1).ins }⟩,
   ⟨"balance", [], { outs := (bals d).map Bal.out, ins := (bals d).flatMap Bal.ins }⟩]

def skel (d : Bool) : Skel := ⟨parts d, flows, plainConns ++ balConns d⟩

theorem skel_ok (d : Bool) : (skel d).Ok := by
  apply Skel.ok_of_check
  cases d <;> decide +kernel

variable (p : WetParts) (d : Bool)

theorem parts_of : List.Forall₂ (fun s p => Part.Of p s) (wtj p d).group.subs (parts d) := by
  have hbal : Iface.Of { outs := (bals d).map Bal.out, ins := (bals d).flatMap Bal.ins } (balances (bals d) []) := by
    refine Iface.Of.comp (s := balances (bals d) []) ?_ ?_ <;> cases d <;> decide +kernel
  simp only [Cycle.group, wtj, elements, List.map_cons, List.map_nil, List.cons_append, List.nil_append, parts]
  refine .cons ⟨rfl, rfl, rfl, fc_of ..⟩ <| .cons ⟨rfl, rfl, rfl, Ifaces.inlet_of ..⟩ <|
    .cons ⟨rfl, rfl, rfl, Ifaces.comp_of (hb := compNames) ..⟩ <|
    .cons ⟨rfl, rfl, rfl, Ifaces.burner_of ..⟩ <| .cons ⟨rfl, rfl, rfl, Ifaces.turb_of (hb := turbNames) ..⟩ <|
    .cons ⟨rfl, rfl, rfl, Ifaces.nozz_of ..⟩ <|
    .cons ⟨rfl, rfl, rfl, Ifaces.shaft_of (hn := by decide +kernel) ..⟩ <|
    .cons ⟨rfl, rfl, rfl, Ifaces.perf_of (h := by decide +kernel) ..⟩ <| .cons ⟨rfl, rfl, rfl, hbal⟩ .nil

theorem accepted : (wtj p d).group.wiring.Accepted :=
  Group.accepted_of (skel_ok d) (parts_of p d) rfl

end PyCycle.OM.WTJ
