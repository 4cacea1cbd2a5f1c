import Verif.Model.Propulsor
import Verif.Proofs.TurbofanNames

/-! # Names of the propulsor -/

namespace PyCycle.OM.Propulsor
open C49

theorem fc_of (gas : (ℕ → ℝ) → TPGas) (r : Option Adder) (name : String) (pI pO : List Prom) :
    Ifaces.fc.Of ((flightConditions gas r).asSub name pI pO) := by
  have hx := C49_flight_interface gas r
  refine .element hx.1.1.2.1 ?_ (by simp [Ifaces.fc]) (by simp [Ifaces.fc]) (by simp [Ifaces.fc]) ?_
  · rw [cwf_eq]
    have h : ∀ r, ∀ p ∈ ["Fl_O"], ∀ v ∈ linkOutVars, p ++ ":" ++ v ∈ (cwf r).outs := by decide +kernel
    exact h _
  · intro v hv; rw [hx.2]; obtain rfl := List.mem_singleton.mp hv; simp

/-- The parts. -/
def parts (d : Bool) : List Part :=
  [⟨"fc", [], Ifaces.fc⟩, ⟨"inlet", [], Ifaces.inlet⟩, ⟨"fan", [], Ifaces.comp []⟩, ⟨"nozz", [], Ifaces.nozz⟩,
   ⟨"perf", [], { outs := (performanceSub 1 0).outs, ins := (performanceSub 1 0).ins }⟩,
   ⟨"balance", balProms d, { outs := (bals d).map Bal.out, ins := (bals d).flatMap Bal.ins }⟩]
  ++ if d then [⟨"shaft", [], { outs := ["Nmech"], ins := [] }⟩] else []

def skel (d : Bool) : Skel := ⟨parts d, flows, plainConns ++ balConns d⟩

theorem skel_ok (d : Bool) : (skel d).Ok := by
  apply Skel.ok_of_check
  cases d <;> decide +kernel

variable (p : PropulsorParts) (d : Bool)

theorem parts_of : List.Forall₂ (fun s p => Part.Of p s) (propulsor p d).group.subs (parts d) := by
  have hbal : Iface.Of { outs := (bals d).map Bal.out, ins := (bals d).flatMap Bal.ins } (balances (bals d) (balProms d)) := by
    refine Iface.Of.comp (s := balances (bals d) (balProms d)) ?_ ?_ <;> cases d <;> decide +kernel
  have hs : Iface.Of { outs := ["Nmech"], ins := [] } speedSub := Iface.Of.comp (s := speedSub) (by decide) (by decide)
  have h0 := fc_of p.air p.water "fc" [] []
  cases d <;> (
    simp only [Cycle.group, propulsor, elements, List.map_cons, List.map_nil, List.cons_append, List.nil_append, parts,
      Bool.false_eq_true, if_false, if_true]
    refine .cons ⟨rfl, rfl, rfl, h0⟩ <| .cons ⟨rfl, rfl, rfl, Ifaces.inlet_of ..⟩ <|
      .cons ⟨rfl, rfl, rfl, Ifaces.comp_of (hb := Turbojet.noComp) ..⟩ <|
      .cons ⟨rfl, rfl, rfl, Ifaces.nozz_of ..⟩ <|
      .cons ⟨rfl, rfl, rfl, Ifaces.perf_of (h := by decide +kernel) ..⟩ <| .cons ⟨rfl, rfl, rfl, hbal⟩ ?_)
  · exact .nil
  · exact .cons ⟨rfl, rfl, rfl, hs⟩ .nil

theorem accepted : (propulsor p d).group.wiring.Accepted :=
  Group.accepted_of (skel_ok d) (parts_of p d) rfl

end PyCycle.OM.Propulsor
