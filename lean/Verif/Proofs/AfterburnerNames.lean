import Verif.Model.Afterburner
import Verif.Proofs.TurbofanNames

/-! # Names of the turbojet with afterburner -/

namespace PyCycle.OM.ABTJ

theorem compNames : BleedNames compressorTails compressorReserved ["cool1", "cool2"] := by
  constructor <;> decide +kernel
theorem turbNames : BleedNames turbineTails turbineReserved ["cool1", "cool2"] := by
  constructor <;> decide +kernel

/-- The compressor, which off design shows its R-line. -/
def compIface (d : Bool) : Iface :=
  { Ifaces.comp ["cool1", "cool2"] with outs := ["trq", "power"] ++ if d then [] else ["map.RlineMap"] }

theorem compIface_of (gas : (ℕ → ℝ) → TPGas) (name : String) (pI pO : List Prom) (m : Map.CMap) (d : Bool) :
    (compIface d).Of ((compressor gas m ["cool1", "cool2"] d true).asSub name pI pO) := by
  have hx := C55_interface gas m compNames d true
  have ho : ∀ n ∈ (CompNames.w₀ d true).outs, n ∈ (compressor gas m ["cool1", "cool2"] d true).wiring.outs := fun n hn => by
    rw [(CompNames.ext gas m d true).outs.mem_iff]; exact List.mem_append_left _ hn
  refine .element hx.1.1.2.1 ?_ ?_ ?_ ?_ ?_
  · have h : ∀ d, ∀ p ∈ ["Fl_O"], ∀ v ∈ linkOutVars, p ++ ":" ++ v ∈ (CompNames.w₀ d true).outs := by decide +kernel
    exact fun p hp v hv => ho _ (h d p hp v hv)
  · exact fun p hp => (C57_compressor gas m compNames d true).outs p (List.mem_cons_of_mem _ hp)
  · intro p hp v hv; rw [hx.2]; exact Or.inl (List.mem_append_left _ (Ifaces.port' p hp v hv))
  · have h : ∀ d, ∀ v ∈ (compIface d).outs, v ∈ (CompNames.w₀ d true).outs := by decide +kernel
    exact fun v hv => ho _ (h d v hv)
  · intro v hv; rw [hx.2]; obtain rfl := List.mem_singleton.mp hv; exact Or.inl (by simp [compressorInputs])

/-- The parts. -/
def parts (d : Bool) : List Part :=
  [⟨"fc", [], Ifaces.fc⟩, ⟨"inlet", [], Ifaces.inlet⟩, ⟨"duct1", [], Ifaces.duct⟩,
   ⟨"comp", [.as "Nmech" "Nmech"], compIface d⟩, ⟨"burner", [], Ifaces.burner⟩,
   ⟨"turb", [.as "Nmech" "Nmech"], Ifaces.turb d ["cool1", "cool2"]⟩, ⟨"ab", [], Ifaces.burner⟩,
   ⟨"nozz", [], Ifaces.nozz⟩,
   ⟨"shaft", [.as "Nmech" "Nmech"], { outs := (shaftSub 2 []).outs, ins := (shaftSub 2 []).ins }⟩,
   ⟨"perf", [], { outs := (performanceSub 1 2).outs, ins := (performanceSub 1 2).ins }⟩,
   ⟨"balance", [], { outs := (bals d).map Bal.out, ins := (bals d).flatMap Bal.ins }⟩]

def skel (d : Bool) : Skel := ⟨parts d, flows, plainConns ++ balConns d⟩

theorem skel_ok (d : Bool) : (skel d).Ok := by
  apply Skel.ok_of_check
  cases d <;> decide +kernel

variable (p : AbtjParts) (d : Bool)

theorem parts_of : List.Forall₂ (fun s p => Part.Of p s) (abtj p d).group.subs (parts d) := by
  have hbal : Iface.Of { outs := (bals d).map Bal.out, ins := (bals d).flatMap Bal.ins } (balances (bals d) []) := by
    refine Iface.Of.comp (s := balances (bals d) []) ?_ ?_ <;> cases d <;> decide +kernel
  simp only [Cycle.group, abtj, elements, List.map_cons, List.map_nil, List.cons_append, List.nil_append, parts]
  refine .cons ⟨rfl, rfl, rfl, Ifaces.fc_of ..⟩ <| .cons ⟨rfl, rfl, rfl, Ifaces.inlet_of ..⟩ <|
    .cons ⟨rfl, rfl, rfl, Ifaces.duct_of ..⟩ <| .cons ⟨rfl, rfl, rfl, compIface_of ..⟩ <|
    .cons ⟨rfl, rfl, rfl, Ifaces.burner_of ..⟩ <| .cons ⟨rfl, rfl, rfl, Ifaces.turb_of (hb := turbNames) ..⟩ <|
    .cons ⟨rfl, rfl, rfl, Ifaces.burner_of ..⟩ <| .cons ⟨rfl, rfl, rfl, Ifaces.nozz_of ..⟩ <|
    .cons ⟨rfl, rfl, rfl, Ifaces.shaft_of (hn := by decide +kernel) ..⟩ <|
    .cons ⟨rfl, rfl, rfl, Ifaces.perf_of (h := by decide +kernel) ..⟩ <| .cons ⟨rfl, rfl, rfl, hbal⟩ .nil

theorem accepted : (abtj p d).group.wiring.Accepted :=
  Group.accepted_of (skel_ok d) (parts_of p d) rfl

end PyCycle.OM.ABTJ
