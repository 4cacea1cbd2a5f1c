import Verif.Model.Turbofan
import Verif.Proofs.Ifaces

/-! # Names of the turbofan -/

namespace PyCycle.OM

theorem balances_local (bs : List Bal) (pI : List Prom) : (balances bs pI).Local := by
  intro i i' o o' hi _ e b hb
  have a : ∀ v ∈ b.ins, i.num v = i'.num v := fun v hv => (hi v (List.mem_flatMap.mpr ⟨b, hb, hv⟩)).1
  have e := e b hb
  obtain ⟨out, lhs, rhs, mult⟩ := b
  cases mult with
  | none =>
    simp only [Bal.Met] at e ⊢
    rwa [← a lhs (by simp [Bal.ins]), ← a rhs (by simp [Bal.ins])]
  | some m =>
    simp only [Bal.Met] at e ⊢
    rwa [← a lhs (by simp [Bal.ins]), ← a rhs (by simp [Bal.ins]), ← a m (by simp [Bal.ins])]

theorem Sub.Local.rename {s : Sub} (h : s.Local) (n : String) : ({ s with name := n } : Sub).Local := h

namespace HBTF

theorem hpcNames : BleedNames compressorTails compressorReserved ["cool1", "cool2", "cust"] := by
  constructor <;> decide +kernel
theorem bld3Names : BleedNames bleedTails bleedOutReserved ["cool3", "cool4"] := by
  constructor <;> decide +kernel
theorem bypNames : BleedNames bleedTails bleedOutReserved ["bypBld"] := by
  constructor <;> decide +kernel
theorem hptNames : BleedNames turbineTails turbineReserved ["cool3", "cool4"] := by
  constructor <;> decide +kernel
theorem lptNames : BleedNames turbineTails turbineReserved ["cool1", "cool2"] := by
  constructor <;> decide +kernel

/-- The parts. -/
def parts (m : HbtfMode) : List Part :=
  [⟨"fc", [], Ifaces.fc⟩, ⟨"inlet", [], Ifaces.inlet⟩, ⟨"fan", [.as "Nmech" "LP_Nmech"], Ifaces.comp []⟩,
   ⟨"splitter", [], Ifaces.splitter⟩, ⟨"duct4", [], Ifaces.duct⟩, ⟨"lpc", [.as "Nmech" "LP_Nmech"], Ifaces.comp []⟩,
   ⟨"duct6", [], Ifaces.duct⟩, ⟨"hpc", [.as "Nmech" "HP_Nmech"], Ifaces.comp ["cool1", "cool2", "cust"]⟩,
   ⟨"bld3", [], Ifaces.bleedOut ["cool3", "cool4"]⟩, ⟨"burner", [], Ifaces.burner⟩,
   ⟨"hpt", [.as "Nmech" "HP_Nmech"], Ifaces.turb m.isDesign ["cool3", "cool4"]⟩, ⟨"duct11", [], Ifaces.duct⟩,
   ⟨"lpt", [.as "Nmech" "LP_Nmech"], Ifaces.turb m.isDesign ["cool1", "cool2"]⟩, ⟨"duct13", [], Ifaces.duct⟩,
   ⟨"core_nozz", [], Ifaces.nozz⟩, ⟨"byp_bld", [], Ifaces.bleedOut ["bypBld"]⟩, ⟨"duct15", [], Ifaces.duct⟩,
   ⟨"byp_nozz", [], Ifaces.nozz⟩,
   ⟨"lp_shaft", [.as "Nmech" "LP_Nmech"], { outs := (shaftSub 3 []).outs, ins := (shaftSub 3 []).ins }⟩,
   ⟨"hp_shaft", [.as "Nmech" "HP_Nmech"], { outs := (shaftSub 2 []).outs, ins := (shaftSub 2 []).ins }⟩,
   ⟨"perf", [], { outs := (performanceSub 2 1).outs, ins := (performanceSub 2 1).ins }⟩,
   ⟨"balance", balProms m, { outs := (bals m).map Bal.out, ins := (bals m).flatMap Bal.ins }⟩]

def skel (m : HbtfMode) : Skel := ⟨parts m, flows, plainConns ++ balConns m⟩

theorem skel_ok (m : HbtfMode) : (skel m).Ok := by
  apply Skel.ok_of_check
  cases m <;> decide +kernel

variable (p : HbtfParts) (m : HbtfMode)

theorem parts_of : List.Forall₂ (fun s p => Part.Of p s) (hbtf p m).group.subs (parts m) := by
  have hbal : Iface.Of { outs := (bals m).map Bal.out, ins := (bals m).flatMap Bal.ins } (balances (bals m) (balProms m)) := by
    refine Iface.Of.comp (s := balances (bals m) (balProms m)) ?_ ?_ <;> cases m <;> decide +kernel
  simp only [Cycle.group, hbtf, elements, List.map_cons, List.map_nil, List.cons_append, List.nil_append, parts]
  refine .cons ⟨rfl, rfl, rfl, Ifaces.fc_of ..⟩ <| .cons ⟨rfl, rfl, rfl, Ifaces.inlet_of ..⟩ <|
    .cons ⟨rfl, rfl, rfl, Ifaces.comp_of (hb := Turbojet.noComp) ..⟩ <| .cons ⟨rfl, rfl, rfl, Ifaces.splitter_of ..⟩ <|
    .cons ⟨rfl, rfl, rfl, Ifaces.duct_of ..⟩ <| .cons ⟨rfl, rfl, rfl, Ifaces.comp_of (hb := Turbojet.noComp) ..⟩ <|
    .cons ⟨rfl, rfl, rfl, Ifaces.duct_of ..⟩ <| .cons ⟨rfl, rfl, rfl, Ifaces.comp_of (hb := hpcNames) ..⟩ <|
    .cons ⟨rfl, rfl, rfl, Ifaces.bleedOut_of (hb := bld3Names) (hne := by simp) ..⟩ <|
    .cons ⟨rfl, rfl, rfl, Ifaces.burner_of ..⟩ <| .cons ⟨rfl, rfl, rfl, Ifaces.turb_of (hb := hptNames) ..⟩ <|
    .cons ⟨rfl, rfl, rfl, Ifaces.duct_of ..⟩ <| .cons ⟨rfl, rfl, rfl, Ifaces.turb_of (hb := lptNames) ..⟩ <|
    .cons ⟨rfl, rfl, rfl, Ifaces.duct_of ..⟩ <| .cons ⟨rfl, rfl, rfl, Ifaces.nozz_of ..⟩ <|
    .cons ⟨rfl, rfl, rfl, Ifaces.bleedOut_of (hb := bypNames) (hne := by simp) ..⟩ <|
    .cons ⟨rfl, rfl, rfl, Ifaces.duct_of ..⟩ <| .cons ⟨rfl, rfl, rfl, Ifaces.nozz_of ..⟩ <|
    .cons ⟨rfl, rfl, rfl, Ifaces.shaft_of (hn := by decide +kernel) ..⟩ <|
    .cons ⟨rfl, rfl, rfl, Ifaces.shaft_of (hn := by decide +kernel) ..⟩ <|
    .cons ⟨rfl, rfl, rfl, Ifaces.perf_of (h := by decide +kernel) ..⟩ <| .cons ⟨rfl, rfl, rfl, hbal⟩ .nil

theorem accepted : (hbtf p m).group.wiring.Accepted :=
  Group.accepted_of (skel_ok m) (parts_of p m) rfl

end HBTF
end PyCycle.OM
