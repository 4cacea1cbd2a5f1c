import Verif.Proofs.EngineKit

/-! # Ports and variables of the elements, as used by whole engines -/

namespace PyCycle.OM
namespace Ifaces
open C49

def fc : Iface := { outlets := ["Fl_O"], ins := ["W"] }
def inlet : Iface := { outlets := ["Fl_O"], inlets := ["Fl_I"], outs := ["F_ram"] }
def comp (bs : List String) : Iface :=
  { outlets := ["Fl_O"], bleeds := bs, inlets := ["Fl_I"], outs := ["trq", "power"], ins := ["Nmech"] }
def splitter : Iface := { outlets := ["Fl_O1", "Fl_O2"], inlets := ["Fl_I"], ins := ["BPR"] }
def duct : Iface := { outlets := ["Fl_O"], inlets := ["Fl_I"] }
def bleedOut (bs : List String) : Iface := { outlets := ["Fl_O"], bleeds := bs, inlets := ["Fl_I"] }
def burner : Iface := { outlets := ["Fl_O"], inlets := ["Fl_I"], outs := ["Wfuel"], ins := ["Fl_I:FAR"] }
def turb (d : Bool) (bs : List String) : Iface :=
  { outlets := ["Fl_O"], inlets := "Fl_I" :: bs, outs := ["trq", "power"], ins := "Nmech" :: if d then ["PR"] else [] }
def nozz : Iface := { inlets := ["Fl_I"], outs := ["Fg", "PR", "Throat:stat:area"], ins := ["Ps_exhaust"] }
def mixer : Iface := { outlets := ["Fl_O"], inlets := ["Fl_I1", "Fl_I2"], outs := ["ER", "Fl_I1_calc:stat:P"] }

theorem port : ∀ p ∈ ["Fl_I"], ∀ v ∈ linkInVars, p ++ ":" ++ v ∈ inletPort := by decide +kernel
theorem port' : ∀ p ∈ ["Fl_I"], ∀ v ∈ linkInVars, p ++ ":" ++ v ∈ flowVarNames "Fl_I" := by decide +kernel
theorem port_any (p : String) : ∀ v ∈ linkInVars, p ++ ":" ++ v ∈ flowVarNames p := by
  intro v hv
  have h : ∀ v ∈ linkInVars, v ∈ ["tot:h", "tot:T", "tot:P", "tot:rho", "tot:gamma", "tot:Cp", "tot:Cv", "tot:S",
      "tot:R", "tot:composition", "stat:h", "stat:T", "stat:P", "stat:rho", "stat:gamma", "stat:Cp", "stat:Cv",
      "stat:S", "stat:R", "stat:composition", "stat:V", "stat:Vsonic", "stat:MN", "stat:area", "stat:Wc", "stat:W",
      "FAR"] := by decide
  exact List.mem_map.mpr ⟨v, h v hv, rfl⟩

variable (gas : (ℕ → ℝ) → TPGas) (name : String) (pI pO : List Prom)

theorem fc_of : fc.Of ((flightConditions gas none).asSub name pI pO) := by
  have hx := C49_flight_interface gas none
  refine .element hx.1.1.2.1 ?_ (by simp [fc]) (by simp [fc]) (by simp [fc]) ?_
  · intro p hp; obtain rfl := List.mem_singleton.mp hp; exact Turbojet.fc_outs gas
  · intro v hv; rw [hx.2]; obtain rfl := List.mem_singleton.mp hv; simp

theorem inlet_of (d : Bool) : inlet.Of ((OM.inlet gas d true).asSub name pI pO) := by
  have hx := C50_inlet_interface gas d true
  refine .element hx.1.1.2.1 ?_ (by simp [inlet]) ?_ ?_ (by simp [inlet])
  · intro p hp; obtain rfl := List.mem_singleton.mp hp; exact (Turbojet.inlet_outs gas d).1
  · intro p hp v hv; rw [hx.2]; exact List.mem_append_left _ (List.mem_append_left _ (port p hp v hv))
  · intro v hv; obtain rfl := List.mem_singleton.mp hv; exact (Turbojet.inlet_outs gas d).2

theorem comp_of (m : Map.CMap) {bs : List String} (hb : BleedNames compressorTails compressorReserved bs) (d : Bool) :
    (comp bs).Of ((compressor gas m bs d true).asSub name pI pO) := by
  have hx := C55_interface gas m hb d true
  have ho : ∀ n ∈ (CompNames.w₀ d true).outs, n ∈ (compressor gas m bs d true).wiring.outs := fun n hn => by
    rw [(CompNames.ext gas m d true).outs.mem_iff]; exact List.mem_append_left _ hn
  refine .element hx.1.1.2.1 ?_ ?_ ?_ ?_ ?_
  · have h : ∀ d, ∀ p ∈ ["Fl_O"], ∀ v ∈ linkOutVars, p ++ ":" ++ v ∈ (CompNames.w₀ d true).outs := by decide +kernel
    exact fun p hp v hv => ho _ (h d p hp v hv)
  · exact fun p hp => (C57_compressor gas m hb d true).outs p (List.mem_cons_of_mem _ hp)
  · intro p hp v hv; rw [hx.2]; exact Or.inl (List.mem_append_left _ (port' p hp v hv))
  · have h : ∀ d, ∀ v ∈ ["trq", "power"], v ∈ (CompNames.w₀ d true).outs := by decide +kernel
    exact fun v hv => ho _ (h d v hv)
  · intro v hv; rw [hx.2]; obtain rfl := List.mem_singleton.mp hv; exact Or.inl (by simp [compressorInputs])

theorem splitter_of (d : Bool) : splitter.Of ((OM.splitter gas d true).asSub name pI pO) := by
  have hx := C50_splitter_interface gas d true
  refine .element hx.1.1.2.1 ?_ (by simp [splitter]) ?_ (by simp [splitter]) ?_
  · have e : (OM.splitter gas d true).wiring = (OM.splitter gas0 d true).wiring := by cases d <;> rfl
    have h : ∀ d, ∀ p ∈ ["Fl_O1", "Fl_O2"], ∀ v ∈ linkOutVars, p ++ ":" ++ v ∈ (OM.splitter gas0 d true).wiring.outs := by
      decide +kernel
    rw [e]; exact h d
  · intro p hp v hv; rw [hx.2]; exact List.mem_append_left _ (List.mem_append_left _ (port' p hp v hv))
  · intro v hv; rw [hx.2]; obtain rfl := List.mem_singleton.mp hv; simp

theorem duct_of (d : Bool) (x : ℝ) (m : Bool) : duct.Of ((OM.duct gas d true x m).asSub name pI pO) := by
  have hx := C50_duct_interface gas d true x m
  refine .element hx.1.1.2.1 ?_ (by simp [duct]) ?_ (by simp [duct]) (by simp [duct])
  · have e : (OM.duct gas d true x m).wiring = (OM.duct gas0 d true 0 m).wiring := by cases d <;> cases m <;> rfl
    have h : ∀ d m, ∀ p ∈ ["Fl_O"], ∀ v ∈ linkOutVars, p ++ ":" ++ v ∈ (OM.duct gas0 d true 0 m).wiring.outs := by
      decide +kernel
    rw [e]; exact h d m
  · intro p hp v hv; rw [hx.2]; exact List.mem_append_left _ (List.mem_append_left _ (port p hp v hv))

theorem bleedOut_of {bs : List String} (hb : BleedNames bleedTails bleedOutReserved bs) (hne : bs ≠ []) (d : Bool) :
    (bleedOut bs).Of ((OM.bleedOut gas bs d true).asSub name pI pO) := by
  have hx := C53_interface gas hb hne d true
  refine .element hx.1.1.2.1 ?_ ?_ ?_ (by simp [bleedOut]) (by simp [bleedOut])
  · have h : ∀ d, ∀ p ∈ ["Fl_O"], ∀ v ∈ linkOutVars,
        p ++ ":" ++ v ∈ ((OM.bleedOut gas0 [] d true).wiring.subs.drop 2).flatMap fun t => t.outs.map t.outName := by
      decide +kernel
    intro p hp v hv
    obtain ⟨t, ht, hm⟩ := List.mem_flatMap.mp (h d p hp v hv)
    refine List.mem_flatMap.mpr ⟨t, ?_, hm⟩
    have hs : (OM.bleedOut gas bs d true).wiring.subs
        = (([flowIn "flow_in" "Fl_I" [.pre "Fl_I:tot:", .pre "Fl_I:stat:"] [.pre "Fl_I:tot:", .pre "Fl_I:stat:"]]
        ++ [bleedCalcsSub bs] ++ bs.map (extractFlow gas)).map Sub.toDecl)
          ++ (OM.bleedOut gas0 [] d true).wiring.subs.drop 2 := by
      cases d <;> simp only [Group.wiring, OM.bleedOut, List.map_append] <;> rfl
    rw [hs]
    exact List.mem_append_right _ ht
  · exact fun p hp => (C57_bleed_out gas hb hne d true).outs p (List.mem_cons_of_mem _ hp)
  · intro p hp v hv; rw [hx.2]
    exact Or.inl (List.mem_append_left _ (List.mem_append_left _ (port p hp v hv)))

theorem burner_of (a : Adder) (d : Bool) : burner.Of ((combustor gas a d true).asSub name pI pO) := by
  have hx := C48_interface gas a d true
  refine .element hx.1.1.2.1 ?_ (by simp [burner]) ?_ ?_ ?_
  · intro p hp; obtain rfl := List.mem_singleton.mp hp; exact (Turbojet.burner_outs gas a d).1
  · intro p hp v hv; rw [hx.2]
    exact List.mem_append_left _ (List.mem_append_left _ (List.mem_append_left _ (port p hp v hv)))
  · intro v hv; obtain rfl := List.mem_singleton.mp hv; exact (Turbojet.burner_outs gas a d).2
  · intro v hv; rw [hx.2]; obtain rfl := List.mem_singleton.mp hv; simp

theorem turb_of (gb : String → (ℕ → ℝ) → TPGas) (m : Map.TMap) (a : BleedAdder) {bs : List String}
    (hb : BleedNames turbineTails turbineReserved bs) (d : Bool) :
    (turb d bs).Of ((turbine gas gb m a bs d true).asSub name pI pO) := by
  have hx := C56_interface gas gb m a hb d true
  have ho : ∀ n ∈ (TurbNames.w₀ d true).outs, n ∈ (turbine gas gb m a bs d true).wiring.outs := fun n hn => by
    rw [(TurbNames.ext hb.plain gas gb m a d true).outs.mem_iff]; exact List.mem_append_left _ hn
  refine .element hx.1.1.2.1 ?_ (by simp [turb]) ?_ ?_ ?_
  · have h : ∀ d, ∀ p ∈ ["Fl_O"], ∀ v ∈ linkOutVars, p ++ ":" ++ v ∈ (TurbNames.w₀ d true).outs := by decide +kernel
    exact fun p hp v hv => ho _ (h d p hp v hv)
  · intro p hp v hv; rw [hx.2]
    rcases List.mem_cons.mp hp with rfl | hp
    · exact Or.inl (List.mem_append_left _ (port_any _ v hv))
    · exact Or.inr ⟨p, hp, List.mem_append_left _ (port_any _ v hv)⟩
  · have h : ∀ d, ∀ v ∈ ["trq", "power"], v ∈ (TurbNames.w₀ d true).outs := by decide +kernel
    exact fun v hv => ho _ (h d v hv)
  · intro v hv; rw [hx.2]
    cases d <;> simp [turb] at hv
    · subst hv; exact Or.inl (by simp [turbineInputs])
    · rcases hv with rfl | rfl <;> exact Or.inl (by simp [turbineInputs])

theorem nozz_of (k : Noz.NozzType) (l : Noz.Loss) : nozz.Of ((nozzle gas k l).asSub name pI pO) := by
  have hx := C52_interface gas k l
  refine .element hx.1.1.2.1 (by simp [nozz]) (by simp [nozz]) ?_ ?_ ?_
  · intro p hp v hv; rw [hx.2]; exact List.mem_append_left _ (port' p hp v hv)
  · have e : (nozzle gas k l).wiring.outs = (nozzle gas0 k l).wiring.outs := by cases k <;> cases l <;> rfl
    have h : ∀ v ∈ ["Fg", "PR", "Throat:stat:area"], v ∈ (nozzle gas0 .CV l).wiring.outs := by cases l <;> decide +kernel
    have e' : (nozzle gas0 k l).wiring.outs = (nozzle gas0 .CV l).wiring.outs := by cases k <;> cases l <;> rfl
    rw [e, e']; exact h
  · intro v hv; rw [hx.2]; obtain rfl := List.mem_singleton.mp hv; cases l <;> simp [nozInputs]

theorem mixer_of (a : FlowAdder) (d : Bool) : mixer.Of ((OM.mixer gas a true d).asSub name pI pO) := by
  have hx := C51_interface gas a true d
  have e : (OM.mixer gas a true d).wiring = (OM.mixer gas0 (.tab 1) true d).wiring := by cases d <;> rfl
  refine .element hx.1.1.2.1 ?_ (by simp [mixer]) ?_ ?_ (by simp [mixer])
  · have h : ∀ d, ∀ p ∈ ["Fl_O"], ∀ v ∈ linkOutVars, p ++ ":" ++ v ∈ (OM.mixer gas0 (.tab 1) true d).wiring.outs := by
      decide +kernel
    rw [e]; exact h d
  · have h : ∀ p ∈ ["Fl_I1", "Fl_I2"], ∀ v ∈ linkInVars, p ++ ":" ++ v ∈ flowVarNames "Fl_I1" ++ flowVarNames "Fl_I2" := by
      decide +kernel
    intro p hp v hv; rw [hx.2]; exact List.mem_append_left _ (h p hp v hv)
  · have h : ∀ d, ∀ v ∈ ["ER", "Fl_I1_calc:stat:P"], v ∈ (OM.mixer gas0 (.tab 1) true d).wiring.outs := by decide +kernel
    rw [e]; exact h d

/-- Shafts. -/
theorem shaft_of (n : ℕ) (hn : ∀ v ∈ (shaftSub n pI).ins, v ∉ (shaftSub n pI).outs) :
    Iface.Of { outs := (shaftSub n []).outs, ins := (shaftSub n []).ins } { shaftSub n pI with name } :=
  Iface.Of.comp (s := { shaftSub n pI with name }) (by simp [shaftSub]) hn

theorem perf_of (n m : ℕ) (h : ∀ v ∈ (performanceSub n m).ins, v ∉ (performanceSub n m).outs) :
    Iface.Of { outs := (performanceSub n m).outs, ins := (performanceSub n m).ins } (performanceSub n m) :=
  Iface.Of.comp (by simp [performanceSub]) h

end Ifaces
end PyCycle.OM
