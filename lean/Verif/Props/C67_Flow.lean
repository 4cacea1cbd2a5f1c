import Verif.Props.C67_MultiSpool

/-! # C67: mass and energy of the turboshaft with two gas generator spools -/

namespace PyCycle.OM

open MST

namespace MST

/-- The account of each element. -/
noncomputable def acc (p : MstParts) (okC : (ℕ → ℝ) → Prop) : String → Account
  | "fc" => startAccount p.air
  | "inlet" => inletAccount p.air
  | "duct1" => ductAccount p.air
  | "lpc" => compressorAccount p.air []
  | "icduct" => ductAccount p.air
  | "hpc_axi" => compressorAccount p.air []
  | "bld25" => bleedOutAccount p.air ["cool1", "cool2"]
  | "hpc_centri" => compressorAccount p.air []
  | "bld3" => bleedOutAccount p.air ["cool3", "cool4"]
  | "duct6" => ductAccount p.air
  | "burner" => combustorAccount p.burnt p.air okC
  | "hpt" => turbineAccount p.burnt (fun q => if q = "Fl_I" then p.burnt else p.air) ["cool3", "cool4"]
  | "duct43" => ductAccount p.burnt
  | "lpt" => turbineAccount p.burnt (fun q => if q = "Fl_I" then p.burnt else p.air) ["cool1", "cool2"]
  | "itduct" => ductAccount p.burnt
  | "pt" => turbineAccount p.burnt (fun q => if q = "Fl_I" then p.burnt else p.air) []
  | "duct12" => ductAccount p.burnt
  | "nozzle" => nozzleAccount p.burnt
  | _ => startAccount p.air

/-- A running engine: air and fuel flow forward and the bleeds leave some air in the core. -/
structure Running (E : Env) : Prop where
  air : 0 < E.num "balance.W"
  fuel : 0 ≤ E.num "burner.Wfuel"
  cool1 : 0 ≤ E.num "bld25.cool1:frac_W"
  cool2 : 0 ≤ E.num "bld25.cool2:frac_W"
  bld25 : E.num "bld25.cool1:frac_W" + E.num "bld25.cool2:frac_W" < 1
  cool3 : 0 ≤ E.num "bld3.cool3:frac_W"
  cool4 : 0 ≤ E.num "bld3.cool4:frac_W"
  bld3 : E.num "bld3.cool3:frac_W" + E.num "bld3.cool4:frac_W" < 1

end MST

/-- **C67 (network).** The engine is a network of accounts. -/
theorem C67_network (p : MstParts) (d : Bool) {okC : (ℕ → ℝ) → Prop}
    (hb : (combustorAccount p.burnt p.air okC).Holds (combustor p.burnt p.fuel d true)) :
    (mst p d).Network (acc p okC) where
  wired := (C67_interface p d).1
  accounts := by
    simp only [mst, elements, List.forall_mem_cons]
    exact ⟨C57_flight _ _, C57_inlet _ _ _, C57_duct _ _ _ _ _, C57_compressor _ _ Turbojet.noComp _ _, C57_duct _ _ _ _ _,
      C57_compressor _ _ Turbojet.noComp _ _, C57_bleed_out _ bld25Names (by simp) _ _,
      C57_compressor _ _ Turbojet.noComp _ _, C57_bleed_out _ HBTF.bld3Names (by simp) _ _, C57_duct _ _ _ _ _, hb,
      C57_turbine _ _ _ _ _ HBTF.hptNames _ _, C57_duct _ _ _ _ _, C57_turbine _ _ _ _ _ HBTF.lptNames _ _,
      C57_duct _ _ _ _ _, C57_turbine _ _ _ _ _ Turbojet.noTurb _ _, C57_duct _ _ _ _ _, C57_nozzle _ _ _, by simp⟩
  plainIn := by
    have k : ∀ q ∈ ["Fl_I", "cool1", "cool2", "cool3", "cool4"], ∀ v ∈ portVars, (q ++ ":" ++ v) ≠ "Nmech" := by
      decide +kernel
    have k' : ∀ N : String, ∀ q ∈ ["Fl_I", "cool1", "cool2", "cool3", "cool4"], ∀ v ∈ portVars,
        promoted [.as "Nmech" N] (q ++ ":" ++ v) = none := by
      intro N q hq v hv
      simp [promoted, Prom.exact, Prom.fits, (k q hq v hv).symm, k q hq v hv]
    have k1 : ∀ N : String, ∀ q ∈ ["Fl_I"], ∀ v ∈ portVars, promoted [.as "Nmech" N] (q ++ ":" ++ v) = none :=
      fun N q hq => k' N q (by revert q; decide)
    simp only [mst, elements, List.forall_mem_cons]
    refine ⟨fun _ _ _ _ => rfl, fun _ _ _ _ => rfl, fun _ _ _ _ => rfl, k1 _, fun _ _ _ _ => rfl, k1 _,
      fun _ _ _ _ => rfl, k1 _, fun _ _ _ _ => rfl, fun _ _ _ _ => rfl, fun _ _ _ _ => rfl, fun q hq => k' _ q ?_,
      fun _ _ _ _ => rfl, fun q hq => k' _ q ?_, fun _ _ _ _ => rfl, k1 _, fun _ _ _ _ => rfl, fun _ _ _ _ => rfl,
      by simp⟩
    · have t : ∀ q ∈ ["Fl_I", "cool3", "cool4"], q ∈ ["Fl_I", "cool1", "cool2", "cool3", "cool4"] := by decide
      exact t q hq
    · have t : ∀ q ∈ ["Fl_I", "cool1", "cool2"], q ∈ ["Fl_I", "cool1", "cool2", "cool3", "cool4"] := by decide
      exact t q hq
  plainOut := by
    simp only [mst, elements, List.forall_mem_cons]
    refine ⟨?_, ?_, ?_, ?_, ?_, ?_, ?_, ?_, ?_, ?_, ?_, ?_, ?_, ?_, ?_, ?_, ?_, ?_, by simp⟩
    all_goals exact fun _ _ _ _ => rfl
  linked := by
    intro l hl
    have hl : l ∈ flows := hl
    have e : ∀ (i : ℕ) (a : Member), (elements p d)[i]? = some a → a ∈ (mst p d).members :=
      fun i a ha => List.mem_of_getElem? ha
    simp only [flows, List.mem_cons, List.not_mem_nil, or_false] at hl
    rcases hl with rfl | rfl | rfl | rfl | rfl | rfl | rfl | rfl | rfl | rfl | rfl | rfl | rfl | rfl | rfl | rfl | rfl | rfl | rfl | rfl | rfl
    · exact ⟨⟨_, e 0 _ rfl, rfl, List.mem_of_getElem? (i := 0) rfl⟩, ⟨_, e 1 _ rfl, rfl, List.mem_of_getElem? (i := 0) rfl⟩⟩
    · exact ⟨⟨_, e 1 _ rfl, rfl, List.mem_of_getElem? (i := 0) rfl⟩, ⟨_, e 2 _ rfl, rfl, List.mem_of_getElem? (i := 0) rfl⟩⟩
    · exact ⟨⟨_, e 2 _ rfl, rfl, List.mem_of_getElem? (i := 0) rfl⟩, ⟨_, e 3 _ rfl, rfl, List.mem_of_getElem? (i := 0) rfl⟩⟩
    · exact ⟨⟨_, e 3 _ rfl, rfl, List.mem_of_getElem? (i := 0) rfl⟩, ⟨_, e 4 _ rfl, rfl, List.mem_of_getElem? (i := 0) rfl⟩⟩
    · exact ⟨⟨_, e 4 _ rfl, rfl, List.mem_of_getElem? (i := 0) rfl⟩, ⟨_, e 5 _ rfl, rfl, List.mem_of_getElem? (i := 0) rfl⟩⟩
    · exact ⟨⟨_, e 5 _ rfl, rfl, List.mem_of_getElem? (i := 0) rfl⟩, ⟨_, e 6 _ rfl, rfl, List.mem_of_getElem? (i := 0) rfl⟩⟩
    · exact ⟨⟨_, e 6 _ rfl, rfl, List.mem_of_getElem? (i := 0) rfl⟩, ⟨_, e 7 _ rfl, rfl, List.mem_of_getElem? (i := 0) rfl⟩⟩
    · exact ⟨⟨_, e 7 _ rfl, rfl, List.mem_of_getElem? (i := 0) rfl⟩, ⟨_, e 8 _ rfl, rfl, List.mem_of_getElem? (i := 0) rfl⟩⟩
    · exact ⟨⟨_, e 8 _ rfl, rfl, List.mem_of_getElem? (i := 0) rfl⟩, ⟨_, e 9 _ rfl, rfl, List.mem_of_getElem? (i := 0) rfl⟩⟩
    · exact ⟨⟨_, e 9 _ rfl, rfl, List.mem_of_getElem? (i := 0) rfl⟩, ⟨_, e 10 _ rfl, rfl, List.mem_of_getElem? (i := 0) rfl⟩⟩
    · exact ⟨⟨_, e 10 _ rfl, rfl, List.mem_of_getElem? (i := 0) rfl⟩, ⟨_, e 11 _ rfl, rfl, List.mem_of_getElem? (i := 0) rfl⟩⟩
    · exact ⟨⟨_, e 11 _ rfl, rfl, List.mem_of_getElem? (i := 0) rfl⟩, ⟨_, e 12 _ rfl, rfl, List.mem_of_getElem? (i := 0) rfl⟩⟩
    · exact ⟨⟨_, e 12 _ rfl, rfl, List.mem_of_getElem? (i := 0) rfl⟩, ⟨_, e 13 _ rfl, rfl, List.mem_of_getElem? (i := 0) rfl⟩⟩
    · exact ⟨⟨_, e 13 _ rfl, rfl, List.mem_of_getElem? (i := 0) rfl⟩, ⟨_, e 14 _ rfl, rfl, List.mem_of_getElem? (i := 0) rfl⟩⟩
    · exact ⟨⟨_, e 14 _ rfl, rfl, List.mem_of_getElem? (i := 0) rfl⟩, ⟨_, e 15 _ rfl, rfl, List.mem_of_getElem? (i := 0) rfl⟩⟩
    · exact ⟨⟨_, e 15 _ rfl, rfl, List.mem_of_getElem? (i := 0) rfl⟩, ⟨_, e 16 _ rfl, rfl, List.mem_of_getElem? (i := 0) rfl⟩⟩
    · exact ⟨⟨_, e 16 _ rfl, rfl, List.mem_of_getElem? (i := 0) rfl⟩, ⟨_, e 17 _ rfl, rfl, List.mem_of_getElem? (i := 0) rfl⟩⟩
    · exact ⟨⟨_, e 6 _ rfl, rfl, List.mem_of_getElem? (i := 1) rfl⟩, ⟨_, e 13 _ rfl, rfl, List.mem_of_getElem? (i := 1) rfl⟩⟩
    · exact ⟨⟨_, e 6 _ rfl, rfl, List.mem_of_getElem? (i := 2) rfl⟩, ⟨_, e 13 _ rfl, rfl, List.mem_of_getElem? (i := 2) rfl⟩⟩
    · exact ⟨⟨_, e 8 _ rfl, rfl, List.mem_of_getElem? (i := 1) rfl⟩, ⟨_, e 11 _ rfl, rfl, List.mem_of_getElem? (i := 1) rfl⟩⟩
    · exact ⟨⟨_, e 8 _ rfl, rfl, List.mem_of_getElem? (i := 2) rfl⟩, ⟨_, e 11 _ rfl, rfl, List.mem_of_getElem? (i := 2) rfl⟩⟩

section
variable {p : MstParts} {d : Bool} {E : Env} (h : (mst p d).Solved E)
include h

/-- **C67 (flows).** The extraction between the high pressure compressors gives up its bleeds, the one behind them gives
up its bleeds from what is left, the burner sees the rest, and both gas generator turbines return the cooling air. -/
theorem C67_flows :
    E.num "hpc_centri.Fl_O:stat:W" = E.num "balance.W" * (1 - (E.num "bld25.cool1:frac_W" + E.num "bld25.cool2:frac_W"))
    ∧ E.num "burner.Fl_I:stat:W" = E.num "hpc_centri.Fl_O:stat:W"
        * (1 - (E.num "bld3.cool3:frac_W" + E.num "bld3.cool4:frac_W"))
    ∧ E.num "hpt.Fl_O:stat:W" = E.num "burner.Fl_O:stat:W"
        + (E.num "bld3.cool3:frac_W" + E.num "bld3.cool4:frac_W") * E.num "hpc_centri.Fl_O:stat:W"
    ∧ E.num "nozzle.Fl_O:stat:W" = E.num "hpt.Fl_O:stat:W"
        + (E.num "bld25.cool1:frac_W" + E.num "bld25.cool2:frac_W") * E.num "balance.W" := by
  obtain ⟨-, a1, a2, a3, -⟩ := bld25_laws h
  obtain ⟨-, b1, b2, b3, -⟩ := bld3_laws h
  have e0 := (centri_laws h).2.1
  have e1 := (burner_laws h).2.1
  have e2 := (hpt_laws h).2.1
  have e3 := (lpt_laws h).2.1
  have e4 := (nozz_laws h).2.1
  rw [← e0] at b1 b2 b3
  rw [a2, a3] at a1 e3
  rw [b2, b3] at b1 e2
  exact ⟨by linarith, by linarith, by linarith, by linarith⟩

/-- **C67 (forward flow).** In a running engine air reaches the compressors and the burner. -/
theorem C67_flowing (hf : Running E) : 0 < E.num "hpc_centri.Fl_O:stat:W" ∧ 0 < E.num "burner.Fl_I:stat:W" := by
  obtain ⟨f1, f2, -⟩ := C67_flows h
  have g1 : 0 < E.num "hpc_centri.Fl_O:stat:W" := by
    rw [f1]; exact mul_pos hf.air (by linarith [hf.bld25])
  exact ⟨g1, by rw [f2]; exact mul_pos g1 (by linarith [hf.bld3])⟩

section
variable {okC : (ℕ → ℝ) → Prop} (hb : (combustorAccount p.burnt p.air okC).Holds (combustor p.burnt p.fuel d true))
  (hC : okC (E.vec "fc.fs.composition")) (hf : Running E)
include hb hC hf

/-- The burner adds the fuel. -/
theorem MST.burner_mass : E.num "burner.Fl_O:stat:W" = E.num "burner.Fl_I:stat:W" + E.num "burner.Wfuel" := by
  have g := (C67_flowing h hf).2
  have g2 := add_pos_of_pos_of_nonneg g hf.fuel
  exact h.burner_mass (x := "burner") (List.mem_of_getElem? (i := 10) rfl) hb
    ((burner_laws h).2.2 ▸ hC : okC (E.vec "burner.Fl_I:tot:composition")) g.ne' g2.ne'

/-- **C67 (mass).** What leaves the nozzle is the air taken in and the fuel burnt. -/
theorem C67_mass : E.num "nozzle.Fl_O:stat:W" = E.num "balance.W" + E.num "burner.Wfuel" := by
  have hm := MST.burner_mass h hb hC hf
  obtain ⟨f1, f2, f3, f4⟩ := C67_flows h
  linarith

/-- **C67 (energy).** What leaves the nozzle, per unit time, is the enthalpy of the air at free-stream total conditions,
that of the fuel and the heat added in the ducts, less the powers of the six machines; for a gas whose enthalpy depends on
pressure the inlet adds the difference between the enthalpies at its two pressures. -/
theorem C67_energy :
    let g := p.air (E.vec "fc.fs.composition")
    E.num "nozzle.Fl_O:stat:W" * E.num "nozzle.Fl_O:tot:h" = E.num "balance.W" * E.num "fc.Fl_O:tot:h"
      + E.num "burner.Wfuel" * E.num "burner.mix_fuel.mix:h"
      - (E.num "lpc.power" + E.num "hpc_axi.power" + E.num "hpc_centri.power" + E.num "hpt.power" + E.num "lpt.power"
          + E.num "pt.power") / 1.4148532
      + (E.num "duct1.Q_dot" + E.num "icduct.Q_dot" + E.num "duct6.Q_dot" + E.num "duct43.Q_dot" + E.num "itduct.Q_dot"
          + E.num "duct12.Q_dot")
      + E.num "balance.W" * (g.h (E.num "fc.Fl_O:tot:T") (E.num "fc.Fl_O:tot:P" * E.num "inlet.ram_recovery")
          - g.h (E.num "fc.Fl_O:tot:T") (E.num "fc.Fl_O:tot:P")) := by
  have N := C67_network p d hb
  obtain ⟨g3, g4⟩ := C67_flowing h hf
  have gf := hf.fuel
  have hm := MST.burner_mass h hb hC hf
  have vi : ∀ n, ((mst p d).view E ⟨"inlet", inlet p.air d true, [], []⟩).num n = E.num ("inlet" ++ "." ++ n)
      ∧ ((mst p d).view E ⟨"inlet", inlet p.air d true, [], []⟩).vec n = E.vec ("inlet" ++ "." ++ n) :=
    fun n => h.view_eq rfl (Or.inr rfl)
  have vb : ∀ n, ((mst p d).view E ⟨"burner", combustor p.burnt p.fuel d true, [], []⟩).num n
        = E.num ("burner" ++ "." ++ n)
      ∧ ((mst p d).view E ⟨"burner", combustor p.burnt p.fuel d true, [], []⟩).vec n
        = E.vec ("burner" ++ "." ++ n) :=
    fun n => h.view_eq rfl (Or.inr rfl)
  have v : ∀ (x : String) (G : Group) (pI : List Prom) (n : String), promoted pI n = none →
      ((mst p d).view E ⟨x, G, pI, []⟩).num n = E.num (x ++ "." ++ n) :=
    fun x G pI n hn => (h.view_eq rfl (Or.inr hn)).1
  have key := Cycle.C57_energy N h.converged (by rw [show (mst p d).links = flows from rfl]; decide +kernel) ?_ ?_ ?_
  · have e1 : (mst p d).openOutlets (acc p okC) Link.carriesEnergy
        = [(⟨"fc", flightConditions p.air none, [], []⟩, "Fl_O"), (⟨"nozzle", nozzle p.burnt .CV .Cv, [], []⟩, "Fl_O")] := rfl
    have e2 : (mst p d).openInlets (acc p okC) Link.carriesEnergy = [(⟨"inlet", inlet p.air d true, [], []⟩, "Fl_I")] := rfl
    rw [e1, e2, show (mst p d).members = elements p d from rfl] at key
    simp only [elements, List.map_cons, List.map_nil, List.sum_cons, List.sum_nil, acc, Env.H, startAccount, inletAccount,
      ductAccount, bleedOutAccount, nozzleAccount, compressorAccount, turbineAccount, combustorAccount,
      (vi _).1, (vi _).2, (vb _).1, (vb _).2, String.reduceAppend] at key
    have i1 : E.num "inlet.Fl_I:stat:W" = E.num "balance.W" := (C67_targets h).2.2.2
    have i2 : E.num "inlet.Fl_I:tot:h" = E.num "fc.Fl_O:tot:h" := (start h (v := "tot:h") (by decide) (by decide)).1
    have i3 : E.num "inlet.Fl_I:tot:T" = E.num "fc.Fl_O:tot:T" := (start h (v := "tot:T") (by decide) (by decide)).1
    have i4 : E.num "inlet.Fl_I:tot:P" = E.num "fc.Fl_O:tot:P" := (start h (v := "tot:P") (by decide) (by decide)).1
    have i5 : E.vec "inlet.Fl_I:tot:composition" = E.vec "fc.fs.composition" :=
      (start h (v := "tot:composition") (by decide) (by decide)).2.trans (fc_laws h).2.2.2.2
    have i6 : E.num "fc.Fl_O:stat:W" = E.num "fc.W" := (fc_laws h).2.2.2.1
    have w1 := v "lpc" (compressor p.air p.lpc [] d true) [.as "Nmech" "IP_Nmech"]
    have w2 := v "hpc_axi" (compressor p.air p.axi [] d true) [.as "Nmech" "HP_Nmech"]
    have w3 := v "hpc_centri" (compressor p.air p.centri [] d true) [.as "Nmech" "HP_Nmech"]
    have w4 := v "hpt" (turbine p.burnt (fun _ => p.air) p.hpt p.hptBleed ["cool3", "cool4"] d true)
      [.as "Nmech" "HP_Nmech"]
    have w5 := v "lpt" (turbine p.burnt (fun _ => p.air) p.lpt p.lptBleed ["cool1", "cool2"] d true)
      [.as "Nmech" "IP_Nmech"]
    have w6 := v "pt" (turbine p.burnt (fun _ => p.air) p.pt p.ptBleed [] d true) [.as "Nmech" "LP_Nmech"]
    rw [w1 "power" rfl, w2 "power" rfl, w3 "power" rfl, w4 "power" rfl, w5 "power" rfl, w6 "power" rfl] at key
    simp only [v _ _ [] _ rfl, i1, i2, i3, i4, i5, i6, String.reduceAppend] at key
    simp only []
    linear_combination key
  · have d1 : E.num "duct1.Fl_I:stat:W" = E.num "inlet.Fl_O:stat:W" :=
      (join h 1 (a := ("inlet", "Fl_O")) (b := ("duct1", "Fl_I")) rfl).W
    have d2 : E.num "icduct.Fl_I:stat:W" = E.num "lpc.Fl_O:stat:W" :=
      (join h 3 (a := ("lpc", "Fl_O")) (b := ("icduct", "Fl_I")) rfl).W
    have d6 : E.num "duct6.Fl_I:stat:W" = E.num "bld3.Fl_O:stat:W" :=
      (join h 8 (a := ("bld3", "Fl_O")) (b := ("duct6", "Fl_I")) rfl).W
    have d43 : E.num "duct43.Fl_I:stat:W" = E.num "hpt.Fl_O:stat:W" :=
      (join h 11 (a := ("hpt", "Fl_O")) (b := ("duct43", "Fl_I")) rfl).W
    have dit : E.num "itduct.Fl_I:stat:W" = E.num "lpt.Fl_O:stat:W" :=
      (join h 13 (a := ("lpt", "Fl_O")) (b := ("itduct", "Fl_I")) rfl).W
    have d12 : E.num "duct12.Fl_I:stat:W" = E.num "pt.Fl_O:stat:W" :=
      (join h 15 (a := ("pt", "Fl_O")) (b := ("duct12", "Fl_I")) rfl).W
    obtain ⟨f1, f2, f3, f4⟩ := C67_flows h
    have o1 : 0 < E.num "hpt.Fl_O:stat:W" := by
      rw [f3, hm]
      have := mul_nonneg (add_nonneg hf.cool3 hf.cool4) g3.le
      linarith
    have o2 : 0 < E.num "lpt.Fl_O:stat:W" := by
      rw [← (nozz_laws h).2.1, f4]
      have := mul_nonneg (add_nonneg hf.cool1 hf.cool2) hf.air.le
      linarith
    have o3 : 0 < E.num "pt.Fl_O:stat:W" := by rw [(pt_laws h).2.1]; exact o2
    rw [show (mst p d).members = elements p d from rfl]
    simp only [elements, List.forall_mem_cons]
    refine ⟨trivial, trivial, ?_, trivial, ?_, trivial, trivial, trivial, trivial, ?_, ⟨?_, ?_, ?_⟩, ?_, ?_, ?_, ?_, ?_, ?_,
      trivial, by simp⟩
    · simp only [ductAccount, acc, v _ _ [] _ rfl]; exact d1.trans_ne ((inlet_laws h).2.2.1.trans_ne hf.air.ne')
    · simp only [ductAccount, acc, v _ _ [] _ rfl]; exact d2.trans_ne ((lpc_laws h).2.1.trans_ne hf.air.ne')
    · simp only [ductAccount, acc, v _ _ [] _ rfl]; exact d6.trans_ne ((burner_laws h).2.1.symm.trans_ne g4.ne')
    · rw [(vb _).2]; exact (burner_laws h).2.2 ▸ hC
    · rw [(vb _).1]; exact g4.ne'
    · rw [(vb _).1, (vb _).1]; exact (add_pos_of_pos_of_nonneg g4 gf).ne'
    · simp only [turbineAccount, acc]; rw [v _ _ _ _ rfl]; exact o1.ne'
    · simp only [ductAccount, acc, v _ _ [] _ rfl]; exact d43.trans_ne o1.ne'
    · simp only [turbineAccount, acc]; rw [v _ _ _ _ rfl]; exact o2.ne'
    · simp only [ductAccount, acc, v _ _ [] _ rfl]; exact dit.trans_ne o2.ne'
    · simp only [turbineAccount, acc]; rw [v _ _ _ _ rfl]; exact o3.ne'
    · simp only [ductAccount, acc, v _ _ [] _ rfl]; exact d12.trans_ne o3.ne'
  · intro l hl _
    have hl : l ∈ flows := hl
    simp only [flows, List.mem_cons, List.not_mem_nil, or_false] at hl
    rcases hl with rfl | rfl | rfl | rfl | rfl | rfl | rfl | rfl | rfl | rfl | rfl | rfl | rfl | rfl | rfl | rfl | rfl | rfl | rfl | rfl | rfl <;> rfl
  · have e0 : (mst p d).openInlets (acc p okC) Link.tot = [] := rfl
    rw [e0]; intro q hq; cases hq

/-- **C67 (where the energy goes).** Without losses on the shafts and in the ram pressure, with nothing extracted from the
gas generator and no heat in the ducts, the energy of air and fuel leaves with the jet and as the power asked for. The
factors are the two conversions between horsepower and BTU/s and between torque and power. -/
theorem C67_delivered (hL : 0 < E.num "LP_Nmech") (hI : 0 < E.num "IP_Nmech") (hH : 0 < E.num "HP_Nmech")
    (hl : ∀ x ∈ ["lp_shaft", "ip_shaft", "hp_shaft"], E.num (x ++ "." ++ "fracLoss") = 0 ∧ E.num (x ++ "." ++ "HPX") = 0)
    (ri : E.num (if d then "balance.rhs:lpt_PR" else "balance.rhs:IP_Nmech") = 0)
    (rh : E.num (if d then "balance.rhs:hpt_PR" else "balance.rhs:HP_Nmech") = 0)
    (hq : ∀ x ∈ ["duct1", "icduct", "duct6", "duct43", "itduct", "duct12"], E.num (x ++ "." ++ "Q_dot") = 0)
    (hrec : E.num "inlet.ram_recovery" = 1) :
    E.num "nozzle.Fl_O:stat:W" * E.num "nozzle.Fl_O:tot:h"
      + E.num (if d then "balance.rhs:pt_PR" else "balance.rhs:FAR") / (5252.11 * (2 * Real.pi / 60 / 550)) / 1.4148532
      = E.num "balance.W" * E.num "fc.Fl_O:tot:h" + E.num "burner.Wfuel" * E.num "burner.mix_fuel.mix:h" := by
  have e := C67_energy h hb hC hf
  obtain ⟨s0, s1, s2⟩ := C67_shafts h hL hI hH
  have l0 : E.num "lp_shaft.fracLoss" = 0 ∧ E.num "lp_shaft.HPX" = 0 := hl "lp_shaft" (by simp)
  have l1 : E.num "ip_shaft.fracLoss" = 0 ∧ E.num "ip_shaft.HPX" = 0 := hl "ip_shaft" (by simp)
  have l2 : E.num "hp_shaft.fracLoss" = 0 ∧ E.num "hp_shaft.HPX" = 0 := hl "hp_shaft" (by simp)
  rw [l0.1, l0.2, sub_zero, one_mul, zero_add] at s0
  rw [l1.1, l1.2, ri, sub_zero, one_mul, add_zero] at s1
  rw [l2.1, l2.2, rh, sub_zero, one_mul, add_zero] at s2
  have hk : (5252.11 * (2 * Real.pi / 60 / 550) : ℝ) ≠ 0 := by have := Real.pi_pos; positivity
  have s1 := (mul_eq_zero.mp s1).resolve_left hk
  have s2 := (mul_eq_zero.mp s2).resolve_left hk
  have c0 : ∀ x : ℝ, max x 0 + min x 0 = x := fun x => by rw [max_add_min, add_zero]
  have hp : E.num "lpc.power" + E.num "hpc_axi.power" + E.num "hpc_centri.power" + E.num "hpt.power" + E.num "lpt.power"
      = 0 := by
    have a1 := c0 (E.num "lpc.power")
    have a2 := c0 (E.num "hpc_axi.power")
    have a3 := c0 (E.num "hpc_centri.power")
    have a4 := c0 (E.num "hpt.power")
    have a5 := c0 (E.num "lpt.power")
    linarith
  rw [c0] at s0
  rw [← s0, mul_div_cancel_left₀ _ hk]
  have q1 : E.num "duct1.Q_dot" = 0 := hq "duct1" (by simp)
  have q2 : E.num "icduct.Q_dot" = 0 := hq "icduct" (by simp)
  have q3 : E.num "duct6.Q_dot" = 0 := hq "duct6" (by simp)
  have q4 : E.num "duct43.Q_dot" = 0 := hq "duct43" (by simp)
  have q5 : E.num "itduct.Q_dot" = 0 := hq "itduct" (by simp)
  have q6 : E.num "duct12.Q_dot" = 0 := hq "duct12" (by simp)
  rw [hp, hrec, q1, q2, q3, q4, q5, q6, zero_add] at e
  simp only [mul_one, sub_self, mul_zero, add_zero] at e
  linarith

end

end

/-- **C67 (tabular fuel).** With tabular thermodynamics fuel is the fuel-air ratio times the air that reaches the burner,
and all mass is accounted for. -/
theorem C67_tab {p : MstParts} {d : Bool} {E : Env} {n : ℕ} {idx : Fin n} (hp : p.fuel = .tab n idx)
    (h : (mst p d).Solved E) (hC : 1 + ∑ i : Fin n, E.vec "fc.fs.composition" i ≠ 0) (hf : Running E) :
    E.num "burner.Wfuel" = airMass (E.num "burner.Fl_I:stat:W") (fun k : Fin n => E.vec "fc.fs.composition" k)
        * E.num "balance.FAR"
    ∧ E.num "nozzle.Fl_O:stat:W" = E.num "balance.W" + E.num "burner.Wfuel" := by
  have hm := C67_mass h (okC := fun x => 1 + ∑ i : Fin n, x i ≠ 0)
    (by rw [hp]; exact C57_combustor_tab p.burnt p.air d true n idx) hC hf
  refine ⟨?_, hm⟩
  have g := (C67_flowing h hf).2
  obtain ⟨V, hV, hi, -, x3, -, y2⟩ := h.burner_seen (x := "burner") (List.mem_of_getElem? (i := 10) rfl)
  have x1 : V.num "Fl_I:stat:W" = E.num "burner.Fl_I:stat:W" := (hi "stat:W" (by decide)).1
  have x2 : V.vec "Fl_I:tot:composition" = E.vec "fc.fs.composition" :=
    (hi "tot:composition" (by decide)).2.trans (burner_laws h).2.2
  have x3 : V.num "Fl_I:FAR" = E.num "balance.FAR" := x3.trans (C67_targets h).2.2.1
  have y2 : V.num "Wfuel" = E.num "burner.Wfuel" := y2
  rw [hp] at hV
  obtain ⟨k, -⟩ := C48_tab p.burnt d true V n idx (by rw [x2]; exact hC) (by rw [x1]; exact g.ne')
    (by rw [x1, y2]; exact (add_pos_of_pos_of_nonneg g hf.fuel).ne') hV
  rw [x1, x2, x3, y2] at k
  exact k

/-- **C67 (chemical equilibrium fuel).** With a reactant as fuel: fuel is the fuel-air ratio times the flow that reaches
the burner. -/
theorem C67_cea {p : MstParts} {d : Bool} {E : Env} (data : ThermoData) (infl : PyDict ℝ) (hin : infl.keys.Nodup)
    (fuel : String) (f : PyDict ℝ) (hf : data.reactants.get? fuel = some f) (hfk : f.keys.Nodup)
    (hfm : formulaMass f data.wtOf ≠ 0) (S : ReactantAdd) (hS : reactantSetup data (some infl) ["mix"] [fuel] = .ok S)
    (hwt : ∀ e ∈ S.mixed.elements, data.wtOf e ≠ 0) (hp : p.fuel = .cea S) (h : (mst p d).Solved E)
    (hC : totalMass S.inflow.elements data.wtOf (fun k => E.vec "fc.fs.composition" k) ≠ 0) (hF : Running E) :
    E.num "burner.Wfuel" = E.num "burner.Fl_I:stat:W" * E.num "balance.FAR"
    ∧ E.num "nozzle.Fl_O:stat:W" = E.num "balance.W" + E.num "burner.Wfuel" := by
  have hm := C67_mass h (okC := fun x => totalMass S.inflow.elements data.wtOf (fun k => x k) ≠ 0)
    (by rw [hp]; exact C57_combustor_cea p.burnt p.air d true data infl hin fuel f hf hfk hfm S hS hwt) hC hF
  refine ⟨?_, hm⟩
  have g := (C67_flowing h hF).2
  obtain ⟨V, hV, hi, -, x3, -, y2⟩ := h.burner_seen (x := "burner") (List.mem_of_getElem? (i := 10) rfl)
  have x1 : V.num "Fl_I:stat:W" = E.num "burner.Fl_I:stat:W" := (hi "stat:W" (by decide)).1
  have x2 : V.vec "Fl_I:tot:composition" = E.vec "fc.fs.composition" :=
    (hi "tot:composition" (by decide)).2.trans (burner_laws h).2.2
  have x3 : V.num "Fl_I:FAR" = E.num "balance.FAR" := x3.trans (C67_targets h).2.2.1
  have y2 : V.num "Wfuel" = E.num "burner.Wfuel" := y2
  rw [hp] at hV
  obtain ⟨k, -⟩ := C48_cea p.burnt d true V data infl hin fuel f hf hfk hfm S hS hwt (by rw [x2]; exact hC)
    (by rw [x1, y2]; exact (add_pos_of_pos_of_nonneg g hF.fuel).ne') hV
  rw [x1, x3, y2] at k
  exact k

end PyCycle.OM
