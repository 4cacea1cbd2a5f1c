import Verif.Props.C61_MixedFlow
import Verif.Props.C57_Network

/-! # C61: mass and energy of the mixed-flow turbofan -/

namespace PyCycle.OM

open MFTF

namespace MFTF

/-- The account of each element. -/
noncomputable def acc (p : MftfParts) (okC okA : (ℕ → ℝ) → Prop) (okM : ℝ → (ℕ → ℝ) → ℝ → (ℕ → ℝ) → Prop) : String → Account
  | "fc" => startAccount p.air
  | "inlet" => inletAccount p.air
  | "inlet_duct" => ductAccount p.air
  | "fan" => compressorAccount p.air []
  | "splitter" => splitterAccount p.air
  | "splitter_core_duct" => ductAccount p.air
  | "lpc" => compressorAccount p.air []
  | "lpc_duct" => ductAccount p.air
  | "hpc" => compressorAccount p.air ["cool1"]
  | "bld3" => bleedOutAccount p.air ["cool3"]
  | "burner" => combustorAccount p.burnt p.air okC
  | "hpt" => turbineAccount p.burnt (fun q => if q = "Fl_I" then p.burnt else p.air) ["cool3"]
  | "hpt_duct" => ductAccount p.burnt
  | "lpt" => turbineAccount p.burnt (fun q => if q = "Fl_I" then p.burnt else p.air) ["cool1"]
  | "lpt_duct" => ductAccount p.burnt
  | "bypass_duct" => ductAccount p.air
  | "mixer" => mixerAccount p.burnt (fun q => if q = "Fl_I1" then p.burnt else p.air) okM
  | "mixer_duct" => ductAccount p.burnt
  | "afterburner" => combustorAccount p.hot p.burnt okA
  | "mixed_nozz" => nozzleAccount p.hot
  | _ => startAccount p.air

/-- A mixed-flow turbofan in flight: air and fuel flow forward, the bleeds leave some air in the core. -/
structure InFlight (E : Env) : Prop where
  air : 0 < E.num "balance.W"
  bypass : 0 < E.num "splitter.BPR"
  fuel : 0 ≤ E.num "burner.Wfuel"
  abFuel : 0 ≤ E.num "afterburner.Wfuel"
  cool1 : 0 ≤ E.num "hpc.cool1:frac_W"
  hpc : E.num "hpc.cool1:frac_W" < 1
  cool3 : 0 ≤ E.num "bld3.cool3:frac_W"
  bld3 : E.num "bld3.cool3:frac_W" < 1

/-- Both burners and the mixer keep books, under `okC`, `okA`, `okM`. -/
structure Books (p : MftfParts) (d : Bool) (okC okA : (ℕ → ℝ) → Prop)
    (okM : ℝ → (ℕ → ℝ) → ℝ → (ℕ → ℝ) → Prop) : Prop where
  burner : (combustorAccount p.burnt p.air okC).Holds (combustor p.burnt p.fuel d true)
  afterburner : (combustorAccount p.hot p.burnt okA).Holds (combustor p.hot p.abFuel d true)
  mixer : (mixerAccount p.burnt (fun q => if q = "Fl_I1" then p.burnt else p.air) okM).Holds (mixer p.burnt p.mix true d)

/-- The compositions that meet in the burners and the mixer are not degenerate. -/
structure Sound (okC okA : (ℕ → ℝ) → Prop) (okM : ℝ → (ℕ → ℝ) → ℝ → (ℕ → ℝ) → Prop) (E : Env) : Prop where
  burner : okC (E.vec "fc.fs.composition")
  afterburner : okA (E.vec "mixer.Fl_O:tot:composition")
  mixer : okM (E.num "lpt.Fl_O:stat:W") (E.vec "lpt.Fl_O:tot:composition") (E.num "splitter.Fl_O2:stat:W")
    (E.vec "fc.fs.composition")

end MFTF

/-- **C61 (network).** The engine is a network of accounts. -/
theorem C61_network (p : MftfParts) (d : Bool) {okC okA : (ℕ → ℝ) → Prop} {okM : ℝ → (ℕ → ℝ) → ℝ → (ℕ → ℝ) → Prop}
    (hb : Books p d okC okA okM) : (mftf p d).Network (acc p okC okA okM) where
  wired := (C61_interface p d).1
  accounts := by
    simp only [mftf, elements, List.forall_mem_cons]
    exact ⟨C57_flight _ _, C57_inlet _ _ _, C57_duct _ _ _ _ _, C57_compressor _ _ Turbojet.noComp _ _, C57_splitter _ _ _,
      C57_duct _ _ _ _ _, C57_compressor _ _ Turbojet.noComp _ _, C57_duct _ _ _ _ _, C57_compressor _ _ hpcNames _ _,
      C57_bleed_out _ bld3Names (by simp) _ _, hb.burner, C57_turbine _ _ _ _ _ hptNames _ _, C57_duct _ _ _ _ _,
      C57_turbine _ _ _ _ _ lptNames _ _, C57_duct _ _ _ _ _, C57_duct _ _ _ _ _, hb.mixer, C57_duct _ _ _ _ _,
      hb.afterburner, C57_nozzle _ _ _, by simp⟩
  plainIn := by
    have k : ∀ q ∈ ["Fl_I", "cool1", "cool3"], ∀ v ∈ portVars, (q ++ ":" ++ v) ≠ "Nmech" := by
      decide +kernel
    have k' : ∀ N : String, ∀ q ∈ ["Fl_I", "cool1", "cool3"], ∀ v ∈ portVars,
        promoted [.as "Nmech" N] (q ++ ":" ++ v) = none := by
      intro N q hq v hv
      simp [promoted, Prom.exact, Prom.fits, (k q hq v hv).symm, k q hq v hv]
    have k1 : ∀ N : String, ∀ q ∈ ["Fl_I"], ∀ v ∈ portVars, promoted [.as "Nmech" N] (q ++ ":" ++ v) = none :=
      fun N q hq => k' N q (by revert q; decide)
    simp only [mftf, elements, List.forall_mem_cons]
    refine ⟨fun _ _ _ _ => rfl, fun _ _ _ _ => rfl, fun _ _ _ _ => rfl, k1 _, fun _ _ _ _ => rfl, fun _ _ _ _ => rfl, k1 _,
      fun _ _ _ _ => rfl, k1 _, fun _ _ _ _ => rfl, fun _ _ _ _ => rfl, fun q hq => k' _ q ?_, fun _ _ _ _ => rfl,
      fun q hq => k' _ q ?_, fun _ _ _ _ => rfl, fun _ _ _ _ => rfl, fun _ _ _ _ => rfl, fun _ _ _ _ => rfl,
      fun _ _ _ _ => rfl, fun _ _ _ _ => rfl, by simp⟩
    · have t : ∀ q ∈ ["Fl_I", "cool3"], q ∈ ["Fl_I", "cool1", "cool3"] := by decide
      exact t q hq
    · have t : ∀ q ∈ ["Fl_I", "cool1"], q ∈ ["Fl_I", "cool1", "cool3"] := by decide
      exact t q hq
  plainOut := by
    simp only [mftf, elements, List.forall_mem_cons]
    refine ⟨?_, ?_, ?_, ?_, ?_, ?_, ?_, ?_, ?_, ?_, ?_, ?_, ?_, ?_, ?_, ?_, ?_, ?_, ?_, ?_, by simp⟩
    all_goals exact fun _ _ _ _ => rfl
  linked := by
    intro l hl
    have hl : l ∈ flows := hl
    have e : ∀ (i : ℕ) (a : Member), (elements p d)[i]? = some a → a ∈ (mftf p d).members :=
      fun i a ha => List.mem_of_getElem? ha
    simp only [flows, List.mem_cons, List.not_mem_nil, or_false] at hl
    rcases hl with rfl | rfl | rfl | rfl | rfl | rfl | rfl | rfl | rfl | rfl | rfl | rfl | rfl | rfl | rfl | rfl | rfl | rfl | rfl | rfl | rfl | rfl
    · exact ⟨⟨_, e 0 _ rfl, rfl, List.mem_of_getElem? (i := 0) rfl⟩, ⟨_, e 1 _ rfl, rfl, List.mem_of_getElem? (i := 0) rfl⟩⟩
    · exact ⟨⟨_, e 1 _ rfl, rfl, List.mem_of_getElem? (i := 0) rfl⟩, ⟨_, e 2 _ rfl, rfl, List.mem_of_getElem? (i := 0) rfl⟩⟩
    · exact ⟨⟨_, e 2 _ rfl, rfl, List.mem_of_getElem? (i := 0) rfl⟩, ⟨_, e 3 _ rfl, rfl, List.mem_of_getElem? (i := 0) rfl⟩⟩
    · exact ⟨⟨_, e 3 _ rfl, rfl, List.mem_of_getElem? (i := 0) rfl⟩, ⟨_, e 4 _ rfl, rfl, List.mem_of_getElem? (i := 0) rfl⟩⟩
    · exact ⟨⟨_, e 4 _ rfl, rfl, List.mem_of_getElem? (i := 0) rfl⟩, ⟨_, e 5 _ rfl, rfl, List.mem_of_getElem? (i := 0) rfl⟩⟩
    · exact ⟨⟨_, e 5 _ rfl, rfl, List.mem_of_getElem? (i := 0) rfl⟩, ⟨_, e 6 _ rfl, rfl, List.mem_of_getElem? (i := 0) rfl⟩⟩
    · exact ⟨⟨_, e 6 _ rfl, rfl, List.mem_of_getElem? (i := 0) rfl⟩, ⟨_, e 7 _ rfl, rfl, List.mem_of_getElem? (i := 0) rfl⟩⟩
    · exact ⟨⟨_, e 7 _ rfl, rfl, List.mem_of_getElem? (i := 0) rfl⟩, ⟨_, e 8 _ rfl, rfl, List.mem_of_getElem? (i := 0) rfl⟩⟩
    · exact ⟨⟨_, e 8 _ rfl, rfl, List.mem_of_getElem? (i := 0) rfl⟩, ⟨_, e 9 _ rfl, rfl, List.mem_of_getElem? (i := 0) rfl⟩⟩
    · exact ⟨⟨_, e 9 _ rfl, rfl, List.mem_of_getElem? (i := 0) rfl⟩, ⟨_, e 10 _ rfl, rfl, List.mem_of_getElem? (i := 0) rfl⟩⟩
    · exact ⟨⟨_, e 10 _ rfl, rfl, List.mem_of_getElem? (i := 0) rfl⟩, ⟨_, e 11 _ rfl, rfl, List.mem_of_getElem? (i := 0) rfl⟩⟩
    · exact ⟨⟨_, e 11 _ rfl, rfl, List.mem_of_getElem? (i := 0) rfl⟩, ⟨_, e 12 _ rfl, rfl, List.mem_of_getElem? (i := 0) rfl⟩⟩
    · exact ⟨⟨_, e 12 _ rfl, rfl, List.mem_of_getElem? (i := 0) rfl⟩, ⟨_, e 13 _ rfl, rfl, List.mem_of_getElem? (i := 0) rfl⟩⟩
    · exact ⟨⟨_, e 13 _ rfl, rfl, List.mem_of_getElem? (i := 0) rfl⟩, ⟨_, e 14 _ rfl, rfl, List.mem_of_getElem? (i := 0) rfl⟩⟩
    · exact ⟨⟨_, e 14 _ rfl, rfl, List.mem_of_getElem? (i := 0) rfl⟩, ⟨_, e 16 _ rfl, rfl, List.mem_of_getElem? (i := 0) rfl⟩⟩
    · exact ⟨⟨_, e 4 _ rfl, rfl, List.mem_of_getElem? (i := 1) rfl⟩, ⟨_, e 15 _ rfl, rfl, List.mem_of_getElem? (i := 0) rfl⟩⟩
    · exact ⟨⟨_, e 15 _ rfl, rfl, List.mem_of_getElem? (i := 0) rfl⟩, ⟨_, e 16 _ rfl, rfl, List.mem_of_getElem? (i := 1) rfl⟩⟩
    · exact ⟨⟨_, e 16 _ rfl, rfl, List.mem_of_getElem? (i := 0) rfl⟩, ⟨_, e 17 _ rfl, rfl, List.mem_of_getElem? (i := 0) rfl⟩⟩
    · exact ⟨⟨_, e 17 _ rfl, rfl, List.mem_of_getElem? (i := 0) rfl⟩, ⟨_, e 18 _ rfl, rfl, List.mem_of_getElem? (i := 0) rfl⟩⟩
    · exact ⟨⟨_, e 18 _ rfl, rfl, List.mem_of_getElem? (i := 0) rfl⟩, ⟨_, e 19 _ rfl, rfl, List.mem_of_getElem? (i := 0) rfl⟩⟩
    · exact ⟨⟨_, e 8 _ rfl, rfl, List.mem_of_getElem? (i := 1) rfl⟩, ⟨_, e 13 _ rfl, rfl, List.mem_of_getElem? (i := 1) rfl⟩⟩
    · exact ⟨⟨_, e 9 _ rfl, rfl, List.mem_of_getElem? (i := 1) rfl⟩, ⟨_, e 11 _ rfl, rfl, List.mem_of_getElem? (i := 1) rfl⟩⟩

section
variable {p : MftfParts} {d : Bool} {E : Env} (h : (mftf p d).Solved E)
include h

/-- **C61 (flows).** The splitter divides the air by the bypass ratio; the compressor and the extraction behind it give up
their bleeds, the burner sees the rest, and both turbines return the cooling air. -/
theorem C61_flows (hb : E.num "splitter.BPR" ≠ -1) :
    E.num "splitter.Fl_O1:stat:W" = E.num "balance.W" / (E.num "splitter.BPR" + 1)
    ∧ E.num "splitter.Fl_O2:stat:W" = E.num "balance.W" * E.num "splitter.BPR" / (E.num "splitter.BPR" + 1)
    ∧ E.num "hpc.Fl_O:stat:W" = E.num "splitter.Fl_O1:stat:W" * (1 - E.num "hpc.cool1:frac_W")
    ∧ E.num "burner.Fl_I:stat:W" = E.num "hpc.Fl_O:stat:W" * (1 - E.num "bld3.cool3:frac_W")
    ∧ E.num "hpt.Fl_O:stat:W" = E.num "burner.Fl_O:stat:W" + E.num "bld3.cool3:frac_W" * E.num "hpc.Fl_O:stat:W"
    ∧ E.num "lpt.Fl_O:stat:W" = E.num "hpt.Fl_O:stat:W" + E.num "hpc.cool1:frac_W" * E.num "splitter.Fl_O1:stat:W"
    ∧ E.num "mixer.Fl_I1:stat:W" = E.num "lpt.Fl_O:stat:W" ∧ E.num "mixer.Fl_I2:stat:W" = E.num "splitter.Fl_O2:stat:W" := by
  obtain ⟨-, -, s1, s2, -⟩ := splitter_laws h
  obtain ⟨-, h1, h2, -⟩ := hpc_laws h
  obtain ⟨-, b1, b2, -⟩ := bld3_laws h
  have s2 := s2 hb
  have hb' : E.num "splitter.BPR" + 1 ≠ 0 := fun e => hb (by linarith)
  refine ⟨?_, ?_, ?_, ?_, ?_, ?_, (streams h).2.1, (streams h).2.2.2.2.1⟩
  · rw [eq_div_iff hb', ← s1, s2]; ring
  · rw [eq_div_iff hb', ← s1, s2]; ring
  · rw [h2] at h1; linear_combination h1
  · rw [(burner_laws h).2.1]; rw [b2] at b1; linear_combination b1
  · rw [(hpt_laws h).2.1, b2]
  · rw [(lpt_laws h).2.1, h2]

section
variable {okC okA : (ℕ → ℝ) → Prop} {okM : ℝ → (ℕ → ℝ) → ℝ → (ℕ → ℝ) → Prop} (hb : Books p d okC okA okM)
  (hC : Sound okC okA okM E) (hf : InFlight E)
include hb hC hf

/-- **C61 (mass).** Air flows everywhere; the core's exhaust is the core's air and the burner's fuel, the mixer passes on
both streams, and the nozzle all the air taken in and the fuel of both burners. -/
theorem C61_mass : 0 < E.num "splitter.Fl_O1:stat:W" ∧ 0 < E.num "splitter.Fl_O2:stat:W" ∧ 0 < E.num "burner.Fl_I:stat:W"
    ∧ E.num "burner.Fl_O:stat:W" = E.num "burner.Fl_I:stat:W" + E.num "burner.Wfuel"
    ∧ E.num "lpt.Fl_O:stat:W" = E.num "splitter.Fl_O1:stat:W" + E.num "burner.Wfuel"
    ∧ E.num "mixer.Fl_O:stat:W" = E.num "balance.W" + E.num "burner.Wfuel"
    ∧ E.num "mixed_nozz.Fl_O:stat:W" = E.num "balance.W" + E.num "burner.Wfuel" + E.num "afterburner.Wfuel" := by
  have hB := hf.bypass
  obtain ⟨f1, f2, f3, f4, f5, f6, f7, f8⟩ := C61_flows h (by linarith)
  have g1 : 0 < E.num "splitter.Fl_O1:stat:W" := by rw [f1]; exact div_pos hf.air (by linarith)
  have g2 : 0 < E.num "splitter.Fl_O2:stat:W" := by rw [f2]; exact div_pos (mul_pos hf.air hB) (by linarith)
  have g3 : 0 < E.num "hpc.Fl_O:stat:W" := by rw [f3]; exact mul_pos g1 (by linarith [hf.hpc])
  have g4 : 0 < E.num "burner.Fl_I:stat:W" := by rw [f4]; exact mul_pos g3 (by linarith [hf.bld3])
  have hm : E.num "burner.Fl_O:stat:W" = E.num "burner.Fl_I:stat:W" + E.num "burner.Wfuel" :=
    h.burner_mass (x := "burner") (List.mem_of_getElem? (i := 10) rfl) hb.burner
      ((burner_laws h).2.2 ▸ hC.burner : okC (E.vec "burner.Fl_I:tot:composition")) g4.ne' (add_pos_of_pos_of_nonneg g4 hf.fuel).ne'
  obtain ⟨-, -, s1, -⟩ := splitter_laws h
  have w1 : E.num "lpt.Fl_O:stat:W" = E.num "splitter.Fl_O1:stat:W" + E.num "burner.Wfuel" := by
    rw [f6, f5, hm, f4, f3]; ring
  obtain ⟨-, -, t3, -, -, t6⟩ := streams h
  obtain ⟨V, hV, hv⟩ := mixed h
  have v1 : V.num "Fl_I1:stat:W" = E.num "lpt.Fl_O:stat:W" := (hv _).1.trans f7
  have v2 : V.num "Fl_I2:stat:W" = E.num "splitter.Fl_O2:stat:W" := (hv _).1.trans f8
  have v3 : V.vec "Fl_I1:tot:composition" = E.vec "lpt.Fl_O:tot:composition" := (hv _).2.trans t3
  have v4 : V.vec "Fl_I2:tot:composition" = E.vec "fc.fs.composition" := (hv _).2.trans t6
  have v5 : V.num "Fl_O:stat:W" = E.num "mixer.Fl_O:stat:W" := (hv _).1
  have mm := hb.mixer.mass V hV ⟨by rw [v1, v2, v3, v4]; exact hC.mixer, by
    rw [v1, v2, w1]; have := hf.fuel; exact ne_of_gt (by linarith)⟩
  simp only [Account.MassBalance, mixerAccount, Env.W, List.map_cons, List.map_nil, List.sum_cons, List.sum_nil,
    add_zero, String.reduceAppend] at mm
  rw [v1, v2, v5, w1] at mm
  have w2 : E.num "mixer.Fl_O:stat:W" = E.num "balance.W" + E.num "burner.Wfuel" := by linarith
  have a1 := (ab_laws h).2.1
  have g5 : 0 < E.num "afterburner.Fl_I:stat:W" := by rw [a1, w2]; have := hf.fuel; have := hf.air; linarith
  have ha : E.num "afterburner.Fl_O:stat:W" = E.num "afterburner.Fl_I:stat:W" + E.num "afterburner.Wfuel" :=
    h.burner_mass (x := "afterburner") (List.mem_of_getElem? (i := 18) rfl) hb.afterburner
      ((ab_laws h).2.2 ▸ hC.afterburner : okA (E.vec "afterburner.Fl_I:tot:composition")) g5.ne'
      (add_pos_of_pos_of_nonneg g5 hf.abFuel).ne'
  exact ⟨g1, g2, g4, hm, w1, w2, by rw [(nozz_laws h).2.1, ha, a1, w2]⟩

/-- **C61 (energy).** What leaves through the nozzle is, per unit time, the enthalpy of the air at free-stream total
conditions, that of the fuel of both burners and the heat added in the ducts, less the powers of the five machines; for
a gas whose enthalpy depends on pressure the inlet adds the difference between the enthalpies at its two pressures. -/
theorem C61_energy :
    let g := p.air (E.vec "fc.fs.composition")
    E.num "mixed_nozz.Fl_O:stat:W" * E.num "mixed_nozz.Fl_O:tot:h"
      = E.num "balance.W" * E.num "fc.Fl_O:tot:h" + E.num "burner.Wfuel" * E.num "burner.mix_fuel.mix:h"
      + E.num "afterburner.Wfuel" * E.num "afterburner.mix_fuel.mix:h"
      - (E.num "fan.power" + E.num "lpc.power" + E.num "hpc.power" + E.num "hpt.power" + E.num "lpt.power") / 1.4148532
      + (E.num "inlet_duct.Q_dot" + E.num "splitter_core_duct.Q_dot" + E.num "lpc_duct.Q_dot" + E.num "hpt_duct.Q_dot"
        + E.num "lpt_duct.Q_dot" + E.num "bypass_duct.Q_dot" + E.num "mixer_duct.Q_dot")
      + E.num "balance.W" * (g.h (E.num "fc.Fl_O:tot:T") (E.num "fc.Fl_O:tot:P" * E.num "inlet.ram_recovery")
          - g.h (E.num "fc.Fl_O:tot:T") (E.num "fc.Fl_O:tot:P")) := by
  have N := C61_network p d hb
  obtain ⟨g1, g2, g4, hm, w1, w2, -⟩ := C61_mass h hb hC hf
  obtain ⟨f1, f2, f3, f4, f5, f6, f7, f8⟩ := C61_flows h (by linarith [hf.bypass])
  have gf := hf.fuel
  have ga := hf.abFuel
  have g3 : 0 < E.num "hpc.Fl_O:stat:W" := by rw [f3]; exact mul_pos g1 (by linarith [hf.hpc])
  have j0 := join h 0 (a := ("fc", "Fl_O")) (b := ("inlet", "Fl_I")) rfl
  have vi : ∀ n, ((mftf p d).view E ⟨"inlet", inlet p.air d true, [], []⟩).num n = E.num ("inlet" ++ "." ++ n)
      ∧ ((mftf p d).view E ⟨"inlet", inlet p.air d true, [], []⟩).vec n = E.vec ("inlet" ++ "." ++ n) :=
    fun n => h.view_eq rfl (Or.inr rfl)
  have vb : ∀ n, ((mftf p d).view E ⟨"burner", combustor p.burnt p.fuel d true, [], []⟩).num n
        = E.num ("burner" ++ "." ++ n)
      ∧ ((mftf p d).view E ⟨"burner", combustor p.burnt p.fuel d true, [], []⟩).vec n
        = E.vec ("burner" ++ "." ++ n) :=
    fun n => h.view_eq rfl (Or.inr rfl)
  have va : ∀ n, ((mftf p d).view E ⟨"afterburner", combustor p.hot p.abFuel d true, [], []⟩).num n
        = E.num ("afterburner" ++ "." ++ n)
      ∧ ((mftf p d).view E ⟨"afterburner", combustor p.hot p.abFuel d true, [], []⟩).vec n
        = E.vec ("afterburner" ++ "." ++ n) :=
    fun n => h.view_eq rfl (Or.inr rfl)
  have vm : ∀ n, ((mftf p d).view E ⟨"mixer", mixer p.burnt p.mix true d, [], []⟩).num n
        = E.num ("mixer" ++ "." ++ n)
      ∧ ((mftf p d).view E ⟨"mixer", mixer p.burnt p.mix true d, [], []⟩).vec n
        = E.vec ("mixer" ++ "." ++ n) :=
    fun n => h.view_eq rfl (Or.inr rfl)
  have v : ∀ (x : String) (G : Group) (pI : List Prom) (n : String), promoted pI n = none →
      ((mftf p d).view E ⟨x, G, pI, []⟩).num n = E.num (x ++ "." ++ n) :=
    fun x G pI n hn => (h.view_eq rfl (Or.inr hn)).1
  have key := Cycle.C57_energy N h.converged (by rw [show (mftf p d).links = flows from rfl]; decide +kernel) ?_ ?_ ?_
  · have e1 : (mftf p d).openOutlets (acc p okC okA okM) Link.carriesEnergy
        = [(⟨"mixed_nozz", nozzle p.hot .CD .Cfg, [], []⟩, "Fl_O")] := rfl
    have e2 : (mftf p d).openInlets (acc p okC okA okM) Link.carriesEnergy = [] := rfl
    rw [e1, e2, show (mftf p d).members = elements p d from rfl] at key
    simp only [elements, List.map_cons, List.map_nil, List.sum_cons, List.sum_nil, acc, Env.H, startAccount, inletAccount,
      ductAccount, splitterAccount, bleedOutAccount, nozzleAccount, compressorAccount, turbineAccount, combustorAccount,
      mixerAccount, (vi _).1, (vi _).2, (vb _).1, (vb _).2, (va _).1, (va _).2, String.reduceAppend] at key
    have i1 : E.num "inlet.Fl_I:stat:W" = E.num "balance.W" := j0.W.trans (fc_laws h).2.2.2.1
    have i3 : E.num "inlet.Fl_I:tot:T" = E.num "fc.Fl_O:tot:T" := j0.T
    have i4 : E.num "inlet.Fl_I:tot:P" = E.num "fc.Fl_O:tot:P" := j0.P
    have i5 : E.vec "inlet.Fl_I:tot:composition" = E.vec "fc.fs.composition" := j0.C.trans (fc_laws h).2.2.2.2
    have i6 : E.num "balance.W" = E.num "fc.W" := bconn h (by cases d <;> simp [balConns])
    have x1 := v "hpc" (compressor p.air p.hpc ["cool1"] d true) [.as "Nmech" "HP_Nmech"]
    have x2 := v "fan" (compressor p.air p.fan [] d true) [.as "Nmech" "LP_Nmech"]
    have x3 := v "lpc" (compressor p.air p.lpc [] d true) [.as "Nmech" "LP_Nmech"]
    have x4 := v "hpt" (turbine p.burnt (fun _ => p.air) p.hpt p.hptBleed ["cool3"] d true) [.as "Nmech" "HP_Nmech"]
    have x5 := v "lpt" (turbine p.burnt (fun _ => p.air) p.lpt p.lptBleed ["cool1"] d true) [.as "Nmech" "LP_Nmech"]
    rw [x1 "power" rfl, x2 "power" rfl, x3 "power" rfl, x4 "power" rfl, x5 "power" rfl] at key
    simp only [v _ _ [] _ rfl, i1, i3, i4, i5, ← i6, String.reduceAppend] at key
    simp only []
    linear_combination key
  · have d0 : E.num "inlet_duct.Fl_I:stat:W" = E.num "balance.W" :=
      (join h 1 (a := ("inlet", "Fl_O")) (b := ("inlet_duct", "Fl_I")) rfl).W.trans (inlet_laws h).2.2.1
    have d1 : E.num "splitter_core_duct.Fl_I:stat:W" = _ :=
      (join h 4 (a := ("splitter", "Fl_O1")) (b := ("splitter_core_duct", "Fl_I")) rfl).W
    have d2 : E.num "lpc_duct.Fl_I:stat:W" = _ :=
      (join h 6 (a := ("lpc", "Fl_O")) (b := ("lpc_duct", "Fl_I")) rfl).W.trans (lpc_laws h).2.1
    have d3 : E.num "hpt_duct.Fl_I:stat:W" = E.num "hpt.Fl_O:stat:W" :=
      (join h 11 (a := ("hpt", "Fl_O")) (b := ("hpt_duct", "Fl_I")) rfl).W
    have d4 : E.num "lpt_duct.Fl_I:stat:W" = E.num "lpt.Fl_O:stat:W" :=
      (join h 13 (a := ("lpt", "Fl_O")) (b := ("lpt_duct", "Fl_I")) rfl).W
    have d5 : E.num "bypass_duct.Fl_I:stat:W" = _ :=
      (join h 15 (a := ("splitter", "Fl_O2")) (b := ("bypass_duct", "Fl_I")) rfl).W
    have d6 : E.num "mixer_duct.Fl_I:stat:W" = E.num "mixer.Fl_O:stat:W" :=
      (join h 17 (a := ("mixer", "Fl_O")) (b := ("mixer_duct", "Fl_I")) rfl).W
    have o1 : 0 < E.num "hpt.Fl_O:stat:W" := by
      rw [f5, hm]
      have := mul_nonneg hf.cool3 g3.le
      linarith
    have o2 : 0 < E.num "lpt.Fl_O:stat:W" := by rw [w1]; linarith
    have o3 : 0 < E.num "mixer.Fl_O:stat:W" := by rw [w2]; linarith [hf.air]
    have a1 := (ab_laws h).2.1
    have g5 : 0 < E.num "afterburner.Fl_I:stat:W" := by rw [a1]; exact o3
    obtain ⟨-, -, t3, -, -, t6⟩ := streams h
    rw [show (mftf p d).members = elements p d from rfl]
    simp only [elements, List.forall_mem_cons]
    refine ⟨trivial, trivial, ?_, trivial, trivial, ?_, trivial, ?_, trivial, trivial, ⟨?_, ?_, ?_⟩, ?_, ?_, ?_, ?_, ?_,
      ⟨?_, ?_⟩, ?_, ⟨?_, ?_, ?_⟩, trivial, by simp⟩
    · simp only [ductAccount, acc, v _ _ [] _ rfl]; exact d0.trans_ne hf.air.ne'
    · simp only [ductAccount, acc, v _ _ [] _ rfl]; exact d1.trans_ne g1.ne'
    · simp only [ductAccount, acc, v _ _ [] _ rfl]; exact d2.trans_ne g1.ne'
    · rw [(vb _).2]; exact (burner_laws h).2.2 ▸ hC.burner
    · rw [(vb _).1]; exact g4.ne'
    · rw [(vb _).1, (vb _).1]; exact (add_pos_of_pos_of_nonneg g4 gf).ne'
    · simp only [turbineAccount, acc]; rw [v _ _ _ _ rfl]; exact o1.ne'
    · simp only [ductAccount, acc, v _ _ [] _ rfl]; exact d3.trans_ne o1.ne'
    · simp only [turbineAccount, acc]; rw [v _ _ _ _ rfl]; exact o2.ne'
    · simp only [ductAccount, acc, v _ _ [] _ rfl]; exact d4.trans_ne o2.ne'
    · simp only [ductAccount, acc, v _ _ [] _ rfl]; exact d5.trans_ne g2.ne'
    · rw [(vm _).1, (vm _).1, (vm _).2, (vm _).2]
      have y1 : E.num "mixer.Fl_I1:stat:W" = _ := f7
      have y2 : E.num "mixer.Fl_I2:stat:W" = _ := f8
      simp only [String.reduceAppend]
      rw [y1, y2, t3, t6]; exact hC.mixer
    · rw [(vm _).1, (vm _).1]
      simp only [String.reduceAppend]
      rw [f7, f8]; exact (add_pos o2 g2).ne'
    · simp only [ductAccount, acc, v _ _ [] _ rfl]; exact d6.trans_ne o3.ne'
    · rw [(va _).2]; exact (ab_laws h).2.2 ▸ hC.afterburner
    · rw [(va _).1]; exact g5.ne'
    · rw [(va _).1, (va _).1]; exact (add_pos_of_pos_of_nonneg g5 ga).ne'
  · intro l hl _
    have hl : l ∈ flows := hl
    simp only [flows, List.mem_cons, List.not_mem_nil, or_false] at hl
    rcases hl with rfl | rfl | rfl | rfl | rfl | rfl | rfl | rfl | rfl | rfl | rfl | rfl | rfl | rfl | rfl | rfl | rfl | rfl | rfl | rfl | rfl | rfl <;> rfl
  · have e0 : (mftf p d).openInlets (acc p okC okA okM) Link.tot = [] := rfl
    rw [e0]; intro q hq; cases hq

/-- **C61 (jet energy).** Without heat in the ducts and loss of ram pressure all the energy of air and fuel leaves with
the jet, whatever power is extracted and lost on the shafts. -/
theorem C61_jet (hL : 0 < E.num "LP_Nmech") (hH : 0 < E.num "HP_Nmech")
    (mL : E.num ("balance.mult:" ++ lpBal d) = -1) (mH : E.num ("balance.mult:" ++ hpBal d) = -1)
    (hrec : E.num "inlet.ram_recovery" = 1)
    (hq : ∀ x ∈ ["inlet_duct", "splitter_core_duct", "lpc_duct", "hpt_duct", "lpt_duct", "bypass_duct", "mixer_duct"],
      E.num (x ++ "." ++ "Q_dot") = 0) :
    E.num "mixed_nozz.Fl_O:stat:W" * E.num "mixed_nozz.Fl_O:tot:h"
      = E.num "balance.W" * E.num "fc.Fl_O:tot:h" + E.num "burner.Wfuel" * E.num "burner.mix_fuel.mix:h"
      + E.num "afterburner.Wfuel" * E.num "afterburner.mix_fuel.mix:h" := by
  have e := C61_energy h hb hC hf
  obtain ⟨s1, s2⟩ := C61_shafts_partial h hL hH mL mH
  have hp : E.num "fan.power" + E.num "lpc.power" + E.num "hpc.power" + E.num "hpt.power" + E.num "lpt.power" = 0 := by
    linarith
  have q1 : E.num "inlet_duct.Q_dot" = 0 := hq "inlet_duct" (by simp)
  have q2 : E.num "splitter_core_duct.Q_dot" = 0 := hq "splitter_core_duct" (by simp)
  have q3 : E.num "lpc_duct.Q_dot" = 0 := hq "lpc_duct" (by simp)
  have q4 : E.num "hpt_duct.Q_dot" = 0 := hq "hpt_duct" (by simp)
  have q5 : E.num "lpt_duct.Q_dot" = 0 := hq "lpt_duct" (by simp)
  have q6 : E.num "bypass_duct.Q_dot" = 0 := hq "bypass_duct" (by simp)
  have q7 : E.num "mixer_duct.Q_dot" = 0 := hq "mixer_duct" (by simp)
  rw [hp, hrec, q1, q2, q3, q4, q5, q6, q7] at e
  simp only [mul_one, sub_self, mul_zero, add_zero, zero_div, sub_zero] at e
  exact e

end
end

/-- **C61 (tabular fuel).** With tabular thermodynamics fuel is the fuel-air ratio times the air of the stream it is added
to: the air that reaches the burner, and for the afterburner the air among what leaves the mixer. -/
theorem C61_tab {p : MftfParts} {d : Bool} {E : Env} {n : ℕ} {idx : Fin n} (hp : p.fuel = .tab n idx)
    (hp' : p.abFuel = .tab n idx) (hmix : p.mix = .tab n) (h : (mftf p d).Solved E)
    (hC : 1 + ∑ i : Fin n, E.vec "fc.fs.composition" i ≠ 0) (hC1 : 1 + ∑ i : Fin n, E.vec "lpt.Fl_O:tot:composition" i ≠ 0)
    (hC2 : 1 + ∑ i : Fin n, E.vec "mixer.Fl_O:tot:composition" i ≠ 0)
    (hM : airMass (E.num "lpt.Fl_O:stat:W") (fun k : Fin n => E.vec "lpt.Fl_O:tot:composition" k)
      + airMass (E.num "splitter.Fl_O2:stat:W") (fun k : Fin n => E.vec "fc.fs.composition" k) ≠ 0)
    (hf : InFlight E) :
    E.num "burner.Wfuel" = airMass (E.num "burner.Fl_I:stat:W") (fun k : Fin n => E.vec "fc.fs.composition" k)
        * E.num "balance.FAR_core"
    ∧ E.num "afterburner.Wfuel" = airMass (E.num "mixer.Fl_O:stat:W") (fun k : Fin n => E.vec "mixer.Fl_O:tot:composition" k)
        * E.num "balance.FAR_ab"
    ∧ E.num "mixed_nozz.Fl_O:stat:W" = E.num "balance.W" + E.num "burner.Wfuel" + E.num "afterburner.Wfuel" := by
  have B : Books p d (fun x => 1 + ∑ i : Fin n, x i ≠ 0) (fun x => 1 + ∑ i : Fin n, x i ≠ 0)
      (fun W x W' y => 1 + ∑ i : Fin n, x i ≠ 0 ∧ 1 + ∑ i : Fin n, y i ≠ 0
      ∧ airMass W (fun k : Fin n => x k) + airMass W' (fun k : Fin n => y k) ≠ 0) :=
    ⟨by rw [hp]; exact C57_combustor_tab p.burnt p.air d true n idx,
     by rw [hp']; exact C57_combustor_tab p.hot p.burnt d true n idx,
     by rw [hmix]; exact C57_mixer_tab p.burnt _ true d n⟩
  have S : Sound (fun x => 1 + ∑ i : Fin n, x i ≠ 0) (fun x => 1 + ∑ i : Fin n, x i ≠ 0)
      (fun W x W' y => 1 + ∑ i : Fin n, x i ≠ 0 ∧ 1 + ∑ i : Fin n, y i ≠ 0
      ∧ airMass W (fun k : Fin n => x k) + airMass W' (fun k : Fin n => y k) ≠ 0) E := ⟨hC, hC2, hC1, hC, hM⟩
  obtain ⟨-, -, g, -, -, w2, hm⟩ := C61_mass h B S hf
  obtain ⟨-, -, -, -, k5, k6, -⟩ := C61_targets h
  have g5 : 0 < E.num "mixer.Fl_O:stat:W" := by rw [w2]; linarith [hf.air, hf.fuel]
  refine ⟨?_, ?_, hm⟩
  · obtain ⟨V, hV, hi, -, x3, -, y2⟩ := h.burner_seen (x := "burner") (List.mem_of_getElem? (i := 10) rfl)
    have x1 : V.num "Fl_I:stat:W" = E.num "burner.Fl_I:stat:W" := (hi "stat:W" (by decide)).1
    have x2 : V.vec "Fl_I:tot:composition" = E.vec "fc.fs.composition" :=
      (hi "tot:composition" (by decide)).2.trans (burner_laws h).2.2
    have x3 : V.num "Fl_I:FAR" = E.num "balance.FAR_core" := x3.trans k5
    rw [hp] at hV
    obtain ⟨k, -⟩ := C48_tab p.burnt d true V n idx (by rw [x2]; exact hC) (by rw [x1]; exact g.ne')
      (by rw [x1, y2]; exact (add_pos_of_pos_of_nonneg g hf.fuel).ne') hV
    rw [x1, x2, x3, y2] at k
    exact k
  · obtain ⟨V, hV, hi, -, x3, -, y2⟩ := h.burner_seen (x := "afterburner") (List.mem_of_getElem? (i := 18) rfl)
    have x1 : V.num "Fl_I:stat:W" = E.num "mixer.Fl_O:stat:W" := (hi "stat:W" (by decide)).1.trans (ab_laws h).2.1
    have x2 : V.vec "Fl_I:tot:composition" = E.vec "mixer.Fl_O:tot:composition" :=
      (hi "tot:composition" (by decide)).2.trans (ab_laws h).2.2
    have x3 : V.num "Fl_I:FAR" = E.num "balance.FAR_ab" := x3.trans k6
    rw [hp'] at hV
    obtain ⟨k, -⟩ := C48_tab p.hot d true V n idx (by rw [x2]; exact hC2) (by rw [x1]; exact g5.ne')
      (by rw [x1, y2]; exact (add_pos_of_pos_of_nonneg g5 hf.abFuel).ne') hV
    rw [x1, x2, x3, y2] at k
    exact k

/-- What the equilibrium model needs of a fuel: a known reactant with mass, added to a stream of known elements. -/
structure MFTF.CeaFuel (data : ThermoData) (S : ReactantAdd) : Prop where
  setup : ∃ infl : PyDict ℝ, infl.keys.Nodup ∧ ∃ fuel, ∃ f : PyDict ℝ, data.reactants.get? fuel = some f ∧ f.keys.Nodup
    ∧ formulaMass f data.wtOf ≠ 0 ∧ reactantSetup data (some infl) ["mix"] [fuel] = .ok S
  weights : ∀ e ∈ S.mixed.elements, data.wtOf e ≠ 0

/-- **C61 (chemical equilibrium fuel).** With reactants as fuel: fuel is the fuel-air ratio times all the flow of the
stream it is added to; for the afterburner this includes the fuel already burnt. -/
theorem C61_cea {p : MftfParts} {d : Bool} {E : Env} (data : ThermoData) (S S' : ReactantAdd) (hS : CeaFuel data S)
    (hS' : CeaFuel data S') (f1 f2 : PyDict ℝ) (hin : f1.keys.Nodup) (p1 p2 pm : Properties)
    (h1 : mkProperties data (some f1) = .ok p1) (h2 : mkProperties data (some f2) = .ok p2)
    (hm : mkProperties data (some (mixedFlows f1 [f2])) = .ok pm) (hwt : ∀ e ∈ pm.elements, data.wtOf e ≠ 0)
    (hp : p.fuel = .cea S) (hp' : p.abFuel = .cea S') (hmix : p.mix = .cea p1 pm p2) (h : (mftf p d).Solved E)
    (hC : totalMass S.inflow.elements data.wtOf (fun k => E.vec "fc.fs.composition" k) ≠ 0)
    (hC' : totalMass S'.inflow.elements data.wtOf (fun k => E.vec "mixer.Fl_O:tot:composition" k) ≠ 0)
    (hM1 : totalMass p1.elements data.wtOf (fun k => E.vec "lpt.Fl_O:tot:composition" k) ≠ 0)
    (hM2 : totalMass p2.elements data.wtOf (fun k => E.vec "fc.fs.composition" k) ≠ 0)
    (hf : InFlight E) :
    E.num "burner.Wfuel" = E.num "burner.Fl_I:stat:W" * E.num "balance.FAR_core"
    ∧ E.num "afterburner.Wfuel" = (E.num "balance.W" + E.num "burner.Wfuel") * E.num "balance.FAR_ab"
    ∧ E.num "mixed_nozz.Fl_O:stat:W" = E.num "balance.W" + E.num "burner.Wfuel" + E.num "afterburner.Wfuel" := by
  obtain ⟨infl, hn, fuel, f, q1, q2, q3, q4⟩ := hS.setup
  obtain ⟨infl', hn', fuel', f', r1, r2, r3, r4⟩ := hS'.setup
  have B : Books p d (fun x => totalMass S.inflow.elements data.wtOf (fun k => x k) ≠ 0)
      (fun x => totalMass S'.inflow.elements data.wtOf (fun k => x k) ≠ 0)
      (fun _ x _ y => totalMass p1.elements data.wtOf (fun k => x k) ≠ 0
        ∧ totalMass p2.elements data.wtOf (fun k => y k) ≠ 0) :=
    ⟨by rw [hp]; exact C57_combustor_cea p.burnt p.air d true data infl hn fuel f q1 q2 q3 S q4 hS.weights,
     by rw [hp']; exact C57_combustor_cea p.hot p.burnt d true data infl' hn' fuel' f' r1 r2 r3 S' r4 hS'.weights,
     by rw [hmix]; exact C57_mixer_cea p.burnt _ true d data f1 f2 hin p1 p2 pm h1 h2 hm hwt⟩
  obtain ⟨-, -, g, -, -, w2, hmass⟩ := C61_mass h B ⟨hC, hC', hM1, hM2⟩ hf
  obtain ⟨-, -, -, -, k5, k6, -⟩ := C61_targets h
  have g5 : 0 < E.num "mixer.Fl_O:stat:W" := by rw [w2]; linarith [hf.air, hf.fuel]
  refine ⟨?_, ?_, hmass⟩
  · obtain ⟨V, hV, hi, -, x3, -, y2⟩ := h.burner_seen (x := "burner") (List.mem_of_getElem? (i := 10) rfl)
    have x1 : V.num "Fl_I:stat:W" = E.num "burner.Fl_I:stat:W" := (hi "stat:W" (by decide)).1
    have x2 : V.vec "Fl_I:tot:composition" = E.vec "fc.fs.composition" :=
      (hi "tot:composition" (by decide)).2.trans (burner_laws h).2.2
    have x3 : V.num "Fl_I:FAR" = E.num "balance.FAR_core" := x3.trans k5
    rw [hp] at hV
    obtain ⟨k, -⟩ := C48_cea p.burnt d true V data infl hn fuel f q1 q2 q3 S q4 hS.weights (by rw [x2]; exact hC)
      (by rw [x1, y2]; exact (add_pos_of_pos_of_nonneg g hf.fuel).ne') hV
    rw [x1, x3, y2] at k
    exact k
  · obtain ⟨V, hV, hi, -, x3, -, y2⟩ := h.burner_seen (x := "afterburner") (List.mem_of_getElem? (i := 18) rfl)
    have x1 : V.num "Fl_I:stat:W" = E.num "mixer.Fl_O:stat:W" := (hi "stat:W" (by decide)).1.trans (ab_laws h).2.1
    have x2 : V.vec "Fl_I:tot:composition" = E.vec "mixer.Fl_O:tot:composition" :=
      (hi "tot:composition" (by decide)).2.trans (ab_laws h).2.2
    have x3 : V.num "Fl_I:FAR" = E.num "balance.FAR_ab" := x3.trans k6
    rw [hp'] at hV
    obtain ⟨k, -⟩ := C48_cea p.hot d true V data infl' hn' fuel' f' r1 r2 r3 S' r4 hS'.weights (by rw [x2]; exact hC')
      (by rw [x1, y2]; exact (add_pos_of_pos_of_nonneg g5 hf.abFuel).ne') hV
    rw [x1, x3, y2, w2] at k
    exact k

end PyCycle.OM
