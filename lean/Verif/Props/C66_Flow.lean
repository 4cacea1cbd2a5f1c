import Verif.Props.C66_GearedFan
import Verif.Props.C57_Network

/-! # C66: mass and energy of the geared turbofan -/

namespace PyCycle.OM

open N3

namespace N3

/-- The account of each element. -/
noncomputable def acc (p : N3Parts) (okC : (ℕ → ℝ) → Prop) : String → Account
  | "fc" => startAccount p.air
  | "inlet" => inletAccount p.air
  | "fan" => compressorAccount p.air []
  | "splitter" => splitterAccount p.air
  | "duct2" => ductAccount p.air
  | "lpc" => compressorAccount p.air []
  | "bld25" => bleedOutAccount p.air ["sbv"]
  | "duct25" => ductAccount p.air
  | "hpc" => compressorAccount p.air ["bld_inlet", "bld_exit", "cust"]
  | "bld3" => bleedOutAccount p.air ["bld_inlet", "bld_exit"]
  | "burner" => combustorAccount p.burnt p.air okC
  | "hpt" => turbineAccount p.burnt (fun q => if q = "Fl_I" then p.burnt else p.air) ["bld_inlet", "bld_exit"]
  | "duct45" => ductAccount p.burnt
  | "lpt" => turbineAccount p.burnt (fun q => if q = "Fl_I" then p.burnt else p.air) ["bld_inlet", "bld_exit"]
  | "duct5" => ductAccount p.burnt
  | "core_nozz" => nozzleAccount p.burnt
  | "byp_bld" => bleedOutAccount p.air ["bypBld"]
  | "duct17" => ductAccount p.air
  | "byp_nozz" => nozzleAccount p.air
  | _ => startAccount p.air

/-- A turbofan in flight: air and fuel flow forward, the bleeds leave some air in the core and in the bypass. -/
structure InFlight (E : Env) : Prop where
  air : 0 < E.num "fc.W"
  bypass : 0 < E.num "splitter.BPR"
  fuel : 0 ≤ E.num "burner.Wfuel"
  sbv : E.num "bld25.sbv:frac_W" < 1
  inlet : 0 ≤ E.num "hpc.bld_inlet:frac_W"
  exit : 0 ≤ E.num "hpc.bld_exit:frac_W"
  hpc : E.num "hpc.bld_inlet:frac_W" + E.num "hpc.bld_exit:frac_W" + E.num "hpc.cust:frac_W" < 1
  inlet3 : 0 ≤ E.num "bld3.bld_inlet:frac_W"
  exit3 : 0 ≤ E.num "bld3.bld_exit:frac_W"
  bld3 : E.num "bld3.bld_inlet:frac_W" + E.num "bld3.bld_exit:frac_W" < 1
  byp : E.num "byp_bld.bypBld:frac_W" < 1

end N3

/-- **C66 (network).** The engine is a network of accounts. -/
theorem C66_network (p : N3Parts) (m : N3Mode) {okC : (ℕ → ℝ) → Prop}
    (hb : (combustorAccount p.burnt p.air okC).Holds (combustor p.burnt p.fuel m.isDesign true)) :
    (n3 p m).Network (acc p okC) where
  wired := (C66_interface p m).1
  accounts := by
    simp only [n3, elements, List.forall_mem_cons]
    exact ⟨C57_flight _ _, C57_inlet _ _ _, C57_compressor _ _ Turbojet.noComp _ _, C57_splitter _ _ _, C57_duct _ _ _ _ _,
      C57_compressor _ _ Turbojet.noComp _ _, C57_bleed_out _ bld25Names (by simp) _ _, C57_duct _ _ _ _ _,
      C57_compressor _ _ hpcNames _ _,
      C57_bleed_out _ bld3Names (by simp) _ _, hb, C57_turbine _ _ _ _ _ turbNames _ _, C57_duct _ _ _ _ _,
      C57_turbine _ _ _ _ _ turbNames _ _, C57_duct _ _ _ _ _, C57_nozzle _ _ _,
      C57_bleed_out _ HBTF.bypNames (by simp) _ _, C57_duct _ _ _ _ _, C57_nozzle _ _ _, by simp⟩
  plainIn := by
    have k : ∀ q ∈ ["Fl_I", "bld_inlet", "bld_exit"], ∀ v ∈ portVars, (q ++ ":" ++ v) ≠ "Nmech" := by
      decide +kernel
    have k' : ∀ N : String, ∀ q ∈ ["Fl_I", "bld_inlet", "bld_exit"], ∀ v ∈ portVars,
        promoted [.as "Nmech" N] (q ++ ":" ++ v) = none := by
      intro N q hq v hv
      simp [promoted, Prom.exact, Prom.fits, (k q hq v hv).symm, k q hq v hv]
    have k1 : ∀ N : String, ∀ q ∈ ["Fl_I"], ∀ v ∈ portVars, promoted [.as "Nmech" N] (q ++ ":" ++ v) = none :=
      fun N q hq => k' N q (by revert q; decide)
    simp only [n3, elements, List.forall_mem_cons]
    exact ⟨fun _ _ _ _ => rfl, fun _ _ _ _ => rfl, k1 _, fun _ _ _ _ => rfl, fun _ _ _ _ => rfl, k1 _,
      fun _ _ _ _ => rfl, fun _ _ _ _ => rfl, k1 _, fun _ _ _ _ => rfl, fun _ _ _ _ => rfl, fun q hq => k' _ q hq,
      fun _ _ _ _ => rfl, fun q hq => k' _ q hq, fun _ _ _ _ => rfl, fun _ _ _ _ => rfl, fun _ _ _ _ => rfl,
      fun _ _ _ _ => rfl, fun _ _ _ _ => rfl, by simp⟩
  plainOut := by
    simp only [n3, elements, List.forall_mem_cons]
    refine ⟨?_, ?_, ?_, ?_, ?_, ?_, ?_, ?_, ?_, ?_, ?_, ?_, ?_, ?_, ?_, ?_, ?_, ?_, ?_, by simp⟩
    all_goals exact fun _ _ _ _ => rfl
  linked := by
    intro l hl
    have hl : l ∈ flows := hl
    have e : ∀ (i : ℕ) (a : Member), (elements p m.isDesign)[i]? = some a → a ∈ (n3 p m).members :=
      fun i a ha => List.mem_of_getElem? ha
    simp only [flows, List.mem_cons, List.not_mem_nil, or_false] at hl
    rcases hl with rfl | rfl | rfl | rfl | rfl | rfl | rfl | rfl | rfl | rfl | rfl | rfl | rfl | rfl | rfl | rfl | rfl | rfl | rfl | rfl | rfl | rfl
    · exact ⟨⟨_, e 0 _ rfl, rfl, List.mem_of_getElem? (i := 0) rfl⟩, ⟨_, e 1 _ rfl, rfl, List.mem_of_getElem? (i := 0) rfl⟩⟩
    · exact ⟨⟨_, e 1 _ rfl, rfl, List.mem_of_getElem? (i := 0) rfl⟩, ⟨_, e 2 _ rfl, rfl, List.mem_of_getElem? (i := 0) rfl⟩⟩
    · exact ⟨⟨_, e 2 _ rfl, rfl, List.mem_of_getElem? (i := 0) rfl⟩, ⟨_, e 3 _ rfl, rfl, List.mem_of_getElem? (i := 0) rfl⟩⟩
    · exact ⟨⟨_, e 3 _ rfl, rfl, List.mem_of_getElem? (i := 0) rfl⟩, ⟨_, e 4 _ rfl, rfl, List.mem_of_getElem? (i := 0) rfl⟩⟩
    · exact ⟨⟨_, e 4 _ rfl, rfl, List.mem_of_getElem? (i := 0) rfl⟩, ⟨_, e 5 _ rfl, rfl, List.mem_of_getElem? (i := 0) rfl⟩⟩
    · exact ⟨⟨_, e 5 _ rfl, rfl, List.mem_of_getElem? (i := 0) rfl⟩, ⟨_, e 6 _ rfl, rfl, List.mem_of_getElem? (i := 0) rfl⟩⟩
    · exact ⟨⟨_, e 6 _ rfl, rfl, List.mem_of_getElem? (i := 0) rfl⟩, ⟨_, e 7 _ rfl, rfl, List.mem_of_getElem? (i := 0) rfl⟩⟩
    · exact ⟨⟨_, e 7 _ rfl, rfl, List.mem_of_getElem? (i := 0) rfl⟩, ⟨_, e 8 _ rfl, rfl, List.mem_of_getElem? (i := 0) rfl⟩⟩
    · exact ⟨⟨_, e 8 _ rfl, rfl, List.mem_of_getElem? (i := 0) rfl⟩, ⟨_, e 9 _ rfl, rfl, List.mem_of_getElem? (i := 0) rfl⟩⟩
    · exact ⟨⟨_, e 9 _ rfl, rfl, List.mem_of_getElem? (i := 0) rfl⟩, ⟨_, e 10 _ rfl, rfl, List.mem_of_getElem? (i := 0) rfl⟩⟩
    · exact ⟨⟨_, e 10 _ rfl, rfl, List.mem_of_getElem? (i := 0) rfl⟩, ⟨_, e 11 _ rfl, rfl, List.mem_of_getElem? (i := 0) rfl⟩⟩
    · exact ⟨⟨_, e 11 _ rfl, rfl, List.mem_of_getElem? (i := 0) rfl⟩, ⟨_, e 12 _ rfl, rfl, List.mem_of_getElem? (i := 0) rfl⟩⟩
    · exact ⟨⟨_, e 12 _ rfl, rfl, List.mem_of_getElem? (i := 0) rfl⟩, ⟨_, e 13 _ rfl, rfl, List.mem_of_getElem? (i := 0) rfl⟩⟩
    · exact ⟨⟨_, e 13 _ rfl, rfl, List.mem_of_getElem? (i := 0) rfl⟩, ⟨_, e 14 _ rfl, rfl, List.mem_of_getElem? (i := 0) rfl⟩⟩
    · exact ⟨⟨_, e 14 _ rfl, rfl, List.mem_of_getElem? (i := 0) rfl⟩, ⟨_, e 15 _ rfl, rfl, List.mem_of_getElem? (i := 0) rfl⟩⟩
    · exact ⟨⟨_, e 3 _ rfl, rfl, List.mem_of_getElem? (i := 1) rfl⟩, ⟨_, e 16 _ rfl, rfl, List.mem_of_getElem? (i := 0) rfl⟩⟩
    · exact ⟨⟨_, e 16 _ rfl, rfl, List.mem_of_getElem? (i := 0) rfl⟩, ⟨_, e 17 _ rfl, rfl, List.mem_of_getElem? (i := 0) rfl⟩⟩
    · exact ⟨⟨_, e 17 _ rfl, rfl, List.mem_of_getElem? (i := 0) rfl⟩, ⟨_, e 18 _ rfl, rfl, List.mem_of_getElem? (i := 0) rfl⟩⟩
    · exact ⟨⟨_, e 8 _ rfl, rfl, List.mem_of_getElem? (i := 1) rfl⟩, ⟨_, e 13 _ rfl, rfl, List.mem_of_getElem? (i := 1) rfl⟩⟩
    · exact ⟨⟨_, e 8 _ rfl, rfl, List.mem_of_getElem? (i := 2) rfl⟩, ⟨_, e 13 _ rfl, rfl, List.mem_of_getElem? (i := 2) rfl⟩⟩
    · exact ⟨⟨_, e 9 _ rfl, rfl, List.mem_of_getElem? (i := 1) rfl⟩, ⟨_, e 11 _ rfl, rfl, List.mem_of_getElem? (i := 1) rfl⟩⟩
    · exact ⟨⟨_, e 9 _ rfl, rfl, List.mem_of_getElem? (i := 2) rfl⟩, ⟨_, e 11 _ rfl, rfl, List.mem_of_getElem? (i := 2) rfl⟩⟩

section
variable {p : N3Parts} {m : N3Mode} {E : Env} (h : (n3 p m).Solved E)
include h

/-- **C66 (flows).** The splitter divides the air by the bypass ratio; the core gives up the stability bleed, the bleeds
of the compressor and from what is left those behind it; the burner sees the rest, both turbines return the cooling air,
and the bypass loses its own bleed. -/
theorem C66_flows (hb : E.num "splitter.BPR" ≠ -1) :
    E.num "splitter.Fl_O1:stat:W" = E.num "fc.W" / (E.num "splitter.BPR" + 1)
    ∧ E.num "splitter.Fl_O2:stat:W" = E.num "fc.W" * E.num "splitter.BPR" / (E.num "splitter.BPR" + 1)
    ∧ E.num "bld25.Fl_O:stat:W" = E.num "splitter.Fl_O1:stat:W" * (1 - E.num "bld25.sbv:frac_W")
    ∧ E.num "hpc.Fl_O:stat:W" = E.num "bld25.Fl_O:stat:W"
        * (1 - (E.num "hpc.bld_inlet:frac_W" + E.num "hpc.bld_exit:frac_W" + E.num "hpc.cust:frac_W"))
    ∧ E.num "burner.Fl_I:stat:W" = E.num "hpc.Fl_O:stat:W"
        * (1 - (E.num "bld3.bld_inlet:frac_W" + E.num "bld3.bld_exit:frac_W"))
    ∧ E.num "hpt.Fl_O:stat:W" = E.num "burner.Fl_O:stat:W"
        + (E.num "bld3.bld_inlet:frac_W" + E.num "bld3.bld_exit:frac_W") * E.num "hpc.Fl_O:stat:W"
    ∧ E.num "core_nozz.Fl_O:stat:W" = E.num "hpt.Fl_O:stat:W"
        + (E.num "hpc.bld_inlet:frac_W" + E.num "hpc.bld_exit:frac_W") * E.num "bld25.Fl_O:stat:W"
    ∧ E.num "byp_nozz.Fl_O:stat:W" = E.num "splitter.Fl_O2:stat:W" * (1 - E.num "byp_bld.bypBld:frac_W") := by
  obtain ⟨-, -, s1, s2, -⟩ := splitter_laws h
  obtain ⟨-, c1, c2, -⟩ := bld25_laws h
  obtain ⟨-, -, h1, h2, h3, h4, -⟩ := hpc_laws h
  obtain ⟨-, b1, b2, b3, -⟩ := bld3_laws h
  obtain ⟨-, y1, y2, -⟩ := byp_laws h
  have s2 := s2 hb
  have hb' : E.num "splitter.BPR" + 1 ≠ 0 := fun e => hb (by linarith)
  refine ⟨?_, ?_, ?_, ?_, ?_, ?_, ?_, ?_⟩
  · rw [eq_div_iff hb', ← s1, s2]; ring
  · rw [eq_div_iff hb', ← s1, s2]; ring
  · rw [c2] at c1; linear_combination c1
  · rw [h2, h3, h4] at h1; linear_combination h1
  · rw [(burner_laws h).2.1]; rw [b2, b3] at b1; linear_combination b1
  · rw [(hpt_laws h).2.1, b2, b3]; ring
  · rw [(core_laws h).2.1, (lpt_laws h).2.1, h2, h3]; ring
  · rw [y2] at y1; linear_combination y1

/-- The burner's account. -/
theorem N3.burner_mass {okC : (ℕ → ℝ) → Prop}
    (hb : (combustorAccount p.burnt p.air okC).Holds (combustor p.burnt p.fuel m.isDesign true))
    (hC : okC (E.vec "fc.fs.composition")) (hW : E.num "burner.Fl_I:stat:W" ≠ 0)
    (hWf : E.num "burner.Fl_I:stat:W" + E.num "burner.Wfuel" ≠ 0) :
    E.num "burner.Fl_O:stat:W" = E.num "burner.Fl_I:stat:W" + E.num "burner.Wfuel" :=
  h.burner_mass (x := "burner") (List.mem_of_getElem? (i := 10) rfl) hb ((burner_laws h).2.2 ▸ hC) hW hWf

/-- **C66 (flow is positive).** In a turbofan in flight air flows everywhere. -/
theorem C66_flowing (hf : InFlight E) : 0 < E.num "splitter.Fl_O1:stat:W" ∧ 0 < E.num "splitter.Fl_O2:stat:W"
    ∧ 0 < E.num "bld25.Fl_O:stat:W"
    ∧ 0 < E.num "hpc.Fl_O:stat:W" ∧ 0 < E.num "burner.Fl_I:stat:W" ∧ 0 < E.num "byp_nozz.Fl_O:stat:W" := by
  have hB := hf.bypass
  obtain ⟨f1, f2, f25, f3, f4, -, -, f7⟩ := C66_flows h (by linarith)
  have g1 : 0 < E.num "splitter.Fl_O1:stat:W" := by rw [f1]; exact div_pos hf.air (by linarith)
  have g2 : 0 < E.num "splitter.Fl_O2:stat:W" := by rw [f2]; exact div_pos (mul_pos hf.air hB) (by linarith)
  have g25 : 0 < E.num "bld25.Fl_O:stat:W" := by rw [f25]; exact mul_pos g1 (by linarith [hf.sbv])
  have g3 : 0 < E.num "hpc.Fl_O:stat:W" := by rw [f3]; exact mul_pos g25 (by linarith [hf.hpc])
  exact ⟨g1, g2, g25, g3, by rw [f4]; exact mul_pos g3 (by linarith [hf.bld3]),
    by rw [f7]; exact mul_pos g2 (by linarith [hf.byp])⟩

/-- **C66 (mass).** Through core nozzle, bypass nozzle, stability bleed, customer bleed and bypass bleed leaves the air
taken in and the fuel burnt. -/
theorem C66_mass {okC : (ℕ → ℝ) → Prop}
    (hb : (combustorAccount p.burnt p.air okC).Holds (combustor p.burnt p.fuel m.isDesign true))
    (hC : okC (E.vec "fc.fs.composition")) (hf : InFlight E) :
    E.num "core_nozz.Fl_O:stat:W" + E.num "byp_nozz.Fl_O:stat:W" + E.num "bld25.sbv:stat:W" + E.num "hpc.cust:stat:W"
        + E.num "byp_bld.bypBld:stat:W"
      = E.num "fc.W" + E.num "burner.Wfuel" := by
  obtain ⟨g1, g2, g25, g3, g4, g5⟩ := C66_flowing h hf
  have hm := burner_mass h hb hC g4.ne' (by linarith [hf.fuel])
  obtain ⟨-, -, s1, -⟩ := splitter_laws h
  obtain ⟨-, c1, -⟩ := bld25_laws h
  obtain ⟨-, -, h1, -⟩ := hpc_laws h
  obtain ⟨-, b1, -⟩ := bld3_laws h
  obtain ⟨-, y1, -⟩ := byp_laws h
  have e1 := (burner_laws h).2.1
  have e2 := (hpt_laws h).2.1
  have e3 := (lpt_laws h).2.1
  have e4 := (core_laws h).2.1
  linarith

/-- **C66 (energy).** What leaves through both nozzles and the bleeds is, per unit time, the enthalpy of the air at
free-stream total conditions, that of the fuel and the heat added in the ducts, less the powers of the five machines; for
a gas whose enthalpy depends on pressure the inlet adds the difference between the enthalpies at its two pressures. -/
theorem C66_energy {okC : (ℕ → ℝ) → Prop}
    (hb : (combustorAccount p.burnt p.air okC).Holds (combustor p.burnt p.fuel m.isDesign true))
    (hC : okC (E.vec "fc.fs.composition")) (hf : InFlight E) :
    let g := p.air (E.vec "fc.fs.composition")
    E.num "core_nozz.Fl_O:stat:W" * E.num "core_nozz.Fl_O:tot:h" + E.num "byp_nozz.Fl_O:stat:W" * E.num "byp_nozz.Fl_O:tot:h"
        + E.num "bld25.sbv:stat:W" * E.num "bld25.sbv:tot:h"
        + E.num "hpc.cust:stat:W" * E.num "hpc.cust:tot:h" + E.num "byp_bld.bypBld:stat:W" * E.num "byp_bld.bypBld:tot:h"
      = E.num "fc.W" * E.num "fc.Fl_O:tot:h" + E.num "burner.Wfuel" * E.num "burner.mix_fuel.mix:h"
      - (E.num "fan.power" + E.num "lpc.power" + E.num "hpc.power" + E.num "hpt.power" + E.num "lpt.power") / 1.4148532
      + (E.num "duct2.Q_dot" + E.num "duct25.Q_dot" + E.num "duct45.Q_dot" + E.num "duct5.Q_dot" + E.num "duct17.Q_dot")
      + E.num "fc.W" * (g.h (E.num "fc.Fl_O:tot:T") (E.num "fc.Fl_O:tot:P" * E.num "inlet.ram_recovery")
          - g.h (E.num "fc.Fl_O:tot:T") (E.num "fc.Fl_O:tot:P")) := by
  have N := C66_network p m hb
  obtain ⟨g1, g2, g25, g3, g4, g5⟩ := C66_flowing h hf
  have gf := hf.fuel
  have hm := burner_mass h hb hC g4.ne' (by linarith)
  have j0 := join h 0 (a := ("fc", "Fl_O")) (b := ("inlet", "Fl_I")) rfl
  have vi : ∀ n, ((n3 p m).view E ⟨"inlet", inlet p.air m.isDesign true, [], []⟩).num n = E.num ("inlet" ++ "." ++ n)
      ∧ ((n3 p m).view E ⟨"inlet", inlet p.air m.isDesign true, [], []⟩).vec n = E.vec ("inlet" ++ "." ++ n) :=
    fun n => h.view_eq rfl (Or.inr rfl)
  have vb : ∀ n, ((n3 p m).view E ⟨"burner", combustor p.burnt p.fuel m.isDesign true, [], []⟩).num n
        = E.num ("burner" ++ "." ++ n)
      ∧ ((n3 p m).view E ⟨"burner", combustor p.burnt p.fuel m.isDesign true, [], []⟩).vec n
        = E.vec ("burner" ++ "." ++ n) :=
    fun n => h.view_eq rfl (Or.inr rfl)
  have v : ∀ (x : String) (G : Group) (pI : List Prom) (n : String), promoted pI n = none →
      ((n3 p m).view E ⟨x, G, pI, []⟩).num n = E.num (x ++ "." ++ n) :=
    fun x G pI n hn => (h.view_eq rfl (Or.inr hn)).1
  have key := Cycle.C57_energy N h.converged (by rw [show (n3 p m).links = flows from rfl]; decide +kernel) ?_ ?_ ?_
  · have e1 : (n3 p m).openOutlets (acc p okC) Link.carriesEnergy
        = [(⟨"bld25", bleedOut p.air ["sbv"] m.isDesign true, [], []⟩, "sbv"),
           (⟨"hpc", compressor p.air p.hpc ["bld_inlet", "bld_exit", "cust"] m.isDesign true, [.as "Nmech" "HP_Nmech"], []⟩, "cust"),
           (⟨"core_nozz", nozzle p.burnt .CV .Cv, [], []⟩, "Fl_O"),
           (⟨"byp_bld", bleedOut p.air ["bypBld"] m.isDesign true, [], []⟩, "bypBld"),
           (⟨"byp_nozz", nozzle p.air .CV .Cv, [], []⟩, "Fl_O")] := rfl
    have e2 : (n3 p m).openInlets (acc p okC) Link.carriesEnergy = [] := rfl
    rw [e1, e2, show (n3 p m).members = elements p m.isDesign from rfl] at key
    simp only [elements, List.map_cons, List.map_nil, List.sum_cons, List.sum_nil, acc, Env.H, startAccount, inletAccount,
      ductAccount, splitterAccount, bleedOutAccount, nozzleAccount, compressorAccount, turbineAccount, combustorAccount,
      (vi _).1, (vi _).2, (vb _).1, (vb _).2, String.reduceAppend] at key
    have i1 : E.num "inlet.Fl_I:stat:W" = E.num "fc.W" := j0.W.trans (fc_laws h).2.2.2.1
    have i3 : E.num "inlet.Fl_I:tot:T" = E.num "fc.Fl_O:tot:T" := j0.T
    have i4 : E.num "inlet.Fl_I:tot:P" = E.num "fc.Fl_O:tot:P" := j0.P
    have i5 : E.vec "inlet.Fl_I:tot:composition" = E.vec "fc.fs.composition" := j0.C.trans (fc_laws h).2.2.2.2
    have w1 := v "hpc" (compressor p.air p.hpc ["bld_inlet", "bld_exit", "cust"] m.isDesign true) [.as "Nmech" "HP_Nmech"]
    have w2 := v "fan" (compressor p.air p.fan [] m.isDesign true) [.as "Nmech" "Fan_Nmech"]
    have w3 := v "lpc" (compressor p.air p.lpc [] m.isDesign true) [.as "Nmech" "LP_Nmech"]
    have w4 := v "hpt" (turbine p.burnt (fun _ => p.air) p.hpt p.hptBleed ["bld_inlet", "bld_exit"] m.isDesign true)
      [.as "Nmech" "HP_Nmech"]
    have w5 := v "lpt" (turbine p.burnt (fun _ => p.air) p.lpt p.lptBleed ["bld_inlet", "bld_exit"] m.isDesign true)
      [.as "Nmech" "LP_Nmech"]
    rw [w1 "cust:stat:W" rfl, w1 "cust:tot:h" rfl, w1 "power" rfl, w2 "power" rfl, w3 "power" rfl, w4 "power" rfl,
      w5 "power" rfl] at key
    simp only [v _ _ [] _ rfl, i1, i3, i4, i5, String.reduceAppend] at key
    simp only []
    linear_combination key
  · have d2 : E.num "duct2.Fl_I:stat:W" = _ := (join h 3 (a := ("splitter", "Fl_O1")) (b := ("duct2", "Fl_I")) rfl).W
    have d25 : E.num "duct25.Fl_I:stat:W" = E.num "bld25.Fl_O:stat:W" :=
      (join h 6 (a := ("bld25", "Fl_O")) (b := ("duct25", "Fl_I")) rfl).W
    have d45 : E.num "duct45.Fl_I:stat:W" = E.num "hpt.Fl_O:stat:W" :=
      (join h 11 (a := ("hpt", "Fl_O")) (b := ("duct45", "Fl_I")) rfl).W
    have d5 : E.num "duct5.Fl_I:stat:W" = E.num "lpt.Fl_O:stat:W" :=
      (join h 13 (a := ("lpt", "Fl_O")) (b := ("duct5", "Fl_I")) rfl).W
    have d17 := (byp_laws h).2.2.2.2.2
    have f := C66_flows h (by linarith [hf.bypass])
    have o1 : 0 < E.num "hpt.Fl_O:stat:W" := by
      rw [f.2.2.2.2.2.1, hm]
      have := mul_nonneg (add_nonneg hf.inlet3 hf.exit3) g3.le
      linarith
    have o2 : 0 < E.num "lpt.Fl_O:stat:W" := by
      rw [← (core_laws h).2.1, f.2.2.2.2.2.2.1]
      have := mul_nonneg (add_nonneg hf.inlet hf.exit) g25.le
      linarith
    rw [show (n3 p m).members = elements p m.isDesign from rfl]
    simp only [elements, List.forall_mem_cons]
    refine ⟨trivial, trivial, trivial, trivial, ?_, trivial, trivial, ?_, trivial, trivial, ⟨?_, ?_, ?_⟩, ?_, ?_, ?_, ?_,
      trivial, trivial, ?_, trivial, by simp⟩
    · simp only [ductAccount, acc, v _ _ [] _ rfl]; exact d2.trans_ne g1.ne'
    · simp only [ductAccount, acc, v _ _ [] _ rfl]; exact d25.trans_ne g25.ne'
    · rw [(vb _).2]; exact (burner_laws h).2.2 ▸ hC
    · rw [(vb _).1]; exact g4.ne'
    · rw [(vb _).1, (vb _).1]; exact (add_pos_of_pos_of_nonneg g4 gf).ne'
    · simp only [turbineAccount, acc]; rw [v _ _ _ _ rfl]; exact o1.ne'
    · simp only [ductAccount, acc, v _ _ [] _ rfl]; exact d45.trans_ne o1.ne'
    · simp only [turbineAccount, acc]; rw [v _ _ _ _ rfl]; exact o2.ne'
    · simp only [ductAccount, acc, v _ _ [] _ rfl]; exact d5.trans_ne o2.ne'
    · simp only [ductAccount, acc, v _ _ [] _ rfl]; exact d17.trans_ne g5.ne'
  · intro l hl _
    have hl : l ∈ flows := hl
    simp only [flows, List.mem_cons, List.not_mem_nil, or_false] at hl
    rcases hl with rfl | rfl | rfl | rfl | rfl | rfl | rfl | rfl | rfl | rfl | rfl | rfl | rfl | rfl | rfl | rfl | rfl | rfl | rfl | rfl | rfl | rfl <;> rfl
  · have e0 : (n3 p m).openInlets (acc p okC) Link.tot = [] := rfl
    rw [e0]; intro q hq; cases hq

/-- **C66 (jet energy).** Without shaft losses, power extraction, heat in the ducts and loss of ram pressure the energy
of air and fuel leaves with the jets and the bleeds, except for what the gearbox makes of the fan's power. -/
theorem C66_jet {okC : (ℕ → ℝ) → Prop}
    (hb : (combustorAccount p.burnt p.air okC).Holds (combustor p.burnt p.fuel m.isDesign true))
    (hC : okC (E.vec "fc.fs.composition")) (hf : InFlight E)
    (hF : 0 < E.num "Fan_Nmech") (hL : 0 < E.num "LP_Nmech") (hH : 0 < E.num "HP_Nmech")
    (rF : E.num ("balance.rhs:" ++ fanBal m) = 0) (rL : E.num ("balance.rhs:" ++ lpBal m) = 0)
    (rH : E.num ("balance.rhs:" ++ hpBal m) = 0) (hl : ∀ x ∈ ["fan_shaft", "lp_shaft", "hp_shaft"],
      E.num (x ++ "." ++ "fracLoss") = 0 ∧ E.num (x ++ "." ++ "HPX") = 0) (hrec : E.num "inlet.ram_recovery" = 1)
    (hq : ∀ x ∈ ["duct2", "duct25", "duct45", "duct5", "duct17"], E.num (x ++ "." ++ "Q_dot") = 0) :
    E.num "core_nozz.Fl_O:stat:W" * E.num "core_nozz.Fl_O:tot:h" + E.num "byp_nozz.Fl_O:stat:W" * E.num "byp_nozz.Fl_O:tot:h"
        + E.num "bld25.sbv:stat:W" * E.num "bld25.sbv:tot:h"
        + E.num "hpc.cust:stat:W" * E.num "hpc.cust:tot:h" + E.num "byp_bld.bypBld:stat:W" * E.num "byp_bld.bypBld:tot:h"
      = E.num "fc.W" * E.num "fc.Fl_O:tot:h" + E.num "burner.Wfuel" * E.num "burner.mix_fuel.mix:h"
      - (1 - E.num "gearbox.eff") * E.num "fan.power" / 1.4148532 := by
  have e := C66_energy h hb hC hf
  have f0 : E.num "fan_shaft.fracLoss" = 0 ∧ E.num "fan_shaft.HPX" = 0 := hl "fan_shaft" (by simp)
  have l0 : E.num "lp_shaft.fracLoss" = 0 ∧ E.num "lp_shaft.HPX" = 0 := hl "lp_shaft" (by simp)
  have h0 : E.num "hp_shaft.fracLoss" = 0 ∧ E.num "hp_shaft.HPX" = 0 := hl "hp_shaft" (by simp)
  have low := C66_low_spool h hF hL hH rF rL rH f0.1 l0.1 f0.2 l0.2
  obtain ⟨-, -, -, -, s⟩ := C66_shafts h hF hL hH rF rL rH
  rw [h0.1, h0.2, sub_zero, one_mul] at s
  have hk : (5252.11 * (2 * Real.pi / 60 / 550) : ℝ) ≠ 0 := by have := Real.pi_pos; positivity
  have s := (mul_eq_zero.mp s).resolve_left hk
  have c0 : ∀ x : ℝ, max x 0 + min x 0 = x := fun x => by rw [max_add_min, add_zero]
  have hp : E.num "fan.power" + E.num "lpc.power" + E.num "hpc.power" + E.num "hpt.power" + E.num "lpt.power"
      = (1 - E.num "gearbox.eff") * E.num "fan.power" := by
    have a3 := c0 (E.num "hpc.power")
    have a4 := c0 (E.num "hpt.power")
    rw [low]
    linarith
  have q2 : E.num "duct2.Q_dot" = 0 := hq "duct2" (by simp)
  have q25 : E.num "duct25.Q_dot" = 0 := hq "duct25" (by simp)
  have q45 : E.num "duct45.Q_dot" = 0 := hq "duct45" (by simp)
  have q5 : E.num "duct5.Q_dot" = 0 := hq "duct5" (by simp)
  have q17 : E.num "duct17.Q_dot" = 0 := hq "duct17" (by simp)
  rw [hp, hrec, q2, q25, q45, q5, q17] at e
  simp only [mul_one, sub_self, mul_zero, add_zero] at e
  exact e

/-- **C66, refuted (energy).** With a gearbox that has losses, more energy leaves than air and fuel bring. -/
theorem C66_refuted_energy {okC : (ℕ → ℝ) → Prop}
    (hb : (combustorAccount p.burnt p.air okC).Holds (combustor p.burnt p.fuel m.isDesign true))
    (hC : okC (E.vec "fc.fs.composition")) (hf : InFlight E)
    (hF : 0 < E.num "Fan_Nmech") (hL : 0 < E.num "LP_Nmech") (hH : 0 < E.num "HP_Nmech")
    (rF : E.num ("balance.rhs:" ++ fanBal m) = 0) (rL : E.num ("balance.rhs:" ++ lpBal m) = 0)
    (rH : E.num ("balance.rhs:" ++ hpBal m) = 0) (hl : ∀ x ∈ ["fan_shaft", "lp_shaft", "hp_shaft"],
      E.num (x ++ "." ++ "fracLoss") = 0 ∧ E.num (x ++ "." ++ "HPX") = 0) (hrec : E.num "inlet.ram_recovery" = 1)
    (hq : ∀ x ∈ ["duct2", "duct25", "duct45", "duct5", "duct17"], E.num (x ++ "." ++ "Q_dot") = 0)
    (hp : E.num "fan.power" < 0) (he : E.num "gearbox.eff" < 1) :
    E.num "fc.W" * E.num "fc.Fl_O:tot:h" + E.num "burner.Wfuel" * E.num "burner.mix_fuel.mix:h"
      < E.num "core_nozz.Fl_O:stat:W" * E.num "core_nozz.Fl_O:tot:h" + E.num "byp_nozz.Fl_O:stat:W" * E.num "byp_nozz.Fl_O:tot:h"
        + E.num "bld25.sbv:stat:W" * E.num "bld25.sbv:tot:h"
        + E.num "hpc.cust:stat:W" * E.num "hpc.cust:tot:h" + E.num "byp_bld.bypBld:stat:W" * E.num "byp_bld.bypBld:tot:h" := by
  have e := C66_jet h hb hC hf hF hL hH rF rL rH hl hrec hq
  have k : (1 - E.num "gearbox.eff") * E.num "fan.power" / 1.4148532 < 0 :=
    div_neg_of_neg_of_pos (mul_neg_of_pos_of_neg (by linarith) hp) (by norm_num)
  linarith

end

namespace N3
/-- The burner, as it sees its inputs. -/
theorem burner_seen {p : N3Parts} {m : N3Mode} {E : Env} (h : (n3 p m).Solved E) :
    ∃ V, (combustor p.burnt p.fuel m.isDesign true).Converged V
      ∧ V.num "Fl_I:stat:W" = E.num "burner.Fl_I:stat:W" ∧ V.vec "Fl_I:tot:composition" = E.vec "fc.fs.composition"
      ∧ V.num "Fl_I:FAR" = E.num "balance.FAR" ∧ V.num "Wfuel" = E.num "burner.Wfuel" := by
  obtain ⟨V, hV, hi, -, x3, -, y2⟩ := h.burner_seen (x := "burner") (List.mem_of_getElem? (i := 10) rfl)
  have e : E.num "balance.FAR" = E.num "burner.Fl_I:FAR" :=
    mconn h (by cases m <;> simp [modeConns, designConns, offConns])
  exact ⟨V, hV, (hi "stat:W" (by decide)).1, (hi "tot:composition" (by decide)).2.trans (burner_laws h).2.2,
    x3.trans e.symm, y2⟩
end N3

/-- **C66 (tabular fuel).** With tabular thermodynamics: fuel is the fuel-air ratio times the air that reaches the
burner, and all mass is accounted for. -/
theorem C66_tab {p : N3Parts} {m : N3Mode} {E : Env} {n : ℕ} {idx : Fin n} (hp : p.fuel = .tab n idx)
    (h : (n3 p m).Solved E) (hC : 1 + ∑ i : Fin n, E.vec "fc.fs.composition" i ≠ 0) (hf : InFlight E) :
    E.num "burner.Wfuel" = airMass (E.num "burner.Fl_I:stat:W") (fun k : Fin n => E.vec "fc.fs.composition" k)
        * E.num "balance.FAR"
    ∧ E.num "core_nozz.Fl_O:stat:W" + E.num "byp_nozz.Fl_O:stat:W" + E.num "bld25.sbv:stat:W" + E.num "hpc.cust:stat:W"
        + E.num "byp_bld.bypBld:stat:W"
      = E.num "fc.W" + E.num "burner.Wfuel" := by
  obtain ⟨V, hV, x1, x2, x3, y2⟩ := burner_seen h
  have g := (C66_flowing h hf).2.2.2.2.1
  have hm := (C66_mass h (by rw [hp]; exact C57_combustor_tab p.burnt p.air m.isDesign true n idx) hC hf)
  refine ⟨?_, hm⟩
  rw [hp] at hV
  obtain ⟨k, -⟩ := C48_tab p.burnt m.isDesign true V n idx (by rw [x2]; exact hC) (by rw [x1]; exact g.ne')
    (by rw [x1, y2]; exact (add_pos_of_pos_of_nonneg g hf.fuel).ne') hV
  rw [x1, x2, x3, y2] at k
  exact k

/-- **C66 (chemical equilibrium fuel).** With a reactant as fuel: fuel is the fuel-air ratio times the flow that reaches
the burner. -/
theorem C66_cea {p : N3Parts} {m : N3Mode} {E : Env}
    (data : ThermoData) (infl : PyDict ℝ) (hin : infl.keys.Nodup) (fuel : String) (f : PyDict ℝ)
    (hf : data.reactants.get? fuel = some f) (hfk : f.keys.Nodup) (hfm : formulaMass f data.wtOf ≠ 0)
    (S : ReactantAdd) (hS : reactantSetup data (some infl) ["mix"] [fuel] = .ok S)
    (hwt : ∀ e ∈ S.mixed.elements, data.wtOf e ≠ 0) (hp : p.fuel = .cea S)
    (h : (n3 p m).Solved E)
    (hC : totalMass S.inflow.elements data.wtOf (fun k => E.vec "fc.fs.composition" k) ≠ 0) (hF : InFlight E) :
    E.num "burner.Wfuel" = E.num "burner.Fl_I:stat:W" * E.num "balance.FAR"
    ∧ E.num "core_nozz.Fl_O:stat:W" + E.num "byp_nozz.Fl_O:stat:W" + E.num "bld25.sbv:stat:W" + E.num "hpc.cust:stat:W"
        + E.num "byp_bld.bypBld:stat:W"
      = E.num "fc.W" + E.num "burner.Wfuel" := by
  obtain ⟨V, hV, x1, x2, x3, y2⟩ := burner_seen h
  have g := (C66_flowing h hF).2.2.2.2.1
  have hm := (C66_mass h (by
    rw [hp]; exact C57_combustor_cea p.burnt p.air m.isDesign true data infl hin fuel f hf hfk hfm S hS hwt) hC hF)
  refine ⟨?_, hm⟩
  rw [hp] at hV
  obtain ⟨k, -⟩ := C48_cea p.burnt m.isDesign true V data infl hin fuel f hf hfk hfm S hS hwt (by rw [x2]; exact hC)
    (by rw [x1, y2]; exact (add_pos_of_pos_of_nonneg g hF.fuel).ne') hV
  rw [x1, x3, y2] at k
  exact k

end PyCycle.OM
