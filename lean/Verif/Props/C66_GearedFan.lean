import Verif.Proofs.GearedFanNames
import Verif.Proofs.EngineLaws3
import Verif.Props.C25_Gearbox
import Verif.Props.C64_Cooling

/-! # C66: the geared turbofan

What a solved `N3` of `example_cycles/N+3ref/N3ref.py` is, as a design point, off design, and off design with the
cooling flows of its high-pressure turbine sized, for any thermodynamics, any maps and any way of adding fuel and air. -/

namespace PyCycle.OM

open N3

/-- **C66 (interface).** In every mode the engine is accepted: every connection joins an output to an input, none is
connected twice, every promotion finds a variable. -/
theorem C66_interface (p : N3Parts) (m : N3Mode) : (n3 p m).group.wiring.Accepted := accepted p m

/-- **C66 (solved states).** Every converged engine can be completed, by transferring outputs to inputs, to a solved one
with the same outputs: the theorems below are about all converged engines. -/
theorem C66_complete (p : N3Parts) (m : N3Mode) (E : Env) (hc : (n3 p m).group.Converged E) :
    ∃ E', (n3 p m).Solved E' ∧ ∀ n ∈ (n3 p m).group.wiring.outs, E'.num n = E.num n ∧ E'.vec n = E.vec n := by
  refine Cycle.complete (accepted p m).1 ?_ hc
  simp only [n3, List.forall_mem_append, List.forall_mem_cons]
  refine ⟨⟨(shaftSub_local 2 _).rename "fan_shaft", gearbox_local _ _, (shaftSub_local 3 _).rename "lp_shaft",
    (shaftSub_local 2 _).rename "hp_shaft", performanceSub_local _ _, extRatio_local, balances_local _ _, by simp⟩, ?_⟩
  cases m
  · simp only [modeSubs, List.forall_mem_cons]
    exact ⟨coreSize_local, etaBalance_local, fanDia_local, oprCalc_local, by simp⟩
  · simp [modeSubs]
  · simp only [modeSubs, List.forall_mem_cons]
    exact ⟨Group.asSub_local _ _ _ _, chargeable_local, powerUnit_local _, by simp⟩

section
variable {p : N3Parts} {m : N3Mode} {E : Env} (h : (n3 p m).Solved E)
include h

namespace N3

theorem join (i : ℕ) {a b : String × String} {s : Bool} (hl : flows[i]? = some { src := a, tgt := b, stat := s }) :
    E.Joined a b := h.joined (List.mem_of_getElem? hl)

theorem conn {a b : String} (hx : (a, b) ∈ plainConns) : E.num a = E.num b :=
  (h.conn (List.mem_append_left _ hx)).1

theorem mconn {a b : String} (hx : (a, b) ∈ modeConns m) : E.num a = E.num b :=
  (h.conn (List.mem_append_right _ hx)).1

theorem fc_laws : Atm.ambient (E.num "fc.alt") (E.num "fc.dTs") .Ps = some (E.num "fc.Fl_O:stat:P")
    ∧ Atm.ambient (E.num "fc.alt") (E.num "fc.dTs") .Ts = some (E.num "fc.Fl_O:stat:T")
    ∧ E.num "fc.Fl_O:stat:MN" = E.num "fc.MN" ∧ E.num "fc.Fl_O:stat:W" = E.num "fc.W"
    ∧ E.vec "fc.Fl_O:tot:composition" = E.vec "fc.fs.composition" :=
  h.flight_laws (x := "fc") (gas := p.air) (List.mem_of_getElem? (i := 0) rfl)

theorem inlet_laws : E.num "inlet.Fl_O:tot:P" = E.num "fc.Fl_O:tot:P" * E.num "inlet.ram_recovery"
    ∧ E.num "inlet.F_ram" = E.num "fc.W" * E.num "fc.Fl_O:stat:V" / 32.174
    ∧ E.num "inlet.Fl_O:stat:W" = E.num "fc.W"
    ∧ E.vec "inlet.Fl_O:tot:composition" = E.vec "fc.fs.composition" := by
  obtain ⟨h1, h6, h5, h3⟩ := h.inlet_laws (x := "inlet") (gas := p.air) (d := m.isDesign) (List.mem_of_getElem? (i := 1) rfl)
  have j := join h 0 (a := ("fc", "Fl_O")) (b := ("inlet", "Fl_I")) rfl
  obtain ⟨-, -, -, f1, f2⟩ := fc_laws h
  have v : E.num "inlet.Fl_I:stat:V" = E.num "fc.Fl_O:stat:V" :=
    (h.link (l := { src := ("fc", "Fl_O"), tgt := ("inlet", "Fl_I") }) (v := "stat:V")
      (List.mem_of_getElem? (i := 0) rfl) (by decide) (fun _ => rfl) rfl rfl).1.symm
  have w : E.num "inlet.Fl_I:stat:W" = E.num "fc.W" := j.W.trans f1
  have h6 : E.num "inlet.F_ram" = E.num "inlet.Fl_I:stat:W" * E.num "inlet.Fl_I:stat:V" / 32.174 := h6
  rw [w, v] at h6
  exact ⟨h1.trans (congrArg (· * _) j.P), h6, h5.trans w, (h3.trans j.C).trans f2⟩

theorem fan_laws : E.num "fan.Fl_O:tot:P" = E.num "fan.PR" * E.num "inlet.Fl_O:tot:P"
    ∧ E.num "fan.Fl_O:stat:W" = E.num "fc.W"
    ∧ E.vec "fan.Fl_O:tot:composition" = E.vec "fc.fs.composition"
    ∧ (E.num "Fan_Nmech" ≠ 0 → E.num "fan.trq" * E.num "Fan_Nmech" = 5252.11 * E.num "fan.power")
    ∧ E.num "fan.eff_poly" = E.num "fan.Fl_I:tot:R" * Real.log (E.num "fan.PR")
      / (E.num "fan.Fl_I:tot:R" * Real.log (E.num "fan.PR") + E.num "fan.Fl_O:tot:S" - E.num "fan.Fl_I:tot:S") := by
  have L := h.compressor_laws (x := "fan") (mc := p.fan) (gas := p.air) (d := m.isDesign) (N := "Fan_Nmech") Turbojet.noComp
    (List.mem_of_getElem? (i := 2) rfl)
  have j := join h 1 (a := ("inlet", "Fl_O")) (b := ("fan", "Fl_I")) rfl
  obtain ⟨-, -, f1, f2⟩ := inlet_laws h
  have l2 := L.mass
  rw [List.map_nil, List.sum_nil, add_zero] at l2
  exact ⟨L.pressure.trans (congrArg (_ * ·) j.P), (l2.trans j.W).trans f1, (L.composition.trans j.C).trans f2, L.torque,
    L.polytropic⟩

theorem splitter_laws : E.num "splitter.Fl_O1:tot:P" = E.num "fan.Fl_O:tot:P"
    ∧ E.num "splitter.Fl_O2:tot:P" = E.num "fan.Fl_O:tot:P"
    ∧ E.num "splitter.Fl_O1:stat:W" + E.num "splitter.Fl_O2:stat:W" = E.num "fc.W"
    ∧ (E.num "splitter.BPR" ≠ -1 → E.num "splitter.Fl_O2:stat:W" = E.num "splitter.BPR" * E.num "splitter.Fl_O1:stat:W")
    ∧ E.vec "splitter.Fl_O1:tot:composition" = E.vec "fc.fs.composition"
    ∧ E.vec "splitter.Fl_O2:tot:composition" = E.vec "fc.fs.composition" := by
  obtain ⟨h1, h2, h3, h4, h5, h6⟩ := h.splitter_laws (x := "splitter") (gas := p.air) (d := m.isDesign)
    (List.mem_of_getElem? (i := 3) rfl) (join h 2 (a := ("fan", "Fl_O")) rfl)
  obtain ⟨-, f1, f2, -⟩ := fan_laws h
  exact ⟨h1, h2, h3.trans f1, h4, h5.trans f2, h6.trans f2⟩

theorem lpc_laws : E.num "lpc.Fl_O:tot:P" = E.num "lpc.PR" * (E.num "fan.Fl_O:tot:P" * (1 - E.num "duct2.dPqP"))
    ∧ E.num "lpc.Fl_O:stat:W" = E.num "splitter.Fl_O1:stat:W"
    ∧ E.vec "lpc.Fl_O:tot:composition" = E.vec "fc.fs.composition"
    ∧ (E.num "LP_Nmech" ≠ 0 → E.num "lpc.trq" * E.num "LP_Nmech" = 5252.11 * E.num "lpc.power")
    ∧ E.num "lpc.eff_poly" = E.num "lpc.Fl_I:tot:R" * Real.log (E.num "lpc.PR")
      / (E.num "lpc.Fl_I:tot:R" * Real.log (E.num "lpc.PR") + E.num "lpc.Fl_O:tot:S" - E.num "lpc.Fl_I:tot:S") := by
  obtain ⟨d1, d2, d3, -⟩ := h.duct_map_laws (x := "duct2") (gas := p.air) (d := m.isDesign) (e := 2)
    (List.mem_of_getElem? (i := 4) rfl) (join h 3 (a := ("splitter", "Fl_O1")) rfl)
  have L := h.compressor_laws (x := "lpc") (mc := p.lpc) (gas := p.air) (d := m.isDesign) (N := "LP_Nmech") Turbojet.noComp
    (List.mem_of_getElem? (i := 5) rfl)
  have j := join h 4 (a := ("duct2", "Fl_O")) (b := ("lpc", "Fl_I")) rfl
  obtain ⟨s1, -, -, -, s5, -⟩ := splitter_laws h
  have l2 := L.mass
  rw [List.map_nil, List.sum_nil, add_zero] at l2
  exact ⟨L.pressure.trans (congrArg (_ * ·) ((j.P.trans d1).trans (congrArg (· * _) s1))), (l2.trans j.W).trans d2,
    ((L.composition.trans j.C).trans d3).trans s5, L.torque, L.polytropic⟩

theorem bld25_laws : E.num "bld25.Fl_O:tot:P" = E.num "lpc.Fl_O:tot:P"
    ∧ E.num "bld25.Fl_O:stat:W" + E.num "bld25.sbv:stat:W" = E.num "splitter.Fl_O1:stat:W"
    ∧ E.num "bld25.sbv:stat:W" = E.num "bld25.sbv:frac_W" * E.num "splitter.Fl_O1:stat:W"
    ∧ E.vec "bld25.Fl_O:tot:composition" = E.vec "fc.fs.composition" := by
  obtain ⟨h1, h2, h3, h4⟩ := h.bleedOut_laws (x := "bld25") (gas := p.air) (d := m.isDesign) bld25Names
    (List.mem_of_getElem? (i := 6) rfl) (join h 5 (a := ("lpc", "Fl_O")) rfl)
  simp only [List.map_cons, List.map_nil, List.sum_cons, List.sum_nil, add_zero] at h2
  obtain ⟨-, w, c, -⟩ := lpc_laws h
  exact ⟨h1, h2.trans w, (h3 "sbv" (by simp)).trans (congrArg (_ * ·) w), h4.trans c⟩

theorem hpc_laws : E.num "hpc.Fl_O:tot:P" = E.num "hpc.PR" * (E.num "lpc.Fl_O:tot:P" * (1 - E.num "duct25.dPqP"))
    ∧ E.num "duct25.Fl_O:stat:W" = E.num "bld25.Fl_O:stat:W"
    ∧ E.num "hpc.Fl_O:stat:W" + (E.num "hpc.bld_inlet:stat:W" + (E.num "hpc.bld_exit:stat:W" + E.num "hpc.cust:stat:W"))
        = E.num "bld25.Fl_O:stat:W"
    ∧ E.num "hpc.bld_inlet:stat:W" = E.num "hpc.bld_inlet:frac_W" * E.num "bld25.Fl_O:stat:W"
    ∧ E.num "hpc.bld_exit:stat:W" = E.num "hpc.bld_exit:frac_W" * E.num "bld25.Fl_O:stat:W"
    ∧ E.num "hpc.cust:stat:W" = E.num "hpc.cust:frac_W" * E.num "bld25.Fl_O:stat:W"
    ∧ E.vec "hpc.Fl_O:tot:composition" = E.vec "fc.fs.composition"
    ∧ (E.num "HP_Nmech" ≠ 0 → E.num "hpc.trq" * E.num "HP_Nmech" = 5252.11 * E.num "hpc.power")
    ∧ E.num "hpc.eff_poly" = E.num "hpc.Fl_I:tot:R" * Real.log (E.num "hpc.PR")
      / (E.num "hpc.Fl_I:tot:R" * Real.log (E.num "hpc.PR") + E.num "hpc.Fl_O:tot:S" - E.num "hpc.Fl_I:tot:S") := by
  obtain ⟨d1, d2, d3, -⟩ := h.duct_map_laws (x := "duct25") (gas := p.air) (d := m.isDesign) (e := 2)
    (List.mem_of_getElem? (i := 7) rfl) (join h 6 (a := ("bld25", "Fl_O")) rfl)
  have L := h.compressor_laws (x := "hpc") (mc := p.hpc) (gas := p.air) (d := m.isDesign) (N := "HP_Nmech") hpcNames
    (List.mem_of_getElem? (i := 8) rfl)
  have j := join h 7 (a := ("duct25", "Fl_O")) (b := ("hpc", "Fl_I")) rfl
  obtain ⟨s1, -, -, s4⟩ := bld25_laws h
  have w : E.num "hpc.Fl_I:stat:W" = E.num "bld25.Fl_O:stat:W" := j.W.trans d2
  have l2 := L.mass
  simp only [List.map_cons, List.map_nil, List.sum_cons, List.sum_nil, add_zero] at l2
  exact ⟨L.pressure.trans (congrArg (_ * ·) ((j.P.trans d1).trans (congrArg (· * _) s1))), d2, l2.trans w,
    (L.bleeds "bld_inlet" (by simp)).flow.trans (congrArg (_ * ·) w),
    (L.bleeds "bld_exit" (by simp)).flow.trans (congrArg (_ * ·) w),
    (L.bleeds "cust" (by simp)).flow.trans (congrArg (_ * ·) w),
    ((L.composition.trans j.C).trans d3).trans s4, L.torque, L.polytropic⟩

theorem bld3_laws : E.num "bld3.Fl_O:tot:P" = E.num "hpc.Fl_O:tot:P"
    ∧ E.num "bld3.Fl_O:stat:W" + (E.num "bld3.bld_inlet:stat:W" + E.num "bld3.bld_exit:stat:W") = E.num "hpc.Fl_O:stat:W"
    ∧ E.num "bld3.bld_inlet:stat:W" = E.num "bld3.bld_inlet:frac_W" * E.num "hpc.Fl_O:stat:W"
    ∧ E.num "bld3.bld_exit:stat:W" = E.num "bld3.bld_exit:frac_W" * E.num "hpc.Fl_O:stat:W"
    ∧ E.vec "bld3.Fl_O:tot:composition" = E.vec "fc.fs.composition" := by
  obtain ⟨h1, h2, h3, h4⟩ := h.bleedOut_laws (x := "bld3") (gas := p.air) (d := m.isDesign) bld3Names
    (List.mem_of_getElem? (i := 9) rfl) (join h 8 (a := ("hpc", "Fl_O")) rfl)
  simp only [List.map_cons, List.map_nil, List.sum_cons, List.sum_nil, add_zero] at h2
  exact ⟨h1, h2, h3 "bld_inlet" (by simp), h3 "bld_exit" (by simp), h4.trans (hpc_laws h).2.2.2.2.2.2.1⟩

theorem burner_laws : E.num "burner.Fl_O:tot:P" = E.num "hpc.Fl_O:tot:P" * (1 - E.num "burner.dPqP")
    ∧ E.num "burner.Fl_I:stat:W" = E.num "bld3.Fl_O:stat:W"
    ∧ E.vec "burner.Fl_I:tot:composition" = E.vec "fc.fs.composition" := by
  obtain ⟨h1, h2, h3⟩ := h.burner_laws (x := "burner") (gas := p.burnt) (a := p.fuel) (d := m.isDesign)
    (List.mem_of_getElem? (i := 10) rfl) (join h 9 (a := ("bld3", "Fl_O")) rfl)
  obtain ⟨b1, -, -, -, b5⟩ := bld3_laws h
  exact ⟨h1.trans (congrArg (· * _) b1), h2, h3.trans b5⟩

theorem hpt_laws : E.num "hpt.Fl_O:tot:P" = E.num "burner.Fl_O:tot:P" / E.num "hpt.PR"
    ∧ E.num "hpt.Fl_O:stat:W"
      = E.num "burner.Fl_O:stat:W" + (E.num "bld3.bld_inlet:stat:W" + E.num "bld3.bld_exit:stat:W")
    ∧ (E.num "HP_Nmech" ≠ 0 → E.num "hpt.trq" * E.num "HP_Nmech" = 5252.11 * E.num "hpt.power") := by
  obtain ⟨-, L⟩ := h.turbine_laws (x := "hpt") (mt := p.hpt) (gas := p.burnt) (gb := fun _ => p.air) (ba := p.hptBleed)
    (d := m.isDesign) (N := "HP_Nmech") turbNames (List.mem_of_getElem? (i := 11) rfl)
  have j := join h 10 (a := ("burner", "Fl_O")) (b := ("hpt", "Fl_I")) rfl
  have j3 := join h 20 (a := ("bld3", "bld_inlet")) (b := ("hpt", "bld_inlet")) (s := false) rfl
  have j4 := join h 21 (a := ("bld3", "bld_exit")) (b := ("hpt", "bld_exit")) (s := false) rfl
  have l2 := L.mass
  simp only [List.map_cons, List.map_nil, List.sum_cons, List.sum_nil, add_zero] at l2
  exact ⟨L.pressure.trans (congrArg (· / _) j.P), l2.trans (congrArg₂ (· + ·) j.W (congrArg₂ (· + ·) j3.W j4.W)), L.torque⟩

theorem lpt_laws : E.num "lpt.Fl_O:tot:P" = E.num "hpt.Fl_O:tot:P" * (1 - E.num "duct45.dPqP") / E.num "lpt.PR"
    ∧ E.num "lpt.Fl_O:stat:W"
      = E.num "hpt.Fl_O:stat:W" + (E.num "hpc.bld_inlet:stat:W" + E.num "hpc.bld_exit:stat:W")
    ∧ (E.num "LP_Nmech" ≠ 0 → E.num "lpt.trq" * E.num "LP_Nmech" = 5252.11 * E.num "lpt.power") := by
  obtain ⟨d1, d2, -⟩ := h.duct_map_laws (x := "duct45") (gas := p.burnt) (d := m.isDesign) (e := 2)
    (List.mem_of_getElem? (i := 12) rfl) (join h 11 (a := ("hpt", "Fl_O")) rfl)
  obtain ⟨-, L⟩ := h.turbine_laws (x := "lpt") (mt := p.lpt) (gas := p.burnt) (gb := fun _ => p.air) (ba := p.lptBleed)
    (d := m.isDesign) (N := "LP_Nmech") turbNames (List.mem_of_getElem? (i := 13) rfl)
  have j := join h 12 (a := ("duct45", "Fl_O")) (b := ("lpt", "Fl_I")) rfl
  have j1 := join h 18 (a := ("hpc", "bld_inlet")) (b := ("lpt", "bld_inlet")) (s := false) rfl
  have j2 := join h 19 (a := ("hpc", "bld_exit")) (b := ("lpt", "bld_exit")) (s := false) rfl
  have l2 := L.mass
  simp only [List.map_cons, List.map_nil, List.sum_cons, List.sum_nil, add_zero] at l2
  exact ⟨L.pressure.trans (congrArg (· / _) (j.P.trans d1)),
    l2.trans (congrArg₂ (· + ·) (j.W.trans d2) (congrArg₂ (· + ·) j1.W j2.W)), L.torque⟩

theorem core_laws : E.num "core_nozz.Fl_O:tot:P"
      = E.num "lpt.Fl_O:tot:P" * (1 - E.num "duct5.dPqP") * (1 - E.num "core_nozz.dPqP")
    ∧ E.num "core_nozz.Fl_O:stat:W" = E.num "lpt.Fl_O:stat:W"
    ∧ E.num "core_nozz.PR" * E.num "fc.Fl_O:stat:P" = E.num "core_nozz.Fl_O:tot:P"
    ∧ E.num "core_nozz.Fg" = E.num "core_nozz.Fl_O:stat:W" * E.num "core_nozz.Fl_O:stat:V" / 32.174
          * (E.num "core_nozz.Cv" * E.num "core_nozz.perf_calcs.Cang" * E.num "core_nozz.perf_calcs.CmixCorr")
        + (E.num "core_nozz.Fl_O:stat:P" - E.num "fc.Fl_O:stat:P") * E.num "core_nozz.Fl_O:stat:area" := by
  obtain ⟨d1, d2, -⟩ := h.duct_map_laws (x := "duct5") (gas := p.burnt) (d := m.isDesign) (e := 2)
    (List.mem_of_getElem? (i := 14) rfl) (join h 13 (a := ("lpt", "Fl_O")) rfl)
  obtain ⟨n1, n2, n3, n4⟩ := h.nozzle_laws (x := "core_nozz") (gas := p.burnt) (k := .CV)
    (List.mem_of_getElem? (i := 15) rfl) (join h 14 (a := ("duct5", "Fl_O")) rfl)
  have e : E.num "fc.Fl_O:stat:P" = E.num "core_nozz.Ps_exhaust" := conn h (by simp [plainConns])
  rw [e]
  exact ⟨n1.trans (congrArg (· * _) d1), n2.trans d2, n3, n4⟩

theorem byp_laws : E.num "byp_nozz.Fl_O:tot:P"
      = E.num "fan.Fl_O:tot:P" * (1 - E.num "duct17.dPqP") * (1 - E.num "byp_nozz.dPqP")
    ∧ E.num "byp_nozz.Fl_O:stat:W" + E.num "byp_bld.bypBld:stat:W" = E.num "splitter.Fl_O2:stat:W"
    ∧ E.num "byp_bld.bypBld:stat:W" = E.num "byp_bld.bypBld:frac_W" * E.num "splitter.Fl_O2:stat:W"
    ∧ E.num "byp_nozz.PR" * E.num "fc.Fl_O:stat:P" = E.num "byp_nozz.Fl_O:tot:P"
    ∧ E.num "byp_nozz.Fg" = E.num "byp_nozz.Fl_O:stat:W" * E.num "byp_nozz.Fl_O:stat:V" / 32.174
          * (E.num "byp_nozz.Cv" * E.num "byp_nozz.perf_calcs.Cang" * E.num "byp_nozz.perf_calcs.CmixCorr")
        + (E.num "byp_nozz.Fl_O:stat:P" - E.num "fc.Fl_O:stat:P") * E.num "byp_nozz.Fl_O:stat:area"
    ∧ E.num "duct17.Fl_I:stat:W" = E.num "byp_nozz.Fl_O:stat:W" := by
  obtain ⟨b1, b2, b3, -⟩ := h.bleedOut_laws (x := "byp_bld") (gas := p.air) (d := m.isDesign) HBTF.bypNames
    (List.mem_of_getElem? (i := 16) rfl) (join h 15 (a := ("splitter", "Fl_O2")) rfl)
  have j := join h 16 (a := ("byp_bld", "Fl_O")) (b := ("duct17", "Fl_I")) rfl
  obtain ⟨d1, d2, -⟩ := h.duct_map_laws (x := "duct17") (gas := p.air) (d := m.isDesign) (e := 2)
    (List.mem_of_getElem? (i := 17) rfl) j
  obtain ⟨n1, n2, n3, n4⟩ := h.nozzle_laws (x := "byp_nozz") (gas := p.air) (k := .CV)
    (List.mem_of_getElem? (i := 18) rfl) (join h 17 (a := ("duct17", "Fl_O")) rfl)
  have e : E.num "fc.Fl_O:stat:P" = E.num "byp_nozz.Ps_exhaust" := conn h (by simp [plainConns])
  simp only [List.map_cons, List.map_nil, List.sum_cons, List.sum_nil, add_zero] at b2
  rw [e]
  have hw : E.num "byp_nozz.Fl_O:stat:W" = E.num "byp_bld.Fl_O:stat:W" := n2.trans d2
  exact ⟨n1.trans (congrArg (· * _) (d1.trans (congrArg (· * _) (b1.trans (splitter_laws h).2.1)))),
    (congrArg (· + _) hw).trans b2, b3 "bypBld" (by simp), n3, n4, j.W.trans hw.symm⟩

/-! ### Components -/

theorem perf_laws : E.num "perf.Fn" = E.num "core_nozz.Fg" + E.num "byp_nozz.Fg" - E.num "inlet.F_ram"
    ∧ E.num "perf.OPR" = E.num "hpc.Fl_O:tot:P" / E.num "inlet.Fl_O:tot:P"
    ∧ E.num "perf.TSFC" = E.num "burner.Wfuel" * 3600 / (E.num "perf.Fn" + 1e-10) := by
  have e := h.other (s := performanceSub 2 1) (List.mem_of_getElem? (i := 4) rfl)
  have c0 : E.num "core_nozz.Fg" = E.num "perf.Fg_0" := conn h (by simp [plainConns])
  have c0' : E.num "byp_nozz.Fg" = E.num "perf.Fg_1" := conn h (by simp [plainConns])
  have c1 : E.num "inlet.F_ram" = E.num "perf.ram_drag" := conn h (by simp [plainConns])
  have c2 : E.num "inlet.Fl_O:tot:P" = E.num "perf.Pt2" := conn h (by simp [plainConns])
  have c3 : E.num "hpc.Fl_O:tot:P" = E.num "perf.Pt3" := conn h (by simp [plainConns])
  have c4 : E.num "burner.Wfuel" = E.num "perf.Wfuel_0" := conn h (by simp [plainConns])
  obtain ⟨e1, -, e3, e4, -⟩ := e
  have e1 : E.num "perf.OPR" = E.num "perf.Pt3" / E.num "perf.Pt2" := e1
  have e3 : E.num "perf.Fn" = (0 + E.num "perf.Fg_0" + E.num "perf.Fg_1") - E.num "perf.ram_drag" := e3
  have e4 : E.num "perf.TSFC" = (0 + E.num "perf.Wfuel_0") * 3600
    / (((0 + E.num "perf.Fg_0" + E.num "perf.Fg_1") - E.num "perf.ram_drag") + 1e-10) := e4
  rw [← e3] at e4
  rw [c0, c0', c1, c2, c3, c4]
  exact ⟨by rw [e3, zero_add], e1, by rw [e4, zero_add]⟩

/-- Balances. -/
theorem bal {n : String} (hb : Bal.of n ∈ bals m) : E.num ("balance.lhs:" ++ n) = E.num ("balance.rhs:" ++ n) := by
  have e := h.other (s := balances (bals m) []) (List.mem_of_getElem? (i := 6) rfl) _ hb
  have e : 1 * E.num ("balance" ++ "." ++ ("lhs:" ++ n)) = E.num ("balance" ++ "." ++ ("rhs:" ++ n)) := e
  rw [one_mul, ← String.append_assoc, ← String.append_assoc] at e
  exact e

/-- The power the gearbox hands to the fan shaft. -/
noncomputable def gearPower (E : Env) : ℝ := E.num "gearbox.trq_out" * E.num "Fan_Nmech" / 5252.11

omit h in
theorem gearPower_eq (E : Env) : E.num "gearbox.trq_out" * E.num "Fan_Nmech" = 5252.11 * gearPower E := by
  rw [gearPower]; field_simp

theorem gear_laws (hL : E.num "LP_Nmech" ≠ 0) :
    E.num "Fan_Nmech" = E.num "gearbox.gear_ratio" * E.num "LP_Nmech"
    ∧ E.num "gearbox.trq_out" = E.num "gearbox.trq_base"
    ∧ E.num "gearbox.trq_in" * E.num "LP_Nmech" = 5252.11 * -(E.num "gearbox.eff" * gearPower E) := by
  have e := h.other (s := gearboxSub m.isDesign [.as "N_in" "LP_Nmech", .as "N_out" "Fan_Nmech"])
    (List.mem_of_getElem? (i := 1) rfl)
  have g := gearPower_eq E
  cases m
  · obtain ⟨k1, k2, k3⟩ := (Gear.C25_design _ hL).mp e
    have k1 : E.num "gearbox.gear_ratio" * E.num "LP_Nmech" = E.num "Fan_Nmech" := k1
    have k3 : E.num "gearbox.trq_in" * E.num "LP_Nmech"
      = -(E.num "gearbox.eff" * (E.num "gearbox.trq_out" * E.num "Fan_Nmech")) := k3
    rw [g] at k3
    exact ⟨k1.symm, k2, k3.trans (by ring)⟩
  all_goals
    obtain ⟨k1, k2, k3⟩ := (Gear.C25_offdesign _ hL).mp e
    have k3 : E.num "gearbox.trq_in" * E.num "LP_Nmech"
      = -(E.num "gearbox.eff" * (E.num "gearbox.trq_out" * E.num "Fan_Nmech")) := k3
    rw [g] at k3
    exact ⟨k1, k2, k3.trans (by ring)⟩

/-- A shaft's power. -/
theorem fan_shaft_laws (hN : 0 < E.num "Fan_Nmech") :
    E.num "fan_shaft.pwr_net" = 5252.11 * (2 * Real.pi / 60 / 550) * ((1 - E.num "fan_shaft.fracLoss")
        * (max (E.num "fan.power") 0 + max (gearPower E) 0)
      + (min (E.num "fan.power") 0 + min (gearPower E) 0)) - E.num "fan_shaft.HPX" := by
  have e := h.other (s := { shaftSub 2 [.as "Nmech" "Fan_Nmech"] with name := "fan_shaft" })
    (List.mem_of_getElem? (i := 0) rfl)
  have c0 : E.num "fan.trq" = E.num "fan_shaft.trq_0" := conn h (by simp [plainConns])
  have c1 : E.num "gearbox.trq_out" = E.num "fan_shaft.trq_1" := conn h (by simp [plainConns])
  have t0 := (fan_laws h).2.2.2.1 hN.ne'
  have t1 := gearPower_eq E
  rw [c0] at t0
  rw [c1] at t1
  obtain ⟨-, -, -, -, -, -, -, e1⟩ := e
  have k := Shaft.raw_powers_of_ports (n := 2) (P := ![E.num "fan.power", gearPower E]) (hN := hN)
    (x := shaftIn 2 ⟨fun v => E.num (({ shaftSub 2 [.as "Nmech" "Fan_Nmech"] with name := "fan_shaft" } : Sub).inName v),
      fun v => E.vec (({ shaftSub 2 [.as "Nmech" "Fan_Nmech"] with name := "fan_shaft" } : Sub).inName v)⟩)
    (by intro k; fin_cases k; exacts [t0, t1])
  simp only [Fin.sum_univ_two] at k
  exact Eq.trans e1 k.2.2

theorem lp_shaft_laws (hN : 0 < E.num "LP_Nmech") :
    E.num "lp_shaft.pwr_net" = 5252.11 * (2 * Real.pi / 60 / 550) * ((1 - E.num "lp_shaft.fracLoss")
        * (max (-(E.num "gearbox.eff" * gearPower E)) 0 + max (E.num "lpc.power") 0 + max (E.num "lpt.power") 0)
      + (min (-(E.num "gearbox.eff" * gearPower E)) 0 + min (E.num "lpc.power") 0 + min (E.num "lpt.power") 0))
      - E.num "lp_shaft.HPX" := by
  have e := h.other (s := { shaftSub 3 [.as "Nmech" "LP_Nmech"] with name := "lp_shaft" })
    (List.mem_of_getElem? (i := 2) rfl)
  have c0 : E.num "gearbox.trq_in" = E.num "lp_shaft.trq_0" := conn h (by simp [plainConns])
  have c1 : E.num "lpc.trq" = E.num "lp_shaft.trq_1" := conn h (by simp [plainConns])
  have c2 : E.num "lpt.trq" = E.num "lp_shaft.trq_2" := conn h (by simp [plainConns])
  have t0 := (gear_laws h hN.ne').2.2
  have t1 := (lpc_laws h).2.2.2.1 hN.ne'
  have t2 := (lpt_laws h).2.2 hN.ne'
  rw [c0] at t0
  rw [c1] at t1
  rw [c2] at t2
  obtain ⟨-, -, -, -, -, -, -, e1⟩ := e
  have k := Shaft.raw_powers_of_ports (n := 3)
    (P := ![-(E.num "gearbox.eff" * gearPower E), E.num "lpc.power", E.num "lpt.power"]) (hN := hN)
    (x := shaftIn 3 ⟨fun v => E.num (({ shaftSub 3 [.as "Nmech" "LP_Nmech"] with name := "lp_shaft" } : Sub).inName v),
      fun v => E.vec (({ shaftSub 3 [.as "Nmech" "LP_Nmech"] with name := "lp_shaft" } : Sub).inName v)⟩)
    (by intro k; fin_cases k; exacts [t0, t1, t2])
  simp only [Fin.sum_univ_three] at k
  exact Eq.trans e1 k.2.2

theorem hp_shaft_laws (hN : 0 < E.num "HP_Nmech") :
    E.num "hp_shaft.pwr_net" = 5252.11 * (2 * Real.pi / 60 / 550) * ((1 - E.num "hp_shaft.fracLoss")
        * (max (E.num "hpc.power") 0 + max (E.num "hpt.power") 0)
      + (min (E.num "hpc.power") 0 + min (E.num "hpt.power") 0)) - E.num "hp_shaft.HPX" := by
  have e := h.other (s := { shaftSub 2 [.as "Nmech" "HP_Nmech"] with name := "hp_shaft" })
    (List.mem_of_getElem? (i := 3) rfl)
  have c0 : E.num "hpc.trq" = E.num "hp_shaft.trq_0" := conn h (by simp [plainConns])
  have c1 : E.num "hpt.trq" = E.num "hp_shaft.trq_1" := conn h (by simp [plainConns])
  have t0 := (hpc_laws h).2.2.2.2.2.2.2.1 hN.ne'
  have t1 := (hpt_laws h).2.2 hN.ne'
  rw [c0] at t0
  rw [c1] at t1
  obtain ⟨-, -, -, -, -, -, -, e1⟩ := e
  have k := Shaft.raw_powers_of_ports (n := 2) (P := ![E.num "hpc.power", E.num "hpt.power"]) (hN := hN)
    (x := shaftIn 2 ⟨fun v => E.num (({ shaftSub 2 [.as "Nmech" "HP_Nmech"] with name := "hp_shaft" } : Sub).inName v),
      fun v => E.vec (({ shaftSub 2 [.as "Nmech" "HP_Nmech"] with name := "hp_shaft" } : Sub).inName v)⟩)
    (by intro k; fin_cases k; exacts [t0, t1])
  simp only [Fin.sum_univ_two] at k
  exact Eq.trans e1 k.2.2

end N3

/-- **C66 (flight).** The engine flies at the altitude, temperature deviation and Mach number of `fc`; both nozzles
discharge against the ambient pressure of the standard atmosphere; the air keeps its composition up to the burner. -/
theorem C66_flight : Atm.ambient (E.num "fc.alt") (E.num "fc.dTs") .Ps = some (E.num "fc.Fl_O:stat:P")
    ∧ Atm.ambient (E.num "fc.alt") (E.num "fc.dTs") .Ts = some (E.num "fc.Fl_O:stat:T")
    ∧ E.num "fc.Fl_O:stat:MN" = E.num "fc.MN"
    ∧ E.num "core_nozz.Ps_exhaust" = E.num "fc.Fl_O:stat:P" ∧ E.num "byp_nozz.Ps_exhaust" = E.num "fc.Fl_O:stat:P"
    ∧ E.vec "burner.Fl_I:tot:composition" = E.vec "fc.fs.composition" := by
  obtain ⟨f1, f2, f3, -⟩ := fc_laws h
  exact ⟨f1, f2, f3, (conn h (by simp [plainConns])).symm, (conn h (by simp [plainConns])).symm, (burner_laws h).2.2⟩

/-- **C66 (pressures).** Along the core and along the bypass the total pressure is multiplied by pressure ratios and loss
factors and divided by the turbines' pressure ratios; the nozzles' pressure ratios relate it to the ambient pressure;
bleeds and splitter do not change it. -/
theorem C66_pressure :
    E.num "core_nozz.Fl_O:tot:P" = E.num "fc.Fl_O:tot:P" * E.num "inlet.ram_recovery" * E.num "fan.PR"
      * (1 - E.num "duct2.dPqP") * E.num "lpc.PR" * (1 - E.num "duct25.dPqP") * E.num "hpc.PR"
      * (1 - E.num "burner.dPqP") / E.num "hpt.PR" * (1 - E.num "duct45.dPqP") / E.num "lpt.PR"
      * (1 - E.num "duct5.dPqP") * (1 - E.num "core_nozz.dPqP")
    ∧ E.num "byp_nozz.Fl_O:tot:P" = E.num "fc.Fl_O:tot:P" * E.num "inlet.ram_recovery" * E.num "fan.PR"
      * (1 - E.num "duct17.dPqP") * (1 - E.num "byp_nozz.dPqP")
    ∧ E.num "core_nozz.PR" * E.num "fc.Fl_O:stat:P" = E.num "core_nozz.Fl_O:tot:P"
    ∧ E.num "byp_nozz.PR" * E.num "fc.Fl_O:stat:P" = E.num "byp_nozz.Fl_O:tot:P"
    ∧ (E.num "inlet.Fl_O:tot:P" ≠ 0 → E.num "perf.OPR" = E.num "fan.PR" * (1 - E.num "duct2.dPqP") * E.num "lpc.PR"
        * (1 - E.num "duct25.dPqP") * E.num "hpc.PR") := by
  refine ⟨?_, ?_, (core_laws h).2.2.1, (byp_laws h).2.2.2.1, fun hP => ?_⟩
  · rw [(core_laws h).1, (lpt_laws h).1, (hpt_laws h).1, (burner_laws h).1, (hpc_laws h).1, (lpc_laws h).1,
      (fan_laws h).1, (inlet_laws h).1]; ring
  · rw [(byp_laws h).1, (fan_laws h).1, (inlet_laws h).1]; ring
  · rw [(perf_laws h).2.1, (hpc_laws h).1, (lpc_laws h).1, (fan_laws h).1]; field_simp

/-- **C66 (duct losses).** The loss of every duct goes with the square of the Mach number of the stream that enters it. -/
theorem C66_ducts : ∀ x ∈ [("duct2", "splitter", "Fl_O1"), ("duct25", "bld25", "Fl_O"), ("duct45", "hpt", "Fl_O"),
      ("duct5", "lpt", "Fl_O"), ("duct17", "byp_bld", "Fl_O")],
    0 < E.num (x.2.1 ++ "." ++ (x.2.2 ++ ":" ++ "stat:MN")) →
    E.num (x.1 ++ "." ++ "dPqP")
      = E.num (x.1 ++ "." ++ "s_dPqP") * E.num (x.2.1 ++ "." ++ (x.2.2 ++ ":" ++ "stat:MN")) ^ 2 := by
  have key : ∀ (i k : ℕ) (x y q : String) (g : (ℕ → ℝ) → TPGas), flows[i]? = some { src := (y, q), tgt := (x, "Fl_I") } →
      (elements p m.isDesign)[k]? = some ⟨x, duct g m.isDesign true 2 true, [], []⟩ →
      0 < E.num (y ++ "." ++ (q ++ ":" ++ "stat:MN")) →
      E.num (x ++ "." ++ "dPqP") = E.num (x ++ "." ++ "s_dPqP") * E.num (y ++ "." ++ (q ++ ":" ++ "stat:MN")) ^ 2 := by
    intro i k x y q g hl hm hM
    have e := (h.link (l := { src := (y, q), tgt := (x, "Fl_I") }) (v := "stat:MN")
      (List.mem_of_getElem? hl) (by decide) (fun h => by simp at h) rfl rfl).1
    have d := (h.duct_map_laws (x := x) (gas := g) (d := m.isDesign) (e := 2) (List.mem_of_getElem? hm)
      (join h i hl)).2.2.2
    simp only at e
    rw [e] at hM ⊢
    have d := d hM
    rw [← Real.rpow_natCast]; exact_mod_cast d
  simp only [List.forall_mem_cons]
  exact ⟨key 3 4 _ _ _ p.air rfl rfl, key 6 7 _ _ _ p.air rfl rfl, key 11 12 _ _ _ p.burnt rfl rfl,
    key 13 14 _ _ _ p.burnt rfl rfl, key 16 17 _ _ _ p.air rfl rfl, by simp⟩

/-- **C66 (thrust).** Net thrust is the gross thrust of both nozzles, momentum with its losses plus pressure thrust
against the ambient pressure, less ram drag, the momentum of all the air at flight speed; specific fuel consumption is
the fuel per hour and thrust; the extraction ratio compares the ideal jet velocities, each times its own coefficient. -/
theorem C66_thrust :
    E.num "perf.Fn" = E.num "core_nozz.Fl_O:stat:W" * E.num "core_nozz.Fl_O:stat:V" / 32.174
          * (E.num "core_nozz.Cv" * E.num "core_nozz.perf_calcs.Cang" * E.num "core_nozz.perf_calcs.CmixCorr")
        + (E.num "core_nozz.Fl_O:stat:P" - E.num "fc.Fl_O:stat:P") * E.num "core_nozz.Fl_O:stat:area"
      + (E.num "byp_nozz.Fl_O:stat:W" * E.num "byp_nozz.Fl_O:stat:V" / 32.174
          * (E.num "byp_nozz.Cv" * E.num "byp_nozz.perf_calcs.Cang" * E.num "byp_nozz.perf_calcs.CmixCorr")
        + (E.num "byp_nozz.Fl_O:stat:P" - E.num "fc.Fl_O:stat:P") * E.num "byp_nozz.Fl_O:stat:area")
      - E.num "fc.W" * E.num "fc.Fl_O:stat:V" / 32.174
    ∧ E.num "perf.TSFC" = E.num "burner.Wfuel" * 3600 / (E.num "perf.Fn" + 1e-10)
    ∧ E.num "ext_ratio.ER" = E.num "core_nozz.ideal_flow.V" * E.num "ext_ratio.core_Cv"
        / (E.num "byp_nozz.ideal_flow.V" * E.num "ext_ratio.byp_Cv") := by
  obtain ⟨p1, -, p3⟩ := perf_laws h
  refine ⟨?_, p3, ?_⟩
  · rw [p1, (core_laws h).2.2.2, (byp_laws h).2.2.2.2.1, (inlet_laws h).2.1]
  · have c1 : E.num "core_nozz.ideal_flow.V" = E.num "ext_ratio.core_V_ideal" := conn h (by simp [plainConns])
    have c2 : E.num "byp_nozz.ideal_flow.V" = E.num "ext_ratio.byp_V_ideal" := conn h (by simp [plainConns])
    rw [c1, c2]
    exact h.other (s := extRatioSub) (List.mem_of_getElem? (i := 5) rfl)

/-- **C66 (design targets).** At the design point the burner exit has its target temperature; fan, booster and both
turbines have the adiabatic efficiencies at which their polytropic efficiencies are the targets; the turbines have the
pressure ratios that balance their shafts. -/
theorem C66_design (hd : m = .design) :
    E.num "burner.Fl_O:tot:T" = E.num "balance.rhs:FAR"
    ∧ E.num "fan.Fl_I:tot:R" * Real.log (E.num "fan.PR")
        / (E.num "fan.Fl_I:tot:R" * Real.log (E.num "fan.PR") + E.num "fan.Fl_O:tot:S" - E.num "fan.Fl_I:tot:S")
      = E.num "balance.rhs:fan_eff"
    ∧ E.num "lpc.Fl_I:tot:R" * Real.log (E.num "lpc.PR")
        / (E.num "lpc.Fl_I:tot:R" * Real.log (E.num "lpc.PR") + E.num "lpc.Fl_O:tot:S" - E.num "lpc.Fl_I:tot:S")
      = E.num "balance.rhs:lpc_eff"
    ∧ E.num "hpt.eff_poly" = E.num "balance.rhs:hpt_eff" ∧ E.num "lpt.eff_poly" = E.num "balance.rhs:lpt_eff"
    ∧ E.num "fan.eff" = E.num "balance.fan_eff" ∧ E.num "lpc.eff" = E.num "balance.lpc_eff"
    ∧ E.num "hpt.eff" = E.num "balance.hpt_eff" ∧ E.num "lpt.eff" = E.num "balance.lpt_eff"
    ∧ E.num "lpt.PR" = E.num "balance.lpt_PR" ∧ E.num "hpt.PR" = E.num "balance.hpt_PR"
    ∧ E.num "burner.Fl_I:FAR" = E.num "balance.FAR" := by
  subst hd
  have b := fun {n : String} (hb : Bal.of n ∈ bals .design) => bal h hb
  have c := fun {x y : String} (hx : (x, y) ∈ modeConns .design) => mconn h hx
  have c1 : E.num "fan.eff_poly" = E.num "balance.lhs:fan_eff" := c (by simp [modeConns, designConns])
  have c2 : E.num "lpc.eff_poly" = E.num "balance.lhs:lpc_eff" := c (by simp [modeConns, designConns])
  refine ⟨(c (by simp [modeConns, designConns])).trans (b (n := "FAR") (by simp [bals])), ?_, ?_,
    (c (by simp [modeConns, designConns])).trans (b (n := "hpt_eff") (by simp [bals])),
    (c (by simp [modeConns, designConns])).trans (b (n := "lpt_eff") (by simp [bals])),
    (c (by simp [modeConns, designConns])).symm, (c (by simp [modeConns, designConns])).symm,
    (c (by simp [modeConns, designConns])).symm, (c (by simp [modeConns, designConns])).symm,
    (c (by simp [modeConns, designConns])).symm, (c (by simp [modeConns, designConns])).symm,
    (c (by simp [modeConns, designConns])).symm⟩
  · rw [← (fan_laws h).2.2.2.2]; exact c1.trans (b (n := "fan_eff") (by simp [bals]))
  · rw [← (lpc_laws h).2.2.2.2]; exact c2.trans (b (n := "lpc_eff") (by simp [bals]))

/-- **C66 (core size).** At the design point the high-pressure compressor has the polytropic efficiency the schedule for
large engines gives for its core size, the flow entering it corrected to the conditions behind it; `hpc_EtaBalance`
finds the adiabatic efficiency that goes with it. -/
theorem C66_core_size (hd : m = .design) :
    E.num "hpc.Fl_I:tot:R" * Real.log (E.num "hpc.PR")
        / (E.num "hpc.Fl_I:tot:R" * Real.log (E.num "hpc.PR") + E.num "hpc.Fl_O:tot:S" - E.num "hpc.Fl_I:tot:S")
      = SmallCore.etaCalc .large .t0 (E.num "bld25.Fl_O:stat:W"
        * (Real.sqrt (E.num "hpc.Fl_O:tot:T" / 518.67) / (E.num "hpc.Fl_O:tot:P" / 14.696)))
    ∧ E.num "hpc.eff" = E.num "hpc_EtaBalance.eta_a" := by
  subst hd
  have c := fun {x y : String} (hx : (x, y) ∈ modeConns .design) => mconn h hx
  have c1 : E.num "duct25.Fl_O:stat:W" = E.num "hpc_CS.Win" := c (by simp [modeConns, designConns])
  have c2 : E.num "hpc.Fl_O:tot:T" = E.num "hpc_CS.Tout" := c (by simp [modeConns, designConns])
  have c3 : E.num "hpc.Fl_O:tot:P" = E.num "hpc_CS.Pout" := c (by simp [modeConns, designConns])
  have c4 : E.num "hpc_CS.CS" = E.num "hpc_EtaBalance.CS" := c (by simp [modeConns, designConns])
  have c5 : E.num "hpc.eff_poly" = E.num "hpc_EtaBalance.eta_p" := c (by simp [modeConns, designConns])
  have c6 : E.num "hpc_EtaBalance.eta_a" = E.num "hpc.eff" := c (by simp [modeConns, designConns])
  have e1 : E.num "hpc_CS.CS" = E.num "hpc_CS.Win" * ((E.num "hpc_CS.Tout" / 518.67) ^ (0.5 : ℝ)
      / (E.num "hpc_CS.Pout" / 14.696)) := h.other (s := coreSizeSub) (List.mem_of_getElem? (i := 7) rfl)
  have e2 : E.num "hpc_EtaBalance.eta_p" - SmallCore.etaCalc .large .t0 (E.num "hpc_EtaBalance.CS") = 0 :=
    h.other (s := etaBalanceSub) (List.mem_of_getElem? (i := 8) rfl)
  refine ⟨?_, c6.symm⟩
  rw [← (hpc_laws h).2.2.2.2.2.2.2.2, ← (hpc_laws h).2.1, c5, sub_eq_zero.mp e2, ← c4, e1, c1, c2, c3,
    Real.sqrt_eq_rpow]
  norm_num

/-- **C66 (overall pressure ratio).** At the design point the compressor's pressure ratio makes the product of the three
pressure ratios — those of fan and booster as `opr_calc` is told, which the multi-point model sets to the engine's — the
target. -/
theorem C66_opr (hd : m = .design) :
    E.num "opr_calc.FPR" * E.num "opr_calc.LPCPR" * E.num "hpc.PR" = E.num "balance.rhs:hpc_PR" := by
  subst hd
  have c := fun {x y : String} (hx : (x, y) ∈ modeConns .design) => mconn h hx
  have c1 : E.num "balance.hpc_PR" = E.num "hpc.PR" := c (by simp [modeConns, designConns])
  have c2 : E.num "balance.hpc_PR" = E.num "opr_calc.HPCPR" := c (by simp [modeConns, designConns])
  have c3 : E.num "opr_calc.OPR_simple" = E.num "balance.lhs:hpc_PR" := c (by simp [modeConns, designConns])
  have e : E.num "opr_calc.OPR_simple" = E.num "opr_calc.FPR" * E.num "opr_calc.LPCPR" * E.num "opr_calc.HPCPR" :=
    h.other (s := oprCalcSub) (List.mem_of_getElem? (i := 10) rfl)
  rw [← c1, c2, ← e]
  exact c3.trans (bal h (n := "hpc_PR") (by simp [bals]))

/-- **C66, refuted (overall pressure ratio).** The target is not the overall pressure ratio the engine reports: that one
contains the losses of the ducts, and any loss leaves it short of the target. -/
theorem C66_refuted_opr (hd : m = .design) (e1 : E.num "opr_calc.FPR" = E.num "fan.PR")
    (e2 : E.num "opr_calc.LPCPR" = E.num "lpc.PR") (hP : E.num "inlet.Fl_O:tot:P" ≠ 0) :
    E.num "perf.OPR" = E.num "balance.rhs:hpc_PR" * ((1 - E.num "duct2.dPqP") * (1 - E.num "duct25.dPqP"))
    ∧ (0 < E.num "balance.rhs:hpc_PR" → 0 < E.num "duct2.dPqP" → 0 ≤ E.num "duct25.dPqP" → E.num "duct25.dPqP" < 1 →
        E.num "perf.OPR" < E.num "balance.rhs:hpc_PR") := by
  have e : E.num "perf.OPR" = E.num "balance.rhs:hpc_PR" * ((1 - E.num "duct2.dPqP") * (1 - E.num "duct25.dPqP")) := by
    rw [(C66_pressure h).2.2.2.2 hP, ← C66_opr h hd, e1, e2]; ring
  refine ⟨e, fun h1 h2 h3 h4 => ?_⟩
  rw [e]
  have : (1 - E.num "duct2.dPqP") * (1 - E.num "duct25.dPqP") < 1 := by nlinarith
  nlinarith

/-- **C66 (fan diameter).** The annulus between hub and tip diameter is the area of the inlet's exit. -/
theorem C66_fan_diameter (hd : m = .design) (hA : 0 ≤ E.num "inlet.Fl_O:stat:area")
    (hh : |E.num "fan_dia.hub_tip"| < 1) :
    Real.pi / 4 * (E.num "fan_dia.FanDia" ^ 2 - (E.num "fan_dia.hub_tip" * E.num "fan_dia.FanDia") ^ 2)
      = E.num "inlet.Fl_O:stat:area" ∧ 0 ≤ E.num "fan_dia.FanDia" := by
  subst hd
  have c1 : E.num "inlet.Fl_O:stat:area" = E.num "fan_dia.area" := mconn h (by simp [modeConns, designConns])
  have e : E.num "fan_dia.FanDia" = 2 * (E.num "fan_dia.area"
      / (Real.pi * (1 - E.num "fan_dia.hub_tip" ^ (2 : ℝ)))) ^ (0.5 : ℝ) :=
    h.other (s := fanDiaSub) (List.mem_of_getElem? (i := 9) rfl)
  rw [c1] at hA ⊢
  have h2 : E.num "fan_dia.hub_tip" ^ (2 : ℝ) = E.num "fan_dia.hub_tip" ^ 2 := by
    rw [← Real.rpow_natCast]; norm_num
  have hk : 0 < 1 - E.num "fan_dia.hub_tip" ^ 2 := by
    have := (sq_lt_one_iff_abs_lt_one _).mpr hh
    linarith
  have hq : 0 ≤ E.num "fan_dia.area" / (Real.pi * (1 - E.num "fan_dia.hub_tip" ^ 2)) := by
    have := Real.pi_pos; positivity
  rw [h2, show (0.5 : ℝ) = 1 / 2 by norm_num, ← Real.sqrt_eq_rpow] at e
  have hs := Real.sq_sqrt hq
  refine ⟨?_, by rw [e]; positivity⟩
  rw [mul_pow, e, mul_pow, hs]
  have := Real.pi_pos.ne'
  have := hk.ne'
  field_simp
  ring

/-- **C66 (off-design targets).** Off design the net thrust, the throat area of the core nozzle and the fan's R-line are
the targets; free stream, splitter and spools get the values the balance found. -/
theorem C66_off (hd : m ≠ .design) :
    E.num "perf.Fn" = E.num "balance.rhs:FAR"
    ∧ E.num "core_nozz.Throat:stat:area" = E.num "balance.rhs:W"
    ∧ E.num "fan.map.RlineMap" = E.num "balance.rhs:BPR"
    ∧ E.num "fc.W" = E.num "balance.W" ∧ E.num "splitter.BPR" = E.num "balance.BPR"
    ∧ E.num "Fan_Nmech" = E.num "balance.fan_Nmech" ∧ E.num "LP_Nmech" = E.num "balance.lp_Nmech"
    ∧ E.num "HP_Nmech" = E.num "balance.hp_Nmech" ∧ E.num "burner.Fl_I:FAR" = E.num "balance.FAR" := by
  have hc : ∀ x ∈ offConns, x ∈ modeConns m := by
    cases m
    · exact absurd rfl hd
    · exact fun x hx => hx
    · exact fun x hx => List.mem_append_left _ hx
  have hb : ∀ x ∈ bals .off, x ∈ bals m := by
    cases m
    · exact absurd rfl hd
    · exact fun x hx => hx
    · exact fun x hx => List.mem_append_left _ hx
  have b := fun {n : String} (h' : Bal.of n ∈ bals .off) => bal h (hb _ h')
  have c := fun {x y : String} (hx : (x, y) ∈ offConns) => mconn h (hc _ hx)
  exact ⟨(c (by simp [offConns])).trans (b (n := "FAR") (by simp [bals])),
    (c (by simp [offConns])).trans (b (n := "W") (by simp [bals])),
    (c (by simp [offConns])).trans (b (n := "BPR") (by simp [bals])), (c (by simp [offConns])).symm,
    (c (by simp [offConns])).symm, (c (by simp [offConns])).symm, (c (by simp [offConns])).symm,
    (c (by simp [offConns])).symm, (c (by simp [offConns])).symm⟩

namespace N3

/-- The output of the balance of each shaft. -/
def fanBal (m : N3Mode) : String := if m = .design then "gb_trq" else "fan_Nmech"
def lpBal (m : N3Mode) : String := if m = .design then "lpt_PR" else "lp_Nmech"
def hpBal (m : N3Mode) : String := if m = .design then "hpt_PR" else "hp_Nmech"

end N3

/-- **C66 (gearbox).** The fan turns at the gear ratio times the speed of the low-pressure spool. -/
theorem C66_gear (hL : E.num "LP_Nmech" ≠ 0) :
    E.num "Fan_Nmech" = E.num "gearbox.gear_ratio" * E.num "LP_Nmech" := (gear_laws h hL).1

/-- **C66 (shafts).** With targets 0, as the code gives them, the powers on the three shafts balance. `G` is the power
the gearbox hands to the fan shaft; it takes `eff * G` from the low-pressure shaft. The factor is that of
`C26_refuted_round_trip`, 1 to within `10⁻⁶`. -/
theorem C66_shafts (hF : 0 < E.num "Fan_Nmech") (hL : 0 < E.num "LP_Nmech") (hH : 0 < E.num "HP_Nmech")
    (rF : E.num ("balance.rhs:" ++ fanBal m) = 0) (rL : E.num ("balance.rhs:" ++ lpBal m) = 0)
    (rH : E.num ("balance.rhs:" ++ hpBal m) = 0) :
    ∃ G, G * 5252.11 = E.num "gearbox.trq_out" * E.num "Fan_Nmech"
    ∧ 5252.11 * (2 * Real.pi / 60 / 550) * ((1 - E.num "fan_shaft.fracLoss") * (max (E.num "fan.power") 0 + max G 0)
        + (min (E.num "fan.power") 0 + min G 0)) = E.num "fan_shaft.HPX"
    ∧ 5252.11 * (2 * Real.pi / 60 / 550) * ((1 - E.num "lp_shaft.fracLoss")
        * (max (-(E.num "gearbox.eff" * G)) 0 + max (E.num "lpc.power") 0 + max (E.num "lpt.power") 0)
        + (min (-(E.num "gearbox.eff" * G)) 0 + min (E.num "lpc.power") 0 + min (E.num "lpt.power") 0))
        = E.num "lp_shaft.HPX"
    ∧ 5252.11 * (2 * Real.pi / 60 / 550) * ((1 - E.num "hp_shaft.fracLoss")
        * (max (E.num "hpc.power") 0 + max (E.num "hpt.power") 0)
        + (min (E.num "hpc.power") 0 + min (E.num "hpt.power") 0)) = E.num "hp_shaft.HPX" := by
  have bF : E.num "fan_shaft.pwr_net" = 0 := by
    rw [← rF]
    cases m
    · exact (mconn h (by simp [modeConns, designConns])).trans (bal h (n := "gb_trq") (by simp [bals]))
    · exact (mconn h (by simp [modeConns, offConns])).trans (bal h (n := "fan_Nmech") (by simp [bals]))
    · exact (mconn h (by simp [modeConns, offConns])).trans (bal h (n := "fan_Nmech") (by simp [bals]))
  have bL : E.num "lp_shaft.pwr_net" = 0 := by
    rw [← rL]
    cases m
    · exact (mconn h (by simp [modeConns, designConns])).trans (bal h (n := "lpt_PR") (by simp [bals]))
    · exact (mconn h (by simp [modeConns, offConns])).trans (bal h (n := "lp_Nmech") (by simp [bals]))
    · exact (mconn h (by simp [modeConns, offConns])).trans (bal h (n := "lp_Nmech") (by simp [bals]))
  have bH : E.num "hp_shaft.pwr_net" = 0 := by
    rw [← rH]
    cases m
    · exact (mconn h (by simp [modeConns, designConns])).trans (bal h (n := "hpt_PR") (by simp [bals]))
    · exact (mconn h (by simp [modeConns, offConns])).trans (bal h (n := "hp_Nmech") (by simp [bals]))
    · exact (mconn h (by simp [modeConns, offConns])).trans (bal h (n := "hp_Nmech") (by simp [bals]))
  rw [fan_shaft_laws h hF, sub_eq_zero] at bF
  rw [lp_shaft_laws h hL, sub_eq_zero] at bL
  rw [hp_shaft_laws h hH, sub_eq_zero] at bH
  exact ⟨gearPower E, by rw [gearPower_eq]; ring, bF, bL, bH⟩

/-- **C66 (power of the low-pressure turbine).** When fan and booster take power and nothing is lost or extracted on the
two shafts, the low-pressure turbine delivers what the booster takes and `eff` times what the fan takes. -/
theorem C66_low_spool (hF : 0 < E.num "Fan_Nmech") (hL : 0 < E.num "LP_Nmech") (hH : 0 < E.num "HP_Nmech")
    (rF : E.num ("balance.rhs:" ++ fanBal m) = 0) (rL : E.num ("balance.rhs:" ++ lpBal m) = 0)
    (rH : E.num ("balance.rhs:" ++ hpBal m) = 0) (l1 : E.num "fan_shaft.fracLoss" = 0) (l2 : E.num "lp_shaft.fracLoss" = 0)
    (x1 : E.num "fan_shaft.HPX" = 0) (x2 : E.num "lp_shaft.HPX" = 0) :
    E.num "lpt.power" = -E.num "lpc.power" - E.num "gearbox.eff" * E.num "fan.power" := by
  obtain ⟨G, -, f, l, -⟩ := C66_shafts h hF hL hH rF rL rH
  have hk : (5252.11 * (2 * Real.pi / 60 / 550) : ℝ) ≠ 0 := by have := Real.pi_pos; positivity
  rw [l1, x1, sub_zero, one_mul] at f
  rw [l2, x2, sub_zero, one_mul] at l
  have f := (mul_eq_zero.mp f).resolve_left hk
  have l := (mul_eq_zero.mp l).resolve_left hk
  have c0 : ∀ x : ℝ, max x 0 + min x 0 = x := fun x => by rw [max_add_min, add_zero]
  have a1 := c0 (E.num "fan.power")
  have a2 := c0 G
  have a3 := c0 (-(E.num "gearbox.eff" * G))
  have a4 := c0 (E.num "lpc.power")
  have a5 := c0 (E.num "lpt.power")
  have hG : G = -E.num "fan.power" := by linarith
  rw [hG] at a3 l
  linarith

/-- **C66, refuted (gearbox loss).** A gearbox with losses should cost the turbine power. With an efficiency below one
the low-pressure turbine delivers less than fan and booster take: the loss drives the fan. -/
theorem C66_refuted_gear_loss (hF : 0 < E.num "Fan_Nmech") (hL : 0 < E.num "LP_Nmech") (hH : 0 < E.num "HP_Nmech")
    (rF : E.num ("balance.rhs:" ++ fanBal m) = 0) (rL : E.num ("balance.rhs:" ++ lpBal m) = 0)
    (rH : E.num ("balance.rhs:" ++ hpBal m) = 0) (l1 : E.num "fan_shaft.fracLoss" = 0) (l2 : E.num "lp_shaft.fracLoss" = 0)
    (x1 : E.num "fan_shaft.HPX" = 0) (x2 : E.num "lp_shaft.HPX" = 0) (hf : E.num "fan.power" < 0)
    (he : E.num "gearbox.eff" < 1) :
    E.num "lpt.power" < -E.num "lpc.power" - E.num "fan.power" := by
  rw [C66_low_spool h hF hL hH rF rL rH l1 l2 x1 x2]
  nlinarith

namespace N3

omit h in
/-- What the cooling element sees and shows. -/
theorem cool_seen {E : Env} (h : (n3 p .cooled).Solved E) :
    ∃ V, (turbineCooling p.cooled p.coolant coolOpt true).Converged V
    ∧ (∀ v ∈ coolIface.outs, E.num ("hpt_cooling" ++ "." ++ v) = V.num v)
    ∧ (∀ q ∈ coolIface.inlets, ∀ v ∈ linkInVars, V.num (q ++ ":" ++ v) = E.num ("hpt_cooling" ++ "." ++ (q ++ ":" ++ v)))
    ∧ V.num "turb_pwr" = E.num "hpt_cooling.turb_pwr" ∧ V.num "x_factor" = E.num "hpt_cooling.x_factor" := by
  have hm : (turbineCooling p.cooled p.coolant coolOpt true).asSub "hpt_cooling" [] [] ∈ (n3 p .cooled).others :=
    List.mem_append_right _ (List.mem_of_getElem? (i := 0) rfl)
  have e : "x_factor" ∈ (turbineCooling p.cooled p.coolant coolOpt true).wiring.outs := by
    rw [Cooling.outs_eq _ _ true (o := coolOpt) (by decide)]; exact List.mem_append_left _ (List.mem_singleton.mpr rfl)
  have I := coolIface_of p.cooled p.coolant "hpt_cooling" [] []
  generalize turbineCooling p.cooled p.coolant coolOpt true = g at hm e I ⊢
  obtain ⟨V, hV, hi, hq, ho, hx⟩ := h.other_group hm I e
  exact ⟨V, hV, ho, hq, hi "turb_pwr" (by simp [coolIface]), hx.symm⟩

omit h in
theorem cool_conn {E : Env} (h : (n3 p .cooled).Solved E) {x y : String} (hx : (x, y) ∈ coolConns) : E.num x = E.num y :=
  mconn h (m := .cooled) (List.mem_append_right _ (List.mem_append_left _ hx))

omit h in
theorem cool_link {E : Env} (h : (n3 p .cooled).Solved E) (l : Link) (hl : l ∈ coolLinks) {x y : String}
    (hx : (x, y) ∈ l.conns) : E.num x = E.num y :=
  mconn h (m := .cooled) (List.mem_append_right _ (List.mem_append_right _ (List.mem_flatMap.mpr ⟨l, hl, hx⟩)))

omit h in
/-- The streams the cooling element looks at. -/
theorem cool_streams {E : Env} (h : (n3 p .cooled).Solved E) : ∀ v ∈ portVars,
    E.num ("bld3" ++ "." ++ ("bld_inlet" ++ ":" ++ v)) = E.num ("hpt_cooling" ++ "." ++ ("Fl_cool" ++ ":" ++ v))
    ∧ E.num ("burner" ++ "." ++ ("Fl_O" ++ ":" ++ v)) = E.num ("hpt_cooling" ++ "." ++ ("Fl_turb_I" ++ ":" ++ v))
    ∧ E.num ("hpt" ++ "." ++ ("Fl_O" ++ ":" ++ v)) = E.num ("hpt_cooling" ++ "." ++ ("Fl_turb_O" ++ ":" ++ v)) := by
  have k : ∀ v ∈ portVars,
      ("bld3" ++ "." ++ ("bld_inlet" ++ ":" ++ v), "hpt_cooling" ++ "." ++ ("Fl_cool" ++ ":" ++ v))
        ∈ ({ src := ("bld3", "bld_inlet"), tgt := ("hpt_cooling", "Fl_cool"), stat := false } : Link).conns
      ∧ ("burner" ++ "." ++ ("Fl_O" ++ ":" ++ v), "hpt_cooling" ++ "." ++ ("Fl_turb_I" ++ ":" ++ v))
        ∈ ({ src := ("burner", "Fl_O"), tgt := ("hpt_cooling", "Fl_turb_I") } : Link).conns
      ∧ ("hpt" ++ "." ++ ("Fl_O" ++ ":" ++ v), "hpt_cooling" ++ "." ++ ("Fl_turb_O" ++ ":" ++ v))
        ∈ ({ src := ("hpt", "Fl_O"), tgt := ("hpt_cooling", "Fl_turb_O") } : Link).conns := by decide +kernel
  intro v hv
  obtain ⟨k1, k2, k3⟩ := k v hv
  exact ⟨cool_link h _ (List.mem_of_getElem? (i := 0) rfl) k1, cool_link h _ (List.mem_of_getElem? (i := 1) rfl) k2,
    cool_link h _ (List.mem_of_getElem? (i := 2) rfl) k3⟩

omit h in
/-- The balances of the two bleeds, and the turbine's power. -/
theorem cool_bals {E : Env} (h : (n3 p .cooled).Solved E) :
    E.num "bld3.bld_inlet:stat:W" = E.num "hpt_cooling.row_0.W_cool"
    ∧ E.num "bld3.bld_exit:stat:W"
      = E.num "hpt_cooling.row_1.W_cool" + E.num "hpt_cooling.row_2.W_cool" + E.num "hpt_cooling.row_3.W_cool"
    ∧ E.num "hpt_cooling.turb_pwr" = p.hpUnit * E.num "hpt.power" := by
  have c := fun {x y : String} (hx : (x, y) ∈ coolConns) => cool_conn h hx
  have hch : chargeableSub ∈ (n3 p .cooled).others := List.mem_append_right _ (List.mem_of_getElem? (i := 1) rfl)
  have hpu : powerUnitSub p.hpUnit ∈ (n3 p .cooled).others := List.mem_append_right _ (List.mem_of_getElem? (i := 2) rfl)
  refine ⟨?_, ?_, ?_⟩
  · have e1 : E.num "bld3.bld_inlet:stat:W" = E.num "balance.lhs:hpt_nochrg_cool_frac" := c (by simp [coolConns])
    have e2 : E.num "hpt_cooling.row_0.W_cool" = E.num "balance.rhs:hpt_nochrg_cool_frac" := c (by simp [coolConns])
    rw [e2, e1]; exact bal h (n := "hpt_nochrg_cool_frac") (by simp [bals])
  · have e1 : E.num "bld3.bld_exit:stat:W" = E.num "balance.lhs:hpt_chrg_cool_frac" := c (by simp [coolConns])
    have e2 : E.num "hpt_chargable.W_cool" = E.num "balance.rhs:hpt_chrg_cool_frac" := c (by simp [coolConns])
    have e3 : E.num "hpt_cooling.row_1.W_cool" = E.num "hpt_chargable.W_1" := c (by simp [coolConns])
    have e4 : E.num "hpt_cooling.row_2.W_cool" = E.num "hpt_chargable.W_2" := c (by simp [coolConns])
    have e5 : E.num "hpt_cooling.row_3.W_cool" = E.num "hpt_chargable.W_3" := c (by simp [coolConns])
    have e6 : E.num "hpt_chargable.W_cool"
        = Cool.combine ![E.num "hpt_chargable.W_1", E.num "hpt_chargable.W_2", E.num "hpt_chargable.W_3"] := h.other hch
    have e7 : E.num "hpt_chargable.W_cool"
        = E.num "hpt_chargable.W_1" + E.num "hpt_chargable.W_2" + E.num "hpt_chargable.W_3" := by
      rw [e6]; simp [Cool.combine]
    rw [e3, e4, e5, ← e7, e2, e1]; exact bal h (n := "hpt_chrg_cool_frac") (by simp [bals])
  · have e1 : E.num "hpt.power" = E.num "hpt_power_unit.hp" := c (by simp [coolConns])
    have e2 : E.num "hpt_power_unit.Btu/s" = E.num "hpt_cooling.turb_pwr" := c (by simp [coolConns])
    have e3 : E.num "hpt_power_unit.Btu/s" = p.hpUnit * E.num "hpt_power_unit.hp" := h.other hpu
    rw [e1, ← e3, e2]

end N3

/-- **C66 (cooling).** In the mode that sizes the cooling, the bleed behind the compressor that enters the high-pressure
turbine at its inlet is what the cooling model asks for the first vane, and the one that enters at its exit what it asks
for the other three rows; the cooling model sees the burner's exit, the turbine's exit, the bleed and the turbine's
power. -/
theorem C66_cooling (hd : m = .cooled) : ∃ V, (turbineCooling p.cooled p.coolant coolOpt true).Converged V
    ∧ E.num "bld3.bld_inlet:stat:W" = V.num "row_0.W_cool"
    ∧ E.num "bld3.bld_exit:stat:W" = V.num "row_1.W_cool" + V.num "row_2.W_cool" + V.num "row_3.W_cool"
    ∧ (∀ v ∈ ["tot:T", "tot:P", "tot:h", "stat:W"], V.num ("Fl_turb_I" ++ ":" ++ v) = E.num ("burner" ++ "." ++ ("Fl_O" ++ ":" ++ v)))
    ∧ V.num "Fl_turb_O:tot:P" = E.num "hpt.Fl_O:tot:P"
    ∧ V.num "Fl_cool:tot:T" = E.num "bld3.bld_inlet:tot:T" ∧ V.num "Fl_cool:tot:h" = E.num "bld3.bld_inlet:tot:h"
    ∧ V.num "turb_pwr" = p.hpUnit * E.num "hpt.power"
    ∧ V.num "x_factor" = E.num "hpt_cooling.x_factor" := by
  subst hd
  obtain ⟨V, hV, o1, i1, tp, xf⟩ := cool_seen h
  have L := cool_streams h
  have t : ∀ v ∈ ["tot:T", "tot:P", "tot:h", "stat:W"], v ∈ portVars ∧ v ∈ linkInVars := by decide +kernel
  have q : ∀ v ∈ ["tot:T", "tot:P", "tot:h", "stat:W"],
      V.num ("Fl_cool" ++ ":" ++ v) = E.num ("bld3" ++ "." ++ ("bld_inlet" ++ ":" ++ v))
      ∧ V.num ("Fl_turb_I" ++ ":" ++ v) = E.num ("burner" ++ "." ++ ("Fl_O" ++ ":" ++ v))
      ∧ V.num ("Fl_turb_O" ++ ":" ++ v) = E.num ("hpt" ++ "." ++ ("Fl_O" ++ ":" ++ v)) := fun v hv =>
    have l := L v (t v hv).1
    ⟨(i1 "Fl_cool" (by simp [coolIface]) v (t v hv).2).trans l.1.symm,
      (i1 "Fl_turb_I" (by simp [coolIface]) v (t v hv).2).trans l.2.1.symm,
      (i1 "Fl_turb_O" (by simp [coolIface]) v (t v hv).2).trans l.2.2.symm⟩
  have r0 : E.num "hpt_cooling.row_0.W_cool" = V.num "row_0.W_cool" := o1 "row_0.W_cool" (by simp [coolIface])
  have r1 : E.num "hpt_cooling.row_1.W_cool" = V.num "row_1.W_cool" := o1 "row_1.W_cool" (by simp [coolIface])
  have r2 : E.num "hpt_cooling.row_2.W_cool" = V.num "row_2.W_cool" := o1 "row_2.W_cool" (by simp [coolIface])
  have r3 : E.num "hpt_cooling.row_3.W_cool" = V.num "row_3.W_cool" := o1 "row_3.W_cool" (by simp [coolIface])
  have b0 := cool_bals h
  refine ⟨V, hV, b0.1.trans r0, ?_, fun v hv => (q v hv).2.1, (q "tot:P" (by simp)).2.2, (q "tot:T" (by simp)).1,
    (q "tot:h" (by simp)).1, tp.trans b0.2.2, xf⟩
  rw [← r1, ← r2, ← r3]; exact b0.2.1

/-- **C66 (first vane).** Sized this way, nothing cools the first vane when the burner exit and the safety margin of
150 degR stay below the 2460 degR the metal bears; above, the flow is that of the correlation, from the burner's exit
flow and temperature and the temperature of the bleed. The bleeds together are what the four rows ask for. -/
theorem C66_vane (hd : m = .cooled) :
    (E.num "burner.Fl_O:tot:T" + 150 < 2460 → E.num "bld3.bld_inlet:stat:W" = 0)
    ∧ (2460 ≤ E.num "burner.Fl_O:tot:T" + 150 → E.num "bld3.bld_inlet:tot:T" < 2460 →
      E.num "bld3.bld_inlet:stat:W" = 0.022 * (4 / 3) * E.num "hpt_cooling.x_factor" * E.num "burner.Fl_O:stat:W"
        * (((E.num "burner.Fl_O:tot:T" + 150 - 2460)
            + 0.3 * (E.num "burner.Fl_O:tot:T" + 150 - E.num "bld3.bld_inlet:tot:T"))
          / (2460 - E.num "bld3.bld_inlet:tot:T")) ^ (1.25 : ℝ)) := by
  obtain ⟨V, hV, w0, -, t1, -, t2, -, -, t4⟩ := C66_cooling h hd
  have R := C64_rows (o := coolOpt) (by decide) hV 0 (by decide)
  have T : V.num "Fl_turb_I:tot:T" = E.num "burner.Fl_O:tot:T" := t1 "tot:T" (by simp)
  have W : V.num "Fl_turb_I:stat:W" = E.num "burner.Fl_O:stat:W" := t1 "stat:W" (by simp)
  have g : Cool.hotGas 0 coolOpt.T_safety (V.num (feed "Fl_turb_I:tot:T" "Fl_O:tot:T" 0))
      = E.num "burner.Fl_O:tot:T" + 150 := by
    rw [← T]; show Cool.hotGas 0 150 (V.num "Fl_turb_I:tot:T") = _
    simp [Cool.hotGas]
  have e : V.num (rowName 0 ++ ".W_cool") = V.num "row_0.W_cool" := rfl
  constructor
  · intro hT
    rw [w0, ← e]; exact R.cold (by rw [g]; exact hT)
  · intro hT hC
    have k := R.cooled _ rfl (by rw [g]; exact hT) (by rw [t2]; exact hC)
    rw [g, t2, t4] at k
    rw [w0, ← e, k, ← W]
    simp only [if_true]
    rfl

end
end PyCycle.OM
