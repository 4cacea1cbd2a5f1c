import Verif.Proofs.TurbofanNames
import Verif.Proofs.EngineLaws
import Verif.Props.C57_Network

/-! # C60: the high-bypass turbofan

What a solved `HBTF` of `example_cycles/high_bypass_turbofan.py` is, as a design point and off design in both throttle
modes, for any thermodynamics, any maps and any way of adding fuel and bleed air. -/

namespace PyCycle.OM

open HBTF

/-- **C60 (interface).** In every mode the engine is accepted: every connection joins an output to an input, none is
connected twice, every promotion finds a variable. -/
theorem C60_interface (p : HbtfParts) (m : HbtfMode) : (hbtf p m).group.wiring.Accepted := accepted p m

/-- **C60 (solved states).** Every converged engine can be completed, by transferring outputs to inputs, to a solved one
with the same outputs: the theorems below are about all converged engines. -/
theorem C60_complete (p : HbtfParts) (m : HbtfMode) (E : Env) (hc : (hbtf p m).group.Converged E) :
    ∃ E', (hbtf p m).Solved E' ∧ ∀ n ∈ (hbtf p m).group.wiring.outs, E'.num n = E.num n ∧ E'.vec n = E.vec n := by
  refine Cycle.complete (accepted p m).1 ?_ hc
  simp only [hbtf, List.forall_mem_cons]
  exact ⟨(shaftSub_local 3 _).rename "lp_shaft", (shaftSub_local 2 _).rename "hp_shaft", performanceSub_local _ _, balances_local _ _, by simp⟩

section
variable {p : HbtfParts} {m : HbtfMode} {E : Env} (h : (hbtf p m).Solved E)
include h

namespace HBTF

theorem join (i : ℕ) {a b : String × String} {s : Bool} (hl : flows[i]? = some { src := a, tgt := b, stat := s }) :
    E.Joined a b := h.joined (List.mem_of_getElem? hl)

theorem conn {a b : String} (hx : (a, b) ∈ plainConns) : E.num a = E.num b :=
  (h.conn (List.mem_append_left _ hx)).1

theorem fc_laws : Atm.ambient (E.num "fc.alt") (E.num "fc.dTs") .Ps = some (E.num "fc.Fl_O:stat:P")
    ∧ Atm.ambient (E.num "fc.alt") (E.num "fc.dTs") .Ts = some (E.num "fc.Fl_O:stat:T")
    ∧ E.num "fc.Fl_O:stat:MN" = E.num "fc.MN" ∧ E.num "fc.Fl_O:stat:W" = E.num "balance.W"
    ∧ E.vec "fc.Fl_O:tot:composition" = E.vec "fc.fs.composition" := by
  have hc := h.member_plain (m := ⟨"fc", flightConditions p.air none, [], []⟩) (List.mem_of_getElem? (i := 0) rfl) rfl rfl
    (flight_closed _ _)
  obtain ⟨h1, h2, h3, h4⟩ := C49_flight p.air none _ hc
  have w : E.num "balance.W" = E.num "fc.W" := (h.conn (List.mem_append_right _ (by cases m <;> simp [balConns]))).1
  rw [w]
  exact ⟨h1, h2, h3.mach, h3.flow, h4 rfl⟩

theorem inlet_laws : E.num "inlet.Fl_O:tot:P" = E.num "fc.Fl_O:tot:P" * E.num "inlet.ram_recovery"
    ∧ E.num "inlet.F_ram" = E.num "balance.W" * E.num "fc.Fl_O:stat:V" / 32.174
    ∧ E.num "inlet.Fl_O:stat:W" = E.num "balance.W"
    ∧ E.vec "inlet.Fl_O:tot:composition" = E.vec "fc.fs.composition" := by
  have hc := h.member_plain (m := ⟨"inlet", inlet p.air m.isDesign true, [], []⟩) (List.mem_of_getElem? (i := 1) rfl) rfl rfl
    (inlet_closed _ _ _)
  obtain ⟨h1, -, h3, -, h5, h6, -⟩ := C50_inlet p.air m.isDesign true _ hc
  have j := join h 0 (a := ("fc", "Fl_O")) (b := ("inlet", "Fl_I")) rfl
  obtain ⟨-, -, -, f1, f2⟩ := fc_laws h
  have v : E.num "inlet.Fl_I:stat:V" = E.num "fc.Fl_O:stat:V" :=
    (h.link (l := { src := ("fc", "Fl_O"), tgt := ("inlet", "Fl_I") }) (v := "stat:V")
      (List.mem_of_getElem? (i := 0) rfl) (by decide) (fun _ => rfl) rfl rfl).1.symm
  have w : E.num "inlet.Fl_I:stat:W" = E.num "balance.W" := j.W.trans f1
  have h6 : E.num "inlet.F_ram" = E.num "inlet.Fl_I:stat:W" * E.num "inlet.Fl_I:stat:V" / 32.174 := h6
  rw [w, v] at h6
  exact ⟨h1.trans (congrArg (· * _) j.P), h6, h5.trans w, (h3.trans j.C).trans f2⟩

theorem fan_laws : E.num "fan.Fl_O:tot:P" = E.num "fan.PR" * E.num "inlet.Fl_O:tot:P"
    ∧ E.num "fan.Fl_O:stat:W" = E.num "balance.W"
    ∧ E.vec "fan.Fl_O:tot:composition" = E.vec "fc.fs.composition"
    ∧ (E.num "LP_Nmech" ≠ 0 → E.num "fan.trq" * E.num "LP_Nmech" = 5252.11 * E.num "fan.power") := by
  have L := h.compressor_laws (x := "fan") (mc := p.fan) (gas := p.air) (d := m.isDesign) (N := "LP_Nmech") Turbojet.noComp
    (List.mem_of_getElem? (i := 2) rfl)
  have j := join h 1 (a := ("inlet", "Fl_O")) (b := ("fan", "Fl_I")) rfl
  obtain ⟨-, -, f1, f2⟩ := inlet_laws h
  have l2 := L.mass
  rw [List.map_nil, List.sum_nil, add_zero] at l2
  exact ⟨L.pressure.trans (congrArg (_ * ·) j.P), (l2.trans j.W).trans f1, (L.composition.trans j.C).trans f2, L.torque⟩

theorem splitter_laws : E.num "splitter.Fl_O1:tot:P" = E.num "fan.Fl_O:tot:P"
    ∧ E.num "splitter.Fl_O2:tot:P" = E.num "fan.Fl_O:tot:P"
    ∧ E.num "splitter.Fl_O1:stat:W" + E.num "splitter.Fl_O2:stat:W" = E.num "balance.W"
    ∧ (E.num "splitter.BPR" ≠ -1 → E.num "splitter.Fl_O2:stat:W" = E.num "splitter.BPR" * E.num "splitter.Fl_O1:stat:W")
    ∧ E.vec "splitter.Fl_O1:tot:composition" = E.vec "fc.fs.composition"
    ∧ E.vec "splitter.Fl_O2:tot:composition" = E.vec "fc.fs.composition" := by
  have hc := h.member_plain (m := ⟨"splitter", splitter p.air m.isDesign true, [], []⟩) (List.mem_of_getElem? (i := 3) rfl)
    rfl rfl (splitter_closed _ _ _)
  obtain ⟨h1, h2, ⟨-, h3, h4, -⟩, ⟨-, h5, h6, -⟩, -⟩ := C50_splitter p.air m.isDesign true _ hc
  have j := join h 2 (a := ("fan", "Fl_O")) (b := ("splitter", "Fl_I")) rfl
  obtain ⟨-, f1, f2, -⟩ := fan_laws h
  exact ⟨h3.trans j.P, h5.trans j.P, (h1.trans j.W).trans f1, h2, (h4.trans j.C).trans f2, (h6.trans j.C).trans f2⟩

theorem lpc_laws : E.num "lpc.Fl_O:tot:P" = E.num "lpc.PR" * (E.num "fan.Fl_O:tot:P" * (1 - E.num "duct4.dPqP"))
    ∧ E.num "lpc.Fl_O:stat:W" = E.num "splitter.Fl_O1:stat:W"
    ∧ E.vec "lpc.Fl_O:tot:composition" = E.vec "fc.fs.composition"
    ∧ (E.num "LP_Nmech" ≠ 0 → E.num "lpc.trq" * E.num "LP_Nmech" = 5252.11 * E.num "lpc.power") := by
  obtain ⟨d1, d2, d3⟩ := h.duct_laws (x := "duct4") (gas := p.air) (d := m.isDesign) (e := 0)
    (List.mem_of_getElem? (i := 4) rfl) (join h 3 (a := ("splitter", "Fl_O1")) rfl)
  have L := h.compressor_laws (x := "lpc") (mc := p.lpc) (gas := p.air) (d := m.isDesign) (N := "LP_Nmech") Turbojet.noComp
    (List.mem_of_getElem? (i := 5) rfl)
  have j := join h 4 (a := ("duct4", "Fl_O")) (b := ("lpc", "Fl_I")) rfl
  obtain ⟨s1, -, -, -, s5, -⟩ := splitter_laws h
  have l2 := L.mass
  rw [List.map_nil, List.sum_nil, add_zero] at l2
  exact ⟨L.pressure.trans (congrArg (_ * ·) ((j.P.trans d1).trans (congrArg (· * _) s1))), (l2.trans j.W).trans d2,
    ((L.composition.trans j.C).trans d3).trans s5, L.torque⟩

theorem hpc_laws : E.num "hpc.Fl_O:tot:P" = E.num "hpc.PR" * (E.num "lpc.Fl_O:tot:P" * (1 - E.num "duct6.dPqP"))
    ∧ E.num "hpc.Fl_I:stat:W" = E.num "splitter.Fl_O1:stat:W"
    ∧ E.num "hpc.Fl_O:stat:W" + (E.num "hpc.cool1:stat:W" + (E.num "hpc.cool2:stat:W" + E.num "hpc.cust:stat:W"))
        = E.num "splitter.Fl_O1:stat:W"
    ∧ E.num "hpc.cool1:stat:W" = E.num "hpc.cool1:frac_W" * E.num "splitter.Fl_O1:stat:W"
    ∧ E.num "hpc.cool2:stat:W" = E.num "hpc.cool2:frac_W" * E.num "splitter.Fl_O1:stat:W"
    ∧ E.num "hpc.cust:stat:W" = E.num "hpc.cust:frac_W" * E.num "splitter.Fl_O1:stat:W"
    ∧ E.vec "hpc.Fl_O:tot:composition" = E.vec "fc.fs.composition"
    ∧ (E.num "HP_Nmech" ≠ 0 → E.num "hpc.trq" * E.num "HP_Nmech" = 5252.11 * E.num "hpc.power") := by
  obtain ⟨d1, d2, d3⟩ := h.duct_laws (x := "duct6") (gas := p.air) (d := m.isDesign) (e := 0)
    (List.mem_of_getElem? (i := 6) rfl) (join h 5 (a := ("lpc", "Fl_O")) rfl)
  have L := h.compressor_laws (x := "hpc") (mc := p.hpc) (gas := p.air) (d := m.isDesign) (N := "HP_Nmech") hpcNames
    (List.mem_of_getElem? (i := 7) rfl)
  have j := join h 6 (a := ("duct6", "Fl_O")) (b := ("hpc", "Fl_I")) rfl
  obtain ⟨-, s2, s3, -⟩ := lpc_laws h
  have w : E.num "hpc.Fl_I:stat:W" = E.num "splitter.Fl_O1:stat:W" := (j.W.trans d2).trans s2
  have l2 := L.mass
  simp only [List.map_cons, List.map_nil, List.sum_cons, List.sum_nil, add_zero] at l2
  exact ⟨L.pressure.trans (congrArg (_ * ·) (j.P.trans d1)), w, l2.trans w,
    (L.bleeds "cool1" (by simp)).flow.trans (congrArg (_ * ·) w),
    (L.bleeds "cool2" (by simp)).flow.trans (congrArg (_ * ·) w),
    (L.bleeds "cust" (by simp)).flow.trans (congrArg (_ * ·) w),
    ((L.composition.trans j.C).trans d3).trans s3, L.torque⟩

theorem bld3_laws : E.num "bld3.Fl_O:tot:P" = E.num "hpc.Fl_O:tot:P"
    ∧ E.num "bld3.Fl_O:stat:W" + (E.num "bld3.cool3:stat:W" + E.num "bld3.cool4:stat:W") = E.num "hpc.Fl_O:stat:W"
    ∧ E.num "bld3.cool3:stat:W" = E.num "bld3.cool3:frac_W" * E.num "hpc.Fl_O:stat:W"
    ∧ E.num "bld3.cool4:stat:W" = E.num "bld3.cool4:frac_W" * E.num "hpc.Fl_O:stat:W"
    ∧ E.vec "bld3.Fl_O:tot:composition" = E.vec "fc.fs.composition" := by
  obtain ⟨h1, h2, h3, h4⟩ := h.bleedOut_laws (x := "bld3") (gas := p.air) (d := m.isDesign) bld3Names
    (List.mem_of_getElem? (i := 8) rfl) (join h 7 (a := ("hpc", "Fl_O")) rfl)
  simp only [List.map_cons, List.map_nil, List.sum_cons, List.sum_nil, add_zero] at h2
  exact ⟨h1, h2, h3 "cool3" (by simp), h3 "cool4" (by simp), h4.trans (hpc_laws h).2.2.2.2.2.2.1⟩

theorem burner_laws : E.num "burner.Fl_O:tot:P" = E.num "hpc.Fl_O:tot:P" * (1 - E.num "burner.dPqP")
    ∧ E.num "burner.Fl_I:stat:W" = E.num "bld3.Fl_O:stat:W"
    ∧ E.vec "burner.Fl_I:tot:composition" = E.vec "fc.fs.composition" := by
  obtain ⟨V, hV, hi, ho⟩ := h.seen (m := ⟨"burner", combustor p.burnt p.fuel m.isDesign true, [], []⟩)
    (List.mem_of_getElem? (i := 9) rfl) rfl
  obtain ⟨L, -⟩ := C48_outlet p.burnt p.fuel m.isDesign true V hV
  have j := join h 8 (a := ("bld3", "Fl_O")) (b := ("burner", "Fl_I")) rfl
  obtain ⟨b1, -, -, -, b5⟩ := bld3_laws h
  have hx := (C48_interface p.burnt p.fuel m.isDesign true).2
  have x1 : V.num "Fl_I:tot:P" = E.num "hpc.Fl_O:tot:P" :=
    (hi "Fl_I:tot:P" ((hx _).mpr (List.mem_append_left _ (List.mem_append_left _ (List.mem_append_left _
      (Ifaces.port "Fl_I" (by simp) "tot:P" (by decide))))))).1.trans (j.P.trans b1)
  have x2 : V.num "dPqP" = E.num "burner.dPqP" := (hi "dPqP" ((hx _).mpr (by simp))).1
  have y1 : V.num "Fl_O:tot:P" = E.num "burner.Fl_O:tot:P" :=
    (ho _ ((Turbojet.burner_outs p.burnt p.fuel m.isDesign).1 "tot:P" (by decide))).1
  rw [x1, x2, y1] at L
  exact ⟨L, j.W, j.C.trans b5⟩

theorem hpt_laws : E.num "hpt.Fl_O:tot:P" = E.num "burner.Fl_O:tot:P" / E.num "hpt.PR"
    ∧ E.num "hpt.Fl_O:stat:W" = E.num "burner.Fl_O:stat:W" + (E.num "bld3.cool3:stat:W" + E.num "bld3.cool4:stat:W")
    ∧ (E.num "HP_Nmech" ≠ 0 → E.num "hpt.trq" * E.num "HP_Nmech" = 5252.11 * E.num "hpt.power") := by
  obtain ⟨-, L⟩ := h.turbine_laws (x := "hpt") (mt := p.hpt) (gas := p.burnt) (gb := fun _ => p.air) (ba := p.hptBleed)
    (d := m.isDesign) (N := "HP_Nmech") hptNames (List.mem_of_getElem? (i := 10) rfl)
  have j := join h 9 (a := ("burner", "Fl_O")) (b := ("hpt", "Fl_I")) rfl
  have j3 := join h 19 (a := ("bld3", "cool3")) (b := ("hpt", "cool3")) (s := false) rfl
  have j4 := join h 20 (a := ("bld3", "cool4")) (b := ("hpt", "cool4")) (s := false) rfl
  have l2 := L.mass
  simp only [List.map_cons, List.map_nil, List.sum_cons, List.sum_nil, add_zero] at l2
  exact ⟨L.pressure.trans (congrArg (· / _) j.P), l2.trans (congrArg₂ (· + ·) j.W (congrArg₂ (· + ·) j3.W j4.W)), L.torque⟩

theorem lpt_laws : E.num "lpt.Fl_O:tot:P" = E.num "hpt.Fl_O:tot:P" * (1 - E.num "duct11.dPqP") / E.num "lpt.PR"
    ∧ E.num "lpt.Fl_O:stat:W" = E.num "hpt.Fl_O:stat:W" + (E.num "hpc.cool1:stat:W" + E.num "hpc.cool2:stat:W")
    ∧ (E.num "LP_Nmech" ≠ 0 → E.num "lpt.trq" * E.num "LP_Nmech" = 5252.11 * E.num "lpt.power") := by
  obtain ⟨d1, d2, -⟩ := h.duct_laws (x := "duct11") (gas := p.burnt) (d := m.isDesign) (e := 0)
    (List.mem_of_getElem? (i := 11) rfl) (join h 10 (a := ("hpt", "Fl_O")) rfl)
  obtain ⟨-, L⟩ := h.turbine_laws (x := "lpt") (mt := p.lpt) (gas := p.burnt) (gb := fun _ => p.air) (ba := p.lptBleed)
    (d := m.isDesign) (N := "LP_Nmech") lptNames (List.mem_of_getElem? (i := 12) rfl)
  have j := join h 11 (a := ("duct11", "Fl_O")) (b := ("lpt", "Fl_I")) rfl
  have j1 := join h 17 (a := ("hpc", "cool1")) (b := ("lpt", "cool1")) (s := false) rfl
  have j2 := join h 18 (a := ("hpc", "cool2")) (b := ("lpt", "cool2")) (s := false) rfl
  have l2 := L.mass
  simp only [List.map_cons, List.map_nil, List.sum_cons, List.sum_nil, add_zero] at l2
  exact ⟨L.pressure.trans (congrArg (· / _) (j.P.trans d1)),
    l2.trans (congrArg₂ (· + ·) (j.W.trans d2) (congrArg₂ (· + ·) j1.W j2.W)), L.torque⟩

theorem core_laws : E.num "core_nozz.Fl_O:tot:P"
      = E.num "lpt.Fl_O:tot:P" * (1 - E.num "duct13.dPqP") * (1 - E.num "core_nozz.dPqP")
    ∧ E.num "core_nozz.Fl_O:stat:W" = E.num "lpt.Fl_O:stat:W"
    ∧ E.num "core_nozz.PR" * E.num "fc.Fl_O:stat:P" = E.num "core_nozz.Fl_O:tot:P"
    ∧ E.num "core_nozz.Fg" = E.num "core_nozz.Fl_O:stat:W" * E.num "core_nozz.Fl_O:stat:V" / 32.174
          * (E.num "core_nozz.Cv" * E.num "core_nozz.perf_calcs.Cang" * E.num "core_nozz.perf_calcs.CmixCorr")
        + (E.num "core_nozz.Fl_O:stat:P" - E.num "fc.Fl_O:stat:P") * E.num "core_nozz.Fl_O:stat:area" := by
  obtain ⟨d1, d2, -⟩ := h.duct_laws (x := "duct13") (gas := p.burnt) (d := m.isDesign) (e := 0)
    (List.mem_of_getElem? (i := 13) rfl) (join h 12 (a := ("lpt", "Fl_O")) rfl)
  obtain ⟨n1, n2, n3, n4⟩ := h.nozzle_laws (x := "core_nozz") (gas := p.burnt) (k := .CV)
    (List.mem_of_getElem? (i := 14) rfl) (join h 13 (a := ("duct13", "Fl_O")) rfl)
  have e : E.num "fc.Fl_O:stat:P" = E.num "core_nozz.Ps_exhaust" := conn h (by simp [plainConns])
  rw [e]
  exact ⟨n1.trans (congrArg (· * _) d1), n2.trans d2, n3, n4⟩

theorem byp_laws : E.num "byp_nozz.Fl_O:tot:P"
      = E.num "fan.Fl_O:tot:P" * (1 - E.num "duct15.dPqP") * (1 - E.num "byp_nozz.dPqP")
    ∧ E.num "byp_nozz.Fl_O:stat:W" + E.num "byp_bld.bypBld:stat:W" = E.num "splitter.Fl_O2:stat:W"
    ∧ E.num "byp_bld.bypBld:stat:W" = E.num "byp_bld.bypBld:frac_W" * E.num "splitter.Fl_O2:stat:W"
    ∧ E.num "byp_nozz.PR" * E.num "fc.Fl_O:stat:P" = E.num "byp_nozz.Fl_O:tot:P"
    ∧ E.num "byp_nozz.Fg" = E.num "byp_nozz.Fl_O:stat:W" * E.num "byp_nozz.Fl_O:stat:V" / 32.174
          * (E.num "byp_nozz.Cv" * E.num "byp_nozz.perf_calcs.Cang" * E.num "byp_nozz.perf_calcs.CmixCorr")
        + (E.num "byp_nozz.Fl_O:stat:P" - E.num "fc.Fl_O:stat:P") * E.num "byp_nozz.Fl_O:stat:area" := by
  obtain ⟨b1, b2, b3, -⟩ := h.bleedOut_laws (x := "byp_bld") (gas := p.air) (d := m.isDesign) bypNames
    (List.mem_of_getElem? (i := 15) rfl) (join h 14 (a := ("splitter", "Fl_O2")) rfl)
  obtain ⟨d1, d2, -⟩ := h.duct_laws (x := "duct15") (gas := p.air) (d := m.isDesign) (e := 0)
    (List.mem_of_getElem? (i := 16) rfl) (join h 15 (a := ("byp_bld", "Fl_O")) rfl)
  obtain ⟨n1, n2, n3, n4⟩ := h.nozzle_laws (x := "byp_nozz") (gas := p.air) (k := .CV)
    (List.mem_of_getElem? (i := 17) rfl) (join h 16 (a := ("duct15", "Fl_O")) rfl)
  have e : E.num "fc.Fl_O:stat:P" = E.num "byp_nozz.Ps_exhaust" := conn h (by simp [plainConns])
  simp only [List.map_cons, List.map_nil, List.sum_cons, List.sum_nil, add_zero] at b2
  rw [e]
  have hw : E.num "byp_nozz.Fl_O:stat:W" = E.num "byp_bld.Fl_O:stat:W" := n2.trans d2
  exact ⟨n1.trans (congrArg (· * _) (d1.trans (congrArg (· * _) (b1.trans (splitter_laws h).2.1)))),
    (congrArg (· + _) hw).trans b2, b3 "bypBld" (by simp), n3, n4⟩


/-- A shaft's powers. -/
theorem lp_laws (hN : 0 < E.num "LP_Nmech") :
    E.num "lp_shaft.pwr_in_real" = 5252.11 * (2 * Real.pi / 60 / 550) * ((1 - E.num "lp_shaft.fracLoss")
        * (max (E.num "fan.power") 0 + max (E.num "lpc.power") 0 + max (E.num "lpt.power") 0))
    ∧ E.num "lp_shaft.pwr_out_real" = 5252.11 * (2 * Real.pi / 60 / 550)
        * (min (E.num "fan.power") 0 + min (E.num "lpc.power") 0 + min (E.num "lpt.power") 0) - E.num "lp_shaft.HPX" := by
  have e := h.other (s := { shaftSub 3 [.as "Nmech" "LP_Nmech"] with name := "lp_shaft" })
    (List.mem_of_getElem? (i := 0) rfl)
  have c0 : E.num "fan.trq" = E.num "lp_shaft.trq_0" := conn h (by simp [plainConns])
  have c1 : E.num "lpc.trq" = E.num "lp_shaft.trq_1" := conn h (by simp [plainConns])
  have c2 : E.num "lpt.trq" = E.num "lp_shaft.trq_2" := conn h (by simp [plainConns])
  have t0 := (fan_laws h).2.2.2 hN.ne'
  have t1 := (lpc_laws h).2.2.2 hN.ne'
  have t2 := (lpt_laws h).2.2 hN.ne'
  rw [c0] at t0
  rw [c1] at t1
  rw [c2] at t2
  obtain ⟨-, -, -, -, e1, -, e2, -⟩ := e
  have k := Shaft.powers_of_ports (n := 3) ![E.num "fan.power", E.num "lpc.power", E.num "lpt.power"] hN
    (x := shaftIn 3 ⟨fun v => E.num (({ shaftSub 3 [.as "Nmech" "LP_Nmech"] with name := "lp_shaft" } : Sub).inName v),
      fun v => E.vec (({ shaftSub 3 [.as "Nmech" "LP_Nmech"] with name := "lp_shaft" } : Sub).inName v)⟩)
    (by intro k; fin_cases k; exacts [t0, t1, t2])
  simp only [Fin.sum_univ_three] at k
  exact ⟨Eq.trans e1 k.1, Eq.trans e2 k.2⟩

theorem hp_laws (hN : 0 < E.num "HP_Nmech") :
    E.num "hp_shaft.pwr_in_real" = 5252.11 * (2 * Real.pi / 60 / 550) * ((1 - E.num "hp_shaft.fracLoss")
        * (max (E.num "hpc.power") 0 + max (E.num "hpt.power") 0))
    ∧ E.num "hp_shaft.pwr_out_real" = 5252.11 * (2 * Real.pi / 60 / 550)
        * (min (E.num "hpc.power") 0 + min (E.num "hpt.power") 0) - E.num "hp_shaft.HPX" := by
  have e := h.other (s := { shaftSub 2 [.as "Nmech" "HP_Nmech"] with name := "hp_shaft" })
    (List.mem_of_getElem? (i := 1) rfl)
  have c0 : E.num "hpc.trq" = E.num "hp_shaft.trq_0" := conn h (by simp [plainConns])
  have c1 : E.num "hpt.trq" = E.num "hp_shaft.trq_1" := conn h (by simp [plainConns])
  have t0 := (hpc_laws h).2.2.2.2.2.2.2 hN.ne'
  have t1 := (hpt_laws h).2.2 hN.ne'
  rw [c0] at t0
  rw [c1] at t1
  obtain ⟨-, -, -, -, e1, -, e2, -⟩ := e
  have k := Shaft.powers_of_ports (n := 2) ![E.num "hpc.power", E.num "hpt.power"] hN
    (x := shaftIn 2 ⟨fun v => E.num (({ shaftSub 2 [.as "Nmech" "HP_Nmech"] with name := "hp_shaft" } : Sub).inName v),
      fun v => E.vec (({ shaftSub 2 [.as "Nmech" "HP_Nmech"] with name := "hp_shaft" } : Sub).inName v)⟩)
    (by intro k; fin_cases k; exacts [t0, t1])
  simp only [Fin.sum_univ_two] at k
  exact ⟨Eq.trans e1 k.1, Eq.trans e2 k.2⟩

theorem perf_laws : E.num "perf.Fn" = E.num "core_nozz.Fg" + E.num "byp_nozz.Fg" - E.num "inlet.F_ram"
    ∧ E.num "perf.OPR" = E.num "hpc.Fl_O:tot:P" / E.num "inlet.Fl_O:tot:P"
    ∧ E.num "perf.TSFC" = E.num "burner.Wfuel" * 3600 / (E.num "perf.Fn" + 1e-10) := by
  have e := h.other (s := performanceSub 2 1) (List.mem_of_getElem? (i := 2) rfl)
  have c0 : E.num "core_nozz.Fg" = E.num "perf.Fg_0" := conn h (by simp [plainConns])
  have c0' : E.num "byp_nozz.Fg" = E.num "perf.Fg_1" := conn h (by simp [plainConns])
  have c1 : E.num "inlet.F_ram" = E.num "perf.ram_drag" := conn h (by simp [plainConns])
  have c2 : E.num "inlet.Fl_O:tot:P" = E.num "perf.Pt2" := conn h (by simp [plainConns])
  have c3 : E.num "hpc.Fl_O:tot:P" = E.num "perf.Pt3" := conn h (by simp [plainConns])
  have c4 : E.num "burner.Wfuel" = E.num "perf.Wfuel_0" := conn h (by simp [plainConns])
  obtain ⟨e1, -, e3, e4, -⟩ := e
  have e1 : E.num "perf.OPR" = E.num "perf.Pt3" / E.num "perf.Pt2" := e1
  have e3 : E.num "perf.Fn" = (0 + E.num "perf.Fg_0" + E.num "perf.Fg_1") - E.num "perf.ram_drag" := e3
  have e4 : E.num "perf.TSFC" = (0 + E.num "perf.Wfuel_0") * 3600
    / (((0 + E.num "perf.Fg_0" + E.num "perf.Fg_1") - E.num "perf.ram_drag") + 1e-10) := e4
  rw [← e3] at e4
  rw [c0, c0', c1, c2, c3, c4]
  exact ⟨by rw [e3, zero_add], e1, by rw [e4, zero_add]⟩

/-- Balances. -/
theorem bal {b : Bal} (hb : b ∈ bals m) :
    b.Met ⟨fun v => E.num ((balances (bals m) (balProms m)).inName v), fun v => E.vec ((balances (bals m) (balProms m)).inName v)⟩ :=
  h.other (s := balances (bals m) (balProms m)) (List.mem_of_getElem? (i := 3) rfl) b hb

theorem bconn {a b : String} (hx : (a, b) ∈ balConns m) : E.num a = E.num b :=
  (h.conn (List.mem_append_right _ hx)).1

end HBTF

/-- **C60 (flight).** The engine flies at the altitude, temperature deviation and Mach number of `fc`; both nozzles
discharge against the ambient pressure of the standard atmosphere; the air keeps its composition up to the burner. -/
theorem C60_flight : Atm.ambient (E.num "fc.alt") (E.num "fc.dTs") .Ps = some (E.num "fc.Fl_O:stat:P")
    ∧ Atm.ambient (E.num "fc.alt") (E.num "fc.dTs") .Ts = some (E.num "fc.Fl_O:stat:T")
    ∧ E.num "fc.Fl_O:stat:MN" = E.num "fc.MN"
    ∧ E.num "core_nozz.Ps_exhaust" = E.num "fc.Fl_O:stat:P" ∧ E.num "byp_nozz.Ps_exhaust" = E.num "fc.Fl_O:stat:P"
    ∧ E.vec "burner.Fl_I:tot:composition" = E.vec "fc.fs.composition" := by
  obtain ⟨f1, f2, f3, -⟩ := fc_laws h
  exact ⟨f1, f2, f3, (conn h (by simp [plainConns])).symm, (conn h (by simp [plainConns])).symm, (burner_laws h).2.2⟩

/-- **C60 (pressures).** Along the core and along the bypass the total pressure is multiplied by pressure ratios and loss
factors and divided by the turbines' pressure ratios; the nozzles' pressure ratios relate it to the ambient pressure;
bleeds and splitter do not change it; the overall pressure ratio is that of fan, boosters and compressor with the ducts
between them. -/
theorem C60_pressure :
    E.num "core_nozz.Fl_O:tot:P" = E.num "fc.Fl_O:tot:P" * E.num "inlet.ram_recovery" * E.num "fan.PR"
      * (1 - E.num "duct4.dPqP") * E.num "lpc.PR" * (1 - E.num "duct6.dPqP") * E.num "hpc.PR"
      * (1 - E.num "burner.dPqP") / E.num "hpt.PR" * (1 - E.num "duct11.dPqP") / E.num "lpt.PR"
      * (1 - E.num "duct13.dPqP") * (1 - E.num "core_nozz.dPqP")
    ∧ E.num "byp_nozz.Fl_O:tot:P" = E.num "fc.Fl_O:tot:P" * E.num "inlet.ram_recovery" * E.num "fan.PR"
      * (1 - E.num "duct15.dPqP") * (1 - E.num "byp_nozz.dPqP")
    ∧ E.num "core_nozz.PR" * E.num "fc.Fl_O:stat:P" = E.num "core_nozz.Fl_O:tot:P"
    ∧ E.num "byp_nozz.PR" * E.num "fc.Fl_O:stat:P" = E.num "byp_nozz.Fl_O:tot:P"
    ∧ (E.num "inlet.Fl_O:tot:P" ≠ 0 → E.num "perf.OPR" = E.num "fan.PR" * (1 - E.num "duct4.dPqP") * E.num "lpc.PR"
        * (1 - E.num "duct6.dPqP") * E.num "hpc.PR") := by
  refine ⟨?_, ?_, (core_laws h).2.2.1, (byp_laws h).2.2.2.1, fun hP => ?_⟩
  · rw [(core_laws h).1, (lpt_laws h).1, (hpt_laws h).1, (burner_laws h).1, (hpc_laws h).1, (lpc_laws h).1,
      (fan_laws h).1, (inlet_laws h).1]; ring
  · rw [(byp_laws h).1, (fan_laws h).1, (inlet_laws h).1]; ring
  · rw [(perf_laws h).2.1, (hpc_laws h).1, (lpc_laws h).1, (fan_laws h).1]; field_simp

/-- **C60 (thrust).** Net thrust is the gross thrust of both nozzles, momentum with its losses plus pressure thrust
against the ambient pressure, less ram drag, the momentum of all the air at flight speed; specific fuel consumption is
the fuel per hour and thrust. -/
theorem C60_thrust :
    E.num "perf.Fn" = E.num "core_nozz.Fl_O:stat:W" * E.num "core_nozz.Fl_O:stat:V" / 32.174
          * (E.num "core_nozz.Cv" * E.num "core_nozz.perf_calcs.Cang" * E.num "core_nozz.perf_calcs.CmixCorr")
        + (E.num "core_nozz.Fl_O:stat:P" - E.num "fc.Fl_O:stat:P") * E.num "core_nozz.Fl_O:stat:area"
      + (E.num "byp_nozz.Fl_O:stat:W" * E.num "byp_nozz.Fl_O:stat:V" / 32.174
          * (E.num "byp_nozz.Cv" * E.num "byp_nozz.perf_calcs.Cang" * E.num "byp_nozz.perf_calcs.CmixCorr")
        + (E.num "byp_nozz.Fl_O:stat:P" - E.num "fc.Fl_O:stat:P") * E.num "byp_nozz.Fl_O:stat:area")
      - E.num "balance.W" * E.num "fc.Fl_O:stat:V" / 32.174
    ∧ E.num "perf.TSFC" = E.num "burner.Wfuel" * 3600 / (E.num "perf.Fn" + 1e-10) := by
  obtain ⟨p1, -, p3⟩ := perf_laws h
  refine ⟨?_, p3⟩
  rw [p1, (core_laws h).2.2.2, (byp_laws h).2.2.2.2, (inlet_laws h).2.1]

/-- **C60 (targets).** As a design point the thrust is `Fn_DES`, the burner exit has temperature `T4_MAX`, and the
turbines get the pressure ratios the balance found; off design the nozzle throats have the given areas, the splitter gets
the bypass ratio and the spools the speeds the balance found, and the throttle gives either the temperature `T4_MAX` or
the fraction `PC` of the thrust `Fn_max`. In every mode burner and free stream get the fuel-air ratio and the flow the
balance found. -/
theorem C60_targets :
    (m = .design → E.num "perf.Fn" = E.num "Fn_DES" ∧ E.num "burner.Fl_O:tot:T" = E.num "T4_MAX"
      ∧ E.num "lpt.PR" = E.num "balance.lpt_PR" ∧ E.num "hpt.PR" = E.num "balance.hpt_PR")
    ∧ (m = .t4 → E.num "burner.Fl_O:tot:T" = E.num "T4_MAX")
    ∧ (m = .percentThrust → E.num "perf.Fn" = E.num "PC" * E.num "Fn_max")
    ∧ (m ≠ .design → E.num "core_nozz.Throat:stat:area" = E.num "balance.rhs:W"
      ∧ E.num "byp_nozz.Throat:stat:area" = E.num "balance.rhs:BPR" ∧ E.num "splitter.BPR" = E.num "balance.BPR"
      ∧ E.num "LP_Nmech" = E.num "balance.lp_Nmech" ∧ E.num "HP_Nmech" = E.num "balance.hp_Nmech")
    ∧ E.num "burner.Fl_I:FAR" = E.num "balance.FAR" ∧ E.num "fc.W" = E.num "balance.W" := by
  have b := fun {b : Bal} (hb : b ∈ bals m) => bal h hb
  have c := fun {x y : String} (hx : (x, y) ∈ balConns m) => bconn h hx
  refine ⟨?_, ?_, ?_, ?_, (c (by cases m <;> simp [balConns])).symm, (c (by cases m <;> simp [balConns])).symm⟩
  · rintro rfl
    have b1 : 1 * E.num "balance.lhs:W" = E.num "Fn_DES" := b (b := .of "W") (by simp [bals])
    have b2 : 1 * E.num "balance.lhs:FAR" = E.num "T4_MAX" := b (b := .of "FAR") (by simp [bals])
    have c1 : E.num "perf.Fn" = E.num "balance.lhs:W" := c (by simp [balConns])
    have c2 : E.num "burner.Fl_O:tot:T" = E.num "balance.lhs:FAR" := c (by simp [balConns])
    rw [one_mul] at b1 b2
    exact ⟨c1.trans b1, c2.trans b2, (c (by simp [balConns])).symm, (c (by simp [balConns])).symm⟩
  · rintro rfl
    have b2 : 1 * E.num "balance.lhs:FAR" = E.num "T4_MAX" := b (b := .of "FAR") (by simp [bals])
    have c2 : E.num "burner.Fl_O:tot:T" = E.num "balance.lhs:FAR" := c (by simp [balConns])
    rw [one_mul] at b2
    exact c2.trans b2
  · rintro rfl
    have b2 : E.num "PC" * E.num "Fn_max" = E.num "balance.rhs:FAR" := b (b := .ofMult "FAR") (by simp [bals])
    have c2 : E.num "perf.Fn" = E.num "balance.rhs:FAR" := c (by simp [balConns])
    exact c2.trans b2.symm
  · intro hm
    have c1 : E.num "core_nozz.Throat:stat:area" = E.num "balance.lhs:W" := c (by cases m <;> simp [balConns] at hm ⊢)
    have c2 : E.num "byp_nozz.Throat:stat:area" = E.num "balance.lhs:BPR" := c (by cases m <;> simp [balConns] at hm ⊢)
    have b1 : E.num "balance.lhs:W" = E.num "balance.rhs:W" := by
      cases m with
      | design => exact absurd rfl hm
      | t4 =>
        have : 1 * E.num "balance.lhs:W" = E.num "balance.rhs:W" := b (b := .of "W") (by simp [bals])
        rwa [one_mul] at this
      | percentThrust =>
        have : 1 * E.num "balance.lhs:W" = E.num "balance.rhs:W" := b (b := .of "W") (by simp [bals])
        rwa [one_mul] at this
    have b2 : E.num "balance.lhs:BPR" = E.num "balance.rhs:BPR" := by
      cases m with
      | design => exact absurd rfl hm
      | t4 =>
        have : 1 * E.num "balance.lhs:BPR" = E.num "balance.rhs:BPR" := b (b := .of "BPR") (by simp [bals])
        rwa [one_mul] at this
      | percentThrust =>
        have : 1 * E.num "balance.lhs:BPR" = E.num "balance.rhs:BPR" := b (b := .of "BPR") (by simp [bals])
        rwa [one_mul] at this
    exact ⟨c1.trans b1, c2.trans b2, (c (by cases m <;> simp [balConns] at hm ⊢)).symm,
      (c (by cases m <;> simp [balConns] at hm ⊢)).symm, (c (by cases m <;> simp [balConns] at hm ⊢)).symm⟩

namespace HBTF

/-- The output of the low-pressure and of the high-pressure shaft's balance. -/
def lpBal (m : HbtfMode) : String := if m = .design then "lpt_PR" else "lp_Nmech"
def hpBal (m : HbtfMode) : String := if m = .design then "hpt_PR" else "hp_Nmech"

end HBTF

/-- **C60 (shafts).** With the multiplier the code gives the balances, -1, the powers on each spool balance: what the
turbine delivers, less the fractional loss, is what fan and compressors take and what is extracted. The factor is that
of `C26_refuted_round_trip`, 1 to within `10⁻⁶`. -/
theorem C60_shafts (hL : 0 < E.num "LP_Nmech") (hH : 0 < E.num "HP_Nmech")
    (mL : E.num ("balance.mult:" ++ lpBal m) = -1) (mH : E.num ("balance.mult:" ++ hpBal m) = -1) :
    5252.11 * (2 * Real.pi / 60 / 550) * ((1 - E.num "lp_shaft.fracLoss")
        * (max (E.num "fan.power") 0 + max (E.num "lpc.power") 0 + max (E.num "lpt.power") 0)
        + (min (E.num "fan.power") 0 + min (E.num "lpc.power") 0 + min (E.num "lpt.power") 0)) = E.num "lp_shaft.HPX"
    ∧ 5252.11 * (2 * Real.pi / 60 / 550) * ((1 - E.num "hp_shaft.fracLoss")
        * (max (E.num "hpc.power") 0 + max (E.num "hpt.power") 0)
        + (min (E.num "hpc.power") 0 + min (E.num "hpt.power") 0)) = E.num "hp_shaft.HPX" := by
  have c := fun {x y : String} (hx : (x, y) ∈ balConns m) => bconn h hx
  obtain ⟨l1, l2⟩ := lp_laws h hL
  obtain ⟨h1, h2⟩ := hp_laws h hH
  have bL : -1 * E.num "lp_shaft.pwr_in_real" = E.num "lp_shaft.pwr_out_real" := by
    cases m with
    | design =>
      have e : E.num "balance.mult:lpt_PR" * E.num "balance.lhs:lpt_PR" = E.num "balance.rhs:lpt_PR" :=
        bal h (b := .ofMult "lpt_PR") (by simp [bals])
      have x1 : E.num "lp_shaft.pwr_in_real" = E.num "balance.lhs:lpt_PR" := c (by simp [balConns])
      have x2 : E.num "lp_shaft.pwr_out_real" = E.num "balance.rhs:lpt_PR" := c (by simp [balConns])
      have mL : E.num "balance.mult:lpt_PR" = -1 := mL
      rw [x1, x2, ← mL]; exact e
    | t4 =>
      have e : E.num "balance.mult:lp_Nmech" * E.num "balance.lhs:lp_Nmech" = E.num "balance.rhs:lp_Nmech" :=
        bal h (b := .ofMult "lp_Nmech") (by simp [bals])
      have x1 : E.num "lp_shaft.pwr_in_real" = E.num "balance.lhs:lp_Nmech" := c (by simp [balConns])
      have x2 : E.num "lp_shaft.pwr_out_real" = E.num "balance.rhs:lp_Nmech" := c (by simp [balConns])
      have mL : E.num "balance.mult:lp_Nmech" = -1 := mL
      rw [x1, x2, ← mL]; exact e
    | percentThrust =>
      have e : E.num "balance.mult:lp_Nmech" * E.num "balance.lhs:lp_Nmech" = E.num "balance.rhs:lp_Nmech" :=
        bal h (b := .ofMult "lp_Nmech") (by simp [bals])
      have x1 : E.num "lp_shaft.pwr_in_real" = E.num "balance.lhs:lp_Nmech" := c (by simp [balConns])
      have x2 : E.num "lp_shaft.pwr_out_real" = E.num "balance.rhs:lp_Nmech" := c (by simp [balConns])
      have mL : E.num "balance.mult:lp_Nmech" = -1 := mL
      rw [x1, x2, ← mL]; exact e
  have bH : -1 * E.num "hp_shaft.pwr_in_real" = E.num "hp_shaft.pwr_out_real" := by
    cases m with
    | design =>
      have e : E.num "balance.mult:hpt_PR" * E.num "balance.lhs:hpt_PR" = E.num "balance.rhs:hpt_PR" :=
        bal h (b := .ofMult "hpt_PR") (by simp [bals])
      have x1 : E.num "hp_shaft.pwr_in_real" = E.num "balance.lhs:hpt_PR" := c (by simp [balConns])
      have x2 : E.num "hp_shaft.pwr_out_real" = E.num "balance.rhs:hpt_PR" := c (by simp [balConns])
      have mH : E.num "balance.mult:hpt_PR" = -1 := mH
      rw [x1, x2, ← mH]; exact e
    | t4 =>
      have e : E.num "balance.mult:hp_Nmech" * E.num "balance.lhs:hp_Nmech" = E.num "balance.rhs:hp_Nmech" :=
        bal h (b := .ofMult "hp_Nmech") (by simp [bals])
      have x1 : E.num "hp_shaft.pwr_in_real" = E.num "balance.lhs:hp_Nmech" := c (by simp [balConns])
      have x2 : E.num "hp_shaft.pwr_out_real" = E.num "balance.rhs:hp_Nmech" := c (by simp [balConns])
      have mH : E.num "balance.mult:hp_Nmech" = -1 := mH
      rw [x1, x2, ← mH]; exact e
    | percentThrust =>
      have e : E.num "balance.mult:hp_Nmech" * E.num "balance.lhs:hp_Nmech" = E.num "balance.rhs:hp_Nmech" :=
        bal h (b := .ofMult "hp_Nmech") (by simp [bals])
      have x1 : E.num "hp_shaft.pwr_in_real" = E.num "balance.lhs:hp_Nmech" := c (by simp [balConns])
      have x2 : E.num "hp_shaft.pwr_out_real" = E.num "balance.rhs:hp_Nmech" := c (by simp [balConns])
      have mH : E.num "balance.mult:hp_Nmech" = -1 := mH
      rw [x1, x2, ← mH]; exact e
  rw [l1, l2] at bL
  rw [h1, h2] at bH
  exact ⟨by linear_combination -bL, by linear_combination -bH⟩

end
end PyCycle.OM
