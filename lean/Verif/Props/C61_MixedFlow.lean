import Verif.Proofs.MixedFlowNames
import Verif.Proofs.ShaftAlter

/-! # C61: the mixed-flow turbofan with afterburner

What a solved `MixedFlowTurbofan` of `example_cycles/mixedflow_turbofan.py` is, as a design point and off design, for any
thermodynamics, any maps, and any way of adding fuel, bleed air and the bypass stream. -/

namespace PyCycle.OM

open MFTF

/-- **C61 (interface).** In both modes the engine is accepted: every connection joins an output to an input, none is
connected twice, every promotion finds a variable. -/
theorem C61_interface (p : MftfParts) (d : Bool) : (mftf p d).group.wiring.Accepted := accepted p d

/-- **C61 (solved states).** Every converged engine can be completed, by transferring outputs to inputs, to a solved one
with the same outputs: the theorems below are about all converged engines. -/
theorem C61_complete (p : MftfParts) (d : Bool) (E : Env) (hc : (mftf p d).group.Converged E) :
    ∃ E', (mftf p d).Solved E' ∧ ∀ n ∈ (mftf p d).group.wiring.outs, E'.num n = E.num n ∧ E'.vec n = E.vec n := by
  refine Cycle.complete (accepted p d).1 ?_ hc
  simp only [mftf, List.forall_mem_cons]
  exact ⟨(shaftSub_local 3 _).rename "lp_shaft", (shaftSub_local 2 _).rename "hp_shaft", performanceSub_local _ _,
    balances_local _ _, by simp⟩

section
variable {p : MftfParts} {d : Bool} {E : Env} (h : (mftf p d).Solved E)
include h

namespace MFTF

theorem join (i : ℕ) {a b : String × String} {s : Bool} (hl : flows[i]? = some { src := a, tgt := b, stat := s }) :
    E.Joined a b := h.joined (List.mem_of_getElem? hl)

theorem conn {a b : String} (hx : (a, b) ∈ plainConns) : E.num a = E.num b :=
  (h.conn (List.mem_append_left _ hx)).1

theorem bal {b : Bal} (hb : b ∈ bals d) :
    b.Met ⟨fun v => E.num ((balances (bals d) []).inName v), fun v => E.vec ((balances (bals d) []).inName v)⟩ :=
  h.other (s := balances (bals d) []) (List.mem_of_getElem? (i := 3) rfl) b hb

theorem bconn {a b : String} (hx : (a, b) ∈ balConns d) : E.num a = E.num b :=
  (h.conn (List.mem_append_right _ hx)).1

theorem fc_laws : Atm.ambient (E.num "fc.alt") (E.num "fc.dTs") .Ps = some (E.num "fc.Fl_O:stat:P")
    ∧ Atm.ambient (E.num "fc.alt") (E.num "fc.dTs") .Ts = some (E.num "fc.Fl_O:stat:T")
    ∧ E.num "fc.Fl_O:stat:MN" = E.num "fc.MN" ∧ E.num "fc.Fl_O:stat:W" = E.num "balance.W"
    ∧ E.vec "fc.Fl_O:tot:composition" = E.vec "fc.fs.composition" := by
  obtain ⟨h1, h2, h3, h4, h5⟩ := h.flight_laws (x := "fc") (gas := p.air) (List.mem_of_getElem? (i := 0) rfl)
  exact ⟨h1, h2, h3, h4.trans (bconn h (by cases d <;> simp [balConns])).symm, h5⟩

theorem inlet_laws : E.num "inlet.Fl_O:tot:P" = E.num "fc.Fl_O:tot:P" * E.num "inlet.ram_recovery"
    ∧ E.num "inlet.F_ram" = E.num "balance.W" * E.num "fc.Fl_O:stat:V" / 32.174
    ∧ E.num "inlet.Fl_O:stat:W" = E.num "balance.W"
    ∧ E.vec "inlet.Fl_O:tot:composition" = E.vec "fc.fs.composition" := by
  obtain ⟨h1, h2, h3, h4⟩ := h.inlet_laws (x := "inlet") (gas := p.air) (d := d) (List.mem_of_getElem? (i := 1) rfl)
  have j := join h 0 (a := ("fc", "Fl_O")) (b := ("inlet", "Fl_I")) rfl
  obtain ⟨-, -, -, f1, f2⟩ := fc_laws h
  have v : E.num "inlet.Fl_I:stat:V" = E.num "fc.Fl_O:stat:V" :=
    (h.link (l := { src := ("fc", "Fl_O"), tgt := ("inlet", "Fl_I") }) (v := "stat:V")
      (List.mem_of_getElem? (i := 0) rfl) (by decide) (fun _ => rfl) rfl rfl).1.symm
  have w : E.num "inlet.Fl_I:stat:W" = E.num "balance.W" := j.W.trans f1
  have h2 : E.num "inlet.F_ram" = E.num "inlet.Fl_I:stat:W" * E.num "inlet.Fl_I:stat:V" / 32.174 := h2
  rw [w, v] at h2
  exact ⟨h1.trans (congrArg (· * _) j.P), h2, h3.trans w, (h4.trans j.C).trans f2⟩

theorem fan_laws : E.num "fan.Fl_O:tot:P" = E.num "fan.PR" * (E.num "inlet.Fl_O:tot:P" * (1 - E.num "inlet_duct.dPqP"))
    ∧ E.num "fan.Fl_O:stat:W" = E.num "balance.W"
    ∧ E.vec "fan.Fl_O:tot:composition" = E.vec "fc.fs.composition"
    ∧ (E.num "LP_Nmech" ≠ 0 → E.num "fan.trq" * E.num "LP_Nmech" = 5252.11 * E.num "fan.power") := by
  obtain ⟨d1, d2, d3⟩ := h.duct_laws (x := "inlet_duct") (gas := p.air) (d := d) (e := 0)
    (List.mem_of_getElem? (i := 2) rfl) (join h 1 (a := ("inlet", "Fl_O")) rfl)
  have L := h.compressor_laws (x := "fan") (mc := p.fan) (gas := p.air) (d := d) (N := "LP_Nmech") Turbojet.noComp
    (List.mem_of_getElem? (i := 3) rfl)
  have j := join h 2 (a := ("inlet_duct", "Fl_O")) (b := ("fan", "Fl_I")) rfl
  obtain ⟨-, -, f1, f2⟩ := inlet_laws h
  have l2 := L.mass
  rw [List.map_nil, List.sum_nil, add_zero] at l2
  exact ⟨L.pressure.trans (congrArg (_ * ·) (j.P.trans d1)), ((l2.trans j.W).trans d2).trans f1,
    ((L.composition.trans j.C).trans d3).trans f2, L.torque⟩

theorem splitter_laws : E.num "splitter.Fl_O1:tot:P" = E.num "fan.Fl_O:tot:P"
    ∧ E.num "splitter.Fl_O2:tot:P" = E.num "fan.Fl_O:tot:P"
    ∧ E.num "splitter.Fl_O1:stat:W" + E.num "splitter.Fl_O2:stat:W" = E.num "balance.W"
    ∧ (E.num "splitter.BPR" ≠ -1 → E.num "splitter.Fl_O2:stat:W" = E.num "splitter.BPR" * E.num "splitter.Fl_O1:stat:W")
    ∧ E.vec "splitter.Fl_O1:tot:composition" = E.vec "fc.fs.composition"
    ∧ E.vec "splitter.Fl_O2:tot:composition" = E.vec "fc.fs.composition" := by
  obtain ⟨h1, h2, h3, h4, h5, h6⟩ := h.splitter_laws (x := "splitter") (gas := p.air) (d := d)
    (List.mem_of_getElem? (i := 4) rfl) (join h 3 (a := ("fan", "Fl_O")) rfl)
  obtain ⟨-, f1, f2, -⟩ := fan_laws h
  exact ⟨h1, h2, h3.trans f1, h4, h5.trans f2, h6.trans f2⟩

theorem lpc_laws : E.num "lpc.Fl_O:tot:P" = E.num "lpc.PR" * (E.num "fan.Fl_O:tot:P" * (1 - E.num "splitter_core_duct.dPqP"))
    ∧ E.num "lpc.Fl_O:stat:W" = E.num "splitter.Fl_O1:stat:W"
    ∧ E.vec "lpc.Fl_O:tot:composition" = E.vec "fc.fs.composition"
    ∧ (E.num "LP_Nmech" ≠ 0 → E.num "lpc.trq" * E.num "LP_Nmech" = 5252.11 * E.num "lpc.power") := by
  obtain ⟨d1, d2, d3⟩ := h.duct_laws (x := "splitter_core_duct") (gas := p.air) (d := d) (e := 0)
    (List.mem_of_getElem? (i := 5) rfl) (join h 4 (a := ("splitter", "Fl_O1")) rfl)
  have L := h.compressor_laws (x := "lpc") (mc := p.lpc) (gas := p.air) (d := d) (N := "LP_Nmech") Turbojet.noComp
    (List.mem_of_getElem? (i := 6) rfl)
  have j := join h 5 (a := ("splitter_core_duct", "Fl_O")) (b := ("lpc", "Fl_I")) rfl
  obtain ⟨s1, -, -, -, s5, -⟩ := splitter_laws h
  have l2 := L.mass
  rw [List.map_nil, List.sum_nil, add_zero] at l2
  exact ⟨L.pressure.trans (congrArg (_ * ·) ((j.P.trans d1).trans (congrArg (· * _) s1))), (l2.trans j.W).trans d2,
    ((L.composition.trans j.C).trans d3).trans s5, L.torque⟩

theorem hpc_laws : E.num "hpc.Fl_O:tot:P" = E.num "hpc.PR" * (E.num "lpc.Fl_O:tot:P" * (1 - E.num "lpc_duct.dPqP"))
    ∧ E.num "hpc.Fl_O:stat:W" + E.num "hpc.cool1:stat:W" = E.num "splitter.Fl_O1:stat:W"
    ∧ E.num "hpc.cool1:stat:W" = E.num "hpc.cool1:frac_W" * E.num "splitter.Fl_O1:stat:W"
    ∧ E.vec "hpc.Fl_O:tot:composition" = E.vec "fc.fs.composition"
    ∧ (E.num "HP_Nmech" ≠ 0 → E.num "hpc.trq" * E.num "HP_Nmech" = 5252.11 * E.num "hpc.power") := by
  obtain ⟨d1, d2, d3⟩ := h.duct_laws (x := "lpc_duct") (gas := p.air) (d := d) (e := 0)
    (List.mem_of_getElem? (i := 7) rfl) (join h 6 (a := ("lpc", "Fl_O")) rfl)
  have L := h.compressor_laws (x := "hpc") (mc := p.hpc) (gas := p.air) (d := d) (N := "HP_Nmech") hpcNames
    (List.mem_of_getElem? (i := 8) rfl)
  have j := join h 7 (a := ("lpc_duct", "Fl_O")) (b := ("hpc", "Fl_I")) rfl
  obtain ⟨-, s2, s3, -⟩ := lpc_laws h
  have w : E.num "hpc.Fl_I:stat:W" = E.num "splitter.Fl_O1:stat:W" := (j.W.trans d2).trans s2
  have l2 := L.mass
  simp only [List.map_cons, List.map_nil, List.sum_cons, List.sum_nil, add_zero] at l2
  exact ⟨L.pressure.trans (congrArg (_ * ·) (j.P.trans d1)), l2.trans w,
    (L.bleeds "cool1" (by simp)).flow.trans (congrArg (_ * ·) w),
    ((L.composition.trans j.C).trans d3).trans s3, L.torque⟩

theorem bld3_laws : E.num "bld3.Fl_O:tot:P" = E.num "hpc.Fl_O:tot:P"
    ∧ E.num "bld3.Fl_O:stat:W" + E.num "bld3.cool3:stat:W" = E.num "hpc.Fl_O:stat:W"
    ∧ E.num "bld3.cool3:stat:W" = E.num "bld3.cool3:frac_W" * E.num "hpc.Fl_O:stat:W"
    ∧ E.vec "bld3.Fl_O:tot:composition" = E.vec "fc.fs.composition" := by
  obtain ⟨h1, h2, h3, h4⟩ := h.bleedOut_laws (x := "bld3") (gas := p.air) (d := d) bld3Names
    (List.mem_of_getElem? (i := 9) rfl) (join h 8 (a := ("hpc", "Fl_O")) rfl)
  simp only [List.map_cons, List.map_nil, List.sum_cons, List.sum_nil, add_zero] at h2
  exact ⟨h1, h2, h3 "cool3" (by simp), h4.trans (hpc_laws h).2.2.2.1⟩

theorem burner_laws : E.num "burner.Fl_O:tot:P" = E.num "hpc.Fl_O:tot:P" * (1 - E.num "burner.dPqP")
    ∧ E.num "burner.Fl_I:stat:W" = E.num "bld3.Fl_O:stat:W"
    ∧ E.vec "burner.Fl_I:tot:composition" = E.vec "fc.fs.composition" := by
  obtain ⟨h1, h2, h3⟩ := h.burner_laws (x := "burner") (gas := p.burnt) (a := p.fuel) (d := d)
    (List.mem_of_getElem? (i := 10) rfl) (join h 9 (a := ("bld3", "Fl_O")) rfl)
  obtain ⟨b1, -, -, b5⟩ := bld3_laws h
  exact ⟨h1.trans (congrArg (· * _) b1), h2, h3.trans b5⟩

theorem hpt_laws : E.num "hpt.Fl_O:tot:P" = E.num "burner.Fl_O:tot:P" / E.num "hpt.PR"
    ∧ E.num "hpt.Fl_O:stat:W" = E.num "burner.Fl_O:stat:W" + E.num "bld3.cool3:stat:W"
    ∧ (E.num "HP_Nmech" ≠ 0 → E.num "hpt.trq" * E.num "HP_Nmech" = 5252.11 * E.num "hpt.power") := by
  obtain ⟨-, L⟩ := h.turbine_laws (x := "hpt") (mt := p.hpt) (gas := p.burnt) (gb := fun _ => p.air) (ba := p.hptBleed)
    (d := d) (N := "HP_Nmech") hptNames (List.mem_of_getElem? (i := 11) rfl)
  have j := join h 10 (a := ("burner", "Fl_O")) (b := ("hpt", "Fl_I")) rfl
  have j3 := join h 21 (a := ("bld3", "cool3")) (b := ("hpt", "cool3")) (s := false) rfl
  have l2 := L.mass
  simp only [List.map_cons, List.map_nil, List.sum_cons, List.sum_nil, add_zero] at l2
  exact ⟨L.pressure.trans (congrArg (· / _) j.P), l2.trans (congrArg₂ (· + ·) j.W j3.W), L.torque⟩

theorem lpt_laws : E.num "lpt.Fl_O:tot:P" = E.num "hpt.Fl_O:tot:P" * (1 - E.num "hpt_duct.dPqP") / E.num "lpt.PR"
    ∧ E.num "lpt.Fl_O:stat:W" = E.num "hpt.Fl_O:stat:W" + E.num "hpc.cool1:stat:W"
    ∧ (E.num "LP_Nmech" ≠ 0 → E.num "lpt.trq" * E.num "LP_Nmech" = 5252.11 * E.num "lpt.power") := by
  obtain ⟨d1, d2, -⟩ := h.duct_laws (x := "hpt_duct") (gas := p.burnt) (d := d) (e := 0)
    (List.mem_of_getElem? (i := 12) rfl) (join h 11 (a := ("hpt", "Fl_O")) rfl)
  obtain ⟨-, L⟩ := h.turbine_laws (x := "lpt") (mt := p.lpt) (gas := p.burnt) (gb := fun _ => p.air) (ba := p.lptBleed)
    (d := d) (N := "LP_Nmech") lptNames (List.mem_of_getElem? (i := 13) rfl)
  have j := join h 12 (a := ("hpt_duct", "Fl_O")) (b := ("lpt", "Fl_I")) rfl
  have j1 := join h 20 (a := ("hpc", "cool1")) (b := ("lpt", "cool1")) (s := false) rfl
  have l2 := L.mass
  simp only [List.map_cons, List.map_nil, List.sum_cons, List.sum_nil, add_zero] at l2
  exact ⟨L.pressure.trans (congrArg (· / _) (j.P.trans d1)),
    l2.trans (congrArg₂ (· + ·) (j.W.trans d2) j1.W), L.torque⟩

/-- The two streams at the mixer. -/
theorem streams : E.num "mixer.Fl_I1:tot:P" = E.num "lpt.Fl_O:tot:P" * (1 - E.num "lpt_duct.dPqP")
    ∧ E.num "mixer.Fl_I1:stat:W" = E.num "lpt.Fl_O:stat:W"
    ∧ E.vec "mixer.Fl_I1:tot:composition" = E.vec "lpt.Fl_O:tot:composition"
    ∧ E.num "mixer.Fl_I2:tot:P" = E.num "fan.Fl_O:tot:P" * (1 - E.num "bypass_duct.dPqP")
    ∧ E.num "mixer.Fl_I2:stat:W" = E.num "splitter.Fl_O2:stat:W"
    ∧ E.vec "mixer.Fl_I2:tot:composition" = E.vec "fc.fs.composition" := by
  obtain ⟨d1, d2, d3⟩ := h.duct_laws (x := "lpt_duct") (gas := p.burnt) (d := d) (e := 0)
    (List.mem_of_getElem? (i := 14) rfl) (join h 13 (a := ("lpt", "Fl_O")) rfl)
  obtain ⟨e1, e2, e3⟩ := h.duct_laws (x := "bypass_duct") (gas := p.air) (d := d) (e := 0)
    (List.mem_of_getElem? (i := 15) rfl) (join h 15 (a := ("splitter", "Fl_O2")) rfl)
  have j1 := join h 14 (a := ("lpt_duct", "Fl_O")) (b := ("mixer", "Fl_I1")) rfl
  have j2 := join h 16 (a := ("bypass_duct", "Fl_O")) (b := ("mixer", "Fl_I2")) rfl
  obtain ⟨-, s2, -, -, -, s6⟩ := splitter_laws h
  exact ⟨j1.P.trans d1, j1.W.trans d2, j1.C.trans d3, (j2.P.trans e1).trans (congrArg (· * _) s2), j2.W.trans e2,
    (j2.C.trans e3).trans s6⟩

/-- The mixer is converged under its own names. -/
theorem mixed : ∃ V, (mixer p.burnt p.mix true d).Converged V ∧ ∀ n, V.num n = E.num ("mixer" ++ "." ++ n)
    ∧ V.vec n = E.vec ("mixer" ++ "." ++ n) :=
  ⟨_, h.member_plain (m := ⟨"mixer", mixer p.burnt p.mix true d, [], []⟩) (List.mem_of_getElem? (i := 16) rfl) rfl rfl
    (mixer_closed _ _ _ _), fun _ => ⟨rfl, rfl⟩⟩

/-- From the mixer to the nozzle. -/
theorem ab_laws : E.num "afterburner.Fl_O:tot:P"
      = E.num "mixer.Fl_O:tot:P" * (1 - E.num "mixer_duct.dPqP") * (1 - E.num "afterburner.dPqP")
    ∧ E.num "afterburner.Fl_I:stat:W" = E.num "mixer.Fl_O:stat:W"
    ∧ E.vec "afterburner.Fl_I:tot:composition" = E.vec "mixer.Fl_O:tot:composition" := by
  obtain ⟨d1, d2, d3⟩ := h.duct_laws (x := "mixer_duct") (gas := p.burnt) (d := d) (e := 0)
    (List.mem_of_getElem? (i := 17) rfl) (join h 17 (a := ("mixer", "Fl_O")) rfl)
  obtain ⟨h1, h2, h3⟩ := h.burner_laws (x := "afterburner") (gas := p.hot) (a := p.abFuel) (d := d)
    (List.mem_of_getElem? (i := 18) rfl) (join h 18 (a := ("mixer_duct", "Fl_O")) rfl)
  exact ⟨h1.trans (congrArg (· * _) d1), h2.trans d2, h3.trans d3⟩

theorem nozz_laws : E.num "mixed_nozz.Fl_O:tot:P" = E.num "afterburner.Fl_O:tot:P" * (1 - E.num "mixed_nozz.dPqP")
    ∧ E.num "mixed_nozz.Fl_O:stat:W" = E.num "afterburner.Fl_O:stat:W"
    ∧ E.num "mixed_nozz.PR" * E.num "fc.Fl_O:stat:P" = E.num "mixed_nozz.Fl_O:tot:P"
    ∧ E.num "mixed_nozz.Fg" = E.num "mixed_nozz.Cfg"
        * (E.num "afterburner.Fl_O:stat:W" * E.num "mixed_nozz.ideal_flow.flow:V" / 32.174)
    ∧ E.num "mixed_nozz.ideal_flow.flow:P" = E.num "fc.Fl_O:stat:P"
    ∧ E.num "mixed_nozz.ideal_flow.flow:S" = E.num "afterburner.Fl_O:tot:S"
    ∧ E.num "mixed_nozz.Fl_O:tot:h" = E.num "afterburner.Fl_O:tot:h" := by
  have j := join h 19 (a := ("afterburner", "Fl_O")) (b := ("mixed_nozz", "Fl_I")) rfl
  obtain ⟨n1, n2, n3, n4, n5, n6, n7⟩ := h.nozzle_cfg_laws (x := "mixed_nozz") (gas := p.hot) (k := .CD)
    (List.mem_of_getElem? (i := 19) rfl) j
  have e : E.num "fc.Fl_O:stat:P" = E.num "mixed_nozz.Ps_exhaust" := conn h (by simp [plainConns])
  have s : E.num "afterburner.Fl_O:tot:S" = E.num "mixed_nozz.Fl_I:tot:S" :=
    (h.link (l := { src := ("afterburner", "Fl_O"), tgt := ("mixed_nozz", "Fl_I") }) (v := "tot:S")
      (List.mem_of_getElem? (i := 19) rfl) (by decide) (fun _ => rfl) rfl rfl).1
  rw [e, s]
  exact ⟨n1, n2, n3, n4, n5, n6, n7⟩

/-- Raw powers of the shafts. -/
theorem lp_laws (hN : 0 < E.num "LP_Nmech") :
    E.num "lp_shaft.pwr_in" = 5252.11 * (2 * Real.pi / 60 / 550)
        * (max (E.num "fan.power") 0 + max (E.num "lpc.power") 0 + max (E.num "lpt.power") 0)
    ∧ E.num "lp_shaft.pwr_out" = 5252.11 * (2 * Real.pi / 60 / 550)
        * (min (E.num "fan.power") 0 + min (E.num "lpc.power") 0 + min (E.num "lpt.power") 0)
    ∧ E.num "lp_shaft.pwr_net" = 5252.11 * (2 * Real.pi / 60 / 550) * ((1 - E.num "lp_shaft.fracLoss")
        * (max (E.num "fan.power") 0 + max (E.num "lpc.power") 0 + max (E.num "lpt.power") 0)
        + (min (E.num "fan.power") 0 + min (E.num "lpc.power") 0 + min (E.num "lpt.power") 0))
        - E.num "lp_shaft.HPX" := by
  have e := h.other (s := { shaftSub 3 [.as "Nmech" "LP_Nmech"] with name := "lp_shaft" })
    (List.mem_of_getElem? (i := 0) rfl)
  have c0 : E.num "fan.trq" = E.num "lp_shaft.trq_0" := conn h (by simp [plainConns])
  have c1 : E.num "lpc.trq" = E.num "lp_shaft.trq_1" := conn h (by simp [plainConns])
  have c2 : E.num "lpt.trq" = E.num "lp_shaft.trq_2" := conn h (by simp [plainConns])
  have t0 := (fan_laws h).2.2.2 hN.ne'
  have t1 := (lpc_laws h).2.2.2 hN.ne'
  have t2 := (lpt_laws h).2.2 hN.ne'
  rw [c0] at t0
  rw [c1] at t1
  rw [c2] at t2
  obtain ⟨-, -, -, e1, -, e2, -, e3⟩ := e
  have k := Shaft.raw_powers_of_ports (n := 3) ![E.num "fan.power", E.num "lpc.power", E.num "lpt.power"] hN
    (x := shaftIn 3 ⟨fun v => E.num (({ shaftSub 3 [.as "Nmech" "LP_Nmech"] with name := "lp_shaft" } : Sub).inName v),
      fun v => E.vec (({ shaftSub 3 [.as "Nmech" "LP_Nmech"] with name := "lp_shaft" } : Sub).inName v)⟩)
    (by intro k; fin_cases k; exacts [t0, t1, t2])
  simp only [Fin.sum_univ_three] at k
  exact ⟨Eq.trans e1 k.1, Eq.trans e2 k.2.1, Eq.trans e3 k.2.2⟩

theorem hp_laws (hN : 0 < E.num "HP_Nmech") :
    E.num "hp_shaft.pwr_in" = 5252.11 * (2 * Real.pi / 60 / 550) * (max (E.num "hpc.power") 0 + max (E.num "hpt.power") 0)
    ∧ E.num "hp_shaft.pwr_out" = 5252.11 * (2 * Real.pi / 60 / 550) * (min (E.num "hpc.power") 0 + min (E.num "hpt.power") 0)
    ∧ E.num "hp_shaft.pwr_net" = 5252.11 * (2 * Real.pi / 60 / 550) * ((1 - E.num "hp_shaft.fracLoss")
        * (max (E.num "hpc.power") 0 + max (E.num "hpt.power") 0)
        + (min (E.num "hpc.power") 0 + min (E.num "hpt.power") 0)) - E.num "hp_shaft.HPX" := by
  have e := h.other (s := { shaftSub 2 [.as "Nmech" "HP_Nmech"] with name := "hp_shaft" })
    (List.mem_of_getElem? (i := 1) rfl)
  have c0 : E.num "hpc.trq" = E.num "hp_shaft.trq_0" := conn h (by simp [plainConns])
  have c1 : E.num "hpt.trq" = E.num "hp_shaft.trq_1" := conn h (by simp [plainConns])
  have t0 := (hpc_laws h).2.2.2.2 hN.ne'
  have t1 := (hpt_laws h).2.2 hN.ne'
  rw [c0] at t0
  rw [c1] at t1
  obtain ⟨-, -, -, e1, -, e2, -, e3⟩ := e
  have k := Shaft.raw_powers_of_ports (n := 2) ![E.num "hpc.power", E.num "hpt.power"] hN
    (x := shaftIn 2 ⟨fun v => E.num (({ shaftSub 2 [.as "Nmech" "HP_Nmech"] with name := "hp_shaft" } : Sub).inName v),
      fun v => E.vec (({ shaftSub 2 [.as "Nmech" "HP_Nmech"] with name := "hp_shaft" } : Sub).inName v)⟩)
    (by intro k; fin_cases k; exacts [t0, t1])
  simp only [Fin.sum_univ_two] at k
  exact ⟨Eq.trans e1 k.1, Eq.trans e2 k.2.1, Eq.trans e3 k.2.2⟩

theorem perf_laws : E.num "perf.Fn" = E.num "mixed_nozz.Fg" - E.num "inlet.F_ram"
    ∧ E.num "perf.OPR" = E.num "hpc.Fl_O:tot:P" / E.num "inlet.Fl_O:tot:P"
    ∧ E.num "perf.TSFC" = (E.num "burner.Wfuel" + E.num "afterburner.Wfuel") * 3600 / (E.num "perf.Fn" + 1e-10) := by
  have e := h.other (s := performanceSub 1 2) (List.mem_of_getElem? (i := 2) rfl)
  have c0 : E.num "mixed_nozz.Fg" = E.num "perf.Fg_0" := conn h (by simp [plainConns])
  have c1 : E.num "inlet.F_ram" = E.num "perf.ram_drag" := conn h (by simp [plainConns])
  have c2 : E.num "inlet.Fl_O:tot:P" = E.num "perf.Pt2" := conn h (by simp [plainConns])
  have c3 : E.num "hpc.Fl_O:tot:P" = E.num "perf.Pt3" := conn h (by simp [plainConns])
  have c4 : E.num "burner.Wfuel" = E.num "perf.Wfuel_0" := conn h (by simp [plainConns])
  have c5 : E.num "afterburner.Wfuel" = E.num "perf.Wfuel_1" := conn h (by simp [plainConns])
  obtain ⟨e1, -, e3, e4, -⟩ := e
  have e1 : E.num "perf.OPR" = E.num "perf.Pt3" / E.num "perf.Pt2" := e1
  have e3 : E.num "perf.Fn" = (0 + E.num "perf.Fg_0") - E.num "perf.ram_drag" := e3
  have e4 : E.num "perf.TSFC" = (0 + E.num "perf.Wfuel_0" + E.num "perf.Wfuel_1") * 3600
    / (((0 + E.num "perf.Fg_0") - E.num "perf.ram_drag") + 1e-10) := e4
  rw [← e3] at e4
  rw [c0, c1, c2, c3, c4, c5]
  exact ⟨by rw [e3, zero_add], e1, by rw [e4, zero_add]⟩

end MFTF

/-- **C61 (flight).** The engine flies at the altitude, temperature deviation and Mach number of `fc`; the nozzle
discharges against the ambient pressure of the standard atmosphere; the air keeps its composition up to the burner and
through the bypass. -/
theorem C61_flight : Atm.ambient (E.num "fc.alt") (E.num "fc.dTs") .Ps = some (E.num "fc.Fl_O:stat:P")
    ∧ Atm.ambient (E.num "fc.alt") (E.num "fc.dTs") .Ts = some (E.num "fc.Fl_O:stat:T")
    ∧ E.num "fc.Fl_O:stat:MN" = E.num "fc.MN"
    ∧ E.num "mixed_nozz.Ps_exhaust" = E.num "fc.Fl_O:stat:P"
    ∧ E.vec "burner.Fl_I:tot:composition" = E.vec "fc.fs.composition"
    ∧ E.vec "mixer.Fl_I2:tot:composition" = E.vec "fc.fs.composition" := by
  obtain ⟨f1, f2, f3, -⟩ := fc_laws h
  exact ⟨f1, f2, f3, (conn h (by simp [plainConns])).symm, (burner_laws h).2.2, (streams h).2.2.2.2.2⟩

/-- **C61 (pressures).** Along the core and along the bypass, up to the mixer, and from the mixer to the nozzle the total
pressure is multiplied by pressure ratios and loss factors and divided by the turbines' pressure ratios; the nozzle's
pressure ratio relates it to the ambient pressure; the overall pressure ratio is that of fan, boosters and compressor with
the ducts from the inlet on. -/
theorem C61_pressure :
    E.num "mixer.Fl_I1:tot:P" = E.num "fc.Fl_O:tot:P" * E.num "inlet.ram_recovery" * (1 - E.num "inlet_duct.dPqP")
      * E.num "fan.PR" * (1 - E.num "splitter_core_duct.dPqP") * E.num "lpc.PR" * (1 - E.num "lpc_duct.dPqP")
      * E.num "hpc.PR" * (1 - E.num "burner.dPqP") / E.num "hpt.PR" * (1 - E.num "hpt_duct.dPqP") / E.num "lpt.PR"
      * (1 - E.num "lpt_duct.dPqP")
    ∧ E.num "mixer.Fl_I2:tot:P" = E.num "fc.Fl_O:tot:P" * E.num "inlet.ram_recovery" * (1 - E.num "inlet_duct.dPqP")
      * E.num "fan.PR" * (1 - E.num "bypass_duct.dPqP")
    ∧ E.num "mixed_nozz.Fl_O:tot:P" = E.num "mixer.Fl_O:tot:P" * (1 - E.num "mixer_duct.dPqP")
      * (1 - E.num "afterburner.dPqP") * (1 - E.num "mixed_nozz.dPqP")
    ∧ E.num "mixed_nozz.PR" * E.num "fc.Fl_O:stat:P" = E.num "mixed_nozz.Fl_O:tot:P"
    ∧ (E.num "inlet.Fl_O:tot:P" ≠ 0 → E.num "perf.OPR" = (1 - E.num "inlet_duct.dPqP") * E.num "fan.PR"
        * (1 - E.num "splitter_core_duct.dPqP") * E.num "lpc.PR" * (1 - E.num "lpc_duct.dPqP") * E.num "hpc.PR") := by
  refine ⟨?_, ?_, ?_, (nozz_laws h).2.2.1, fun hP => ?_⟩
  · rw [(streams h).1, (lpt_laws h).1, (hpt_laws h).1, (burner_laws h).1, (hpc_laws h).1, (lpc_laws h).1,
      (fan_laws h).1, (inlet_laws h).1]; ring
  · rw [(streams h).2.2.2.1, (fan_laws h).1, (inlet_laws h).1]; ring
  · rw [(nozz_laws h).1, (ab_laws h).1]
  · rw [(perf_laws h).2.1, (hpc_laws h).1, (lpc_laws h).1, (fan_laws h).1]; field_simp

/-- **C61 (mixing plane).** In both modes the core stream enters the mixing plane with the static pressure of the bypass
stream; the extraction ratio is that of the two total pressures; the mixed stream has the impulse of both streams and, at
design, their areas together. -/
theorem C61_mixing :
    E.num "mixer.Fl_I1_calc:stat:P" = E.num "bypass_duct.Fl_O:stat:P"
    ∧ E.num "mixer.Fl_I1_calc:stat:W" = E.num "lpt.Fl_O:stat:W"
    ∧ E.num "mixer.ER" = E.num "mixer.Fl_I1:tot:P" / E.num "mixer.Fl_I2:tot:P"
    ∧ E.num "mixer.Fl_O:stat:P" * E.num "mixer.Fl_O:stat:area" + E.num "mixer.Fl_O:stat:W" * E.num "mixer.Fl_O:stat:V"
      = (E.num "bypass_duct.Fl_O:stat:P" * E.num "mixer.Fl_I1_calc:stat:area"
          + E.num "lpt.Fl_O:stat:W" * E.num "mixer.Fl_I1_calc:stat:V")
        + (E.num "bypass_duct.Fl_O:stat:P" * E.num "bypass_duct.Fl_O:stat:area"
          + E.num "splitter.Fl_O2:stat:W" * E.num "bypass_duct.Fl_O:stat:V")
    ∧ (d = true → E.num "mixer.Fl_O:stat:area"
        = E.num "mixer.Fl_I1_calc:stat:area" + E.num "bypass_duct.Fl_O:stat:area")
    ∧ (d = false → E.num "mixer.Fl_O:stat:area" = E.num "mixer.area"
        ∧ E.num "mixer.Fl_I1_calc:stat:area" = E.num "mixer.Fl_I1_stat_calc.area") := by
  obtain ⟨V, hV, e⟩ := mixed h
  obtain ⟨-, r2, -, r4, r5, -⟩ := C51_recomputed p.burnt p.mix true d V hV
  obtain ⟨m1, m2, m3, m4⟩ := C51_momentum p.burnt p.mix true d V hV
  have k := fun n => (e n).1
  simp only [mixK, mixO, if_true, Env.at, k, String.reduceAppend] at r2 r4 r5 m1 m2 m3 m4
  have l := fun {v : String} (hv : v ∈ linkOutVars) (hw : (v == "stat:W") = false) =>
    (h.link (l := { src := ("bypass_duct", "Fl_O"), tgt := ("mixer", "Fl_I2") }) (v := v)
      (List.mem_of_getElem? (i := 16) rfl) hv (fun _ => rfl) rfl rfl).1
  have l1 : E.num "bypass_duct.Fl_O:stat:P" = E.num "mixer.Fl_I2:stat:P" := l (v := "stat:P") (by decide) rfl
  have l2 : E.num "bypass_duct.Fl_O:stat:V" = E.num "mixer.Fl_I2:stat:V" := l (v := "stat:V") (by decide) rfl
  have l3 : E.num "bypass_duct.Fl_O:stat:area" = E.num "mixer.Fl_I2:stat:area" := l (v := "stat:area") (by decide) rfl
  obtain ⟨-, s2, -, -, s5, -⟩ := streams h
  have eq : E.num "mixer.Fl_I1_calc:stat:P" = E.num "bypass_duct.Fl_O:stat:P" := by
    cases d with
    | true => rw [l1]; exact r4 rfl
    | false =>
      have b : 1 * E.num "balance.lhs:BPR" = E.num "balance.rhs:BPR" := bal h (b := .of "BPR") (by simp [bals])
      have c1 : E.num "mixer.Fl_I1_calc:stat:P" = E.num "balance.lhs:BPR" := bconn h (by simp [balConns])
      have c2 : E.num "bypass_duct.Fl_O:stat:P" = E.num "balance.rhs:BPR" := bconn h (by simp [balConns])
      rw [c1, c2, ← b, one_mul]
  refine ⟨eq, r2.trans s2, m4, ?_, fun hd => ?_, fun hd => ⟨m2, r5 hd⟩⟩
  · rw [m1, eq, r2, s2, s5, ← l1, ← l2, ← l3]
  · rw [m2, m3 hd, l3]

/-- **C61 (thrust).** Net thrust is the thrust coefficient times the momentum of the jet expanded without loss from the
afterburner exit to the ambient pressure, less ram drag, the momentum of all the air at flight speed; specific fuel
consumption counts the fuel of both burners. -/
theorem C61_thrust :
    E.num "perf.Fn" = E.num "mixed_nozz.Cfg"
        * (E.num "afterburner.Fl_O:stat:W" * E.num "mixed_nozz.ideal_flow.flow:V" / 32.174)
      - E.num "balance.W" * E.num "fc.Fl_O:stat:V" / 32.174
    ∧ E.num "mixed_nozz.ideal_flow.flow:P" = E.num "fc.Fl_O:stat:P"
    ∧ E.num "mixed_nozz.ideal_flow.flow:S" = E.num "afterburner.Fl_O:tot:S"
    ∧ E.num "perf.TSFC" = (E.num "burner.Wfuel" + E.num "afterburner.Wfuel") * 3600 / (E.num "perf.Fn" + 1e-10) := by
  obtain ⟨p1, -, p3⟩ := perf_laws h
  obtain ⟨-, -, -, n4, n5, n6, -⟩ := nozz_laws h
  exact ⟨by rw [p1, n4, (inlet_laws h).2.1], n5, n6, p3⟩

/-- **C61 (targets).** In both modes burner and afterburner exit have the temperatures asked for; as a design point the
thrust and the extraction ratio are the ones asked for and the turbines get the pressure ratios the balance found; off
design the nozzle throat has the area asked for and the spools turn at the speeds the balance found. In both modes burners,
free stream and splitter get the fuel-air ratios, the flow and the bypass ratio the balance found. -/
theorem C61_targets :
    E.num "burner.Fl_O:tot:T" = E.num "balance.rhs:FAR_core" ∧ E.num "afterburner.Fl_O:tot:T" = E.num "balance.rhs:FAR_ab"
    ∧ (d = true → E.num "perf.Fn" = E.num "balance.rhs:W" ∧ E.num "mixer.ER" = E.num "balance.rhs:BPR"
      ∧ E.num "lpt.PR" = E.num "balance.lpt_PR" ∧ E.num "hpt.PR" = E.num "balance.hpt_PR")
    ∧ (d = false → E.num "mixed_nozz.Throat:stat:area" = E.num "balance.rhs:W"
      ∧ E.num "LP_Nmech" = E.num "balance.LP_Nmech" ∧ E.num "HP_Nmech" = E.num "balance.HP_Nmech")
    ∧ E.num "burner.Fl_I:FAR" = E.num "balance.FAR_core" ∧ E.num "afterburner.Fl_I:FAR" = E.num "balance.FAR_ab"
    ∧ E.num "fc.W" = E.num "balance.W" ∧ E.num "splitter.BPR" = E.num "balance.BPR" := by
  have c := fun {x y : String} (hx : (x, y) ∈ balConns d) => bconn h hx
  have b1 : 1 * E.num "balance.lhs:FAR_core" = E.num "balance.rhs:FAR_core" :=
    bal h (b := .of "FAR_core") (by cases d <;> simp [bals])
  have b2 : 1 * E.num "balance.lhs:FAR_ab" = E.num "balance.rhs:FAR_ab" :=
    bal h (b := .of "FAR_ab") (by cases d <;> simp [bals])
  have b3 : 1 * E.num "balance.lhs:W" = E.num "balance.rhs:W" := bal h (b := .of "W") (by cases d <;> simp [bals])
  have b4 : 1 * E.num "balance.lhs:BPR" = E.num "balance.rhs:BPR" := bal h (b := .of "BPR") (by cases d <;> simp [bals])
  rw [one_mul] at b1 b2 b3 b4
  have c1 : E.num "burner.Fl_O:tot:T" = E.num "balance.lhs:FAR_core" := c (by cases d <;> simp [balConns])
  have c2 : E.num "afterburner.Fl_O:tot:T" = E.num "balance.lhs:FAR_ab" := c (by cases d <;> simp [balConns])
  refine ⟨c1.trans b1, c2.trans b2, ?_, ?_, (c (by cases d <;> simp [balConns])).symm,
    (c (by cases d <;> simp [balConns])).symm, (c (by cases d <;> simp [balConns])).symm,
    (c (by cases d <;> simp [balConns])).symm⟩
  · rintro rfl
    have c3 : E.num "perf.Fn" = E.num "balance.lhs:W" := c (by simp [balConns])
    have c4 : E.num "mixer.ER" = E.num "balance.lhs:BPR" := c (by simp [balConns])
    exact ⟨c3.trans b3, c4.trans b4, (c (by simp [balConns])).symm, (c (by simp [balConns])).symm⟩
  · rintro rfl
    have c3 : E.num "mixed_nozz.Throat:stat:area" = E.num "balance.lhs:W" := c (by simp [balConns])
    exact ⟨c3.trans b3, (c (by simp [balConns])).symm, (c (by simp [balConns])).symm⟩

namespace MFTF

/-- The output of the low-pressure and of the high-pressure shaft's balance. -/
def lpBal (d : Bool) : String := if d then "lpt_PR" else "LP_Nmech"
def hpBal (d : Bool) : String := if d then "hpt_PR" else "HP_Nmech"

end MFTF

/-- **C61 (shafts), partial.** With the multiplier the code gives the balances, -1, the powers of the machines on each
spool sum to zero. Missing: shaft losses and extracted power; see `C61_refuted_extraction`. -/
theorem C61_shafts_partial (hL : 0 < E.num "LP_Nmech") (hH : 0 < E.num "HP_Nmech")
    (mL : E.num ("balance.mult:" ++ lpBal d) = -1) (mH : E.num ("balance.mult:" ++ hpBal d) = -1) :
    E.num "fan.power" + E.num "lpc.power" + E.num "lpt.power" = 0 ∧ E.num "hpc.power" + E.num "hpt.power" = 0 := by
  have c := fun {x y : String} (hx : (x, y) ∈ balConns d) => bconn h hx
  obtain ⟨l1, l2, -⟩ := lp_laws h hL
  obtain ⟨h1, h2, -⟩ := hp_laws h hH
  have bL : -1 * E.num "lp_shaft.pwr_in" = E.num "lp_shaft.pwr_out" := by
    cases d with
    | true =>
      have e : E.num "balance.mult:lpt_PR" * E.num "balance.lhs:lpt_PR" = E.num "balance.rhs:lpt_PR" :=
        bal h (b := .ofMult "lpt_PR") (by simp [bals])
      have x1 : E.num "lp_shaft.pwr_in" = E.num "balance.lhs:lpt_PR" := c (by simp [balConns])
      have x2 : E.num "lp_shaft.pwr_out" = E.num "balance.rhs:lpt_PR" := c (by simp [balConns])
      have mL : E.num "balance.mult:lpt_PR" = -1 := mL
      rw [x1, x2, ← mL]; exact e
    | false =>
      have e : E.num "balance.mult:LP_Nmech" * E.num "balance.lhs:LP_Nmech" = E.num "balance.rhs:LP_Nmech" :=
        bal h (b := .ofMult "LP_Nmech") (by simp [bals])
      have x1 : E.num "lp_shaft.pwr_in" = E.num "balance.lhs:LP_Nmech" := c (by simp [balConns])
      have x2 : E.num "lp_shaft.pwr_out" = E.num "balance.rhs:LP_Nmech" := c (by simp [balConns])
      have mL : E.num "balance.mult:LP_Nmech" = -1 := mL
      rw [x1, x2, ← mL]; exact e
  have bH : -1 * E.num "hp_shaft.pwr_in" = E.num "hp_shaft.pwr_out" := by
    cases d with
    | true =>
      have e : E.num "balance.mult:hpt_PR" * E.num "balance.lhs:hpt_PR" = E.num "balance.rhs:hpt_PR" :=
        bal h (b := .ofMult "hpt_PR") (by simp [bals])
      have x1 : E.num "hp_shaft.pwr_in" = E.num "balance.lhs:hpt_PR" := c (by simp [balConns])
      have x2 : E.num "hp_shaft.pwr_out" = E.num "balance.rhs:hpt_PR" := c (by simp [balConns])
      have mH : E.num "balance.mult:hpt_PR" = -1 := mH
      rw [x1, x2, ← mH]; exact e
    | false =>
      have e : E.num "balance.mult:HP_Nmech" * E.num "balance.lhs:HP_Nmech" = E.num "balance.rhs:HP_Nmech" :=
        bal h (b := .ofMult "HP_Nmech") (by simp [bals])
      have x1 : E.num "hp_shaft.pwr_in" = E.num "balance.lhs:HP_Nmech" := c (by simp [balConns])
      have x2 : E.num "hp_shaft.pwr_out" = E.num "balance.rhs:HP_Nmech" := c (by simp [balConns])
      have mH : E.num "balance.mult:HP_Nmech" = -1 := mH
      rw [x1, x2, ← mH]; exact e
  rw [l1, l2] at bL
  rw [h1, h2] at bH
  have hk : (5252.11 * (2 * Real.pi / 60 / 550) : ℝ) ≠ 0 := by have := Real.pi_pos; positivity
  have c0 : ∀ x : ℝ, max x 0 + min x 0 = x := fun x => by rw [max_add_min, add_zero]
  constructor
  · refine mul_left_cancel₀ hk ?_
    rw [mul_zero, ← c0 (E.num "fan.power"), ← c0 (E.num "lpc.power"), ← c0 (E.num "lpt.power")]
    linear_combination -bL
  · refine mul_left_cancel₀ hk ?_
    rw [mul_zero, ← c0 (E.num "hpc.power"), ← c0 (E.num "hpt.power")]
    linear_combination -bH

/-- **C61 (unpaid power).** What the shafts themselves report as their net power is not zero: it is minus what is
extracted and lost. -/
theorem C61_shafts_net (hL : 0 < E.num "LP_Nmech") (hH : 0 < E.num "HP_Nmech")
    (mL : E.num ("balance.mult:" ++ lpBal d) = -1) (mH : E.num ("balance.mult:" ++ hpBal d) = -1) :
    E.num "lp_shaft.pwr_net" = -(E.num "lp_shaft.HPX" + E.num "lp_shaft.fracLoss" * E.num "lp_shaft.pwr_in")
    ∧ E.num "hp_shaft.pwr_net" = -(E.num "hp_shaft.HPX" + E.num "hp_shaft.fracLoss" * E.num "hp_shaft.pwr_in") := by
  obtain ⟨s1, s2⟩ := C61_shafts_partial h hL hH mL mH
  obtain ⟨l1, -, l3⟩ := lp_laws h hL
  obtain ⟨h1, -, h3⟩ := hp_laws h hH
  have c0 : ∀ x : ℝ, max x 0 + min x 0 = x := fun x => by rw [max_add_min, add_zero]
  rw [← c0 (E.num "fan.power"), ← c0 (E.num "lpc.power"), ← c0 (E.num "lpt.power")] at s1
  rw [← c0 (E.num "hpc.power"), ← c0 (E.num "hpt.power")] at s2
  rw [l1, l3, h1, h3]
  exact ⟨by linear_combination 5252.11 * (2 * Real.pi / 60 / 550) * s1,
    by linear_combination 5252.11 * (2 * Real.pi / 60 / 550) * s2⟩

namespace MFTF

omit h in
theorem alter_shaft (h : (mftf p d).Solved E) {x N : String} {n : ℕ} (hpx loss : ℝ)
    (hxN : (x = "lp_shaft" ∧ N = "LP_Nmech" ∧ n = 3) ∨ (x = "hp_shaft" ∧ N = "HP_Nmech" ∧ n = 2)) :
    (mftf p d).Solved (shaftSet E x N n hpx loss) := by
  have hloc : ∀ s ∈ (mftf p d).group.subs, s.Local := by
    intro s hs
    rcases List.mem_append.mp hs with hs | hs
    · obtain ⟨m, -, rfl⟩ := List.mem_map.mp hs
      exact Group.asSub_local _ _ _ _
    · clear h
      have k : ∀ s ∈ (mftf p d).others, s.Local := by
        simp only [mftf, List.forall_mem_cons]
        exact ⟨(shaftSub_local 3 _).rename "lp_shaft", (shaftSub_local 2 _).rename "hp_shaft", performanceSub_local _ _,
          balances_local _ _, by simp⟩
      exact k s hs
  have pL : Plain "LP_Nmech" := by decide
  have pH : Plain "HP_Nmech" := by decide
  have conn : ∀ d, ∀ a ∈ flows.flatMap Link.conns ++ (plainConns ++ balConns d),
      (a.1 ∉ shaftNet "lp_shaft" ∧ a.2 ∉ shaftNet "lp_shaft") ∧ a.1 ∉ shaftNet "hp_shaft" ∧ a.2 ∉ shaftNet "hp_shaft" := by
    decide +kernel
  have shape : ∀ s ∈ (mftf p d).group.subs, Plain s.name ∧ s.promO = []
      ∧ (s.promI = [] ∨ ∃ N, Plain N ∧ s.promI = [.as "Nmech" N]) := by
    intro s hs
    obtain ⟨q, hq, hk⟩ := forall₂_left (parts_of p d) s hs
    have k : ∀ d, ∀ q ∈ parts d, Plain q.name ∧ (q.promI = [] ∨ q.promI = [.as "Nmech" "LP_Nmech"]
        ∨ q.promI = [.as "Nmech" "HP_Nmech"]) := by decide +kernel
    obtain ⟨k1, k2⟩ := k d q hq
    rw [hk.1, hk.2.1, hk.2.2.1]
    refine ⟨k1, rfl, ?_⟩
    rcases k2 with k2 | k2 | k2
    · exact Or.inl k2
    · exact Or.inr ⟨_, pL, k2⟩
    · exact Or.inr ⟨_, pH, k2⟩
  have names : ((mftf p d).group.subs.map (·.name)).Nodup := by
    have : (mftf p d).group.subs.map (·.name) = (parts d).map (·.name) := by cases d <;> rfl
    have k : ∀ d, ((parts d).map (·.name)).Nodup := by decide +kernel
    rw [this]; exact k d
  have uniq : ∀ s ∈ (mftf p d).group.subs, ∀ t ∈ (mftf p d).group.subs, s = t ∨ s.name ≠ t.name := by
    intro s hs t ht
    by_cases e : s.name = t.name
    · exact Or.inl (List.inj_on_of_nodup_map names hs ht e)
    · exact Or.inr e
  rcases hxN with ⟨rfl, rfl, rfl⟩ | ⟨rfl, rfl, rfl⟩
  · have hmem : ({ shaftSub 3 [.as "Nmech" "LP_Nmech"] with name := "lp_shaft" } : Sub) ∈ (mftf p d).others :=
      List.mem_of_getElem? (i := 0) rfl
    refine h.shaft_alter hpx loss (by decide) pL (by decide) hmem (by decide +kernel) (fun a ha => (conn d a ha).1) ?_
    intro s hs
    obtain ⟨s1, s2, s3⟩ := shape s hs
    exact (uniq s hs _ (List.mem_append_right _ hmem)).imp id
      fun e => ⟨hloc s hs, Sub.off_shaft (by decide) (by decide) e s1 s3 s2⟩
  · have hmem : ({ shaftSub 2 [.as "Nmech" "HP_Nmech"] with name := "hp_shaft" } : Sub) ∈ (mftf p d).others :=
      List.mem_of_getElem? (i := 1) rfl
    refine h.shaft_alter hpx loss (by decide) pH (by decide) hmem (by decide +kernel) (fun a ha => (conn d a ha).2) ?_
    intro s hs
    obtain ⟨s1, s2, s3⟩ := shape s hs
    exact (uniq s hs _ (List.mem_append_right _ hmem)).imp id
      fun e => ⟨hloc s hs, Sub.off_shaft (by decide) (by decide) e s1 s3 s2⟩

end MFTF

/-- **C61 (refuted: extraction).** Extracted power and shaft losses cost nothing: from every solved engine one gets, for
any extraction and any losses, a solved engine that differs in nothing but the shafts' own report of their net power. The
example itself asks for 250 hp (mixedflow_turbofan.py:261). -/
theorem C61_refuted_extraction (hp lp hLoss lLoss : ℝ) : ∃ E', (mftf p d).Solved E'
    ∧ E'.num "hp_shaft.HPX" = hp ∧ E'.num "lp_shaft.HPX" = lp
    ∧ E'.num "hp_shaft.fracLoss" = hLoss ∧ E'.num "lp_shaft.fracLoss" = lLoss
    ∧ ∀ n, n ∉ ["hp_shaft.HPX", "hp_shaft.fracLoss", "hp_shaft.trq_net", "hp_shaft.pwr_in_real", "hp_shaft.pwr_out_real",
        "hp_shaft.pwr_net", "lp_shaft.HPX", "lp_shaft.fracLoss", "lp_shaft.trq_net", "lp_shaft.pwr_in_real",
        "lp_shaft.pwr_out_real", "lp_shaft.pwr_net"] → E'.num n = E.num n ∧ E'.vec n = E.vec n := by
  have h1 := alter_shaft h lp lLoss (Or.inl ⟨rfl, rfl, rfl⟩)
  have h2 := alter_shaft h1 hp hLoss (Or.inr ⟨rfl, rfl, rfl⟩)
  refine ⟨_, h2, shaftSet_on.1, ?_, shaftSet_on.2, ?_, fun n hn => ?_⟩
  · rw [(shaftSet_off (by decide +kernel)).1]; exact shaftSet_on.1
  · rw [(shaftSet_off (by decide +kernel)).1]; exact shaftSet_on.2
  · have e1 : n ∉ shaftNet "hp_shaft" := fun hm => hn (List.mem_append_left
      ["lp_shaft.HPX", "lp_shaft.fracLoss", "lp_shaft.trq_net", "lp_shaft.pwr_in_real",
        "lp_shaft.pwr_out_real", "lp_shaft.pwr_net"] hm)
    have e2 : n ∉ shaftNet "lp_shaft" := fun hm => hn (List.mem_append_right
      ["hp_shaft.HPX", "hp_shaft.fracLoss", "hp_shaft.trq_net", "hp_shaft.pwr_in_real", "hp_shaft.pwr_out_real",
        "hp_shaft.pwr_net"] hm)
    rw [(shaftSet_off e1).1, (shaftSet_off e1).2, (shaftSet_off e2).1, (shaftSet_off e2).2]
    exact ⟨rfl, rfl⟩

end
end PyCycle.OM
