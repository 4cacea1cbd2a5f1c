import Verif.Proofs.MultiSpoolNames
import Verif.Proofs.ShaftAlter
import Verif.Props.C57_Network

/-! # C67: the turboshaft with two gas generator spools

What a solved `MultiSpoolTurboshaft` of `example_cycles/multi_spool_turboshaft.py` is, as a design point and off design, for
any thermodynamics, any maps and any way of adding fuel and bleed air. -/

namespace PyCycle.OM

open MST

/-- **C67 (interface).** In both modes the engine is accepted: every connection joins an output to an input, none is
connected twice, every promotion finds a variable. -/
theorem C67_interface (p : MstParts) (d : Bool) : (mst p d).group.wiring.Accepted := accepted p d

/-- **C67 (solved states).** Every converged engine can be completed, by transferring outputs to inputs, to a solved one
with the same outputs: the theorems below are about all converged engines. -/
theorem C67_complete (p : MstParts) (d : Bool) (E : Env) (hc : (mst p d).group.Converged E) :
    ∃ E', (mst p d).Solved E' ∧ ∀ n ∈ (mst p d).group.wiring.outs, E'.num n = E.num n ∧ E'.vec n = E.vec n := by
  refine Cycle.complete (accepted p d).1 ?_ hc
  simp only [mst, List.forall_mem_cons]
  exact ⟨(shaftSub_local 1 _).rename "lp_shaft", (shaftSub_local 2 _).rename "ip_shaft",
    (shaftSub_local 3 _).rename "hp_shaft", performanceSub_local _ _, balances_local _ _, by simp⟩

section
variable {p : MstParts} {d : Bool} {E : Env} (h : (mst p d).Solved E)
include h

namespace MST

theorem join (i : ℕ) {a b : String × String} {s : Bool} (hl : flows[i]? = some { src := a, tgt := b, stat := s }) :
    E.Joined a b := h.joined (List.mem_of_getElem? hl)

/-- From the free stream the inlet gets everything but the flow. -/
theorem start {v : String} (hv : v ∈ linkOutVars) (hne : v ≠ "stat:W") :
    E.num ("inlet" ++ "." ++ ("Fl_I" ++ ":" ++ v)) = E.num ("fc" ++ "." ++ ("Fl_O" ++ ":" ++ v))
    ∧ E.vec ("inlet" ++ "." ++ ("Fl_I" ++ ":" ++ v)) = E.vec ("fc" ++ "." ++ ("Fl_O" ++ ":" ++ v)) := by
  have := h.link (l := { src := ("fc", "Fl_O"), tgt := ("inlet", "Fl_I"), w := false })
    (List.mem_of_getElem? (i := 0) rfl) hv (fun e => absurd e hne) rfl rfl
  exact ⟨this.1.symm, this.2.symm⟩

theorem conn {a b : String} (hx : (a, b) ∈ plainConns) : E.num a = E.num b :=
  (h.conn (List.mem_append_left _ hx)).1

theorem bal {b : Bal} (hb : b ∈ bals d) :
    b.Met ⟨fun v => E.num ((balances (bals d) []).inName v), fun v => E.vec ((balances (bals d) []).inName v)⟩ :=
  h.other (s := balances (bals d) []) (List.mem_of_getElem? (i := 4) rfl) b hb

theorem bconn {a b : String} (hx : (a, b) ∈ balConns d) : E.num a = E.num b :=
  (h.conn (List.mem_append_right _ hx)).1

theorem fc_laws : Atm.ambient (E.num "fc.alt") (E.num "fc.dTs") .Ps = some (E.num "fc.Fl_O:stat:P")
    ∧ Atm.ambient (E.num "fc.alt") (E.num "fc.dTs") .Ts = some (E.num "fc.Fl_O:stat:T")
    ∧ E.num "fc.Fl_O:stat:MN" = E.num "fc.MN" ∧ E.num "fc.Fl_O:stat:W" = E.num "fc.W"
    ∧ E.vec "fc.Fl_O:tot:composition" = E.vec "fc.fs.composition" :=
  h.flight_laws (x := "fc") (gas := p.air) (List.mem_of_getElem? (i := 0) rfl)

theorem inlet_laws : E.num "inlet.Fl_O:tot:P" = E.num "fc.Fl_O:tot:P" * E.num "inlet.ram_recovery"
    ∧ E.num "inlet.F_ram" = E.num "balance.W" * E.num "fc.Fl_O:stat:V" / 32.174
    ∧ E.num "inlet.Fl_O:stat:W" = E.num "balance.W"
    ∧ E.vec "inlet.Fl_O:tot:composition" = E.vec "fc.fs.composition" := by
  obtain ⟨h1, h2, h3, h4⟩ := h.inlet_laws (x := "inlet") (gas := p.air) (d := d) (List.mem_of_getElem? (i := 1) rfl)
  have w : E.num "balance.W" = E.num "inlet.Fl_I:stat:W" := bconn h (by cases d <;> simp [balConns])
  have v : E.num "inlet.Fl_I:stat:V" = E.num "fc.Fl_O:stat:V" := (start h (v := "stat:V") (by decide) (by decide)).1
  have pp : E.num "inlet.Fl_I:tot:P" = E.num "fc.Fl_O:tot:P" := (start h (v := "tot:P") (by decide) (by decide)).1
  have cc : E.vec "inlet.Fl_I:tot:composition" = E.vec "fc.Fl_O:tot:composition" :=
    (start h (v := "tot:composition") (by decide) (by decide)).2
  have h2 : E.num "inlet.F_ram" = E.num "inlet.Fl_I:stat:W" * E.num "inlet.Fl_I:stat:V" / 32.174 := h2
  rw [← w, v] at h2
  exact ⟨h1.trans (congrArg (· * _) pp), h2, h3.trans w.symm, (h4.trans cc).trans (fc_laws h).2.2.2.2⟩

/-- The duct ahead of the compressors. -/
theorem duct1_laws : E.num "duct1.Fl_O:tot:P" = E.num "inlet.Fl_O:tot:P" * (1 - E.num "duct1.dPqP")
    ∧ E.num "duct1.Fl_O:stat:W" = E.num "balance.W"
    ∧ E.vec "duct1.Fl_O:tot:composition" = E.vec "fc.fs.composition" := by
  obtain ⟨d1, d2, d3⟩ := h.duct_laws (x := "duct1") (gas := p.air) (d := d) (e := 0)
    (List.mem_of_getElem? (i := 2) rfl) (join h 1 (a := ("inlet", "Fl_O")) rfl)
  obtain ⟨-, -, f1, f2⟩ := inlet_laws h
  exact ⟨d1, d2.trans f1, d3.trans f2⟩

theorem lpc_laws : E.num "lpc.Fl_O:tot:P" = E.num "lpc.PR" * E.num "duct1.Fl_O:tot:P"
    ∧ E.num "lpc.Fl_O:stat:W" = E.num "balance.W"
    ∧ E.vec "lpc.Fl_O:tot:composition" = E.vec "fc.fs.composition"
    ∧ (E.num "IP_Nmech" ≠ 0 → E.num "lpc.trq" * E.num "IP_Nmech" = 5252.11 * E.num "lpc.power") := by
  have L := h.compressor_laws (x := "lpc") (mc := p.lpc) (gas := p.air) (d := d) (N := "IP_Nmech") Turbojet.noComp
    (List.mem_of_getElem? (i := 3) rfl)
  have j := join h 2 (a := ("duct1", "Fl_O")) (b := ("lpc", "Fl_I")) rfl
  obtain ⟨-, f1, f2⟩ := duct1_laws h
  have l2 := L.mass
  rw [List.map_nil, List.sum_nil, add_zero] at l2
  exact ⟨L.pressure.trans (congrArg (_ * ·) j.P), (l2.trans j.W).trans f1, (L.composition.trans j.C).trans f2, L.torque⟩

theorem axi_laws : E.num "hpc_axi.Fl_O:tot:P" = E.num "hpc_axi.PR" * (E.num "lpc.Fl_O:tot:P" * (1 - E.num "icduct.dPqP"))
    ∧ E.num "hpc_axi.Fl_O:stat:W" = E.num "balance.W"
    ∧ E.vec "hpc_axi.Fl_O:tot:composition" = E.vec "fc.fs.composition"
    ∧ (E.num "HP_Nmech" ≠ 0 → E.num "hpc_axi.trq" * E.num "HP_Nmech" = 5252.11 * E.num "hpc_axi.power") := by
  obtain ⟨d1, d2, d3⟩ := h.duct_laws (x := "icduct") (gas := p.air) (d := d) (e := 0)
    (List.mem_of_getElem? (i := 4) rfl) (join h 3 (a := ("lpc", "Fl_O")) rfl)
  have L := h.compressor_laws (x := "hpc_axi") (mc := p.axi) (gas := p.air) (d := d) (N := "HP_Nmech") Turbojet.noComp
    (List.mem_of_getElem? (i := 5) rfl)
  have j := join h 4 (a := ("icduct", "Fl_O")) (b := ("hpc_axi", "Fl_I")) rfl
  obtain ⟨-, f1, f2, -⟩ := lpc_laws h
  have l2 := L.mass
  rw [List.map_nil, List.sum_nil, add_zero] at l2
  exact ⟨L.pressure.trans (congrArg (_ * ·) (j.P.trans d1)), ((l2.trans j.W).trans d2).trans f1,
    ((L.composition.trans j.C).trans d3).trans f2, L.torque⟩

theorem bld25_laws : E.num "bld25.Fl_O:tot:P" = E.num "hpc_axi.Fl_O:tot:P"
    ∧ E.num "bld25.Fl_O:stat:W" + (E.num "bld25.cool1:stat:W" + E.num "bld25.cool2:stat:W") = E.num "balance.W"
    ∧ E.num "bld25.cool1:stat:W" = E.num "bld25.cool1:frac_W" * E.num "balance.W"
    ∧ E.num "bld25.cool2:stat:W" = E.num "bld25.cool2:frac_W" * E.num "balance.W"
    ∧ E.vec "bld25.Fl_O:tot:composition" = E.vec "fc.fs.composition" := by
  obtain ⟨h1, h2, h3, h4⟩ := h.bleedOut_laws (x := "bld25") (gas := p.air) (d := d) bld25Names
    (List.mem_of_getElem? (i := 6) rfl) (join h 5 (a := ("hpc_axi", "Fl_O")) rfl)
  simp only [List.map_cons, List.map_nil, List.sum_cons, List.sum_nil, add_zero] at h2
  have w := (axi_laws h).2.1
  exact ⟨h1, h2.trans w, (h3 "cool1" (by simp)).trans (congrArg (_ * ·) w), (h3 "cool2" (by simp)).trans (congrArg (_ * ·) w),
    h4.trans (axi_laws h).2.2.1⟩

theorem centri_laws : E.num "hpc_centri.Fl_O:tot:P" = E.num "hpc_centri.PR" * E.num "hpc_axi.Fl_O:tot:P"
    ∧ E.num "hpc_centri.Fl_O:stat:W" = E.num "bld25.Fl_O:stat:W"
    ∧ E.vec "hpc_centri.Fl_O:tot:composition" = E.vec "fc.fs.composition"
    ∧ (E.num "HP_Nmech" ≠ 0 → E.num "hpc_centri.trq" * E.num "HP_Nmech" = 5252.11 * E.num "hpc_centri.power") := by
  have L := h.compressor_laws (x := "hpc_centri") (mc := p.centri) (gas := p.air) (d := d) (N := "HP_Nmech") Turbojet.noComp
    (List.mem_of_getElem? (i := 7) rfl)
  have j := join h 6 (a := ("bld25", "Fl_O")) (b := ("hpc_centri", "Fl_I")) rfl
  obtain ⟨f1, -, -, -, f2⟩ := bld25_laws h
  have l2 := L.mass
  rw [List.map_nil, List.sum_nil, add_zero] at l2
  exact ⟨L.pressure.trans (congrArg (_ * ·) (j.P.trans f1)), l2.trans j.W, (L.composition.trans j.C).trans f2, L.torque⟩

theorem bld3_laws : E.num "bld3.Fl_O:tot:P" = E.num "hpc_centri.Fl_O:tot:P"
    ∧ E.num "bld3.Fl_O:stat:W" + (E.num "bld3.cool3:stat:W" + E.num "bld3.cool4:stat:W") = E.num "bld25.Fl_O:stat:W"
    ∧ E.num "bld3.cool3:stat:W" = E.num "bld3.cool3:frac_W" * E.num "bld25.Fl_O:stat:W"
    ∧ E.num "bld3.cool4:stat:W" = E.num "bld3.cool4:frac_W" * E.num "bld25.Fl_O:stat:W"
    ∧ E.vec "bld3.Fl_O:tot:composition" = E.vec "fc.fs.composition" := by
  obtain ⟨h1, h2, h3, h4⟩ := h.bleedOut_laws (x := "bld3") (gas := p.air) (d := d) HBTF.bld3Names
    (List.mem_of_getElem? (i := 8) rfl) (join h 7 (a := ("hpc_centri", "Fl_O")) rfl)
  simp only [List.map_cons, List.map_nil, List.sum_cons, List.sum_nil, add_zero] at h2
  have w := (centri_laws h).2.1
  exact ⟨h1, h2.trans w, (h3 "cool3" (by simp)).trans (congrArg (_ * ·) w), (h3 "cool4" (by simp)).trans (congrArg (_ * ·) w),
    h4.trans (centri_laws h).2.2.1⟩

theorem burner_laws : E.num "burner.Fl_O:tot:P"
      = E.num "hpc_centri.Fl_O:tot:P" * (1 - E.num "duct6.dPqP") * (1 - E.num "burner.dPqP")
    ∧ E.num "burner.Fl_I:stat:W" = E.num "bld3.Fl_O:stat:W"
    ∧ E.vec "burner.Fl_I:tot:composition" = E.vec "fc.fs.composition" := by
  obtain ⟨d1, d2, d3⟩ := h.duct_laws (x := "duct6") (gas := p.air) (d := d) (e := 0)
    (List.mem_of_getElem? (i := 9) rfl) (join h 8 (a := ("bld3", "Fl_O")) rfl)
  obtain ⟨h1, h2, h3⟩ := h.burner_laws (x := "burner") (gas := p.burnt) (a := p.fuel) (d := d)
    (List.mem_of_getElem? (i := 10) rfl) (join h 9 (a := ("duct6", "Fl_O")) rfl)
  obtain ⟨b1, -, -, -, b5⟩ := bld3_laws h
  exact ⟨h1.trans (congrArg (· * _) (d1.trans (congrArg (· * _) b1))), h2.trans d2, (h3.trans d3).trans b5⟩

theorem hpt_laws : E.num "hpt.Fl_O:tot:P" = E.num "burner.Fl_O:tot:P" / E.num "hpt.PR"
    ∧ E.num "hpt.Fl_O:stat:W" = E.num "burner.Fl_O:stat:W" + (E.num "bld3.cool3:stat:W" + E.num "bld3.cool4:stat:W")
    ∧ (E.num "HP_Nmech" ≠ 0 → E.num "hpt.trq" * E.num "HP_Nmech" = 5252.11 * E.num "hpt.power") := by
  obtain ⟨-, L⟩ := h.turbine_laws (x := "hpt") (mt := p.hpt) (gas := p.burnt) (gb := fun _ => p.air) (ba := p.hptBleed)
    (d := d) (N := "HP_Nmech") HBTF.hptNames (List.mem_of_getElem? (i := 11) rfl)
  have j := join h 10 (a := ("burner", "Fl_O")) (b := ("hpt", "Fl_I")) rfl
  have j3 := join h 19 (a := ("bld3", "cool3")) (b := ("hpt", "cool3")) (s := false) rfl
  have j4 := join h 20 (a := ("bld3", "cool4")) (b := ("hpt", "cool4")) (s := false) rfl
  have l2 := L.mass
  simp only [List.map_cons, List.map_nil, List.sum_cons, List.sum_nil, add_zero] at l2
  exact ⟨L.pressure.trans (congrArg (· / _) j.P), l2.trans (congrArg₂ (· + ·) j.W (congrArg₂ (· + ·) j3.W j4.W)), L.torque⟩

theorem lpt_laws : E.num "lpt.Fl_O:tot:P" = E.num "hpt.Fl_O:tot:P" * (1 - E.num "duct43.dPqP") / E.num "lpt.PR"
    ∧ E.num "lpt.Fl_O:stat:W" = E.num "hpt.Fl_O:stat:W" + (E.num "bld25.cool1:stat:W" + E.num "bld25.cool2:stat:W")
    ∧ (E.num "IP_Nmech" ≠ 0 → E.num "lpt.trq" * E.num "IP_Nmech" = 5252.11 * E.num "lpt.power") := by
  obtain ⟨d1, d2, -⟩ := h.duct_laws (x := "duct43") (gas := p.burnt) (d := d) (e := 0)
    (List.mem_of_getElem? (i := 12) rfl) (join h 11 (a := ("hpt", "Fl_O")) rfl)
  obtain ⟨-, L⟩ := h.turbine_laws (x := "lpt") (mt := p.lpt) (gas := p.burnt) (gb := fun _ => p.air) (ba := p.lptBleed)
    (d := d) (N := "IP_Nmech") HBTF.lptNames (List.mem_of_getElem? (i := 13) rfl)
  have j := join h 12 (a := ("duct43", "Fl_O")) (b := ("lpt", "Fl_I")) rfl
  have j1 := join h 17 (a := ("bld25", "cool1")) (b := ("lpt", "cool1")) (s := false) rfl
  have j2 := join h 18 (a := ("bld25", "cool2")) (b := ("lpt", "cool2")) (s := false) rfl
  have l2 := L.mass
  simp only [List.map_cons, List.map_nil, List.sum_cons, List.sum_nil, add_zero] at l2
  exact ⟨L.pressure.trans (congrArg (· / _) (j.P.trans d1)),
    l2.trans (congrArg₂ (· + ·) (j.W.trans d2) (congrArg₂ (· + ·) j1.W j2.W)), L.torque⟩

theorem pt_laws : E.num "pt.Fl_O:tot:P" = E.num "lpt.Fl_O:tot:P" * (1 - E.num "itduct.dPqP") / E.num "pt.PR"
    ∧ E.num "pt.Fl_O:stat:W" = E.num "lpt.Fl_O:stat:W"
    ∧ (E.num "LP_Nmech" ≠ 0 → E.num "pt.trq" * E.num "LP_Nmech" = 5252.11 * E.num "pt.power") := by
  obtain ⟨d1, d2, -⟩ := h.duct_laws (x := "itduct") (gas := p.burnt) (d := d) (e := 0)
    (List.mem_of_getElem? (i := 14) rfl) (join h 13 (a := ("lpt", "Fl_O")) rfl)
  obtain ⟨-, L⟩ := h.turbine_laws (x := "pt") (mt := p.pt) (gas := p.burnt) (gb := fun _ => p.air) (ba := p.ptBleed)
    (d := d) (N := "LP_Nmech") Turbojet.noTurb (List.mem_of_getElem? (i := 15) rfl)
  have j := join h 14 (a := ("itduct", "Fl_O")) (b := ("pt", "Fl_I")) rfl
  have l2 := L.mass
  rw [List.map_nil, List.sum_nil, add_zero] at l2
  exact ⟨L.pressure.trans (congrArg (· / _) (j.P.trans d1)), (l2.trans j.W).trans d2, L.torque⟩

theorem nozz_laws : E.num "nozzle.Fl_O:tot:P"
      = E.num "pt.Fl_O:tot:P" * (1 - E.num "duct12.dPqP") * (1 - E.num "nozzle.dPqP")
    ∧ E.num "nozzle.Fl_O:stat:W" = E.num "lpt.Fl_O:stat:W"
    ∧ E.num "nozzle.PR" * E.num "fc.Fl_O:stat:P" = E.num "nozzle.Fl_O:tot:P"
    ∧ E.num "nozzle.Fg" = E.num "nozzle.Fl_O:stat:W" * E.num "nozzle.Fl_O:stat:V" / 32.174
          * (E.num "nozzle.Cv" * E.num "nozzle.perf_calcs.Cang" * E.num "nozzle.perf_calcs.CmixCorr")
        + (E.num "nozzle.Fl_O:stat:P" - E.num "fc.Fl_O:stat:P") * E.num "nozzle.Fl_O:stat:area" := by
  obtain ⟨d1, d2, -⟩ := h.duct_laws (x := "duct12") (gas := p.burnt) (d := d) (e := 0)
    (List.mem_of_getElem? (i := 16) rfl) (join h 15 (a := ("pt", "Fl_O")) rfl)
  obtain ⟨n1, n2, n3, n4⟩ := h.nozzle_laws (x := "nozzle") (gas := p.burnt) (k := .CV)
    (List.mem_of_getElem? (i := 17) rfl) (join h 16 (a := ("duct12", "Fl_O")) rfl)
  have e : E.num "fc.Fl_O:stat:P" = E.num "nozzle.Ps_exhaust" := conn h (by simp [plainConns])
  rw [e]
  exact ⟨n1.trans (congrArg (· * _) d1), (n2.trans d2).trans (pt_laws h).2.1, n3, n4⟩

/-- Powers of the shafts. -/
theorem lp_laws (hN : 0 < E.num "LP_Nmech") :
    E.num "lp_shaft.pwr_in" = 5252.11 * (2 * Real.pi / 60 / 550) * max (E.num "pt.power") 0
    ∧ E.num "lp_shaft.pwr_net" = 5252.11 * (2 * Real.pi / 60 / 550) * ((1 - E.num "lp_shaft.fracLoss")
        * max (E.num "pt.power") 0 + min (E.num "pt.power") 0) - E.num "lp_shaft.HPX" := by
  have e := h.other (s := { shaftSub 1 [.as "Nmech" "LP_Nmech"] with name := "lp_shaft" })
    (List.mem_of_getElem? (i := 0) rfl)
  have c0 : E.num "pt.trq" = E.num "lp_shaft.trq_0" := conn h (by simp [plainConns])
  have t0 := (pt_laws h).2.2 hN.ne'
  rw [c0] at t0
  obtain ⟨-, -, -, e1, -, -, -, e3⟩ := e
  have k := Shaft.raw_powers_of_ports (n := 1) ![E.num "pt.power"] hN
    (x := shaftIn 1 ⟨fun v => E.num (({ shaftSub 1 [.as "Nmech" "LP_Nmech"] with name := "lp_shaft" } : Sub).inName v),
      fun v => E.vec (({ shaftSub 1 [.as "Nmech" "LP_Nmech"] with name := "lp_shaft" } : Sub).inName v)⟩)
    (by intro k; fin_cases k; exact t0)
  simp only [Fin.sum_univ_one] at k
  exact ⟨Eq.trans e1 k.1, Eq.trans e3 k.2.2⟩

theorem ip_laws (hN : 0 < E.num "IP_Nmech") :
    E.num "ip_shaft.pwr_net" = 5252.11 * (2 * Real.pi / 60 / 550) * ((1 - E.num "ip_shaft.fracLoss")
        * (max (E.num "lpc.power") 0 + max (E.num "lpt.power") 0)
        + (min (E.num "lpc.power") 0 + min (E.num "lpt.power") 0)) - E.num "ip_shaft.HPX" := by
  have e := h.other (s := { shaftSub 2 [.as "Nmech" "IP_Nmech"] with name := "ip_shaft" })
    (List.mem_of_getElem? (i := 1) rfl)
  have c0 : E.num "lpc.trq" = E.num "ip_shaft.trq_0" := conn h (by simp [plainConns])
  have c1 : E.num "lpt.trq" = E.num "ip_shaft.trq_1" := conn h (by simp [plainConns])
  have t0 := (lpc_laws h).2.2.2 hN.ne'
  have t1 := (lpt_laws h).2.2 hN.ne'
  rw [c0] at t0
  rw [c1] at t1
  obtain ⟨-, -, -, -, -, -, -, e3⟩ := e
  have k := Shaft.raw_powers_of_ports (n := 2) ![E.num "lpc.power", E.num "lpt.power"] hN
    (x := shaftIn 2 ⟨fun v => E.num (({ shaftSub 2 [.as "Nmech" "IP_Nmech"] with name := "ip_shaft" } : Sub).inName v),
      fun v => E.vec (({ shaftSub 2 [.as "Nmech" "IP_Nmech"] with name := "ip_shaft" } : Sub).inName v)⟩)
    (by intro k; fin_cases k; exacts [t0, t1])
  simp only [Fin.sum_univ_two] at k
  exact Eq.trans e3 k.2.2

theorem hp_laws (hN : 0 < E.num "HP_Nmech") :
    E.num "hp_shaft.pwr_net" = 5252.11 * (2 * Real.pi / 60 / 550) * ((1 - E.num "hp_shaft.fracLoss")
        * (max (E.num "hpc_axi.power") 0 + max (E.num "hpc_centri.power") 0 + max (E.num "hpt.power") 0)
        + (min (E.num "hpc_axi.power") 0 + min (E.num "hpc_centri.power") 0 + min (E.num "hpt.power") 0))
      - E.num "hp_shaft.HPX" := by
  have e := h.other (s := { shaftSub 3 [.as "Nmech" "HP_Nmech"] with name := "hp_shaft" })
    (List.mem_of_getElem? (i := 2) rfl)
  have c0 : E.num "hpc_axi.trq" = E.num "hp_shaft.trq_0" := conn h (by simp [plainConns])
  have c1 : E.num "hpc_centri.trq" = E.num "hp_shaft.trq_1" := conn h (by simp [plainConns])
  have c2 : E.num "hpt.trq" = E.num "hp_shaft.trq_2" := conn h (by simp [plainConns])
  have t0 := (axi_laws h).2.2.2 hN.ne'
  have t1 := (centri_laws h).2.2.2 hN.ne'
  have t2 := (hpt_laws h).2.2 hN.ne'
  rw [c0] at t0
  rw [c1] at t1
  rw [c2] at t2
  obtain ⟨-, -, -, -, -, -, -, e3⟩ := e
  have k := Shaft.raw_powers_of_ports (n := 3) ![E.num "hpc_axi.power", E.num "hpc_centri.power", E.num "hpt.power"] hN
    (x := shaftIn 3 ⟨fun v => E.num (({ shaftSub 3 [.as "Nmech" "HP_Nmech"] with name := "hp_shaft" } : Sub).inName v),
      fun v => E.vec (({ shaftSub 3 [.as "Nmech" "HP_Nmech"] with name := "hp_shaft" } : Sub).inName v)⟩)
    (by intro k; fin_cases k; exacts [t0, t1, t2])
  simp only [Fin.sum_univ_three] at k
  exact Eq.trans e3 k.2.2

theorem perf_laws : E.num "perf.Fn" = E.num "nozzle.Fg" - E.num "inlet.F_ram"
    ∧ E.num "perf.OPR" = E.num "hpc_centri.Fl_O:tot:P" / E.num "duct1.Fl_O:tot:P"
    ∧ E.num "perf.PSFC" = E.num "burner.Wfuel" * 3600 / E.num "lp_shaft.pwr_in" := by
  have e := h.other (s := performanceSub 1 1) (List.mem_of_getElem? (i := 3) rfl)
  have c0 : E.num "nozzle.Fg" = E.num "perf.Fg_0" := conn h (by simp [plainConns])
  have c1 : E.num "inlet.F_ram" = E.num "perf.ram_drag" := conn h (by simp [plainConns])
  have c2 : E.num "duct1.Fl_O:tot:P" = E.num "perf.Pt2" := conn h (by simp [plainConns])
  have c3 : E.num "hpc_centri.Fl_O:tot:P" = E.num "perf.Pt3" := conn h (by simp [plainConns])
  have c4 : E.num "burner.Wfuel" = E.num "perf.Wfuel_0" := conn h (by simp [plainConns])
  have c5 : E.num "lp_shaft.pwr_in" = E.num "perf.power" := conn h (by simp [plainConns])
  obtain ⟨e1, -, e3, -, e5, -⟩ := e
  have e1 : E.num "perf.OPR" = E.num "perf.Pt3" / E.num "perf.Pt2" := e1
  have e3 : E.num "perf.Fn" = (0 + E.num "perf.Fg_0") - E.num "perf.ram_drag" := e3
  have e5 : E.num "perf.PSFC" = (0 + E.num "perf.Wfuel_0") * 3600 / E.num "perf.power" := e5
  rw [c0, c1, c2, c3, c4, c5]
  exact ⟨by rw [e3, zero_add], e1, by rw [e5, zero_add]⟩

end MST

/-- **C67 (flight).** The engine flies at the altitude, temperature deviation and Mach number of `fc`; the nozzle
discharges against the ambient pressure of the standard atmosphere; the air keeps its composition up to the burner. -/
theorem C67_flight : Atm.ambient (E.num "fc.alt") (E.num "fc.dTs") .Ps = some (E.num "fc.Fl_O:stat:P")
    ∧ Atm.ambient (E.num "fc.alt") (E.num "fc.dTs") .Ts = some (E.num "fc.Fl_O:stat:T")
    ∧ E.num "fc.Fl_O:stat:MN" = E.num "fc.MN"
    ∧ E.num "nozzle.Ps_exhaust" = E.num "fc.Fl_O:stat:P"
    ∧ E.vec "burner.Fl_I:tot:composition" = E.vec "fc.fs.composition" := by
  obtain ⟨f1, f2, f3, -⟩ := fc_laws h
  exact ⟨f1, f2, f3, (conn h (by simp [plainConns])).symm, (burner_laws h).2.2⟩

/-- **C67 (pressures).** Total pressure is multiplied by ram recovery, the three compressors' pressure ratios and the loss
factors of ducts, burner and nozzle and divided by the pressure ratios of the three turbines; bleeding does not change it;
the nozzle's pressure ratio relates it to the ambient pressure; the overall pressure ratio is that of the compressors and
the duct between them. -/
theorem C67_pressure :
    E.num "burner.Fl_O:tot:P" = E.num "fc.Fl_O:tot:P" * E.num "inlet.ram_recovery" * (1 - E.num "duct1.dPqP")
      * E.num "lpc.PR" * (1 - E.num "icduct.dPqP") * E.num "hpc_axi.PR" * E.num "hpc_centri.PR"
      * (1 - E.num "duct6.dPqP") * (1 - E.num "burner.dPqP")
    ∧ E.num "nozzle.Fl_O:tot:P" = E.num "burner.Fl_O:tot:P" / E.num "hpt.PR" * (1 - E.num "duct43.dPqP")
      / E.num "lpt.PR" * (1 - E.num "itduct.dPqP") / E.num "pt.PR" * (1 - E.num "duct12.dPqP") * (1 - E.num "nozzle.dPqP")
    ∧ E.num "nozzle.PR" * E.num "fc.Fl_O:stat:P" = E.num "nozzle.Fl_O:tot:P"
    ∧ (E.num "duct1.Fl_O:tot:P" ≠ 0 → E.num "perf.OPR"
        = E.num "lpc.PR" * (1 - E.num "icduct.dPqP") * E.num "hpc_axi.PR" * E.num "hpc_centri.PR") := by
  refine ⟨?_, ?_, (nozz_laws h).2.2.1, fun hP => ?_⟩
  · rw [(burner_laws h).1, (centri_laws h).1, (axi_laws h).1, (lpc_laws h).1, (duct1_laws h).1, (inlet_laws h).1]; ring
  · rw [(nozz_laws h).1, (pt_laws h).1, (lpt_laws h).1, (hpt_laws h).1]
  · rw [(perf_laws h).2.1, (centri_laws h).1, (axi_laws h).1, (lpc_laws h).1]; field_simp

/-- **C67 (thrust and consumption).** Net thrust is gross thrust of the nozzle less ram drag, the momentum of all the air
at flight speed; specific fuel consumption is fuel flow, in pounds per hour, per horsepower of the power turbine, before
the losses and the extraction of its shaft. -/
theorem C67_thrust :
    E.num "perf.Fn" = E.num "nozzle.Fl_O:stat:W" * E.num "nozzle.Fl_O:stat:V" / 32.174
          * (E.num "nozzle.Cv" * E.num "nozzle.perf_calcs.Cang" * E.num "nozzle.perf_calcs.CmixCorr")
        + (E.num "nozzle.Fl_O:stat:P" - E.num "fc.Fl_O:stat:P") * E.num "nozzle.Fl_O:stat:area"
      - E.num "balance.W" * E.num "fc.Fl_O:stat:V" / 32.174
    ∧ (0 < E.num "LP_Nmech" → E.num "perf.PSFC"
        = E.num "burner.Wfuel" * 3600 / (5252.11 * (2 * Real.pi / 60 / 550) * max (E.num "pt.power") 0)) := by
  obtain ⟨p1, -, p3⟩ := perf_laws h
  exact ⟨by rw [p1, (nozz_laws h).2.2.2, (inlet_laws h).2.1], fun hN => by rw [p3, (lp_laws h hN).1]⟩

/-- **C67 (targets).** As a design point the nozzle's pressure ratio and the temperature behind the burner are the ones
asked for, and the turbines get the pressure ratios the balance found; off design the power of the free turbine's shaft
and the throat area are the ones asked for, and both gas generator spools turn at the speeds the balance found. In both
modes the burner and the inlet get the fuel-air ratio and the flow the balance found. -/
theorem C67_targets :
    (d = true → E.num "nozzle.PR" = E.num "balance.rhs:W" ∧ E.num "burner.Fl_O:tot:T" = E.num "balance.rhs:FAR"
      ∧ E.num "hpt.PR" = E.num "balance.hpt_PR" ∧ E.num "lpt.PR" = E.num "balance.lpt_PR"
      ∧ E.num "pt.PR" = E.num "balance.pt_PR")
    ∧ (d = false → E.num "lp_shaft.pwr_net" = E.num "balance.rhs:FAR"
      ∧ E.num "nozzle.Throat:stat:area" = E.num "balance.rhs:W"
      ∧ E.num "HP_Nmech" = E.num "balance.HP_Nmech" ∧ E.num "IP_Nmech" = E.num "balance.IP_Nmech")
    ∧ E.num "burner.Fl_I:FAR" = E.num "balance.FAR" ∧ E.num "inlet.Fl_I:stat:W" = E.num "balance.W" := by
  have c := fun {x y : String} (hx : (x, y) ∈ balConns d) => bconn h hx
  have b1 : 1 * E.num "balance.lhs:W" = E.num "balance.rhs:W" := bal h (b := .of "W") (by cases d <;> simp [bals])
  have b2 : 1 * E.num "balance.lhs:FAR" = E.num "balance.rhs:FAR" := bal h (b := .of "FAR") (by cases d <;> simp [bals])
  rw [one_mul] at b1 b2
  refine ⟨?_, ?_, (c (by cases d <;> simp [balConns])).symm, (c (by cases d <;> simp [balConns])).symm⟩
  · rintro rfl
    have c1 : E.num "nozzle.PR" = E.num "balance.lhs:W" := c (by simp [balConns])
    have c2 : E.num "burner.Fl_O:tot:T" = E.num "balance.lhs:FAR" := c (by simp [balConns])
    exact ⟨c1.trans b1, c2.trans b2, (c (by simp [balConns])).symm, (c (by simp [balConns])).symm,
      (c (by simp [balConns])).symm⟩
  · rintro rfl
    have c1 : E.num "nozzle.Throat:stat:area" = E.num "balance.lhs:W" := c (by simp [balConns])
    have c2 : E.num "lp_shaft.pwr_net" = E.num "balance.lhs:FAR" := c (by simp [balConns])
    exact ⟨c2.trans b2, c1.trans b1, (c (by simp [balConns])).symm, (c (by simp [balConns])).symm⟩

/-- **C67 (shafts).** On each gas generator spool the turbine drives the compressors: what drives the shaft, less the
fractional loss, plus what brakes it, equals the power extracted plus the right-hand side of its balance (0 unless it is
set). The power turbine alone delivers, after the loss and the extraction of its own shaft, the power asked for: off design
the right-hand side of the fuel's balance, as a design point that of its pressure ratio. The factor is that of
`C26_refuted_round_trip`, 1 to within `10⁻⁶`. -/
theorem C67_shafts (hL : 0 < E.num "LP_Nmech") (hI : 0 < E.num "IP_Nmech") (hH : 0 < E.num "HP_Nmech") :
    5252.11 * (2 * Real.pi / 60 / 550) * ((1 - E.num "lp_shaft.fracLoss")
        * max (E.num "pt.power") 0 + min (E.num "pt.power") 0)
      = E.num "lp_shaft.HPX" + E.num (if d then "balance.rhs:pt_PR" else "balance.rhs:FAR")
    ∧ 5252.11 * (2 * Real.pi / 60 / 550) * ((1 - E.num "ip_shaft.fracLoss")
        * (max (E.num "lpc.power") 0 + max (E.num "lpt.power") 0)
        + (min (E.num "lpc.power") 0 + min (E.num "lpt.power") 0))
      = E.num "ip_shaft.HPX" + E.num (if d then "balance.rhs:lpt_PR" else "balance.rhs:IP_Nmech")
    ∧ 5252.11 * (2 * Real.pi / 60 / 550) * ((1 - E.num "hp_shaft.fracLoss")
        * (max (E.num "hpc_axi.power") 0 + max (E.num "hpc_centri.power") 0 + max (E.num "hpt.power") 0)
        + (min (E.num "hpc_axi.power") 0 + min (E.num "hpc_centri.power") 0 + min (E.num "hpt.power") 0))
      = E.num "hp_shaft.HPX" + E.num (if d then "balance.rhs:hpt_PR" else "balance.rhs:HP_Nmech") := by
  have l := (lp_laws h hL).2
  have i := ip_laws h hI
  have k := hp_laws h hH
  cases d with
  | true =>
    have b1 : 1 * E.num "balance.lhs:pt_PR" = E.num "balance.rhs:pt_PR" := bal h (b := .of "pt_PR") (by simp [bals])
    have c1 : E.num "lp_shaft.pwr_net" = E.num "balance.lhs:pt_PR" := bconn h (by simp [balConns])
    have b2 : 1 * E.num "balance.lhs:lpt_PR" = E.num "balance.rhs:lpt_PR" := bal h (b := .of "lpt_PR") (by simp [bals])
    have c2 : E.num "ip_shaft.pwr_net" = E.num "balance.lhs:lpt_PR" := bconn h (by simp [balConns])
    have b3 : 1 * E.num "balance.lhs:hpt_PR" = E.num "balance.rhs:hpt_PR" := bal h (b := .of "hpt_PR") (by simp [bals])
    have c3 : E.num "hp_shaft.pwr_net" = E.num "balance.lhs:hpt_PR" := bconn h (by simp [balConns])
    simp only [if_true]
    exact ⟨by linarith, by linarith, by linarith⟩
  | false =>
    have b1 : 1 * E.num "balance.lhs:FAR" = E.num "balance.rhs:FAR" := bal h (b := .of "FAR") (by simp [bals])
    have c1 : E.num "lp_shaft.pwr_net" = E.num "balance.lhs:FAR" := bconn h (by simp [balConns])
    have b2 : 1 * E.num "balance.lhs:IP_Nmech" = E.num "balance.rhs:IP_Nmech" := bal h (b := .of "IP_Nmech") (by simp [bals])
    have c2 : E.num "ip_shaft.pwr_net" = E.num "balance.lhs:IP_Nmech" := bconn h (by simp [balConns])
    have b3 : 1 * E.num "balance.lhs:HP_Nmech" = E.num "balance.rhs:HP_Nmech" := bal h (b := .of "HP_Nmech") (by simp [bals])
    have c3 : E.num "hp_shaft.pwr_net" = E.num "balance.lhs:HP_Nmech" := bconn h (by simp [balConns])
    simp only [Bool.false_eq_true, if_false]
    exact ⟨by linarith, by linarith, by linarith⟩

end

end PyCycle.OM
