import Verif.Proofs.AfterburnerNames
import Verif.Proofs.ShaftAlter
import Verif.Props.C57_Network
import Verif.Props.C61_Flow

/-! # C65: the turbojet with afterburner

What a solved `ABTurbojet` of `example_cycles/afterburning_turbojet.py` is, as a design point and off design, for any
thermodynamics, any maps and any way of adding fuel and bleed air. -/

namespace PyCycle.OM

open ABTJ

/-- **C65 (interface).** In both modes the engine is accepted: every connection joins an output to an input, none is
connected twice, every promotion finds a variable. -/
theorem C65_interface (p : AbtjParts) (d : Bool) : (abtj p d).group.wiring.Accepted := accepted p d

namespace ABTJ

theorem others_local (p : AbtjParts) (d : Bool) : ∀ s ∈ (abtj p d).others, s.Local := by
  simp only [abtj, List.forall_mem_cons]
  exact ⟨(shaftSub_local 2 _).rename "shaft", performanceSub_local _ _, balances_local _ _, by simp⟩

end ABTJ

/-- **C65 (solved states).** Every converged engine can be completed, by transferring outputs to inputs, to a solved one
with the same outputs: the theorems below are about all converged engines. -/
theorem C65_complete (p : AbtjParts) (d : Bool) (E : Env) (hc : (abtj p d).group.Converged E) :
    ∃ E', (abtj p d).Solved E' ∧ ∀ n ∈ (abtj p d).group.wiring.outs, E'.num n = E.num n ∧ E'.vec n = E.vec n :=
  Cycle.complete (accepted p d).1 (others_local p d) hc

section
variable {p : AbtjParts} {d : Bool} {E : Env} (h : (abtj p d).Solved E)
include h

namespace ABTJ

theorem join (i : ℕ) {a b : String × String} {s : Bool} (hl : flows[i]? = some { src := a, tgt := b, stat := s }) :
    E.Joined a b := h.joined (List.mem_of_getElem? hl)

/-- From the free stream the inlet gets everything but the flow. -/
theorem start {v : String} (hv : v ∈ linkOutVars) (hne : v ≠ "stat:W") :
    E.num ("inlet" ++ "." ++ ("Fl_I" ++ ":" ++ v)) = E.num ("fc" ++ "." ++ ("Fl_O" ++ ":" ++ v))
    ∧ E.vec ("inlet" ++ "." ++ ("Fl_I" ++ ":" ++ v)) = E.vec ("fc" ++ "." ++ ("Fl_O" ++ ":" ++ v)) := by
  have := h.link (l := { src := ("fc", "Fl_O"), tgt := ("inlet", "Fl_I"), w := false })
    (List.mem_of_getElem? (i := 0) rfl) hv (fun e => absurd e hne) rfl rfl
  exact ⟨this.1.symm, this.2.symm⟩

theorem conn {a b : String} (hx : (a, b) ∈ plainConns) : E.num a = E.num b :=
  (h.conn (List.mem_append_left _ hx)).1

theorem bal {b : Bal} (hb : b ∈ bals d) :
    b.Met ⟨fun v => E.num ((balances (bals d) []).inName v), fun v => E.vec ((balances (bals d) []).inName v)⟩ :=
  h.other (s := balances (bals d) []) (List.mem_of_getElem? (i := 2) rfl) b hb

theorem bconn {a b : String} (hx : (a, b) ∈ balConns d) : E.num a = E.num b :=
  (h.conn (List.mem_append_right _ hx)).1

theorem fc_laws : Atm.ambient (E.num "fc.alt") (E.num "fc.dTs") .Ps = some (E.num "fc.Fl_O:stat:P")
    ∧ Atm.ambient (E.num "fc.alt") (E.num "fc.dTs") .Ts = some (E.num "fc.Fl_O:stat:T")
    ∧ E.num "fc.Fl_O:stat:MN" = E.num "fc.MN" ∧ E.num "fc.Fl_O:stat:W" = E.num "fc.W"
    ∧ E.vec "fc.Fl_O:tot:composition" = E.vec "fc.fs.composition" :=
  h.flight_laws (x := "fc") (gas := p.air) (List.mem_of_getElem? (i := 0) rfl)

theorem inlet_laws : E.num "inlet.Fl_O:tot:P" = E.num "fc.Fl_O:tot:P" * E.num "inlet.ram_recovery"
    ∧ E.num "inlet.F_ram" = E.num "balance.W" * E.num "fc.Fl_O:stat:V" / 32.174
    ∧ E.num "inlet.Fl_O:stat:W" = E.num "balance.W"
    ∧ E.vec "inlet.Fl_O:tot:composition" = E.vec "fc.fs.composition" := by
  obtain ⟨h1, h2, h3, h4⟩ := h.inlet_laws (x := "inlet") (gas := p.air) (d := d) (List.mem_of_getElem? (i := 1) rfl)
  have w : E.num "balance.W" = E.num "inlet.Fl_I:stat:W" := bconn h (by cases d <;> simp [balConns])
  have v : E.num "inlet.Fl_I:stat:V" = E.num "fc.Fl_O:stat:V" := (start h (v := "stat:V") (by decide) (by decide)).1
  have pp : E.num "inlet.Fl_I:tot:P" = E.num "fc.Fl_O:tot:P" := (start h (v := "tot:P") (by decide) (by decide)).1
  have cc : E.vec "inlet.Fl_I:tot:composition" = E.vec "fc.Fl_O:tot:composition" :=
    (start h (v := "tot:composition") (by decide) (by decide)).2
  have h2 : E.num "inlet.F_ram" = E.num "inlet.Fl_I:stat:W" * E.num "inlet.Fl_I:stat:V" / 32.174 := h2
  rw [← w, v] at h2
  exact ⟨h1.trans (congrArg (· * _) pp), h2, h3.trans w.symm, (h4.trans cc).trans (fc_laws h).2.2.2.2⟩

theorem duct_laws : E.num "duct1.Fl_O:tot:P" = E.num "inlet.Fl_O:tot:P" * (1 - E.num "duct1.dPqP")
    ∧ E.num "duct1.Fl_O:stat:W" = E.num "balance.W"
    ∧ E.vec "duct1.Fl_O:tot:composition" = E.vec "fc.fs.composition" := by
  obtain ⟨d1, d2, d3⟩ := h.duct_laws (x := "duct1") (gas := p.air) (d := d) (e := 0)
    (List.mem_of_getElem? (i := 2) rfl) (join h 1 (a := ("inlet", "Fl_O")) rfl)
  obtain ⟨-, -, f1, f2⟩ := inlet_laws h
  exact ⟨d1, d2.trans f1, d3.trans f2⟩

theorem comp_laws : E.num "comp.Fl_O:tot:P" = E.num "comp.PR" * E.num "duct1.Fl_O:tot:P"
    ∧ E.num "comp.Fl_O:stat:W" + (E.num "comp.cool1:stat:W" + E.num "comp.cool2:stat:W") = E.num "balance.W"
    ∧ E.num "comp.cool1:stat:W" = E.num "comp.cool1:frac_W" * E.num "balance.W"
    ∧ E.num "comp.cool2:stat:W" = E.num "comp.cool2:frac_W" * E.num "balance.W"
    ∧ E.vec "comp.Fl_O:tot:composition" = E.vec "fc.fs.composition"
    ∧ (E.num "Nmech" ≠ 0 → E.num "comp.trq" * E.num "Nmech" = 5252.11 * E.num "comp.power") := by
  have L := h.compressor_laws (x := "comp") (mc := p.comp) (gas := p.air) (d := d) (N := "Nmech") compNames
    (List.mem_of_getElem? (i := 3) rfl)
  have j := join h 2 (a := ("duct1", "Fl_O")) (b := ("comp", "Fl_I")) rfl
  obtain ⟨-, f1, f2⟩ := duct_laws h
  have w : E.num "comp.Fl_I:stat:W" = E.num "balance.W" := j.W.trans f1
  have l2 := L.mass
  simp only [List.map_cons, List.map_nil, List.sum_cons, List.sum_nil, add_zero] at l2
  exact ⟨L.pressure.trans (congrArg (_ * ·) j.P), l2.trans w, (L.bleeds "cool1" (by simp)).flow.trans (congrArg (_ * ·) w),
    (L.bleeds "cool2" (by simp)).flow.trans (congrArg (_ * ·) w), (L.composition.trans j.C).trans f2, L.torque⟩

theorem burner_laws : E.num "burner.Fl_O:tot:P" = E.num "comp.Fl_O:tot:P" * (1 - E.num "burner.dPqP")
    ∧ E.num "burner.Fl_I:stat:W" = E.num "comp.Fl_O:stat:W"
    ∧ E.vec "burner.Fl_I:tot:composition" = E.vec "fc.fs.composition" := by
  obtain ⟨h1, h2, h3⟩ := h.burner_laws (x := "burner") (gas := p.burnt) (a := p.fuel) (d := d)
    (List.mem_of_getElem? (i := 4) rfl) (join h 3 (a := ("comp", "Fl_O")) rfl)
  exact ⟨h1, h2, h3.trans (comp_laws h).2.2.2.2.1⟩

theorem turb_laws : E.num "turb.Fl_O:tot:P" = E.num "burner.Fl_O:tot:P" / E.num "turb.PR"
    ∧ E.num "turb.Fl_O:stat:W" = E.num "burner.Fl_O:stat:W" + (E.num "comp.cool1:stat:W" + E.num "comp.cool2:stat:W")
    ∧ (E.num "Nmech" ≠ 0 → E.num "turb.trq" * E.num "Nmech" = 5252.11 * E.num "turb.power") := by
  obtain ⟨-, L⟩ := h.turbine_laws (x := "turb") (mt := p.turb) (gas := p.burnt) (gb := fun _ => p.air) (ba := p.bleed)
    (d := d) (N := "Nmech") turbNames (List.mem_of_getElem? (i := 5) rfl)
  have j := join h 4 (a := ("burner", "Fl_O")) (b := ("turb", "Fl_I")) rfl
  have j1 := join h 7 (a := ("comp", "cool1")) (b := ("turb", "cool1")) rfl
  have j2 := join h 8 (a := ("comp", "cool2")) (b := ("turb", "cool2")) rfl
  have l2 := L.mass
  simp only [List.map_cons, List.map_nil, List.sum_cons, List.sum_nil, add_zero] at l2
  exact ⟨L.pressure.trans (congrArg (· / _) j.P), l2.trans (congrArg₂ (· + ·) j.W (congrArg₂ (· + ·) j1.W j2.W)), L.torque⟩

theorem ab_laws : E.num "ab.Fl_O:tot:P" = E.num "turb.Fl_O:tot:P" * (1 - E.num "ab.dPqP")
    ∧ E.num "ab.Fl_I:stat:W" = E.num "turb.Fl_O:stat:W"
    ∧ E.vec "ab.Fl_I:tot:composition" = E.vec "turb.Fl_O:tot:composition" :=
  h.burner_laws (x := "ab") (gas := p.hot) (a := p.abFuel) (d := d)
    (List.mem_of_getElem? (i := 6) rfl) (join h 5 (a := ("turb", "Fl_O")) rfl)

theorem nozz_laws : E.num "nozz.Fl_O:tot:P" = E.num "ab.Fl_O:tot:P" * (1 - E.num "nozz.dPqP")
    ∧ E.num "nozz.Fl_O:stat:W" = E.num "ab.Fl_O:stat:W"
    ∧ E.num "nozz.PR" * E.num "fc.Fl_O:stat:P" = E.num "nozz.Fl_O:tot:P"
    ∧ E.num "nozz.Fg" = E.num "nozz.Fl_O:stat:W" * E.num "nozz.Fl_O:stat:V" / 32.174
          * (E.num "nozz.Cv" * E.num "nozz.perf_calcs.Cang" * E.num "nozz.perf_calcs.CmixCorr")
        + (E.num "nozz.Fl_O:stat:P" - E.num "fc.Fl_O:stat:P") * E.num "nozz.Fl_O:stat:area" := by
  have j := join h 6 (a := ("ab", "Fl_O")) (b := ("nozz", "Fl_I")) rfl
  obtain ⟨n1, n2, n3, n4⟩ := h.nozzle_laws (x := "nozz") (gas := p.hot) (k := .CD) (List.mem_of_getElem? (i := 7) rfl) j
  have e : E.num "fc.Fl_O:stat:P" = E.num "nozz.Ps_exhaust" := conn h (by simp [plainConns])
  rw [e]
  exact ⟨n1, n2, n3, n4⟩

/-- Powers of the shaft, raw and net. -/
theorem shaft_laws (hN : 0 < E.num "Nmech") :
    E.num "shaft.pwr_in" = 5252.11 * (2 * Real.pi / 60 / 550) * (max (E.num "comp.power") 0 + max (E.num "turb.power") 0)
    ∧ E.num "shaft.pwr_out" = 5252.11 * (2 * Real.pi / 60 / 550) * (min (E.num "comp.power") 0 + min (E.num "turb.power") 0)
    ∧ E.num "shaft.pwr_net" = 5252.11 * (2 * Real.pi / 60 / 550) * ((1 - E.num "shaft.fracLoss")
        * (max (E.num "comp.power") 0 + max (E.num "turb.power") 0)
        + (min (E.num "comp.power") 0 + min (E.num "turb.power") 0)) - E.num "shaft.HPX" := by
  have e := h.other (s := { shaftSub 2 [.as "Nmech" "Nmech"] with name := "shaft" }) (List.mem_of_getElem? (i := 0) rfl)
  have c0 : E.num "comp.trq" = E.num "shaft.trq_0" := conn h (by simp [plainConns])
  have c1 : E.num "turb.trq" = E.num "shaft.trq_1" := conn h (by simp [plainConns])
  have t0 := (comp_laws h).2.2.2.2.2 hN.ne'
  have t1 := (turb_laws h).2.2 hN.ne'
  rw [c0] at t0
  rw [c1] at t1
  obtain ⟨-, -, -, e1, -, e2, -, e3⟩ := e
  have k := Shaft.raw_powers_of_ports (n := 2) ![E.num "comp.power", E.num "turb.power"] hN
    (x := shaftIn 2 ⟨fun v => E.num (({ shaftSub 2 [.as "Nmech" "Nmech"] with name := "shaft" } : Sub).inName v),
      fun v => E.vec (({ shaftSub 2 [.as "Nmech" "Nmech"] with name := "shaft" } : Sub).inName v)⟩)
    (by intro k; fin_cases k; exacts [t0, t1])
  simp only [Fin.sum_univ_two] at k
  exact ⟨Eq.trans e1 k.1, Eq.trans e2 k.2.1, Eq.trans e3 k.2.2⟩

theorem perf_laws : E.num "perf.Fn" = E.num "nozz.Fg" - E.num "inlet.F_ram"
    ∧ E.num "perf.OPR" = E.num "comp.Fl_O:tot:P" / E.num "duct1.Fl_O:tot:P"
    ∧ E.num "perf.TSFC" = (E.num "burner.Wfuel" + E.num "ab.Wfuel") * 3600 / (E.num "perf.Fn" + 1e-10) := by
  have e := h.other (s := performanceSub 1 2) (List.mem_of_getElem? (i := 1) rfl)
  have c0 : E.num "nozz.Fg" = E.num "perf.Fg_0" := conn h (by simp [plainConns])
  have c1 : E.num "inlet.F_ram" = E.num "perf.ram_drag" := conn h (by simp [plainConns])
  have c2 : E.num "duct1.Fl_O:tot:P" = E.num "perf.Pt2" := conn h (by simp [plainConns])
  have c3 : E.num "comp.Fl_O:tot:P" = E.num "perf.Pt3" := conn h (by simp [plainConns])
  have c4 : E.num "burner.Wfuel" = E.num "perf.Wfuel_0" := conn h (by simp [plainConns])
  have c5 : E.num "ab.Wfuel" = E.num "perf.Wfuel_1" := conn h (by simp [plainConns])
  obtain ⟨e1, -, e3, e4, -⟩ := e
  have e1 : E.num "perf.OPR" = E.num "perf.Pt3" / E.num "perf.Pt2" := e1
  have e3 : E.num "perf.Fn" = (0 + E.num "perf.Fg_0") - E.num "perf.ram_drag" := e3
  have e4 : E.num "perf.TSFC" = (0 + E.num "perf.Wfuel_0" + E.num "perf.Wfuel_1") * 3600
    / (((0 + E.num "perf.Fg_0") - E.num "perf.ram_drag") + 1e-10) := e4
  rw [← e3] at e4
  rw [c0, c1, c2, c3, c4, c5]
  exact ⟨by rw [e3, zero_add], e1, by rw [e4, zero_add]⟩

end ABTJ

/-- **C65 (flight).** The engine flies at the altitude, temperature deviation and Mach number of `fc`; the nozzle
discharges against the ambient pressure of the standard atmosphere; the air keeps its composition up to the burner. -/
theorem C65_flight : Atm.ambient (E.num "fc.alt") (E.num "fc.dTs") .Ps = some (E.num "fc.Fl_O:stat:P")
    ∧ Atm.ambient (E.num "fc.alt") (E.num "fc.dTs") .Ts = some (E.num "fc.Fl_O:stat:T")
    ∧ E.num "fc.Fl_O:stat:MN" = E.num "fc.MN"
    ∧ E.num "nozz.Ps_exhaust" = E.num "fc.Fl_O:stat:P"
    ∧ E.vec "burner.Fl_I:tot:composition" = E.vec "fc.fs.composition" := by
  obtain ⟨f1, f2, f3, -⟩ := fc_laws h
  exact ⟨f1, f2, f3, (conn h (by simp [plainConns])).symm, (burner_laws h).2.2⟩

/-- **C65 (pressures).** Total pressure is multiplied by ram recovery, pressure ratio and the loss factors of duct, both
burners and nozzle and divided by the turbine's pressure ratio; the nozzle's pressure ratio relates it to the ambient
pressure; the overall pressure ratio is that of the compressor. -/
theorem C65_pressure :
    E.num "nozz.Fl_O:tot:P" = E.num "fc.Fl_O:tot:P" * E.num "inlet.ram_recovery" * (1 - E.num "duct1.dPqP") * E.num "comp.PR"
      * (1 - E.num "burner.dPqP") / E.num "turb.PR" * (1 - E.num "ab.dPqP") * (1 - E.num "nozz.dPqP")
    ∧ E.num "nozz.PR" * E.num "fc.Fl_O:stat:P" = E.num "nozz.Fl_O:tot:P"
    ∧ (E.num "duct1.Fl_O:tot:P" ≠ 0 → E.num "perf.OPR" = E.num "comp.PR") := by
  refine ⟨?_, (nozz_laws h).2.2.1, fun hP => ?_⟩
  · rw [(nozz_laws h).1, (ab_laws h).1, (turb_laws h).1, (burner_laws h).1, (comp_laws h).1, (duct_laws h).1,
      (inlet_laws h).1]; ring
  · rw [(perf_laws h).2.1, (comp_laws h).1]; field_simp

/-- **C65 (thrust).** Net thrust is gross thrust of the nozzle, momentum and pressure, less ram drag, the momentum of all
the air at flight speed; specific fuel consumption counts the fuel of both burners. -/
theorem C65_thrust :
    E.num "perf.Fn" = E.num "nozz.Fl_O:stat:W" * E.num "nozz.Fl_O:stat:V" / 32.174
          * (E.num "nozz.Cv" * E.num "nozz.perf_calcs.Cang" * E.num "nozz.perf_calcs.CmixCorr")
        + (E.num "nozz.Fl_O:stat:P" - E.num "fc.Fl_O:stat:P") * E.num "nozz.Fl_O:stat:area"
      - E.num "balance.W" * E.num "fc.Fl_O:stat:V" / 32.174
    ∧ E.num "perf.TSFC" = (E.num "burner.Wfuel" + E.num "ab.Wfuel") * 3600 / (E.num "perf.Fn" + 1e-10) := by
  obtain ⟨p1, -, p3⟩ := perf_laws h
  exact ⟨by rw [p1, (nozz_laws h).2.2.2, (inlet_laws h).2.1], p3⟩

/-- **C65 (targets).** In both modes the burner exit has the temperature asked for. As a design point so has the thrust,
and the turbine gets the pressure ratio the balance found; off design the compressor runs on the R-line asked for and the
spool turns at the speed the balance found. In both modes burner and inlet get the fuel-air ratio and the flow the
balance found. -/
theorem C65_targets :
    E.num "burner.Fl_O:tot:T" = E.num "balance.rhs:FAR"
    ∧ (d = true → E.num "perf.Fn" = E.num "balance.rhs:W" ∧ E.num "turb.PR" = E.num "balance.turb_PR")
    ∧ (d = false → E.num "comp.map.RlineMap" = E.num "balance.rhs:W" ∧ E.num "Nmech" = E.num "balance.Nmech")
    ∧ E.num "burner.Fl_I:FAR" = E.num "balance.FAR" ∧ E.num "inlet.Fl_I:stat:W" = E.num "balance.W" := by
  have c := fun {x y : String} (hx : (x, y) ∈ balConns d) => bconn h hx
  have b1 : 1 * E.num "balance.lhs:FAR" = E.num "balance.rhs:FAR" := bal h (b := .of "FAR") (by cases d <;> simp [bals])
  have b2 : 1 * E.num "balance.lhs:W" = E.num "balance.rhs:W" := bal h (b := .of "W") (by cases d <;> simp [bals])
  rw [one_mul] at b1 b2
  have c1 : E.num "burner.Fl_O:tot:T" = E.num "balance.lhs:FAR" := c (by cases d <;> simp [balConns])
  refine ⟨c1.trans b1, ?_, ?_, (c (by cases d <;> simp [balConns])).symm, (c (by cases d <;> simp [balConns])).symm⟩
  · rintro rfl
    have c2 : E.num "perf.Fn" = E.num "balance.lhs:W" := c (by simp [balConns])
    exact ⟨c2.trans b2, (c (by simp [balConns])).symm⟩
  · rintro rfl
    have c2 : E.num "comp.map.RlineMap" = E.num "balance.lhs:W" := c (by simp [balConns])
    exact ⟨c2.trans b2, (c (by simp [balConns])).symm⟩

/-- **C65 (shaft, design).** At the design point the turbine drives the compressor and pays for loss and extraction: what
drives the shaft, less the fractional loss, plus what brakes it, equals the power extracted plus the right-hand side of
the balance (0 unless it is set). -/
theorem C65_shaft_design (hd : d = true) (hN : 0 < E.num "Nmech") :
    5252.11 * (2 * Real.pi / 60 / 550) * ((1 - E.num "shaft.fracLoss")
        * (max (E.num "comp.power") 0 + max (E.num "turb.power") 0)
        + (min (E.num "comp.power") 0 + min (E.num "turb.power") 0))
      = E.num "shaft.HPX" + E.num "balance.rhs:turb_PR" := by
  subst hd
  obtain ⟨-, -, k⟩ := shaft_laws h hN
  have b : 1 * E.num "balance.lhs:turb_PR" = E.num "balance.rhs:turb_PR" := bal h (b := .of "turb_PR") (by simp [bals])
  have c1 : E.num "shaft.pwr_net" = E.num "balance.lhs:turb_PR" := bconn h (by simp [balConns])
  rw [c1, ← one_mul (E.num "balance.lhs:turb_PR"), b] at k
  linarith

/-- **C65 (shaft, off design), partial.** Off design, with the multiplier the code gives the balance, -1, the powers of
compressor and turbine sum to zero, and what the shaft reports as its net power is minus what is extracted and lost.
Missing: paying for loss and extraction; see `C65_refuted_extraction`. -/
theorem C65_shaft_off_partial (hd : d = false) (hN : 0 < E.num "Nmech") (hm : E.num "balance.mult:Nmech" = -1) :
    E.num "comp.power" + E.num "turb.power" = 0
    ∧ E.num "shaft.pwr_net" = -(E.num "shaft.HPX" + E.num "shaft.fracLoss" * E.num "shaft.pwr_in") := by
  subst hd
  obtain ⟨h1, h2, h3⟩ := shaft_laws h hN
  have b : E.num "balance.mult:Nmech" * E.num "balance.lhs:Nmech" = E.num "balance.rhs:Nmech" :=
    bal h (b := .ofMult "Nmech") (by simp [bals])
  have x1 : E.num "shaft.pwr_in" = E.num "balance.lhs:Nmech" := bconn h (by simp [balConns])
  have x2 : E.num "shaft.pwr_out" = E.num "balance.rhs:Nmech" := bconn h (by simp [balConns])
  rw [hm, ← x1, ← x2] at b
  have hk : (5252.11 * (2 * Real.pi / 60 / 550) : ℝ) ≠ 0 := by have := Real.pi_pos; positivity
  have c0 : ∀ x : ℝ, max x 0 + min x 0 = x := fun x => by rw [max_add_min, add_zero]
  refine ⟨?_, ?_⟩
  · rw [h1, h2] at b
    refine mul_left_cancel₀ hk ?_
    rw [mul_zero, ← c0 (E.num "comp.power"), ← c0 (E.num "turb.power")]
    linear_combination -b
  · rw [h3]
    rw [h1, h2] at b
    rw [h1]
    linear_combination -b

namespace ABTJ

omit h in
theorem alter_shaft (h : (abtj p false).Solved E) (hpx loss : ℝ) :
    (abtj p false).Solved (shaftSet E "shaft" "Nmech" 2 hpx loss) := by
  have hloc : ∀ s ∈ (abtj p false).group.subs, s.Local := by
    intro s hs
    rcases List.mem_append.mp hs with hs | hs
    · obtain ⟨m, -, rfl⟩ := List.mem_map.mp hs
      exact Group.asSub_local _ _ _ _
    · exact others_local p false s hs
  have pN : Plain "Nmech" := by decide
  have conn : ∀ a ∈ flows.flatMap Link.conns ++ (plainConns ++ balConns false),
      a.1 ∉ shaftNet "shaft" ∧ a.2 ∉ shaftNet "shaft" := by
    decide +kernel
  have shape : ∀ s ∈ (abtj p false).group.subs, Plain s.name ∧ s.promO = []
      ∧ (s.promI = [] ∨ ∃ N, Plain N ∧ s.promI = [.as "Nmech" N]) := by
    intro s hs
    obtain ⟨q, hq, hk⟩ := forall₂_left (parts_of p false) s hs
    have k : ∀ q ∈ parts false, Plain q.name ∧ (q.promI = [] ∨ q.promI = [.as "Nmech" "Nmech"]) := by decide +kernel
    obtain ⟨k1, k2⟩ := k q hq
    rw [hk.1, hk.2.1, hk.2.2.1]
    exact ⟨k1, rfl, k2.imp id fun k2 => ⟨_, pN, k2⟩⟩
  have names : ((abtj p false).group.subs.map (·.name)).Nodup := by
    have : (abtj p false).group.subs.map (·.name) = (parts false).map (·.name) := rfl
    have k : ((parts false).map (·.name)).Nodup := by decide +kernel
    rw [this]; exact k
  have hmem : ({ shaftSub 2 [.as "Nmech" "Nmech"] with name := "shaft" } : Sub) ∈ (abtj p false).others :=
    List.mem_of_getElem? (i := 0) rfl
  refine h.shaft_alter hpx loss (by decide) pN (by decide) hmem (by decide +kernel) conn ?_
  intro s hs
  obtain ⟨s1, s2, s3⟩ := shape s hs
  by_cases e : s.name = "shaft"
  · exact Or.inl (List.inj_on_of_nodup_map names hs (List.mem_append_right _ hmem) e)
  · exact Or.inr ⟨hloc s hs, Sub.off_shaft (by decide) (by decide) e s1 s3 s2⟩

end ABTJ

/-- **C65 (refuted: extraction off design).** Off design extracted power and shaft losses cost nothing: from every solved
engine one gets, for any extraction and any losses, a solved engine that differs in nothing but the shaft's own report of
its net power. -/
theorem C65_refuted_extraction (hd : d = false) (hpx loss : ℝ) : ∃ E', (abtj p d).Solved E'
    ∧ E'.num "shaft.HPX" = hpx ∧ E'.num "shaft.fracLoss" = loss
    ∧ ∀ n, n ∉ ["shaft.HPX", "shaft.fracLoss", "shaft.trq_net", "shaft.pwr_in_real", "shaft.pwr_out_real", "shaft.pwr_net"]
      → E'.num n = E.num n ∧ E'.vec n = E.vec n := by
  subst hd
  exact ⟨_, alter_shaft h hpx loss, shaftSet_on.1, shaftSet_on.2, fun n hn => shaftSet_off hn⟩

end

/-! ## Mass and energy -/

namespace ABTJ

/-- The account of each element. -/
noncomputable def acc (p : AbtjParts) (okC okA : (ℕ → ℝ) → Prop) : String → Account
  | "fc" => startAccount p.air
  | "inlet" => inletAccount p.air
  | "duct1" => ductAccount p.air
  | "comp" => compressorAccount p.air ["cool1", "cool2"]
  | "burner" => combustorAccount p.burnt p.air okC
  | "turb" => turbineAccount p.burnt (fun q => if q = "Fl_I" then p.burnt else p.air) ["cool1", "cool2"]
  | "ab" => combustorAccount p.hot p.burnt okA
  | "nozz" => nozzleAccount p.hot
  | _ => startAccount p.air

/-- A turbojet in flight: air and fuel flow forward, the bleeds leave some air for the burner. -/
structure InFlight (E : Env) : Prop where
  air : 0 < E.num "balance.W"
  fuel : 0 ≤ E.num "burner.Wfuel"
  abFuel : 0 ≤ E.num "ab.Wfuel"
  cool1 : 0 ≤ E.num "comp.cool1:frac_W"
  cool2 : 0 ≤ E.num "comp.cool2:frac_W"
  core : E.num "comp.cool1:frac_W" + E.num "comp.cool2:frac_W" < 1

/-- Both burners keep books, under `okC` and `okA`. -/
structure Books (p : AbtjParts) (d : Bool) (okC okA : (ℕ → ℝ) → Prop) : Prop where
  burner : (combustorAccount p.burnt p.air okC).Holds (combustor p.burnt p.fuel d true)
  ab : (combustorAccount p.hot p.burnt okA).Holds (combustor p.hot p.abFuel d true)

end ABTJ

/-- **C65 (network).** The engine is a network of accounts. -/
theorem C65_network (p : AbtjParts) (d : Bool) {okC okA : (ℕ → ℝ) → Prop} (hb : Books p d okC okA) :
    (abtj p d).Network (acc p okC okA) where
  wired := (C65_interface p d).1
  accounts := by
    simp only [abtj, elements, List.forall_mem_cons]
    exact ⟨C57_flight _ _, C57_inlet _ _ _, C57_duct _ _ _ _ _, C57_compressor _ _ compNames _ _, hb.burner,
      C57_turbine _ _ _ _ _ turbNames _ _, hb.ab, C57_nozzle _ _ _, by simp⟩
  plainIn := by
    have k : ∀ q ∈ ["Fl_I", "cool1", "cool2"], ∀ v ∈ portVars, (q ++ ":" ++ v) ≠ "Nmech" := by decide +kernel
    have k' : ∀ q ∈ ["Fl_I", "cool1", "cool2"], ∀ v ∈ portVars, promoted [.as "Nmech" "Nmech"] (q ++ ":" ++ v) = none := by
      intro q hq v hv
      simp [promoted, Prom.exact, Prom.fits, (k q hq v hv).symm, k q hq v hv]
    simp only [abtj, elements, List.forall_mem_cons]
    refine ⟨fun _ _ _ _ => rfl, fun _ _ _ _ => rfl, fun _ _ _ _ => rfl, fun q hq => k' q ?_, fun _ _ _ _ => rfl, k',
      fun _ _ _ _ => rfl, fun _ _ _ _ => rfl, by simp⟩
    have t : ∀ q ∈ ["Fl_I"], q ∈ ["Fl_I", "cool1", "cool2"] := by decide
    exact t q hq
  plainOut := by
    simp only [abtj, elements, List.forall_mem_cons]
    refine ⟨?_, ?_, ?_, ?_, ?_, ?_, ?_, ?_, by simp⟩
    all_goals exact fun _ _ _ _ => rfl
  linked := by
    intro l hl
    have hl : l ∈ flows := hl
    have e : ∀ (i : ℕ) (a : Member), (elements p d)[i]? = some a → a ∈ (abtj p d).members :=
      fun i a ha => List.mem_of_getElem? ha
    simp only [flows, List.mem_cons, List.not_mem_nil, or_false] at hl
    rcases hl with rfl | rfl | rfl | rfl | rfl | rfl | rfl | rfl | rfl
    · exact ⟨⟨_, e 0 _ rfl, rfl, List.mem_of_getElem? (i := 0) rfl⟩, ⟨_, e 1 _ rfl, rfl, List.mem_of_getElem? (i := 0) rfl⟩⟩
    · exact ⟨⟨_, e 1 _ rfl, rfl, List.mem_of_getElem? (i := 0) rfl⟩, ⟨_, e 2 _ rfl, rfl, List.mem_of_getElem? (i := 0) rfl⟩⟩
    · exact ⟨⟨_, e 2 _ rfl, rfl, List.mem_of_getElem? (i := 0) rfl⟩, ⟨_, e 3 _ rfl, rfl, List.mem_of_getElem? (i := 0) rfl⟩⟩
    · exact ⟨⟨_, e 3 _ rfl, rfl, List.mem_of_getElem? (i := 0) rfl⟩, ⟨_, e 4 _ rfl, rfl, List.mem_of_getElem? (i := 0) rfl⟩⟩
    · exact ⟨⟨_, e 4 _ rfl, rfl, List.mem_of_getElem? (i := 0) rfl⟩, ⟨_, e 5 _ rfl, rfl, List.mem_of_getElem? (i := 0) rfl⟩⟩
    · exact ⟨⟨_, e 5 _ rfl, rfl, List.mem_of_getElem? (i := 0) rfl⟩, ⟨_, e 6 _ rfl, rfl, List.mem_of_getElem? (i := 0) rfl⟩⟩
    · exact ⟨⟨_, e 6 _ rfl, rfl, List.mem_of_getElem? (i := 0) rfl⟩, ⟨_, e 7 _ rfl, rfl, List.mem_of_getElem? (i := 0) rfl⟩⟩
    · exact ⟨⟨_, e 3 _ rfl, rfl, List.mem_of_getElem? (i := 1) rfl⟩, ⟨_, e 5 _ rfl, rfl, List.mem_of_getElem? (i := 1) rfl⟩⟩
    · exact ⟨⟨_, e 3 _ rfl, rfl, List.mem_of_getElem? (i := 2) rfl⟩, ⟨_, e 5 _ rfl, rfl, List.mem_of_getElem? (i := 2) rfl⟩⟩

section
variable {p : AbtjParts} {d : Bool} {E : Env} (h : (abtj p d).Solved E)
include h

/-- **C65 (flows).** The compressor gives up its bleeds, the burner sees the rest, and the turbine returns the cooling
air to the gas that reaches the afterburner. -/
theorem C65_flows :
    E.num "burner.Fl_I:stat:W" = E.num "balance.W" * (1 - E.num "comp.cool1:frac_W" - E.num "comp.cool2:frac_W")
    ∧ E.num "turb.Fl_O:stat:W" = E.num "burner.Fl_O:stat:W"
      + (E.num "comp.cool1:frac_W" + E.num "comp.cool2:frac_W") * E.num "balance.W"
    ∧ E.num "ab.Fl_I:stat:W" = E.num "turb.Fl_O:stat:W" := by
  obtain ⟨-, c1, c2, c3, -⟩ := comp_laws h
  refine ⟨?_, ?_, (ab_laws h).2.1⟩
  · rw [(burner_laws h).2.1]; rw [c2, c3] at c1; linear_combination c1
  · rw [(turb_laws h).2.1, c2, c3]; ring

variable {okC okA : (ℕ → ℝ) → Prop} (hb : Books p d okC okA) (hC : okC (E.vec "fc.fs.composition"))
  (hA : okA (E.vec "turb.Fl_O:tot:composition")) (hf : InFlight E)
include hb hC hA hf

/-- **C65 (mass).** Air flows through both burners; what leaves the turbine is the air taken in and the burner's fuel, what
leaves the nozzle the air and the fuel of both burners. -/
theorem C65_mass : 0 < E.num "burner.Fl_I:stat:W"
    ∧ E.num "turb.Fl_O:stat:W" = E.num "balance.W" + E.num "burner.Wfuel"
    ∧ E.num "nozz.Fl_O:stat:W" = E.num "balance.W" + E.num "burner.Wfuel" + E.num "ab.Wfuel" := by
  obtain ⟨f1, f2, f3⟩ := C65_flows h
  have g : 0 < E.num "burner.Fl_I:stat:W" := by rw [f1]; exact mul_pos hf.air (by linarith [hf.core])
  have hm : E.num "burner.Fl_O:stat:W" = E.num "burner.Fl_I:stat:W" + E.num "burner.Wfuel" :=
    h.burner_mass (x := "burner") (List.mem_of_getElem? (i := 4) rfl) hb.burner
      ((burner_laws h).2.2 ▸ hC : okC (E.vec "burner.Fl_I:tot:composition")) g.ne'
      (add_pos_of_pos_of_nonneg g hf.fuel).ne'
  have w : E.num "turb.Fl_O:stat:W" = E.num "balance.W" + E.num "burner.Wfuel" := by rw [f2, hm, f1]; ring
  have g2 : 0 < E.num "ab.Fl_I:stat:W" := by rw [f3, w]; have := hf.fuel; have := hf.air; linarith
  have ha : E.num "ab.Fl_O:stat:W" = E.num "ab.Fl_I:stat:W" + E.num "ab.Wfuel" :=
    h.burner_mass (x := "ab") (List.mem_of_getElem? (i := 6) rfl) hb.ab
      ((ab_laws h).2.2 ▸ hA : okA (E.vec "ab.Fl_I:tot:composition")) g2.ne' (add_pos_of_pos_of_nonneg g2 hf.abFuel).ne'
  exact ⟨g, w, by rw [(nozz_laws h).2.1, ha, f3, w]⟩

/-- **C65 (energy).** What leaves through the nozzle is, per unit time, the enthalpy of the air at free-stream total
conditions, that of the fuel of both burners and the heat added in the duct, less the powers of compressor and turbine;
for a gas whose enthalpy depends on pressure the inlet adds the difference between the enthalpies at its two pressures. -/
theorem C65_energy :
    let g := p.air (E.vec "fc.fs.composition")
    E.num "nozz.Fl_O:stat:W" * E.num "nozz.Fl_O:tot:h" = E.num "balance.W" * E.num "fc.Fl_O:tot:h"
      + E.num "burner.Wfuel" * E.num "burner.mix_fuel.mix:h" + E.num "ab.Wfuel" * E.num "ab.mix_fuel.mix:h"
      - (E.num "comp.power" + E.num "turb.power") / 1.4148532 + E.num "duct1.Q_dot"
      + E.num "balance.W" * (g.h (E.num "fc.Fl_O:tot:T") (E.num "fc.Fl_O:tot:P" * E.num "inlet.ram_recovery")
          - g.h (E.num "fc.Fl_O:tot:T") (E.num "fc.Fl_O:tot:P")) := by
  have N := C65_network p d hb
  obtain ⟨g1, w, -⟩ := C65_mass h hb hC hA hf
  have gf := hf.fuel
  have ga := hf.abFuel
  have gw := hf.air
  have o1 : 0 < E.num "turb.Fl_O:stat:W" := by rw [w]; linarith
  have g2 : 0 < E.num "ab.Fl_I:stat:W" := by rw [(C65_flows h).2.2]; exact o1
  have vi : ∀ n, ((abtj p d).view E ⟨"inlet", inlet p.air d true, [], []⟩).num n = E.num ("inlet" ++ "." ++ n)
      ∧ ((abtj p d).view E ⟨"inlet", inlet p.air d true, [], []⟩).vec n = E.vec ("inlet" ++ "." ++ n) :=
    fun n => h.view_eq rfl (Or.inr rfl)
  have vb : ∀ n, ((abtj p d).view E ⟨"burner", combustor p.burnt p.fuel d true, [], []⟩).num n
        = E.num ("burner" ++ "." ++ n)
      ∧ ((abtj p d).view E ⟨"burner", combustor p.burnt p.fuel d true, [], []⟩).vec n
        = E.vec ("burner" ++ "." ++ n) :=
    fun n => h.view_eq rfl (Or.inr rfl)
  have va : ∀ n, ((abtj p d).view E ⟨"ab", combustor p.hot p.abFuel d true, [], []⟩).num n = E.num ("ab" ++ "." ++ n)
      ∧ ((abtj p d).view E ⟨"ab", combustor p.hot p.abFuel d true, [], []⟩).vec n = E.vec ("ab" ++ "." ++ n) :=
    fun n => h.view_eq rfl (Or.inr rfl)
  have v : ∀ (x : String) (G : Group) (pI : List Prom) (n : String), promoted pI n = none →
      ((abtj p d).view E ⟨x, G, pI, []⟩).num n = E.num (x ++ "." ++ n) :=
    fun x G pI n hn => (h.view_eq rfl (Or.inr hn)).1
  have x1 := v "comp" (compressor p.air p.comp ["cool1", "cool2"] d true) [.as "Nmech" "Nmech"]
  have x2 := v "turb" (turbine p.burnt (fun _ => p.air) p.turb p.bleed ["cool1", "cool2"] d true) [.as "Nmech" "Nmech"]
  have key := Cycle.C57_energy N h.converged (by rw [show (abtj p d).links = flows from rfl]; decide +kernel) ?_ ?_ ?_
  · have e1 : (abtj p d).openOutlets (acc p okC okA) Link.carriesEnergy
        = [(⟨"fc", flightConditions p.air none, [], []⟩, "Fl_O"), (⟨"nozz", nozzle p.hot .CD .Cv, [], []⟩, "Fl_O")] := rfl
    have e2 : (abtj p d).openInlets (acc p okC okA) Link.carriesEnergy = [(⟨"inlet", inlet p.air d true, [], []⟩, "Fl_I")] := rfl
    rw [e1, e2, show (abtj p d).members = elements p d from rfl] at key
    simp only [elements, List.map_cons, List.map_nil, List.sum_cons, List.sum_nil, acc, Env.H, startAccount, inletAccount,
      ductAccount, nozzleAccount, compressorAccount, turbineAccount, combustorAccount,
      (vi _).1, (vi _).2, (vb _).1, (vb _).2, (va _).1, (va _).2, String.reduceAppend] at key
    have i1 : E.num "inlet.Fl_I:stat:W" = E.num "balance.W" := (C65_targets h).2.2.2.2
    have i2 : E.num "inlet.Fl_I:tot:h" = E.num "fc.Fl_O:tot:h" := (start h (v := "tot:h") (by decide) (by decide)).1
    have i3 : E.num "inlet.Fl_I:tot:T" = E.num "fc.Fl_O:tot:T" := (start h (v := "tot:T") (by decide) (by decide)).1
    have i4 : E.num "inlet.Fl_I:tot:P" = E.num "fc.Fl_O:tot:P" := (start h (v := "tot:P") (by decide) (by decide)).1
    have i5 : E.vec "inlet.Fl_I:tot:composition" = E.vec "fc.fs.composition" :=
      (start h (v := "tot:composition") (by decide) (by decide)).2.trans (fc_laws h).2.2.2.2
    have i6 : E.num "fc.Fl_O:stat:W" = E.num "fc.W" := (fc_laws h).2.2.2.1
    rw [x1 "power" rfl, x2 "power" rfl] at key
    simp only [v _ _ [] _ rfl, i1, i2, i3, i4, i5, i6, String.reduceAppend] at key
    simp only []
    linear_combination key
  · have d0 : E.num "duct1.Fl_I:stat:W" = E.num "balance.W" :=
      (join h 1 (a := ("inlet", "Fl_O")) (b := ("duct1", "Fl_I")) rfl).W.trans (inlet_laws h).2.2.1
    rw [show (abtj p d).members = elements p d from rfl]
    simp only [elements, List.forall_mem_cons]
    refine ⟨trivial, trivial, ?_, trivial, ⟨?_, ?_, ?_⟩, ?_, ⟨?_, ?_, ?_⟩, trivial, by simp⟩
    · simp only [ductAccount, acc, v _ _ [] _ rfl]; exact d0.trans_ne hf.air.ne'
    · rw [(vb _).2]; exact (burner_laws h).2.2 ▸ hC
    · rw [(vb _).1]; exact g1.ne'
    · rw [(vb _).1, (vb _).1]; exact (add_pos_of_pos_of_nonneg g1 gf).ne'
    · simp only [turbineAccount, acc]; rw [x2 _ rfl]; exact o1.ne'
    · rw [(va _).2]; exact (ab_laws h).2.2 ▸ hA
    · rw [(va _).1]; exact g2.ne'
    · rw [(va _).1, (va _).1]; exact (add_pos_of_pos_of_nonneg g2 ga).ne'
  · intro l hl _
    have hl : l ∈ flows := hl
    simp only [flows, List.mem_cons, List.not_mem_nil, or_false] at hl
    rcases hl with rfl | rfl | rfl | rfl | rfl | rfl | rfl | rfl | rfl <;> rfl
  · have e0 : (abtj p d).openInlets (acc p okC okA) Link.tot = [] := rfl
    rw [e0]; intro q hq; cases hq

end

/-- **C65 (tabular fuel).** With tabular thermodynamics fuel is the fuel-air ratio times the air of the stream it is added
to: the air that reaches the burner, and for the afterburner the air among what leaves the turbine. The afterburner's
ratio is an input of the engine. -/
theorem C65_tab {p : AbtjParts} {d : Bool} {E : Env} {n : ℕ} {idx : Fin n} (hp : p.fuel = .tab n idx)
    (hp' : p.abFuel = .tab n idx) (h : (abtj p d).Solved E)
    (hC : 1 + ∑ i : Fin n, E.vec "fc.fs.composition" i ≠ 0) (hA : 1 + ∑ i : Fin n, E.vec "turb.Fl_O:tot:composition" i ≠ 0)
    (hf : InFlight E) :
    E.num "burner.Wfuel" = airMass (E.num "burner.Fl_I:stat:W") (fun k : Fin n => E.vec "fc.fs.composition" k)
        * E.num "balance.FAR"
    ∧ E.num "ab.Wfuel" = airMass (E.num "balance.W" + E.num "burner.Wfuel")
        (fun k : Fin n => E.vec "turb.Fl_O:tot:composition" k) * E.num "ab.Fl_I:FAR"
    ∧ E.num "nozz.Fl_O:stat:W" = E.num "balance.W" + E.num "burner.Wfuel" + E.num "ab.Wfuel" := by
  have B : Books p d (fun x => 1 + ∑ i : Fin n, x i ≠ 0) (fun x => 1 + ∑ i : Fin n, x i ≠ 0) :=
    ⟨by rw [hp]; exact C57_combustor_tab p.burnt p.air d true n idx,
     by rw [hp']; exact C57_combustor_tab p.hot p.burnt d true n idx⟩
  obtain ⟨g, w, hm⟩ := C65_mass h B hC hA hf
  have g5 : 0 < E.num "turb.Fl_O:stat:W" := by rw [w]; linarith [hf.air, hf.fuel]
  refine ⟨?_, ?_, hm⟩
  · obtain ⟨V, hV, hi, -, x3, -, y2⟩ := h.burner_seen (x := "burner") (List.mem_of_getElem? (i := 4) rfl)
    have x1 : V.num "Fl_I:stat:W" = E.num "burner.Fl_I:stat:W" := (hi "stat:W" (by decide)).1
    have x2 : V.vec "Fl_I:tot:composition" = E.vec "fc.fs.composition" :=
      (hi "tot:composition" (by decide)).2.trans (burner_laws h).2.2
    have x3 : V.num "Fl_I:FAR" = E.num "balance.FAR" := x3.trans (C65_targets h).2.2.2.1
    rw [hp] at hV
    obtain ⟨k, -⟩ := C48_tab p.burnt d true V n idx (by rw [x2]; exact hC) (by rw [x1]; exact g.ne')
      (by rw [x1, y2]; exact (add_pos_of_pos_of_nonneg g hf.fuel).ne') hV
    rw [x1, x2, x3, y2] at k
    exact k
  · obtain ⟨V, hV, hi, -, x3, -, y2⟩ := h.burner_seen (x := "ab") (List.mem_of_getElem? (i := 6) rfl)
    have x1 : V.num "Fl_I:stat:W" = E.num "turb.Fl_O:stat:W" := (hi "stat:W" (by decide)).1.trans (ab_laws h).2.1
    have x2 : V.vec "Fl_I:tot:composition" = E.vec "turb.Fl_O:tot:composition" :=
      (hi "tot:composition" (by decide)).2.trans (ab_laws h).2.2
    have x3 : V.num "Fl_I:FAR" = E.num "ab.Fl_I:FAR" := x3
    rw [hp'] at hV
    obtain ⟨k, -⟩ := C48_tab p.hot d true V n idx (by rw [x2]; exact hA) (by rw [x1]; exact g5.ne')
      (by rw [x1, y2]; exact (add_pos_of_pos_of_nonneg g5 hf.abFuel).ne') hV
    rw [x1, x2, x3, y2, w] at k
    exact k

/-- **C65 (chemical equilibrium fuel).** With reactants as fuel: fuel is the fuel-air ratio times all the flow of the
stream it is added to; for the afterburner this includes the fuel already burnt. -/
theorem C65_cea {p : AbtjParts} {d : Bool} {E : Env} (data : ThermoData) (S S' : ReactantAdd) (hS : MFTF.CeaFuel data S)
    (hS' : MFTF.CeaFuel data S') (hp : p.fuel = .cea S) (hp' : p.abFuel = .cea S') (h : (abtj p d).Solved E)
    (hC : totalMass S.inflow.elements data.wtOf (fun k => E.vec "fc.fs.composition" k) ≠ 0)
    (hA : totalMass S'.inflow.elements data.wtOf (fun k => E.vec "turb.Fl_O:tot:composition" k) ≠ 0)
    (hf : InFlight E) :
    E.num "burner.Wfuel" = E.num "burner.Fl_I:stat:W" * E.num "balance.FAR"
    ∧ E.num "ab.Wfuel" = (E.num "balance.W" + E.num "burner.Wfuel") * E.num "ab.Fl_I:FAR"
    ∧ E.num "nozz.Fl_O:stat:W" = E.num "balance.W" + E.num "burner.Wfuel" + E.num "ab.Wfuel" := by
  obtain ⟨infl, hn, fuel, f, q1, q2, q3, q4⟩ := hS.setup
  obtain ⟨infl', hn', fuel', f', r1, r2, r3, r4⟩ := hS'.setup
  have B : Books p d (fun x => totalMass S.inflow.elements data.wtOf (fun k => x k) ≠ 0)
      (fun x => totalMass S'.inflow.elements data.wtOf (fun k => x k) ≠ 0) :=
    ⟨by rw [hp]; exact C57_combustor_cea p.burnt p.air d true data infl hn fuel f q1 q2 q3 S q4 hS.weights,
     by rw [hp']; exact C57_combustor_cea p.hot p.burnt d true data infl' hn' fuel' f' r1 r2 r3 S' r4 hS'.weights⟩
  obtain ⟨g, w, hm⟩ := C65_mass h B hC hA hf
  have g5 : 0 < E.num "turb.Fl_O:stat:W" := by rw [w]; linarith [hf.air, hf.fuel]
  refine ⟨?_, ?_, hm⟩
  · obtain ⟨V, hV, hi, -, x3, -, y2⟩ := h.burner_seen (x := "burner") (List.mem_of_getElem? (i := 4) rfl)
    have x1 : V.num "Fl_I:stat:W" = E.num "burner.Fl_I:stat:W" := (hi "stat:W" (by decide)).1
    have x2 : V.vec "Fl_I:tot:composition" = E.vec "fc.fs.composition" :=
      (hi "tot:composition" (by decide)).2.trans (burner_laws h).2.2
    have x3 : V.num "Fl_I:FAR" = E.num "balance.FAR" := x3.trans (C65_targets h).2.2.2.1
    rw [hp] at hV
    obtain ⟨k, -⟩ := C48_cea p.burnt d true V data infl hn fuel f q1 q2 q3 S q4 hS.weights (by rw [x2]; exact hC)
      (by rw [x1, y2]; exact (add_pos_of_pos_of_nonneg g hf.fuel).ne') hV
    rw [x1, x3, y2] at k
    exact k
  · obtain ⟨V, hV, hi, -, x3, -, y2⟩ := h.burner_seen (x := "ab") (List.mem_of_getElem? (i := 6) rfl)
    have x1 : V.num "Fl_I:stat:W" = E.num "turb.Fl_O:stat:W" := (hi "stat:W" (by decide)).1.trans (ab_laws h).2.1
    have x2 : V.vec "Fl_I:tot:composition" = E.vec "turb.Fl_O:tot:composition" :=
      (hi "tot:composition" (by decide)).2.trans (ab_laws h).2.2
    have x3 : V.num "Fl_I:FAR" = E.num "ab.Fl_I:FAR" := x3
    rw [hp'] at hV
    obtain ⟨k, -⟩ := C48_cea p.hot d true V data infl' hn' fuel' f' r1 r2 r3 S' r4 hS'.weights (by rw [x2]; exact hA)
      (by rw [x1, y2]; exact (add_pos_of_pos_of_nonneg g5 hf.abFuel).ne') hV
    rw [x1, x3, y2, w] at k
    exact k

end PyCycle.OM
