import Verif.Proofs.TurboshaftNames
import Verif.Proofs.ShaftAlter
import Verif.Props.C57_Network

/-! # C62: the turboshaft with a free power turbine

What a solved `SingleSpoolTurboshaft` of `example_cycles/single_spool_turboshaft.py` is, as a design point and off design,
for any thermodynamics, any maps and any way of adding fuel. -/

namespace PyCycle.OM

open SSTS

/-- **C62 (interface).** In both modes the engine is accepted: every connection joins an output to an input, none is
connected twice, every promotion finds a variable. -/
theorem C62_interface (p : SstsParts) (d : Bool) : (ssts p d).group.wiring.Accepted := accepted p d

/-- **C62 (solved states).** Every converged engine can be completed, by transferring outputs to inputs, to a solved one
with the same outputs: the theorems below are about all converged engines. -/
theorem C62_complete (p : SstsParts) (d : Bool) (E : Env) (hc : (ssts p d).group.Converged E) :
    ∃ E', (ssts p d).Solved E' ∧ ∀ n ∈ (ssts p d).group.wiring.outs, E'.num n = E.num n ∧ E'.vec n = E.vec n := by
  refine Cycle.complete (accepted p d).1 ?_ hc
  simp only [ssts, List.forall_mem_cons]
  exact ⟨(shaftSub_local 2 _).rename "HP_shaft", (shaftSub_local 1 _).rename "LP_shaft", performanceSub_local _ _,
    balances_local _ _, by simp⟩

section
variable {p : SstsParts} {d : Bool} {E : Env} (h : (ssts p d).Solved E)
include h

namespace SSTS

theorem join (i : ℕ) {a b : String × String} {s : Bool} (hl : flows[i]? = some { src := a, tgt := b, stat := s }) :
    E.Joined a b := h.joined (List.mem_of_getElem? hl)

/-- From the free stream the inlet gets everything but the flow. -/
theorem start {v : String} (hv : v ∈ linkOutVars) (hne : v ≠ "stat:W") :
    E.num ("inlet" ++ "." ++ ("Fl_I" ++ ":" ++ v)) = E.num ("fc" ++ "." ++ ("Fl_O" ++ ":" ++ v))
    ∧ E.vec ("inlet" ++ "." ++ ("Fl_I" ++ ":" ++ v)) = E.vec ("fc" ++ "." ++ ("Fl_O" ++ ":" ++ v)) := by
  have := h.link (l := { src := ("fc", "Fl_O"), tgt := ("inlet", "Fl_I"), w := false })
    (List.mem_of_getElem? (i := 0) rfl) hv (fun e => absurd e hne) rfl rfl
  exact ⟨this.1.symm, this.2.symm⟩

theorem conn {a b : String} (hx : (a, b) ∈ plainConns) : E.num a = E.num b :=
  (h.conn (List.mem_append_left _ hx)).1

theorem bal {b : Bal} (hb : b ∈ bals d) :
    b.Met ⟨fun v => E.num ((balances (bals d) []).inName v), fun v => E.vec ((balances (bals d) []).inName v)⟩ :=
  h.other (s := balances (bals d) []) (List.mem_of_getElem? (i := 3) rfl) b hb

theorem bconn {a b : String} (hx : (a, b) ∈ balConns d) : E.num a = E.num b :=
  (h.conn (List.mem_append_right _ hx)).1

theorem fc_laws : Atm.ambient (E.num "fc.alt") (E.num "fc.dTs") .Ps = some (E.num "fc.Fl_O:stat:P")
    ∧ Atm.ambient (E.num "fc.alt") (E.num "fc.dTs") .Ts = some (E.num "fc.Fl_O:stat:T")
    ∧ E.num "fc.Fl_O:stat:MN" = E.num "fc.MN" ∧ E.num "fc.Fl_O:stat:W" = E.num "fc.W"
    ∧ E.vec "fc.Fl_O:tot:composition" = E.vec "fc.fs.composition" :=
  h.flight_laws (x := "fc") (gas := p.air) (List.mem_of_getElem? (i := 0) rfl)

theorem inlet_laws : E.num "inlet.Fl_O:tot:P" = E.num "fc.Fl_O:tot:P" * E.num "inlet.ram_recovery"
    ∧ E.num "inlet.F_ram" = E.num "balance.W" * E.num "fc.Fl_O:stat:V" / 32.174
    ∧ E.num "inlet.Fl_O:stat:W" = E.num "balance.W"
    ∧ E.vec "inlet.Fl_O:tot:composition" = E.vec "fc.fs.composition" := by
  obtain ⟨h1, h2, h3, h4⟩ := h.inlet_laws (x := "inlet") (gas := p.air) (d := d) (List.mem_of_getElem? (i := 1) rfl)
  have w : E.num "balance.W" = E.num "inlet.Fl_I:stat:W" := bconn h (by cases d <;> simp [balConns])
  have v : E.num "inlet.Fl_I:stat:V" = E.num "fc.Fl_O:stat:V" := (start h (v := "stat:V") (by decide) (by decide)).1
  have pp : E.num "inlet.Fl_I:tot:P" = E.num "fc.Fl_O:tot:P" := (start h (v := "tot:P") (by decide) (by decide)).1
  have cc : E.vec "inlet.Fl_I:tot:composition" = E.vec "fc.Fl_O:tot:composition" :=
    (start h (v := "tot:composition") (by decide) (by decide)).2
  have h2 : E.num "inlet.F_ram" = E.num "inlet.Fl_I:stat:W" * E.num "inlet.Fl_I:stat:V" / 32.174 := h2
  rw [← w, v] at h2
  exact ⟨h1.trans (congrArg (· * _) pp), h2, h3.trans w.symm, (h4.trans cc).trans (fc_laws h).2.2.2.2⟩

theorem comp_laws : E.num "comp.Fl_O:tot:P" = E.num "comp.PR" * E.num "inlet.Fl_O:tot:P"
    ∧ E.num "comp.Fl_O:stat:W" = E.num "balance.W"
    ∧ E.vec "comp.Fl_O:tot:composition" = E.vec "fc.fs.composition"
    ∧ (E.num "HP_Nmech" ≠ 0 → E.num "comp.trq" * E.num "HP_Nmech" = 5252.11 * E.num "comp.power") := by
  have L := h.compressor_laws (x := "comp") (mc := p.comp) (gas := p.air) (d := d) (N := "HP_Nmech") Turbojet.noComp
    (List.mem_of_getElem? (i := 2) rfl)
  have j := join h 1 (a := ("inlet", "Fl_O")) (b := ("comp", "Fl_I")) rfl
  obtain ⟨-, -, f1, f2⟩ := inlet_laws h
  have l2 := L.mass
  rw [List.map_nil, List.sum_nil, add_zero] at l2
  exact ⟨L.pressure.trans (congrArg (_ * ·) j.P), (l2.trans j.W).trans f1, (L.composition.trans j.C).trans f2, L.torque⟩

theorem burner_laws : E.num "burner.Fl_O:tot:P" = E.num "comp.Fl_O:tot:P" * (1 - E.num "burner.dPqP")
    ∧ E.num "burner.Fl_I:stat:W" = E.num "balance.W"
    ∧ E.vec "burner.Fl_I:tot:composition" = E.vec "fc.fs.composition" := by
  obtain ⟨h1, h2, h3⟩ := h.burner_laws (x := "burner") (gas := p.burnt) (a := p.fuel) (d := d)
    (List.mem_of_getElem? (i := 3) rfl) (join h 2 (a := ("comp", "Fl_O")) rfl)
  obtain ⟨-, b1, b2, -⟩ := comp_laws h
  exact ⟨h1, h2.trans b1, h3.trans b2⟩

theorem turb_laws : E.num "turb.Fl_O:tot:P" = E.num "burner.Fl_O:tot:P" / E.num "turb.PR"
    ∧ E.num "turb.Fl_O:stat:W" = E.num "burner.Fl_O:stat:W"
    ∧ (E.num "HP_Nmech" ≠ 0 → E.num "turb.trq" * E.num "HP_Nmech" = 5252.11 * E.num "turb.power") := by
  obtain ⟨-, L⟩ := h.turbine_laws (x := "turb") (mt := p.turb) (gas := p.burnt) (gb := fun _ => p.burnt) (ba := p.turbBleed)
    (d := d) (N := "HP_Nmech") Turbojet.noTurb (List.mem_of_getElem? (i := 4) rfl)
  have j := join h 3 (a := ("burner", "Fl_O")) (b := ("turb", "Fl_I")) rfl
  have l2 := L.mass
  rw [List.map_nil, List.sum_nil, add_zero] at l2
  exact ⟨L.pressure.trans (congrArg (· / _) j.P), l2.trans j.W, L.torque⟩

theorem pt_laws : E.num "pt.Fl_O:tot:P" = E.num "turb.Fl_O:tot:P" / E.num "pt.PR"
    ∧ E.num "pt.Fl_O:stat:W" = E.num "burner.Fl_O:stat:W"
    ∧ (E.num "LP_Nmech" ≠ 0 → E.num "pt.trq" * E.num "LP_Nmech" = 5252.11 * E.num "pt.power") := by
  obtain ⟨-, L⟩ := h.turbine_laws (x := "pt") (mt := p.pt) (gas := p.burnt) (gb := fun _ => p.burnt) (ba := p.ptBleed)
    (d := d) (N := "LP_Nmech") Turbojet.noTurb (List.mem_of_getElem? (i := 5) rfl)
  have j := join h 4 (a := ("turb", "Fl_O")) (b := ("pt", "Fl_I")) rfl
  have l2 := L.mass
  rw [List.map_nil, List.sum_nil, add_zero] at l2
  exact ⟨L.pressure.trans (congrArg (· / _) j.P), (l2.trans j.W).trans (turb_laws h).2.1, L.torque⟩

theorem nozz_laws : E.num "nozz.Fl_O:tot:P" = E.num "pt.Fl_O:tot:P" * (1 - E.num "nozz.dPqP")
    ∧ E.num "nozz.Fl_O:stat:W" = E.num "burner.Fl_O:stat:W"
    ∧ E.num "nozz.PR" * E.num "fc.Fl_O:stat:P" = E.num "nozz.Fl_O:tot:P"
    ∧ E.num "nozz.Fg" = E.num "nozz.Fl_O:stat:W" * E.num "nozz.Fl_O:stat:V" / 32.174
          * (E.num "nozz.Cv" * E.num "nozz.perf_calcs.Cang" * E.num "nozz.perf_calcs.CmixCorr")
        + (E.num "nozz.Fl_O:stat:P" - E.num "fc.Fl_O:stat:P") * E.num "nozz.Fl_O:stat:area" := by
  have j := join h 5 (a := ("pt", "Fl_O")) (b := ("nozz", "Fl_I")) rfl
  obtain ⟨n1, n2, n3, n4⟩ := h.nozzle_laws (x := "nozz") (gas := p.burnt) (k := .CV) (List.mem_of_getElem? (i := 6) rfl) j
  have e : E.num "fc.Fl_O:stat:P" = E.num "nozz.Ps_exhaust" := conn h (by simp [plainConns])
  rw [e]
  exact ⟨n1, Eq.trans n2 (pt_laws h).2.1, n3, n4⟩

/-- Powers of the shafts. -/
theorem hp_laws (hN : 0 < E.num "HP_Nmech") :
    E.num "HP_shaft.pwr_net" = 5252.11 * (2 * Real.pi / 60 / 550) * ((1 - E.num "HP_shaft.fracLoss")
        * (max (E.num "comp.power") 0 + max (E.num "turb.power") 0)
        + (min (E.num "comp.power") 0 + min (E.num "turb.power") 0)) - E.num "HP_shaft.HPX" := by
  have e := h.other (s := { shaftSub 2 [.as "Nmech" "HP_Nmech"] with name := "HP_shaft" })
    (List.mem_of_getElem? (i := 0) rfl)
  have c0 : E.num "comp.trq" = E.num "HP_shaft.trq_0" := conn h (by simp [plainConns])
  have c1 : E.num "turb.trq" = E.num "HP_shaft.trq_1" := conn h (by simp [plainConns])
  have t0 := (comp_laws h).2.2.2 hN.ne'
  have t1 := (turb_laws h).2.2 hN.ne'
  rw [c0] at t0
  rw [c1] at t1
  obtain ⟨-, -, -, -, -, -, -, e3⟩ := e
  have k := Shaft.raw_powers_of_ports (n := 2) ![E.num "comp.power", E.num "turb.power"] hN
    (x := shaftIn 2 ⟨fun v => E.num (({ shaftSub 2 [.as "Nmech" "HP_Nmech"] with name := "HP_shaft" } : Sub).inName v),
      fun v => E.vec (({ shaftSub 2 [.as "Nmech" "HP_Nmech"] with name := "HP_shaft" } : Sub).inName v)⟩)
    (by intro k; fin_cases k; exacts [t0, t1])
  simp only [Fin.sum_univ_two] at k
  exact Eq.trans e3 k.2.2

theorem lp_laws (hN : 0 < E.num "LP_Nmech") :
    E.num "LP_shaft.pwr_net" = 5252.11 * (2 * Real.pi / 60 / 550) * ((1 - E.num "LP_shaft.fracLoss")
        * max (E.num "pt.power") 0 + min (E.num "pt.power") 0) - E.num "LP_shaft.HPX" := by
  have e := h.other (s := { shaftSub 1 [.as "Nmech" "LP_Nmech"] with name := "LP_shaft" })
    (List.mem_of_getElem? (i := 1) rfl)
  have c0 : E.num "pt.trq" = E.num "LP_shaft.trq_0" := conn h (by simp [plainConns])
  have t0 := (pt_laws h).2.2 hN.ne'
  rw [c0] at t0
  obtain ⟨-, -, -, -, -, -, -, e3⟩ := e
  have k := Shaft.raw_powers_of_ports (n := 1) ![E.num "pt.power"] hN
    (x := shaftIn 1 ⟨fun v => E.num (({ shaftSub 1 [.as "Nmech" "LP_Nmech"] with name := "LP_shaft" } : Sub).inName v),
      fun v => E.vec (({ shaftSub 1 [.as "Nmech" "LP_Nmech"] with name := "LP_shaft" } : Sub).inName v)⟩)
    (by intro k; fin_cases k; exact t0)
  simp only [Fin.sum_univ_one] at k
  exact Eq.trans e3 k.2.2

theorem perf_laws : E.num "perf.Fn" = E.num "nozz.Fg" - E.num "inlet.F_ram"
    ∧ E.num "perf.OPR" = E.num "comp.Fl_O:tot:P" / E.num "inlet.Fl_O:tot:P"
    ∧ E.num "perf.PSFC" = E.num "burner.Wfuel" * 3600 / E.num "LP_shaft.pwr_net" := by
  have e := h.other (s := performanceSub 1 1) (List.mem_of_getElem? (i := 2) rfl)
  have c0 : E.num "nozz.Fg" = E.num "perf.Fg_0" := conn h (by simp [plainConns])
  have c1 : E.num "inlet.F_ram" = E.num "perf.ram_drag" := conn h (by simp [plainConns])
  have c2 : E.num "inlet.Fl_O:tot:P" = E.num "perf.Pt2" := conn h (by simp [plainConns])
  have c3 : E.num "comp.Fl_O:tot:P" = E.num "perf.Pt3" := conn h (by simp [plainConns])
  have c4 : E.num "burner.Wfuel" = E.num "perf.Wfuel_0" := conn h (by simp [plainConns])
  have c5 : E.num "LP_shaft.pwr_net" = E.num "perf.power" := conn h (by simp [plainConns])
  obtain ⟨e1, -, e3, -, e5, -⟩ := e
  have e1 : E.num "perf.OPR" = E.num "perf.Pt3" / E.num "perf.Pt2" := e1
  have e3 : E.num "perf.Fn" = (0 + E.num "perf.Fg_0") - E.num "perf.ram_drag" := e3
  have e5 : E.num "perf.PSFC" = (0 + E.num "perf.Wfuel_0") * 3600 / E.num "perf.power" := e5
  rw [c0, c1, c2, c3, c4, c5]
  exact ⟨by rw [e3, zero_add], e1, by rw [e5, zero_add]⟩

end SSTS

/-- **C62 (flight).** The engine flies at the altitude, temperature deviation and Mach number of `fc`; the nozzle
discharges against the ambient pressure of the standard atmosphere; the air keeps its composition up to the burner, and
all of it gets there. -/
theorem C62_flight : Atm.ambient (E.num "fc.alt") (E.num "fc.dTs") .Ps = some (E.num "fc.Fl_O:stat:P")
    ∧ Atm.ambient (E.num "fc.alt") (E.num "fc.dTs") .Ts = some (E.num "fc.Fl_O:stat:T")
    ∧ E.num "fc.Fl_O:stat:MN" = E.num "fc.MN"
    ∧ E.num "nozz.Ps_exhaust" = E.num "fc.Fl_O:stat:P"
    ∧ E.vec "burner.Fl_I:tot:composition" = E.vec "fc.fs.composition"
    ∧ E.num "burner.Fl_I:stat:W" = E.num "balance.W" := by
  obtain ⟨f1, f2, f3, -⟩ := fc_laws h
  exact ⟨f1, f2, f3, (conn h (by simp [plainConns])).symm, (burner_laws h).2.2, (burner_laws h).2.1⟩

/-- **C62 (pressures).** Total pressure is multiplied by ram recovery, pressure ratio and loss factors and divided by the
pressure ratios of both turbines; the nozzle's pressure ratio relates it to the ambient pressure; the overall pressure
ratio is that of the compressor. -/
theorem C62_pressure :
    E.num "nozz.Fl_O:tot:P" = E.num "fc.Fl_O:tot:P" * E.num "inlet.ram_recovery" * E.num "comp.PR"
      * (1 - E.num "burner.dPqP") / E.num "turb.PR" / E.num "pt.PR" * (1 - E.num "nozz.dPqP")
    ∧ E.num "nozz.PR" * E.num "fc.Fl_O:stat:P" = E.num "nozz.Fl_O:tot:P"
    ∧ (E.num "inlet.Fl_O:tot:P" ≠ 0 → E.num "perf.OPR" = E.num "comp.PR") := by
  refine ⟨?_, (nozz_laws h).2.2.1, fun hP => ?_⟩
  · rw [(nozz_laws h).1, (pt_laws h).1, (turb_laws h).1, (burner_laws h).1, (comp_laws h).1, (inlet_laws h).1]; ring
  · rw [(perf_laws h).2.1, (comp_laws h).1]; field_simp

/-- **C62 (thrust and consumption).** Net thrust is gross thrust of the nozzle less ram drag, the momentum of all the air
at flight speed; specific fuel consumption is fuel flow, in pounds per hour, per delivered shaft horsepower. -/
theorem C62_thrust :
    E.num "perf.Fn" = E.num "nozz.Fl_O:stat:W" * E.num "nozz.Fl_O:stat:V" / 32.174
          * (E.num "nozz.Cv" * E.num "nozz.perf_calcs.Cang" * E.num "nozz.perf_calcs.CmixCorr")
        + (E.num "nozz.Fl_O:stat:P" - E.num "fc.Fl_O:stat:P") * E.num "nozz.Fl_O:stat:area"
      - E.num "balance.W" * E.num "fc.Fl_O:stat:V" / 32.174
    ∧ E.num "perf.PSFC" = E.num "burner.Wfuel" * 3600 / E.num "LP_shaft.pwr_net" := by
  obtain ⟨p1, -, p3⟩ := perf_laws h
  exact ⟨by rw [p1, (nozz_laws h).2.2.2, (inlet_laws h).2.1], p3⟩

/-- **C62 (targets).** In both modes the delivered power is the one asked for. As a design point so are the nozzle's
pressure ratio and the temperature behind the burner, and the turbines get the pressure ratios the balance found; off
design the throat has the area asked for and the gas generator turns at the speed the balance found. In both modes the
burner and the inlet get the fuel-air ratio and the flow the balance found. -/
theorem C62_targets :
    E.num "LP_shaft.pwr_net" = E.num "balance.pwr_target"
    ∧ (d = true → E.num "nozz.PR" = E.num "balance.nozz_PR_target" ∧ E.num "burner.Fl_O:tot:T" = E.num "balance.T4_target"
      ∧ E.num "turb.PR" = E.num "balance.turb_PR" ∧ E.num "pt.PR" = E.num "balance.pt_PR")
    ∧ (d = false → E.num "nozz.Throat:stat:area" = E.num "balance.rhs:W" ∧ E.num "HP_Nmech" = E.num "balance.HP_Nmech")
    ∧ E.num "burner.Fl_I:FAR" = E.num "balance.FAR" ∧ E.num "inlet.Fl_I:stat:W" = E.num "balance.W" := by
  have c := fun {x y : String} (hx : (x, y) ∈ balConns d) => bconn h hx
  refine ⟨?_, ?_, ?_, (c (by cases d <;> simp [balConns])).symm, (c (by cases d <;> simp [balConns])).symm⟩
  · cases d with
    | true =>
      have b : 1 * E.num "balance.lhs:pt_PR" = E.num "balance.pwr_target" :=
        bal h (b := { Bal.of "pt_PR" with rhs := "pwr_target" }) (by simp [bals])
      have c1 : E.num "LP_shaft.pwr_net" = E.num "balance.lhs:pt_PR" := c (by simp [balConns])
      rw [c1, ← b, one_mul]
    | false =>
      have b : 1 * E.num "balance.lhs:FAR" = E.num "balance.pwr_target" :=
        bal h (b := { Bal.of "FAR" with rhs := "pwr_target" }) (by simp [bals])
      have c1 : E.num "LP_shaft.pwr_net" = E.num "balance.lhs:FAR" := c (by simp [balConns])
      rw [c1, ← b, one_mul]
  · rintro rfl
    have b1 : 1 * E.num "balance.lhs:W" = E.num "balance.nozz_PR_target" :=
      bal h (b := { Bal.of "W" with rhs := "nozz_PR_target" }) (by simp [bals])
    have b2 : 1 * E.num "balance.lhs:FAR" = E.num "balance.T4_target" :=
      bal h (b := { Bal.of "FAR" with rhs := "T4_target" }) (by simp [bals])
    have c1 : E.num "nozz.PR" = E.num "balance.lhs:W" := c (by simp [balConns])
    have c2 : E.num "burner.Fl_O:tot:T" = E.num "balance.lhs:FAR" := c (by simp [balConns])
    rw [one_mul] at b1 b2
    exact ⟨c1.trans b1, c2.trans b2, (c (by simp [balConns])).symm, (c (by simp [balConns])).symm⟩
  · rintro rfl
    have b1 : 1 * E.num "balance.lhs:W" = E.num "balance.rhs:W" := bal h (b := .of "W") (by simp [bals])
    have c1 : E.num "nozz.Throat:stat:area" = E.num "balance.lhs:W" := c (by simp [balConns])
    rw [one_mul] at b1
    exact ⟨c1.trans b1, (c (by simp [balConns])).symm⟩

/-- **C62 (shafts).** On the gas generator the turbine drives the compressor: what drives the shaft, less the fractional
loss, plus what brakes it, equals the power extracted plus the right-hand side of the balance (0 unless it is set). The
power turbine alone delivers the power asked for, after the loss and the extraction of its own shaft. The factor is that
of `C26_refuted_round_trip`, 1 to within `10⁻⁶`. -/
theorem C62_shafts (hH : 0 < E.num "HP_Nmech") (hL : 0 < E.num "LP_Nmech") :
    5252.11 * (2 * Real.pi / 60 / 550) * ((1 - E.num "HP_shaft.fracLoss")
        * (max (E.num "comp.power") 0 + max (E.num "turb.power") 0)
        + (min (E.num "comp.power") 0 + min (E.num "turb.power") 0))
      = E.num "HP_shaft.HPX" + E.num (if d then "balance.rhs:turb_PR" else "balance.rhs:HP_Nmech")
    ∧ 5252.11 * (2 * Real.pi / 60 / 550) * ((1 - E.num "LP_shaft.fracLoss")
        * max (E.num "pt.power") 0 + min (E.num "pt.power") 0)
      = E.num "LP_shaft.HPX" + E.num "balance.pwr_target" := by
  have l := lp_laws h hL
  have k := hp_laws h hH
  rw [(C62_targets h).1] at l
  refine ⟨?_, by linarith⟩
  have b : E.num "HP_shaft.pwr_net" = E.num (if d then "balance.rhs:turb_PR" else "balance.rhs:HP_Nmech") := by
    cases d with
    | true =>
      have b : 1 * E.num "balance.lhs:turb_PR" = E.num "balance.rhs:turb_PR" := bal h (b := .of "turb_PR") (by simp [bals])
      have c1 : E.num "HP_shaft.pwr_net" = E.num "balance.lhs:turb_PR" := bconn h (by simp [balConns])
      rw [c1, ← one_mul (E.num "balance.lhs:turb_PR")]; exact b
    | false =>
      have b : 1 * E.num "balance.lhs:HP_Nmech" = E.num "balance.rhs:HP_Nmech" := bal h (b := .of "HP_Nmech") (by simp [bals])
      have c1 : E.num "HP_shaft.pwr_net" = E.num "balance.lhs:HP_Nmech" := bconn h (by simp [balConns])
      rw [c1, ← one_mul (E.num "balance.lhs:HP_Nmech")]; exact b
  rw [b] at k
  linarith

end

/-! ## Mass and energy -/

namespace SSTS

/-- The account of each element. -/
noncomputable def acc (p : SstsParts) (okC : (ℕ → ℝ) → Prop) : String → Account
  | "fc" => startAccount p.air
  | "inlet" => inletAccount p.air
  | "comp" => compressorAccount p.air []
  | "burner" => combustorAccount p.burnt p.air okC
  | "turb" => turbineAccount p.burnt (fun _ => p.burnt) []
  | "pt" => turbineAccount p.burnt (fun _ => p.burnt) []
  | "nozz" => nozzleAccount p.burnt
  | _ => startAccount p.air

end SSTS

/-- **C62 (network).** The engine is a network of accounts. -/
theorem C62_network (p : SstsParts) (d : Bool) {okC : (ℕ → ℝ) → Prop}
    (hb : (combustorAccount p.burnt p.air okC).Holds (combustor p.burnt p.fuel d true)) :
    (ssts p d).Network (acc p okC) where
  wired := (C62_interface p d).1
  accounts := by
    simp only [ssts, elements, List.forall_mem_cons]
    exact ⟨C57_flight _ _, C57_inlet _ _ _, C57_compressor _ _ Turbojet.noComp _ _, hb,
      C57_turbine _ _ _ _ _ Turbojet.noTurb _ _, C57_turbine _ _ _ _ _ Turbojet.noTurb _ _, C57_nozzle _ _ _, by simp⟩
  plainIn := by
    have k : ∀ q ∈ ["Fl_I"], ∀ v ∈ portVars, (q ++ ":" ++ v) ≠ "Nmech" := by decide +kernel
    have k1 : ∀ N : String, ∀ q ∈ ["Fl_I"], ∀ v ∈ portVars, promoted [.as "Nmech" N] (q ++ ":" ++ v) = none := by
      intro N q hq v hv
      simp [promoted, Prom.exact, Prom.fits, (k q hq v hv).symm, k q hq v hv]
    simp only [ssts, elements, List.forall_mem_cons]
    exact ⟨fun _ _ _ _ => rfl, fun _ _ _ _ => rfl, k1 _, fun _ _ _ _ => rfl, k1 _, k1 _, fun _ _ _ _ => rfl, by simp⟩
  plainOut := by
    simp only [ssts, elements, List.forall_mem_cons]
    refine ⟨?_, ?_, ?_, ?_, ?_, ?_, ?_, by simp⟩
    all_goals exact fun _ _ _ _ => rfl
  linked := by
    intro l hl
    have hl : l ∈ flows := hl
    have e : ∀ (i : ℕ) (a : Member), (elements p d)[i]? = some a → a ∈ (ssts p d).members :=
      fun i a ha => List.mem_of_getElem? ha
    simp only [flows, List.mem_cons, List.not_mem_nil, or_false] at hl
    rcases hl with rfl | rfl | rfl | rfl | rfl | rfl
    · exact ⟨⟨_, e 0 _ rfl, rfl, List.mem_of_getElem? (i := 0) rfl⟩, ⟨_, e 1 _ rfl, rfl, List.mem_of_getElem? (i := 0) rfl⟩⟩
    · exact ⟨⟨_, e 1 _ rfl, rfl, List.mem_of_getElem? (i := 0) rfl⟩, ⟨_, e 2 _ rfl, rfl, List.mem_of_getElem? (i := 0) rfl⟩⟩
    · exact ⟨⟨_, e 2 _ rfl, rfl, List.mem_of_getElem? (i := 0) rfl⟩, ⟨_, e 3 _ rfl, rfl, List.mem_of_getElem? (i := 0) rfl⟩⟩
    · exact ⟨⟨_, e 3 _ rfl, rfl, List.mem_of_getElem? (i := 0) rfl⟩, ⟨_, e 4 _ rfl, rfl, List.mem_of_getElem? (i := 0) rfl⟩⟩
    · exact ⟨⟨_, e 4 _ rfl, rfl, List.mem_of_getElem? (i := 0) rfl⟩, ⟨_, e 5 _ rfl, rfl, List.mem_of_getElem? (i := 0) rfl⟩⟩
    · exact ⟨⟨_, e 5 _ rfl, rfl, List.mem_of_getElem? (i := 0) rfl⟩, ⟨_, e 6 _ rfl, rfl, List.mem_of_getElem? (i := 0) rfl⟩⟩

section
variable {p : SstsParts} {d : Bool} {E : Env} (h : (ssts p d).Solved E) {okC : (ℕ → ℝ) → Prop}
  (hb : (combustorAccount p.burnt p.air okC).Holds (combustor p.burnt p.fuel d true))
  (hC : okC (E.vec "fc.fs.composition")) (hW : E.num "balance.W" ≠ 0)
  (hWf : E.num "balance.W" + E.num "burner.Wfuel" ≠ 0)
include h hb hC hW hWf

/-- **C62 (mass).** What leaves the nozzle is the air taken in and the fuel burnt. -/
theorem C62_mass : E.num "nozz.Fl_O:stat:W" = E.num "balance.W" + E.num "burner.Wfuel" := by
  obtain ⟨-, b2, b3⟩ := burner_laws h
  have hm : E.num "burner.Fl_O:stat:W" = E.num "burner.Fl_I:stat:W" + E.num "burner.Wfuel" :=
    h.burner_mass (x := "burner") (List.mem_of_getElem? (i := 3) rfl) hb
      (b3 ▸ hC : okC (E.vec "burner.Fl_I:tot:composition")) (b2 ▸ hW : E.num "burner.Fl_I:stat:W" ≠ 0)
      (b2 ▸ hWf : E.num "burner.Fl_I:stat:W" + E.num "burner.Wfuel" ≠ 0)
  rw [(nozz_laws h).2.1, hm, b2]

/-- **C62 (energy).** What leaves the nozzle, per unit time, is the enthalpy of the air at free-stream total conditions,
the enthalpy of the fuel, less the powers of compressor and turbines; for a gas whose enthalpy depends on pressure the
inlet adds the difference between the enthalpies at its two pressures. -/
theorem C62_energy :
    let g := p.air (E.vec "fc.fs.composition")
    E.num "nozz.Fl_O:stat:W" * E.num "nozz.Fl_O:tot:h" = E.num "balance.W" * E.num "fc.Fl_O:tot:h"
      + E.num "burner.Wfuel" * E.num "burner.mix_fuel.mix:h"
      - (E.num "comp.power" + E.num "turb.power" + E.num "pt.power") / 1.4148532
      + E.num "balance.W" * (g.h (E.num "fc.Fl_O:tot:T") (E.num "fc.Fl_O:tot:P" * E.num "inlet.ram_recovery")
          - g.h (E.num "fc.Fl_O:tot:T") (E.num "fc.Fl_O:tot:P")) := by
  have N := C62_network p d hb
  obtain ⟨-, b2, b3⟩ := burner_laws h
  have hm := C62_mass h hb hC hW hWf
  rw [(nozz_laws h).2.1] at hm
  have vi : ∀ n, ((ssts p d).view E ⟨"inlet", inlet p.air d true, [], []⟩).num n = E.num ("inlet" ++ "." ++ n)
      ∧ ((ssts p d).view E ⟨"inlet", inlet p.air d true, [], []⟩).vec n = E.vec ("inlet" ++ "." ++ n) :=
    fun n => h.view_eq rfl (Or.inr rfl)
  have vb : ∀ n, ((ssts p d).view E ⟨"burner", combustor p.burnt p.fuel d true, [], []⟩).num n
        = E.num ("burner" ++ "." ++ n)
      ∧ ((ssts p d).view E ⟨"burner", combustor p.burnt p.fuel d true, [], []⟩).vec n
        = E.vec ("burner" ++ "." ++ n) :=
    fun n => h.view_eq rfl (Or.inr rfl)
  have v : ∀ (x : String) (G : Group) (pI : List Prom) (n : String), promoted pI n = none →
      ((ssts p d).view E ⟨x, G, pI, []⟩).num n = E.num (x ++ "." ++ n) :=
    fun x G pI n hn => (h.view_eq rfl (Or.inr hn)).1
  have x1 := v "comp" (compressor p.air p.comp [] d true) [.as "Nmech" "HP_Nmech"]
  have x2 := v "turb" (turbine p.burnt (fun _ => p.burnt) p.turb p.turbBleed [] d true) [.as "Nmech" "HP_Nmech"]
  have x3 := v "pt" (turbine p.burnt (fun _ => p.burnt) p.pt p.ptBleed [] d true) [.as "Nmech" "LP_Nmech"]
  have one : [("inlet", "Fl_O"), ("comp", "Fl_O"), ("burner", "Fl_O"), ("turb", "Fl_O"), ("pt", "Fl_O")].Nodup := by decide
  have key := Cycle.C57_energy N h.converged one ?_ ?_ ?_
  · have e1 : (ssts p d).openOutlets (acc p okC) Link.carriesEnergy
        = [(⟨"fc", flightConditions p.air none, [], []⟩, "Fl_O"), (⟨"nozz", nozzle p.burnt .CV .Cv, [], []⟩, "Fl_O")] := rfl
    have e2 : (ssts p d).openInlets (acc p okC) Link.carriesEnergy = [(⟨"inlet", inlet p.air d true, [], []⟩, "Fl_I")] := rfl
    rw [e1, e2, show (ssts p d).members = elements p d from rfl] at key
    simp only [elements, List.map_cons, List.map_nil, List.sum_cons, List.sum_nil, acc, Env.H, startAccount, inletAccount,
      nozzleAccount, compressorAccount, turbineAccount, combustorAccount,
      (vi _).1, (vi _).2, (vb _).1, (vb _).2, String.reduceAppend] at key
    have i1 : E.num "inlet.Fl_I:stat:W" = E.num "balance.W" := (C62_targets h).2.2.2.2
    have i2 : E.num "inlet.Fl_I:tot:h" = E.num "fc.Fl_O:tot:h" := (start h (v := "tot:h") (by decide) (by decide)).1
    have i3 : E.num "inlet.Fl_I:tot:T" = E.num "fc.Fl_O:tot:T" := (start h (v := "tot:T") (by decide) (by decide)).1
    have i4 : E.num "inlet.Fl_I:tot:P" = E.num "fc.Fl_O:tot:P" := (start h (v := "tot:P") (by decide) (by decide)).1
    have i5 : E.vec "inlet.Fl_I:tot:composition" = E.vec "fc.fs.composition" :=
      (start h (v := "tot:composition") (by decide) (by decide)).2.trans (fc_laws h).2.2.2.2
    have i6 : E.num "fc.Fl_O:stat:W" = E.num "fc.W" := (fc_laws h).2.2.2.1
    rw [x1 "power" rfl, x2 "power" rfl, x3 "power" rfl] at key
    simp only [v _ _ [] _ rfl, i1, i2, i3, i4, i5, i6, String.reduceAppend] at key
    simp only []
    linear_combination key
  · rw [show (ssts p d).members = elements p d from rfl]
    simp only [elements, List.forall_mem_cons]
    refine ⟨trivial, trivial, trivial, ⟨?_, ?_, ?_⟩, ?_, ?_, trivial, by simp⟩
    · rw [(vb _).2]; exact b3 ▸ hC
    · rw [(vb _).1]; exact b2 ▸ hW
    · rw [(vb _).1, (vb _).1]; exact b2 ▸ hWf
    · simp only [turbineAccount, acc]; rw [x2 _ rfl]; exact (turb_laws h).2.1.trans_ne (hm.trans_ne hWf)
    · simp only [turbineAccount, acc]; rw [x3 _ rfl]; exact (pt_laws h).2.1.trans_ne (hm.trans_ne hWf)
  · intro l hl _
    have hl : l ∈ flows := hl
    simp only [flows, List.mem_cons, List.not_mem_nil, or_false] at hl
    rcases hl with rfl | rfl | rfl | rfl | rfl | rfl <;> rfl
  · have e0 : (ssts p d).openInlets (acc p okC) Link.tot = [] := rfl
    rw [e0]; intro q hq; cases hq

/-- **C62 (where the energy goes).** Without losses on the shafts and in the ram pressure, and with nothing extracted, the
energy of air and fuel leaves with the jet and as the power asked for. The factors are the two conversions between
horsepower and BTU/s and between torque and power. -/
theorem C62_delivered (hH : 0 < E.num "HP_Nmech") (hL : 0 < E.num "LP_Nmech")
    (h1 : E.num "HP_shaft.fracLoss" = 0) (h2 : E.num "HP_shaft.HPX" = 0) (h3 : E.num "LP_shaft.fracLoss" = 0)
    (h4 : E.num "LP_shaft.HPX" = 0) (hr : E.num (if d then "balance.rhs:turb_PR" else "balance.rhs:HP_Nmech") = 0)
    (hrec : E.num "inlet.ram_recovery" = 1) :
    E.num "nozz.Fl_O:stat:W" * E.num "nozz.Fl_O:tot:h"
      + E.num "balance.pwr_target" / (5252.11 * (2 * Real.pi / 60 / 550)) / 1.4148532
      = E.num "balance.W" * E.num "fc.Fl_O:tot:h" + E.num "burner.Wfuel" * E.num "burner.mix_fuel.mix:h" := by
  have e := C62_energy h hb hC hW hWf
  obtain ⟨s1, s2⟩ := C62_shafts h hH hL
  rw [h1, h2, hr, sub_zero, one_mul, add_zero] at s1
  rw [h3, h4, sub_zero, one_mul, zero_add] at s2
  have hk : (5252.11 * (2 * Real.pi / 60 / 550) : ℝ) ≠ 0 := by have := Real.pi_pos; positivity
  have s1 := (mul_eq_zero.mp s1).resolve_left hk
  have c0 : ∀ x : ℝ, max x 0 + min x 0 = x := fun x => by rw [max_add_min, add_zero]
  have hp : E.num "comp.power" + E.num "turb.power" = 0 := by
    have a := c0 (E.num "comp.power")
    have b := c0 (E.num "turb.power")
    linarith
  rw [c0] at s2
  rw [← s2, mul_div_cancel_left₀ _ hk]
  rw [hp, hrec, zero_add] at e
  simp only [mul_one, sub_self, mul_zero, add_zero] at e
  linarith

end

/-- **C62 (tabular fuel).** With tabular thermodynamics fuel is the fuel-air ratio times the air in the flow. -/
theorem C62_tab {p : SstsParts} {d : Bool} {E : Env} {n : ℕ} {idx : Fin n} (hp : p.fuel = .tab n idx)
    (h : (ssts p d).Solved E) (hC : 1 + ∑ i : Fin n, E.vec "fc.fs.composition" i ≠ 0) (hW : E.num "balance.W" ≠ 0)
    (hWf : E.num "balance.W" + E.num "burner.Wfuel" ≠ 0) :
    E.num "burner.Wfuel" = airMass (E.num "balance.W") (fun k : Fin n => E.vec "fc.fs.composition" k) * E.num "balance.FAR"
    ∧ E.num "nozz.Fl_O:stat:W" = E.num "balance.W" + E.num "burner.Wfuel" := by
  have hm := C62_mass h (okC := fun x => 1 + ∑ i : Fin n, x i ≠ 0)
    (by rw [hp]; exact C57_combustor_tab p.burnt p.air d true n idx) hC hW hWf
  refine ⟨?_, hm⟩
  obtain ⟨V, hV, hi, -, x3, -, y2⟩ := h.burner_seen (x := "burner") (List.mem_of_getElem? (i := 3) rfl)
  have x1 : V.num "Fl_I:stat:W" = E.num "balance.W" := (hi "stat:W" (by decide)).1.trans (burner_laws h).2.1
  have x2 : V.vec "Fl_I:tot:composition" = E.vec "fc.fs.composition" :=
    (hi "tot:composition" (by decide)).2.trans (burner_laws h).2.2
  have x3 : V.num "Fl_I:FAR" = E.num "balance.FAR" := x3.trans (C62_targets h).2.2.2.1
  rw [hp] at hV
  obtain ⟨k, -⟩ := C48_tab p.burnt d true V n idx (by rw [x2]; exact hC) (by rw [x1]; exact hW)
    (by rw [x1, y2]; exact hWf) hV
  rw [x1, x2, x3, y2] at k
  exact k

/-- **C62 (chemical equilibrium fuel).** With a reactant as fuel: fuel is the fuel-air ratio times the flow. -/
theorem C62_cea {p : SstsParts} {d : Bool} {E : Env} (data : ThermoData) (infl : PyDict ℝ) (hin : infl.keys.Nodup)
    (fuel : String) (f : PyDict ℝ) (hf : data.reactants.get? fuel = some f) (hfk : f.keys.Nodup)
    (hfm : formulaMass f data.wtOf ≠ 0) (S : ReactantAdd) (hS : reactantSetup data (some infl) ["mix"] [fuel] = .ok S)
    (hwt : ∀ e ∈ S.mixed.elements, data.wtOf e ≠ 0) (hp : p.fuel = .cea S) (h : (ssts p d).Solved E)
    (hC : totalMass S.inflow.elements data.wtOf (fun k => E.vec "fc.fs.composition" k) ≠ 0) (hW : E.num "balance.W" ≠ 0)
    (hWf : E.num "balance.W" + E.num "burner.Wfuel" ≠ 0) :
    E.num "burner.Wfuel" = E.num "balance.W" * E.num "balance.FAR"
    ∧ E.num "nozz.Fl_O:stat:W" = E.num "balance.W" + E.num "burner.Wfuel" := by
  have hm := C62_mass h (okC := fun x => totalMass S.inflow.elements data.wtOf (fun k => x k) ≠ 0)
    (by rw [hp]; exact C57_combustor_cea p.burnt p.air d true data infl hin fuel f hf hfk hfm S hS hwt) hC hW hWf
  refine ⟨?_, hm⟩
  obtain ⟨V, hV, hi, -, x3, -, y2⟩ := h.burner_seen (x := "burner") (List.mem_of_getElem? (i := 3) rfl)
  have x1 : V.num "Fl_I:stat:W" = E.num "balance.W" := (hi "stat:W" (by decide)).1.trans (burner_laws h).2.1
  have x2 : V.vec "Fl_I:tot:composition" = E.vec "fc.fs.composition" :=
    (hi "tot:composition" (by decide)).2.trans (burner_laws h).2.2
  have x3 : V.num "Fl_I:FAR" = E.num "balance.FAR" := x3.trans (C62_targets h).2.2.2.1
  rw [hp] at hV
  obtain ⟨k, -⟩ := C48_cea p.burnt d true V data infl hin fuel f hf hfk hfm S hS hwt (by rw [x2]; exact hC)
    (by rw [x1, y2]; exact hWf) hV
  rw [x1, x3, y2] at k
  exact k

end PyCycle.OM
