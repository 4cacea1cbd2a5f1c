import Verif.Proofs.WetNames
import Verif.Props.C57_Network
import Verif.Props.C61_Flow

/-! # C68: the turbojet in humid air

What a solved `WetTurbojet` of `example_cycles/wet_simple_turbojet.py` is, as a design point and off design, for any
thermodynamics, any maps and any way of adding water and fuel. -/

namespace PyCycle.OM

open WTJ

/-- **C68 (engine, interface).** In both modes the engine is accepted: every connection joins an output to an input, none
is connected twice, every promotion finds a variable. -/
theorem C68_engine_interface (p : WetParts) (d : Bool) : (wtj p d).group.wiring.Accepted := accepted p d

namespace WTJ

theorem others_local (p : WetParts) (d : Bool) : ∀ s ∈ (wtj p d).others, s.Local := by
  simp only [wtj, List.forall_mem_cons]
  exact ⟨(shaftSub_local 2 _).rename "shaft", performanceSub_local _ _, balances_local _ _, by simp⟩

end WTJ

/-- **C68 (solved states).** Every converged engine can be completed, by transferring outputs to inputs, to a solved one
with the same outputs: the theorems below are about all converged engines. -/
theorem C68_complete (p : WetParts) (d : Bool) (E : Env) (hc : (wtj p d).group.Converged E) :
    ∃ E', (wtj p d).Solved E' ∧ ∀ n ∈ (wtj p d).group.wiring.outs, E'.num n = E.num n ∧ E'.vec n = E.vec n :=
  Cycle.complete (accepted p d).1 (others_local p d) hc

section
variable {p : WetParts} {d : Bool} {E : Env} (h : (wtj p d).Solved E)
include h

namespace WTJ

theorem join (i : ℕ) {a b : String × String} (hl : flows[i]? = some { src := a, tgt := b }) :
    E.Joined a b := h.joined (List.mem_of_getElem? hl)

/-- From the free stream the inlet gets everything but the flow. -/
theorem start {v : String} (hv : v ∈ linkOutVars) (hne : v ≠ "stat:W") :
    E.num ("inlet" ++ "." ++ ("Fl_I" ++ ":" ++ v)) = E.num ("fc" ++ "." ++ ("Fl_O" ++ ":" ++ v))
    ∧ E.vec ("inlet" ++ "." ++ ("Fl_I" ++ ":" ++ v)) = E.vec ("fc" ++ "." ++ ("Fl_O" ++ ":" ++ v)) := by
  have := h.link (l := { src := ("fc", "Fl_O"), tgt := ("inlet", "Fl_I"), w := false })
    (List.mem_of_getElem? (i := 0) rfl) hv (fun e => absurd e hne) rfl rfl
  exact ⟨this.1.symm, this.2.symm⟩

theorem conn {a b : String} (hx : (a, b) ∈ plainConns) : E.num a = E.num b :=
  (h.conn (List.mem_append_left _ hx)).1

theorem bal {b : Bal} (hb : b ∈ bals d) :
    b.Met ⟨fun v => E.num ((balances (bals d) []).inName v), fun v => E.vec ((balances (bals d) []).inName v)⟩ :=
  h.other (s := balances (bals d) []) (List.mem_of_getElem? (i := 2) rfl) b hb

theorem bconn {a b : String} (hx : (a, b) ∈ balConns d) : E.num a = E.num b :=
  (h.conn (List.mem_append_right _ hx)).1

/-- The free stream as a group of its own. -/
theorem fc_seen : (flightConditions p.air (some p.water) "WAR").Converged
    (E.of ⟨"fc", flightConditions p.air (some p.water) "WAR", [], []⟩) :=
  h.member_plain (m := ⟨"fc", flightConditions p.air (some p.water) "WAR", [], []⟩)
    (List.mem_of_getElem? (i := 0) rfl) rfl rfl (flight_closed _ _)

theorem fc_laws : Atm.ambient (E.num "fc.alt") (E.num "fc.dTs") .Ps = some (E.num "fc.Fl_O:stat:P")
    ∧ Atm.ambient (E.num "fc.alt") (E.num "fc.dTs") .Ts = some (E.num "fc.Fl_O:stat:T")
    ∧ E.num "fc.Fl_O:stat:MN" = E.num "fc.MN" ∧ E.num "fc.Fl_O:stat:W" = E.num "fc.W" := by
  obtain ⟨h1, h2, h3⟩ := C68_flight p.air p.water (Or.inr rfl) (fc_seen h)
  exact ⟨h1, h2, h3.mach, h3.flow⟩

theorem inlet_laws : E.num "inlet.Fl_O:tot:P" = E.num "fc.Fl_O:tot:P" * E.num "inlet.ram_recovery"
    ∧ E.num "inlet.F_ram" = E.num "balance.W" * E.num "fc.Fl_O:stat:V" / 32.174
    ∧ E.num "inlet.Fl_O:stat:W" = E.num "balance.W"
    ∧ E.vec "inlet.Fl_O:tot:composition" = E.vec "fc.Fl_O:tot:composition" := by
  obtain ⟨h1, h2, h3, h4⟩ := h.inlet_laws (x := "inlet") (gas := p.air) (d := d) (List.mem_of_getElem? (i := 1) rfl)
  have w : E.num "balance.W" = E.num "inlet.Fl_I:stat:W" := bconn h (by cases d <;> simp [balConns])
  have v : E.num "inlet.Fl_I:stat:V" = E.num "fc.Fl_O:stat:V" := (start h (v := "stat:V") (by decide) (by decide)).1
  have pp : E.num "inlet.Fl_I:tot:P" = E.num "fc.Fl_O:tot:P" := (start h (v := "tot:P") (by decide) (by decide)).1
  have cc : E.vec "inlet.Fl_I:tot:composition" = E.vec "fc.Fl_O:tot:composition" :=
    (start h (v := "tot:composition") (by decide) (by decide)).2
  have h2 : E.num "inlet.F_ram" = E.num "inlet.Fl_I:stat:W" * E.num "inlet.Fl_I:stat:V" / 32.174 := h2
  rw [← w, v] at h2
  exact ⟨h1.trans (congrArg (· * _) pp), h2, h3.trans w.symm, h4.trans cc⟩

theorem comp_laws : E.num "comp.Fl_O:tot:P" = E.num "comp.PR" * E.num "inlet.Fl_O:tot:P"
    ∧ E.num "comp.Fl_O:stat:W" = E.num "balance.W"
    ∧ E.vec "comp.Fl_O:tot:composition" = E.vec "fc.Fl_O:tot:composition"
    ∧ (E.num "Nmech" ≠ 0 → E.num "comp.trq" * E.num "Nmech" = 5252.11 * E.num "comp.power") := by
  have L := h.compressor_laws (x := "comp") (mc := p.comp) (gas := p.air) (d := d) (N := "Nmech") compNames
    (List.mem_of_getElem? (i := 2) rfl)
  have j := join h 1 (a := ("inlet", "Fl_O")) (b := ("comp", "Fl_I")) rfl
  obtain ⟨-, -, f1, f2⟩ := inlet_laws h
  have l2 := L.mass
  simp only [List.map_nil, List.sum_nil, add_zero] at l2
  exact ⟨L.pressure.trans (congrArg (_ * ·) j.P), (l2.trans j.W).trans f1, (L.composition.trans j.C).trans f2, L.torque⟩

theorem burner_laws : E.num "burner.Fl_O:tot:P" = E.num "comp.Fl_O:tot:P" * (1 - E.num "burner.dPqP")
    ∧ E.num "burner.Fl_I:stat:W" = E.num "balance.W"
    ∧ E.vec "burner.Fl_I:tot:composition" = E.vec "fc.Fl_O:tot:composition" := by
  obtain ⟨h1, h2, h3⟩ := h.burner_laws (x := "burner") (gas := p.burnt) (a := p.fuel) (d := d)
    (List.mem_of_getElem? (i := 3) rfl) (join h 2 (a := ("comp", "Fl_O")) rfl)
  exact ⟨h1, h2.trans (comp_laws h).2.1, h3.trans (comp_laws h).2.2.1⟩

theorem turb_laws : E.num "turb.Fl_O:tot:P" = E.num "burner.Fl_O:tot:P" / E.num "turb.PR"
    ∧ E.num "turb.Fl_O:stat:W" = E.num "burner.Fl_O:stat:W"
    ∧ (E.num "Nmech" ≠ 0 → E.num "turb.trq" * E.num "Nmech" = 5252.11 * E.num "turb.power") := by
  obtain ⟨-, L⟩ := h.turbine_laws (x := "turb") (mt := p.turb) (gas := p.burnt) (gb := fun _ => p.burnt) (ba := p.bleed)
    (d := d) (N := "Nmech") turbNames (List.mem_of_getElem? (i := 4) rfl)
  have j := join h 3 (a := ("burner", "Fl_O")) (b := ("turb", "Fl_I")) rfl
  have l2 := L.mass
  simp only [List.map_nil, List.sum_nil, add_zero] at l2
  exact ⟨L.pressure.trans (congrArg (· / _) j.P), l2.trans j.W, L.torque⟩

theorem nozz_laws : E.num "nozz.Fl_O:tot:P" = E.num "turb.Fl_O:tot:P" * (1 - E.num "nozz.dPqP")
    ∧ E.num "nozz.Fl_O:stat:W" = E.num "burner.Fl_O:stat:W"
    ∧ E.num "nozz.PR" * E.num "fc.Fl_O:stat:P" = E.num "nozz.Fl_O:tot:P"
    ∧ E.num "nozz.Fg" = E.num "nozz.Fl_O:stat:W" * E.num "nozz.Fl_O:stat:V" / 32.174
          * (E.num "nozz.Cv" * E.num "nozz.perf_calcs.Cang" * E.num "nozz.perf_calcs.CmixCorr")
        + (E.num "nozz.Fl_O:stat:P" - E.num "fc.Fl_O:stat:P") * E.num "nozz.Fl_O:stat:area"
    ∧ E.vec "nozz.Fl_O:tot:composition" = E.vec "turb.Fl_O:tot:composition" := by
  have j := join h 4 (a := ("turb", "Fl_O")) (b := ("nozz", "Fl_I")) rfl
  have hm : (⟨"nozz", nozzle p.burnt .CD .Cv, [], []⟩ : Member) ∈ (wtj p d).members := List.mem_of_getElem? (i := 5) rfl
  obtain ⟨n1, n2, n3, n4⟩ := h.nozzle_laws (x := "nozz") (gas := p.burnt) (k := .CD) hm j
  obtain ⟨-, -, -, -, -, n5, -⟩ := C52_pressure p.burnt .CD .Cv _ (h.member_plain hm rfl rfl (nozzle_closed _ _ _))
  have e : E.num "fc.Fl_O:stat:P" = E.num "nozz.Ps_exhaust" := conn h (by simp [plainConns])
  rw [e]
  exact ⟨n1, n2.trans (turb_laws h).2.1, n3, n4, n5.trans j.C⟩

/-- Net power of the shaft. -/
theorem shaft_laws (hN : 0 < E.num "Nmech") :
    E.num "shaft.pwr_net" = 5252.11 * (2 * Real.pi / 60 / 550) * ((1 - E.num "shaft.fracLoss")
        * (max (E.num "comp.power") 0 + max (E.num "turb.power") 0)
        + (min (E.num "comp.power") 0 + min (E.num "turb.power") 0)) - E.num "shaft.HPX" := by
  have e := h.other (s := { shaftSub 2 [.as "Nmech" "Nmech"] with name := "shaft" }) (List.mem_of_getElem? (i := 0) rfl)
  have c0 : E.num "comp.trq" = E.num "shaft.trq_0" := conn h (by simp [plainConns])
  have c1 : E.num "turb.trq" = E.num "shaft.trq_1" := conn h (by simp [plainConns])
  have t0 := (comp_laws h).2.2.2 hN.ne'
  have t1 := (turb_laws h).2.2 hN.ne'
  rw [c0] at t0
  rw [c1] at t1
  obtain ⟨-, -, -, -, -, -, -, e3⟩ := e
  have k := Shaft.raw_powers_of_ports (n := 2) ![E.num "comp.power", E.num "turb.power"] hN
    (x := shaftIn 2 ⟨fun v => E.num (({ shaftSub 2 [.as "Nmech" "Nmech"] with name := "shaft" } : Sub).inName v),
      fun v => E.vec (({ shaftSub 2 [.as "Nmech" "Nmech"] with name := "shaft" } : Sub).inName v)⟩)
    (by intro k; fin_cases k; exacts [t0, t1])
  simp only [Fin.sum_univ_two] at k
  exact Eq.trans e3 k.2.2

theorem perf_laws : E.num "perf.Fn" = E.num "nozz.Fg" - E.num "inlet.F_ram"
    ∧ E.num "perf.OPR" = E.num "comp.Fl_O:tot:P" / E.num "inlet.Fl_O:tot:P"
    ∧ E.num "perf.TSFC" = E.num "burner.Wfuel" * 3600 / (E.num "perf.Fn" + 1e-10) := by
  have e := h.other (s := performanceSub 1 1) (List.mem_of_getElem? (i := 1) rfl)
  have c0 : E.num "nozz.Fg" = E.num "perf.Fg_0" := conn h (by simp [plainConns])
  have c1 : E.num "inlet.F_ram" = E.num "perf.ram_drag" := conn h (by simp [plainConns])
  have c2 : E.num "inlet.Fl_O:tot:P" = E.num "perf.Pt2" := conn h (by simp [plainConns])
  have c3 : E.num "comp.Fl_O:tot:P" = E.num "perf.Pt3" := conn h (by simp [plainConns])
  have c4 : E.num "burner.Wfuel" = E.num "perf.Wfuel_0" := conn h (by simp [plainConns])
  obtain ⟨e1, -, e3, e4, -⟩ := e
  have e1 : E.num "perf.OPR" = E.num "perf.Pt3" / E.num "perf.Pt2" := e1
  have e3 : E.num "perf.Fn" = (0 + E.num "perf.Fg_0") - E.num "perf.ram_drag" := e3
  have e4 : E.num "perf.TSFC" = (0 + E.num "perf.Wfuel_0") * 3600
    / (((0 + E.num "perf.Fg_0") - E.num "perf.ram_drag") + 1e-10) := e4
  rw [← e3] at e4
  rw [c0, c1, c2, c3, c4]
  exact ⟨by rw [e3, zero_add], e1, by rw [e4, zero_add]⟩

end WTJ

/-- **C68 (engine, flight).** The engine flies at the altitude, temperature deviation and Mach number of `fc`; the nozzle
discharges against the ambient pressure of the standard atmosphere; the humid air keeps its composition up to the
burner. -/
theorem C68_engine_flight : Atm.ambient (E.num "fc.alt") (E.num "fc.dTs") .Ps = some (E.num "fc.Fl_O:stat:P")
    ∧ Atm.ambient (E.num "fc.alt") (E.num "fc.dTs") .Ts = some (E.num "fc.Fl_O:stat:T")
    ∧ E.num "fc.Fl_O:stat:MN" = E.num "fc.MN"
    ∧ E.num "nozz.Ps_exhaust" = E.num "fc.Fl_O:stat:P"
    ∧ E.vec "burner.Fl_I:tot:composition" = E.vec "fc.Fl_O:tot:composition" := by
  obtain ⟨f1, f2, f3, -⟩ := fc_laws h
  exact ⟨f1, f2, f3, (conn h (by simp [plainConns])).symm, (burner_laws h).2.2⟩

/-- **C68 (engine, pressures).** Total pressure is multiplied by ram recovery, pressure ratio and the loss factors of
burner and nozzle and divided by the turbine's pressure ratio; the nozzle's pressure ratio relates it to the ambient
pressure; the overall pressure ratio is that of the compressor. -/
theorem C68_pressure :
    E.num "nozz.Fl_O:tot:P" = E.num "fc.Fl_O:tot:P" * E.num "inlet.ram_recovery" * E.num "comp.PR"
      * (1 - E.num "burner.dPqP") / E.num "turb.PR" * (1 - E.num "nozz.dPqP")
    ∧ E.num "nozz.PR" * E.num "fc.Fl_O:stat:P" = E.num "nozz.Fl_O:tot:P"
    ∧ (E.num "inlet.Fl_O:tot:P" ≠ 0 → E.num "perf.OPR" = E.num "comp.PR") := by
  refine ⟨?_, (nozz_laws h).2.2.1, fun hP => ?_⟩
  · rw [(nozz_laws h).1, (turb_laws h).1, (burner_laws h).1, (comp_laws h).1, (inlet_laws h).1]; ring
  · rw [(perf_laws h).2.1, (comp_laws h).1]; field_simp

/-- **C68 (engine, thrust).** Net thrust is gross thrust of the nozzle, momentum and pressure, less ram drag, the momentum
of all the humid air at flight speed. -/
theorem C68_thrust :
    E.num "perf.Fn" = E.num "nozz.Fl_O:stat:W" * E.num "nozz.Fl_O:stat:V" / 32.174
          * (E.num "nozz.Cv" * E.num "nozz.perf_calcs.Cang" * E.num "nozz.perf_calcs.CmixCorr")
        + (E.num "nozz.Fl_O:stat:P" - E.num "fc.Fl_O:stat:P") * E.num "nozz.Fl_O:stat:area"
      - E.num "balance.W" * E.num "fc.Fl_O:stat:V" / 32.174
    ∧ E.num "perf.TSFC" = E.num "burner.Wfuel" * 3600 / (E.num "perf.Fn" + 1e-10) := by
  obtain ⟨p1, -, p3⟩ := perf_laws h
  exact ⟨by rw [p1, (nozz_laws h).2.2.2.1, (inlet_laws h).2.1], p3⟩

/-- **C68 (engine, targets).** As a design point the engine has the thrust and the burner exit temperature asked for, and
the turbine gets the pressure ratio the balance found; off design it has the thrust and the throat area asked for, and
the spool turns at the speed the balance found. In both modes burner and inlet get the fuel-air ratio and the flow the
balance found. -/
theorem C68_targets :
    (d = true → E.num "perf.Fn" = E.num "balance.rhs:W" ∧ E.num "burner.Fl_O:tot:T" = E.num "balance.rhs:FAR"
      ∧ E.num "turb.PR" = E.num "balance.turb_PR")
    ∧ (d = false → E.num "perf.Fn" = E.num "balance.rhs:FAR" ∧ E.num "nozz.Throat:stat:area" = E.num "balance.rhs:W"
      ∧ E.num "Nmech" = E.num "balance.Nmech")
    ∧ E.num "burner.Fl_I:FAR" = E.num "balance.FAR" ∧ E.num "inlet.Fl_I:stat:W" = E.num "balance.W" := by
  have c := fun {x y : String} (hx : (x, y) ∈ balConns d) => bconn h hx
  have b1 : 1 * E.num "balance.lhs:FAR" = E.num "balance.rhs:FAR" := bal h (b := .of "FAR") (by cases d <;> simp [bals])
  have b2 : 1 * E.num "balance.lhs:W" = E.num "balance.rhs:W" := bal h (b := .of "W") (by cases d <;> simp [bals])
  rw [one_mul] at b1 b2
  refine ⟨?_, ?_, (c (by cases d <;> simp [balConns])).symm, (c (by cases d <;> simp [balConns])).symm⟩
  · rintro rfl
    have c1 : E.num "burner.Fl_O:tot:T" = E.num "balance.lhs:FAR" := c (by simp [balConns])
    have c2 : E.num "perf.Fn" = E.num "balance.lhs:W" := c (by simp [balConns])
    exact ⟨c2.trans b2, c1.trans b1, (c (by simp [balConns])).symm⟩
  · rintro rfl
    have c1 : E.num "perf.Fn" = E.num "balance.lhs:FAR" := c (by simp [balConns])
    have c2 : E.num "nozz.Throat:stat:area" = E.num "balance.lhs:W" := c (by simp [balConns])
    exact ⟨c1.trans b1, c2.trans b2, (c (by simp [balConns])).symm⟩

/-- **C68 (engine, shaft).** In both modes the turbine drives the compressor and pays for loss and extraction: what drives
the shaft, less the fractional loss, plus what brakes it, equals the power extracted plus the right-hand side of the
balance (0 unless it is set). -/
theorem C68_shaft (hN : 0 < E.num "Nmech") :
    5252.11 * (2 * Real.pi / 60 / 550) * ((1 - E.num "shaft.fracLoss")
        * (max (E.num "comp.power") 0 + max (E.num "turb.power") 0)
        + (min (E.num "comp.power") 0 + min (E.num "turb.power") 0))
      = E.num "shaft.HPX" + (if d then E.num "balance.rhs:turb_PR" else E.num "balance.rhs:Nmech") := by
  have k := shaft_laws h hN
  cases d
  · have b : 1 * E.num "balance.lhs:Nmech" = E.num "balance.rhs:Nmech" := bal h (b := .of "Nmech") (by simp [bals])
    have c1 : E.num "shaft.pwr_net" = E.num "balance.lhs:Nmech" := bconn h (by simp [balConns])
    rw [c1, ← one_mul (E.num "balance.lhs:Nmech"), b] at k
    simp only [Bool.false_eq_true, if_false]
    linarith
  · have b : 1 * E.num "balance.lhs:turb_PR" = E.num "balance.rhs:turb_PR" := bal h (b := .of "turb_PR") (by simp [bals])
    have c1 : E.num "shaft.pwr_net" = E.num "balance.lhs:turb_PR" := bconn h (by simp [balConns])
    rw [c1, ← one_mul (E.num "balance.lhs:turb_PR"), b] at k
    simp only [if_true]
    linarith

end

/-! ## Mass and energy -/

namespace WTJ

/-- The account of each element. -/
noncomputable def acc (p : WetParts) (okC : (ℕ → ℝ) → Prop) : String → Account
  | "fc" => startAccount p.air
  | "inlet" => inletAccount p.air
  | "comp" => compressorAccount p.air []
  | "burner" => combustorAccount p.burnt p.air okC
  | "turb" => turbineAccount p.burnt (fun _ => p.burnt) []
  | "nozz" => nozzleAccount p.burnt
  | _ => startAccount p.air

/-- A turbojet in flight: air and fuel flow forward. -/
structure InFlight (E : Env) : Prop where
  air : 0 < E.num "balance.W"
  fuel : 0 ≤ E.num "burner.Wfuel"

end WTJ

/-- **C68 (network).** The engine is a network of accounts. -/
theorem C68_network (p : WetParts) (d : Bool) {okC : (ℕ → ℝ) → Prop}
    (hb : (combustorAccount p.burnt p.air okC).Holds (combustor p.burnt p.fuel d true)) :
    (wtj p d).Network (acc p okC) where
  wired := (C68_engine_interface p d).1
  accounts := by
    simp only [wtj, elements, List.forall_mem_cons]
    exact ⟨C68_account _ _ (Or.inr rfl), C57_inlet _ _ _, C57_compressor _ _ compNames _ _, hb,
      C57_turbine _ _ _ _ _ turbNames _ _, C57_nozzle _ _ _, by simp⟩
  plainIn := by
    have k : ∀ q ∈ ["Fl_I"], ∀ v ∈ portVars, (q ++ ":" ++ v) ≠ "Nmech" := by decide +kernel
    have k' : ∀ q ∈ ["Fl_I"], ∀ v ∈ portVars, promoted [.as "Nmech" "Nmech"] (q ++ ":" ++ v) = none := by
      intro q hq v hv
      simp [promoted, Prom.exact, Prom.fits, (k q hq v hv).symm, k q hq v hv]
    simp only [wtj, elements, List.forall_mem_cons]
    exact ⟨fun _ _ _ _ => rfl, fun _ _ _ _ => rfl, k', fun _ _ _ _ => rfl, k', fun _ _ _ _ => rfl, by simp⟩
  plainOut := by
    simp only [wtj, elements, List.forall_mem_cons]
    refine ⟨?_, ?_, ?_, ?_, ?_, ?_, by simp⟩
    all_goals exact fun _ _ _ _ => rfl
  linked := by
    intro l hl
    have hl : l ∈ flows := hl
    have e : ∀ (i : ℕ) (a : Member), (elements p d)[i]? = some a → a ∈ (wtj p d).members :=
      fun i a ha => List.mem_of_getElem? ha
    simp only [flows, List.mem_cons, List.not_mem_nil, or_false] at hl
    rcases hl with rfl | rfl | rfl | rfl | rfl
    · exact ⟨⟨_, e 0 _ rfl, rfl, List.mem_of_getElem? (i := 0) rfl⟩, ⟨_, e 1 _ rfl, rfl, List.mem_of_getElem? (i := 0) rfl⟩⟩
    · exact ⟨⟨_, e 1 _ rfl, rfl, List.mem_of_getElem? (i := 0) rfl⟩, ⟨_, e 2 _ rfl, rfl, List.mem_of_getElem? (i := 0) rfl⟩⟩
    · exact ⟨⟨_, e 2 _ rfl, rfl, List.mem_of_getElem? (i := 0) rfl⟩, ⟨_, e 3 _ rfl, rfl, List.mem_of_getElem? (i := 0) rfl⟩⟩
    · exact ⟨⟨_, e 3 _ rfl, rfl, List.mem_of_getElem? (i := 0) rfl⟩, ⟨_, e 4 _ rfl, rfl, List.mem_of_getElem? (i := 0) rfl⟩⟩
    · exact ⟨⟨_, e 4 _ rfl, rfl, List.mem_of_getElem? (i := 0) rfl⟩, ⟨_, e 5 _ rfl, rfl, List.mem_of_getElem? (i := 0) rfl⟩⟩

section
variable {p : WetParts} {d : Bool} {E : Env} (h : (wtj p d).Solved E)
  {okC : (ℕ → ℝ) → Prop} (hb : (combustorAccount p.burnt p.air okC).Holds (combustor p.burnt p.fuel d true))
  (hC : okC (E.vec "fc.Fl_O:tot:composition")) (hf : InFlight E)
include h hb hC hf

/-- **C68 (engine, mass).** What leaves the nozzle is the humid air taken in and the fuel. -/
theorem C68_mass : E.num "nozz.Fl_O:stat:W" = E.num "balance.W" + E.num "burner.Wfuel" := by
  have f1 := (burner_laws h).2.1
  have g : 0 < E.num "burner.Fl_I:stat:W" := by rw [f1]; exact hf.air
  have hm : E.num "burner.Fl_O:stat:W" = E.num "burner.Fl_I:stat:W" + E.num "burner.Wfuel" :=
    h.burner_mass (x := "burner") (List.mem_of_getElem? (i := 3) rfl) hb
      ((burner_laws h).2.2 ▸ hC : okC (E.vec "burner.Fl_I:tot:composition")) g.ne'
      (add_pos_of_pos_of_nonneg g hf.fuel).ne'
  rw [(nozz_laws h).2.1, hm, f1]

/-- **C68 (engine, energy).** What leaves through the nozzle is, per unit time, the enthalpy of the humid air at
free-stream total conditions and that of the fuel, less the powers of compressor and turbine; for a gas whose enthalpy
depends on pressure the inlet adds the difference between the enthalpies at its two pressures. -/
theorem C68_energy :
    let g := p.air (E.vec "fc.Fl_O:tot:composition")
    E.num "nozz.Fl_O:stat:W" * E.num "nozz.Fl_O:tot:h" = E.num "balance.W" * E.num "fc.Fl_O:tot:h"
      + E.num "burner.Wfuel" * E.num "burner.mix_fuel.mix:h"
      - (E.num "comp.power" + E.num "turb.power") / 1.4148532
      + E.num "balance.W" * (g.h (E.num "fc.Fl_O:tot:T") (E.num "fc.Fl_O:tot:P" * E.num "inlet.ram_recovery")
          - g.h (E.num "fc.Fl_O:tot:T") (E.num "fc.Fl_O:tot:P")) := by
  have N := C68_network p d hb
  have gf := hf.fuel
  have gw := hf.air
  have w := C68_mass h hb hC hf
  have g1 : 0 < E.num "burner.Fl_I:stat:W" := by rw [(burner_laws h).2.1]; exact gw
  have o1 : 0 < E.num "turb.Fl_O:stat:W" := by
    rw [(turb_laws h).2.1, ← (nozz_laws h).2.1, w]; linarith
  have vi : ∀ n, ((wtj p d).view E ⟨"inlet", inlet p.air d true, [], []⟩).num n = E.num ("inlet" ++ "." ++ n)
      ∧ ((wtj p d).view E ⟨"inlet", inlet p.air d true, [], []⟩).vec n = E.vec ("inlet" ++ "." ++ n) :=
    fun n => h.view_eq rfl (Or.inr rfl)
  have vb : ∀ n, ((wtj p d).view E ⟨"burner", combustor p.burnt p.fuel d true, [], []⟩).num n
        = E.num ("burner" ++ "." ++ n)
      ∧ ((wtj p d).view E ⟨"burner", combustor p.burnt p.fuel d true, [], []⟩).vec n
        = E.vec ("burner" ++ "." ++ n) :=
    fun n => h.view_eq rfl (Or.inr rfl)
  have v : ∀ (x : String) (G : Group) (pI : List Prom) (n : String), promoted pI n = none →
      ((wtj p d).view E ⟨x, G, pI, []⟩).num n = E.num (x ++ "." ++ n) :=
    fun x G pI n hn => (h.view_eq rfl (Or.inr hn)).1
  have x1 := v "comp" (compressor p.air p.comp [] d true) [.as "Nmech" "Nmech"]
  have x2 := v "turb" (turbine p.burnt (fun _ => p.burnt) p.turb p.bleed [] d true) [.as "Nmech" "Nmech"]
  have key := Cycle.C57_energy N h.converged (by rw [show (wtj p d).links = flows from rfl]; decide +kernel) ?_ ?_ ?_
  · have e1 : (wtj p d).openOutlets (acc p okC) Link.carriesEnergy
        = [(⟨"fc", flightConditions p.air (some p.water) "WAR", [], []⟩, "Fl_O"),
          (⟨"nozz", nozzle p.burnt .CD .Cv, [], []⟩, "Fl_O")] := rfl
    have e2 : (wtj p d).openInlets (acc p okC) Link.carriesEnergy = [(⟨"inlet", inlet p.air d true, [], []⟩, "Fl_I")] := rfl
    rw [e1, e2, show (wtj p d).members = elements p d from rfl] at key
    simp only [elements, List.map_cons, List.map_nil, List.sum_cons, List.sum_nil, acc, Env.H, startAccount, inletAccount,
      nozzleAccount, compressorAccount, turbineAccount, combustorAccount,
      (vi _).1, (vi _).2, (vb _).1, (vb _).2, String.reduceAppend] at key
    have i1 : E.num "inlet.Fl_I:stat:W" = E.num "balance.W" := (C68_targets h).2.2.2
    have i2 : E.num "inlet.Fl_I:tot:h" = E.num "fc.Fl_O:tot:h" := (start h (v := "tot:h") (by decide) (by decide)).1
    have i3 : E.num "inlet.Fl_I:tot:T" = E.num "fc.Fl_O:tot:T" := (start h (v := "tot:T") (by decide) (by decide)).1
    have i4 : E.num "inlet.Fl_I:tot:P" = E.num "fc.Fl_O:tot:P" := (start h (v := "tot:P") (by decide) (by decide)).1
    have i5 : E.vec "inlet.Fl_I:tot:composition" = E.vec "fc.Fl_O:tot:composition" :=
      (start h (v := "tot:composition") (by decide) (by decide)).2
    have i6 : E.num "fc.Fl_O:stat:W" = E.num "fc.W" := (fc_laws h).2.2.2
    rw [x1 "power" rfl, x2 "power" rfl] at key
    simp only [v _ _ [] _ rfl, i1, i2, i3, i4, i5, i6, String.reduceAppend] at key
    simp only []
    linear_combination key
  · rw [show (wtj p d).members = elements p d from rfl]
    simp only [elements, List.forall_mem_cons]
    refine ⟨trivial, trivial, trivial, ⟨?_, ?_, ?_⟩, ?_, trivial, by simp⟩
    · rw [(vb _).2]; exact (burner_laws h).2.2 ▸ hC
    · rw [(vb _).1]; exact g1.ne'
    · rw [(vb _).1, (vb _).1]; exact (add_pos_of_pos_of_nonneg g1 gf).ne'
    · simp only [turbineAccount, acc]; rw [x2 _ rfl]; exact o1.ne'
  · intro l hl _
    have hl : l ∈ flows := hl
    simp only [flows, List.mem_cons, List.not_mem_nil, or_false] at hl
    rcases hl with rfl | rfl | rfl | rfl | rfl <;> rfl
  · have e0 : (wtj p d).openInlets (acc p okC) Link.tot = [] := rfl
    rw [e0]; intro q hq; cases hq

end

/-! ## Atoms -/

namespace WTJ

/-- The engine with chemical equilibrium throughout, as the example sets it up: dry air of the elements `air`; `w` and `f`,
reactants of formula `water` and `fuel`, mixed into the free stream and in the burner; the turbine is set up for what can
leave the burner. -/
structure Cea (p : WetParts) (data : ThermoData) (water fuel : PyDict ℝ) (Sw Sf : ReactantAdd) : Prop where
  parts : p.water = .cea Sw ∧ p.fuel = .cea Sf ∧ ∃ pb, p.bleed = .cea Sf.mixed Sf.mixed pb
  setup : ∃ air wet : PyDict ℝ, ∃ w f : String, data.reactants.get? w = some water ∧ data.reactants.get? f = some fuel
    ∧ reactantSetup data (some air) ["mix"] [w] = .ok Sw
    ∧ mixedReactants data air [w] = .ok wet ∧ reactantSetup data (some wet) ["mix"] [f] = .ok Sf
    ∧ air.keys.Nodup
  keys : water.keys.Nodup ∧ fuel.keys.Nodup
  mass : formulaMass water data.wtOf ≠ 0 ∧ formulaMass fuel data.wtOf ≠ 0
  weights : (∀ e ∈ Sw.mixed.elements, data.wtOf e ≠ 0) ∧ ∀ e ∈ Sf.mixed.elements, data.wtOf e ≠ 0

/-- What `setup` of a mixing component looked up. -/
theorem setup_ok {data : ThermoData} {infl : PyDict ℝ} {comps : List String} {S : ReactantAdd}
    (h : reactantSetup data (some infl) ["mix"] comps = .ok S) :
    ∃ m, mixedReactants data infl comps = .ok m ∧ mkProperties data (some infl) = .ok S.inflow
      ∧ mkProperties data (some m) = .ok S.mixed := by
  simp only [reactantSetup] at h
  rcases hm : mixedReactants data infl comps with e | m
  · rw [hm] at h; cases h
  · rw [hm] at h
    simp only at h
    rcases h1 : mkProperties data (some infl) with e | pin
    · rw [h1] at h; cases h
    · rcases h2 : mkProperties data (some m) with e | pmix
      · rw [h1, h2] at h; cases h
      · rw [h1, h2] at h
        cases h
        exact ⟨m, rfl, rfl, h2⟩

theorem update_nodup {data : ThermoData} {d d' f : PyDict ℝ} {r : String} (hr : data.reactants.get? r = some f)
    (hd : d.keys.Nodup) (h : mixedReactants data d [r] = .ok d') : d'.keys.Nodup := by
  simp only [mixedReactants, hr] at h
  cases h
  exact PyDict.nodup_update hd _

end WTJ

section
variable {p : WetParts} {d : Bool} {E : Env} {data : ThermoData} {water fuel : PyDict ℝ} {Sw Sf : ReactantAdd}
  (hp : Cea p data water fuel Sw Sf) (h : (wtj p d).Solved E)
  (hC : totalMass Sw.inflow.elements data.wtOf (fun k => E.vec "fc.fs.thermo_add.Fl_I:tot:composition" k) ≠ 0)
  (hW : E.num "fc.W" ≠ 0) (h1 : 1 + E.num "fc.WAR" ≠ 0) (hf : InFlight E)
include hp h hC hW h1

/-- The free stream is dry air and water. -/
theorem WTJ.humid : totalMass Sw.mixed.elements data.wtOf (fun k => E.vec "fc.Fl_O:tot:composition" k) = 1
    ∧ ∀ e, elemMassFrac Sw.mixed.elements data.wtOf (fun k => E.vec "fc.Fl_O:tot:composition" k) e
      = 1 / (1 + E.num "fc.WAR")
          * elemMassFrac Sw.inflow.elements data.wtOf (fun k => E.vec "fc.fs.thermo_add.Fl_I:tot:composition" k) e
        + E.num "fc.WAR" / (1 + E.num "fc.WAR") * formulaMassFrac water data.wtOf e := by
  obtain ⟨air, wet, w, f, k1, -, k3, -, -, k6⟩ := hp.setup
  have hc := fc_seen h
  rw [hp.parts.1] at hc
  exact C68_humid_cea p.air (Or.inr rfl) data air k6 w water k1 hp.keys.1 hp.mass.1 Sw k3 hp.weights.1 hC hW h1 hc

omit hC hW h1 h in
/-- The burner is set up for what can leave the free stream. -/
theorem WTJ.inflow_eq : Sf.inflow = Sw.mixed := by
  obtain ⟨air, wet, w, f, k1, -, k3, k4, k5, k6⟩ := hp.setup
  obtain ⟨m, a1, -, a3⟩ := setup_ok k3
  obtain ⟨-, -, b2, -⟩ := setup_ok k5
  rw [k4] at a1
  cases a1
  rw [a3] at b2
  exact (Except.ok.inj b2).symm

include hf

/-- **C68 (engine, atoms).** With chemical equilibrium every element is conserved through the engine: the mass flow of
`e` out of the nozzle is what came in with the dry part of the humid air, with its water and with the fuel. -/
theorem C68_atoms (e : String) :
    E.num "nozz.Fl_O:stat:W" * elemMassFrac Sf.mixed.elements data.wtOf (fun k => E.vec "nozz.Fl_O:tot:composition" k) e
      = E.num "balance.W" / (1 + E.num "fc.WAR")
          * elemMassFrac Sw.inflow.elements data.wtOf (fun k => E.vec "fc.fs.thermo_add.Fl_I:tot:composition" k) e
        + E.num "balance.W" * E.num "fc.WAR" / (1 + E.num "fc.WAR") * formulaMassFrac water data.wtOf e
        + E.num "burner.Wfuel" * formulaMassFrac fuel data.wtOf e
    ∧ E.num "burner.Wfuel" = E.num "balance.W" * E.num "balance.FAR"
    ∧ E.num "nozz.Fl_O:stat:W" = E.num "balance.W" + E.num "burner.Wfuel" := by
  obtain ⟨u1, u2⟩ := humid hp h hC hW h1
  have ie := inflow_eq hp
  obtain ⟨air, wet, w, f, k1, k2, k3, k4, k5, k6⟩ := hp.setup
  have k7 := update_nodup k1 k6 k4
  obtain ⟨m, a1, -, a3⟩ := setup_ok k5
  obtain ⟨-, g1, g2⟩ := burner_laws h
  -- burner
  obtain ⟨V, hV, hi, ho, x3, -, y2⟩ := h.burner_seen (x := "burner") (List.mem_of_getElem? (i := 3) rfl)
  have x1 : V.num "Fl_I:stat:W" = E.num "balance.W" := (hi "stat:W" (by decide)).1.trans g1
  have x2 : V.vec "Fl_I:tot:composition" = E.vec "fc.Fl_O:tot:composition" :=
    (hi "tot:composition" (by decide)).2.trans g2
  have x3 : V.num "Fl_I:FAR" = E.num "balance.FAR" := x3.trans (C68_targets h).2.2.1
  have y1 : V.num "Fl_O:stat:W" = E.num "burner.Fl_O:stat:W" := (ho "stat:W" (by decide)).1
  have y3 : V.vec "Fl_O:tot:composition" = E.vec "burner.Fl_O:tot:composition" := (ho "tot:composition" (by decide)).2
  have y2 : V.num "Wfuel" = E.num "burner.Wfuel" := y2
  rw [hp.parts.2.1] at hV
  have gW : E.num "balance.W" + E.num "burner.Wfuel" ≠ 0 := (add_pos_of_pos_of_nonneg hf.air hf.fuel).ne'
  obtain ⟨b1, b2, b3, b4, -⟩ := C48_cea p.burnt d true V data wet k7 f fuel k2 hp.keys.2 hp.mass.2 Sf k5 hp.weights.2
    (by rw [x2, ie, u1]; exact one_ne_zero) (by rw [x1, y2]; exact gW) hV
  rw [x1, x3, y2] at b1
  rw [x1, y1, y2] at b2
  rw [y3] at b3
  rw [x1, x2, y1, y2, y3, ie] at b4
  -- turbine
  obtain ⟨hT, -⟩ := h.turbine_laws (x := "turb") (mt := p.turb) (gas := p.burnt) (gb := fun _ => p.burnt) (ba := p.bleed)
    (d := d) (N := "Nmech") turbNames (List.mem_of_getElem? (i := 4) rfl)
  have j := join h 3 (a := ("burner", "Fl_O")) (b := ("turb", "Fl_I")) rfl
  obtain ⟨pb, hbld⟩ := hp.parts.2.2
  generalize hV' : E.of ⟨"turb", turbine p.burnt (fun _ => p.burnt) p.turb p.bleed [] d true, [.as "Nmech" "Nmech"], []⟩
    = V' at hT
  have z1 : V'.vec "Fl_I:tot:composition" = E.vec "burner.Fl_O:tot:composition" := by rw [← hV']; exact j.C
  have z2 : V'.num "Fl_I:stat:W" = E.num "burner.Fl_O:stat:W" := by rw [← hV']; exact j.W
  have z3 : V'.vec "Fl_O:tot:composition" = E.vec "turb.Fl_O:tot:composition" := by rw [← hV']; rfl
  have z4 : V'.num "Fl_O:stat:W" = E.num "turb.Fl_O:stat:W" := by rw [← hV']; rfl
  rw [hbld] at hT
  have t1 := (turb_laws h).2.1
  obtain ⟨-, c2⟩ := C56_cea p.burnt (fun _ => p.burnt) p.turb turbNames d true V' data m (fun _ => [])
    (update_nodup k2 k7 a1) Sf.mixed Sf.mixed pb a3 (by simp) a3 hp.weights.2 (by rw [z1, b3]; exact one_ne_zero) (by simp) (by rw [z4, t1, b2]; exact gW) hT
  have c2 := c2 e
  simp only [List.map_nil, List.sum_nil, add_zero] at c2
  rw [z1, z2, z3, z4, t1] at c2
  obtain ⟨-, n2, -, -, n5⟩ := nozz_laws h
  refine ⟨?_, b1, n2.trans b2⟩
  rw [n2, n5, c2, b4, u2 e]
  ring

end

end PyCycle.OM
