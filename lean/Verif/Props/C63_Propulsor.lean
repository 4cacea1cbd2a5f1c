import Verif.Proofs.PropulsorNames
import Verif.Proofs.EngineLaws2
import Verif.Props.C57_Network

/-! # C63: the electric propulsor

What a solved `Propulsor` of `example_cycles/electric_propulsor.py` or `WetPropulsor` of `example_cycles/wet_propulsor.py`
is, as a design point and off design, for any gas and map, with or without water in the free stream. -/

namespace PyCycle.OM

open Propulsor

/-- **C63 (interface).** In both modes the engine is accepted: every connection joins an output to an input, none is
connected twice, every promotion finds a variable. -/
theorem C63_interface (p : PropulsorParts) (d : Bool) : (propulsor p d).group.wiring.Accepted := accepted p d

/-- **C63 (solved states).** Every converged engine can be completed, by transferring outputs to inputs, to a solved one
with the same outputs: the theorems below are about all converged engines. -/
theorem C63_complete (p : PropulsorParts) (d : Bool) (E : Env) (hc : (propulsor p d).group.Converged E) :
    ∃ E', (propulsor p d).Solved E' ∧ ∀ n ∈ (propulsor p d).group.wiring.outs, E'.num n = E.num n ∧ E'.vec n = E.vec n := by
  refine Cycle.complete (accepted p d).1 ?_ hc
  have hs : speedSub.Local := fun _ _ _ _ _ _ _ => trivial
  cases d
  · simp only [propulsor, List.forall_mem_cons, Bool.false_eq_true, if_false]
    exact ⟨performanceSub_local _ _, balances_local _ _, by simp⟩
  · simp only [propulsor, List.forall_mem_cons, if_true]
    exact ⟨performanceSub_local _ _, balances_local _ _, hs, by simp⟩

section
variable {p : PropulsorParts} {d : Bool} {E : Env} (h : (propulsor p d).Solved E)
include h

namespace Propulsor

theorem join (i : ℕ) {a b : String × String} {s : Bool} (hl : flows[i]? = some { src := a, tgt := b, stat := s }) :
    E.Joined a b := h.joined (List.mem_of_getElem? hl)

theorem conn {a b : String} (hx : (a, b) ∈ plainConns) : E.num a = E.num b :=
  (h.conn (List.mem_append_left _ hx)).1

theorem bal {b : Bal} (hb : b ∈ bals d) :
    b.Met ⟨fun v => E.num ((balances (bals d) (balProms d)).inName v),
      fun v => E.vec ((balances (bals d) (balProms d)).inName v)⟩ :=
  h.other (s := balances (bals d) (balProms d)) (List.mem_of_getElem? (i := 1) rfl) b hb

theorem bconn {a b : String} (hx : (a, b) ∈ balConns d) : E.num a = E.num b :=
  (h.conn (List.mem_append_right _ hx)).1

theorem fc_laws : Atm.ambient (E.num "fc.alt") (E.num "fc.dTs") .Ps = some (E.num "fc.Fl_O:stat:P")
    ∧ Atm.ambient (E.num "fc.alt") (E.num "fc.dTs") .Ts = some (E.num "fc.Fl_O:stat:T")
    ∧ E.num "fc.Fl_O:stat:MN" = E.num "fc.MN" ∧ E.num "fc.Fl_O:stat:W" = E.num "balance.W"
    ∧ (p.water = none → E.vec "fc.Fl_O:tot:composition" = E.vec "fc.fs.composition") := by
  have hc := h.member_plain (m := ⟨"fc", flightConditions p.air p.water, [], []⟩) (List.mem_of_getElem? (i := 0) rfl) rfl rfl
    (flight_closed _ _)
  obtain ⟨h1, h2, h3, h4⟩ := C49_flight p.air p.water _ hc
  have c : E.num "balance.W" = E.num "fc.W" := conn h (by simp [plainConns])
  exact ⟨h1, h2, h3.mach, h3.flow.trans c.symm, h4⟩

theorem inlet_laws : E.num "inlet.Fl_O:tot:P" = E.num "fc.Fl_O:tot:P" * E.num "inlet.ram_recovery"
    ∧ E.num "inlet.F_ram" = E.num "balance.W" * E.num "fc.Fl_O:stat:V" / 32.174
    ∧ E.num "inlet.Fl_O:stat:W" = E.num "balance.W"
    ∧ E.vec "inlet.Fl_O:tot:composition" = E.vec "fc.Fl_O:tot:composition" := by
  obtain ⟨h1, h2, h3, h4⟩ := h.inlet_laws (x := "inlet") (gas := p.air) (d := d) (List.mem_of_getElem? (i := 1) rfl)
  have j := join h 0 (a := ("fc", "Fl_O")) (b := ("inlet", "Fl_I")) rfl
  have w : E.num "inlet.Fl_I:stat:W" = E.num "balance.W" := Eq.trans j.W (fc_laws h).2.2.2.1
  have v : E.num "inlet.Fl_I:stat:V" = E.num "fc.Fl_O:stat:V" :=
    ((h.link (l := { src := ("fc", "Fl_O"), tgt := ("inlet", "Fl_I") }) (List.mem_of_getElem? (i := 0) rfl)
      (v := "stat:V") (by decide) (fun e => absurd e (by decide)) rfl rfl).1).symm
  have h2 : E.num "inlet.F_ram" = E.num "inlet.Fl_I:stat:W" * E.num "inlet.Fl_I:stat:V" / 32.174 := h2
  rw [w, v] at h2
  exact ⟨h1.trans (congrArg (· * _) j.P), h2, h3.trans w, h4.trans j.C⟩

theorem fan_laws : CompressorLaws (p.air (E.vec "fc.Fl_O:tot:composition")) []
      (E.of ⟨"fan", compressor p.air p.fan [] d true, [], []⟩)
    ∧ E.num "fan.Fl_O:tot:P" = E.num "fan.PR" * E.num "inlet.Fl_O:tot:P"
    ∧ E.num "fan.Fl_O:stat:W" = E.num "balance.W"
    ∧ E.vec "fan.Fl_O:tot:composition" = E.vec "fc.Fl_O:tot:composition" := by
  have hc := h.member_plain (m := ⟨"fan", compressor p.air p.fan [] d true, [], []⟩) (List.mem_of_getElem? (i := 2) rfl)
    rfl rfl (compressor_closed _ _ _ _ _)
  have L := (C55_compressor p.air p.fan Turbojet.noComp d true _ hc).1
  have j := join h 1 (a := ("inlet", "Fl_O")) (b := ("fan", "Fl_I")) rfl
  obtain ⟨-, -, f1, f2⟩ := inlet_laws h
  have c : E.vec "fan.Fl_I:tot:composition" = E.vec "fc.Fl_O:tot:composition" := Eq.trans j.C f2
  have l2 := L.mass
  rw [List.map_nil, List.sum_nil, add_zero] at l2
  refine ⟨?_, L.pressure.trans (congrArg (_ * ·) j.P), (l2.trans j.W).trans f1, L.composition.trans c⟩
  rw [← c]; exact L

theorem nozz_laws : E.num "nozz.Fl_O:tot:P" = E.num "fan.Fl_O:tot:P" * (1 - E.num "nozz.dPqP")
    ∧ E.num "nozz.Fl_O:stat:W" = E.num "balance.W"
    ∧ E.num "nozz.PR" * E.num "fc.Fl_O:stat:P" = E.num "nozz.Fl_O:tot:P"
    ∧ E.num "nozz.Fg" = E.num "nozz.Fl_O:stat:W" * E.num "nozz.Fl_O:stat:V" / 32.174
          * (E.num "nozz.Cv" * E.num "nozz.perf_calcs.Cang" * E.num "nozz.perf_calcs.CmixCorr")
        + (E.num "nozz.Fl_O:stat:P" - E.num "fc.Fl_O:stat:P") * E.num "nozz.Fl_O:stat:area" := by
  have j := join h 2 (a := ("fan", "Fl_O")) (b := ("nozz", "Fl_I")) rfl
  obtain ⟨n1, n2, n3, n4⟩ := h.nozzle_laws (x := "nozz") (gas := p.air) (k := .CV) (List.mem_of_getElem? (i := 3) rfl) j
  have e : E.num "fc.Fl_O:stat:P" = E.num "nozz.Ps_exhaust" := conn h (by simp [plainConns])
  rw [e]
  exact ⟨n1, Eq.trans n2 (fan_laws h).2.2.1, n3, n4⟩

theorem perf_laws : E.num "perf.Fn" = E.num "nozz.Fg" - E.num "inlet.F_ram"
    ∧ E.num "perf.OPR" = E.num "fan.Fl_O:tot:P" / E.num "inlet.Fl_O:tot:P"
    ∧ E.num "perf.Wfuel" = 0 := by
  have e := h.other (s := performanceSub 1 0) (List.mem_of_getElem? (i := 0) rfl)
  have c0 : E.num "nozz.Fg" = E.num "perf.Fg_0" := conn h (by simp [plainConns])
  have c1 : E.num "inlet.F_ram" = E.num "perf.ram_drag" := conn h (by simp [plainConns])
  have c2 : E.num "inlet.Fl_O:tot:P" = E.num "perf.Pt2" := conn h (by simp [plainConns])
  have c3 : E.num "fan.Fl_O:tot:P" = E.num "perf.Pt3" := conn h (by simp [plainConns])
  obtain ⟨e1, -, e3, -, -, e6⟩ := e
  have e1 : E.num "perf.OPR" = E.num "perf.Pt3" / E.num "perf.Pt2" := e1
  have e3 : E.num "perf.Fn" = (0 + E.num "perf.Fg_0") - E.num "perf.ram_drag" := e3
  have e6 : E.num "perf.Wfuel" = 0 := e6
  rw [c0, c1, c2, c3]
  exact ⟨by rw [e3, zero_add], e1, e6⟩

end Propulsor

/-- **C63 (flight).** The engine flies at the altitude, temperature deviation and Mach number of `fc`; the nozzle
discharges against the ambient pressure of the standard atmosphere; the gas keeps its composition. -/
theorem C63_flight : Atm.ambient (E.num "fc.alt") (E.num "fc.dTs") .Ps = some (E.num "fc.Fl_O:stat:P")
    ∧ Atm.ambient (E.num "fc.alt") (E.num "fc.dTs") .Ts = some (E.num "fc.Fl_O:stat:T")
    ∧ E.num "fc.Fl_O:stat:MN" = E.num "fc.MN"
    ∧ E.num "nozz.Ps_exhaust" = E.num "fc.Fl_O:stat:P"
    ∧ E.vec "fan.Fl_O:tot:composition" = E.vec "fc.Fl_O:tot:composition"
    ∧ (p.water = none → E.vec "fc.Fl_O:tot:composition" = E.vec "fc.fs.composition") := by
  obtain ⟨f1, f2, f3, -, f5⟩ := fc_laws h
  exact ⟨f1, f2, f3, (conn h (by simp [plainConns])).symm, (fan_laws h).2.2.2, f5⟩

/-- **C63 (pressures).** Total pressure is multiplied by ram recovery, the fan's pressure ratio and the nozzle's loss
factor; the nozzle's pressure ratio relates it to the ambient pressure. -/
theorem C63_pressure :
    E.num "nozz.Fl_O:tot:P" = E.num "fc.Fl_O:tot:P" * E.num "inlet.ram_recovery" * E.num "fan.PR" * (1 - E.num "nozz.dPqP")
    ∧ E.num "nozz.PR" * E.num "fc.Fl_O:stat:P" = E.num "nozz.Fl_O:tot:P"
    ∧ (E.num "inlet.Fl_O:tot:P" ≠ 0 → E.num "perf.OPR" = E.num "fan.PR") := by
  refine ⟨?_, (nozz_laws h).2.2.1, fun hP => ?_⟩
  · rw [(nozz_laws h).1, (fan_laws h).2.1, (inlet_laws h).1]; ring
  · rw [(perf_laws h).2.1, (fan_laws h).2.1]; field_simp

/-- **C63 (thrust).** Net thrust is gross thrust of the nozzle less ram drag, the momentum of all the air at flight speed.
No fuel is reported. -/
theorem C63_thrust :
    E.num "perf.Fn" = E.num "balance.W" * E.num "nozz.Fl_O:stat:V" / 32.174
          * (E.num "nozz.Cv" * E.num "nozz.perf_calcs.Cang" * E.num "nozz.perf_calcs.CmixCorr")
        + (E.num "nozz.Fl_O:stat:P" - E.num "fc.Fl_O:stat:P") * E.num "nozz.Fl_O:stat:area"
      - E.num "balance.W" * E.num "fc.Fl_O:stat:V" / 32.174
    ∧ E.num "perf.Wfuel" = 0 := by
  obtain ⟨p1, -, p3⟩ := perf_laws h
  exact ⟨by rw [p1, (nozz_laws h).2.2.2, (inlet_laws h).2.1, (nozz_laws h).2.1], p3⟩

/-- **C63 (targets).** In both modes the fan's power is the one asked for. Off design the throat has the area asked for and
the fan turns at the speed the balance found; as a design point it turns at the speed given. -/
theorem C63_targets :
    E.num "fan.power" = E.num "pwr_target"
    ∧ (d = true → E.num "fan.Nmech" = E.num "shaft.Nmech")
    ∧ (d = false → E.num "nozz.Throat:stat:area" = E.num "balance.rhs:W" ∧ E.num "fan.Nmech" = E.num "balance.Nmech")
    ∧ E.num "fc.W" = E.num "balance.W" := by
  have c := fun {x y : String} (hx : (x, y) ∈ balConns d) => bconn h hx
  refine ⟨?_, ?_, ?_, (conn h (by simp [plainConns])).symm⟩
  · cases d with
    | true =>
      have b : 1 * E.num "balance.lhs:W" = E.num "pwr_target" := bal h (b := .of "W") (by simp [bals])
      have c1 : E.num "fan.power" = E.num "balance.lhs:W" := c (by simp [balConns])
      rw [c1, ← b, one_mul]
    | false =>
      have b : 1 * E.num "balance.lhs:Nmech" = E.num "pwr_target" := bal h (b := .of "Nmech") (by simp [bals])
      have c1 : E.num "fan.power" = E.num "balance.lhs:Nmech" := c (by simp [balConns])
      rw [c1, ← b, one_mul]
  · rintro rfl
    exact (c (by simp [balConns])).symm
  · rintro rfl
    have b : 1 * E.num "balance.lhs:W" = E.num "balance.rhs:W" := bal h (b := .of "W") (by simp [bals])
    have c1 : E.num "nozz.Throat:stat:area" = E.num "balance.lhs:W" := c (by simp [balConns])
    exact ⟨by rw [c1, ← b, one_mul], (c (by simp [balConns])).symm⟩

/-- **C63 (fan).** The power asked for is, with the sign of power taken, what the fan adds to the enthalpy of the air, and
its efficiency is the part of it an isentropic compression would have needed; torque times speed is that power. -/
theorem C63_fan :
    E.num "pwr_target" = 1.4148532 * (E.num "balance.W" * (E.num "inlet.Fl_O:tot:h" - E.num "fan.Fl_O:tot:h"))
    ∧ (E.num "fan.eff" ≠ 0 → Isentropic (p.air (E.vec "fc.Fl_O:tot:composition")) (E.num "inlet.Fl_O:tot:S")
        (E.num "fan.PR" * E.num "inlet.Fl_O:tot:P")
        (E.num "inlet.Fl_O:tot:h" + E.num "fan.eff" * (E.num "fan.Fl_O:tot:h" - E.num "inlet.Fl_O:tot:h")))
    ∧ (E.num "fan.Nmech" ≠ 0 → E.num "fan.trq" * E.num "fan.Nmech" = 5252.11 * E.num "pwr_target") := by
  obtain ⟨L, l1, l2, -⟩ := fan_laws h
  have j := join h 1 (a := ("inlet", "Fl_O")) (b := ("fan", "Fl_I")) rfl
  have hh : E.num "fan.Fl_I:tot:h" = E.num "inlet.Fl_O:tot:h" := j.h
  have hS : E.num "fan.Fl_I:tot:S" = E.num "inlet.Fl_O:tot:S" :=
    (h.handed (l := { src := ("inlet", "Fl_O"), tgt := ("fan", "Fl_I") }) (List.mem_of_getElem? (i := 1) rfl) rfl
      (v := "tot:S") (by decide) (fun e => absurd e (by decide))).1
  have hW : E.num "fan.Fl_I:stat:W" = E.num "balance.W" := Eq.trans j.W (inlet_laws h).2.2.1
  have t := (C63_targets h).1
  refine ⟨?_, fun he => ?_, fun hN => ?_⟩
  · have e : E.num "fan.power" = 1.4148532 * (E.num "fan.Fl_I:stat:W" * E.num "fan.Fl_I:tot:h"
        - (E.num "fan.Fl_O:stat:W" * E.num "fan.Fl_O:tot:h" + 0)) := L.energy
    rw [← t, e, hW, hh, l2]; ring
  · have e : Isentropic (p.air (E.vec "fc.Fl_O:tot:composition")) (E.num "fan.Fl_I:tot:S") (E.num "fan.Fl_O:tot:P")
        (E.num "fan.Fl_I:tot:h" + E.num "fan.eff" * (E.num "fan.Fl_O:tot:h" - E.num "fan.Fl_I:tot:h")) := L.efficiency he
    rw [hS, hh, l1] at e
    exact e
  · have e : E.num "fan.trq" * E.num "fan.Nmech" = 5252.11 * E.num "fan.power" := L.torque hN
    rw [e, t]

end

/-! ## Mass and energy -/

namespace Propulsor

/-- The account of each element. -/
noncomputable def acc (p : PropulsorParts) : String → Account
  | "fc" => startAccount p.air
  | "inlet" => inletAccount p.air
  | "fan" => compressorAccount p.air []
  | "nozz" => nozzleAccount p.air
  | _ => startAccount p.air

end Propulsor

/-- **C63 (network).** The engine is a network of accounts. -/
theorem C63_network (p : PropulsorParts) (d : Bool) : (propulsor p d).Network (acc p) where
  wired := (C63_interface p d).1
  accounts := by
    simp only [propulsor, elements, List.forall_mem_cons]
    exact ⟨C57_flight _ _, C57_inlet _ _ _, C57_compressor _ _ Turbojet.noComp _ _, C57_nozzle _ _ _, by simp⟩
  plainIn := by
    simp only [propulsor, elements, List.forall_mem_cons]
    exact ⟨fun _ _ _ _ => rfl, fun _ _ _ _ => rfl, fun _ _ _ _ => rfl, fun _ _ _ _ => rfl, by simp⟩
  plainOut := by
    simp only [propulsor, elements, List.forall_mem_cons]
    exact ⟨fun _ _ _ _ => rfl, fun _ _ _ _ => rfl, fun _ _ _ _ => rfl, fun _ _ _ _ => rfl, by simp⟩
  linked := by
    intro l hl
    have hl : l ∈ flows := hl
    have e : ∀ (i : ℕ) (a : Member), (elements p d)[i]? = some a → a ∈ (propulsor p d).members :=
      fun i a ha => List.mem_of_getElem? ha
    simp only [flows, List.mem_cons, List.not_mem_nil, or_false] at hl
    rcases hl with rfl | rfl | rfl
    · exact ⟨⟨_, e 0 _ rfl, rfl, List.mem_of_getElem? (i := 0) rfl⟩, ⟨_, e 1 _ rfl, rfl, List.mem_of_getElem? (i := 0) rfl⟩⟩
    · exact ⟨⟨_, e 1 _ rfl, rfl, List.mem_of_getElem? (i := 0) rfl⟩, ⟨_, e 2 _ rfl, rfl, List.mem_of_getElem? (i := 0) rfl⟩⟩
    · exact ⟨⟨_, e 2 _ rfl, rfl, List.mem_of_getElem? (i := 0) rfl⟩, ⟨_, e 3 _ rfl, rfl, List.mem_of_getElem? (i := 0) rfl⟩⟩

section
variable {p : PropulsorParts} {d : Bool} {E : Env} (h : (propulsor p d).Solved E)
include h

/-- **C63 (mass).** What leaves the nozzle is what the engine takes in. -/
theorem C63_mass : E.num "nozz.Fl_O:stat:W" = E.num "balance.W" := (nozz_laws h).2.1

/-- **C63 (energy).** What leaves the nozzle, per unit time, is the enthalpy of the air at free-stream total conditions
and the power given to the fan (a negative `pwr_target`); for a gas whose enthalpy depends on pressure the inlet adds the
difference between the enthalpies at its two pressures. -/
theorem C63_energy :
    let g := p.air (E.vec "fc.Fl_O:tot:composition")
    E.num "balance.W" * E.num "nozz.Fl_O:tot:h" = E.num "balance.W" * E.num "fc.Fl_O:tot:h"
      - E.num "pwr_target" / 1.4148532
      + E.num "balance.W" * (g.h (E.num "fc.Fl_O:tot:T") (E.num "fc.Fl_O:tot:P" * E.num "inlet.ram_recovery")
          - g.h (E.num "fc.Fl_O:tot:T") (E.num "fc.Fl_O:tot:P")) := by
  have N := C63_network p d
  have vi : ∀ n, ((propulsor p d).view E ⟨"inlet", inlet p.air d true, [], []⟩).num n = E.num ("inlet" ++ "." ++ n)
      ∧ ((propulsor p d).view E ⟨"inlet", inlet p.air d true, [], []⟩).vec n = E.vec ("inlet" ++ "." ++ n) :=
    fun n => h.view_eq rfl (Or.inr rfl)
  have v : ∀ (x : String) (G : Group) (pI : List Prom) (n : String), promoted pI n = none →
      ((propulsor p d).view E ⟨x, G, pI, []⟩).num n = E.num (x ++ "." ++ n) :=
    fun x G pI n hn => (h.view_eq rfl (Or.inr hn)).1
  have one : [("fc", "Fl_O"), ("inlet", "Fl_O"), ("fan", "Fl_O")].Nodup := by decide
  have key := Cycle.C57_energy N h.converged one ?_ ?_ ?_
  · have e1 : (propulsor p d).openOutlets (acc p) Link.carriesEnergy
        = [(⟨"nozz", nozzle p.air .CV .Cv, [], []⟩, "Fl_O")] := rfl
    have e2 : (propulsor p d).openInlets (acc p) Link.carriesEnergy = [] := rfl
    rw [e1, e2, show (propulsor p d).members = elements p d from rfl] at key
    simp only [elements, List.map_cons, List.map_nil, List.sum_cons, List.sum_nil, acc, Env.H, startAccount, inletAccount,
      nozzleAccount, compressorAccount, (vi _).1, (vi _).2, String.reduceAppend] at key
    have j := join h 0 (a := ("fc", "Fl_O")) (b := ("inlet", "Fl_I")) rfl
    have i1 : E.num "inlet.Fl_I:stat:W" = E.num "balance.W" := Eq.trans j.W (fc_laws h).2.2.2.1
    have i3 : E.num "inlet.Fl_I:tot:T" = E.num "fc.Fl_O:tot:T" := j.T
    have i4 : E.num "inlet.Fl_I:tot:P" = E.num "fc.Fl_O:tot:P" := j.P
    have i5 : E.vec "inlet.Fl_I:tot:composition" = E.vec "fc.Fl_O:tot:composition" := j.C
    have i6 : E.num "fc.W" = E.num "balance.W" := (C63_targets h).2.2.2
    have i7 : E.num "fan.power" = E.num "pwr_target" := (C63_targets h).1
    have i8 := C63_mass h
    simp only [v _ _ [] _ rfl, i1, i3, i4, i5, i6, i7, i8, String.reduceAppend] at key
    simp only []
    linear_combination key
  · rw [show (propulsor p d).members = elements p d from rfl]
    simp only [elements, List.forall_mem_cons]
    exact ⟨trivial, trivial, trivial, trivial, by simp⟩
  · intro l hl _
    have hl : l ∈ flows := hl
    simp only [flows, List.mem_cons, List.not_mem_nil, or_false] at hl
    rcases hl with rfl | rfl | rfl <;> rfl
  · have e0 : (propulsor p d).openInlets (acc p) Link.tot = [] := rfl
    rw [e0]; intro q hq; cases hq

end

end PyCycle.OM
