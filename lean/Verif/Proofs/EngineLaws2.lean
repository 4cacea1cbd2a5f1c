import Verif.Proofs.EngineLaws

/-! # More laws of the elements of a solved engine, under the engine's names -/

namespace PyCycle

/-- Powers at the ports of a shaft, losses and extraction left out. -/
theorem Shaft.raw_powers_of_ports {n : ℕ} (x : Shaft.I n → ℝ) (P : Fin n → ℝ) (hN : 0 < x .Nmech)
    (ht : ∀ k, x (.trq k) * x .Nmech = 5252.11 * P k) :
    Shaft.compute x .pwr_in = 5252.11 * (2 * Real.pi / 60 / 550) * ∑ k, max (P k) 0
    ∧ Shaft.compute x .pwr_out = 5252.11 * (2 * Real.pi / 60 / 550) * ∑ k, min (P k) 0
    ∧ Shaft.compute x .pwr_net = 5252.11 * (2 * Real.pi / 60 / 550)
        * ((1 - x .fracLoss) * (∑ k, max (P k) 0) + ∑ k, min (P k) 0) - x .HPX := by
  obtain ⟨q1, q2, -, -, -, q6⟩ := Shaft.C26_powers x
  obtain ⟨r1, r2⟩ := Shaft.C26_ports x
  obtain ⟨t1, t2⟩ := Shaft.powers_of_ports x P hN ht
  have h0 : (0 : ℝ) < 5252.11 := by norm_num
  have s1 : (∑ k, max (x (.trq k)) 0) * x .Nmech = 5252.11 * ∑ k, max (P k) 0 := by
    rw [Finset.sum_mul, Finset.mul_sum]
    refine Finset.sum_congr rfl fun k _ => ?_
    rw [max_mul_of_nonneg _ _ hN.le, zero_mul, ht, mul_max_of_nonneg _ _ h0.le, mul_zero]
  have s2 : (∑ k, min (x (.trq k)) 0) * x .Nmech = 5252.11 * ∑ k, min (P k) 0 := by
    rw [Finset.sum_mul, Finset.mul_sum]
    refine Finset.sum_congr rfl fun k _ => ?_
    rw [min_mul_of_nonneg _ _ hN.le, zero_mul, ht, mul_min_of_nonneg _ _ h0.le, mul_zero]
  rw [r1] at q1
  rw [r2] at q2
  have e1 : Shaft.compute x .pwr_in = 5252.11 * (2 * Real.pi / 60 / 550) * ∑ k, max (P k) 0 := by
    linear_combination (1 / 550 : ℝ) * q1 + (2 * Real.pi / 60 / 550) * s1
  have e2 : Shaft.compute x .pwr_out = 5252.11 * (2 * Real.pi / 60 / 550) * ∑ k, min (P k) 0 := by
    linear_combination (1 / 550 : ℝ) * q2 + (2 * Real.pi / 60 / 550) * s2
  refine ⟨e1, e2, ?_⟩
  have e3 : Shaft.compute x .pwr_net = Shaft.compute x .pwr_in_real + Shaft.compute x .pwr_out_real :=
    q6 hN.ne'
  rw [e3, t1, t2]; ring

namespace OM.Cycle.Solved
variable {c : Cycle} {E : Env} (h : c.Solved E)
include h
variable {x : String} {gas : (ℕ → ℝ) → TPGas} {d : Bool}

/-- Flight conditions. -/
theorem flight_laws (hm : ⟨x, flightConditions gas none, [], []⟩ ∈ c.members) :
    Atm.ambient (E.num (x ++ "." ++ "alt")) (E.num (x ++ "." ++ "dTs")) .Ps = some (E.num (x ++ "." ++ "Fl_O:stat:P"))
    ∧ Atm.ambient (E.num (x ++ "." ++ "alt")) (E.num (x ++ "." ++ "dTs")) .Ts = some (E.num (x ++ "." ++ "Fl_O:stat:T"))
    ∧ E.num (x ++ "." ++ "Fl_O:stat:MN") = E.num (x ++ "." ++ "MN")
    ∧ E.num (x ++ "." ++ "Fl_O:stat:W") = E.num (x ++ "." ++ "W")
    ∧ E.vec (x ++ "." ++ "Fl_O:tot:composition") = E.vec (x ++ "." ++ "fs.composition") := by
  have hc := h.member_plain hm rfl rfl (flight_closed _ _)
  obtain ⟨h1, h2, h3, h4⟩ := C49_flight gas none _ hc
  exact ⟨h1, h2, h3.mach, h3.flow, h4 rfl⟩

/-- An inlet, in terms of the values at its entry. -/
theorem inlet_laws (hm : ⟨x, inlet gas d true, [], []⟩ ∈ c.members) :
    E.num (x ++ "." ++ "Fl_O:tot:P") = E.num (x ++ "." ++ "Fl_I:tot:P") * E.num (x ++ "." ++ "ram_recovery")
    ∧ E.num (x ++ "." ++ "F_ram") = E.num (x ++ "." ++ "Fl_I:stat:W") * E.num (x ++ "." ++ "Fl_I:stat:V") / 32.174
    ∧ E.num (x ++ "." ++ "Fl_O:stat:W") = E.num (x ++ "." ++ "Fl_I:stat:W")
    ∧ E.vec (x ++ "." ++ "Fl_O:tot:composition") = E.vec (x ++ "." ++ "Fl_I:tot:composition") := by
  have hc := h.member_plain hm rfl rfl (inlet_closed _ _ _)
  obtain ⟨h1, -, h3, -, h5, h6, -⟩ := C50_inlet gas d true _ hc
  exact ⟨h1, h6, h5, h3⟩

/-- A splitter. -/
theorem splitter_laws (hm : ⟨x, splitter gas d true, [], []⟩ ∈ c.members) {y : String × String} (j : E.Joined y (x, "Fl_I")) :
    E.num (x ++ "." ++ "Fl_O1:tot:P") = E.num (y.1 ++ "." ++ (y.2 ++ ":" ++ "tot:P"))
    ∧ E.num (x ++ "." ++ "Fl_O2:tot:P") = E.num (y.1 ++ "." ++ (y.2 ++ ":" ++ "tot:P"))
    ∧ E.num (x ++ "." ++ "Fl_O1:stat:W") + E.num (x ++ "." ++ "Fl_O2:stat:W") = E.num (y.1 ++ "." ++ (y.2 ++ ":" ++ "stat:W"))
    ∧ (E.num (x ++ "." ++ "BPR") ≠ -1 →
        E.num (x ++ "." ++ "Fl_O2:stat:W") = E.num (x ++ "." ++ "BPR") * E.num (x ++ "." ++ "Fl_O1:stat:W"))
    ∧ E.vec (x ++ "." ++ "Fl_O1:tot:composition") = E.vec (y.1 ++ "." ++ (y.2 ++ ":" ++ "tot:composition"))
    ∧ E.vec (x ++ "." ++ "Fl_O2:tot:composition") = E.vec (y.1 ++ "." ++ (y.2 ++ ":" ++ "tot:composition")) := by
  have hc := h.member_plain hm rfl rfl (splitter_closed _ _ _)
  obtain ⟨h1, h2, ⟨-, h3, h4, -⟩, ⟨-, h5, h6, -⟩, -⟩ := C50_splitter gas d true _ hc
  exact ⟨h3.trans j.P, h5.trans j.P, h1.trans j.W, h2, h4.trans j.C, h6.trans j.C⟩

/-- A combustor sees its inputs and is converged. -/
theorem burner_seen {a : Adder} (hm : ⟨x, combustor gas a d true, [], []⟩ ∈ c.members) :
    ∃ V, (combustor gas a d true).Converged V
      ∧ (∀ v ∈ linkInVars, V.num ("Fl_I" ++ ":" ++ v) = E.num (x ++ "." ++ ("Fl_I" ++ ":" ++ v))
        ∧ V.vec ("Fl_I" ++ ":" ++ v) = E.vec (x ++ "." ++ ("Fl_I" ++ ":" ++ v)))
      ∧ (∀ v ∈ linkOutVars, V.num ("Fl_O" ++ ":" ++ v) = E.num (x ++ "." ++ ("Fl_O" ++ ":" ++ v))
        ∧ V.vec ("Fl_O" ++ ":" ++ v) = E.vec (x ++ "." ++ ("Fl_O" ++ ":" ++ v)))
      ∧ V.num "Fl_I:FAR" = E.num (x ++ "." ++ "Fl_I:FAR") ∧ V.num "dPqP" = E.num (x ++ "." ++ "dPqP")
      ∧ V.num "Wfuel" = E.num (x ++ "." ++ "Wfuel") := by
  obtain ⟨V, hV, hi, ho⟩ := h.seen hm rfl
  have hx := (C48_interface gas a d true).2
  exact ⟨V, hV, fun v hv => hi _ ((hx _).mpr (List.mem_append_left _ (List.mem_append_left _ (List.mem_append_left _
      (Ifaces.port "Fl_I" (by simp) v hv))))), fun v hv => ho _ ((Turbojet.burner_outs gas a d).1 v hv),
    (hi "Fl_I:FAR" ((hx _).mpr (by simp))).1, (hi "dPqP" ((hx _).mpr (by simp))).1,
    (ho _ (Turbojet.burner_outs gas a d).2).1⟩

theorem burner_laws {a : Adder} (hm : ⟨x, combustor gas a d true, [], []⟩ ∈ c.members) {y : String × String}
    (j : E.Joined y (x, "Fl_I")) :
    E.num (x ++ "." ++ ("Fl_O" ++ ":" ++ "tot:P"))
      = E.num (y.1 ++ "." ++ (y.2 ++ ":" ++ "tot:P")) * (1 - E.num (x ++ "." ++ "dPqP"))
    ∧ E.num (x ++ "." ++ ("Fl_I" ++ ":" ++ "stat:W")) = E.num (y.1 ++ "." ++ (y.2 ++ ":" ++ "stat:W"))
    ∧ E.vec (x ++ "." ++ ("Fl_I" ++ ":" ++ "tot:composition")) = E.vec (y.1 ++ "." ++ (y.2 ++ ":" ++ "tot:composition")) := by
  obtain ⟨V, hV, hi, ho, -, x2, -⟩ := h.burner_seen hm
  obtain ⟨L, -⟩ := C48_outlet gas a d true V hV
  have x1 : V.num "Fl_I:tot:P" = _ := (hi "tot:P" (by decide)).1.trans j.P
  have y1 : V.num "Fl_O:tot:P" = _ := (ho "tot:P" (by decide)).1
  rw [x1, x2, y1] at L
  exact ⟨L, j.W, j.C⟩

/-- The books of a combustor. -/
theorem burner_mass {a : Adder} (hm : ⟨x, combustor gas a d true, [], []⟩ ∈ c.members) {gI : (ℕ → ℝ) → TPGas}
    {okC : (ℕ → ℝ) → Prop} (hb : (combustorAccount gas gI okC).Holds (combustor gas a d true))
    (hC : okC (E.vec (x ++ "." ++ ("Fl_I" ++ ":" ++ "tot:composition"))))
    (hW : E.num (x ++ "." ++ ("Fl_I" ++ ":" ++ "stat:W")) ≠ 0)
    (hWf : E.num (x ++ "." ++ ("Fl_I" ++ ":" ++ "stat:W")) + E.num (x ++ "." ++ "Wfuel") ≠ 0) :
    E.num (x ++ "." ++ ("Fl_O" ++ ":" ++ "stat:W"))
      = E.num (x ++ "." ++ ("Fl_I" ++ ":" ++ "stat:W")) + E.num (x ++ "." ++ "Wfuel") := by
  obtain ⟨V, hV, hi, ho, -, -, y2⟩ := h.burner_seen hm
  have x1 : V.num "Fl_I:stat:W" = _ := (hi "stat:W" (by decide)).1
  have x2 : V.vec "Fl_I:tot:composition" = _ := (hi "tot:composition" (by decide)).2
  have y1 : V.num "Fl_O:stat:W" = _ := (ho "stat:W" (by decide)).1
  have hm := hb.mass V hV ⟨by rw [x2]; exact hC, by rw [x1]; exact hW, by rw [x1, y2]; exact hWf⟩
  simp only [Account.MassBalance, combustorAccount, Env.W, List.map_cons, List.map_nil, List.sum_cons, List.sum_nil,
    add_zero, String.reduceAppend] at hm
  rw [x1, y1, y2] at hm
  exact hm

/-- A nozzle with thrust coefficient: gross thrust is the coefficient times the thrust of the loss-free expansion. -/
theorem nozzle_cfg_laws {k : Noz.NozzType} (hm : ⟨x, nozzle gas k .Cfg, [], []⟩ ∈ c.members) {y : String × String}
    (j : E.Joined y (x, "Fl_I")) :
    E.num (x ++ "." ++ "Fl_O:tot:P") = E.num (y.1 ++ "." ++ (y.2 ++ ":" ++ "tot:P")) * (1 - E.num (x ++ "." ++ "dPqP"))
    ∧ E.num (x ++ "." ++ "Fl_O:stat:W") = E.num (y.1 ++ "." ++ (y.2 ++ ":" ++ "stat:W"))
    ∧ E.num (x ++ "." ++ "PR") * E.num (x ++ "." ++ "Ps_exhaust") = E.num (x ++ "." ++ "Fl_O:tot:P")
    ∧ E.num (x ++ "." ++ "Fg") = E.num (x ++ "." ++ "Cfg")
        * (E.num (y.1 ++ "." ++ (y.2 ++ ":" ++ "stat:W")) * E.num (x ++ "." ++ "ideal_flow.flow:V") / 32.174)
    ∧ E.num (x ++ "." ++ "ideal_flow.flow:P") = E.num (x ++ "." ++ "Ps_exhaust")
    ∧ E.num (x ++ "." ++ "ideal_flow.flow:S") = E.num (x ++ "." ++ "Fl_I:tot:S")
    ∧ E.num (x ++ "." ++ "Fl_O:tot:h") = E.num (y.1 ++ "." ++ (y.2 ++ ":" ++ "tot:h")) := by
  have hc := h.member_plain hm rfl rfl (nozzle_closed _ _ _)
  obtain ⟨-, -, p1, p2, p3, -⟩ := C52_pressure gas k .Cfg _ hc
  obtain ⟨-, -, -, -, p4, -⟩ := C52_exit gas k .Cfg _ hc
  obtain ⟨p5, p6, -⟩ := C52_thrust gas k .Cfg _ hc
  obtain ⟨-, -, -, q1, -, q2, -⟩ := C52_stations gas k .Cfg _ hc
  refine ⟨p2.trans (congrArg (· * _) j.P), p4.trans j.W, p1.trans p2.symm, ?_, q1, q2, p3.trans j.h⟩
  exact (p6 rfl).trans (congrArg (_ * ·) (p5.trans (congrArg (· * _ / _) j.W)))

end OM.Cycle.Solved
end PyCycle
