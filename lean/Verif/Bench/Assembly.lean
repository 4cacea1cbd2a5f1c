import Verif.Bench.Expand

/-! # Bench: shafts, performance and the assembly of engines -/

namespace PyCycle.OM

/-- A subsystem that renames some of its inputs. -/
theorem Decl.Fits.as {s : Decl} {V : String → Env} (l : List (String × String)) (h : Plain s.name) (ho : s.promO = [])
    (hi : s.promI = l.map fun x => .as x.1 x.2)
    (hl : ∀ x ∈ l, Plain x.2 ∧ (V "").num x.2 = (V s.name).num x.1 ∧ (V "").vec x.2 = (V s.name).vec x.1) :
    s.Fits V := by
  refine ⟨h, ho, fun v t k => ?_⟩
  rw [hi, promoted] at k
  cases e : (l.map fun x => Prom.as x.1 x.2).findSome? (Prom.exact v) with
  | none =>
    rw [e] at k
    simp [Prom.fits] at k
  | some t' =>
    rw [e] at k
    obtain ⟨p, hp, hv⟩ := List.exists_of_findSome?_eq_some e
    obtain ⟨x, hx, rfl⟩ := List.mem_map.mp hp
    simp only [Prom.exact, Option.ite_none_right_eq_some, Option.some.injEq] at hv
    obtain ⟨h1, h2, h3⟩ := hl x hx
    simp only [Option.some.injEq] at k
    rw [← k, ← hv.2, ← hv.1]
    simp only [Env.glue, cut_plain h1]
    exact ⟨h2, h3⟩

namespace Bench
open C48Example (unitGas)

/-- A shaft at speed 1 without losses or extraction, driven by one machine. -/
noncomputable def shaftRows (ti to' : ℝ) : List (String × ℝ) :=
  [("Nmech", 1), ("HPX", 0), ("fracLoss", 0), ("trq_in", ti), ("trq_out", to'), ("trq_net", ti + to'),
    ("pwr_in", ti * Shaft.convert), ("pwr_in_real", ti * Shaft.convert), ("pwr_out", to' * Shaft.convert),
    ("pwr_out_real", to' * Shaft.convert), ("pwr_net", (ti + to') * Shaft.convert)]

theorem shaft_ok {n : ℕ} {E : Env} {pI : List Prom} {ti to' : ℝ} (ht : Shaft.torques (shaftIn n E) = (ti, to'))
    (hr : ∀ x ∈ shaftRows ti to', E.num x.1 = x.2) : (shaftSub n pI).eqn E E := by
  have h1 : shaftIn n E .Nmech = 1 := hr ("Nmech", 1) (by simp [shaftRows])
  have h2 : shaftIn n E .HPX = 0 := hr ("HPX", 0) (by simp [shaftRows])
  have h3 : shaftIn n E .fracLoss = 0 := hr ("fracLoss", 0) (by simp [shaftRows])
  simp only [shaftSub, Shaft.compute, ht, h1, h2, h3]
  rw [hr ("trq_in", ti) (by simp [shaftRows]), hr ("trq_out", to') (by simp [shaftRows]),
    hr ("trq_net", ti + to') (by simp [shaftRows]), hr ("pwr_in", ti * Shaft.convert) (by simp [shaftRows]),
    hr ("pwr_in_real", ti * Shaft.convert) (by simp [shaftRows]), hr ("pwr_out", to' * Shaft.convert) (by simp [shaftRows]),
    hr ("pwr_out_real", to' * Shaft.convert) (by simp [shaftRows]),
    hr ("pwr_net", (ti + to') * Shaft.convert) (by simp [shaftRows])]
  refine ⟨rfl, rfl, ?_, ?_, ?_, ?_, ?_, ?_⟩ <;> ring

/-- Two machines on the shaft. -/
noncomputable def shaft2E (t0 t1 : ℝ) : Env := Env.ofTable ([("trq_0", t0), ("trq_1", t1)] ++ shaftRows (0 + t1) (0 + t0)) []

theorem shaft2_ok {t0 t1 : ℝ} {pI : List Prom} (h0 : t0 < 0) (h1 : 0 ≤ t1) : (shaftSub 2 pI).eqn (shaft2E t0 t1) (shaft2E t0 t1) := by
  refine shaft_ok (ti := 0 + t1) (to' := 0 + t0) ?_ ?_
  · refine Eq.trans (show _ = [t0, t1].foldl Shaft.step (0, 0) by krfl) ?_
    have hn : ¬ (t0 ≥ 0) := not_le.mpr h0
    simp only [List.foldl_cons, List.foldl_nil, Shaft.step, if_neg hn, if_pos h1]
  · intro x hx
    fin_cases hx <;> krfl

/-- Three machines, of which the last drives. -/
noncomputable def shaft3E (t0 t1 t2 : ℝ) : Env :=
  Env.ofTable ([("trq_0", t0), ("trq_1", t1), ("trq_2", t2)] ++ shaftRows (0 + t2) (0 + t0 + t1)) []

theorem shaft3_ok {t0 t1 t2 : ℝ} {pI : List Prom} (h0 : t0 < 0) (h1 : t1 < 0) (h2 : 0 ≤ t2) :
    (shaftSub 3 pI).eqn (shaft3E t0 t1 t2) (shaft3E t0 t1 t2) := by
  refine shaft_ok (ti := 0 + t2) (to' := 0 + t0 + t1) ?_ ?_
  · refine Eq.trans (show _ = [t0, t1, t2].foldl Shaft.step (0, 0) by krfl) ?_
    have hn : ¬ (t0 ≥ 0) := not_le.mpr h0
    have hn1 : ¬ (t1 ≥ 0) := not_le.mpr h1
    simp only [List.foldl_cons, List.foldl_nil, Shaft.step, if_neg hn, if_neg hn1, if_pos h2]
  · intro x hx
    fin_cases hx <;> krfl

/-- Performance of two nozzles and one burner. -/
noncomputable def perf2E (p2 p3 drag f0 f1 w : ℝ) : Env := Env.ofTable
  [("Pt2", p2), ("Pt3", p3), ("ram_drag", drag), ("power", 1), ("Fg_0", f0), ("Fg_1", f1), ("Wfuel_0", w),
   ("OPR", p3 / p2), ("Fg", 0 + f0 + f1), ("Fn", 0 + f0 + f1 - drag),
   ("TSFC", (0 + w) * 3600 / (0 + f0 + f1 - drag + 1e-10)), ("PSFC", (0 + w) * 3600 / 1), ("Wfuel", 0 + w)] []

theorem perf2_ok (p2 p3 drag f0 f1 w : ℝ) :
    (performanceSub 2 1).eqn (perf2E p2 p3 drag f0 f1 w) (perf2E p2 p3 drag f0 f1 w) :=
  ⟨by krfl, by krfl, by krfl, by krfl, by krfl, by krfl⟩

/-- The air of the start: Mach 1, total temperature 1.5, total pressure 14, a flow of 3. -/
noncomputable def s0 : Stn := ⟨1, 14, 7.33889, 3, 0⟩

noncomputable def flightE (dTs rho : ℝ) : Env :=
  Env.ofTable ([("alt", 18000), ("dTs", dTs), ("MN", 1), ("W", 3), ("balance.Tt", 1.5), ("balance.Pt", 14),
    ("ambient.Ps", 7.33889), ("ambient.Ts", 1), ("ambient.rhos", rho)]
    ++ (stationRows ("fs." ++ "totals.") s0.tot ++ stationRows "Fl_O:tot:" s0.tot
      ++ stationRows ("fs." ++ "exit_static.") s0.sta ++ staticRows ("fs." ++ "exit_static.") s0.mov 3
      ++ stationRows "Fl_O:stat:" s0.sta ++ staticRows "Fl_O:stat:" s0.mov 3)) []

theorem flight_eq (dTs rho : ℝ) : C49Example.flight dTs rho = flightE dTs rho := by
  have h1 : C49Example.tot = s0.tot := by
    simp only [C49Example.tot, Stn.tot, s0, Stn.h, C58Example.at_]; norm_num
  have h2 : C49Example.sta = s0.sta := by
    simp only [C49Example.sta, Stn.sta, s0, C58Example.at_]; norm_num
  have h3 : C49Example.mov = s0.mov := by
    simp only [C49Example.mov, Stn.mov, s0]; norm_num
  simp only [C49Example.flight, C49Example.rows, h1, h2, h3]
  rfl

theorem flight_converged : ∃ dTs rho, (flightConditions unitGas none).Converged (flightE dTs rho) := by
  obtain ⟨a, b, h⟩ := C49Example.flight_converged
  exact ⟨a, b, flight_eq a b ▸ h⟩

/-- No fuel is no composition. -/
theorem fuelAir_zero : fuelAir 0 = 0 := by
  funext k
  simp [fuelAir]

end Bench
end PyCycle.OM
