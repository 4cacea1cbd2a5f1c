import Verif.Proofs.Glue
import Verif.Proofs.TurbojetNames

/-! # C58: the stations of a solved engine

The numbers are those of a gas whose properties do not depend on pressure, at Mach 1 wherever the geometry is free. The
same values solve the engine in both modes. -/

namespace PyCycle.OM

namespace C58Example

/-- A gas state of temperature `T` and pressure `P`. -/
noncomputable def at_ (T P : ℝ) : TG.Station := ⟨T, P, T, 0, 1, 1, 1, 1, 1⟩
/-- A flow `W` at Mach number `M` where the speed of sound is `q`. -/
noncomputable def move (q M W : ℝ) : StaticState := ⟨M, W / (q * M), q * M, q⟩

theorem move_ok (q M W P : ℝ) (hq : 0 < q) (hM : 1e-16 ≤ M) (hW : W ≠ 0) :
    IsStatic ((at_ (q ^ 2) P).psIn (q ^ 2 * (1 + M ^ 2 / 2)) W) (move q M W)
    ∧ 0 < (at_ (q ^ 2) P).gamma * (at_ (q ^ 2) P).R * (at_ (q ^ 2) P).T ∧ 0 < (at_ (q ^ 2) P).rho
    ∧ q ^ 2 * (1 + M ^ 2 / 2) ≠ 0 ∧ (1e-16 : ℝ) ≤ (move q M W).MN ∧ (move q M W).area ≠ 0 := by
  have hM0 : 0 < M := lt_of_lt_of_le (by norm_num) hM
  refine ⟨⟨?_, ?_, ?_, ?_⟩, ?_, ?_, ?_, hM, ?_⟩
  · simp [TG.Station.psIn, at_, move, Real.sqrt_sq hq.le]
  · simp [move, mul_comm]
  · simp only [TG.Station.psIn, at_, move]; field_simp
  · simp only [TG.Station.psIn, at_, move]; ring
  · simp only [at_]; positivity
  · simp [at_]
  · positivity
  · simp only [move]; positivity

/-- Totals and statics after the inlet, compressor, burner and turbine. -/
noncomputable def t1 : TG.Station := at_ 1.5 7
noncomputable def s1 : TG.Station := at_ 1 5
noncomputable def m1 : StaticState := ⟨1, 7, 1, 1⟩
noncomputable def t3 : TG.Station := at_ 13.5 35
noncomputable def s3 : TG.Station := at_ 9 20
noncomputable def m3 : StaticState := ⟨1, 7 / 3, 3, 3⟩
noncomputable def t4 : TG.Station := at_ 24 28
noncomputable def s4 : TG.Station := at_ 16 15
noncomputable def m4 : StaticState := ⟨1, 2, 4, 4⟩
noncomputable def t5 : TG.Station := at_ 13.5 14
noncomputable def s5 : TG.Station := at_ 9 8
noncomputable def m5 : StaticState := ⟨1, 8 / 3, 3, 3⟩
/-- In the nozzle: total, throat and exit. -/
noncomputable def t8 : TG.Station := at_ 13.5 11.2
noncomputable def s8 : TG.Station := at_ 9 9
noncomputable def s9 : TG.Station := at_ (1521 / 289) 7.33889
noncomputable def m9 : StaticState := ⟨23 / 13, 136 / 69, 69 / 17, 39 / 17⟩

theorem ok_of {t : TG.Station} {s : StaticState} {q M W P ht : ℝ} (e1 : t = at_ (q ^ 2) P) (e2 : s = move q M W)
    (e3 : ht = q ^ 2 * (1 + M ^ 2 / 2)) (hq : 0 < q) (hM : 1e-16 ≤ M) (hW : W ≠ 0) :
    IsStatic (t.psIn ht W) s ∧ 0 < t.gamma * t.R * t.T ∧ 0 < t.rho ∧ ht ≠ 0 ∧ (1e-16 : ℝ) ≤ s.MN ∧ s.area ≠ 0 := by
  subst e1 e2 e3; exact move_ok q M W P hq hM hW

theorem ok1 : IsStatic (s1.psIn 1.5 7) m1 ∧ 0 < s1.gamma * s1.R * s1.T ∧ 0 < s1.rho ∧ (1.5 : ℝ) ≠ 0
    ∧ (1e-16 : ℝ) ≤ m1.MN ∧ m1.area ≠ 0 :=
  ok_of (q := 1) (M := 1) (P := 5) (by norm_num [s1]) (by norm_num [m1, move]) (by norm_num) (by norm_num) (by norm_num)
    (by norm_num)
theorem ok3 : IsStatic (s3.psIn 13.5 7) m3 ∧ 0 < s3.gamma * s3.R * s3.T ∧ 0 < s3.rho ∧ (13.5 : ℝ) ≠ 0
    ∧ (1e-16 : ℝ) ≤ m3.MN ∧ m3.area ≠ 0 :=
  ok_of (q := 3) (M := 1) (P := 20) (by norm_num [s3]) (by norm_num [m3, move]) (by norm_num) (by norm_num) (by norm_num)
    (by norm_num)
theorem ok4 : IsStatic (s4.psIn 24 8) m4 ∧ 0 < s4.gamma * s4.R * s4.T ∧ 0 < s4.rho ∧ (24 : ℝ) ≠ 0
    ∧ (1e-16 : ℝ) ≤ m4.MN ∧ m4.area ≠ 0 :=
  ok_of (q := 4) (M := 1) (P := 15) (by norm_num [s4]) (by norm_num [m4, move]) (by norm_num) (by norm_num) (by norm_num)
    (by norm_num)
theorem ok5 : IsStatic (s5.psIn 13.5 8) m5 ∧ 0 < s5.gamma * s5.R * s5.T ∧ 0 < s5.rho ∧ (13.5 : ℝ) ≠ 0
    ∧ (1e-16 : ℝ) ≤ m5.MN ∧ m5.area ≠ 0 :=
  ok_of (q := 3) (M := 1) (P := 8) (by norm_num [s5]) (by norm_num [m5, move]) (by norm_num) (by norm_num) (by norm_num)
    (by norm_num)
theorem ok8 : IsStatic (s8.psIn 13.5 8) m5 ∧ 0 < s8.gamma * s8.R * s8.T ∧ 0 < s8.rho ∧ (13.5 : ℝ) ≠ 0
    ∧ (1e-16 : ℝ) ≤ m5.MN ∧ m5.area ≠ 0 :=
  ok_of (q := 3) (M := 1) (P := 9) (by norm_num [s8]) (by norm_num [m5, move]) (by norm_num) (by norm_num) (by norm_num)
    (by norm_num)
theorem ok9 : IsStatic (s9.psIn 13.5 8) m9 ∧ 0 < s9.gamma * s9.R * s9.T ∧ 0 < s9.rho ∧ (13.5 : ℝ) ≠ 0
    ∧ (1e-16 : ℝ) ≤ m9.MN ∧ m9.area ≠ 0 :=
  ok_of (q := 39 / 17) (M := 23 / 13) (P := 7.33889) (by norm_num [s9]) (by norm_num [m9, move]) (by norm_num)
    (by norm_num) (by norm_num) (by norm_num)

/-- The composition of the burnt gas: fuel per air. -/
noncomputable def mixed : ℕ → ℝ := fun k => if k = 0 then 1 / 7 else 0

/-- The power the turbine gives to the compressor. -/
noncomputable def hp : ℝ := 84 * 1.4148532
/-- Gross thrust. -/
noncomputable def fg : ℝ := 8 / 32.174 * (69 / 17)
/-- Net thrust. -/
noncomputable def fn : ℝ := fg - 7 / 32.174

end C58Example
end PyCycle.OM
