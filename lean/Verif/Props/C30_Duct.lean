import Verif.Model.Duct
import Verif.Lemmas.HasD

/-! # C30: duct loss round trip and energy balance -/

namespace PyCycle.Duct

/-- **C30 (round trip).** A duct sized at design, run off-design with the resulting scalar and
at the design Mach number, has the design loss; at any other Mach number the loss scales with
`(MN/MN_design)^expMN`. -/
theorem C30_round_trip (expMN : ℝ) (he : 1e-10 < expMN) (des off : DuctIn) (hM : 0 < des.MN)
    (hMo : 0 ≤ off.MN) (hs : scalar expMN des = some off.s_dPqP) :
    loss false expMN off = des.dPqP * (off.MN / des.MN) ^ expMN
    ∧ (off.MN = des.MN → loss false expMN off = loss true expMN des) := by
  have hpos : 0 < des.MN ^ expMN := Real.rpow_pos_of_pos hM _
  simp only [scalar, gt_iff_lt, if_pos he, lossMap, if_true, Option.some.injEq] at hs
  have h1 : loss false expMN off = des.dPqP * (off.MN / des.MN) ^ expMN := by
    simp only [loss, gt_iff_lt, if_pos he, lossMap, Bool.false_eq_true, if_false, ← hs]
    rw [Real.div_rpow hMo hM.le]; ring
  refine ⟨h1, fun e => ?_⟩
  rw [h1, e, div_self hM.ne', Real.one_rpow, mul_one]
  simp only [loss, gt_iff_lt, if_pos he, if_true]

/-- Without an exponent the loss is the given one, in both modes, and no scalar is produced. -/
theorem C30_no_exponent (design : Bool) (expMN : ℝ) (he : expMN ≤ 1e-10) (d : DuctIn) :
    loss design expMN d = d.dPqP ∧ scalar expMN d = none := by
  simp only [loss, scalar, gt_iff_lt, if_neg (not_lt.mpr he), and_self]

/-- **C30 (pressure and energy).** In every mode total pressure out is `(1 - loss)` times total
pressure in, and the enthalpy flow out is the enthalpy flow in plus the heat. -/
theorem C30_outlet (design : Bool) (expMN : ℝ) (d : DuctIn) (hW : d.W ≠ 0) :
    (outlet design expMN d).1 = (1 - loss design expMN d) * d.Pt
    ∧ d.W * (outlet design expMN d).2 = d.W * d.ht + d.Q_dot := by
  simp only [outlet, ptOut, htOut]
  exact ⟨by ring, by field_simp⟩

/-- **C30 (partials).** All three components have exact partials (positive Mach number, non-zero
flow), for every exponent. -/
theorem C30_partials (design : Bool) (expMN : ℝ) (x : I → ℝ) (hM : 0 < x .MN_in) (p : PI → ℝ)
    (q : QI → ℝ) (hW : q .W_in ≠ 0) :
    ExactPartials (fun x (_ : Unit) => lossMap design expMN x)
        (fun x _ => lossMapJ design expMN x) x
    ∧ ExactPartials (fun x (_ : Unit) => ptOut x) (fun x _ => ptOutJ x) p
    ∧ ExactPartials (fun x (_ : Unit) => htOut x) (fun x _ => htOutJ x) q := by
  refine ⟨?_, ?_, ?_⟩
  · have hp : 0 < x .MN_in ^ expMN := Real.rpow_pos_of_pos hM _
    intro _ i
    cases i <;> cases design <;> simp only [lossMap, lossMapJ, Function.update_of_ne,
      Function.update_self, ne_eq, reduceCtorEq, not_false_eq_true, Bool.false_eq_true, if_false,
      if_true]
    · hd (exact hM.ne') (ring1)
    · have e1 : x .MN_in ^ (-expMN - 1) = 1 / (x .MN_in ^ expMN * x .MN_in) := by
        rw [show -expMN - 1 = -(expMN + 1) by ring, Real.rpow_neg hM.le, Real.rpow_add hM,
          Real.rpow_one, one_div]
      have e2 : x .MN_in ^ (expMN - 1) = x .MN_in ^ expMN / x .MN_in := by
        rw [Real.rpow_sub hM, Real.rpow_one]
      hd (first | exact hM.ne' | exact hp.ne') (rw [e1, e2]; field_simp; try ring1)
    · hd (skip) (ring1)
    · hd (skip) (ring1)
  · intro _ i
    cases i <;> simp only [ptOut, ptOutJ, Function.update_of_ne, Function.update_self, ne_eq,
      reduceCtorEq, not_false_eq_true] <;> hd (skip) (ring1)
  · intro _ i
    cases i <;> simp only [htOut, htOutJ, Function.update_of_ne, Function.update_self, ne_eq,
      reduceCtorEq, not_false_eq_true] <;> hd (exact hW) (fring)

/-- **The default design → off-design connections lose the duct loss.** `default_des_od_conns` does
not list `s_dPqP`, so a Mach-dependent duct wired only by the defaults has no loss off-design,
whatever its design loss. -/
theorem C30_refuted_default_connections (expMN : ℝ) (he : 1e-10 < expMN) (des flow : DuctIn) :
    loss false expMN (defaultOffDesign expMN des flow) = 0 := by
  simp [loss, he, lossMap, defaultOffDesign, defaultTargets]

/-- Non-vacuity: a concrete duct (2 % loss at Mach 0.4, exponent 2) and its off-design run at half
the Mach number, with a quarter of the loss. -/
example : ∃ des off : DuctIn, scalar 2 des = some off.s_dPqP ∧ 0 < des.MN ∧ des.dPqP = 0.02
    ∧ loss false 2 off = 0.005 := by
  refine ⟨{ Pt := 1, ht := 1, W := 1, MN := 0.4, dPqP := 0.02 },
    { Pt := 1, ht := 1, W := 1, MN := 0.2, s_dPqP := 0.125 }, ?_, by norm_num, rfl, ?_⟩
  · simp [scalar, lossMap]; norm_num
  · simp [loss, lossMap]; norm_num

end PyCycle.Duct
