import Verif.Proofs.Ifaces
import Verif.Props.C26_Shaft

/-! # What the elements of a solved engine do, under the engine's names -/

namespace PyCycle

/-- Powers at the ports of a shaft: torques are made from powers with 5252.11, powers from torques with `2π/60/550`. -/
theorem Shaft.powers_of_ports {n : ℕ} (x : Shaft.I n → ℝ) (P : Fin n → ℝ) (hN : 0 < x .Nmech)
    (ht : ∀ k, x (.trq k) * x .Nmech = 5252.11 * P k) :
    Shaft.compute x .pwr_in_real = 5252.11 * (2 * Real.pi / 60 / 550) * ((1 - x .fracLoss) * ∑ k, max (P k) 0)
    ∧ Shaft.compute x .pwr_out_real = 5252.11 * (2 * Real.pi / 60 / 550) * (∑ k, min (P k) 0) - x .HPX := by
  obtain ⟨q1, q2, -, q4, q5, -⟩ := Shaft.C26_powers x
  obtain ⟨r1, r2⟩ := Shaft.C26_ports x
  have h0 : (0 : ℝ) < 5252.11 := by norm_num
  have s1 : (∑ k, max (x (.trq k)) 0) * x .Nmech = 5252.11 * ∑ k, max (P k) 0 := by
    rw [Finset.sum_mul, Finset.mul_sum]
    refine Finset.sum_congr rfl fun k _ => ?_
    rw [max_mul_of_nonneg _ _ hN.le, zero_mul, ht, mul_max_of_nonneg _ _ h0.le, mul_zero]
  have s2 : (∑ k, min (x (.trq k)) 0) * x .Nmech = 5252.11 * ∑ k, min (P k) 0 := by
    rw [Finset.sum_mul, Finset.mul_sum]
    refine Finset.sum_congr rfl fun k _ => ?_
    rw [min_mul_of_nonneg _ _ hN.le, zero_mul, ht, mul_min_of_nonneg _ _ h0.le, mul_zero]
  rw [q4, q5]
  rw [r1] at q1
  rw [r2] at q2
  constructor
  · linear_combination (1 - x .fracLoss) * ((1 / 550 : ℝ) * q1 + (2 * Real.pi / 60 / 550) * s1)
  · linear_combination (1 / 550 : ℝ) * q2 + (2 * Real.pi / 60 / 550) * s2

namespace OM

/-- Port `b` of an element gets totals and flow of port `a`. -/
def Env.Joined (E : Env) (a b : String × String) : Prop := ∀ v ∈ portVars,
  E.num (b.1 ++ "." ++ (b.2 ++ ":" ++ v)) = E.num (a.1 ++ "." ++ (a.2 ++ ":" ++ v))
  ∧ E.vec (b.1 ++ "." ++ (b.2 ++ ":" ++ v)) = E.vec (a.1 ++ "." ++ (a.2 ++ ":" ++ v))

theorem Env.Joined.P {E : Env} {a b : String × String} (h : E.Joined a b) :
    E.num (b.1 ++ "." ++ (b.2 ++ ":" ++ "tot:P")) = E.num (a.1 ++ "." ++ (a.2 ++ ":" ++ "tot:P")) := (h _ (by decide)).1
theorem Env.Joined.T {E : Env} {a b : String × String} (h : E.Joined a b) :
    E.num (b.1 ++ "." ++ (b.2 ++ ":" ++ "tot:T")) = E.num (a.1 ++ "." ++ (a.2 ++ ":" ++ "tot:T")) := (h _ (by decide)).1
theorem Env.Joined.h {E : Env} {a b : String × String} (h : E.Joined a b) :
    E.num (b.1 ++ "." ++ (b.2 ++ ":" ++ "tot:h")) = E.num (a.1 ++ "." ++ (a.2 ++ ":" ++ "tot:h")) := (h _ (by decide)).1
theorem Env.Joined.W {E : Env} {a b : String × String} (h : E.Joined a b) :
    E.num (b.1 ++ "." ++ (b.2 ++ ":" ++ "stat:W")) = E.num (a.1 ++ "." ++ (a.2 ++ ":" ++ "stat:W")) := (h _ (by decide)).1
theorem Env.Joined.C {E : Env} {a b : String × String} (h : E.Joined a b) :
    E.vec (b.1 ++ "." ++ (b.2 ++ ":" ++ "tot:composition")) = E.vec (a.1 ++ "." ++ (a.2 ++ ":" ++ "tot:composition")) :=
  (h _ (by decide)).2

namespace Cycle.Solved
variable {c : Cycle} {E : Env} (h : c.Solved E)
include h

theorem joined {a b : String × String} {s : Bool} (hl : ({ src := a, tgt := b, stat := s } : Link) ∈ c.links) :
    E.Joined a b := fun _ hv => h.handed (l := { src := a, tgt := b, stat := s }) hl rfl hv fun _ => rfl

variable {x : String} {gas : (ℕ → ℝ) → TPGas} {d : Bool}

/-- A duct without loss map. -/
theorem duct_laws {e : ℝ} (hm : ⟨x, duct gas d true e false, [], []⟩ ∈ c.members) {y : String × String}
    (j : E.Joined y (x, "Fl_I")) :
    E.num (x ++ "." ++ "Fl_O:tot:P") = E.num (y.1 ++ "." ++ (y.2 ++ ":" ++ "tot:P")) * (1 - E.num (x ++ "." ++ "dPqP"))
    ∧ E.num (x ++ "." ++ "Fl_O:stat:W") = E.num (y.1 ++ "." ++ (y.2 ++ ":" ++ "stat:W"))
    ∧ E.vec (x ++ "." ++ "Fl_O:tot:composition") = E.vec (y.1 ++ "." ++ (y.2 ++ ":" ++ "tot:composition")) := by
  have hc := h.member_plain hm rfl rfl (duct_closed _ _ _ _ _)
  obtain ⟨h1, -, h3, -, h5, -⟩ := C50_duct gas d true e false _ hc
  exact ⟨h1.trans (congrArg (· * _) j.P), h5.trans j.W, h3.trans j.C⟩

/-- A bleed extraction. -/
theorem bleedOut_laws {bs : List String} (hb : BleedNames bleedTails bleedOutReserved bs)
    (hm : ⟨x, bleedOut gas bs d true, [], []⟩ ∈ c.members) {y : String × String} (j : E.Joined y (x, "Fl_I")) :
    E.num (x ++ "." ++ "Fl_O:tot:P") = E.num (y.1 ++ "." ++ (y.2 ++ ":" ++ "tot:P"))
    ∧ E.num (x ++ "." ++ "Fl_O:stat:W") + (bs.map fun b => E.num (x ++ "." ++ (b ++ ":stat:W"))).sum
        = E.num (y.1 ++ "." ++ (y.2 ++ ":" ++ "stat:W"))
    ∧ (∀ b ∈ bs, E.num (x ++ "." ++ (b ++ ":stat:W"))
        = E.num (x ++ "." ++ (b ++ ":frac_W")) * E.num (y.1 ++ "." ++ (y.2 ++ ":" ++ "stat:W")))
    ∧ E.vec (x ++ "." ++ "Fl_O:tot:composition") = E.vec (y.1 ++ "." ++ (y.2 ++ ":" ++ "tot:composition")) := by
  have hc := h.member_plain hm rfl rfl (bleedOut_closed _ _ _ _)
  obtain ⟨h1, h2, -, h4, h5, -⟩ := C53_bleed_out gas hb d true _ hc
  exact ⟨h4.trans j.P, h2.trans j.W, fun b hb => (h1 b hb).1.trans (congrArg (_ * ·) j.W), h5.trans j.C⟩

/-- A compressor on a spool. -/
theorem compressor_laws {mc : Map.CMap} {bs : List String} (hb : BleedNames compressorTails compressorReserved bs)
    {N : String} (hm : ⟨x, compressor gas mc bs d true, [.as "Nmech" N], []⟩ ∈ c.members) :
    CompressorLaws (gas ((E.of ⟨x, compressor gas mc bs d true, [.as "Nmech" N], []⟩).vec "Fl_I:tot:composition")) bs
      (E.of ⟨x, compressor gas mc bs d true, [.as "Nmech" N], []⟩) := by
  have hc := h.member_as hm rfl rfl (((C55_interface gas mc hb d true).2 _).mpr (Or.inl (by simp [compressorInputs])))
    (compressor_closed _ _ _ _ _)
  exact (C55_compressor gas mc hb d true _ hc).1

/-- A turbine on a spool. -/
theorem turbine_laws {gb : String → (ℕ → ℝ) → TPGas} {mt : Map.TMap} {ba : BleedAdder} {bs : List String}
    (hb : BleedNames turbineTails turbineReserved bs) {N : String}
    (hm : ⟨x, turbine gas gb mt ba bs d true, [.as "Nmech" N], []⟩ ∈ c.members) :
    let V := E.of ⟨x, turbine gas gb mt ba bs d true, [.as "Nmech" N], []⟩
    (turbine gas gb mt ba bs d true).Converged V
    ∧ TurbineLaws (gas (V.vec "Fl_I:tot:composition")) (gas (V.vec "Fl_O:tot:composition"))
      (fun b => gb b (V.vec (b ++ ":tot:composition"))) bs V := by
  have hc := h.member_as hm rfl rfl (((C56_interface gas gb mt ba hb d true).2 _).mpr (Or.inl (by simp [turbineInputs])))
    (turbine_closed _ _ _ _ _ _ _)
  exact ⟨hc, (C56_turbine gas gb mt ba hb d true _ hc).1⟩

/-- A nozzle with velocity coefficient. -/
theorem nozzle_laws {k : Noz.NozzType} (hm : ⟨x, nozzle gas k .Cv, [], []⟩ ∈ c.members) {y : String × String}
    (j : E.Joined y (x, "Fl_I")) :
    E.num (x ++ "." ++ "Fl_O:tot:P") = E.num (y.1 ++ "." ++ (y.2 ++ ":" ++ "tot:P")) * (1 - E.num (x ++ "." ++ "dPqP"))
    ∧ E.num (x ++ "." ++ "Fl_O:stat:W") = E.num (y.1 ++ "." ++ (y.2 ++ ":" ++ "stat:W"))
    ∧ E.num (x ++ "." ++ "PR") * E.num (x ++ "." ++ "Ps_exhaust") = E.num (x ++ "." ++ "Fl_O:tot:P")
    ∧ E.num (x ++ "." ++ "Fg") = E.num (x ++ "." ++ "Fl_O:stat:W") * E.num (x ++ "." ++ "Fl_O:stat:V") / 32.174
          * (E.num (x ++ "." ++ "Cv") * E.num (x ++ "." ++ "perf_calcs.Cang") * E.num (x ++ "." ++ "perf_calcs.CmixCorr"))
        + (E.num (x ++ "." ++ "Fl_O:stat:P") - E.num (x ++ "." ++ "Ps_exhaust")) * E.num (x ++ "." ++ "Fl_O:stat:area") := by
  have hc := h.member_plain hm rfl rfl (nozzle_closed _ _ _)
  obtain ⟨-, -, p1, p2, -⟩ := C52_pressure gas k .Cv _ hc
  obtain ⟨-, -, -, -, p4, -⟩ := C52_exit gas k .Cv _ hc
  have p5 := (C52_thrust gas k .Cv _ hc).2.2 rfl
  exact ⟨p2.trans (congrArg (· * _) j.P), p4.trans j.W, p1.trans p2.symm, p5⟩

end Cycle.Solved
end OM
end PyCycle
