import Verif.Bench.Assembly
import Verif.Proofs.GearedFanNames

/-! # Bench: the elements of the geared turbofan -/

namespace PyCycle.OM
namespace Bench
open C48Example (unitGas)
open C54Example (cmap tmap)
open C58Example (at_)

/-! ## Bleeds -/

set_option maxHeartbeats 4000000 in
theorem hpcInEx_converged {a b : Stn} {Ti pr eff f fP fw : ℝ} (o : b.Ok) (hpr : 1 < pr)
    (hW : b.W = a.W - a.W * f - a.W * f - a.W * f) (hC : b.C = a.C)
    (hP : b.P = pr * a.P) (hh : b.h = (Ti - a.h) / eff + a.h) :
    (compressor unitGas cmap ["bld_inlet", "bld_exit", "cust"] false true).Converged
      (hpcN ["bld_inlet", "bld_exit", "cust"] a b Ti pr eff f fP fw) := by
  hpc_converged_body N3.hpcNames

set_option maxHeartbeats 4000000 in
theorem turbInEx_converged {a b : Stn} {Ti pr eff f g : ℝ} {c : Cool} (o : b.Ok) (hc : c.src.S = 0)
    (hC : a.C = fuelAir f) (hC' : b.C = fuelAir g) (hW : b.W = a.W + c.W + c.W) (hP : b.P = a.P / pr)
    (hh : b.h = a.W / b.W * b4 a Ti eff + c.W / b.W * (c.src.h * (1 - eff) + c.Ti * eff)
      + c.W / b.W * (c.src.h * (1 - eff) + c.Ti * eff))
    (hf : 1 + f ≠ 0) (hg : g = a.W / (1 + f) * f / (a.W / (1 + f) + c.W + c.W)) :
    (turbine unitGas (fun _ => unitGas) tmap (.tab 1) ["bld_inlet", "bld_exit"] false true).Converged
      (turbN ["bld_inlet", "bld_exit"] a b Ti pr eff c) := by
  turb_converged_body N3.turbNames

set_option maxHeartbeats 1000000 in
theorem tapInEx_converged {a b : Stn} {f : ℝ} (d : Bool) (o : b.Ok) (hq : b.q = a.q) (hP : b.P = a.P) (hC : b.C = a.C)
    (hW : b.W = a.W - a.W * f - a.W * f) :
    (bleedOut unitGas ["bld_inlet", "bld_exit"] d true).Converged (tapN ["bld_inlet", "bld_exit"] a b f) := by
  tap2_converged_body N3.bld3Names

set_option maxHeartbeats 1000000 in
theorem tapSbv_converged {a b : Stn} {f : ℝ} (d : Bool) (o : b.Ok) (hq : b.q = a.q) (hP : b.P = a.P) (hC : b.C = a.C)
    (hW : b.W = a.W - a.W * f) : (bleedOut unitGas ["sbv"] d true).Converged (tapN ["sbv"] a b f) := by
  tap1_converged_body N3.bld25Names

/-! ## A duct whose loss goes with the Mach number, here 1 -/

noncomputable def ductME (a b : Stn) (dP : ℝ) : Env := Env.ofTable
  ([("dPqP", dP), ("s_dPqP", dP), ("MN", 1), ("area", b.W / b.q), ("Q_dot", 0), ("p_loss.Pt_out", b.P), ("q_calc.ht_out", b.h)]
    ++ a.inRows ++ b.outRows) (a.inComp ++ b.outComp)

/-- The loss at Mach 1. -/
theorem lossMap_one (d : Bool) (x : Duct.I → ℝ) (h : x .MN_in = 1) : Duct.lossMap d 2 x = x .given := by
  cases d <;> simp [Duct.lossMap, h]

set_option maxHeartbeats 1000000 in
theorem ductM_converged {a b : Stn} {dP : ℝ} (d : Bool) (o : b.Ok) (hq : b.q = a.q) (hW : b.W = a.W) (hC : b.C = a.C)
    (hP : b.P = a.P * (1 - dP)) : (duct unitGas d true 2 true).Converged (ductME a b dP) := by
  obtain ⟨q, P, Ps, W, C⟩ := a
  obtain ⟨q', P', Ps', W', C'⟩ := b
  simp only at hq hW hP hC
  subst q' W' C'
  have nd : ∀ d, ((duct gas0 d true 0 true).wiring.subs.map (·.name)).Nodup := by decide +kernel
  refine Group.converged_quick (show _ = (duct gas0 d true 0 true).wiring by cases d <;> rfl) (nd d) ?_
  intro s hs
  cases d <;> (
    simp only [duct, if_true, Bool.false_eq_true, if_false, List.cons_append, List.nil_append, List.mem_cons,
      List.not_mem_nil, or_false] at hs
    rcases hs with rfl | rfl | rfl | rfl | rfl | rfl
    · exact trivial
    · refine Eq.trans ?_ (lossMap_one _ _ ?_).symm <;> krfl
    · kshow P' = P * (1 - dP)
      exact hP
    · kshow q ^ 2 * 1.5 = q ^ 2 * 1.5 + 0 / W
      rw [zero_div, add_zero]
    · total_of (Stn.mk q P' Ps' W C).tot
    · outlet_of (Stn.mk q P' Ps' W C) o)

/-! ## A gearbox at speed 1 on both sides, driven by the torque `t` of the machine behind it -/

noncomputable def gearE (t eff : ℝ) : Env := Env.ofTable
  [("N_in", 1), ("N_out", 1), ("eff", eff), ("gear_ratio", 1), ("trq_base", -t), ("trq_out", -t), ("trq_in", eff * t)] []

theorem gear_ok (t eff : ℝ) (pI : List Prom) (d : Bool) : (gearboxSub d pI).eqn (gearE t eff) (gearE t eff) := by
  intro r
  cases d <;> cases r
  · kshow (1 : ℝ) - 1 * 1 = 0
    ring
  · kshow - -t * eff * 1 - eff * t = 0
    ring
  · kshow -t - -t = 0
    ring
  · kshow (1 : ℝ) / 1 - 1 = 0
    ring
  · kshow - -t * eff * 1 / 1 - eff * t = 0
    ring
  · kshow -t - -t = 0
    ring

/-- Ideal velocities of two throats. -/
noncomputable def extE (v w : ℝ) : Env := Env.ofTable
  [("core_V_ideal", v), ("core_Cv", 1), ("byp_V_ideal", w), ("byp_Cv", 1), ("ER", v * 1 / (w * 1))] []

theorem ext_ok (v w : ℝ) : extRatioSub.eqn (extE v w) (extE v w) := by
  kshow v * 1 / (w * 1) = v * 1 / (w * 1)
  rfl

end Bench
end PyCycle.OM
