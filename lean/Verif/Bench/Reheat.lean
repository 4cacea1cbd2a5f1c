import Verif.Bench.Mixed
import Verif.Proofs.AfterburnerNames

/-! # Bench: a compressor with two bleeds, a convergent-divergent nozzle with a velocity coefficient -/

namespace PyCycle.OM
namespace Bench
open C48Example (unitGas)
open C54Example (cmap)
open C58Example (at_)

/-- Power with two equal bleeds. -/
noncomputable def comp2Power (a b : Stn) (f fw : ℝ) : ℝ :=
  a.W * (a.h - b.h) * 1.4148532 - a.W * f * (a.h + fw * (b.h - a.h) - b.h) * 1.4148532
    - a.W * f * (a.h + fw * (b.h - a.h) - b.h) * 1.4148532

noncomputable def comp2E (a b : Stn) (Ti pr eff f fP fw : ℝ) : Env := Env.ofTable
  (compRows a b Ti pr eff (comp2Power a b f fw) ++ a.inRows ++ b.outRows ++ bleedRows a b "cool1" f fP fw
    ++ bleedRows a b "cool2" f fP fw)
  (a.inComp ++ [("ideal_flow.flow:composition", a.C)] ++ b.outComp
    ++ [("cool1:tot:composition", a.C), ("cool2:tot:composition", a.C)])

set_option hygiene false in
local macro "comp2_converged_body" : tactic => `(tactic| (
  obtain ⟨q, P, Ps, W, C⟩ := a
  obtain ⟨q', P', Ps', W', C'⟩ := b
  simp only [Stn.h] at hW hP hC hh
  subst C'
  refine Group.converged_quick rfl (C55_interface unitGas cmap ABTJ.compNames _ true).1.1.1 ?_
  intro s hs
  simp only [compressor, compressorHead, Bool.false_eq_true, if_false, if_true, List.cons_append, List.nil_append,
    List.mem_cons, List.not_mem_nil, or_false, List.map_nil, List.map_cons] at hs
  rcases hs with rfl | rfl | rfl | rfl | rfl | rfl | rfl | rfl | rfl | rfl | rfl | rfl
  · exact trivial
  · exact ⟨by krfl, by krfl⟩
  · refine ⟨cmapE (nc ⟨q, P, Ps, W, C⟩) (wc ⟨q, P, Ps, W, C⟩) pr eff, cmap_converged _ _ _ _ _, ?_, ?_⟩
    · intro n hn
      have := (C54_compressor_interface cmap _).2 n |>.mp hn
      simp only [compressorMapInputs, if_true, Bool.false_eq_true, if_false, List.cons_append, List.nil_append] at this
      fin_cases this <;> exact ⟨by krfl, by krfl⟩
    · intro n hn
      have := cmap_outs _ hn
      fin_cases this <;> exact ⟨by krfl, by krfl⟩
  · kshow P' = pr * P
    exact hP
  · total_of (at_ Ti P')
  · kshow q' ^ 2 * 1.5 = (Ti - q ^ 2 * 1.5) / eff + q ^ 2 * 1.5
    exact hh
  · total_of (Stn.mk q' P' Ps' W' C).tot
  · kshow (1 : ℝ) = 1 * Real.log pr / (1 * Real.log pr + 0 - 0)
    exact eff_poly_one hpr
  · refine ⟨?_, by krfl, ?_, fun k => ?_⟩
    · kshow W' = W - W * f - W * f
      exact hW
    · kshow 5252.11 * comp2Power ⟨q, P, Ps, W, C⟩ ⟨q', P', Ps', W', C⟩ f fw
        = 5252.11 * comp2Power ⟨q, P, Ps, W, C⟩ ⟨q', P', Ps', W', C⟩ f fw / 1
      rw [div_one]
    · fin_cases k <;> exact ⟨by krfl, by krfl, by krfl⟩
  · total_of (tapped ⟨q, P, Ps, W, C⟩ ⟨q', P', Ps', W', C⟩ fP fw)
  · total_of (tapped ⟨q, P, Ps, W, C⟩ ⟨q', P', Ps', W', C⟩ fP fw)
  · outlet_of (Stn.mk q' P' Ps' W' C) o))

set_option maxHeartbeats 4000000 in
private theorem comp2_converged_f {a b : Stn} {Ti pr eff f fP fw : ℝ} (o : b.Ok) (hpr : 1 < pr)
    (hW : b.W = a.W - a.W * f - a.W * f) (hC : b.C = a.C)
    (hP : b.P = pr * a.P) (hh : b.h = (Ti - a.h) / eff + a.h) :
    (compressor unitGas cmap ["cool1", "cool2"] false true).Converged (comp2E a b Ti pr eff f fP fw) := by
  comp2_converged_body

set_option maxHeartbeats 4000000 in
private theorem comp2_converged_t {a b : Stn} {Ti pr eff f fP fw : ℝ} (o : b.Ok) (hpr : 1 < pr)
    (hW : b.W = a.W - a.W * f - a.W * f) (hC : b.C = a.C)
    (hP : b.P = pr * a.P) (hh : b.h = (Ti - a.h) / eff + a.h) :
    (compressor unitGas cmap ["cool1", "cool2"] true true).Converged (comp2E a b Ti pr eff f fP fw) := by
  comp2_converged_body

theorem comp2_converged {a b : Stn} {Ti pr eff f fP fw : ℝ} (d : Bool) (o : b.Ok) (hpr : 1 < pr)
    (hW : b.W = a.W - a.W * f - a.W * f) (hC : b.C = a.C)
    (hP : b.P = pr * a.P) (hh : b.h = (Ti - a.h) / eff + a.h) :
    (compressor unitGas cmap ["cool1", "cool2"] d true).Converged (comp2E a b Ti pr eff f fP fw) := by
  cases d
  · exact comp2_converged_f o hpr hW hC hP hh
  · exact comp2_converged_t o hpr hW hC hP hh

/-! ## Convergent-divergent nozzle with a velocity coefficient -/

/-- Gross thrust, with coefficients 1: the exit is at ambient pressure. -/
noncomputable def fgCd (t : Stn) (p : ℝ) : ℝ :=
  t.W / 32.174 * (13 / 17 * t.q * (23 / 13)) * 1 * 1 * 1 + (p - p) * (farMov t).area

noncomputable def nozzCdE (a t : Stn) (dP p : ℝ) : Env := Env.ofTable
  ([("Ps_exhaust", p), ("dPqP", dP), ("Cv", 1), ("perf_calcs.Cang", 1), ("perf_calcs.CmixCorr", 1), ("PR", t.P / p),
    ("Ps_calc", p), ("press_calcs.Pt_th", t.P), ("mach_choked.MN", 1), ("mux.choked", 1), ("Throat:stat:S", 0),
    ("Fl_O:stat:S", 0), ("perf_calcs.Fg_ideal", t.W / 32.174 * (13 / 17 * t.q * (23 / 13))), ("Fg", fgCd t p)]
    ++ a.inRows
    ++ stationRows "throat_total." t.tot ++ stationRows "Fl_O:tot:" t.tot
    ++ stationRows "staticMN." t.sta ++ stationRows "staticMN.flow:" t.sta
    ++ staticRows "staticMN." t.mov t.W ++ staticRows "staticMN.flow:" t.mov t.W
    ++ stationRows "staticPs." (far t p) ++ stationRows "staticPs.flow:" (far t p)
    ++ staticRows "staticPs." (farMov t) t.W ++ staticRows "staticPs.flow:" (farMov t) t.W
    ++ stationRows "ideal_flow." (far t p) ++ stationRows "ideal_flow.flow:" (far t p)
    ++ staticRows "ideal_flow." (farMov t) t.W ++ staticRows "ideal_flow.flow:" (farMov t) t.W
    ++ stationRows "Throat:stat:" t.sta ++ staticRows "Throat:stat:" t.mov t.W
    ++ stationRows "Fl_O:stat:" (far t p) ++ staticRows "Fl_O:stat:" (farMov t) t.W)
  (a.inComp ++ t.outComp)

set_option maxHeartbeats 2000000 in
theorem nozzCd_converged {a t : Stn} {dP p : ℝ} (o : t.Ok) (hq : t.q = a.q) (hW : t.W = a.W) (hC : t.C = a.C)
    (hP : t.P = a.P * (1 - dP)) (hp : 0 < p) (hPR : 1.000001 * p ≤ t.P) :
    (nozzle unitGas .CD .Cv).Converged (nozzCdE a t dP p) := by
  obtain ⟨q, P, Ps, W, C⟩ := a
  obtain ⟨q', P', Ps', W', C'⟩ := t
  simp only at hq hW hP hC hPR
  subst q' W' C'
  have hP' : 0 < P' := lt_of_lt_of_le (by positivity) hPR
  refine Group.converged_quick rfl (C52_interface unitGas .CD .Cv).1.1.1 ?_
  intro s hs'
  simp only [nozzle, List.mem_cons, List.not_mem_nil, or_false] at hs'
  rcases hs' with rfl | rfl | rfl | rfl | rfl | rfl | rfl | rfl | rfl | rfl
  · kshow (1 : ℝ) = 1
    rfl
  · exact trivial
  · kshow (1.000001 : ℝ) ≤ P' / p ∧ p - p = 0
    exact ⟨by rw [le_div_iff₀ hp]; exact hPR, sub_self _⟩
  · kshow P' = P * (1 - dP) ∧ p = P * (1 - dP) / (P' / p)
    refine ⟨hP, ?_⟩
    rw [← hP]
    field_simp
  · total_of (Stn.mk q P' Ps' W C).tot
  · static_of (Stn.sta ⟨q, P', Ps', W, C⟩) (Stn.mov ⟨q, P', Ps', W, C⟩) (Stn.h ⟨q, P', Ps', W, C⟩) W
      (fun v => if v = .guessPt then P' else 1) o.static
  · static_of (far ⟨q, P', Ps', W, C⟩ p) (farMov ⟨q, P', Ps', W, C⟩) (Stn.h ⟨q, P', Ps', W, C⟩) W (fun v => 0) (o.far p)
  · static_of (far ⟨q, P', Ps', W, C⟩ p) (farMov ⟨q, P', Ps', W, C⟩) (Stn.h ⟨q, P', Ps', W, C⟩) W (fun v => 0) (o.far p)
  · refine ⟨by krfl, fun x _ => ?_, by krfl, fun x _ => ?_, by krfl⟩
    all_goals cases x <;> krfl
  · kshow W / 32.174 * (13 / 17 * q * (23 / 13)) = W / 32.174 * (13 / 17 * q * (23 / 13))
      ∧ fgCd ⟨q, P', Ps', W, C⟩ p = W / 32.174 * (13 / 17 * q * (23 / 13)) * 1 * 1 * 1
        + (p - p) * (farMov ⟨q, P', Ps', W, C⟩).area
    exact ⟨rfl, rfl⟩

end Bench
end PyCycle.OM
