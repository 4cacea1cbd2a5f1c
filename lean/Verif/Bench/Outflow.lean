import Verif.Bench.Stations

/-! # Bench: bleeds taken from a flow, and nozzles -/

namespace PyCycle.OM
namespace Bench
open C48Example (unitGas)
open C58Example (at_ move move_ok)

/-! ## Extraction of one bleed, or of two -/

/-- Rows for an extracted bleed. -/
noncomputable def tapRows (a : Stn) (n : String) (f : ℝ) : List (String × ℝ) :=
  [(n ++ ":frac_W", f), (n ++ ":stat:W", a.W * f)] ++ stationRows (n ++ "_flow.") a.tot ++ stationRows (n ++ ":tot:") a.tot

/-- Extraction of bleeds with the names `bs`. -/
noncomputable def tapN (bs : List String) (a b : Stn) (f : ℝ) : Env := Env.ofTable
  ([("MN", 1), ("area", b.W / b.q), ("W_out", b.W)] ++ a.inRows ++ b.outRows ++ bs.flatMap fun n => tapRows a n f)
  (a.inComp ++ b.outComp ++ bs.map fun n => (n ++ ":tot:composition", a.C))

noncomputable abbrev bypBldE (a b : Stn) (f : ℝ) : Env := tapN ["bypBld"] a b f

set_option hygiene false in
macro "tap1_converged_body " nm:term : tactic => `(tactic| (
  obtain ⟨q, P, Ps, W, C⟩ := a
  obtain ⟨q', P', Ps', W', C'⟩ := b
  simp only at hq hW hP hC
  subst q' P' C'
  refine Group.converged_quick rfl (C53_interface unitGas $nm (by simp) d true).1.1.1 ?_
  intro s hs
  cases d <;> (
    simp only [bleedOut, if_true, Bool.false_eq_true, if_false, List.cons_append, List.nil_append, List.mem_cons,
      List.not_mem_nil, or_false, List.map_cons, List.map_nil] at hs
    rcases hs with rfl | rfl | rfl | rfl | rfl
    · exact trivial
    · refine ⟨?_, ?_⟩
      · kshow W' = W - W * f
        exact hW
      · intro k
        fin_cases k
        krfl
    · total_of (Stn.mk q P Ps W C).tot
    · total_of (Stn.mk q P Ps' W' C).tot
    · outlet_of (Stn.mk q P Ps' W' C) o)))

set_option maxHeartbeats 1000000 in
theorem bypBld_converged {a b : Stn} {f : ℝ} (d : Bool) (o : b.Ok) (hq : b.q = a.q) (hP : b.P = a.P) (hC : b.C = a.C)
    (hW : b.W = a.W - a.W * f) : (bleedOut unitGas ["bypBld"] d true).Converged (bypBldE a b f) := by
  tap1_converged_body HBTF.bypNames

set_option hygiene false in
macro "tap2_converged_body " nm:term : tactic => `(tactic| (
  obtain ⟨q, P, Ps, W, C⟩ := a
  obtain ⟨q', P', Ps', W', C'⟩ := b
  simp only at hq hW hP hC
  subst q' P' C'
  refine Group.converged_quick rfl (C53_interface unitGas $nm (by simp) d true).1.1.1 ?_
  intro s hs
  cases d <;> (
    simp only [bleedOut, if_true, Bool.false_eq_true, if_false, List.cons_append, List.nil_append, List.mem_cons,
      List.not_mem_nil, or_false, List.map_cons, List.map_nil] at hs
    rcases hs with rfl | rfl | rfl | rfl | rfl | rfl
    · exact trivial
    · refine ⟨?_, ?_⟩
      · kshow W' = W - W * f - W * f
        exact hW
      · intro k
        fin_cases k <;> krfl
    · total_of (Stn.mk q P Ps W C).tot
    · total_of (Stn.mk q P Ps W C).tot
    · total_of (Stn.mk q P Ps' W' C).tot
    · outlet_of (Stn.mk q P Ps' W' C) o)))

noncomputable abbrev bld3E (a b : Stn) (f : ℝ) : Env := tapN ["cool3", "cool4"] a b f

set_option maxHeartbeats 1000000 in
theorem bld3_converged {a b : Stn} {f : ℝ} (d : Bool) (o : b.Ok) (hq : b.q = a.q) (hP : b.P = a.P) (hC : b.C = a.C)
    (hW : b.W = a.W - a.W * f - a.W * f) :
    (bleedOut unitGas ["cool3", "cool4"] d true).Converged (bld3E a b f) := by
  tap2_converged_body HBTF.bld3Names

/-! ## Nozzle -/

/-- The same flow, fully expanded to pressure `p` at Mach 23/13. -/
noncomputable def far (t : Stn) (p : ℝ) : TG.Station := at_ ((13 / 17 * t.q) ^ 2) p
noncomputable def farMov (t : Stn) : StaticState := move (13 / 17 * t.q) (23 / 13) t.W

theorem Stn.Ok.far {t : Stn} (o : t.Ok) (p : ℝ) : IsStatic ((far t p).psIn t.h t.W) (farMov t)
    ∧ 0 < (far t p).gamma * (far t p).R * (far t p).T ∧ 0 < (far t p).rho ∧ t.h ≠ 0 ∧ (1e-16 : ℝ) ≤ (farMov t).MN
    ∧ (farMov t).area ≠ 0 :=
  C58Example.ok_of (q := 13 / 17 * t.q) (M := 23 / 13) (P := p) rfl rfl (by simp only [Stn.h]; ring)
    (by have := o.q; positivity) (by norm_num) o.W

/-- Gross thrust of a sonic nozzle. -/
noncomputable def fgCV (t : Stn) (p : ℝ) : ℝ := t.W / 32.174 * t.q * 1 * 1 * 1 + (t.Ps - p) * (t.W / t.q)

/-- A convergent nozzle with sonic throat `t`, discharging to pressure `p`. -/
noncomputable def nozzE (a t : Stn) (dP p : ℝ) : Env := Env.ofTable
  ([("Ps_exhaust", p), ("dPqP", dP), ("Cv", 1), ("perf_calcs.Cang", 1), ("perf_calcs.CmixCorr", 1), ("PR", t.P / p),
    ("Ps_calc", p), ("press_calcs.Pt_th", t.P), ("mach_choked.MN", 1), ("mux.choked", 1), ("Throat:stat:S", 0),
    ("Fl_O:stat:S", 0), ("perf_calcs.Fg_ideal", t.W / 32.174 * (13 / 17 * t.q * (23 / 13))), ("Fg", fgCV t p)]
    ++ a.inRows
    ++ stationRows "throat_total." t.tot ++ stationRows "Fl_O:tot:" t.tot
    ++ stationRows "staticMN." t.sta ++ stationRows "staticMN.flow:" t.sta
    ++ staticRows "staticMN." t.mov t.W ++ staticRows "staticMN.flow:" t.mov t.W
    ++ stationRows "staticPs." (far t p) ++ stationRows "staticPs.flow:" (far t p)
    ++ staticRows "staticPs." (farMov t) t.W ++ staticRows "staticPs.flow:" (farMov t) t.W
    ++ stationRows "ideal_flow." (far t p) ++ stationRows "ideal_flow.flow:" (far t p)
    ++ staticRows "ideal_flow." (farMov t) t.W ++ staticRows "ideal_flow.flow:" (farMov t) t.W
    ++ stationRows "Throat:stat:" t.sta ++ staticRows "Throat:stat:" t.mov t.W
    ++ stationRows "Fl_O:stat:" t.sta ++ staticRows "Fl_O:stat:" t.mov t.W)
  (a.inComp ++ t.outComp)

theorem mux_throat {x : Noz.MI → ℝ} (p : Noz.Pr) (h : x .Ps_calc < x (.mn .P)) : Noz.mux .CV x (.throat p) = x (.mn p) := by
  simp only [Noz.mux, Noz.pick, if_pos h]
theorem mux_out {x : Noz.MI → ℝ} (p : Noz.Pr) (h : x .Ps_calc < x (.mn .P)) : Noz.mux .CV x (.out p) = x (.mn p) := by
  simp only [Noz.mux, Noz.pick, if_pos h]

set_option maxHeartbeats 2000000 in
theorem nozz_converged {a t : Stn} {dP p : ℝ} (o : t.Ok) (hq : t.q = a.q) (hW : t.W = a.W) (hC : t.C = a.C)
    (hP : t.P = a.P * (1 - dP)) (hp : 0 < p) (hPR : 1.000001 * p ≤ t.P) (hs : p < t.Ps) :
    (nozzle unitGas .CV .Cv).Converged (nozzE a t dP p) := by
  obtain ⟨q, P, Ps, W, C⟩ := a
  obtain ⟨q', P', Ps', W', C'⟩ := t
  simp only at hq hW hP hC hPR hs
  subst q' W' C'
  have hP' : 0 < P' := lt_of_lt_of_le (by positivity) hPR
  refine Group.converged_quick rfl (C52_interface unitGas .CV .Cv).1.1.1 ?_
  intro s hs'
  simp only [nozzle, List.mem_cons, List.not_mem_nil, or_false] at hs'
  rcases hs' with rfl | rfl | rfl | rfl | rfl | rfl | rfl | rfl | rfl | rfl
  · kshow (1 : ℝ) = 1
    rfl
  · exact trivial
  · kshow (1.000001 : ℝ) ≤ P' / p ∧ p - p = 0
    exact ⟨by rw [le_div_iff₀ hp]; exact hPR, sub_self _⟩
  · kshow P' = P * (1 - dP) ∧ p = P * (1 - dP) / (P' / p)
    refine ⟨hP, ?_⟩
    rw [← hP]
    field_simp
  · total_of (Stn.mk q P' Ps' W C).tot
  · static_of (Stn.sta ⟨q, P', Ps', W, C⟩) (Stn.mov ⟨q, P', Ps', W, C⟩) (Stn.h ⟨q, P', Ps', W, C⟩) W
      (fun v => if v = .guessPt then P' else 1) o.static
  · static_of (far ⟨q, P', Ps', W, C⟩ p) (farMov ⟨q, P', Ps', W, C⟩) (Stn.h ⟨q, P', Ps', W, C⟩) W (fun v => 0) (o.far p)
  · static_of (far ⟨q, P', Ps', W, C⟩ p) (farMov ⟨q, P', Ps', W, C⟩) (Stn.h ⟨q, P', Ps', W, C⟩) W (fun v => 0) (o.far p)
  · refine ⟨by krfl, fun x _ => ?_, by krfl, fun x _ => ?_, by krfl⟩
    all_goals
      first | refine Eq.trans ?_ (mux_throat x ?_).symm | refine Eq.trans ?_ (mux_out x ?_).symm
      · cases x <;> krfl
      · kshow p < Ps'
        exact hs
  · kshow W / 32.174 * (13 / 17 * q * (23 / 13)) = W / 32.174 * (13 / 17 * q * (23 / 13))
      ∧ fgCV ⟨q, P', Ps', W, C⟩ p = W / 32.174 * q * 1 * 1 * 1 + (Ps' - p) * (W / q)
    exact ⟨rfl, rfl⟩

end Bench
end PyCycle.OM
