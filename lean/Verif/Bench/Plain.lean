import Verif.Bench.Single

/-! # Bench: a turbine without bleeds, a shaft with one machine -/

namespace PyCycle.OM
namespace Bench
open C48Example (unitGas)
open C54Example (tmap)
open C58Example (at_)

/-- Power of a turbine without bleeds. -/
noncomputable def turb0Power (a : Stn) (Ti eff : ℝ) : ℝ := a.W * eff * (a.h - Ti) * 1.4148532

/-- A turbine at speed 1 without bleeds. -/
noncomputable def turb0E (a b : Stn) (Ti pr eff : ℝ) : Env := Env.ofTable
  ([("MN", 1), ("area", b.W / b.q), ("Nmech", 1), ("W_out", b.W), ("ht_out_b4bld", b4 a Ti eff), ("pwr_turb.ht_out", b.h),
    ("power", turb0Power a Ti eff), ("trq", 5252.11 * turb0Power a Ti eff), ("press_drop.Pt_out", b.P), ("eff_poly", 1),
    ("bld_add.mass_avg_h", 0),
    ("map.alphaMap", 0), ("map.NpMap", 2), ("map.PRmap", 3), ("map.effMap", 0.5), ("map.WpMap", 6),
    ("Np", np a), ("PR", pr), ("eff", eff), ("Wp", wp a), ("s_Np", np a / 2), ("s_PR", (pr - 1) / 2), ("s_eff", eff * 2),
    ("s_Wp", wp a / 6), ("map.scaledOutput.Np", np a), ("map.scaledOutput.Wp", wp a)]
    ++ a.inRows
    ++ stationRows "ideal_flow." (at_ Ti b.P) ++ stationRows "ideal_flow.flow:" (at_ Ti b.P)
    ++ stationRows "real_flow_b4bld." (at_ (b4 a Ti eff) b.P)
    ++ stationRows "real_flow_b4bld.Fl_O_b4bld:tot:" (at_ (b4 a Ti eff) b.P)
    ++ b.outRows)
  (a.inComp ++ [("ideal_flow.flow:composition", a.C), ("real_flow_b4bld.Fl_O_b4bld:tot:composition", a.C),
    ("bld_add.composition_out", b.C)] ++ b.outComp)

set_option hygiene false in
local macro "turb0_converged_body" : tactic => `(tactic| (
  obtain ⟨q, P, Ps, W, C⟩ := a
  obtain ⟨q', P', Ps', W', C'⟩ := b
  simp only [Stn.h, b4] at hW hP hC hC' hh hW0
  subst C C' W'
  refine Group.converged_quick rfl (C56_interface unitGas (fun _ => unitGas) tmap (.tab 1) Turbojet.noTurb _ true).1.1.1 ?_
  intro s hs
  simp only [turbine, turbineHead, turbineTail, Bool.false_eq_true, if_false, if_true,
    List.flatMap_nil, List.cons_append, List.nil_append,
    List.mem_cons, List.not_mem_nil, or_false, List.map_nil] at hs
  rcases hs with rfl | rfl | rfl | rfl | rfl | rfl | rfl | rfl | rfl | rfl | rfl | rfl
  · exact trivial
  · exact ⟨by krfl, by krfl⟩
  · refine ⟨tmapE (np ⟨q, P, Ps, W, fuelAir f⟩) (wp ⟨q, P, Ps, W, fuelAir f⟩) pr eff, tmap_converged _ _ _ _ _, ?_, ?_⟩
    · intro n hn
      have := (C54_turbine_interface tmap _).2 n |>.mp hn
      simp only [turbineMapInputs, if_true, Bool.false_eq_true, if_false, List.cons_append, List.nil_append] at this
      fin_cases this <;> exact ⟨by krfl, by krfl⟩
    · intro n hn
      have := tmap_outs _ hn
      simp only [if_true, Bool.false_eq_true, if_false] at this
      fin_cases this <;> exact ⟨by krfl, by krfl⟩
  · kshow P' = P / pr
    exact hP
  · total_of (at_ Ti P')
  · exact fun k => k.elim0
  · refine ⟨?_, by krfl, ?_⟩
    · kshow (0 : ℝ) = W * 0 / W
      simp
    · intro k
      fin_cases k
      kshow fuelAir f 0 = W / (1 + ∑ i : Fin 1, fuelAir f i) * fuelAir f 0 / (W / (1 + ∑ i : Fin 1, fuelAir f i))
      simp only [fuelAir, Finset.univ_unique, Finset.sum_singleton, Fin.default_eq_zero, Fin.val_zero, if_true]
      field_simp
  · refine ⟨by krfl, ?_, by krfl, ?_⟩
    · kshow q' ^ 2 * 1.5 = W / W * (q ^ 2 * 1.5 * (1 - eff) + Ti * eff)
      rw [div_self hW0, one_mul]
      exact hh
    · kshow 5252.11 * (W * eff * (q ^ 2 * 1.5 - Ti) * 1.4148532) = W * eff * (q ^ 2 * 1.5 - Ti) * 1.4148532 / 1 * 5252.11
      ring
  · total_of (at_ (q ^ 2 * 1.5 * (1 - eff) + Ti * eff) P')
  · kshow (1 : ℝ) = 1 + (0 - 0) / (1 * Real.log (1 / pr))
    simp
  · total_of (Stn.mk q' P' Ps' W (fuelAir f)).tot
  · outlet_of (Stn.mk q' P' Ps' W (fuelAir f)) o))

set_option maxHeartbeats 4000000 in
private theorem turb0_converged_f {a b : Stn} {Ti pr eff f : ℝ} (o : b.Ok) (hC : a.C = fuelAir f) (hC' : b.C = fuelAir f)
    (hW : b.W = a.W) (hW0 : a.W ≠ 0) (hP : b.P = a.P / pr) (hh : b.h = b4 a Ti eff) (hf : 1 + f ≠ 0) :
    (turbine unitGas (fun _ => unitGas) tmap (.tab 1) [] false true).Converged (turb0E a b Ti pr eff) := by
  turb0_converged_body

set_option maxHeartbeats 4000000 in
private theorem turb0_converged_t {a b : Stn} {Ti pr eff f : ℝ} (o : b.Ok) (hC : a.C = fuelAir f) (hC' : b.C = fuelAir f)
    (hW : b.W = a.W) (hW0 : a.W ≠ 0) (hP : b.P = a.P / pr) (hh : b.h = b4 a Ti eff) (hf : 1 + f ≠ 0) :
    (turbine unitGas (fun _ => unitGas) tmap (.tab 1) [] true true).Converged (turb0E a b Ti pr eff) := by
  turb0_converged_body

theorem turb0_converged {a b : Stn} {Ti pr eff f : ℝ} (d : Bool) (o : b.Ok) (hC : a.C = fuelAir f) (hC' : b.C = fuelAir f)
    (hW : b.W = a.W) (hW0 : a.W ≠ 0) (hP : b.P = a.P / pr) (hh : b.h = b4 a Ti eff) (hf : 1 + f ≠ 0) :
    (turbine unitGas (fun _ => unitGas) tmap (.tab 1) [] d true).Converged (turb0E a b Ti pr eff) := by
  cases d
  · exact turb0_converged_f o hC hC' hW hW0 hP hh hf
  · exact turb0_converged_t o hC hC' hW hW0 hP hh hf

/-- One driving machine on the shaft. -/
noncomputable def shaft1E (t : ℝ) : Env := Env.ofTable ([("trq_0", t)] ++ shaftRows (0 + t) 0) []

theorem shaft1_ok {t : ℝ} {pI : List Prom} (h : 0 ≤ t) : (shaftSub 1 pI).eqn (shaft1E t) (shaft1E t) := by
  refine shaft_ok (ti := 0 + t) (to' := 0) ?_ ?_
  · refine Eq.trans (show _ = [t].foldl Shaft.step (0, 0) by krfl) ?_
    simp only [List.foldl_cons, List.foldl_nil, Shaft.step, if_pos h]
  · intro x hx
    fin_cases hx <;> krfl

end Bench
end PyCycle.OM
