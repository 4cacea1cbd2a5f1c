import Verif.Bench.Mixed
import Verif.Proofs.MixedFlowNames

/-! # Bench: elements with a single bleed -/

namespace PyCycle.OM
namespace Bench
open C48Example (unitGas)
open C54Example (cmap tmap)
open C58Example (at_)

/-! ## Extraction -/

noncomputable def tapE (a b : Stn) (f : ℝ) : Env := Env.ofTable
  ([("MN", 1), ("area", b.W / b.q), ("W_out", b.W)] ++ a.inRows ++ tapRows a "cool3" f ++ b.outRows)
  (a.inComp ++ [("cool3:tot:composition", a.C)] ++ b.outComp)

set_option maxHeartbeats 1000000 in
theorem tap_converged {a b : Stn} {f : ℝ} (d : Bool) (o : b.Ok) (hq : b.q = a.q) (hP : b.P = a.P) (hC : b.C = a.C)
    (hW : b.W = a.W - a.W * f) : (bleedOut unitGas ["cool3"] d true).Converged (tapE a b f) := by
  obtain ⟨q, P, Ps, W, C⟩ := a
  obtain ⟨q', P', Ps', W', C'⟩ := b
  simp only at hq hW hP hC
  subst q' P' C'
  refine Group.converged_quick rfl (C53_interface unitGas MFTF.bld3Names (by simp) d true).1.1.1 ?_
  intro s hs
  cases d <;> (
    simp only [bleedOut, if_true, Bool.false_eq_true, if_false, List.cons_append, List.nil_append, List.mem_cons,
      List.not_mem_nil, or_false, List.map_cons, List.map_nil] at hs
    rcases hs with rfl | rfl | rfl | rfl | rfl
    · exact trivial
    · refine ⟨?_, ?_⟩
      · kshow W' = W - W * f
        exact hW
      · intro k
        fin_cases k
        krfl
    · total_of (Stn.mk q P Ps W C).tot
    · total_of (Stn.mk q P Ps' W' C).tot
    · outlet_of (Stn.mk q P Ps' W' C) o)

/-! ## Compressor -/

/-- Power with one bleed. -/
noncomputable def comp1Power (a b : Stn) (f fw : ℝ) : ℝ :=
  a.W * (a.h - b.h) * 1.4148532 - a.W * f * (a.h + fw * (b.h - a.h) - b.h) * 1.4148532

noncomputable def comp1E (a b : Stn) (Ti pr eff f fP fw : ℝ) : Env := Env.ofTable
  (compRows a b Ti pr eff (comp1Power a b f fw) ++ a.inRows ++ b.outRows ++ bleedRows a b "cool1" f fP fw)
  (a.inComp ++ [("ideal_flow.flow:composition", a.C)] ++ b.outComp ++ [("cool1:tot:composition", a.C)])

set_option hygiene false in
local macro "comp1_converged_body" : tactic => `(tactic| (
  obtain ⟨q, P, Ps, W, C⟩ := a
  obtain ⟨q', P', Ps', W', C'⟩ := b
  simp only [Stn.h] at hW hP hC hh
  subst C'
  refine Group.converged_quick rfl (C55_interface unitGas cmap MFTF.hpcNames _ true).1.1.1 ?_
  intro s hs
  simp only [compressor, compressorHead, Bool.false_eq_true, if_false, if_true, List.cons_append, List.nil_append,
    List.mem_cons, List.not_mem_nil, or_false, List.map_nil, List.map_cons] at hs
  rcases hs with rfl | rfl | rfl | rfl | rfl | rfl | rfl | rfl | rfl | rfl | rfl
  · exact trivial
  · exact ⟨by krfl, by krfl⟩
  · refine ⟨cmapE (nc ⟨q, P, Ps, W, C⟩) (wc ⟨q, P, Ps, W, C⟩) pr eff, cmap_converged _ _ _ _ _, ?_, ?_⟩
    · intro n hn
      have := (C54_compressor_interface cmap _).2 n |>.mp hn
      simp only [compressorMapInputs, if_true, Bool.false_eq_true, if_false, List.cons_append, List.nil_append] at this
      fin_cases this <;> exact ⟨by krfl, by krfl⟩
    · intro n hn
      have := cmap_outs _ hn
      fin_cases this <;> exact ⟨by krfl, by krfl⟩
  · kshow P' = pr * P
    exact hP
  · total_of (at_ Ti P')
  · kshow q' ^ 2 * 1.5 = (Ti - q ^ 2 * 1.5) / eff + q ^ 2 * 1.5
    exact hh
  · total_of (Stn.mk q' P' Ps' W' C).tot
  · kshow (1 : ℝ) = 1 * Real.log pr / (1 * Real.log pr + 0 - 0)
    exact eff_poly_one hpr
  · refine ⟨?_, by krfl, ?_, fun k => ?_⟩
    · kshow W' = W - W * f
      exact hW
    · kshow 5252.11 * comp1Power ⟨q, P, Ps, W, C⟩ ⟨q', P', Ps', W', C⟩ f fw
        = 5252.11 * comp1Power ⟨q, P, Ps, W, C⟩ ⟨q', P', Ps', W', C⟩ f fw / 1
      rw [div_one]
    · fin_cases k; exact ⟨by krfl, by krfl, by krfl⟩
  · total_of (tapped ⟨q, P, Ps, W, C⟩ ⟨q', P', Ps', W', C⟩ fP fw)
  · outlet_of (Stn.mk q' P' Ps' W' C) o))

set_option maxHeartbeats 4000000 in
private theorem comp1_converged_f {a b : Stn} {Ti pr eff f fP fw : ℝ} (o : b.Ok) (hpr : 1 < pr)
    (hW : b.W = a.W - a.W * f) (hC : b.C = a.C)
    (hP : b.P = pr * a.P) (hh : b.h = (Ti - a.h) / eff + a.h) :
    (compressor unitGas cmap ["cool1"] false true).Converged (comp1E a b Ti pr eff f fP fw) := by
  comp1_converged_body

set_option maxHeartbeats 4000000 in
private theorem comp1_converged_t {a b : Stn} {Ti pr eff f fP fw : ℝ} (o : b.Ok) (hpr : 1 < pr)
    (hW : b.W = a.W - a.W * f) (hC : b.C = a.C)
    (hP : b.P = pr * a.P) (hh : b.h = (Ti - a.h) / eff + a.h) :
    (compressor unitGas cmap ["cool1"] true true).Converged (comp1E a b Ti pr eff f fP fw) := by
  comp1_converged_body

theorem comp1_converged {a b : Stn} {Ti pr eff f fP fw : ℝ} (d : Bool) (o : b.Ok) (hpr : 1 < pr)
    (hW : b.W = a.W - a.W * f) (hC : b.C = a.C)
    (hP : b.P = pr * a.P) (hh : b.h = (Ti - a.h) / eff + a.h) :
    (compressor unitGas cmap ["cool1"] d true).Converged (comp1E a b Ti pr eff f fP fw) := by
  cases d
  · exact comp1_converged_f o hpr hW hC hP hh
  · exact comp1_converged_t o hpr hW hC hP hh

/-! ## Turbine -/

/-- Power of a turbine with one bleed. -/
noncomputable def turb1Power (a : Stn) (Ti eff : ℝ) (c : Cool) : ℝ :=
  a.W * eff * (a.h - Ti) * 1.4148532 + c.W * eff * (c.src.h - c.Ti) * 1.4148532

/-- The name of the bleed: that of the first turbine, or that of the second. -/
def coolName : Bool → String
  | true => "cool3"
  | false => "cool1"

theorem coolName_ok : ∀ k, BleedNames turbineTails turbineReserved [coolName k]
  | true => MFTF.hptNames
  | false => MFTF.lptNames

/-- A turbine at speed 1, cooled by one bleed of air. -/
noncomputable def turb1E (k : Bool) (a b : Stn) (Ti pr eff : ℝ) (c : Cool) : Env := Env.ofTable
  ([("MN", 1), ("area", b.W / b.q), ("Nmech", 1), ("W_out", b.W), ("ht_out_b4bld", b4 a Ti eff), ("pwr_turb.ht_out", b.h),
    ("power", turb1Power a Ti eff c), ("trq", 5252.11 * turb1Power a Ti eff c), ("press_drop.Pt_out", b.P), ("eff_poly", 1),
    ("bld_add.mass_avg_h", 0),
    ("map.alphaMap", 0), ("map.NpMap", 2), ("map.PRmap", 3), ("map.effMap", 0.5), ("map.WpMap", 6),
    ("Np", np a), ("PR", pr), ("eff", eff), ("Wp", wp a), ("s_Np", np a / 2), ("s_PR", (pr - 1) / 2), ("s_eff", eff * 2),
    ("s_Wp", wp a / 6), ("map.scaledOutput.Np", np a), ("map.scaledOutput.Wp", wp a)]
    ++ a.inRows
    ++ stationRows "ideal_flow." (at_ Ti b.P) ++ stationRows "ideal_flow.flow:" (at_ Ti b.P)
    ++ stationRows "real_flow_b4bld." (at_ (b4 a Ti eff) b.P)
    ++ stationRows "real_flow_b4bld.Fl_O_b4bld:tot:" (at_ (b4 a Ti eff) b.P)
    ++ b.outRows ++ coolRows a b c (coolName k))
  (a.inComp ++ [("ideal_flow.flow:composition", a.C), ("real_flow_b4bld.Fl_O_b4bld:tot:composition", a.C),
    ("bld_add.composition_out", b.C)] ++ b.outComp
    ++ [(coolName k ++ ":tot:composition", fuelAir 0), (coolName k ++ ":stat:composition", fuelAir 0),
      (coolName k ++ "_inflow.flow:composition", fuelAir 0), (coolName k ++ "_ideal.flow:composition", fuelAir 0)])

set_option hygiene false in
local macro "turb1_converged_body" : tactic => `(tactic| (
  obtain ⟨q, P, Ps, W, C⟩ := a
  obtain ⟨q', P', Ps', W', C'⟩ := b
  obtain ⟨⟨cT, cP, ch, cS, cg, cCp, cCv, cr, cR⟩, w, fP, cTi⟩ := c
  simp only [Stn.h, b4] at hW hP hC hC' hh hc hg
  subst C C' cS
  refine Group.converged_quick rfl (C56_interface unitGas (fun _ => unitGas) tmap (.tab 1) (coolName_ok _) _ true).1.1.1 ?_
  intro s hs
  simp only [turbine, turbineHead, turbineTail, coolName, bleedIn, Bool.false_eq_true, if_false, if_true,
    List.flatMap_cons, List.flatMap_nil, List.cons_append, List.nil_append,
    List.mem_cons, List.not_mem_nil, or_false, List.map_nil, List.map_cons] at hs
  rcases hs with rfl | rfl | rfl | rfl | rfl | rfl | rfl | rfl | rfl | rfl | rfl | rfl | rfl | rfl | rfl
  · exact trivial
  · exact ⟨by krfl, by krfl⟩
  · refine ⟨tmapE (np ⟨q, P, Ps, W, fuelAir f⟩) (wp ⟨q, P, Ps, W, fuelAir f⟩) pr eff, tmap_converged _ _ _ _ _, ?_, ?_⟩
    · intro n hn
      have := (C54_turbine_interface tmap _).2 n |>.mp hn
      simp only [turbineMapInputs, if_true, Bool.false_eq_true, if_false, List.cons_append, List.nil_append] at this
      fin_cases this <;> exact ⟨by krfl, by krfl⟩
    · intro n hn
      have := tmap_outs _ hn
      simp only [if_true, Bool.false_eq_true, if_false] at this
      fin_cases this <;> exact ⟨by krfl, by krfl⟩
  · kshow P' = P / pr
    exact hP
  · total_of (at_ Ti P')
  · exact trivial
  · intro k
    fin_cases k; krfl
  · refine ⟨?_, ?_, ?_⟩
    · kshow (0 : ℝ) = (W * 0 + w * 0) / (W + w)
      simp
    · kshow W' = W + w
      exact hW
    · intro k
      fin_cases k
      kshow fuelAir g 0 = (W / (1 + ∑ i : Fin 1, fuelAir f i) * fuelAir f 0
          + w / (1 + ∑ i : Fin 1, fuelAir 0 i) * fuelAir 0 0)
        / (W / (1 + ∑ i : Fin 1, fuelAir f i) + w / (1 + ∑ i : Fin 1, fuelAir 0 i))
      simp only [fuelAir, Finset.univ_unique, Finset.sum_singleton, Fin.default_eq_zero, Fin.val_zero, if_true]
      rw [hg]
      simp
  · total_of (at_ ch (P' + fP * (P - P')))
  · total_of (at_ cTi P')
  · refine ⟨by krfl, ?_, by krfl, ?_⟩
    · kshow q' ^ 2 * 1.5 = W / W' * (q ^ 2 * 1.5 * (1 - eff) + Ti * eff) + w / W' * (ch * (1 - eff) + cTi * eff)
      exact hh
    · kshow 5252.11 * (W * eff * (q ^ 2 * 1.5 - Ti) * 1.4148532 + w * eff * (ch - cTi) * 1.4148532)
        = (W * eff * (q ^ 2 * 1.5 - Ti) * 1.4148532 + w * eff * (ch - cTi) * 1.4148532) / 1 * 5252.11
      ring
  · total_of (at_ (q ^ 2 * 1.5 * (1 - eff) + Ti * eff) P')
  · kshow (1 : ℝ) = 1 + (0 - 0) / (1 * Real.log (1 / pr))
    simp
  · total_of (Stn.mk q' P' Ps' W' (fuelAir g)).tot
  · outlet_of (Stn.mk q' P' Ps' W' (fuelAir g)) o))

set_option maxHeartbeats 4000000 in
private theorem turb1_converged_f_f {a b : Stn} {Ti pr eff f g : ℝ} {c : Cool} (o : b.Ok) (hc : c.src.S = 0)
    (hC : a.C = fuelAir f) (hC' : b.C = fuelAir g) (hW : b.W = a.W + c.W) (hP : b.P = a.P / pr)
    (hh : b.h = a.W / b.W * b4 a Ti eff + c.W / b.W * (c.src.h * (1 - eff) + c.Ti * eff))
    (hf : 1 + f ≠ 0) (hg : g = a.W / (1 + f) * f / (a.W / (1 + f) + c.W)) :
    (turbine unitGas (fun _ => unitGas) tmap (.tab 1) [coolName false] false true).Converged (turb1E false a b Ti pr eff c) := by
  turb1_converged_body

set_option maxHeartbeats 4000000 in
private theorem turb1_converged_f_t {a b : Stn} {Ti pr eff f g : ℝ} {c : Cool} (o : b.Ok) (hc : c.src.S = 0)
    (hC : a.C = fuelAir f) (hC' : b.C = fuelAir g) (hW : b.W = a.W + c.W) (hP : b.P = a.P / pr)
    (hh : b.h = a.W / b.W * b4 a Ti eff + c.W / b.W * (c.src.h * (1 - eff) + c.Ti * eff))
    (hf : 1 + f ≠ 0) (hg : g = a.W / (1 + f) * f / (a.W / (1 + f) + c.W)) :
    (turbine unitGas (fun _ => unitGas) tmap (.tab 1) [coolName true] false true).Converged (turb1E true a b Ti pr eff c) := by
  turb1_converged_body

set_option maxHeartbeats 4000000 in
private theorem turb1_converged_t_f {a b : Stn} {Ti pr eff f g : ℝ} {c : Cool} (o : b.Ok) (hc : c.src.S = 0)
    (hC : a.C = fuelAir f) (hC' : b.C = fuelAir g) (hW : b.W = a.W + c.W) (hP : b.P = a.P / pr)
    (hh : b.h = a.W / b.W * b4 a Ti eff + c.W / b.W * (c.src.h * (1 - eff) + c.Ti * eff))
    (hf : 1 + f ≠ 0) (hg : g = a.W / (1 + f) * f / (a.W / (1 + f) + c.W)) :
    (turbine unitGas (fun _ => unitGas) tmap (.tab 1) [coolName false] true true).Converged (turb1E false a b Ti pr eff c) := by
  turb1_converged_body

set_option maxHeartbeats 4000000 in
private theorem turb1_converged_t_t {a b : Stn} {Ti pr eff f g : ℝ} {c : Cool} (o : b.Ok) (hc : c.src.S = 0)
    (hC : a.C = fuelAir f) (hC' : b.C = fuelAir g) (hW : b.W = a.W + c.W) (hP : b.P = a.P / pr)
    (hh : b.h = a.W / b.W * b4 a Ti eff + c.W / b.W * (c.src.h * (1 - eff) + c.Ti * eff))
    (hf : 1 + f ≠ 0) (hg : g = a.W / (1 + f) * f / (a.W / (1 + f) + c.W)) :
    (turbine unitGas (fun _ => unitGas) tmap (.tab 1) [coolName true] true true).Converged (turb1E true a b Ti pr eff c) := by
  turb1_converged_body

theorem turb1_converged {k : Bool} {a b : Stn} {Ti pr eff f g : ℝ} {c : Cool} (d : Bool) (o : b.Ok) (hc : c.src.S = 0)
    (hC : a.C = fuelAir f) (hC' : b.C = fuelAir g) (hW : b.W = a.W + c.W) (hP : b.P = a.P / pr)
    (hh : b.h = a.W / b.W * b4 a Ti eff + c.W / b.W * (c.src.h * (1 - eff) + c.Ti * eff))
    (hf : 1 + f ≠ 0) (hg : g = a.W / (1 + f) * f / (a.W / (1 + f) + c.W)) :
    (turbine unitGas (fun _ => unitGas) tmap (.tab 1) [coolName k] d true).Converged (turb1E k a b Ti pr eff c) := by
  cases d <;> cases k
  · exact turb1_converged_f_f o hc hC hC' hW hP hh hf hg
  · exact turb1_converged_f_t o hc hC hC' hW hP hh hf hg
  · exact turb1_converged_t_f o hc hC hC' hW hP hh hf hg
  · exact turb1_converged_t_t o hc hC hC' hW hP hh hf hg

end Bench
end PyCycle.OM
