import Verif.Bench.Outflow

/-! # Bench: compressors, without bleeds and with three -/

namespace PyCycle.OM
namespace Bench
open C48Example (unitGas)
open C54Example (cmap)
open C58Example (at_)

/-- The map at speed 2 and line 2, for corrected flow `wc`, corrected speed `nc`, pressure ratio and efficiency. -/
noncomputable def cmapE (nc wc pr eff : ℝ) : Env := Env.ofTable
  [("alphaMap", 0), ("NcMap", 2), ("RlineMap", 2), ("PRmap", 3), ("effMap", 0.5), ("WcMap", 4), ("Nc", nc), ("PR", pr),
   ("eff", eff), ("Wc", wc), ("s_Nc", nc / 2), ("s_PR", (pr - 1) / 2), ("s_eff", eff * 2), ("s_Wc", wc / 4),
   ("scaledOutput.Nc", nc), ("scaledOutput.Wc", wc), ("stall_R.RlineStall", 1),
   ("SMN_map.PRmap", 3), ("SMN_map.WcMap", 2), ("SMN_map.effMap", 0.5), ("SMW_map.PRmap", 5), ("SMW_map.WcMap", 4),
   ("SMW_map.effMap", 0.5), ("SMW_bal.NcMap", 4), ("SMN", 100), ("SMW", 200 / 3)] []

set_option maxHeartbeats 1000000 in
theorem cmap_converged (nc wc pr eff : ℝ) (d : Bool) : (compressorMap cmap d).Converged (cmapE nc wc pr eff) := by
  refine Group.converged_quick rfl (C54_compressor_interface cmap d).1.1.1 ?_
  intro s hs
  cases d
  · simp only [compressorMap, Bool.false_eq_true, if_false, List.cons_append, List.nil_append, List.mem_cons,
      List.not_mem_nil, or_false] at hs
    rcases hs with rfl | rfl | rfl | rfl | rfl | rfl | rfl | rfl
    · kshow (0.5 : ℝ) = 0.5 ∧ (3 : ℝ) = 1 + 2 ∧ (4 : ℝ) = 2 * 2
      norm_num
    · intro q hq
      cases q
      · kshow nc = 2 * (nc / 2)
        ring
      · kshow pr = (3 - 1) * ((pr - 1) / 2) + 1
        ring
      · kshow eff = 0.5 * (eff * 2)
        ring
      · kshow wc = 4 * (wc / 4)
        ring
    · intro b hb
      fin_cases hb <;> rfl
    · rfl
    · kshow (0.5 : ℝ) = 0.5 ∧ (3 : ℝ) = 1 + 2 ∧ (2 : ℝ) = 2 * 1
      norm_num
    · kshow (0.5 : ℝ) = 0.5 ∧ (5 : ℝ) = 1 + 4 ∧ (4 : ℝ) = 4 * 1
      norm_num
    · intro b hb
      fin_cases hb
      rfl
    · kshow (100 : ℝ) = ((4 / 2) / (3 / 3) - 1) * 100 ∧ (200 / 3 : ℝ) = (5 - 3) / 3 * 100
      norm_num
  · simp only [compressorMap, if_true, List.cons_append, List.nil_append, List.mem_cons,
      List.not_mem_nil, or_false] at hs
    rcases hs with rfl | rfl | rfl | rfl | rfl | rfl | rfl
    · kshow (0.5 : ℝ) = 0.5 ∧ (3 : ℝ) = 1 + 2 ∧ (4 : ℝ) = 2 * 2
      norm_num
    · intro q hq
      cases q
      · krfl
      · kshow (pr - 1) / 2 = (pr - 1) / (3 - 1)
        norm_num
      · kshow eff * 2 = eff / 0.5
        ring
      · krfl
    · rfl
    · kshow (0.5 : ℝ) = 0.5 ∧ (3 : ℝ) = 1 + 2 ∧ (2 : ℝ) = 2 * 1
      norm_num
    · kshow (0.5 : ℝ) = 0.5 ∧ (5 : ℝ) = 1 + 4 ∧ (4 : ℝ) = 4 * 1
      norm_num
    · intro b hb
      fin_cases hb
      rfl
    · kshow (100 : ℝ) = ((4 / 2) / (3 / 3) - 1) * 100 ∧ (200 / 3 : ℝ) = (5 - 3) / 3 * 100
      norm_num

theorem cmap_outs (d : Bool) : (compressorMap cmap d).wiring.outs ⊆ ["effMap", "PRmap", "WcMap", "s_Nc", "s_PR", "s_eff",
    "s_Wc", "scaledOutput.Nc", "scaledOutput.Wc", "PR", "eff", "NcMap", "RlineMap",
    "stall_R.RlineStall", "SMN_map.effMap", "SMN_map.PRmap", "SMN_map.WcMap", "SMW_map.effMap", "SMW_map.PRmap",
    "SMW_map.WcMap", "SMW_bal.NcMap", "SMN", "SMW"] := by
  rw [show (compressorMap cmap d).wiring = (compressorMap ⟨fun _ _ _ => 0, fun _ _ _ => 0, fun _ _ _ => 0, 0⟩ d).wiring by
    cases d <;> rfl]
  revert d; decide +kernel

/-- Corrected flow and speed. -/
noncomputable def wc (a : Stn) : ℝ := a.W * (a.h / 518.67 : ℝ) ^ (0.5 : ℝ) / (a.P / 14.695951)
noncomputable def nc (a : Stn) : ℝ := 1 * (a.h / 518.67 : ℝ) ^ (-0.5 : ℝ)

/-- What a compressor at speed 1 has besides its stations and bleeds. -/
noncomputable def compRows (a b : Stn) (Ti pr eff pw : ℝ) : List (String × ℝ) :=
  [("MN", 1), ("area", b.W / b.q), ("Nmech", 1), ("W_out", b.W), ("power", pw), ("trq", 5252.11 * pw),
    ("press_rise.Pt_out", b.P), ("enth_rise.ht_out", b.h), ("eff_poly", 1),
    ("map.alphaMap", 0), ("map.NcMap", 2), ("map.RlineMap", 2), ("map.PRmap", 3), ("map.effMap", 0.5), ("map.WcMap", 4),
    ("Nc", nc a), ("PR", pr), ("eff", eff), ("Wc", wc a), ("s_Nc", nc a / 2), ("s_PR", (pr - 1) / 2), ("s_eff", eff * 2),
    ("s_Wc", wc a / 4),
    ("map.scaledOutput.Nc", nc a), ("map.scaledOutput.Wc", wc a),
    ("map.stall_R.RlineStall", 1), ("map.SMN_map.PRmap", 3), ("map.SMN_map.WcMap", 2), ("map.SMN_map.effMap", 0.5),
    ("map.SMW_map.PRmap", 5), ("map.SMW_map.WcMap", 4), ("map.SMW_map.effMap", 0.5), ("map.SMW_bal.NcMap", 4),
    ("SMN", 100), ("SMW", 200 / 3)]
    ++ stationRows "ideal_flow." (at_ Ti b.P) ++ stationRows "ideal_flow.flow:" (at_ Ti b.P)

/-- Power of a compressor without bleeds. -/
noncomputable def compPower (a b : Stn) : ℝ := a.W * (a.h - b.h) * 1.4148532

noncomputable def compE (a b : Stn) (Ti pr eff : ℝ) : Env := Env.ofTable
  (compRows a b Ti pr eff (compPower a b) ++ a.inRows ++ b.outRows) (a.inComp ++ [("ideal_flow.flow:composition", a.C)] ++ b.outComp)

theorem eff_poly_one {pr : ℝ} (h : 1 < pr) : (1 : ℝ) = 1 * Real.log pr / (1 * Real.log pr + 0 - 0) := by
  have : Real.log pr ≠ 0 := (Real.log_pos h).ne'
  rw [one_mul, add_zero, sub_zero, div_self this]

set_option hygiene false in
local macro "comp_converged_body" : tactic => `(tactic| (
  obtain ⟨q, P, Ps, W, C⟩ := a
  obtain ⟨q', P', Ps', W', C'⟩ := b
  simp only [Stn.h] at hW hP hC hh
  subst W' C'
  refine Group.converged_quick rfl (C55_interface unitGas cmap Turbojet.noComp _ true).1.1.1 ?_
  intro s hs
  simp only [compressor, compressorHead, Bool.false_eq_true, if_false, if_true, List.cons_append, List.nil_append,
    List.mem_cons, List.not_mem_nil, or_false, List.map_nil] at hs
  rcases hs with rfl | rfl | rfl | rfl | rfl | rfl | rfl | rfl | rfl | rfl
  · exact trivial
  · exact ⟨by krfl, by krfl⟩
  · refine ⟨cmapE (nc ⟨q, P, Ps, W, C⟩) (wc ⟨q, P, Ps, W, C⟩) pr eff, cmap_converged _ _ _ _ _, ?_, ?_⟩
    · intro n hn
      have := (C54_compressor_interface cmap _).2 n |>.mp hn
      simp only [compressorMapInputs, if_true, Bool.false_eq_true, if_false, List.cons_append, List.nil_append] at this
      fin_cases this <;> exact ⟨by krfl, by krfl⟩
    · intro n hn
      have := cmap_outs _ hn
      fin_cases this <;> exact ⟨by krfl, by krfl⟩
  · kshow P' = pr * P
    exact hP
  · total_of (at_ Ti P')
  · kshow q' ^ 2 * 1.5 = (Ti - q ^ 2 * 1.5) / eff + q ^ 2 * 1.5
    exact hh
  · total_of (Stn.mk q' P' Ps' W C).tot
  · kshow (1 : ℝ) = 1 * Real.log pr / (1 * Real.log pr + 0 - 0)
    exact eff_poly_one hpr
  · refine ⟨by krfl, by krfl, ?_, fun k => k.elim0⟩
    kshow 5252.11 * (W * (q ^ 2 * 1.5 - q' ^ 2 * 1.5) * 1.4148532)
      = 5252.11 * (W * (q ^ 2 * 1.5 - q' ^ 2 * 1.5) * 1.4148532) / 1
    rw [div_one]
  · outlet_of (Stn.mk q' P' Ps' W C) o))

set_option maxHeartbeats 2000000 in
private theorem comp_converged_f {a b : Stn} {Ti pr eff : ℝ} (o : b.Ok) (hpr : 1 < pr) (hW : b.W = a.W) (hC : b.C = a.C)
    (hP : b.P = pr * a.P) (hh : b.h = (Ti - a.h) / eff + a.h) :
    (compressor unitGas cmap [] false true).Converged (compE a b Ti pr eff) := by
  comp_converged_body

set_option maxHeartbeats 2000000 in
private theorem comp_converged_t {a b : Stn} {Ti pr eff : ℝ} (o : b.Ok) (hpr : 1 < pr) (hW : b.W = a.W) (hC : b.C = a.C)
    (hP : b.P = pr * a.P) (hh : b.h = (Ti - a.h) / eff + a.h) :
    (compressor unitGas cmap [] true true).Converged (compE a b Ti pr eff) := by
  comp_converged_body

theorem comp_converged {a b : Stn} {Ti pr eff : ℝ} (d : Bool) (o : b.Ok) (hpr : 1 < pr) (hW : b.W = a.W) (hC : b.C = a.C)
    (hP : b.P = pr * a.P) (hh : b.h = (Ti - a.h) / eff + a.h) :
    (compressor unitGas cmap [] d true).Converged (compE a b Ti pr eff) := by
  cases d
  · exact comp_converged_f o hpr hW hC hP hh
  · exact comp_converged_t o hpr hW hC hP hh

/-! ## Three bleeds, each of the same fractions -/

/-- The state of a bleed of a compressor. -/
noncomputable def tapped (a b : Stn) (fP fw : ℝ) : TG.Station := at_ (a.h + fw * (b.h - a.h)) (a.P + fP * (b.P - a.P))

noncomputable def bleedRows (a b : Stn) (n : String) (f fP fw : ℝ) : List (String × ℝ) :=
  [(n ++ ":frac_W", f), (n ++ ":frac_P", fP), (n ++ ":frac_work", fw), (n ++ ":stat:W", a.W * f),
    (n ++ ":Pt", (tapped a b fP fw).P), (n ++ ":ht", (tapped a b fP fw).h)]
    ++ stationRows (n ++ "_flow.") (tapped a b fP fw) ++ stationRows (n ++ ":tot:") (tapped a b fP fw)

/-- Power with three equal bleeds. -/
noncomputable def hpcPower (a b : Stn) (f fw : ℝ) : ℝ :=
  a.W * (a.h - b.h) * 1.4148532 - a.W * f * (a.h + fw * (b.h - a.h) - b.h) * 1.4148532
    - a.W * f * (a.h + fw * (b.h - a.h) - b.h) * 1.4148532 - a.W * f * (a.h + fw * (b.h - a.h) - b.h) * 1.4148532

/-- Three bleeds with the names `bs`. -/
noncomputable def hpcN (bs : List String) (a b : Stn) (Ti pr eff f fP fw : ℝ) : Env := Env.ofTable
  (compRows a b Ti pr eff (hpcPower a b f fw) ++ a.inRows ++ b.outRows ++ bs.flatMap fun n => bleedRows a b n f fP fw)
  (a.inComp ++ [("ideal_flow.flow:composition", a.C)] ++ b.outComp ++ bs.map fun n => (n ++ ":tot:composition", a.C))

noncomputable abbrev hpcE (a b : Stn) (Ti pr eff f fP fw : ℝ) : Env := hpcN ["cool1", "cool2", "cust"] a b Ti pr eff f fP fw

set_option hygiene false in
macro "hpc_converged_body " nm:term : tactic => `(tactic| (
  obtain ⟨q, P, Ps, W, C⟩ := a
  obtain ⟨q', P', Ps', W', C'⟩ := b
  simp only [Stn.h] at hW hP hC hh
  subst C'
  refine Group.converged_quick rfl (C55_interface unitGas cmap $nm _ true).1.1.1 ?_
  intro s hs
  simp only [compressor, compressorHead, Bool.false_eq_true, if_false, if_true, List.cons_append, List.nil_append,
    List.mem_cons, List.not_mem_nil, or_false, List.map_nil, List.map_cons] at hs
  rcases hs with rfl | rfl | rfl | rfl | rfl | rfl | rfl | rfl | rfl | rfl | rfl | rfl | rfl
  · exact trivial
  · exact ⟨by krfl, by krfl⟩
  · refine ⟨cmapE (nc ⟨q, P, Ps, W, C⟩) (wc ⟨q, P, Ps, W, C⟩) pr eff, cmap_converged _ _ _ _ _, ?_, ?_⟩
    · intro n hn
      have := (C54_compressor_interface cmap _).2 n |>.mp hn
      simp only [compressorMapInputs, if_true, Bool.false_eq_true, if_false, List.cons_append, List.nil_append] at this
      fin_cases this <;> exact ⟨by krfl, by krfl⟩
    · intro n hn
      have := cmap_outs _ hn
      fin_cases this <;> exact ⟨by krfl, by krfl⟩
  · kshow P' = pr * P
    exact hP
  · total_of (at_ Ti P')
  · kshow q' ^ 2 * 1.5 = (Ti - q ^ 2 * 1.5) / eff + q ^ 2 * 1.5
    exact hh
  · total_of (Stn.mk q' P' Ps' W' C).tot
  · kshow (1 : ℝ) = 1 * Real.log pr / (1 * Real.log pr + 0 - 0)
    exact eff_poly_one hpr
  · refine ⟨?_, by krfl, ?_, fun k => ?_⟩
    · kshow W' = W - W * f - W * f - W * f
      exact hW
    · kshow 5252.11 * hpcPower ⟨q, P, Ps, W, C⟩ ⟨q', P', Ps', W', C⟩ f fw
        = 5252.11 * hpcPower ⟨q, P, Ps, W, C⟩ ⟨q', P', Ps', W', C⟩ f fw / 1
      rw [div_one]
    · fin_cases k <;> exact ⟨by krfl, by krfl, by krfl⟩
  · total_of (tapped ⟨q, P, Ps, W, C⟩ ⟨q', P', Ps', W', C⟩ fP fw)
  · total_of (tapped ⟨q, P, Ps, W, C⟩ ⟨q', P', Ps', W', C⟩ fP fw)
  · total_of (tapped ⟨q, P, Ps, W, C⟩ ⟨q', P', Ps', W', C⟩ fP fw)
  · outlet_of (Stn.mk q' P' Ps' W' C) o))

set_option maxHeartbeats 4000000 in
private theorem hpc_converged_f {a b : Stn} {Ti pr eff f fP fw : ℝ} (o : b.Ok) (hpr : 1 < pr)
    (hW : b.W = a.W - a.W * f - a.W * f - a.W * f) (hC : b.C = a.C)
    (hP : b.P = pr * a.P) (hh : b.h = (Ti - a.h) / eff + a.h) :
    (compressor unitGas cmap ["cool1", "cool2", "cust"] false true).Converged (hpcE a b Ti pr eff f fP fw) := by
  hpc_converged_body HBTF.hpcNames

set_option maxHeartbeats 4000000 in
private theorem hpc_converged_t {a b : Stn} {Ti pr eff f fP fw : ℝ} (o : b.Ok) (hpr : 1 < pr)
    (hW : b.W = a.W - a.W * f - a.W * f - a.W * f) (hC : b.C = a.C)
    (hP : b.P = pr * a.P) (hh : b.h = (Ti - a.h) / eff + a.h) :
    (compressor unitGas cmap ["cool1", "cool2", "cust"] true true).Converged (hpcE a b Ti pr eff f fP fw) := by
  hpc_converged_body HBTF.hpcNames

theorem hpc_converged {a b : Stn} {Ti pr eff f fP fw : ℝ} (d : Bool) (o : b.Ok) (hpr : 1 < pr)
    (hW : b.W = a.W - a.W * f - a.W * f - a.W * f) (hC : b.C = a.C)
    (hP : b.P = pr * a.P) (hh : b.h = (Ti - a.h) / eff + a.h) :
    (compressor unitGas cmap ["cool1", "cool2", "cust"] d true).Converged (hpcE a b Ti pr eff f fP fw) := by
  cases d
  · exact hpc_converged_f o hpr hW hC hP hh
  · exact hpc_converged_t o hpr hW hC hP hh

end Bench
end PyCycle.OM
