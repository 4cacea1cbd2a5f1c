import Verif.Props.C69_MultiPoint
import Verif.Props.C69_Left
import Verif.Props.C67_Example

/-! # C69: the theorems apply

The names the example files give to off-design points meet the hypotheses; a multipoint turboshaft with a design and an
off-design point is solved. -/

namespace PyCycle.OM.C69Example

/-- `MPTurbojet`, `MPMultiSpool` and `MPMixedFlowTurbofan`, `MPSingleSpool`, `MPpropulsor`. -/
example : ("DESIGN" :: ["OD0", "OD1"]).Nodup ∧ ∀ n ∈ ["OD0", "OD1"], Plain n := by decide
example : ("DESIGN" :: ["OD"]).Nodup ∧ ∀ n ∈ ["OD"], Plain n := by decide
example : ("DESIGN" :: ["OD", "OD2"]).Nodup ∧ ∀ n ∈ ["OD", "OD2"], Plain n := by decide
example : ("design" :: ["off_design"]).Nodup ∧ ∀ n ∈ ["off_design"], Plain n := by decide

open C67Example

/-- A solved multipoint turboshaft; all its sizes are kept. -/
theorem applies : ∃ E, (mpMultiSpool parts ["OD"]).cycle.Solved E
    ∧ (mpMultiSpool parts ["OD"]).Keeps ["lpt.Fl_O:stat:area", "nozzle.Throat:stat:area", "hpt.s_PR"]
    ∧ 0 < E.num "OD.lpt.Fl_O:stat:area" ∧ E.num "OD.lpt.Fl_O:stat:area" = E.num "DESIGN.lpt.Fl_O:stat:area" := by
  obtain ⟨dTs, rho, h⟩ := solved
  have hn : ("DESIGN" :: ["OD"]).Nodup := by decide
  have hp : ∀ n ∈ ["OD"], Plain n := by decide
  obtain ⟨s, k⟩ := C69_multi_spool_partial parts hn hp
  obtain ⟨E, hE, hF⟩ := C69_together s (V := fun n => Env.glue (vals dTs rho (n == "DESIGN"))) (by
      intro n hn' o ho v e
      have hn' : n ∈ MST.mpParams := hn'
      have : ∀ n ∈ MST.mpParams, (cut n).1 ≠ "DESIGN" ∧ (cut n).1 ≠ "OD" := by decide +kernel
      have t := this n hn'
      rw [e, cut_dot (s.plain o ho)] at t
      have ho : o ∈ [(⟨"DESIGN", mst parts true⟩ : Point), ⟨"OD", mst parts false⟩] := ho
      simp only [List.mem_cons, List.not_mem_nil, or_false] at ho
      rcases ho with rfl | rfl
      · exact t.1 rfl
      · exact t.2 rfl)
    (by
      intro o ho
      have ho : o ∈ [(⟨"DESIGN", mst parts true⟩ : Point), ⟨"OD", mst parts false⟩] := ho
      simp only [List.mem_cons, List.not_mem_nil, or_false] at ho
      rcases ho with rfl | rfl
      · exact h true
      · exact h false)
    (by
      intro c hc o ho
      have ho : o ∈ [(⟨"OD", mst parts false⟩ : Point)] := ho
      simp only [List.mem_cons, List.not_mem_nil, or_false] at ho
      subst ho
      have hc : c ∈ MST.mpConns := hc
      simp only [MST.mpConns] at hc
      fin_cases hc <;> exact ⟨by krfl, by krfl⟩)
    (by intro x hx; cases hx)
    (by
      intro n hn' o ho
      have ho : o ∈ [(⟨"DESIGN", mst parts true⟩ : Point), ⟨"OD", mst parts false⟩] := ho
      have hn' : n ∈ MST.mpParams := hn'
      simp only [List.mem_cons, List.not_mem_nil, or_false] at ho
      simp only [MST.mpParams] at hn'
      rcases ho with rfl | rfl <;> fin_cases hn' <;> exact ⟨by krfl, by krfl⟩)
  have k' := k.sub (a := ["lpt.Fl_O:stat:area", "nozzle.Throat:stat:area", "hpt.s_PR"]) (by decide +kernel)
  have e := k' E hE ⟨"OD", mst parts false⟩ (List.mem_singleton.mpr rfl) "lpt.Fl_O:stat:area" (by simp)
  refine ⟨E, hE, k', ?_, e⟩
  have f := (hF ⟨"OD", mst parts false⟩ (List.mem_of_getElem? (i := 1) rfl)).outs "lpt.Fl_O:stat:area"
    ((MST.fit parts false).out (by decide +kernel))
  have : (0 : ℝ) < (Env.glue (vals dTs rho false)).num "lpt.Fl_O:stat:area" := by
    have e : (Env.glue (vals dTs rho false)).num "lpt.Fl_O:stat:area" = s45.W / s45.q := by krfl
    rw [e]; norm_num [s45]
  have g : E.num "OD.lpt.Fl_O:stat:area" = (Env.glue (vals dTs rho false)).num "lpt.Fl_O:stat:area" := f.1.symm
  rw [g]; exact this

end PyCycle.OM.C69Example
