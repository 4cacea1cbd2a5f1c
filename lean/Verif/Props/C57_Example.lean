import Verif.Proofs.Glue
import Verif.Props.C57_Network
import Verif.Props.C57_Accounts

/-! # C57: a converged cycle

A flow of 3 is started at total temperature 3/8, takes up heat in an off-design duct with a loss map, and is split 1
to 2. -/

namespace PyCycle.OM

namespace C57Example
open C48Example (unitGas)
open C50Example (mov mov_ok)
open C49

/-- At the start. -/
noncomputable def tot₀ : TG.Station := ⟨0.375, 4, 0.375, 0, 1, 1, 1, 1, 1⟩
noncomputable def sta₀ : TG.Station := ⟨0.25, 3, 0.25, 0, 1, 1, 1, 1, 1⟩
noncomputable def mov₀ : StaticState := ⟨1, 6, 0.5, 0.5⟩
/-- After the duct. -/
noncomputable def tot : TG.Station := C48Example.tot
noncomputable def sta : TG.Station := C48Example.sta

theorem mov₀_ok : IsStatic (sta₀.psIn 0.375 3) mov₀ ∧ 0 < sta₀.gamma * sta₀.R * sta₀.T ∧ 0 < sta₀.rho
    ∧ (0.375 : ℝ) ≠ 0 ∧ (1e-16 : ℝ) ≤ mov₀.MN ∧ mov₀.area ≠ 0 := by
  have hs : Real.sqrt 0.25 = 0.5 := by
    rw [show (0.25 : ℝ) = 0.5 ^ 2 by norm_num]; exact Real.sqrt_sq (by norm_num)
  refine ⟨⟨?_, ?_, ?_, ?_⟩, ?_, ?_, ?_, ?_, ?_⟩ <;> norm_num [TG.Station.psIn, sta₀, mov₀]
  norm_num at hs
  exact hs.symm

/-- The flow start. -/
noncomputable def fs : Env := Env.ofTable ([("T", 0.375), ("P", 4), ("MN", 1), ("W", 3)]
  ++ stationRows "totals." tot₀ ++ stationRows "Fl_O:tot:" tot₀
  ++ stationRows "exit_static." sta₀ ++ staticRows "exit_static." mov₀ 3
  ++ stationRows "Fl_O:stat:" sta₀ ++ staticRows "Fl_O:stat:" mov₀ 3) []

theorem fs_converged : (flowStart unitGas none).Converged fs := by
  refine Group.converged_quick (fw_eq unitGas none) (fw_nodup false) ?_
  intro s hs
  simp only [flowStart, List.nil_append, List.mem_cons, List.not_mem_nil, or_false] at hs
  rcases hs with rfl | rfl
  · total_of tot₀
  · static_of sta₀ mov₀ 0.375 3 (fun v => if v = .guessPt then 4 else 1) mov₀_ok

/-- The duct. -/
noncomputable def duct₁ : Env := Env.ofTable
  ([("s_dPqP", 0.5), ("dPqP", 0.5), ("area", 3), ("Q_dot", 3.375), ("p_loss.Pt_out", 2), ("q_calc.ht_out", 1.5),
    ("out_stat.guess:MN", 1)]
    ++ stationRows "Fl_I:tot:" tot₀ ++ stationRows "Fl_I:stat:" sta₀ ++ staticRows "Fl_I:stat:" mov₀ 3
    ++ stationRows "real_flow." tot ++ stationRows "Fl_O:tot:" tot ++ stationRows "out_stat." sta
    ++ stationRows "Fl_O:stat:" sta ++ staticRows "out_stat." (mov 3) 3 ++ staticRows "Fl_O:stat:" (mov 3) 3)
  []

theorem duct_converged : (duct unitGas false true 2 true).Converged duct₁ := by
  refine Group.converged_quick rfl (C50_duct_interface unitGas false true 2 true).1.1.1 ?_
  intro s hs
  simp only [duct, if_true, Bool.false_eq_true, if_false, List.cons_append, List.nil_append, List.mem_cons,
    List.not_mem_nil, or_false] at hs
  rcases hs with rfl | rfl | rfl | rfl | rfl | rfl
  · exact trivial
  · show (0.5 : ℝ) = 0.5 * 1 ^ (2 : ℝ)
    norm_num
  · show (2 : ℝ) = 4 * (1 - 0.5)
    norm_num
  · show (1.5 : ℝ) = 0.375 + 3.375 / 3
    norm_num
  · total_of tot
  · static_of sta (mov 3) 1.5 3 (fun v => if v = .guessPt then 2 else 1) (mov_ok 3 (by norm_num))

/-- The splitter. -/
noncomputable def split₁ : Env := Env.ofTable
  ([("BPR", 2), ("MN1", 1), ("MN2", 1), ("split_calc.W1", 1), ("split_calc.W2", 2)]
    ++ stationRows "Fl_I:tot:" tot ++ stationRows "Fl_I:stat:" sta ++ staticRows "Fl_I:stat:" (mov 3) 3
    ++ stationRows "real_flow1." tot ++ stationRows "Fl_O1:tot:" tot ++ stationRows "out1_stat." sta
    ++ stationRows "Fl_O1:stat:" sta ++ staticRows "out1_stat." (mov 1) 1 ++ staticRows "Fl_O1:stat:" (mov 1) 1
    ++ stationRows "real_flow2." tot ++ stationRows "Fl_O2:tot:" tot ++ stationRows "out2_stat." sta
    ++ stationRows "Fl_O2:stat:" sta ++ staticRows "out2_stat." (mov 2) 2 ++ staticRows "Fl_O2:stat:" (mov 2) 2)
  []

theorem split_converged : (splitter unitGas true true).Converged split₁ := by
  refine Group.converged_quick rfl (C50_splitter_interface unitGas true true).1.1.1 ?_
  intro s hs
  simp only [splitter, if_true, List.cons_append, List.nil_append, List.mem_cons, List.not_mem_nil,
    or_false] at hs
  rcases hs with rfl | rfl | rfl | rfl | rfl | rfl
  · exact trivial
  · show (1 : ℝ) = 3 / (2 + 1) ∧ (2 : ℝ) = 3 - 3 / (2 + 1)
    norm_num
  · total_of tot
  · total_of tot
  · static_of sta (mov 1) 1.5 1 (fun v => if v = .guessPt then 2 else 1) (mov_ok 1 (by norm_num))
  · static_of sta (mov 2) 1.5 2 (fun v => if v = .guessPt then 2 else 1) (mov_ok 2 (by norm_num))

/-- The cycle. -/
def cycle : Cycle :=
  { members :=
      [⟨"fs", flowStart unitGas none, [], []⟩, ⟨"duct", duct unitGas false true 2 true, [], []⟩,
       ⟨"split", splitter unitGas true true, [], []⟩]
    links := [{ src := ("fs", "Fl_O"), tgt := ("duct", "Fl_I") }, { src := ("duct", "Fl_O"), tgt := ("split", "Fl_I") }]
    others := [], conns := [] }

/-- Its accounts. -/
def acc : String → Account
  | "fs" => startAccount unitGas
  | "duct" => ductAccount unitGas
  | _ => splitterAccount unitGas

theorem network : cycle.Network acc where
  wired := by
    refine Cycle.wired_of (by decide +kernel) ?_ ?_ (by simp [cycle]) (by decide +kernel) ?_ (by simp [cycle])
    · intro s hs
      simp only [Cycle.group, cycle, List.map_cons, List.map_nil, List.append_nil, List.mem_cons, List.not_mem_nil,
        or_false] at hs
      rcases hs with rfl | rfl | rfl
      · exact (by decide : Plain "fs")
      · exact (by decide : Plain "duct")
      · exact (by decide : Plain "split")
    · simp only [cycle, List.forall_mem_cons]
      exact ⟨⟨trivial, (C49_interface unitGas none).1.1.2.1⟩, ⟨trivial, (C50_duct_interface _ _ _ _ _).1.1.2.1⟩,
        ⟨trivial, (C50_splitter_interface _ _ _).1.1.2.1⟩, by simp⟩
    · simp only [cycle, List.mem_cons, List.not_mem_nil, or_false, forall_eq_or_imp, forall_eq]
      refine ⟨⟨_, Or.inl rfl, _, Or.inr (Or.inl rfl), rfl, rfl, ?_, ?_⟩,
        ⟨_, Or.inr (Or.inl rfl), _, Or.inr (Or.inr rfl), rfl, rfl, ?_, ?_⟩⟩
      · exact (by decide +kernel : ∀ v ∈ linkOutVars, "Fl_O" ++ ":" ++ v ∈ (flowStart unitGas none).wiring.outs)
      · intro v hv
        refine ⟨((C50_duct_interface _ _ _ _ _).2 _).mpr ?_, rfl⟩
        exact (by decide +kernel : ∀ v ∈ linkInVars, "Fl_I" ++ ":" ++ v ∈ inletPort ++ ["flow_in.Fl_I:FAR"] ++ ductInputs false true true) v hv
      · exact (by decide +kernel : ∀ v ∈ linkOutVars, "Fl_O" ++ ":" ++ v ∈ (duct unitGas false true 2 true).wiring.outs)
      · intro v hv
        refine ⟨((C50_splitter_interface _ _ _).2 _).mpr ?_, rfl⟩
        refine List.mem_append_left _ (List.mem_append_left _ ?_)
        exact (by decide +kernel : ∀ v ∈ linkInVars, "Fl_I" ++ ":" ++ v ∈ flowVarNames "Fl_I") v hv
  accounts := by
    simp only [cycle, List.forall_mem_cons]
    exact ⟨C57_flow_start _ _, C57_duct _ _ _ _ _, C57_splitter _ _ _, by simp⟩
  plainIn := by
    simp only [cycle, List.forall_mem_cons]
    exact ⟨fun _ _ _ _ => rfl, fun _ _ _ _ => rfl, fun _ _ _ _ => rfl, by simp⟩
  plainOut := by
    simp only [cycle, List.forall_mem_cons]
    exact ⟨fun _ _ _ _ => rfl, fun _ _ _ _ => rfl, fun _ _ _ _ => rfl, by simp⟩
  linked := by simp [cycle, acc, startAccount, ductAccount, splitterAccount]

/-- Values of the elements. -/
noncomputable def vals : String → Env
  | "fs" => fs
  | "duct" => duct₁
  | _ => split₁

/-- The cycle is converged. -/
theorem converged : cycle.group.Converged (Env.glue vals) := by
  refine Cycle.converged_of ?_ ?_ ?_ (by simp [cycle])
  · intro s hs
    simp only [Cycle.group, cycle, List.map_cons, List.map_nil, List.append_nil, List.mem_cons, List.not_mem_nil,
      or_false] at hs
    rcases hs with rfl | rfl | rfl <;> exact Decl.Fits.none (by decide) rfl rfl
  · intro x hx
    simp only [Cycle.group, cycle, List.append_nil, List.mem_flatMap, List.mem_cons, List.not_mem_nil, or_false] at hx
    obtain ⟨l, rfl | rfl, hx⟩ := hx
    · refine Link.agrees (by decide) (by decide) ⟨rfl, rfl⟩ ?_ x hx
      intro v hv _
      fin_cases hv <;> exact ⟨by krfl, by krfl⟩
    · refine Link.agrees (by decide) (by decide) ⟨rfl, rfl⟩ ?_ x hx
      intro v hv _
      fin_cases hv <;> exact ⟨by krfl, by krfl⟩
  · simp only [cycle, List.forall_mem_cons]
    exact ⟨fs_converged, duct_converged, split_converged, by simp⟩

/-- The remaining hypotheses of `C57_mass` and `C57_energy` hold of it. -/
theorem guards :
    ((cycle.links.filter Link.carriesMass).map Link.src).Nodup
    ∧ ((cycle.links.filter Link.carriesEnergy).map Link.src).Nodup
    ∧ (∀ m ∈ cycle.members, (acc m.name).ok (cycle.view (Env.glue vals) m))
    ∧ (∀ l ∈ cycle.links, l.tot = true → (acc l.tgt.1).gas l.tgt.2 = (acc l.src.1).gas l.src.2)
    ∧ ∀ q ∈ cycle.openInlets acc Link.tot, (acc q.1.name).IsState (cycle.view (Env.glue vals) q.1) q.2 := by
  refine ⟨by decide, by decide, ?_, ?_, ?_⟩
  · simp only [cycle, List.forall_mem_cons]
    refine ⟨trivial, ?_, trivial, by simp⟩
    show (3 : ℝ) ≠ 0
    norm_num
  · simp only [cycle, List.forall_mem_cons]
    exact ⟨fun _ => rfl, fun _ => rfl, by simp⟩
  · intro q hq
    have h0 : (cycle.openInlets acc Link.tot).length = 0 := by decide +kernel
    rw [List.length_eq_zero_iff.mp h0] at hq
    cases hq

/-- The flow start feeds two ducts. -/
def doubled : Cycle :=
  { members :=
      [⟨"fs", flowStart unitGas none, [], []⟩, ⟨"duct", duct unitGas false true 2 true, [], []⟩,
       ⟨"duct2", duct unitGas false true 2 true, [], []⟩]
    links := [{ src := ("fs", "Fl_O"), tgt := ("duct", "Fl_I") }, { src := ("fs", "Fl_O"), tgt := ("duct2", "Fl_I") }]
    others := [], conns := [] }

noncomputable def doubledVals : String → Env
  | "fs" => fs
  | _ => duct₁

theorem doubled_converged : doubled.group.Converged (Env.glue doubledVals) := by
  refine Cycle.converged_of ?_ ?_ ?_ (by simp [doubled])
  · intro s hs
    simp only [Cycle.group, doubled, List.map_cons, List.map_nil, List.append_nil, List.mem_cons, List.not_mem_nil,
      or_false] at hs
    rcases hs with rfl | rfl | rfl <;> exact Decl.Fits.none (by decide) rfl rfl
  · intro x hx
    simp only [Cycle.group, doubled, List.append_nil, List.mem_flatMap, List.mem_cons, List.not_mem_nil, or_false] at hx
    obtain ⟨l, rfl | rfl, hx⟩ := hx
    · refine Link.agrees (by decide) (by decide) ⟨rfl, rfl⟩ ?_ x hx
      intro v hv _
      fin_cases hv <;> exact ⟨by krfl, by krfl⟩
    · refine Link.agrees (by decide) (by decide) ⟨rfl, rfl⟩ ?_ x hx
      intro v hv _
      fin_cases hv <;> exact ⟨by krfl, by krfl⟩
  · simp only [doubled, List.forall_mem_cons]
    exact ⟨fs_converged, duct_converged, duct_converged, by simp⟩

end C57Example

open C57Example C48Example in
/-- **C57 (refuted without the guard).** Linking an outlet to two inlets is accepted, and the cycle makes mass: a flow of
3 is started, a flow of 6 leaves. -/
theorem C57_refuted_two_inlets : doubled.group.wiring.Wired ∧ doubled.group.Converged (Env.glue doubledVals)
    ∧ (Env.glue doubledVals).num "fs.W" = 3
    ∧ (Env.glue doubledVals).num "duct.Fl_O:stat:W" + (Env.glue doubledVals).num "duct2.Fl_O:stat:W" = 6 := by
  refine ⟨?_, doubled_converged, rfl, ?_⟩
  · refine Cycle.wired_of (by decide +kernel) ?_ ?_ (by simp [doubled]) (by decide +kernel) ?_ (by simp [doubled])
    · intro s hs
      simp only [Cycle.group, doubled, List.map_cons, List.map_nil, List.append_nil, List.mem_cons, List.not_mem_nil,
        or_false] at hs
      rcases hs with rfl | rfl | rfl
      · exact (by decide : Plain "fs")
      · exact (by decide : Plain "duct")
      · exact (by decide : Plain "duct2")
    · simp only [doubled, List.forall_mem_cons]
      exact ⟨⟨trivial, (C49_interface unitGas none).1.1.2.1⟩, ⟨trivial, (C50_duct_interface _ _ _ _ _).1.1.2.1⟩,
        ⟨trivial, (C50_duct_interface _ _ _ _ _).1.1.2.1⟩, by simp⟩
    · have ho : ∀ v ∈ linkOutVars, "Fl_O" ++ ":" ++ v ∈ (flowStart unitGas none).wiring.outs := by decide +kernel
      have hi : ∀ v ∈ linkInVars, "Fl_I" ++ ":" ++ v ∈ (duct unitGas false true 2 true).wiring.externals
          ∧ promoted [] ("Fl_I" ++ ":" ++ v) = none := fun v hv =>
        ⟨((C50_duct_interface _ _ _ _ _).2 _).mpr ((by decide +kernel : ∀ v ∈ linkInVars,
          "Fl_I" ++ ":" ++ v ∈ inletPort ++ ["flow_in.Fl_I:FAR"] ++ ductInputs false true true) v hv), rfl⟩
      simp only [doubled, List.mem_cons, List.not_mem_nil, or_false, forall_eq_or_imp, forall_eq]
      exact ⟨⟨_, Or.inl rfl, _, Or.inr (Or.inl rfl), rfl, rfl, ho, hi⟩,
        ⟨_, Or.inl rfl, _, Or.inr (Or.inr rfl), rfl, rfl, ho, hi⟩⟩
  · show (3 : ℝ) + 3 = 6
    norm_num

end PyCycle.OM
