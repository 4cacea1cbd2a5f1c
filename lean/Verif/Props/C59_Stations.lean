import Verif.Proofs.Locals
import Verif.Props.C50_Stations

/-! # C59: off design with the design data, an element has its design state

For each element: a converged state of the element set up at design, whose outlet gas is moving (`Flowing`), is a
converged state of the element set up off design once the values named by `default_des_od_conns` are passed on, with
the same value of every variable the design element has (`Redesign`); and the passed values are all that the
off-design element needs beyond the design element's own inputs and starting guesses (`Supplied`). -/

namespace PyCycle.OM

/-- The design state with what is passed on, for elements whose outlet is `out_stat`. -/
def sized (E : Env) : Env :=
  E.over [("area", E.at "Fl_O:stat" "area"), ("out_stat.MN", E.at "Fl_O:stat" "MN")] []

theorem sized_keeps {E : Env} {w : Wiring} (h : ∀ n ∈ ["area", "out_stat.MN"], n ∉ w.outs ∧ n ∉ w.externals) :
    ∀ n, n ∈ w.outs ∨ n ∈ w.externals → (sized E).num n = E.num n ∧ (sized E).vec n = E.vec n :=
  Env.over_keeps h

theorem supplied_of {g g' : Group} {cs : List (String × String)} {l l' : List String}
    (h : ∀ n, n ∈ g.wiring.externals ↔ n ∈ l) (h' : ∀ n, n ∈ g'.wiring.externals ↔ n ∈ l')
    (k : ∀ n ∈ l', n ∈ l ∨ n ∈ cs.map (·.2) ∨ n ∈ g'.subs.map fun s => s.name ++ ".guess:MN") : Supplied g g' cs := by
  intro n hn
  rcases k n ((h' n).mp hn) with e | e | e
  · exact Or.inl ((h n).mpr e)
  · exact Or.inr (Or.inl e)
  · obtain ⟨s, hs, rfl⟩ := List.mem_map.mp e
    exact Or.inr (Or.inr ⟨s, hs, rfl⟩)

/-! ## Inlet -/

/-- **C59 (inlet).** -/
theorem C59_inlet (gas : (ℕ → ℝ) → TPGas) (E : Env) (hc : (inlet gas true true).Converged E)
    (F : Flowing E "Fl_O:tot" "Fl_O:stat") :
    ∃ E', Redesign (inlet gas true true) (inlet gas false true) areaConns E E' := by
  have hw := (C50_inlet_interface gas true true).1.1
  refine ⟨sized E, Group.redesign_area hw (C50_inlet_interface gas false true).1.1 rfl
    (sized_keeps ?_) hc (gas := gas) (pI := [.as "composition" "Fl_I:tot:composition", .as "W" "Fl_I:stat:W", .var "MN"])
    (pI' := [.as "composition" "Fl_I:tot:composition", .as "W" "Fl_I:stat:W", .var "area"]) ?_ ?_ rfl ?_ ?_ rfl rfl F ?_⟩
  · show ∀ n ∈ ["area", "out_stat.MN"], n ∉ (inlet gas0 true true).wiring.outs ∧ n ∉ (inlet gas0 true true).wiring.externals
    decide +kernel
  · simp [inlet]
  · intro v hv; fin_cases hv <;> rfl
  · rw [(C50_inlet_interface gas false true).2]; simp
  · exact Wiring.src_conn hw (by simp [Group.wiring, inlet, statConns]; tauto)
  · simp only [inlet, if_true, List.cons_append, List.nil_append, List.forall_mem_cons]
    refine ⟨by shared, by shared, by shared, Or.inl rfl, by simp⟩

/-- **C59 (inlet, inputs).** -/
theorem C59_inlet_supplied (gas : (ℕ → ℝ) → TPGas) :
    Supplied (inlet gas true true) (inlet gas false true) areaConns := by
  refine supplied_of (C50_inlet_interface gas true true).2 (C50_inlet_interface gas false true).2 ?_
  show ∀ n ∈ inletPort ++ ["flow_in.Fl_I:FAR", "ram_recovery"] ++ ["area", "out_stat.guess:MN"],
    n ∈ inletPort ++ ["flow_in.Fl_I:FAR", "ram_recovery"] ++ ["MN"] ∨ n ∈ areaConns.map (·.2)
    ∨ n ∈ (inlet gas false true).subs.map fun s => s.name ++ ".guess:MN"
  have : (inlet gas false true).subs.map (fun s => s.name ++ ".guess:MN")
      = (inlet gas0 false true).subs.map fun s => s.name ++ ".guess:MN" := rfl
  rw [this]
  decide +kernel

/-! ## Combustor -/

/-- **C59 (combustor).** -/
theorem C59_combustor (gas : (ℕ → ℝ) → TPGas) (a : Adder) (ha : a.Named) (E : Env)
    (hc : (combustor gas a true true).Converged E) (F : Flowing E "Fl_O:tot" "Fl_O:stat") :
    ∃ E', Redesign (combustor gas a true true) (combustor gas a false true) areaConns E E' := by
  have hw := (C48_interface gas a true true).1.1
  refine ⟨sized E, Group.redesign_area hw (C48_interface gas a false true).1.1 rfl
    (sized_keeps ?_) hc (gas := gas) (pI := [.var "MN"]) (pI' := [.var "area"]) ?_ ?_ rfl ?_ ?_ rfl rfl F ?_⟩
  · show ∀ n ∈ ["area", "out_stat.MN"], n ∉ (combustor gas0 (.tab 1 0) true true).wiring.outs
      ∧ n ∉ (combustor gas0 (.tab 1 0) true true).wiring.externals
    decide +kernel
  · simp [combustor]
  · intro v hv; fin_cases hv <;> rfl
  · rw [(C48_interface gas a false true).2]; simp
  · exact Wiring.src_conn hw (by simp [Group.wiring, combustor, statConns]; tauto)
  · simp only [combustor, if_true, List.cons_append, List.nil_append, List.forall_mem_cons]
    exact ⟨by shared, Or.inr (Or.inl ⟨by simp, reactantSub_local ha _ _ _⟩), by shared, by shared, Or.inl rfl, by simp⟩

/-- **C59 (combustor, inputs).** -/
theorem C59_combustor_supplied (gas : (ℕ → ℝ) → TPGas) (a : Adder) :
    Supplied (combustor gas a true true) (combustor gas a false true) areaConns := by
  refine supplied_of (C48_interface gas a true true).2 (C48_interface gas a false true).2 ?_
  have : (combustor gas a false true).subs.map (fun s => s.name ++ ".guess:MN")
      = (combustor gas0 (.tab 1 0) false true).subs.map fun s => s.name ++ ".guess:MN" := rfl
  rw [this]
  decide +kernel

/-! ## Duct -/

/-- `MachPressureLossMap` as the subsystem `dPqP_MN` (duct.py:182-192). -/
private def lossSub (d : Bool) (x : ℝ) : Sub :=
  if d then
    { name := "dPqP_MN", ins := ["MN_in", "dPqP"], outs := ["s_dPqP"]
      promI := [.var "dPqP", .as "MN_in" "Fl_I:stat:MN"], promO := [.var "s_dPqP"]
      eqn := fun i o => o.num "s_dPqP" = Duct.lossMap true x
        (fun | .MN_in => i.num "MN_in" | .given => i.num "dPqP") }
  else
    { name := "dPqP_MN", ins := ["MN_in", "s_dPqP"], outs := ["dPqP"]
      promI := [.var "s_dPqP", .as "MN_in" "Fl_I:stat:MN"], promO := [.var "dPqP"]
      eqn := fun i o => o.num "dPqP" = Duct.lossMap false x
        (fun | .MN_in => i.num "MN_in" | .given => i.num "s_dPqP") }

private theorem duct_redesign (gas : (ℕ → ℝ) → TPGas) (x : ℝ) (m : Bool) (E E' : Env)
    (hc : (duct gas true true x m).Converged E) (F : Flowing E "Fl_O:tot" "Fl_O:stat")
    (hE : ∀ n, n ∈ (duct gas true true x m).wiring.outs ∨ n ∈ (duct gas true true x m).wiring.externals →
      E'.num n = E.num n ∧ E'.vec n = E.vec n)
    (va : E'.num "area" = E.at "Fl_O:stat" "area") (vm : E'.num "out_stat.MN" = E.at "Fl_O:stat" "MN")
    (hm : m = true → E.num "Fl_I:stat:MN" ^ x ≠ 0) :
    Redesign (duct gas true true x m) (duct gas false true x m) areaConns E E' := by
  have hw := (C50_duct_interface gas true true x m).1.1
  refine Group.redesign_area hw (C50_duct_interface gas false true x m).1.1 rfl hE hc (gas := gas)
    (pI := [.as "composition" "Fl_I:tot:composition", .as "W" "Fl_I:stat:W", .var "MN"])
    (pI' := [.as "composition" "Fl_I:tot:composition", .as "W" "Fl_I:stat:W", .var "area"]) ?_ ?_ rfl ?_ ?_ va vm F ?_
  · simp [duct]
  · intro v hv; fin_cases hv <;> rfl
  · rw [(C50_duct_interface gas false true x m).2]; simp [ductInputs]
  · exact Wiring.src_conn hw (by simp [Group.wiring, duct, statConns]; tauto)
  · cases m
    · simp only [duct, Bool.false_eq_true, if_false, if_true, List.cons_append, List.nil_append, List.forall_mem_cons]
      exact ⟨by shared, by shared, by shared, by shared, Or.inl trivial, by simp⟩
    · have hmap := hc _ (show lossSub true x ∈ (duct gas true true x true).subs from List.mem_cons_of_mem _ List.mem_cons_self)
      have k1 : (duct gas true true x true).wiring.src "Fl_I:stat:MN" = "Fl_I:stat:MN" := by
        show (duct gas0 true true 0 true).wiring.src "Fl_I:stat:MN" = _
        decide +kernel
      have k2 : (duct gas true true x true).wiring.src "dPqP" = "dPqP" := by
        show (duct gas0 true true 0 true).wiring.src "dPqP" = _
        decide +kernel
      have k3 : (duct gas false true x true).wiring.src "Fl_I:stat:MN" = "Fl_I:stat:MN" := by
        show (duct gas0 false true 0 true).wiring.src "Fl_I:stat:MN" = _
        decide +kernel
      have k4 : (duct gas false true x true).wiring.src "s_dPqP" = "s_dPqP" := by
        show (duct gas0 false true 0 true).wiring.src "s_dPqP" = _
        decide +kernel
      have hmap : E.num "s_dPqP" = E.num ((duct gas true true x true).wiring.src "dPqP")
          / E.num ((duct gas true true x true).wiring.src "Fl_I:stat:MN") ^ x := hmap
      rw [k1, k2] at hmap
      have key : (lossSub false x).eqn ((duct gas false true x true).wiring.reads E' (lossSub false x).toDecl)
          (writes E' (lossSub false x).toDecl) := by
        show E'.num "dPqP" = E'.num ((duct gas false true x true).wiring.src "s_dPqP")
          * E'.num ((duct gas false true x true).wiring.src "Fl_I:stat:MN") ^ x
        have e : ∀ n ∈ ["dPqP", "s_dPqP", "Fl_I:stat:MN"], E'.num n = E.num n := by
          intro n hn
          refine (hE n ?_).1
          show n ∈ (duct gas0 true true 0 true).wiring.outs ∨ n ∈ (duct gas0 true true 0 true).wiring.externals
          revert n; decide +kernel
        rw [k3, k4, e _ (by decide), e _ (by decide), e _ (by decide), hmap, div_mul_cancel₀ _ (hm rfl)]
      simp only [duct, Bool.false_eq_true, if_false, if_true, List.cons_append, List.nil_append, List.forall_mem_cons]
      exact ⟨by shared, Or.inr (Or.inr key), by shared, by shared, by shared, Or.inl trivial, by simp⟩

private theorem duct_fresh (gas : (ℕ → ℝ) → TPGas) (x : ℝ) (m : Bool) : ∀ n ∈ ["area", "out_stat.MN"],
    n ∉ (duct gas true true x m).wiring.outs ∧ n ∉ (duct gas true true x m).wiring.externals := by
  have h : ∀ m, ∀ n ∈ ["area", "out_stat.MN"],
      n ∉ (duct gas0 true true 0 m).wiring.outs ∧ n ∉ (duct gas0 true true 0 m).wiring.externals := by decide +kernel
  have e : (duct gas true true x m).wiring = (duct gas0 true true 0 m).wiring := by cases m <;> rfl
  rw [e]
  exact h m

/-- **C59 (duct).** Without a loss map. -/
theorem C59_duct (gas : (ℕ → ℝ) → TPGas) (x : ℝ) (E : Env) (hc : (duct gas true true x false).Converged E)
    (F : Flowing E "Fl_O:tot" "Fl_O:stat") :
    ∃ E', Redesign (duct gas true true x false) (duct gas false true x false) areaConns E E' :=
  ⟨sized E, duct_redesign gas x false E _ hc F (sized_keeps (duct_fresh gas x false)) rfl rfl (by intro h; cases h)⟩

/-- **C59 (duct with a loss map).** Here the scaled loss must be passed on too; `default_des_od_conns` does not do it
(`C59_duct_refuted_supplied`). -/
theorem C59_duct_map (gas : (ℕ → ℝ) → TPGas) (x : ℝ) (E : Env) (hc : (duct gas true true x true).Converged E)
    (F : Flowing E "Fl_O:tot" "Fl_O:stat") (hm : E.num "Fl_I:stat:MN" ^ x ≠ 0) :
    ∃ E', Redesign (duct gas true true x true) (duct gas false true x true) (areaConns ++ [("s_dPqP", "s_dPqP")]) E E' := by
  have hk := sized_keeps (E := E) (duct_fresh gas x true)
  have r := duct_redesign gas x true E _ hc F hk rfl rfl fun _ => hm
  refine ⟨_, r.converged, r.keeps, ?_⟩
  intro c hc'
  rcases List.mem_append.mp hc' with h | h
  · exact r.passed c h
  · rw [List.mem_singleton.mp h]
    refine (r.keeps _ (Or.inl ?_)).1
    show "s_dPqP" ∈ (duct gas0 true true 0 true).wiring.outs
    decide +kernel

/-- **C59 (duct, inputs).** Without a loss map. -/
theorem C59_duct_supplied (gas : (ℕ → ℝ) → TPGas) (x : ℝ) :
    Supplied (duct gas true true x false) (duct gas false true x false) areaConns := by
  refine supplied_of (C50_duct_interface gas true true x false).2 (C50_duct_interface gas false true x false).2 ?_
  have : (duct gas false true x false).subs.map (fun s => s.name ++ ".guess:MN")
      = (duct gas0 false true 0 false).subs.map fun s => s.name ++ ".guess:MN" := rfl
  rw [this]
  decide +kernel

/-- **C59 (duct with a loss map, inputs).** -/
theorem C59_duct_map_supplied (gas : (ℕ → ℝ) → TPGas) (x : ℝ) :
    Supplied (duct gas true true x true) (duct gas false true x true) (areaConns ++ [("s_dPqP", "s_dPqP")]) := by
  refine supplied_of (C50_duct_interface gas true true x true).2 (C50_duct_interface gas false true x true).2 ?_
  have : (duct gas false true x true).subs.map (fun s => s.name ++ ".guess:MN")
      = (duct gas0 false true 0 true).subs.map fun s => s.name ++ ".guess:MN" := rfl
  rw [this]
  decide +kernel

/-- **C59 (duct with a loss map, refuted).** What `default_des_od_conns` passes on is not all that a duct with a loss
map needs: the scaled loss `s_dPqP` is an input off design that no design input or passed value supplies. -/
theorem C59_duct_refuted_supplied (gas : (ℕ → ℝ) → TPGas) (x : ℝ) :
    "s_dPqP" ∈ (duct gas false true x true).wiring.externals
    ∧ ¬ Supplied (duct gas true true x true) (duct gas false true x true) areaConns := by
  have h : "s_dPqP" ∈ (duct gas false true x true).wiring.externals := by
    rw [(C50_duct_interface gas false true x true).2]; simp [ductInputs]
  refine ⟨h, fun hs => ?_⟩
  rcases hs _ h with h | h | ⟨s, hs, e⟩
  · rw [(C50_duct_interface gas true true x true).2] at h
    revert h; decide +kernel
  · revert h; decide
  · have : (duct gas false true x true).subs.map (fun s => s.name ++ ".guess:MN")
      = (duct gas0 false true 0 true).subs.map fun s => s.name ++ ".guess:MN" := rfl
    have hm : "s_dPqP" ∈ (duct gas false true x true).subs.map fun s => s.name ++ ".guess:MN" :=
      List.mem_map.mpr ⟨s, hs, e.symm⟩
    rw [this] at hm
    revert hm; decide +kernel

/-! ## Splitter -/

/-- **C59 (splitter).** -/
theorem C59_splitter (gas : (ℕ → ℝ) → TPGas) (E : Env) (hc : (splitter gas true true).Converged E)
    (F1 : Flowing E "Fl_O1:tot" "Fl_O1:stat") (F2 : Flowing E "Fl_O2:tot" "Fl_O2:stat") :
    ∃ E', Redesign (splitter gas true true) (splitter gas false true) splitterConns E E' := by
  have hw := (C50_splitter_interface gas true true).1.1
  have hw' := (C50_splitter_interface gas false true).1.1
  have hcon : (splitter gas false true).conns = (splitter gas true true).conns := rfl
  have hsub : ∀ c ∈ (splitter gas false true).conns, c ∈ (splitter gas true true).conns := fun _ h => h
  set E' := E.over [("area1", E.at "Fl_O1:stat" "area"), ("out1_stat.MN", E.at "Fl_O1:stat" "MN"),
    ("area2", E.at "Fl_O2:stat" "area"), ("out2_stat.MN", E.at "Fl_O2:stat" "MN")] [] with hE'
  have hE : ∀ n, n ∈ (splitter gas true true).wiring.outs ∨ n ∈ (splitter gas true true).wiring.externals →
      E'.num n = E.num n ∧ E'.vec n = E.vec n := by
    refine Env.over_keeps ?_
    show ∀ n ∈ ["area1", "out1_stat.MN", "area2", "out2_stat.MN"],
      n ∉ (splitter gas0 true true).wiring.outs ∧ n ∉ (splitter gas0 true true).wiring.externals
    decide +kernel
  have key : ∀ s, s ∈ (splitter gas true true).subs → s.Local →
      s.eqn ((splitter gas false true).wiring.reads E' s.toDecl) (writes E' s.toDecl) := fun s h1 h2 =>
    Group.same_sub hw hw' hsub hE hc h1 h2 fun c h _ _ _ => h
  have hq : ∀ q ∈ thermoOuts .static_A, q.2.2 ∉ (thermoOuts .static_MN).map (·.2.2) → q.2.2 = .MN := by decide +kernel
  have fr : ∀ n ∈ ["area1", "area2"], (splitter gas false true).wiring.src n = n := by
    show ∀ n ∈ ["area1", "area2"], (splitter gas0 false true).wiring.src n = n
    decide +kernel
  have o1 : (thermo gas "out1_stat" .static_A "Fl_O1:stat"
      [.as "composition" "Fl_I:tot:composition", .as "area" "area1"] [.pre "Fl_O1:stat:"]).eqn
      ((splitter gas false true).wiring.reads E' (thermo gas "out1_stat" .static_A "Fl_O1:stat"
        [.as "composition" "Fl_I:tot:composition", .as "area" "area1"] [.pre "Fl_O1:stat:"]).toDecl)
      (writes E' (thermo gas "out1_stat" .static_A "Fl_O1:stat"
        [.as "composition" "Fl_I:tot:composition", .as "area" "area1"] [.pre "Fl_O1:stat:"]).toDecl) := by
    refine Group.outlet_redesign hw hw' hsub hE hc (m := .static_MN)
      (pI := [.as "composition" "Fl_I:tot:composition", .as "MN" "MN1"]) rfl ?_ ?_ (fun c h _ _ _ => h) ?_ ?_ ?_
      F1.sound F1.dense ?_ F1.mach F1.size (by intro h; cases h)
    · simp [splitter]
    · intro v hv; fin_cases hv <;> rfl
    · show ∀ v ∈ TG.flowVars ++ statVars, (promoted [.pre "Fl_O1:stat:"] ("Fl_O1:stat" ++ ":" ++ nm v)).getD
          ("out1_stat" ++ "." ++ ("Fl_O1:stat" ++ ":" ++ nm v)) = "Fl_O1:stat" ++ ":" ++ nm v
      decide +kernel
    · show E'.num ((splitter gas false true).wiring.src "area1") = _
      rw [fr _ (by decide)]; rfl
    · intro q h1 h2
      rw [hq q h1 h2]; rfl
    · have : (splitter gas true true).wiring.src "out1_stat.ht" = "Fl_O1:tot:h" :=
        Wiring.src_conn hw (by simp [Group.wiring, splitter, statConns])
      show E.num ((splitter gas true true).wiring.src "out1_stat.ht") ≠ 0
      rw [this]; exact F1.energy
  have o2 : (thermo gas "out2_stat" .static_A "Fl_O2:stat"
      [.as "composition" "Fl_I:tot:composition", .as "area" "area2"] [.pre "Fl_O2:stat:"]).eqn
      ((splitter gas false true).wiring.reads E' (thermo gas "out2_stat" .static_A "Fl_O2:stat"
        [.as "composition" "Fl_I:tot:composition", .as "area" "area2"] [.pre "Fl_O2:stat:"]).toDecl)
      (writes E' (thermo gas "out2_stat" .static_A "Fl_O2:stat"
        [.as "composition" "Fl_I:tot:composition", .as "area" "area2"] [.pre "Fl_O2:stat:"]).toDecl) := by
    refine Group.outlet_redesign hw hw' hsub hE hc (m := .static_MN)
      (pI := [.as "composition" "Fl_I:tot:composition", .as "MN" "MN2"]) rfl ?_ ?_ (fun c h _ _ _ => h) ?_ ?_ ?_
      F2.sound F2.dense ?_ F2.mach F2.size (by intro h; cases h)
    · simp [splitter]
    · intro v hv; fin_cases hv <;> rfl
    · show ∀ v ∈ TG.flowVars ++ statVars, (promoted [.pre "Fl_O2:stat:"] ("Fl_O2:stat" ++ ":" ++ nm v)).getD
          ("out2_stat" ++ "." ++ ("Fl_O2:stat" ++ ":" ++ nm v)) = "Fl_O2:stat" ++ ":" ++ nm v
      decide +kernel
    · show E'.num ((splitter gas false true).wiring.src "area2") = _
      rw [fr _ (by decide)]; rfl
    · intro q h1 h2
      rw [hq q h1 h2]; rfl
    · have : (splitter gas true true).wiring.src "out2_stat.ht" = "Fl_O2:tot:h" :=
        Wiring.src_conn hw (by simp [Group.wiring, splitter, statConns])
      show E.num ((splitter gas true true).wiring.src "out2_stat.ht") ≠ 0
      rw [this]; exact F2.energy
  refine ⟨E', ?_, hE, ?_⟩
  · intro s hs
    have : s = thermo gas "out1_stat" .static_A "Fl_O1:stat"
        [.as "composition" "Fl_I:tot:composition", .as "area" "area1"] [.pre "Fl_O1:stat:"]
      ∨ s = thermo gas "out2_stat" .static_A "Fl_O2:stat"
        [.as "composition" "Fl_I:tot:composition", .as "area" "area2"] [.pre "Fl_O2:stat:"]
      ∨ s ∈ (splitter gas true true).subs ∧ s.Local := by
      revert s
      simp only [splitter, if_true, List.cons_append, List.nil_append, List.forall_mem_cons]
      refine ⟨Or.inr (Or.inr ⟨by simp, flowIn_local _ _ _ _⟩), Or.inr (Or.inr ⟨by simp, by local_sub⟩),
        Or.inr (Or.inr ⟨by simp, thermo_local _ _ _ _ _ _⟩), Or.inr (Or.inr ⟨by simp, thermo_local _ _ _ _ _ _⟩),
        Or.inl rfl, Or.inr (Or.inl rfl), by simp⟩
    rcases this with rfl | rfl | h
    · exact o1
    · exact o2
    · exact key s h.1 h.2
  · intro c hc'
    simp only [splitterConns, List.mem_cons, List.not_mem_nil, or_false] at hc'
    rcases hc' with rfl | rfl <;> rfl

/-- **C59 (splitter, inputs).** -/
theorem C59_splitter_supplied (gas : (ℕ → ℝ) → TPGas) :
    Supplied (splitter gas true true) (splitter gas false true) splitterConns := by
  refine supplied_of (C50_splitter_interface gas true true).2 (C50_splitter_interface gas false true).2 ?_
  have : (splitter gas false true).subs.map (fun s => s.name ++ ".guess:MN")
      = (splitter gas0 false true).subs.map fun s => s.name ++ ".guess:MN" := rfl
  rw [this]
  decide +kernel

end PyCycle.OM
