import Verif.Props.C51_Mixer
import Verif.Props.C59_Stations

/-! # C59: off design with the design data, the mixer has its design state -/

namespace PyCycle.OM

private theorem mix_eq (gas : (ℕ → ℝ) → TPGas) (a : FlowAdder) (f d : Bool) :
    (mixer gas a f d).wiring = (mixer gas0 (.tab 1) f d).wiring := by
  cases f <;> cases d <;> rfl

private def calcI (f d : Bool) : List Prom :=
  [.as "composition" (mixK f ++ ":tot:composition"), .as "S" (mixK f ++ ":tot:S"), .as "ht" (mixK f ++ ":tot:h"),
    .as "W" (mixK f ++ ":stat:W")]
  ++ (if d then [.as "Ps" (mixO f ++ ":stat:P")]
    else [.as "guess:Pt" (mixK f ++ ":tot:P"), .as "guess:gamt" (mixK f ++ ":tot:gamma")])

private abbrev calcSub (gas : (ℕ → ℝ) → TPGas) (f d : Bool) : Sub :=
  thermo gas (mixK f ++ "_stat_calc") (if d then .static_Ps else .static_A) (mixK f ++ "_calc:stat") (calcI f d)
    [.pre (mixK f ++ "_calc:stat")]

private theorem mix_conns (gas : (ℕ → ℝ) → TPGas) (a : FlowAdder) (f : Bool) : ∀ c ∈ (mixer gas a f true).conns,
    c.2 = "area_calc." ++ mixK f ++ ":stat:area" ∨ c ∈ (mixer gas a f false).conns := by
  have e : ∀ d, (mixer gas a f d).conns = (mixer gas0 (.tab 1) f d).conns := fun d => by cases f <;> cases d <;> rfl
  rw [e, e]
  have : ∀ f, ∀ c ∈ (mixer gas0 (.tab 1) f true).conns,
    c.2 = "area_calc." ++ mixK f ++ ":stat:area" ∨ c ∈ (mixer gas0 (.tab 1) f false).conns := by decide +kernel
  exact this f

private theorem balance_local (bs) (pI pO : List Prom) : (balanceComp bs pI pO).Local := by
  intro i i' o o' hi _ e b hb
  have k : ∀ v ∈ [b.2.1, b.2.2], i.num v = i'.num v := fun v hv => (hi v (List.mem_flatMap.mpr ⟨b, hb, hv⟩)).1
  rw [← k _ (by simp), ← k _ (by simp)]
  exact e b hb

/-- **C59 (mixer).** The gas of the recomputed stream is moving and has a static enthalpy below its total one. -/
theorem C59_mixer (gas : (ℕ → ℝ) → TPGas) (a : FlowAdder) (f : Bool) (E : Env) (hc : (mixer gas a f true).Converged E)
    (F : Flowing E (mixK f ++ ":tot") (mixK f ++ "_calc:stat"))
    (hh : E.at (mixK f ++ "_calc:stat") "h" < E.at (mixK f ++ ":tot") "h") :
    ∃ E', Redesign (mixer gas a f true) (mixer gas a f false) (mixerConns f) E E' := by
  have hw := (C51_interface gas a f true).1.1
  have hw' := (C51_interface gas a f false).1.1
  set E' := E.over [(mixK f ++ "_stat_calc.Ps", E.at (mixK f ++ "_calc:stat") "P")] [] with hE'
  have hE : ∀ n, n ∈ (mixer gas a f true).wiring.outs ∨ n ∈ (mixer gas a f true).wiring.externals →
      E'.num n = E.num n ∧ E'.vec n = E.vec n := by
    refine Env.over_keeps ?_
    rw [mix_eq]
    have : ∀ f, ∀ n ∈ [mixK f ++ "_stat_calc.Ps"],
      n ∉ (mixer gas0 (.tab 1) f true).wiring.outs ∧ n ∉ (mixer gas0 (.tab 1) f true).wiring.externals := by decide +kernel
    exact this f
  have hsub : ∀ c ∈ (mixer gas a f false).conns, c ∈ (mixer gas a f true).conns := by
    intro c h
    cases f <;> exact List.mem_append_right _ h
  have hcalc : calcSub gas f true ∈ (mixer gas a f true).subs := by
    cases f <;> simp [mixer, calcSub, calcI, mixK, mixO]
  have hx : ∀ s ∈ (mixer gas a f false).subs, ∀ c ∈ (mixer gas a f true).conns, ∀ v ∈ s.ins, c.2 = s.inName v →
      c ∈ (mixer gas a f false).conns := by
    intro s hs c h v hv e
    refine (mix_conns gas a f c h).resolve_left fun e' => ?_
    have h1 := Group.mem_ins hs hv
    rw [← e, e', mix_eq] at h1
    have : ∀ f, "area_calc." ++ mixK f ++ ":stat:area" ∉ (mixer gas0 (.tab 1) f false).wiring.ins := by decide +kernel
    exact this f h1
  have key : ∀ s, s ∈ (mixer gas a f false).subs → s ∈ (mixer gas a f true).subs → s.Local →
      s.eqn ((mixer gas a f false).wiring.reads E' s.toDecl) (writes E' s.toDecl) := fun s h0 h1 h2 =>
    Group.same_sub hw hw' hsub hE hc h1 h2 (hx s h0)
  have hcp := thermo_copies (hc _ hcalc)
  have harea : E.num (mixK f ++ "_stat_calc.area") = E.at (mixK f ++ "_calc:stat") "area" := by
    have hq : ∃ q ∈ thermoOuts (if true then .static_Ps else .static_A), q.2.2 = .area := by decide +kernel
    obtain ⟨q, hq, e⟩ := hq
    have := hcp q hq
    rw [e] at this
    cases f <;> exact this
  have hcon : ∀ c ∈ (mixer gas a f true).conns, ∀ v ∈ ["S", "ht", "W", "composition"],
      c.2 = (calcSub gas f true).inName v → c ∈ (mixer gas a f false).conns := by
    intro c h v hv e
    refine (mix_conns gas a f c h).resolve_left fun e' => ?_
    rw [e'] at e
    have : ∀ f, ∀ v ∈ ["S", "ht", "W", "composition"],
      "area_calc." ++ mixK f ++ ":stat:area" ≠ (calcSub gas0 f true).inName v := by decide +kernel
    exact this f v hv e
  have hht : (mixer gas a f true).wiring.src ((calcSub gas f true).inName "ht") = mixK f ++ ":tot" ++ ":" ++ "h" := by
    rw [mix_eq]
    have : ∀ f, (mixer gas0 (.tab 1) f true).wiring.src ((calcSub gas0 f true).inName "ht")
        = mixK f ++ ":tot" ++ ":" ++ "h" := by
      decide +kernel
    exact this f
  have o1 : (calcSub gas f false).eqn ((mixer gas a f false).wiring.reads E' (calcSub gas f false).toDecl)
      (writes E' (calcSub gas f false).toDecl) := by
    refine Group.outlet_redesign hw hw' hsub hE hc (m := .static_Ps) (pI := calcI f true) rfl hcalc ?_ hcon ?_ ?_ ?_
      F.sound F.dense ?_ F.mach F.size ?_
    · have : ∀ f, ∀ v ∈ ["S", "ht", "W", "composition"], (calcSub gas0 f false).inName v = (calcSub gas0 f true).inName v := by
        decide +kernel
      exact this f
    · have : ∀ f, ∀ v ∈ TG.flowVars ++ statVars, (calcSub gas0 f true).outName (mixK f ++ "_calc:stat" ++ ":" ++ nm v)
          = mixK f ++ "_calc:stat" ++ ":" ++ nm v := by decide +kernel
      exact this f
    · have e1 : (mixer gas a f false).wiring.src ((calcSub gas f false).inName "area") = mixK f ++ "_stat_calc.area" := by
        rw [mix_eq]
        have : ∀ f, (mixer gas0 (.tab 1) f false).wiring.src ((calcSub gas0 f false).inName "area")
            = mixK f ++ "_stat_calc.area" := by decide +kernel
        exact this f
      have e2 : mixK f ++ "_stat_calc.area" ∈ (mixer gas a f true).wiring.outs := by
        rw [mix_eq]
        have : ∀ f, mixK f ++ "_stat_calc.area" ∈ (mixer gas0 (.tab 1) f true).wiring.outs := by decide +kernel
        exact this f
      exact (congrArg E'.num e1).trans ((hE _ (Or.inl e2)).1.trans harea)
    · intro q h1 h2
      have : ∀ q ∈ thermoOuts .static_A, q.2.2 ∉ (thermoOuts .static_Ps).map (·.2.2) → q.2.2 = .Ps := by decide +kernel
      rw [this q h1 h2]
      cases f <;> rfl
    · exact fun h => F.energy ((congrArg E.num hht).symm.trans h)
    · exact fun _ => lt_of_lt_of_eq hh (congrArg E.num hht).symm
  refine ⟨E', ?_, hE, ?_⟩
  · intro s hs
    have : s = calcSub gas f false ∨ s ∈ (mixer gas a f true).subs ∧ s.Local := by
      revert s
      cases f
      all_goals
        simp only [mixer, Bool.false_eq_true, if_false, if_true, List.cons_append, List.nil_append, List.forall_mem_cons]
        refine ⟨Or.inr ⟨by simp, flowIn_local _ _ _ _⟩, Or.inr ⟨by simp, flowIn_local _ _ _ _⟩, Or.inl rfl,
          Or.inr ⟨by simp, by local_sub⟩, Or.inr ⟨by simp, flowAddSub_local _ _ _ _⟩,
          Or.inr ⟨by simp, mixImpulseSub_local _⟩, Or.inr ⟨by simp, thermo_local _ _ _ _ _ _⟩,
          Or.inr ⟨by simp, thermo_local _ _ _ _ _ _⟩, Or.inr ⟨by simp, by local_sub⟩,
          Or.inr ⟨by simp, balance_local _ _ _⟩, by simp⟩
    rcases this with rfl | h
    · exact o1
    · exact key s hs h.1 h.2
  · have k : ∀ n ∈ ["area", mixK f ++ "_stat_calc.area"], E'.num n = E.num n := by
      intro n hn
      refine (hE n (Or.inl ?_)).1
      rw [mix_eq]
      have : ∀ f, ∀ n ∈ ["area", mixK f ++ "_stat_calc.area"], n ∈ (mixer gas0 (.tab 1) f true).wiring.outs := by
        decide +kernel
      exact this f n hn
    have k1 := (k _ (by simp)).trans (C51_momentum gas a f true E hc).2.1.symm
    have k2 := (k _ (by simp)).trans harea
    intro c hc'
    cases f
    all_goals
      simp only [mixerConns, Bool.false_eq_true, if_false, if_true, List.mem_cons, List.not_mem_nil, or_false] at hc'
      rcases hc' with rfl | rfl
      · exact k1
      · exact k2

/-- **C59 (mixer, inputs).** -/
theorem C59_mixer_supplied (gas : (ℕ → ℝ) → TPGas) (a : FlowAdder) (f : Bool) :
    Supplied (mixer gas a f true) (mixer gas a f false) (mixerConns f) := by
  refine supplied_of (C51_interface gas a f true).2 (C51_interface gas a f false).2 ?_
  have e : (mixer gas a f false).subs.map (fun s => s.name ++ ".guess:MN")
      = (mixer gas0 (.tab 1) f false).subs.map fun s => s.name ++ ".guess:MN" := by cases f <;> rfl
  rw [e]
  have : ∀ f, ∀ n ∈ flowVarNames "Fl_I1" ++ flowVarNames "Fl_I2" ++ mixInputs f false,
      n ∈ flowVarNames "Fl_I1" ++ flowVarNames "Fl_I2" ++ mixInputs f true ∨ n ∈ (mixerConns f).map (·.2)
      ∨ n ∈ (mixer gas0 (.tab 1) f false).subs.map fun s => s.name ++ ".guess:MN" := by decide +kernel
  exact this f

end PyCycle.OM
