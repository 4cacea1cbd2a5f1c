import Verif.Model.ThermoGroup
import Verif.Props.C21_C22_StaticPs

/-! # C24: the modes of the `Thermo` group -/

namespace PyCycle.TG

/-- What each mode's name promises as its inputs. -/
def promised : Mode → List Var
  | .total_TP => [.T, .P, .composition]
  | .total_hP => [.h, .P, .composition]
  | .total_SP => [.S, .P, .composition]
  | .static_MN => [.S, .MN, .ht, .W, .composition, .guessGamt, .guessPt]
  | .static_A => [.S, .area, .ht, .W, .composition, .guessGamt, .guessPt, .guessMN]
  | .static_Ps => [.S, .Ps, .ht, .W, .composition]

/-- The static modes. -/
def Mode.isStatic : Mode → Bool
  | .static_MN | .static_A | .static_Ps => true
  | _ => false

/-- **C24 (interface).** In every mode the inputs the group exposes are exactly the promised
ones. -/
theorem C24_interface (m : Mode) (v : Var) :
    (∃ s x, (s, x, Source.ext v) ∈ (setup m).inputs) ↔ v ∈ promised m := by
  have key : ∀ m : Mode, ∀ v : Var,
      ((setup m).inputs.any (fun i => i.2.2 = .ext v)) = decide (v ∈ promised m) := by
    intro m v; cases m <;> cases v <;> decide
  have := key m v
  rw [← decide_eq_true_iff (p := v ∈ promised m), ← this, List.any_eq_true]
  constructor
  · rintro ⟨s, x, h⟩; exact ⟨_, h, by simp⟩
  · rintro ⟨⟨s, x, src⟩, h, he⟩; simp at he; subst he; exact ⟨s, x, h⟩

/-- **C24 (one producer).** In every mode each promoted name is produced by at most one
subsystem output. -/
theorem C24_one_producer (m : Mode) :
    (((setup m).subs.flatMap (fun s => s.outs.filterMap (fun o => o.2)))).Nodup := by
  cases m <;> decide

/-- **C24 (dangling inputs).** The only input that is left at its default value is the
`composition` of the `flow` output component, and exactly in the static modes. -/
theorem C24_dangling (m : Mode) (s : SubN) (v : Var) :
    (∃ s' v', (s', v', Source.default s v) ∈ (setup m).inputs)
      ↔ m.isStatic = true ∧ s = .flow ∧ v = .composition := by
  have key : ∀ m : Mode, ∀ s : SubN, ∀ v : Var,
      ((setup m).inputs.any (fun i => i.2.2 = .default s v))
        = (m.isStatic && decide (s = .flow ∧ v = .composition)) := by
    intro m s v; cases m <;> cases s <;> cases v <;> decide
  have := key m s v
  rw [← decide_eq_true_iff (p := s = .flow ∧ v = .composition), ← Bool.and_eq_true, ← this,
    List.any_eq_true]
  constructor
  · rintro ⟨s', x, h⟩; exact ⟨_, h, by simp⟩
  · rintro ⟨⟨s', x, src⟩, h, he⟩; simp at he; subst he; exact ⟨s', x, h⟩

/-! ## Meaning of a converged group -/

/-- The flow station the group reports. -/
structure Station where
  T : ℝ
  P : ℝ
  h : ℝ
  S : ℝ
  gamma : ℝ
  Cp : ℝ
  Cv : ℝ
  rho : ℝ
  R : ℝ

/-- The reported station, read off the outputs of the `flow` component. -/
def report (val : Source → ℝ) : Station :=
  ⟨val (.out .flow .T), val (.out .flow .P), val (.out .flow .h), val (.out .flow .S),
   val (.out .flow .gamma), val (.out .flow .Cp), val (.out .flow .Cv), val (.out .flow .rho),
   val (.out .flow .R)⟩

/-- A thermodynamically consistent station for composition `c`. -/
structure Station.Consistent (b : Base) (c : ℝ) (o : Station) : Prop where
  h : o.h = b.h o.T o.P c
  S : o.S = b.S o.T o.P c
  gamma : o.gamma = b.gamma o.T o.P c
  Cp : o.Cp = b.Cp o.T o.P c
  Cv : o.Cv = b.Cv o.T o.P c
  rho : o.rho = b.rho o.T o.P c
  R : o.R = b.R o.T o.P c

private theorem flow_eq {m : Mode} {b : Base} {val : Source → ℝ} (h : Converged m b val) (v : Var)
    (hv : v ∈ flowVars) : val (.out .flow v) = (setup m).read val .flow v :=
  h (flowSub m.chars) (by cases m <;> simp [setup]) v hv

private theorem base_eq {m : Mode} {b : Base} {val : Source → ℝ} (h : Converged m b val) :
    subEq m b ((setup m).read val .baseThermo) val .baseThermo :=
  h (baseSub m.chars) (by simp [setup])

private theorem balance_eq {m : Mode} {b : Base} {val : Source → ℝ} (h : Converged m b val)
    (hm : m ≠ .total_TP) :
    (setup m).read val .balance .lhsT = (setup m).read val .balance .rhsT := by
  have := h (balanceSub m.chars).1 (by simp [setup, hm])
  have hn : (balanceSub m.chars).1.name = .balance := by cases m <;> rfl
  rw [hn] at this
  exact this

/-- The value each flow variable of the station has in terms of the sources. -/
theorem C24_consistent (m : Mode) (b : Base) (val : Source → ℝ) (h : Converged m b val) :
    (report val).Consistent b (val (.ext .composition)) := by
  have hb := base_eq h
  have hf := fun v hv => flow_eq h v hv
  cases m
  case total_TP =>
    obtain ⟨h1, h2, h3, h4, h5, h6, h7⟩ := hb
    constructor <;> simp only [report]
    all_goals (simp only [hf _ (by decide : Var.T ∈ flowVars), hf _ (by decide : Var.P ∈ flowVars),
      hf _ (by decide : Var.h ∈ flowVars), hf _ (by decide : Var.S ∈ flowVars),
      hf _ (by decide : Var.gamma ∈ flowVars), hf _ (by decide : Var.Cp ∈ flowVars),
      hf _ (by decide : Var.Cv ∈ flowVars), hf _ (by decide : Var.rho ∈ flowVars),
      hf _ (by decide : Var.R ∈ flowVars)])
    · exact h1
    · exact h2
    · exact h3
    · exact h4
    · exact h5
    · exact h6
    · exact h7
  all_goals
    have hbal := balance_eq h (by decide)
    obtain ⟨h1, h2, h3, h4, h5, h6, h7⟩ := hb
    constructor <;> simp only [report]
    all_goals (simp only [hf _ (by decide : Var.T ∈ flowVars), hf _ (by decide : Var.P ∈ flowVars),
      hf _ (by decide : Var.h ∈ flowVars), hf _ (by decide : Var.S ∈ flowVars),
      hf _ (by decide : Var.gamma ∈ flowVars), hf _ (by decide : Var.Cp ∈ flowVars),
      hf _ (by decide : Var.Cv ∈ flowVars), hf _ (by decide : Var.rho ∈ flowVars),
      hf _ (by decide : Var.R ∈ flowVars)])
    · first | exact h1 | exact hbal.symm.trans h1
    · first | exact h2 | exact hbal.symm.trans h2
    · exact h3
    · exact h4
    · exact h5
    · exact h6
    · exact h7

/-- The reported static quantities (outputs of `flow_static`). -/
def reportStatic (val : Source → ℝ) : StaticState :=
  ⟨val (.out .flowStatic .MN), val (.out .flowStatic .area), val (.out .flowStatic .V),
   val (.out .flowStatic .Vsonic)⟩

/-- The station data entering the static relations. -/
def Station.psIn (o : Station) (ht W : ℝ) : PsIn := ⟨o.T, ht, o.h, o.R, o.gamma, W, o.rho⟩

private theorem flowStatic_eq {m : Mode} {b : Base} {val : Source → ℝ} (h : Converged m b val)
    (hm : m.isStatic = true) (v : Var) (hv : v ∈ [Var.area, .W, .V, .Vsonic, .MN]) :
    val (.out .flowStatic v) = (setup m).read val .flowStatic v :=
  h flowStaticSub (by
    have : pyIn ['s','t','a','t','i','c'] m.chars = true := by
      cases m <;> first | decide | exact absurd hm (by decide)
    simp [setup, this]) v hv

/-- **C24 (targets are met).** In every mode the reported station has exactly the values that
were given as the mode's inputs. -/
theorem C24_honours (m : Mode) (b : Base) (val : Source → ℝ) (h : Converged m b val) :
    (m = .total_TP → (report val).T = val (.ext .T) ∧ (report val).P = val (.ext .P))
    ∧ (m = .total_hP → (report val).h = val (.ext .h) ∧ (report val).P = val (.ext .P))
    ∧ (m = .total_SP → (report val).S = val (.ext .S) ∧ (report val).P = val (.ext .P))
    ∧ (m.isStatic = true → (report val).S = val (.ext .S)
        ∧ val (.out .flowStatic .W) = val (.ext .W))
    ∧ (m = .static_MN → (reportStatic val).MN = val (.ext .MN))
    ∧ (m = .static_A → (reportStatic val).area = val (.ext .area))
    ∧ (m = .static_Ps → (report val).P = val (.ext .Ps)) := by
  have hf := fun v hv => flow_eq h v hv
  have hs := fun hm v hv => flowStatic_eq h hm v hv
  refine ⟨?_, ?_, ?_, ?_, ?_, ?_, ?_⟩
  · rintro rfl; exact ⟨hf .T (by decide), hf .P (by decide)⟩
  · rintro rfl; exact ⟨hf .h (by decide), hf .P (by decide)⟩
  · rintro rfl; exact ⟨hf .S (by decide), hf .P (by decide)⟩
  · intro hm
    cases m <;> first
      | exact absurd hm (by decide)
      | exact ⟨hf .S (by decide), hs hm .W (by decide)⟩
  · rintro rfl; exact hs rfl .MN (by decide)
  · rintro rfl; exact hs rfl .area (by decide)
  · rintro rfl; exact hf .P (by decide)

/-- **C24 (static relations).** A converged static group, in any of the three static modes,
reports a state that satisfies the speed-of-sound, Mach, continuity and energy relations with the
reported station. (Guards: positive `gamma·R·T` and density, non-zero total enthalpy; Mach above
the cut-off, non-zero area, subsidiary enthalpy order for the pressure mode.) -/
theorem C24_static (m : Mode) (hm : m.isStatic = true) (b : Base) (val : Source → ℝ)
    (h : Converged m b val)
    (hc : 0 < (report val).gamma * (report val).R * (report val).T)
    (hrho : 0 < (report val).rho) (hht : val (.ext .ht) ≠ 0)
    (hMN : m = .static_MN → 1e-16 ≤ val (.ext .MN))
    (hA : m = .static_A → val (.ext .area) ≠ 0)
    (hPs : m = .static_Ps → (report val).h < val (.ext .ht)) :
    IsStatic ((report val).psIn (val (.ext .ht)) (val (.ext .W))) (reportStatic val) := by
  have hf := fun v hv => flow_eq h v hv
  have hs := fun v hv => flowStatic_eq h hm v hv
  cases m
  case total_TP => exact absurd hm (by decide)
  case total_SP => exact absurd hm (by decide)
  case total_hP => exact absurd hm (by decide)
  case static_MN =>
    have hp := h (staticSubs Mode.static_MN.chars).head! (by
      simp only [setup]; exact List.mem_append_left _ (List.mem_append_left _
        (List.mem_append_right _ (List.mem_cons_of_mem _ (List.mem_cons_self ..)))))
    have hp' : subEq .static_MN b ((setup .static_MN).read val .psResid) val .psResid := hp
    simp only [subEq, reduceCtorEq, if_false] at hp'
    refine (C22_mach_mode _ _ ?_ ?_ hht ?_).mp ?_
    · exact hc
    · exact hrho
    · have := hs .MN (by decide)
      simp only [reportStatic]; rw [this]; exact hMN rfl
    · simp only [reportStatic, Station.psIn, report, hs .MN (by decide), hs .area (by decide),
        hs .V (by decide), hs .Vsonic (by decide), hf .T (by decide), hf .h (by decide),
        hf .R (by decide), hf .gamma (by decide), hf .rho (by decide)]
      exact hp'
  case static_A =>
    have hp := h (staticSubs Mode.static_A.chars).head! (by
      simp only [setup]; exact List.mem_append_left _ (List.mem_append_left _
        (List.mem_append_right _ (List.mem_cons_of_mem _ (List.mem_cons_self ..)))))
    have hp' : subEq .static_A b ((setup .static_A).read val .psResid) val .psResid := hp
    simp only [subEq, if_true] at hp'
    refine (C22_area_mode _ _ ?_ ?_ hht ?_).mp ?_
    · exact hc
    · exact hrho
    · have := hs .area (by decide)
      simp only [reportStatic]; rw [this]; exact hA rfl
    · simp only [reportStatic, Station.psIn, report, hs .MN (by decide), hs .area (by decide),
        hs .V (by decide), hs .Vsonic (by decide), hf .T (by decide), hf .h (by decide),
        hf .R (by decide), hf .gamma (by decide), hf .rho (by decide)]
      exact hp'
  case static_Ps =>
    have hp := h (staticSubs Mode.static_Ps.chars).head! (by
      simp only [setup]; exact List.mem_append_left _ (List.mem_append_left _
        (List.mem_append_right _ (List.mem_cons_of_mem _ (List.mem_cons_self ..)))))
    have hp' : subEq .static_Ps b ((setup .static_Ps).read val .psCalc) val .psCalc := hp
    simp only [subEq] at hp'
    obtain ⟨e1, e2, e3, e4⟩ := hp'
    have c := C21_consistent ⟨(report val).gamma, (report val).R, (report val).T, val (.ext .ht),
      (report val).h, val (.ext .W), (report val).rho⟩ (hPs rfl) hc hrho.ne'
    have r1 : (reportStatic val).V = PsCalcIn.V ⟨(report val).gamma, (report val).R,
        (report val).T, val (.ext .ht), (report val).h, val (.ext .W), (report val).rho⟩ := by
      simp only [reportStatic, report, hs .V (by decide), hf .T (by decide), hf .h (by decide),
        hf .R (by decide), hf .gamma (by decide), hf .rho (by decide)]
      exact e1
    have r2 : (reportStatic val).Vsonic = PsCalcIn.Vsonic ⟨(report val).gamma, (report val).R,
        (report val).T, val (.ext .ht), (report val).h, val (.ext .W), (report val).rho⟩ := by
      simp only [reportStatic, report, hs .Vsonic (by decide), hf .T (by decide),
        hf .h (by decide), hf .R (by decide), hf .gamma (by decide), hf .rho (by decide)]
      exact e2
    have r3 : (reportStatic val).MN = PsCalcIn.MN ⟨(report val).gamma, (report val).R,
        (report val).T, val (.ext .ht), (report val).h, val (.ext .W), (report val).rho⟩ := by
      simp only [reportStatic, report, hs .MN (by decide), hf .T (by decide),
        hf .h (by decide), hf .R (by decide), hf .gamma (by decide), hf .rho (by decide)]
      exact e3
    have r4 : (reportStatic val).area = PsCalcIn.area ⟨(report val).gamma, (report val).R,
        (report val).T, val (.ext .ht), (report val).h, val (.ext .W), (report val).rho⟩ := by
      simp only [reportStatic, report, hs .area (by decide), hf .T (by decide),
        hf .h (by decide), hf .R (by decide), hf .gamma (by decide), hf .rho (by decide)]
      exact e4
    refine ⟨r2, ?_, ?_, ?_⟩
    · rw [r1, r2, r3]; exact c.2.2.1.symm
    · rw [r1, r4]; exact c.2.2.2.2
    · rw [r1]
      have := c.1
      simp only [Station.psIn] at this ⊢
      linarith

/-- The values of all variables at a given station and static state. -/
def env (o : Station) (s : StaticState) (c ht W : ℝ) : Var → ℝ
  | .T => o.T | .Ts => o.T | .P => o.P | .Ps => o.P | .h => o.h | .hs => o.h | .S => o.S
  | .gamma => o.gamma | .Cp => o.Cp | .Cv => o.Cv | .rho => o.rho | .R => o.R
  | .composition => c | .ht => ht | .W => W
  | .MN => s.MN | .V => s.V | .Vsonic => s.Vsonic | .area => s.area
  | .lhsT => 0 | .rhsT => 0 | .guessGamt => 0 | .guessPt => 0 | .guessMN => 0

/-- Every source carries the value of its variable. -/
def envVal (o : Station) (s : StaticState) (c ht W : ℝ) : Source → ℝ
  | .ext v => env o s c ht W v
  | .out _ v => env o s c ht W v
  | .default _ v => env o s c ht W v

/-- **C24 (completeness and agreement of modes).** Conversely every consistent station, together
with a static state satisfying the static relations, is a converged solution in *every* mode, with
the mode's inputs set to the station's values. In particular the static conditions found from a
Mach number are also found from the resulting area and from the resulting static pressure. -/
theorem C24_every_mode (m : Mode) (b : Base) (o : Station) (s : StaticState) (c ht W : ℝ)
    (ho : o.Consistent b c) (hs : IsStatic (o.psIn ht W) s)
    (hc : 0 < o.gamma * o.R * o.T) (hrho : 0 < o.rho) (hht : ht ≠ 0)
    (hM : 1e-16 ≤ s.MN) (hA : s.area ≠ 0) :
    Converged m b (envVal o s c ht W) ∧ report (envVal o s c ht W) = o
      ∧ reportStatic (envVal o s c ht W) = s := by
  refine ⟨?_, rfl, rfl⟩
  have hbase : ∀ m : Mode, subEq m b ((setup m).read (envVal o s c ht W) .baseThermo)
      (envVal o s c ht W) .baseThermo := by
    intro m
    cases m <;> exact ⟨ho.h, ho.S, ho.gamma, ho.Cp, ho.Cv, ho.rho, ho.R⟩
  have hflow : ∀ m : Mode, subEq m b ((setup m).read (envVal o s c ht W) .flow)
      (envVal o s c ht W) .flow := by
    intro m v hv
    cases m <;> (simp only [flowVars, List.mem_cons, List.not_mem_nil, or_false] at hv
                 rcases hv with rfl | rfl | rfl | rfl | rfl | rfl | rfl | rfl | rfl | rfl <;> rfl)
  have hbal : ∀ m : Mode, m ≠ .total_TP →
      subEq m b ((setup m).read (envVal o s c ht W) .balance) (envVal o s c ht W) .balance := by
    intro m hm
    cases m <;> first | exact absurd rfl hm | rfl
  have hfs : ∀ m : Mode, m.isStatic = true →
      subEq m b ((setup m).read (envVal o s c ht W) .flowStatic) (envVal o s c ht W)
        .flowStatic := by
    intro m hm v hv
    cases m <;> first
      | exact absurd hm (by decide)
      | (simp only [List.mem_cons, List.not_mem_nil, or_false] at hv
         rcases hv with rfl | rfl | rfl | rfl | rfl <;> rfl)
  intro d hd
  cases m
  case total_TP =>
    simp only [setup, ne_eq, not_true_eq_false, if_false] at hd
    have : d = baseSub Mode.total_TP.chars ∨ d = flowSub Mode.total_TP.chars := by
      simpa [show pyIn ['s','t','a','t','i','c'] Mode.total_TP.chars = false by decide] using hd
    rcases this with rfl | rfl
    · exact hbase _
    · exact hflow _
  case total_hP =>
    have : d = baseSub Mode.total_hP.chars ∨ d = (balanceSub Mode.total_hP.chars).1
        ∨ d = flowSub Mode.total_hP.chars := by
      simpa [setup, show pyIn ['s','t','a','t','i','c'] Mode.total_hP.chars = false by decide,
        show staticSubs Mode.total_hP.chars = [] from rfl] using hd
    rcases this with rfl | rfl | rfl
    · exact hbase _
    · exact hbal .total_hP (by decide)
    · exact hflow _
  case total_SP =>
    have : d = baseSub Mode.total_SP.chars ∨ d = (balanceSub Mode.total_SP.chars).1
        ∨ d = flowSub Mode.total_SP.chars := by
      simpa [setup, show pyIn ['s','t','a','t','i','c'] Mode.total_SP.chars = false by decide,
        show staticSubs Mode.total_SP.chars = [] from rfl] using hd
    rcases this with rfl | rfl | rfl
    · exact hbase _
    · exact hbal .total_SP (by decide)
    · exact hflow _
  case static_MN =>
    have : d = baseSub Mode.static_MN.chars ∨ d = (balanceSub Mode.static_MN.chars).1
        ∨ d ∈ staticSubs Mode.static_MN.chars ∨ d = flowSub Mode.static_MN.chars
        ∨ d = flowStaticSub := by
      simpa [setup, show pyIn ['s','t','a','t','i','c'] Mode.static_MN.chars = true by decide]
        using hd
    rcases this with rfl | rfl | hd | rfl | rfl
    · exact hbase _
    · exact hbal .static_MN (by decide)
    · have hd' : d = (staticSubs Mode.static_MN.chars).head! := by
        have e : staticSubs Mode.static_MN.chars = [(staticSubs Mode.static_MN.chars).head!] := rfl
        rw [e] at hd; exact List.mem_singleton.mp hd
      subst hd'
      exact (C22_mach_mode (o.psIn ht W) s hc hrho hht hM).mpr hs
    · exact hflow _
    · exact hfs .static_MN rfl
  case static_A =>
    have : d = baseSub Mode.static_A.chars ∨ d = (balanceSub Mode.static_A.chars).1
        ∨ d ∈ staticSubs Mode.static_A.chars ∨ d = flowSub Mode.static_A.chars
        ∨ d = flowStaticSub := by
      simpa [setup, show pyIn ['s','t','a','t','i','c'] Mode.static_A.chars = true by decide]
        using hd
    rcases this with rfl | rfl | hd | rfl | rfl
    · exact hbase _
    · exact hbal .static_A (by decide)
    · have hd' : d = (staticSubs Mode.static_A.chars).head! := by
        have e : staticSubs Mode.static_A.chars = [(staticSubs Mode.static_A.chars).head!] := rfl
        rw [e] at hd; exact List.mem_singleton.mp hd
      subst hd'
      exact (C22_area_mode (o.psIn ht W) s hc hrho hht hA).mpr hs
    · exact hflow _
    · exact hfs .static_A rfl
  case static_Ps =>
    have : d = baseSub Mode.static_Ps.chars ∨ d = (balanceSub Mode.static_Ps.chars).1
        ∨ d ∈ staticSubs Mode.static_Ps.chars ∨ d = flowSub Mode.static_Ps.chars
        ∨ d = flowStaticSub := by
      simpa [setup, show pyIn ['s','t','a','t','i','c'] Mode.static_Ps.chars = true by decide]
        using hd
    rcases this with rfl | rfl | hd | rfl | rfl
    · exact hbase _
    · exact hbal .static_Ps (by decide)
    · have hd' : d = (staticSubs Mode.static_Ps.chars).head! := by
        have e : staticSubs Mode.static_Ps.chars = [(staticSubs Mode.static_Ps.chars).head!] := rfl
        rw [e] at hd; exact List.mem_singleton.mp hd
      subst hd'
      have hVs : 0 < s.Vsonic := by rw [hs.sound]; exact Real.sqrt_pos.mpr hc
      have hM0 : 0 < s.MN := lt_of_lt_of_le (by norm_num) hM
      have hVpos : 0 < s.V := by rw [hs.mach]; positivity
      have hen : o.h + s.V ^ 2 / 2 = ht := hs.energy
      have hV : s.V = PsCalcIn.V ⟨o.gamma, o.R, o.T, ht, o.h, W, o.rho⟩ := by
        rw [PsCalcIn.V_eq_abs]
        simp only
        rw [← hen, add_sub_cancel_left, abs_of_nonneg (by positivity), mul_div_cancel₀ _ two_ne_zero,
          Real.sqrt_sq hVpos.le]
      refine ⟨hV, hs.sound, ?_, ?_⟩
      · show s.MN = PsCalcIn.V ⟨o.gamma, o.R, o.T, ht, o.h, W, o.rho⟩
          / PsCalcIn.Vsonic ⟨o.gamma, o.R, o.T, ht, o.h, W, o.rho⟩
        rw [← hV, show PsCalcIn.Vsonic ⟨o.gamma, o.R, o.T, ht, o.h, W, o.rho⟩ = s.Vsonic
          from hs.sound.symm, hs.mach]
        exact (mul_div_cancel_right₀ _ hVs.ne').symm
      · show s.area = W / (o.rho * PsCalcIn.V ⟨o.gamma, o.R, o.T, ht, o.h, W, o.rho⟩)
        rw [← hV]
        have : o.rho * s.V * s.area = W := hs.continuity
        rw [← this]
        field_simp
    · exact hflow _
    · exact hfs .static_Ps rfl

/-- **C24 is false for the composition of a static station**: in the static modes the reported
`composition` is the default value, whatever composition is supplied. -/
theorem C24_refuted_static_composition (m : Mode) (hm : m.isStatic = true) (b : Base)
    (val : Source → ℝ) (h : Converged m b val) :
    val (.out .flow .composition) = val (.default .flow .composition) := by
  have := flow_eq h .composition (by decide)
  rw [this]
  cases m <;> first | exact absurd hm (by decide) | rfl

/-- In the total modes the reported composition is the supplied one. -/
theorem C24_total_composition (m : Mode) (hm : m.isStatic = false) (b : Base)
    (val : Source → ℝ) (h : Converged m b val) :
    val (.out .flow .composition) = val (.ext .composition) := by
  have := flow_eq h .composition (by decide)
  rw [this]
  cases m <;> first | exact absurd hm (by decide) | rfl

/-! ## Every such station is a solution -/

/-- The values of the variables of the group at station `o`. -/
def valuesAt (o : Station) (s : StaticState) (c ht W : ℝ) (guess : Var → ℝ) : Var → ℝ
  | .T | .Ts => o.T
  | .P | .Ps => o.P
  | .h | .hs => o.h
  | .S => o.S | .gamma => o.gamma | .Cp => o.Cp | .Cv => o.Cv | .rho => o.rho | .R => o.R
  | .composition => c
  | .ht => ht | .W => W | .MN => s.MN | .V => s.V | .Vsonic => s.Vsonic | .area => s.area
  | .guessGamt => guess .guessGamt | .guessPt => guess .guessPt | .guessMN => guess .guessMN
  | .lhsT | .rhsT => 0

/-- The same for sources. -/
def sourceVal (f : Var → ℝ) : Source → ℝ
  | .ext v => f v
  | .out _ v => f v
  | .default _ v => f v

/-- **C24 (completeness).** Conversely, in every mode, any station that is a state of the gas and (for a
static mode) satisfies the static relations is a converged state of the group, reached with the station's
own values as inputs, whatever the starting guesses. -/
theorem C24_complete (m : Mode) (b : Base) (c ht W : ℝ) (o : Station) (s : StaticState)
    (guess : Var → ℝ) (ho : o.Consistent b c)
    (hst : m.isStatic = true → IsStatic (o.psIn ht W) s ∧ 0 < o.gamma * o.R * o.T ∧ 0 < o.rho ∧ ht ≠ 0
      ∧ 1e-16 ≤ s.MN ∧ s.area ≠ 0) :
    Converged m b (sourceVal (valuesAt o s c ht W guess)) := by
  obtain ⟨h1, h2, h3, h4, h5, h6, h7⟩ := ho
  have hbase : ∀ m : Mode, subEq m b ((setup m).read (sourceVal (valuesAt o s c ht W guess)) .baseThermo)
      (sourceVal (valuesAt o s c ht W guess)) .baseThermo := by
    intro m
    cases m <;> exact ⟨h1, h2, h3, h4, h5, h6, h7⟩
  have hflow : ∀ m : Mode, subEq m b ((setup m).read (sourceVal (valuesAt o s c ht W guess)) .flow)
      (sourceVal (valuesAt o s c ht W guess)) .flow := by
    intro m v hv
    cases m <;> (cases v <;> first | rfl | exact absurd hv (by decide))
  cases m
  case total_TP =>
    intro sub hsub
    simp only [setup] at hsub
    fin_cases hsub
    · exact hbase _
    · exact hflow _
  case total_hP =>
    intro sub hsub
    fin_cases hsub
    · exact hbase _
    · rfl
    · exact hflow _
  case total_SP =>
    intro sub hsub
    fin_cases hsub
    · exact hbase _
    · rfl
    · exact hflow _
  all_goals
    obtain ⟨hs, hc, hr, hh, hM, hA⟩ := hst rfl
    intro sub hsub
    fin_cases hsub
  · exact hbase _
  · rfl
  · simp only [subEq]
    rw [if_neg (by decide)]
    exact (C22_mach_mode (o.psIn ht W) s hc hr hh hM).mpr hs
  · exact hflow _
  · intro v hv
    cases v <;> first | rfl | exact absurd hv (by decide)
  · exact hbase _
  · rfl
  · simp only [subEq]
    rw [if_pos trivial]
    exact (C22_area_mode (o.psIn ht W) s hc hr hh hA).mpr hs
  · exact hflow _
  · intro v hv
    cases v <;> first | rfl | exact absurd hv (by decide)
  · exact hbase _
  · rfl
  · obtain ⟨e1, e2, e3, e4⟩ := hs
    simp only [Station.psIn] at e1 e2 e3 e4
    have hVs : 0 < s.Vsonic := by rw [e1]; exact Real.sqrt_pos.mpr hc
    have hM0 : 0 < s.MN := lt_of_lt_of_le (by norm_num) hM
    have hV : 0 < s.V := by rw [e2]; exact mul_pos hM0 hVs
    have hge : ht ≥ o.h := by nlinarith [sq_nonneg s.V]
    have k1 : PsCalcIn.V ⟨o.gamma, o.R, o.T, ht, o.h, W, o.rho⟩ = s.V := by
      simp only [PsCalcIn.V]
      rw [if_pos hge, show (2.0:ℝ) * (ht - o.h) = s.V ^ 2 by rw [← e4, show (2.0:ℝ) = 2 by norm_num]; ring, Real.sqrt_sq hV.le]
    have k2 : PsCalcIn.Vsonic ⟨o.gamma, o.R, o.T, ht, o.h, W, o.rho⟩ = s.Vsonic := e1.symm
    have k3 : PsCalcIn.MN ⟨o.gamma, o.R, o.T, ht, o.h, W, o.rho⟩ = s.MN := by
      rw [PsCalcIn.MN, k1, k2, e2]; field_simp
    have k4 : PsCalcIn.area ⟨o.gamma, o.R, o.T, ht, o.h, W, o.rho⟩ = s.area := by
      rw [PsCalcIn.area, k1, ← e3]; field_simp
    exact ⟨k1.symm, k2.symm, k3.symm, k4.symm⟩
  · exact hflow _
  · intro v hv
    cases v <;> first | rfl | exact absurd hv (by decide)

/-- Non-vacuity: a (toy) gas with `h = T`, `S = T - P`, constant other properties, and a sonic
static state: all hypotheses of `C24_every_mode` hold, and the composition discrepancy is real. -/
example : ∃ (b : Base) (o : Station) (s : StaticState), o.Consistent b 7
    ∧ IsStatic (o.psIn 1.5 2) s ∧ 0 < o.gamma * o.R * o.T ∧ 0 < o.rho ∧ (1e-16:ℝ) ≤ s.MN
    ∧ s.area ≠ 0 := by
  refine ⟨⟨fun T _ _ => T, fun T P _ => T - P, fun _ _ _ => 1, fun _ _ _ => 1, fun _ _ _ => 1,
    fun _ _ _ => 1, fun _ _ _ => 1⟩, ⟨1, 1, 1, 0, 1, 1, 1, 1, 1⟩, ⟨1, 2, 1, 1⟩,
    ⟨rfl, by norm_num, rfl, rfl, rfl, rfl, rfl⟩, ⟨by simp [Station.psIn], by norm_num,
      by simp [Station.psIn], by simp [Station.psIn]; norm_num⟩, by norm_num, by norm_num,
    by norm_num, by norm_num⟩

end PyCycle.TG
