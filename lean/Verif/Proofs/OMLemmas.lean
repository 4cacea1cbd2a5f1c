import Verif.Spec.Station
import Verif.Props.C24_ThermoModes
import Verif.Lemmas.KernelRfl
import Verif.Lemmas.NameCode

/-! # Lemmas on groups of components -/

namespace PyCycle.OM

/-- The subsystem called `n`. -/
def Wiring.find (w : Wiring) (n : String) : Option Decl := w.subs.find? fun s => s.name = n

/-- The name input `v` of subsystem `n` takes its value from. -/
def Wiring.inSrc (w : Wiring) (n v : String) : String :=
  match w.find n with
  | some s => w.src (s.inName v)
  | none => v

/-- The name of output `v` of subsystem `n`. -/
def Wiring.outOf (w : Wiring) (n v : String) : String :=
  match w.find n with
  | some s => s.outName v
  | none => v

/-- What the subsystem called `n` reads. -/
def Wiring.rd (w : Wiring) (E : Env) (n : String) : Env :=
  ⟨fun v => E.num (w.inSrc n v), fun v => E.vec (w.inSrc n v)⟩
/-- What the subsystem called `n` writes. -/
def Wiring.wr (w : Wiring) (E : Env) (n : String) : Env :=
  ⟨fun v => E.num (w.outOf n v), fun v => E.vec (w.outOf n v)⟩

/-- The subsystem called `n`, computed with numbers for names. -/
noncomputable def NC.find (w : Wiring) (n : String) : Option Decl :=
  NC.first (fun s => Nat.beq (NC.code s.name) (NC.code n)) none w.subs
/-- Where an input comes from. -/
noncomputable def NC.inSrc (w : Wiring) (n v : String) : String := (NC.find w n).rec v fun s => NC.src w (NC.inName s v)
/-- The name of an output. -/
noncomputable def NC.outOf (w : Wiring) (n v : String) : String := (NC.find w n).rec v fun s => NC.outName s v

theorem NC.find_eq (w : Wiring) (n : String) : NC.find w n = w.find n := by
  unfold NC.find
  rw [NC.first_eq]
  unfold Wiring.find
  simp only [NC.beq_decide]
  cases List.find? (fun s : Decl => decide (s.name = n)) w.subs <;> rfl

theorem NC.inSrc_eq (w : Wiring) (n v : String) : NC.inSrc w n v = w.inSrc n v := by
  unfold NC.inSrc Wiring.inSrc
  rw [NC.find_eq]
  cases w.find n with
  | none => rfl
  | some s => change NC.src w (NC.inName s v) = _; rw [NC.src_eq, NC.inName_eq]

theorem NC.outOf_eq (w : Wiring) (n v : String) : NC.outOf w n v = w.outOf n v := by
  unfold NC.outOf Wiring.outOf
  rw [NC.find_eq]
  cases w.find n with
  | none => rfl
  | some s => change NC.outName s v = _; rw [NC.outName_eq]

noncomputable instance (priority := 2000) (w : Wiring) (n v x : String) : Decidable (w.inSrc n v = x) :=
  decidable_of_iff (Nat.beq (NC.code (NC.inSrc w n v)) (NC.code x) = true) (by rw [NC.beq_iff, NC.inSrc_eq])
noncomputable instance (priority := 2000) (w : Wiring) (n v x : String) : Decidable (w.outOf n v = x) :=
  decidable_of_iff (Nat.beq (NC.code (NC.outOf w n v)) (NC.code x) = true) (by rw [NC.beq_iff, NC.outOf_eq])

/-- What the subsystem called `n` reads, computed with numbers for names. -/
noncomputable def NC.rd (w : Wiring) (E : Env) (n : String) : Env :=
  ⟨fun v => E.num (NC.inSrc w n v), fun v => E.vec (NC.inSrc w n v)⟩
/-- What the subsystem called `n` writes. -/
noncomputable def NC.wr (w : Wiring) (E : Env) (n : String) : Env :=
  ⟨fun v => E.num (NC.outOf w n v), fun v => E.vec (NC.outOf w n v)⟩

theorem Wiring.find_of_mem {w : Wiring} (hn : (w.subs.map (·.name)).Nodup) {s : Decl} (hs : s ∈ w.subs) :
    w.find s.name = some s := by
  unfold Wiring.find
  generalize w.subs = l at hn hs
  induction l with
  | nil => cases hs
  | cons a l ih =>
    simp only [List.map_cons, List.nodup_cons] at hn
    rcases List.mem_cons.mp hs with rfl | h
    · simp
    · have : a.name ≠ s.name := fun e => hn.1 (e ▸ List.mem_map_of_mem h)
      rw [List.find?_cons_of_neg (by simpa using this)]
      exact ih hn.2 h

/-- The equations of a subsystem of a converged group. -/
theorem Group.Converged.eqn {g : Group} {E : Env} (hc : g.Converged E)
    (hn : (g.wiring.subs.map (·.name)).Nodup) {s : Sub} (hs : s ∈ g.subs) :
    s.eqn (g.wiring.rd E s.name) (g.wiring.wr E s.name) := by
  have h := hc s hs
  have hf : g.wiring.find s.name = some s.toDecl :=
    Wiring.find_of_mem hn (List.mem_map_of_mem hs)
  have e1 : g.wiring.rd E s.name = g.wiring.reads E s.toDecl := by
    simp only [Wiring.rd, Wiring.inSrc, hf, Wiring.reads]
  have e2 : g.wiring.wr E s.name = writes E s.toDecl := by
    simp only [Wiring.wr, Wiring.outOf, hf, writes]
  rw [e1, e2]; exact h

/-- The same, for the `k`-th subsystem and a known wiring. -/
theorem Group.Converged.sub {g : Group} {w : Wiring} {E : Env} (hc : g.Converged E) (hw : g.wiring = w)
    (hn : (w.subs.map (·.name)).Nodup) (k : ℕ) (s : Sub) (hs : g.subs[k]? = some s)
    (n : String) (hsn : s.name = n) : s.eqn (w.rd E n) (w.wr E n) := by
  subst hw hsn
  exact hc.eqn hn (List.mem_of_getElem? hs)

/-- The station variables `fl:v` of subsystem `n` are known as `st:v`. -/
def Wiring.ReportsAs (w : Wiring) (n fl st : String) (m : TG.Mode) : Prop :=
  (∀ v ∈ TG.flowVars, w.outOf n (fl ++ ":" ++ nm v) = st ++ ":" ++ nm v)
  ∧ (isStat m = true → ∀ v ∈ statVars, w.outOf n (fl ++ ":" ++ nm v) = st ++ ":" ++ nm v)

noncomputable instance (w : Wiring) (n fl st : String) (m : TG.Mode) : Decidable (w.ReportsAs n fl st m) := by
  unfold Wiring.ReportsAs; infer_instance

/-- The station variables of subsystem `n` have their own names. -/
def Wiring.Reports (w : Wiring) (n fl : String) (m : TG.Mode) : Prop := w.ReportsAs n fl fl m

noncomputable instance (w : Wiring) (n fl : String) (m : TG.Mode) : Decidable (w.Reports n fl m) := by
  unfold Wiring.Reports; infer_instance

/-- What a converged `Thermo` says about the station `fl`, given what it reads. -/
structure ThermoSays (gas : (ℕ → ℝ) → TPGas) (m : TG.Mode) (fl : String) (i E : Env) : Prop where
  state : StateOf (gas (i.vec "composition")) E fl
  tp : m = .total_TP → E.at fl "T" = i.num "T" ∧ E.at fl "P" = i.num "P"
  hp : m = .total_hP → E.at fl "h" = i.num "h" ∧ E.at fl "P" = i.num "P"
  sp : m = .total_SP → E.at fl "S" = i.num "S" ∧ E.at fl "P" = i.num "P"
  stat : isStat m = true → E.at fl "S" = i.num "S" ∧ E.at fl "W" = i.num "W"
  mn : m = .static_MN → E.at fl "MN" = i.num "MN"
  area : m = .static_A → E.at fl "area" = i.num "area"
  ps : m = .static_Ps → E.at fl "P" = i.num "Ps"
  comp : isStat m = false → E.vec (fl ++ ":" ++ "composition") = i.vec "composition"
  moving : isStat m = true → 0 < E.at fl "gamma" * E.at fl "R" * E.at fl "T" → 0 < E.at fl "rho" →
    i.num "ht" ≠ 0 → (m = .static_MN → 1e-16 ≤ E.at fl "MN") → (m = .static_A → E.at fl "area" ≠ 0) →
    (m = .static_Ps → E.at fl "h" < i.num "ht") → Moving E fl (i.num "W") (i.num "ht") (i.num "S")

/-- What a converged `Thermo` reports: a state of the gas, with the mode's targets. -/
theorem thermo_station_as {gas : (ℕ → ℝ) → TPGas} {name : String} {m : TG.Mode} {fl st : String}
    {promI promO : List Prom} {i : Env} {E : Env} {w : Wiring}
    (h : (thermo gas name m fl promI promO).eqn i (w.wr E name)) (hn : w.ReportsAs name fl st m) :
    ThermoSays gas m st i E := by
  obtain ⟨val, hc, hi, -, hf, hs, hcomp⟩ := h
  obtain ⟨hn1, hn2⟩ := hn
  have f : ∀ v ∈ TG.flowVars, v ≠ .composition → E.at st (nm v) = val (.out .flow v) := by
    intro v hv hne
    have := hf v hv hne
    simp only [Wiring.wr] at this
    rw [hn1 v hv] at this
    exact this
  have g : isStat m = true → ∀ v ∈ statVars, E.at st (nm v) = val (.out .flowStatic v) := by
    intro hm v hv
    have := hs hm v hv
    simp only [Wiring.wr] at this
    rw [hn2 hm v hv] at this
    exact this
  have fT := f .T (by decide) (by decide)
  have fP := f .P (by decide) (by decide)
  have fh := f .h (by decide) (by decide)
  have fS := f .S (by decide) (by decide)
  have fg := f .gamma (by decide) (by decide)
  have fCp := f .Cp (by decide) (by decide)
  have fCv := f .Cv (by decide) (by decide)
  have fr := f .rho (by decide) (by decide)
  have fR := f .R (by decide) (by decide)
  simp only [nm] at fT fP fh fS fg fCp fCv fr fR
  have hcons := TG.C24_consistent m _ val hc
  have hhon := TG.C24_honours m _ val hc
  have hst : isStat m = m.isStatic := by cases m <;> rfl
  obtain ⟨k1, k2, k3, k4, k5, k6, k7⟩ := hhon
  have e : ∀ v, v ∈ thermoIns m → v ≠ .composition → val (.ext v) = i.num (nm v) := hi
  refine ⟨?_, ?_, ?_, ?_, ?_, ?_, ?_, ?_, ?_, ?_⟩
  · constructor <;> simp only [fT, fP, fh, fS, fg, fCp, fCv, fr, fR]
    · exact hcons.h
    · exact hcons.S
    · exact hcons.gamma
    · exact hcons.Cp
    · exact hcons.Cv
    · exact hcons.rho
    · exact hcons.R
  · rintro rfl
    rw [fT, fP]
    exact ⟨(k1 rfl).1.trans (e .T (by decide) (by decide)), (k1 rfl).2.trans (e .P (by decide) (by decide))⟩
  · rintro rfl
    rw [fh, fP]
    exact ⟨(k2 rfl).1.trans (e .h (by decide) (by decide)), (k2 rfl).2.trans (e .P (by decide) (by decide))⟩
  · rintro rfl
    rw [fS, fP]
    exact ⟨(k3 rfl).1.trans (e .S (by decide) (by decide)), (k3 rfl).2.trans (e .P (by decide) (by decide))⟩
  · intro hm
    have gW := g hm .W (by decide)
    simp only [nm] at gW
    rw [fS, gW]
    have := k4 (hst ▸ hm)
    exact ⟨this.1.trans (e .S (by cases m <;> first | decide | exact absurd hm (by decide)) (by decide)),
      this.2.trans (e .W (by cases m <;> first | decide | exact absurd hm (by decide)) (by decide))⟩
  · rintro rfl
    exact (g rfl .MN (by decide)).trans ((k5 rfl).trans (e .MN (by decide) (by decide)))
  · rintro rfl
    exact (g rfl .area (by decide)).trans ((k6 rfl).trans (e .area (by decide) (by decide)))
  · rintro rfl
    rw [fP]
    exact (k7 rfl).trans (e .Ps (by decide) (by decide))
  · intro hm
    have := hcomp hm
    have hn := hn1 .composition (by decide)
    simp only [Wiring.wr, nm] at this hn
    rw [hn] at this
    exact this
  · intro hm hc' hr hht hMN hA hPs
    have gW := g hm .W (by decide)
    have gM := g hm .MN (by decide)
    have gA := g hm .area (by decide)
    have gV := g hm .V (by decide)
    have gVs := g hm .Vsonic (by decide)
    simp only [nm] at gW gM gA gV gVs
    have eht := e .ht (by cases m <;> first | decide | exact absurd hm (by decide)) (by decide)
    have eW := e .W (by cases m <;> first | decide | exact absurd hm (by decide)) (by decide)
    have eS := e .S (by cases m <;> first | decide | exact absurd hm (by decide)) (by decide)
    simp only [nm] at eht eW eS
    rw [fg, fR, fT] at hc'
    rw [fr] at hr
    have key := TG.C24_static m (hst ▸ hm) _ val hc hc' hr (by rw [eht]; exact hht)
      (by intro hh; have := k5 hh; have h2 := hMN hh; rw [gM] at h2; rw [← this]; exact h2)
      (by intro hh; have := k6 hh; have h2 := hA hh; rw [gA] at h2; rw [← this]; exact h2)
      (by intro hh; have h2 := hPs hh; rw [fh] at h2; rw [eht]; exact h2)
    obtain ⟨s1, s2, s3, s4⟩ := key
    have k := k4 (hst ▸ hm)
    constructor
    · rw [gW, ← eW]; exact k.2
    · rw [fS, ← eS]; exact k.1
    · rw [gVs, fg, fR, fT]; exact s1
    · rw [gV, gM, gVs]; exact s2
    · rw [fr, gV, gA, ← eW]; exact s3
    · rw [fh, gV, ← eht]; exact s4

/-- The same, the station keeping its name. -/
theorem thermo_station {gas : (ℕ → ℝ) → TPGas} {name : String} {m : TG.Mode} {fl : String}
    {promI promO : List Prom} {i : Env} {E : Env} {w : Wiring}
    (h : (thermo gas name m fl promI promO).eqn i (w.wr E name)) (hn : w.Reports name fl m) :
    ThermoSays gas m fl i E := thermo_station_as h hn

/-- The outputs of a `Thermo` under their short names are those of its station. -/
theorem thermo_copies {gas : (ℕ → ℝ) → TPGas} {name : String} {m : TG.Mode} {fl : String}
    {promI promO : List Prom} {i o : Env} (h : (thermo gas name m fl promI promO).eqn i o) :
    ∀ q ∈ thermoOuts m, o.num (nm q.2.2)
      = o.num (fl ++ ":" ++ nm (if q.2.2 = .Ps then .P else q.2.2)) := by
  obtain ⟨val, hc, -, ho, hf, hs, -⟩ := h
  have f : ∀ v ∈ TG.flowVars, val (.out .flow v) = (TG.setup m).read val .flow v := by
    have := hc (TG.flowSub m.chars) (by cases m <;> simp [TG.setup])
    exact this
  intro q hq
  rw [ho q hq]
  have fT := (hf .T (by decide) (by decide)).trans (f .T (by decide))
  have fP := (hf .P (by decide) (by decide)).trans (f .P (by decide))
  have fh := (hf .h (by decide) (by decide)).trans (f .h (by decide))
  have fS := (hf .S (by decide) (by decide)).trans (f .S (by decide))
  have fgamma := (hf .gamma (by decide) (by decide)).trans (f .gamma (by decide))
  have fCp := (hf .Cp (by decide) (by decide)).trans (f .Cp (by decide))
  have fCv := (hf .Cv (by decide) (by decide)).trans (f .Cv (by decide))
  have frho := (hf .rho (by decide) (by decide)).trans (f .rho (by decide))
  have fR := (hf .R (by decide) (by decide)).trans (f .R (by decide))
  cases m
  case total_TP => fin_cases hq <;> first | exact fT.symm | exact fP.symm | exact fh.symm | exact fS.symm | exact fgamma.symm | exact fCp.symm | exact fCv.symm | exact frho.symm | exact fR.symm
  case total_hP => fin_cases hq <;> first | exact fT.symm | exact fP.symm | exact fh.symm | exact fS.symm | exact fgamma.symm | exact fCp.symm | exact fCv.symm | exact frho.symm | exact fR.symm
  case total_SP => fin_cases hq <;> first | exact fT.symm | exact fP.symm | exact fh.symm | exact fS.symm | exact fgamma.symm | exact fCp.symm | exact fCv.symm | exact frho.symm | exact fR.symm
  all_goals
    have g : ∀ v ∈ statVars, val (.out .flowStatic v) = (TG.setup _).read val .flowStatic v :=
      hc TG.flowStaticSub (by simp [TG.setup, TG.Mode.chars, TG.pyIn])
    have garea := (hs rfl .area (by decide)).trans (g .area (by decide))
    have gV := (hs rfl .V (by decide)).trans (g .V (by decide))
    have gVsonic := (hs rfl .Vsonic (by decide)).trans (g .Vsonic (by decide))
    have gMN := (hs rfl .MN (by decide)).trans (g .MN (by decide))
    fin_cases hq <;> first | exact fT.symm | exact fP.symm | exact fh.symm | exact fS.symm | exact fgamma.symm | exact fCp.symm | exact fCv.symm | exact frho.symm | exact fR.symm | exact garea.symm | exact gV.symm | exact gVsonic.symm | exact gMN.symm

/-- What a subsystem that is a `Thermo` says. -/
theorem Group.Converged.stationMem {g : Group} {w : Wiring} {E : Env} (hc : g.Converged E) (hw : g.wiring = w)
    (hn : (w.subs.map (·.name)).Nodup) {gas : (ℕ → ℝ) → TPGas} {name : String} {m : TG.Mode}
    {fl : String} {pI pO : List Prom} (hs : thermo gas name m fl pI pO ∈ g.subs) (st : String)
    (hr : w.ReportsAs name fl st m) : ThermoSays gas m st (w.rd E name) E := by
  subst hw
  exact thermo_station_as (hc.eqn hn hs) hr

/-- What the `k`-th subsystem, a `Thermo`, says. -/
theorem Group.Converged.station {g : Group} {w : Wiring} {E : Env} (hc : g.Converged E) (hw : g.wiring = w)
    (hn : (w.subs.map (·.name)).Nodup) (k : ℕ) {gas : (ℕ → ℝ) → TPGas} {name : String} {m : TG.Mode}
    {fl : String} {pI pO : List Prom} (hs : g.subs[k]? = some (thermo gas name m fl pI pO))
    (hr : w.Reports name fl m) : ThermoSays gas m fl (w.rd E name) E :=
  thermo_station (hc.sub hw hn k _ hs name rfl) hr

/-- The same under another station name. -/
theorem Group.Converged.stationAs {g : Group} {w : Wiring} {E : Env} (hc : g.Converged E) (hw : g.wiring = w)
    (hn : (w.subs.map (·.name)).Nodup) (k : ℕ) {gas : (ℕ → ℝ) → TPGas} {name : String} {m : TG.Mode}
    {fl : String} {pI pO : List Prom} (hs : g.subs[k]? = some (thermo gas name m fl pI pO)) (st : String)
    (hr : w.ReportsAs name fl st m) : ThermoSays gas m st (w.rd E name) E :=
  thermo_station_as (hc.sub hw hn k _ hs name rfl) hr

/-- What a subsystem says that is the static outlet of an element. -/
theorem Group.Converged.staticOutletMem {g : Group} {w : Wiring} {E : Env} (hc : g.Converged E)
    (hw : g.wiring = w) (hn : (w.subs.map (·.name)).Nodup) {gas : (ℕ → ℝ) → TPGas}
    {name tot st Wn cn mn an : String} {d : Bool} {pI pO pI' pO' : List Prom}
    (hs : (if d then thermo gas name .static_MN st pI pO else thermo gas name .static_A st pI' pO') ∈ g.subs)
    (hr : w.Reports name st .static_A)
    (l1 : w.inSrc name "S" = tot ++ ":" ++ "S") (l2 : w.inSrc name "ht" = tot ++ ":" ++ "h")
    (l3 : w.inSrc name "W" = Wn) (l4 : w.inSrc name "composition" = cn)
    (l5 : d = true → w.inSrc name "MN" = mn) (l6 : d = false → w.inSrc name "area" = an) :
    StaticOutlet (gas (E.vec cn)) E tot st d (E.num Wn) (E.num mn) (E.num an) := by
  have e1 : (w.rd E name).vec "composition" = E.vec cn := by simp only [Wiring.rd, l4]
  have e2 : (w.rd E name).num "S" = E.at tot "S" := by simp only [Wiring.rd, l1, Env.at]
  have e3 : (w.rd E name).num "ht" = E.at tot "h" := by simp only [Wiring.rd, l2, Env.at]
  have e4 : (w.rd E name).num "W" = E.num Wn := by simp only [Wiring.rd, l3]
  cases d
  · have t := hc.stationMem hw hn (by simpa using hs) st hr
    have e5 : (w.rd E name).num "area" = E.num an := by simp only [Wiring.rd, l6 rfl]
    have t2 := t.area rfl
    have t1 := t.state
    have t3 := t.stat rfl
    have t4 := t.moving rfl
    rw [e1] at t1
    rw [e2, e4] at t3
    rw [e2, e3, e4] at t4
    rw [e5] at t2
    exact ⟨t1, t3.2, t3.1, by simp, fun _ => t2, fun g1 g2 g3 _ g5 =>
      t4 g1 g2 g3 (by simp) (fun _ => by rw [t2]; exact g5 rfl) (by simp)⟩
  · have t := hc.stationMem (m := .static_MN) hw hn (by simpa using hs) st hr
    have e5 : (w.rd E name).num "MN" = E.num mn := by simp only [Wiring.rd, l5 rfl]
    have t2 := t.mn rfl
    have t1 := t.state
    have t3 := t.stat rfl
    have t4 := t.moving rfl
    rw [e1] at t1
    rw [e2, e4] at t3
    rw [e2, e3, e4] at t4
    rw [e5] at t2
    exact ⟨t1, t3.2, t3.1, fun _ => t2, by simp, fun g1 g2 g3 g4 _ =>
      t4 g1 g2 g3 (fun _ => by rw [t2]; exact g4 rfl) (by simp) (by simp)⟩

/-- What the `k`-th subsystem says, when it is the static outlet of an element. -/
theorem Group.Converged.staticOutlet {g : Group} {w : Wiring} {E : Env} (hc : g.Converged E)
    (hw : g.wiring = w) (hn : (w.subs.map (·.name)).Nodup) (k : ℕ) {gas : (ℕ → ℝ) → TPGas}
    {name tot st Wn cn mn an : String} {d : Bool} {pI pO pI' pO' : List Prom}
    (hs : g.subs[k]? = some (if d then thermo gas name .static_MN st pI pO
      else thermo gas name .static_A st pI' pO'))
    (hr : w.Reports name st .static_A)
    (l1 : w.inSrc name "S" = tot ++ ":" ++ "S") (l2 : w.inSrc name "ht" = tot ++ ":" ++ "h")
    (l3 : w.inSrc name "W" = Wn) (l4 : w.inSrc name "composition" = cn)
    (l5 : d = true → w.inSrc name "MN" = mn) (l6 : d = false → w.inSrc name "area" = an) :
    StaticOutlet (gas (E.vec cn)) E tot st d (E.num Wn) (E.num mn) (E.num an) :=
  hc.staticOutletMem hw hn (List.mem_of_getElem? hs) hr l1 l2 l3 l4 l5 l6

/-! ## Constructing converged states, for the examples -/

/-- The converse of `thermo_station`: values of one state of the gas are a converged `Thermo`. -/
theorem thermo_eqn_of {gas : (ℕ → ℝ) → TPGas} {name : String} {m : TG.Mode} {fl : String}
    {promI promO : List Prom} {i o : Env} (t : TG.Station) (s : StaticState) (ht W : ℝ) (guess : TG.Var → ℝ)
    (hcons : t.Consistent (gas (i.vec "composition")).base 0)
    (hst : m.isStatic = true → IsStatic (t.psIn ht W) s ∧ 0 < t.gamma * t.R * t.T ∧ 0 < t.rho ∧ ht ≠ 0
      ∧ 1e-16 ≤ s.MN ∧ s.area ≠ 0)
    (hi : ∀ v ∈ thermoIns m, v ≠ .composition → i.num (nm v) = TG.valuesAt t s 0 ht W guess v)
    (ho : ∀ q ∈ thermoOuts m, o.num (nm q.2.2) = TG.valuesAt t s 0 ht W guess q.2.1)
    (hf : ∀ v ∈ TG.flowVars, v ≠ .composition → o.num (fl ++ ":" ++ nm v) = TG.valuesAt t s 0 ht W guess v)
    (hs : isStat m = true → ∀ v ∈ statVars, o.num (fl ++ ":" ++ nm v) = TG.valuesAt t s 0 ht W guess v)
    (hcomp : isStat m = false → o.vec (fl ++ ":" ++ "composition") = i.vec "composition") :
    (thermo gas name m fl promI promO).eqn i o :=
  ⟨TG.sourceVal (TG.valuesAt t s 0 ht W guess), TG.C24_complete m _ 0 ht W t s guess hcons hst,
    fun v hv hne => (hi v hv hne).symm, ho, hf, hs, hcomp⟩

/-- A group is converged when each subsystem's equations hold, by name. -/
theorem Group.converged_of {g : Group} {w : Wiring} {E : Env} (hw : g.wiring = w)
    (hn : (w.subs.map (·.name)).Nodup) (h : ∀ s ∈ g.subs, s.eqn (w.rd E s.name) (w.wr E s.name)) :
    g.Converged E := by
  subst hw
  intro s hs
  have hf : g.wiring.find s.name = some s.toDecl :=
    Wiring.find_of_mem hn (List.mem_map_of_mem hs)
  have e1 : g.wiring.rd E s.name = g.wiring.reads E s.toDecl := by
    simp only [Wiring.rd, Wiring.inSrc, hf, Wiring.reads]
  have e2 : g.wiring.wr E s.name = writes E s.toDecl := by
    simp only [Wiring.wr, Wiring.outOf, hf, writes]
  rw [← e1, ← e2]; exact h s hs

/-- The same, in a form the kernel evaluates quickly. -/
theorem Group.converged_quick {g : Group} {w : Wiring} {E : Env} (hw : g.wiring = w)
    (hn : (w.subs.map (·.name)).Nodup) (h : ∀ s ∈ g.subs, s.eqn (NC.rd w E s.name) (NC.wr w E s.name)) :
    g.Converged E := by
  subst hw
  intro s hs
  have hf : g.wiring.find s.name = some s.toDecl :=
    Wiring.find_of_mem hn (List.mem_map_of_mem hs)
  have e1 : NC.rd g.wiring E s.name = g.wiring.reads E s.toDecl := by
    simp only [NC.rd, NC.inSrc_eq, Wiring.inSrc, hf, Wiring.reads]
  have e2 : NC.wr g.wiring E s.name = writes E s.toDecl := by
    simp only [NC.wr, NC.outOf_eq, Wiring.outOf, hf, writes]
  rw [← e1, ← e2]; exact h s hs

/-- The first value under a name. -/
noncomputable def tableAt {α : Type} (z : α) (n : ℕ) (l : List (String × α)) : α :=
  l.rec z fun k _ r => (Nat.beq n (NC.code k.1)).rec r k.2

/-- Values from a table; anything else is zero. -/
noncomputable def Env.ofTable (t : List (String × ℝ)) (c : List (String × (ℕ → ℝ))) : Env :=
  ⟨fun n => tableAt 0 (NC.code n) t, fun n => tableAt 0 (NC.code n) c⟩

/-- The values of a state under the names of a station or of a `Thermo`. -/
def stationRows (pre : String) (t : TG.Station) : List (String × ℝ) :=
  [(pre ++ "T", t.T), (pre ++ "P", t.P), (pre ++ "Ps", t.P), (pre ++ "h", t.h), (pre ++ "S", t.S),
   (pre ++ "gamma", t.gamma), (pre ++ "Cp", t.Cp), (pre ++ "Cv", t.Cv), (pre ++ "rho", t.rho), (pre ++ "R", t.R)]

/-- The same for the static quantities. -/
def staticRows (pre : String) (s : StaticState) (W : ℝ) : List (String × ℝ) :=
  [(pre ++ "MN", s.MN), (pre ++ "area", s.area), (pre ++ "V", s.V), (pre ++ "Vsonic", s.Vsonic),
   (pre ++ "W", W)]

/-- Closes a total `Thermo` of an example whose table contains the values of station `t`. -/
macro "total_of " t:term:max : tactic => `(tactic| (
  refine thermo_eqn_of $t ⟨1, 1, 1, 1⟩ 1 1 (fun _ => 0) ⟨rfl, rfl, rfl, rfl, rfl, rfl, rfl⟩
    (fun h => absurd h (by decide)) ?_ ?_ ?_ (fun h => absurd h (by decide)) (fun _ => by krfl)
  · intro v hv hne
    fin_cases hv <;> first | exact absurd rfl hne | krfl
  · intro q hq
    fin_cases hq <;> krfl
  · intro v hv hne
    fin_cases hv <;> first | exact absurd rfl hne | krfl))

/-- Closes a static `Thermo` of an example, `h` stating that the values are consistent. -/
macro "static_of " t:term:max s:term:max ht:term:max W:term:max g:term:max h:term:max : tactic => `(tactic| (
  refine thermo_eqn_of $t $s $ht $W $g ⟨rfl, rfl, rfl, rfl, rfl, rfl, rfl⟩ (fun _ => $h) ?_ ?_ ?_ ?_
    (fun h => absurd h (by decide))
  · intro v hv hne
    fin_cases hv <;> first | exact absurd rfl hne | krfl
  · intro q hq
    fin_cases hq <;> krfl
  · intro v hv hne
    fin_cases hv <;> first | exact absurd rfl hne | krfl
  · intro _ v hv
    fin_cases hv <;> krfl))

end PyCycle.OM
