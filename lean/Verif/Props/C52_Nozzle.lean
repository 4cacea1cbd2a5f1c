import Verif.Props.C51_Mixer

/-! # C52: the nozzle, as a whole element -/

namespace PyCycle.OM

/-- The wiring is the same for every nozzle type. -/
private def nw (l : Noz.Loss) : Wiring := (nozzle gas0 .CV l).wiring

private theorem nw_eq (gas : (ℕ → ℝ) → TPGas) (k : Noz.NozzType) (l : Noz.Loss) :
    (nozzle gas k l).wiring = nw l := by
  cases k <;> cases l <;> rfl

/-- The loss coefficients. -/
def losses : List Noz.Loss := [.Cfg, .Cv]
private theorem mem_losses (l : Noz.Loss) : l ∈ losses := by cases l <;> decide

private theorem nw_nodup : ∀ l ∈ losses, ((nw l).subs.map (·.name)).Nodup := by decide +kernel

/-- Inputs besides the inlet station. The two extra coefficients of the velocity-coefficient option can only
be set under the path of the component. -/
def nozInputs : Noz.Loss → List String
  | .Cfg => ["Ps_exhaust", "dPqP", "Cfg"]
  | .Cv => ["Ps_exhaust", "dPqP", "Cv", "perf_calcs.Cang", "perf_calcs.CmixCorr"]

/-- **C52 (interface).** -/
theorem C52_interface (gas : (ℕ → ℝ) → TPGas) (k : Noz.NozzType) (l : Noz.Loss) :
    (nozzle gas k l).wiring.Accepted
    ∧ ∀ n, n ∈ (nozzle gas k l).wiring.externals ↔ n ∈ flowVarNames "Fl_I" ++ nozInputs l := by
  rw [nw_eq]
  have h : ∀ l ∈ losses, (nw l).Accepted
      ∧ (nw l).externals ⊆ flowVarNames "Fl_I" ++ nozInputs l
      ∧ flowVarNames "Fl_I" ++ nozInputs l ⊆ (nw l).externals := by
    decide +kernel
  have h := h l (mem_losses l)
  exact ⟨h.1, fun n => ⟨fun hn => h.2.1 hn, fun hn => h.2.2 hn⟩⟩

private theorem nw_press : ∀ l ∈ losses,
    (nw l).outOf "mach_choked" "MN" = "mach_choked.MN"
    ∧ ((nw l).inSrc "PR_bal" "Ps_exhaust" = "Ps_exhaust" ∧ (nw l).inSrc "PR_bal" "Ps_calc" = "Ps_calc"
      ∧ (nw l).outOf "PR_bal" "PR" = "PR")
    ∧ ((nw l).inSrc "press_calcs" "Pt_in" = "Fl_I:tot:P" ∧ (nw l).inSrc "press_calcs" "PR" = "PR"
      ∧ (nw l).inSrc "press_calcs" "dPqP" = "dPqP" ∧ (nw l).outOf "press_calcs" "Pt_th" = "press_calcs.Pt_th"
      ∧ (nw l).outOf "press_calcs" "Ps_calc" = "Ps_calc")
    ∧ ((nw l).inSrc "throat_total" "h" = "Fl_I:tot:h" ∧ (nw l).inSrc "throat_total" "P" = "press_calcs.Pt_th"
      ∧ (nw l).inSrc "throat_total" "composition" = "Fl_I:tot:composition"
      ∧ (nw l).outOf "throat_total" "S" = "throat_total.S"
      ∧ (nw l).Reports "throat_total" "Fl_O:tot" .total_hP) := by
  decide +kernel

private theorem nw_stat : ∀ l ∈ losses,
    ((nw l).inSrc "staticMN" "S" = "throat_total.S" ∧ (nw l).inSrc "staticMN" "ht" = "Fl_I:tot:h"
      ∧ (nw l).inSrc "staticMN" "W" = "Fl_I:stat:W" ∧ (nw l).inSrc "staticMN" "MN" = "mach_choked.MN"
      ∧ (nw l).inSrc "staticMN" "composition" = "Fl_I:tot:composition"
      ∧ (nw l).ReportsAs "staticMN" "flow" "staticMN.flow" .static_MN)
    ∧ ((nw l).inSrc "staticPs" "S" = "throat_total.S" ∧ (nw l).inSrc "staticPs" "ht" = "Fl_I:tot:h"
      ∧ (nw l).inSrc "staticPs" "W" = "Fl_I:stat:W" ∧ (nw l).inSrc "staticPs" "Ps" = "Ps_calc"
      ∧ (nw l).inSrc "staticPs" "composition" = "Fl_I:tot:composition"
      ∧ (nw l).ReportsAs "staticPs" "flow" "staticPs.flow" .static_Ps)
    ∧ ((nw l).inSrc "ideal_flow" "S" = "Fl_I:tot:S" ∧ (nw l).inSrc "ideal_flow" "ht" = "Fl_I:tot:h"
      ∧ (nw l).inSrc "ideal_flow" "W" = "Fl_I:stat:W" ∧ (nw l).inSrc "ideal_flow" "Ps" = "Ps_calc"
      ∧ (nw l).inSrc "ideal_flow" "composition" = "Fl_I:tot:composition"
      ∧ (nw l).outOf "ideal_flow" "V" = "ideal_flow.V"
      ∧ (nw l).ReportsAs "ideal_flow" "flow" "ideal_flow.flow" .static_Ps) := by
  decide +kernel

private theorem nw_mux : ∀ l ∈ losses,
    ((nw l).inSrc "mux" "Ps_calc" = "Ps_calc" ∧ (nw l).inSrc "mux" "S" = "throat_total.S"
      ∧ (nw l).inSrc "mux" "Ps:P" = "Ps_calc" ∧ (nw l).inSrc "mux" "Ps:W" = "Fl_I:stat:W"
      ∧ (nw l).inSrc "mux" "MN:W" = "Fl_I:stat:W" ∧ (nw l).inSrc "mux" "MN:MN" = "mach_choked.MN"
      ∧ (nw l).inSrc "mux" "MN:P" = (nw l).outOf "staticMN" "Ps")
    ∧ (∀ v ∈ ["h", "T", "rho", "gamma", "Cp", "Cv", "V", "Vsonic", "MN", "area"],
        (nw l).inSrc "mux" ("Ps:" ++ v) = (nw l).outOf "staticPs" v)
    ∧ (∀ v ∈ ["h", "T", "rho", "gamma", "Cp", "Cv", "V", "Vsonic", "area"],
        (nw l).inSrc "mux" ("MN:" ++ v) = (nw l).outOf "staticMN" v)
    ∧ (∀ v ∈ ["h", "T", "P", "rho", "gamma", "Cp", "Cv", "V", "Vsonic", "MN", "area", "W", "S"],
        (nw l).outOf "mux" ("Fl_O:stat:" ++ v) = "Fl_O:stat:" ++ v
        ∧ (nw l).outOf "mux" ("Throat:stat:" ++ v) = "Throat:stat:" ++ v) := by
  decide +kernel

private theorem nw_perf : ∀ l ∈ losses,
    ((nw l).inSrc "perf_calcs" "W_in" = "Fl_I:stat:W" ∧ (nw l).inSrc "perf_calcs" "Ps_calc" = "Ps_calc"
      ∧ (nw l).inSrc "perf_calcs" "V_ideal" = "ideal_flow.V" ∧ (nw l).outOf "perf_calcs" "Fg" = "Fg"
      ∧ (nw l).outOf "perf_calcs" "Fg_ideal" = "perf_calcs.Fg_ideal")
    ∧ (nw .Cfg).inSrc "perf_calcs" "Cfg" = "Cfg"
    ∧ ((nw .Cv).inSrc "perf_calcs" "Cv" = "Cv" ∧ (nw .Cv).inSrc "perf_calcs" "Cang" = "perf_calcs.Cang"
      ∧ (nw .Cv).inSrc "perf_calcs" "CmixCorr" = "perf_calcs.CmixCorr"
      ∧ (nw .Cv).inSrc "perf_calcs" "V_actual" = "Fl_O:stat:V"
      ∧ (nw .Cv).inSrc "perf_calcs" "A_actual" = "Fl_O:stat:area"
      ∧ (nw .Cv).inSrc "perf_calcs" "Ps_actual" = "Fl_O:stat:P") := by
  decide +kernel

/-- **C52 (pressure).** A converged nozzle expands the incoming total pressure, less the loss, to the exhaust
pressure; the ratio of the two is `PR`, at least `1.000001`. The outlet totals are those of the inlet gas at
that pressure and the inlet enthalpy. -/
theorem C52_pressure (gas : (ℕ → ℝ) → TPGas) (k : Noz.NozzType) (l : Noz.Loss) (E : Env)
    (hc : (nozzle gas k l).Converged E) :
    E.num "Ps_calc" = E.num "Ps_exhaust"
    ∧ 1.000001 ≤ E.num "PR"
    ∧ E.num "PR" * E.num "Ps_exhaust" = E.num "Fl_I:tot:P" * (1 - E.num "dPqP")
    ∧ E.num "Fl_O:tot:P" = E.num "Fl_I:tot:P" * (1 - E.num "dPqP")
    ∧ E.num "Fl_O:tot:h" = E.num "Fl_I:tot:h"
    ∧ E.vec "Fl_O:tot:composition" = E.vec "Fl_I:tot:composition"
    ∧ StateOf (gas (E.vec "Fl_I:tot:composition")) E "Fl_O:tot"
    ∧ E.num "throat_total.S" = E.num "Fl_O:tot:S" := by
  have hl := mem_losses l
  have hn := nw_nodup l hl
  obtain ⟨-, ⟨b1, b2, b3⟩, ⟨p1, p2, p3, p4, p5⟩, t1, t2, t3, t4, t5⟩ := nw_press l hl
  have hb := hc.sub (nw_eq gas k l) hn 2 _ rfl "PR_bal" rfl
  have hp := hc.sub (nw_eq gas k l) hn 3 _ rfl "press_calcs" rfl
  have ht := hc.station (gas := gas) (nw_eq gas k l) hn 4 rfl t5
  have hcp := thermo_copies (hc.sub (nw_eq gas k l) hn 4 (thermo gas "throat_total" .total_hP "Fl_O:tot" _ _) rfl
    "throat_total" rfl) (.baseThermo, .S, .S) (by decide)
  simp only [Wiring.wr, nm, t4] at hcp
  simp only [reduceCtorEq, if_false] at hcp
  have hS := t5.1 .S (by decide)
  simp only [nm] at hS
  rw [hS] at hcp
  simp only [Wiring.rd, Wiring.wr, NC.rd, NC.wr, NC.inSrc_eq, NC.outOf_eq, b1, b2, b3, Noz.prLower, Noz.prResid] at hb
  simp only [Wiring.rd, Wiring.wr, NC.rd, NC.wr, NC.inSrc_eq, NC.outOf_eq, p1, p2, p3, p4, p5, Noz.press] at hp
  have s1 := ht.state
  have s2 := ht.hp rfl
  have s3 := ht.comp rfl
  simp only [Wiring.rd, t1, t2, t3, Env.at, String.reduceAppend] at s1 s2 s3
  have hps : E.num "Ps_calc" = E.num "Ps_exhaust" := by linarith [hb.2]
  have hPR : (0 : ℝ) < E.num "PR" := lt_of_lt_of_le (by norm_num) hb.1
  refine ⟨hps, hb.1, ?_, by rw [s2.2, hp.1], s2.1, s3, s1, hcp⟩
  rw [← hps, hp.2]; field_simp

/-- The properties a nozzle reports at its throat and exit. -/
def nozProps : List String := ["h", "T", "P", "rho", "gamma", "Cp", "Cv", "V", "Vsonic", "MN", "area", "W"]

/-- **C52 (the three stations).** All three internal stations are states of the inlet gas carrying the inlet
flow: `staticMN.flow` at Mach one and `staticPs.flow` at the exhaust pressure, both at the entropy after the
loss; `ideal_flow.flow` at the exhaust pressure and the inlet entropy. Energy and continuity hold under the
guards of C24. -/
theorem C52_stations (gas : (ℕ → ℝ) → TPGas) (k : Noz.NozzType) (l : Noz.Loss) (E : Env)
    (hc : (nozzle gas k l).Converged E) :
    let g := gas (E.vec "Fl_I:tot:composition")
    let W := E.num "Fl_I:stat:W"
    let ht := E.num "Fl_I:tot:h"
    (StateOf g E "staticMN.flow" ∧ E.at "staticMN.flow" "MN" = 1 ∧ E.at "staticMN.flow" "W" = W
      ∧ E.at "staticMN.flow" "S" = E.num "Fl_O:tot:S"
      ∧ (0 < E.at "staticMN.flow" "gamma" * E.at "staticMN.flow" "R" * E.at "staticMN.flow" "T" →
          0 < E.at "staticMN.flow" "rho" → ht ≠ 0 → Moving E "staticMN.flow" W ht (E.num "Fl_O:tot:S")))
    ∧ (StateOf g E "staticPs.flow" ∧ E.at "staticPs.flow" "P" = E.num "Ps_exhaust"
      ∧ E.at "staticPs.flow" "W" = W ∧ E.at "staticPs.flow" "S" = E.num "Fl_O:tot:S"
      ∧ (0 < E.at "staticPs.flow" "gamma" * E.at "staticPs.flow" "R" * E.at "staticPs.flow" "T" →
          0 < E.at "staticPs.flow" "rho" → ht ≠ 0 → E.at "staticPs.flow" "h" < ht →
          Moving E "staticPs.flow" W ht (E.num "Fl_O:tot:S")))
    ∧ (StateOf g E "ideal_flow.flow" ∧ E.at "ideal_flow.flow" "P" = E.num "Ps_exhaust"
      ∧ E.at "ideal_flow.flow" "W" = W ∧ E.at "ideal_flow.flow" "S" = E.num "Fl_I:tot:S"
      ∧ (0 < E.at "ideal_flow.flow" "gamma" * E.at "ideal_flow.flow" "R" * E.at "ideal_flow.flow" "T" →
          0 < E.at "ideal_flow.flow" "rho" → ht ≠ 0 → E.at "ideal_flow.flow" "h" < ht →
          Moving E "ideal_flow.flow" W ht (E.num "Fl_I:tot:S"))) := by
  have hl := mem_losses l
  have hn := nw_nodup l hl
  obtain ⟨q1, -, -, -, -, -, -, q8⟩ := C52_pressure gas k l E hc
  obtain ⟨m0, -⟩ := nw_press l hl
  have hM : E.num "mach_choked.MN" = 1 := by
    have := hc.sub (nw_eq gas k l) hn 0 _ rfl "mach_choked" rfl
    simpa only [Wiring.wr, m0] using this
  obtain ⟨⟨a1, a2, a3, a4, a5, a6⟩, ⟨b1, b2, b3, b4, b5, b6⟩, c1, c2, c3, c4, c5, c6, c7⟩ := nw_stat l hl
  have ha := hc.stationAs (gas := gas) (nw_eq gas k l) hn 5 rfl _ a6
  have hb := hc.stationAs (gas := gas) (nw_eq gas k l) hn 6 rfl _ b6
  have hi := hc.stationAs (gas := gas) (nw_eq gas k l) hn 7 rfl _ c7
  have u1 := ha.state
  have u2 := ha.mn rfl
  have u3 := ha.stat rfl
  have u4 := ha.moving rfl
  have v1 := hb.state
  have v2 := hb.ps rfl
  have v3 := hb.stat rfl
  have v4 := hb.moving rfl
  have w1 := hi.state
  have w2 := hi.ps rfl
  have w3 := hi.stat rfl
  have w4 := hi.moving rfl
  simp only [Wiring.rd, a1, a2, a3, a4, a5, b1, b2, b3, b4, b5, c1, c2, c3, c4, c5, q1, q8, hM]
    at u1 u2 u3 u4 v1 v2 v3 v4 w1 w2 w3 w4
  intro g W ht
  refine ⟨⟨u1, u2, u3.2, u3.1, fun g1 g2 g3 => u4 g1 g2 g3 (fun _ => by rw [u2]; norm_num) (by simp) (by simp)⟩,
    ⟨v1, v2, v3.2, v3.1, fun g1 g2 g3 g4 => v4 g1 g2 g3 (by simp) (by simp) (fun _ => g4)⟩,
    w1, w2, w3.2, w3.1, fun g1 g2 g3 g4 => w4 g1 g2 g3 (by simp) (by simp) (fun _ => g4)⟩

open Classical in
/-- Which internal station a nozzle exit shows: a convergent nozzle shows the sonic one when the sonic
pressure is above the exhaust pressure, otherwise (and for the other types always) the one expanded to the
exhaust pressure. -/
noncomputable def exitStation (k : Noz.NozzType) (E : Env) : String :=
  if k = .CV ∧ E.num "Ps_exhaust" < E.at "staticMN.flow" "P" then "staticMN.flow" else "staticPs.flow"

open Classical in
/-- The same for the throat: a convergent-divergent throat is always sonic. -/
noncomputable def throatStation (k : Noz.NozzType) (E : Env) : String :=
  if k = .CD ∨ E.num "Ps_exhaust" < E.at "staticMN.flow" "P" then "staticMN.flow" else "staticPs.flow"

private theorem mn_val {gas : (ℕ → ℝ) → TPGas} {k : Noz.NozzType} {l : Noz.Loss} {E : Env}
    (hc : (nozzle gas k l).Converged E) :
    (∀ p ∈ prAll, E.num ((nw l).inSrc "mux" ("MN:" ++ prName p)) = E.at "staticMN.flow" (prName p))
    ∧ ∀ p ∈ prAll, E.num ((nw l).inSrc "mux" ("Ps:" ++ prName p)) = E.at "staticPs.flow" (prName p) := by
  have hl := mem_losses l
  have hn := nw_nodup l hl
  obtain ⟨⟨-, -, x3, x4, x5, x6, x7⟩, xP, xM, -⟩ := nw_mux l hl
  obtain ⟨⟨-, -, -, -, -, a6⟩, ⟨-, -, -, -, -, b6⟩, -⟩ := nw_stat l hl
  obtain ⟨⟨-, hMN, hMW, -⟩, ⟨-, hPP, hPW, -⟩, -⟩ := C52_stations gas k l E hc
  obtain ⟨q1, -⟩ := C52_pressure gas k l E hc
  obtain ⟨m0, -⟩ := nw_press l hl
  have hM : E.num "mach_choked.MN" = 1 := by
    have := hc.sub (nw_eq gas k l) hn 0 _ rfl "mach_choked" rfl
    simpa only [Wiring.wr, m0] using this
  have cM := thermo_copies (hc.sub (nw_eq gas k l) hn 5 (thermo gas "staticMN" .static_MN "flow" _ _) rfl
    "staticMN" rfl)
  have cP := thermo_copies (hc.sub (nw_eq gas k l) hn 6 (thermo gas "staticPs" .static_Ps "flow" _ _) rfl
    "staticPs" rfl)
  have am : ∀ v ∈ TG.flowVars, (nw l).outOf "staticMN" ("flow" ++ ":" ++ nm v) = "staticMN.flow" ++ ":" ++ nm v := a6.1
  have as : ∀ v ∈ statVars, (nw l).outOf "staticMN" ("flow" ++ ":" ++ nm v) = "staticMN.flow" ++ ":" ++ nm v := a6.2 rfl
  have bm : ∀ v ∈ TG.flowVars, (nw l).outOf "staticPs" ("flow" ++ ":" ++ nm v) = "staticPs.flow" ++ ":" ++ nm v := b6.1
  have bs : ∀ v ∈ statVars, (nw l).outOf "staticPs" ("flow" ++ ":" ++ nm v) = "staticPs.flow" ++ ":" ++ nm v := b6.2 rfl
  have getM : ∀ (s : TG.SubN) (v u : TG.Var), (s, v, u) ∈ thermoOuts .static_MN → u ≠ .Ps →
      (u ∈ TG.flowVars ∨ u ∈ statVars) → E.num ((nw l).outOf "staticMN" (nm u)) = E.at "staticMN.flow" (nm u) := by
    intro s v u h1 h2 h3
    have := cM (s, v, u) h1
    simp only [Wiring.wr, h2, if_false] at this
    rw [this]
    rcases h3 with h | h
    · rw [am u h]; rfl
    · rw [as u h]; rfl
  have getP : ∀ (s : TG.SubN) (v u : TG.Var), (s, v, u) ∈ thermoOuts .static_Ps → u ≠ .Ps →
      (u ∈ TG.flowVars ∨ u ∈ statVars) → E.num ((nw l).outOf "staticPs" (nm u)) = E.at "staticPs.flow" (nm u) := by
    intro s v u h1 h2 h3
    have := cP (s, v, u) h1
    simp only [Wiring.wr, h2, if_false] at this
    rw [this]
    rcases h3 with h | h
    · rw [bm u h]; rfl
    · rw [bs u h]; rfl
  have getMP : E.num ((nw l).outOf "staticMN" "Ps") = E.at "staticMN.flow" "P" := by
    have := cM (.psResid, .Ps, .Ps) (by decide)
    simp only [Wiring.wr, if_true] at this
    rw [am .P (by decide)] at this
    exact this
  constructor
  · intro p hp
    cases p
    case h => rw [show "MN:" ++ prName .h = "MN:" ++ "h" from rfl, xM _ (by decide)]; exact getM .baseThermo .h .h (by decide) (by decide) (by decide)
    case T => rw [show "MN:" ++ prName .T = "MN:" ++ "T" from rfl, xM _ (by decide)]; exact getM .balance .T .T (by decide) (by decide) (by decide)
    case rho => rw [show "MN:" ++ prName .rho = "MN:" ++ "rho" from rfl, xM _ (by decide)]; exact getM .baseThermo .rho .rho (by decide) (by decide) (by decide)
    case gamma => rw [show "MN:" ++ prName .gamma = "MN:" ++ "gamma" from rfl, xM _ (by decide)]; exact getM .baseThermo .gamma .gamma (by decide) (by decide) (by decide)
    case Cp => rw [show "MN:" ++ prName .Cp = "MN:" ++ "Cp" from rfl, xM _ (by decide)]; exact getM .baseThermo .Cp .Cp (by decide) (by decide) (by decide)
    case Cv => rw [show "MN:" ++ prName .Cv = "MN:" ++ "Cv" from rfl, xM _ (by decide)]; exact getM .baseThermo .Cv .Cv (by decide) (by decide) (by decide)
    case V => rw [show "MN:" ++ prName .V = "MN:" ++ "V" from rfl, xM _ (by decide)]; exact getM .psResid .V .V (by decide) (by decide) (by decide)
    case Vsonic => rw [show "MN:" ++ prName .Vsonic = "MN:" ++ "Vsonic" from rfl, xM _ (by decide)]; exact getM .psResid .Vsonic .Vsonic (by decide) (by decide) (by decide)
    case area => rw [show "MN:" ++ prName .area = "MN:" ++ "area" from rfl, xM _ (by decide)]; exact getM .psResid .area .area (by decide) (by decide) (by decide)
    case P => rw [show "MN:" ++ prName .P = "MN:P" from rfl, x7]; exact getMP
    case MN => rw [show "MN:" ++ prName .MN = "MN:MN" from rfl, x6, hM]; exact hMN.symm
    case W => rw [show "MN:" ++ prName .W = "MN:W" from rfl, x5]; exact hMW.symm
  · intro p hp
    cases p
    case h => rw [show "Ps:" ++ prName .h = "Ps:" ++ "h" from rfl, xP _ (by decide)]; exact getP .baseThermo .h .h (by decide) (by decide) (by decide)
    case T => rw [show "Ps:" ++ prName .T = "Ps:" ++ "T" from rfl, xP _ (by decide)]; exact getP .balance .T .T (by decide) (by decide) (by decide)
    case rho => rw [show "Ps:" ++ prName .rho = "Ps:" ++ "rho" from rfl, xP _ (by decide)]; exact getP .baseThermo .rho .rho (by decide) (by decide) (by decide)
    case gamma => rw [show "Ps:" ++ prName .gamma = "Ps:" ++ "gamma" from rfl, xP _ (by decide)]; exact getP .baseThermo .gamma .gamma (by decide) (by decide) (by decide)
    case Cp => rw [show "Ps:" ++ prName .Cp = "Ps:" ++ "Cp" from rfl, xP _ (by decide)]; exact getP .baseThermo .Cp .Cp (by decide) (by decide) (by decide)
    case Cv => rw [show "Ps:" ++ prName .Cv = "Ps:" ++ "Cv" from rfl, xP _ (by decide)]; exact getP .baseThermo .Cv .Cv (by decide) (by decide) (by decide)
    case V => rw [show "Ps:" ++ prName .V = "Ps:" ++ "V" from rfl, xP _ (by decide)]; exact getP .psCalc .V .V (by decide) (by decide) (by decide)
    case Vsonic => rw [show "Ps:" ++ prName .Vsonic = "Ps:" ++ "Vsonic" from rfl, xP _ (by decide)]; exact getP .psCalc .Vsonic .Vsonic (by decide) (by decide) (by decide)
    case area => rw [show "Ps:" ++ prName .area = "Ps:" ++ "area" from rfl, xP _ (by decide)]; exact getP .psCalc .area .area (by decide) (by decide) (by decide)
    case MN => rw [show "Ps:" ++ prName .MN = "Ps:" ++ "MN" from rfl, xP _ (by decide)]; exact getP .psCalc .MN .MN (by decide) (by decide) (by decide)
    case P => rw [show "Ps:" ++ prName .P = "Ps:P" from rfl, x3, q1]; exact hPP.symm
    case W => rw [show "Ps:" ++ prName .W = "Ps:W" from rfl, x4]; exact hPW.symm

private theorem pick_pos (x : Noz.MI → ℝ) (p : Noz.Pr) (h : x .Ps_calc < x (.mn .P)) :
    Noz.pick x p = x (.mn p) := by simp [Noz.pick, h]

private theorem pick_neg (x : Noz.MI → ℝ) (p : Noz.Pr) (h : ¬ x .Ps_calc < x (.mn .P)) :
    Noz.pick x p = x (.ps p) := by simp [Noz.pick, h]

/-- **C52 (exit and throat).** Every property reported at the exit and at the throat is that of the chosen
internal station; both pass the inlet flow. -/
theorem C52_exit (gas : (ℕ → ℝ) → TPGas) (k : Noz.NozzType) (l : Noz.Loss) (E : Env)
    (hc : (nozzle gas k l).Converged E) :
    (∀ v ∈ nozProps, E.at "Fl_O:stat" v = E.at (exitStation k E) v)
    ∧ (∀ v ∈ nozProps, E.at "Throat:stat" v = E.at (throatStation k E) v)
    ∧ E.num "Fl_O:stat:S" = E.num "Fl_O:tot:S" ∧ E.num "Throat:stat:S" = E.num "Fl_O:tot:S"
    ∧ E.num "Fl_O:stat:W" = E.num "Fl_I:stat:W" ∧ E.num "Throat:stat:W" = E.num "Fl_I:stat:W" := by
  have hl := mem_losses l
  have hn := nw_nodup l hl
  obtain ⟨⟨x1, x2, -⟩, -, -, xo⟩ := nw_mux l hl
  obtain ⟨q1, -, -, -, -, -, -, q8⟩ := C52_pressure gas k l E hc
  obtain ⟨vM, vP⟩ := mn_val hc
  obtain ⟨⟨-, -, hMW, -⟩, ⟨-, -, hPW, -⟩, -⟩ := C52_stations gas k l E hc
  obtain ⟨-, h2, h3, h4, h5⟩ := hc.sub (nw_eq gas k l) hn 8 (muxSub k) rfl "mux" rfl
  have hP : E.num ((nw l).inSrc "mux" ("MN:" ++ prName .P)) = E.at "staticMN.flow" "P" := vM .P (by decide)
  have hcond : E.num ((nw l).inSrc "mux" "Ps_calc") < E.num ((nw l).inSrc "mux" ("MN:" ++ prName .P))
      ↔ E.num "Ps_exhaust" < E.at "staticMN.flow" "P" := by rw [x1, q1, hP]
  have ho : ∀ p ∈ prAll, E.at "Fl_O:stat" (prName p) = E.at (exitStation k E) (prName p) := by
    intro p hp
    have h := h4 p hp
    simp only [Wiring.wr] at h
    rw [(xo (prName p) (by cases p <;> decide)).1] at h
    have e : E.at "Fl_O:stat" (prName p) = E.num ("Fl_O:stat:" ++ prName p) := by cases p <;> rfl
    rw [e, h]
    cases k <;> simp only [Noz.mux, Wiring.rd, exitStation]
    · by_cases hh : E.num "Ps_exhaust" < E.at "staticMN.flow" "P"
      · simp only [hh, if_true, and_self]; exact (pick_pos _ p (hcond.mpr hh)).trans (vM p hp)
      · simp only [hh, if_false, and_false]; exact (pick_neg _ p (fun h => hh (hcond.mp h))).trans (vP p hp)
    · simp only [reduceCtorEq, false_and, if_false]; exact vP p hp
    · simp only [reduceCtorEq, false_and, if_false]; exact vP p hp
  have htt : ∀ p ∈ prAll, E.at "Throat:stat" (prName p) = E.at (throatStation k E) (prName p) := by
    intro p hp
    have h := h2 p hp
    simp only [Wiring.wr] at h
    rw [(xo (prName p) (by cases p <;> decide)).2] at h
    have e : E.at "Throat:stat" (prName p) = E.num ("Throat:stat:" ++ prName p) := by cases p <;> rfl
    rw [e, h]
    cases k <;> simp only [Noz.mux, Wiring.rd, throatStation]
    · by_cases hh : E.num "Ps_exhaust" < E.at "staticMN.flow" "P"
      · simp only [hh, if_true, or_true]; exact (pick_pos _ p (hcond.mpr hh)).trans (vM p hp)
      · simp only [hh, if_false, reduceCtorEq, or_self]; exact (pick_neg _ p (fun h => hh (hcond.mp h))).trans (vP p hp)
    · simp only [true_or, if_true]; exact vM p hp
    · by_cases hh : E.num "Ps_exhaust" < E.at "staticMN.flow" "P"
      · simp only [hh, if_true, or_true]; exact (pick_pos _ p (hcond.mpr hh)).trans (vM p hp)
      · simp only [hh, if_false, reduceCtorEq, or_self]; exact (pick_neg _ p (fun h => hh (hcond.mp h))).trans (vP p hp)
  have toProps : ∀ v ∈ nozProps, ∃ p ∈ prAll, prName p = v := by decide
  refine ⟨?_, ?_, ?_, ?_, ?_, ?_⟩
  · intro v hv
    obtain ⟨p, hp, rfl⟩ := toProps v hv
    exact ho p hp
  · intro v hv
    obtain ⟨p, hp, rfl⟩ := toProps v hv
    exact htt p hp
  · have := h5
    simp only [Wiring.wr, Wiring.rd, Noz.mux, x2, q8] at this
    rw [show (nw l).outOf "mux" "Fl_O:stat:S" = "Fl_O:stat:S" from (xo "S" (by decide)).1] at this
    exact this
  · have := h3
    simp only [Wiring.wr, Wiring.rd, Noz.mux, x2, q8] at this
    rw [show (nw l).outOf "mux" "Throat:stat:S" = "Throat:stat:S" from (xo "S" (by decide)).2] at this
    exact this
  · have := ho .W (by decide)
    have e : E.at (exitStation k E) "W" = E.num "Fl_I:stat:W" := by
      unfold exitStation; split_ifs
      · exact hMW
      · exact hPW
    exact this.trans e
  · have := htt .W (by decide)
    have e : E.at (throatStation k E) "W" = E.num "Fl_I:stat:W" := by
      unfold throatStation; split_ifs
      · exact hMW
      · exact hPW
    exact this.trans e

/-- **C52 (choking).** A converged convergent nozzle is either sonic at its exit, above the exhaust pressure,
or expanded exactly to the exhaust pressure. -/
theorem C52_choking (gas : (ℕ → ℝ) → TPGas) (l : Noz.Loss) (E : Env)
    (hc : (nozzle gas .CV l).Converged E) :
    (E.num "Fl_O:stat:MN" = 1 ∧ E.num "Ps_exhaust" < E.num "Fl_O:stat:P")
    ∨ (E.num "Fl_O:stat:P" = E.num "Ps_exhaust" ∧ E.at "staticMN.flow" "P" ≤ E.num "Ps_exhaust") := by
  obtain ⟨h1, -⟩ := C52_exit gas .CV l E hc
  obtain ⟨⟨-, hM, -⟩, ⟨-, hP, -⟩, -⟩ := C52_stations gas .CV l E hc
  have eM : E.num "Fl_O:stat:MN" = E.at (exitStation .CV E) "MN" := h1 "MN" (by decide)
  have eP : E.num "Fl_O:stat:P" = E.at (exitStation .CV E) "P" := h1 "P" (by decide)
  by_cases hh : E.num "Ps_exhaust" < E.at "staticMN.flow" "P"
  · left
    have e : exitStation .CV E = "staticMN.flow" := by simp [exitStation, hh]
    rw [eM, eP, e]
    exact ⟨hM, hh⟩
  · right
    have e : exitStation .CV E = "staticPs.flow" := by simp [exitStation, hh]
    rw [eP, e]
    exact ⟨hP, not_lt.mp hh⟩

/-- **C52 (thrust).** The ideal thrust is that of the loss-free expansion to the exhaust pressure; the gross
thrust is `Cfg` times it, or, with a velocity coefficient, the momentum at the exit times the coefficients plus
the pressure force on the exit area. -/
theorem C52_thrust (gas : (ℕ → ℝ) → TPGas) (k : Noz.NozzType) (l : Noz.Loss) (E : Env)
    (hc : (nozzle gas k l).Converged E) :
    E.num "perf_calcs.Fg_ideal" = E.num "Fl_I:stat:W" * E.at "ideal_flow.flow" "V" / 32.174
    ∧ (l = .Cfg → E.num "Fg" = E.num "Cfg" * E.num "perf_calcs.Fg_ideal")
    ∧ (l = .Cv → E.num "Fg" = E.num "Fl_O:stat:W" * E.num "Fl_O:stat:V" / 32.174
          * (E.num "Cv" * E.num "perf_calcs.Cang" * E.num "perf_calcs.CmixCorr")
        + (E.num "Fl_O:stat:P" - E.num "Ps_exhaust") * E.num "Fl_O:stat:area") := by
  have hl := mem_losses l
  have hn := nw_nodup l hl
  obtain ⟨q1, -⟩ := C52_pressure gas k l E hc
  obtain ⟨-, -, -, -, oW, -⟩ := C52_exit gas k l E hc
  obtain ⟨-, -, -, -, -, -, -, c6, c7⟩ := nw_stat l hl
  obtain ⟨⟨p1, p2, p3, p4, p5⟩, p6, p7, p8, p9, p10, p11, p12⟩ := nw_perf l hl
  have hcp := thermo_copies (hc.sub (nw_eq gas k l) hn 7 (thermo gas "ideal_flow" .static_Ps "flow" _ _) rfl
    "ideal_flow" rfl) (.psCalc, .V, .V) (by decide)
  simp only [Wiring.wr, nm, c6] at hcp
  simp only [reduceCtorEq, if_false] at hcp
  have hV' := c7.2 rfl .V (by decide)
  simp only [nm] at hV'
  rw [hV'] at hcp
  have hV : E.num "ideal_flow.V" = E.at "ideal_flow.flow" "V" := hcp
  have hp := hc.sub (nw_eq gas k l) hn 9 (perfSub l) rfl "perf_calcs" rfl
  have hid : E.num "perf_calcs.Fg_ideal" = E.num "Fl_I:stat:W" * E.at "ideal_flow.flow" "V" / 32.174 := by
    have := hp.1
    simp only [Wiring.rd, Wiring.wr, NC.rd, NC.wr, NC.inSrc_eq, NC.outOf_eq, p1, p3, p5, Noz.perf, Noz.g_c, hV] at this
    rw [this]; ring
  refine ⟨hid, ?_, ?_⟩
  · rintro rfl
    have := hp.2
    simp only [Wiring.rd, Wiring.wr, NC.rd, NC.wr, NC.inSrc_eq, NC.outOf_eq, p1, p3, p4, p6, Noz.perf, Noz.g_c, hV] at this
    rw [this, hid]; ring
  · rintro rfl
    have := hp.2
    simp only [Wiring.rd, Wiring.wr, NC.rd, NC.wr, NC.inSrc_eq, NC.outOf_eq, p1, p2, p4, p7, p8, p9, p10, p11, p12, Noz.perf, Noz.g_c, q1] at this
    rw [this, oW]; ring

namespace C52Example
open C48Example (unitGas tot sta)
open C50Example (mov mov_ok)

/-- A convergent nozzle at the limit of choking: total pressure 2 after the loss, exhaust and sonic pressure 0.5. -/
noncomputable def blown : Env := Env.ofTable
  ([("Fl_I:stat:W", 2), ("Fl_I:tot:h", 1.5), ("Fl_I:tot:P", 4), ("Fl_I:tot:S", 0), ("Ps_exhaust", 0.5), ("dPqP", 0.5),
    ("Cfg", 0.9), ("PR", 4), ("Ps_calc", 0.5), ("press_calcs.Pt_th", 2), ("mach_choked.MN", 1), ("mux.choked", 1),
    ("Throat:stat:S", 0), ("Fl_O:stat:S", 0), ("Throat:stat:Cv", 1), ("Fl_O:stat:Cv", 1), ("Throat:stat:Cp", 1),
    ("Fl_O:stat:Cp", 1), ("perf_calcs.Fg_ideal", 2 / 32.174), ("Fg", 1.8 / 32.174)]
    ++ stationRows "throat_total." tot ++ stationRows "Fl_O:tot:" tot
    ++ stationRows "staticMN." sta ++ stationRows "staticMN.flow:" sta
    ++ staticRows "staticMN." (mov 2) 2 ++ staticRows "staticMN.flow:" (mov 2) 2
    ++ stationRows "staticPs." sta ++ stationRows "staticPs.flow:" sta
    ++ staticRows "staticPs." (mov 2) 2 ++ staticRows "staticPs.flow:" (mov 2) 2
    ++ stationRows "ideal_flow." sta ++ stationRows "ideal_flow.flow:" sta
    ++ staticRows "ideal_flow." (mov 2) 2 ++ staticRows "ideal_flow.flow:" (mov 2) 2
    ++ stationRows "Throat:stat:" sta ++ staticRows "Throat:stat:" (mov 2) 2
    ++ stationRows "Fl_O:stat:" sta ++ staticRows "Fl_O:stat:" (mov 2) 2)
  []

set_option maxHeartbeats 2000000 in
theorem blown_converged : (nozzle unitGas .CV .Cfg).Converged blown := by
  refine Group.converged_quick (nw_eq unitGas .CV .Cfg) (nw_nodup .Cfg (by decide)) ?_
  intro s hs
  simp only [nozzle, List.mem_cons, List.not_mem_nil, or_false] at hs
  rcases hs with rfl | rfl | rfl | rfl | rfl | rfl | rfl | rfl | rfl | rfl
  · show (1 : ℝ) = 1
    rfl
  · exact trivial
  · show (1.000001 : ℝ) ≤ 4 ∧ (0.5 : ℝ) - 0.5 = 0
    norm_num
  · show (2 : ℝ) = 4 * (1 - 0.5) ∧ (0.5 : ℝ) = 4 * (1 - 0.5) / 4
    norm_num
  · total_of tot
  · static_of sta (mov 2) 1.5 2 (fun v => if v = .guessPt then 2 else 1) (mov_ok 2 (by norm_num))
  · static_of sta (mov 2) 1.5 2 (fun v => 0) (mov_ok 2 (by norm_num))
  · static_of sta (mov 2) 1.5 2 (fun v => 0) (mov_ok 2 (by norm_num))
  · refine ⟨rfl, fun p _ => ?_, rfl, fun p _ => ?_, rfl⟩
    all_goals
      simp only [Noz.mux]
      refine Eq.trans ?_ (pick_neg _ p ?_).symm
      · cases p <;> rfl
      · show ¬ (0.5 : ℝ) < 0.5
        norm_num
  · show (2 / 32.174 : ℝ) = 2 / 32.174 * 1 ∧ (1.8 / 32.174 : ℝ) = 2 / 32.174 * 1 * 0.9
    norm_num

end C52Example

end PyCycle.OM
