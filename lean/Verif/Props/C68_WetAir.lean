import Verif.Props.C57_Accounts

/-! # C68: humid air

`FlowStart` and `FlightConditions` with a reactant, under the default name of the mixing ratio and under the name
`WAR` of the examples. -/

namespace PyCycle.OM
open C49

namespace C68

/-- The two names. -/
def rn (q : Bool) : String := if q then "WAR" else "mix:ratio"

/-- Wiring of `FlowStart` with a reactant. -/
abbrev sw (q : Bool) : Wiring := (flowStart gas0 (some (.tab 1 0)) (rn q)).wiring

theorem sw_eq (gas : (ℕ → ℝ) → TPGas) (a : Adder) (q : Bool) : (flowStart gas (some a) (rn q)).wiring = sw q := rfl

theorem sw_nodup (q : Bool) : ((sw q).subs.map (·.name)).Nodup := by
  revert q; decide +kernel

theorem sw_links (q : Bool) :
    ((sw q).inSrc "totals" "T" = "T" ∧ (sw q).inSrc "totals" "P" = "P"
      ∧ (sw q).inSrc "totals" "composition" = "composition" ∧ (sw q).Reports "totals" "Fl_O:tot" .total_TP
      ∧ (sw q).outOf "totals" "h" = "totals.h" ∧ (sw q).outOf "totals" "S" = "totals.S")
    ∧ ((sw q).inSrc "exit_static" "MN" = "MN" ∧ (sw q).inSrc "exit_static" "W" = "W"
      ∧ (sw q).inSrc "exit_static" "composition" = "composition"
      ∧ (sw q).inSrc "exit_static" "ht" = "totals.h" ∧ (sw q).inSrc "exit_static" "S" = "totals.S"
      ∧ (sw q).Reports "exit_static" "Fl_O:stat" .static_MN) := by
  revert q; decide +kernel

theorem sw_add (q : Bool) :
    (sw q).inSrc "thermo_add" "Fl_I:stat:W" = "W" ∧ (sw q).inSrc "thermo_add" "mix:ratio" = rn q
    ∧ (sw q).inSrc "thermo_add" "Fl_I:tot:composition" = "thermo_add.Fl_I:tot:composition"
    ∧ (sw q).inSrc "thermo_add" "Fl_I:tot:h" = "thermo_add.Fl_I:tot:h"
    ∧ (sw q).inSrc "thermo_add" "mix:h" = "thermo_add.mix:h"
    ∧ (sw q).outOf "thermo_add" "composition_out" = "composition" := by
  revert q; decide +kernel

/-- What has to be given. -/
def startIns (q : Bool) : List String :=
  ["T", "P", "MN", "W", rn q, "thermo_add.Fl_I:tot:composition", "thermo_add.Fl_I:tot:h", "thermo_add.mix:h"]

theorem sw_interface (q : Bool) : (sw q).Accepted ∧ ∀ n, n ∈ (sw q).externals ↔ n ∈ startIns q := by
  have h : ∀ q, (sw q).Accepted ∧ (sw q).externals ⊆ startIns q ∧ startIns q ⊆ (sw q).externals := by decide +kernel
  obtain ⟨h1, h2, h3⟩ := h q
  exact ⟨h1, fun n => ⟨fun hn => h2 hn, fun hn => h3 hn⟩⟩

theorem start {gas : (ℕ → ℝ) → TPGas} {a : Adder} {q : Bool} {E : Env}
    (hc : (flowStart gas (some a) (rn q)).Converged E) :
    Starts (gas (E.vec "composition")) E (E.num "T") (E.num "P") (E.num "MN") (E.num "W")
    ∧ E.vec "Fl_O:tot:composition" = E.vec "composition" := by
  obtain ⟨⟨t1, t2, t3, t4, t5, t6⟩, s1, s2, s3, s4, s5, s6⟩ := sw_links q
  have hn := sw_nodup q
  have ht : ThermoSays gas .total_TP "Fl_O:tot" ((sw q).rd E "totals") E :=
    hc.station (gas := gas) (sw_eq gas a q) hn 1 rfl t4
  have hs : ThermoSays gas .static_MN "Fl_O:stat" ((sw q).rd E "exit_static") E :=
    hc.station (gas := gas) (sw_eq gas a q) hn 2 rfl s6
  have hp : E.num "Fl_O:tot:h" = E.num "totals.h" ∧ E.num "Fl_O:tot:S" = E.num "totals.S" := by
    have := totals_pass (hc.sub (sw_eq gas a q) hn 1 (thermo gas "totals" .total_TP "Fl_O:tot"
      [.var "T", .var "P", .var "composition"] [.pre "Fl_O:tot:"]) rfl "totals" rfl)
    have a1 := t4.1 .h (by decide)
    have a2 := t4.1 .S (by decide)
    simp only [nm, String.reduceAppend] at a1 a2
    simpa only [Wiring.wr, NC.wr, NC.outOf_eq, String.reduceAppend, a1, a2, t5, t6] using this
  have u1 := ht.state
  have u2 := ht.tp rfl
  have u3 := ht.comp rfl
  have w1 := hs.state
  have w2 := hs.stat rfl
  have w3 := hs.mn rfl
  have w4 := hs.moving rfl
  simp only [Wiring.rd, t1, t2, t3, s1, s2, s3, s4, s5, Env.at, String.reduceAppend, ← hp.1, ← hp.2,
    forall_const, reduceCtorEq, false_implies] at u1 u2 u3 w1 w2 w3 w4
  refine ⟨⟨u1, u2.1, u2.2, w1, w3, w2.2, w2.1, ?_⟩, u3⟩
  intro g1 g2 g3 g4
  exact w4 g1 g2 g3 (by rw [w3]; exact g4)

theorem start_cea {gas : (ℕ → ℝ) → TPGas} {q : Bool} {E : Env}
    (data : ThermoData) (infl : PyDict ℝ) (hin : infl.keys.Nodup) (reactant : String) (f : PyDict ℝ)
    (hf : data.reactants.get? reactant = some f) (hfk : f.keys.Nodup) (hfm : formulaMass f data.wtOf ≠ 0)
    (S : ReactantAdd) (hS : reactantSetup data (some infl) ["mix"] [reactant] = .ok S)
    (hwt : ∀ e ∈ S.mixed.elements, data.wtOf e ≠ 0)
    (hcomp : totalMass S.inflow.elements data.wtOf (fun k => E.vec "thermo_add.Fl_I:tot:composition" k) ≠ 0)
    (hW : E.num "W" ≠ 0) (hr : 1 + E.num (rn q) ≠ 0)
    (hc : (flowStart gas (some (.cea S)) (rn q)).Converged E) :
    totalMass S.mixed.elements data.wtOf (fun k => E.vec "Fl_O:tot:composition" k) = 1
    ∧ ∀ e, (1 + E.num (rn q))
        * elemMassFrac S.mixed.elements data.wtOf (fun k => E.vec "Fl_O:tot:composition" k) e
      = elemMassFrac S.inflow.elements data.wtOf (fun k => E.vec "thermo_add.Fl_I:tot:composition" k) e
        + E.num (rn q) * formulaMassFrac f data.wtOf e := by
  obtain ⟨-, oc⟩ := start hc
  obtain ⟨m1, m2, m3, m4, m5, m6⟩ := sw_add q
  have hm := hc.sub (sw_eq gas (.cea S) q) (sw_nodup q) 0
    (reactantSub (.cea S) "thermo_add" [.as "Fl_I:stat:W" "W", .as "mix:ratio" (rn q)]
      [.as "composition_out" "composition"]) rfl "thermo_add" rfl
  have a1 : ("mix" : String) ++ ":ratio" = "mix:ratio" := by decide
  simp only [reactantSub, Wiring.rd, Wiring.wr, NC.rd, NC.wr, NC.inSrc_eq, NC.outOf_eq, m1, m3, m4, m6] at hm
  obtain ⟨-, r2, r3, -⟩ := hm
  have hW' : E.num "W" + E.num "W" * E.num (rn q) ≠ 0 := by
    rw [show E.num "W" + E.num "W" * E.num (rn q) = E.num "W" * (1 + E.num (rn q)) by ring]
    exact mul_ne_zero hW hr
  have key := C10_reactant_conservation data infl hin ["mix"] [reactant] S hS
    (fun r hr g hg => by
      rw [List.mem_singleton] at hr; subst hr
      rw [hf] at hg; cases hg; exact ⟨hfk, hfm⟩) hwt (E.num "W") (E.num "thermo_add.Fl_I:tot:h")
    (fun k => E.vec "thermo_add.Fl_I:tot:composition" k) hcomp
    (fun n => E.num ((sw q).inSrc "thermo_add" (n ++ ":ratio")))
    (fun n => E.num ((sw q).inSrc "thermo_add" (n ++ ":h")))
    (by simpa [a1, m2] using hW')
  obtain ⟨⟨k1, k2, k3, -⟩, -⟩ := key
  simp only [List.zip_cons_cons, List.zip_nil_right, List.map_cons, List.map_nil, List.sum_cons, List.sum_nil,
    add_zero, a1, m2, hf, Option.getD_some] at k1 k3
  have hcv : (fun k : Fin S.mixed.elements.length => E.vec "Fl_O:tot:composition" k)
      = (reactantCompute S (E.num "W") (E.num "thermo_add.Fl_I:tot:h")
        (fun k => E.vec "thermo_add.Fl_I:tot:composition" k)
        (fun n => E.num ((sw q).inSrc "thermo_add" (n ++ ":ratio")))
        (fun n => E.num ((sw q).inSrc "thermo_add" (n ++ ":h")))).comp := by
    funext k; rw [oc]; exact r3 k
  refine ⟨by rw [hcv]; exact k2, fun e => ?_⟩
  have k3' := k3 e
  rw [k1] at k3'
  rw [hcv]
  refine mul_left_cancel₀ hW ?_
  linear_combination k3'

theorem start_tab {gas : (ℕ → ℝ) → TPGas} {q : Bool} {E : Env} {n : ℕ} {idx : Fin n}
    (hcomp : 1 + ∑ i : Fin n, E.vec "thermo_add.Fl_I:tot:composition" i ≠ 0) (hW : E.num "W" ≠ 0)
    (hc : (flowStart gas (some (.tab n idx)) (rn q)).Converged E) (i : Fin n) :
    E.vec "Fl_O:tot:composition" i = E.vec "thermo_add.Fl_I:tot:composition" i
      + if i = idx then E.num (rn q) else 0 := by
  obtain ⟨-, oc⟩ := start hc
  obtain ⟨m1, m2, m3, m4, m5, m6⟩ := sw_add q
  have hm := hc.sub (sw_eq gas (.tab n idx) q) (sw_nodup q) 0
    (reactantSub (.tab n idx) "thermo_add" [.as "Fl_I:stat:W" "W", .as "mix:ratio" (rn q)]
      [.as "composition_out" "composition"]) rfl "thermo_add" rfl
  simp only [reactantSub, Wiring.rd, Wiring.wr, NC.rd, NC.wr, NC.inSrc_eq, NC.outOf_eq, m1, m2, m3, m4, m6] at hm
  obtain ⟨-, -, r3, -⟩ := hm
  have hair : E.num "W" / (1 + ∑ i : Fin n, E.vec "thermo_add.Fl_I:tot:composition" i) ≠ 0 :=
    div_ne_zero hW hcomp
  rw [oc, r3 i]
  simp only [tabReactantCompute, tabReactantW, tabStart, tabAir, List.foldl_cons, List.foldl_nil]
  by_cases h : i = idx
  · simp only [h, if_true]; field_simp
  · simp only [h, if_false]; field_simp; ring

/-! ## Flight conditions -/

/-- Wiring of `FlightConditions` with a reactant. -/
abbrev ww (q : Bool) : Wiring := (flightConditions gas0 (some (.tab 1 0)) (rn q)).wiring

theorem ww_eq (gas : (ℕ → ℝ) → TPGas) (a : Adder) (q : Bool) : (flightConditions gas (some a) (rn q)).wiring = ww q := rfl

theorem ww_nodup (q : Bool) : ((ww q).subs.map (·.name)).Nodup := by
  revert q; decide +kernel

/-- What has to be given. -/
def flightIns (q : Bool) : List String :=
  ["alt", "dTs", "MN", "W", rn q, "fs.thermo_add.Fl_I:tot:composition", "fs.thermo_add.Fl_I:tot:h", "fs.thermo_add.mix:h"]

theorem ww_interface (q : Bool) : (ww q).Accepted ∧ ∀ n, n ∈ (ww q).externals ↔ n ∈ flightIns q := by
  have h : ∀ q, (ww q).Accepted ∧ (ww q).externals ⊆ flightIns q ∧ flightIns q ⊆ (ww q).externals := by decide +kernel
  obtain ⟨h1, h2, h3⟩ := h q
  exact ⟨h1, fun n => ⟨fun hn => h2 hn, fun hn => h3 hn⟩⟩

theorem ww_links (q : Bool) :
    KeepsOut (ww q)
    ∧ ((ww q).inSrc "fs" "T" = "balance.Tt" ∧ (ww q).inSrc "fs" "P" = "balance.Pt"
      ∧ (ww q).inSrc "fs" "MN" = "MN" ∧ (ww q).inSrc "fs" "W" = "W")
    ∧ ((ww q).inSrc "balance" "lhs:Pt" = "Fl_O:stat:P" ∧ (ww q).inSrc "balance" "rhs:Pt" = "ambient.Ps"
      ∧ (ww q).inSrc "balance" "lhs:Tt" = "Fl_O:stat:T" ∧ (ww q).inSrc "balance" "rhs:Tt" = "ambient.Ts")
    ∧ ((ww q).inSrc "ambient" "alt" = "alt" ∧ (ww q).inSrc "ambient" "dTs" = "dTs"
      ∧ (ww q).outOf "ambient" "Ps" = "ambient.Ps" ∧ (ww q).outOf "ambient" "Ts" = "ambient.Ts")
    ∧ (ww q).inSrc "fs" (rn q) = rn q
    ∧ (ww q).inSrc "fs" "thermo_add.Fl_I:tot:composition" = "fs.thermo_add.Fl_I:tot:composition" := by
  revert q; decide +kernel

theorem sw_outs (q : Bool) :
    (∀ v ∈ TG.flowVars, "Fl_O:tot" ++ ":" ++ nm v ∈ (sw q).outs ∧ "Fl_O:stat" ++ ":" ++ nm v ∈ (sw q).outs)
    ∧ ∀ v ∈ statVars, "Fl_O:stat" ++ ":" ++ nm v ∈ (sw q).outs := by
  revert q; decide +kernel

/-- The `FlowStart` inside. -/
theorem inside {gas : (ℕ → ℝ) → TPGas} {a : Adder} {q : Bool} {E : Env}
    (hc : (flightConditions gas (some a) (rn q)).Converged E) :
    ∃ E', (flowStart gas (some a) (rn q)).Converged E' ∧ SameOut E E' ∧ E'.num "T" = E.num "balance.Tt"
      ∧ E'.num "P" = E.num "balance.Pt" ∧ E'.num "MN" = E.num "MN" ∧ E'.num "W" = E.num "W"
      ∧ E'.num (rn q) = E.num (rn q)
      ∧ E'.vec "thermo_add.Fl_I:tot:composition" = E.vec "fs.thermo_add.Fl_I:tot:composition" := by
  obtain ⟨hk, ⟨f1, f2, f3, f4⟩, -, -, f5, f6⟩ := ww_links q
  obtain ⟨E', h, hi, ho⟩ := hc.sub (ww_eq gas a q) (ww_nodup q) 1 _ rfl "fs" rfl
  rw [sw_eq] at hi ho
  obtain ⟨o1, o2⟩ := sw_outs q
  have hx : ∀ n, n ∈ startIns q → E'.num n = E.num ((ww q).inSrc "fs" n) ∧ E'.vec n = E.vec ((ww q).inSrc "fs" n) :=
    fun n hn => hi n (((sw_interface q).2 n).mpr hn)
  refine ⟨E', h, ⟨fun v hv => ⟨?_, ?_⟩, fun v hv => ?_, ?_⟩, ?_, ?_, ?_, ?_, ?_, ?_⟩
  · have := (ho _ (o1 v hv).1).1
    simpa only [Wiring.wr, NC.wr, NC.outOf_eq, (hk.1 v hv).1] using this
  · have := (ho _ (o1 v hv).2).1
    simpa only [Wiring.wr, NC.wr, NC.outOf_eq, (hk.1 v hv).2] using this
  · have := (ho _ (o2 v hv)).1
    simpa only [Wiring.wr, NC.wr, NC.outOf_eq, hk.2 v hv] using this
  · have := (ho _ (o1 .composition (by decide)).1).2
    have k := (hk.1 .composition (by decide)).1
    simp only [nm, String.reduceAppend] at this k
    simpa only [Wiring.wr, NC.wr, NC.outOf_eq, k] using this
  · rw [(hx "T" (by simp [startIns])).1, f1]
  · rw [(hx "P" (by simp [startIns])).1, f2]
  · rw [(hx "MN" (by simp [startIns])).1, f3]
  · rw [(hx "W" (by simp [startIns])).1, f4]
  · rw [(hx (rn q) (by simp [startIns])).1, f5]
  · rw [(hx "thermo_add.Fl_I:tot:composition" (by simp [startIns])).2, f6]

theorem flight {gas : (ℕ → ℝ) → TPGas} {a : Adder} {q : Bool} {E : Env}
    (hc : (flightConditions gas (some a) (rn q)).Converged E) :
    Atm.ambient (E.num "alt") (E.num "dTs") .Ps = some (E.num "Fl_O:stat:P")
    ∧ Atm.ambient (E.num "alt") (E.num "dTs") .Ts = some (E.num "Fl_O:stat:T")
    ∧ Starts (gas (E.vec "Fl_O:tot:composition")) E (E.num "balance.Tt") (E.num "balance.Pt") (E.num "MN")
        (E.num "W") := by
  obtain ⟨-, -, ⟨b1, b2, b3, b4⟩, ⟨a1, a2, a3, a4⟩, -⟩ := ww_links q
  have hn := ww_nodup q
  have ha := hc.sub (ww_eq gas a q) hn 0 ambientSub rfl "ambient" rfl
  have hb := hc.sub (ww_eq gas a q) hn 2
    (balanceComp [("Tt", "lhs:Tt", "rhs:Tt"), ("Pt", "lhs:Pt", "rhs:Pt")] [] []) rfl "balance" rfl
  obtain ⟨E', h, same, e1, e2, e3, e4, -⟩ := inside hc
  simp only [balanceComp, Wiring.rd] at hb
  have p := hb ("Pt", "lhs:Pt", "rhs:Pt") (by simp)
  have t := hb ("Tt", "lhs:Tt", "rhs:Tt") (by simp)
  simp only [b1, b2, b3, b4] at p t
  simp only [ambientSub, Wiring.rd, Wiring.wr, NC.rd, NC.wr, NC.inSrc_eq, NC.outOf_eq, a1, a2, a3, a4] at ha
  obtain ⟨st, cm⟩ := start h
  have st' := Starts.congr same st
  rw [e1, e2, e3, e4, ← cm, ← same.2.2] at st'
  exact ⟨by rw [p]; exact ha.1, by rw [t]; exact ha.2.1, st'⟩

end C68

open C68

/-- A name the examples give to the ratio. -/
theorem C68.named {ratio : String} (h : ratio = "mix:ratio" ∨ ratio = "WAR") : ∃ q, ratio = rn q := by
  rcases h with rfl | rfl
  · exact ⟨false, rfl⟩
  · exact ⟨true, rfl⟩

section
variable (gas : (ℕ → ℝ) → TPGas) (a : Adder) {ratio : String} (hr : ratio = "mix:ratio" ∨ ratio = "WAR")
include hr

/-- **C68 (interface).** `FlightConditions` with a reactant is accepted and has to be given altitude, temperature
deviation, Mach number, flow and the mixing ratio; the composition of the dry gas keeps its own name. -/
theorem C68_interface : (flightConditions gas (some a) ratio).wiring.Accepted
    ∧ ∀ n, n ∈ (flightConditions gas (some a) ratio).wiring.externals ↔ n ∈ ["alt", "dTs", "MN", "W", ratio,
      "fs.thermo_add.Fl_I:tot:composition", "fs.thermo_add.Fl_I:tot:h", "fs.thermo_add.mix:h"] := by
  obtain ⟨q, rfl⟩ := C68.named hr
  rw [ww_eq]; exact ww_interface q

/-- **C68 (flight).** With a reactant mixed in, the *static* temperature and pressure are still those of the atmosphere
and the flow, air and reactant together, is the given one at the given Mach number. -/
theorem C68_flight {E : Env} (hc : (flightConditions gas (some a) ratio).Converged E) :
    Atm.ambient (E.num "alt") (E.num "dTs") .Ps = some (E.num "Fl_O:stat:P")
    ∧ Atm.ambient (E.num "alt") (E.num "dTs") .Ts = some (E.num "Fl_O:stat:T")
    ∧ Starts (gas (E.vec "Fl_O:tot:composition")) E (E.num "balance.Tt") (E.num "balance.Pt") (E.num "MN")
        (E.num "W") := by
  obtain ⟨q, rfl⟩ := C68.named hr
  exact C68.flight hc

/-- **C68 (humidity, CEA).** The free stream is dry air and water in the ratio asked for: of one unit of mass
`1 / (1 + WAR)` has the elements of the dry air and `WAR / (1 + WAR)` those of the reactant. -/
theorem C68_humid_cea {E : Env} (data : ThermoData) (infl : PyDict ℝ) (hin : infl.keys.Nodup) (reactant : String)
    (f : PyDict ℝ) (hf : data.reactants.get? reactant = some f) (hfk : f.keys.Nodup) (hfm : formulaMass f data.wtOf ≠ 0)
    (S : ReactantAdd) (hS : reactantSetup data (some infl) ["mix"] [reactant] = .ok S)
    (hwt : ∀ e ∈ S.mixed.elements, data.wtOf e ≠ 0)
    (hcomp : totalMass S.inflow.elements data.wtOf (fun k => E.vec "fs.thermo_add.Fl_I:tot:composition" k) ≠ 0)
    (hW : E.num "W" ≠ 0) (h1 : 1 + E.num ratio ≠ 0)
    (hc : (flightConditions gas (some (.cea S)) ratio).Converged E) :
    totalMass S.mixed.elements data.wtOf (fun k => E.vec "Fl_O:tot:composition" k) = 1
    ∧ ∀ e, elemMassFrac S.mixed.elements data.wtOf (fun k => E.vec "Fl_O:tot:composition" k) e
      = 1 / (1 + E.num ratio)
          * elemMassFrac S.inflow.elements data.wtOf (fun k => E.vec "fs.thermo_add.Fl_I:tot:composition" k) e
        + E.num ratio / (1 + E.num ratio) * formulaMassFrac f data.wtOf e := by
  obtain ⟨q, rfl⟩ := C68.named hr
  obtain ⟨E', h, same, -, -, -, e4, e5, e6⟩ := inside hc
  obtain ⟨k1, k2⟩ := start_cea data infl hin reactant f hf hfk hfm S hS hwt (by rw [e6]; exact hcomp) (by rw [e4]; exact hW)
    (by rw [e5]; exact h1) h
  rw [e5, e6, ← same.2.2] at k2
  rw [← same.2.2] at k1
  refine ⟨k1, fun e => ?_⟩
  have := k2 e
  field_simp
  linarith

/-- **C68 (humidity, tabular).** With tabular thermodynamics the ratio is added to the reactant's entry of the
composition. -/
theorem C68_humid_tab {E : Env} {n : ℕ} {idx : Fin n}
    (hcomp : 1 + ∑ i : Fin n, E.vec "fs.thermo_add.Fl_I:tot:composition" i ≠ 0) (hW : E.num "W" ≠ 0)
    (hc : (flightConditions gas (some (.tab n idx)) ratio).Converged E) (i : Fin n) :
    E.vec "Fl_O:tot:composition" i = E.vec "fs.thermo_add.Fl_I:tot:composition" i + if i = idx then E.num ratio else 0 := by
  obtain ⟨q, rfl⟩ := C68.named hr
  obtain ⟨E', h, same, -, -, -, e4, e5, e6⟩ := inside hc
  have := start_tab (by rw [e6]; exact hcomp) (by rw [e4]; exact hW) h i
  rw [e5, e6, ← same.2.2] at this
  exact this

/-- **C68 (account).** Humid free stream keeps the books of a start. -/
theorem C68_account : (startAccount gas).Holds (flightConditions gas (some a) ratio) where
  insNodup := List.nodup_nil
  outsNodup := List.nodup_singleton _
  ins := by intro p hp; cases hp
  outs := by
    obtain ⟨q, rfl⟩ := C68.named hr
    rw [ww_eq]
    have h : ∀ q, ∀ p ∈ ["Fl_O"], ∀ v ∈ portVars, p ++ ":" ++ v ∈ (ww q).outs := by decide +kernel
    exact h _
  seen := by
    obtain ⟨q, rfl⟩ := C68.named hr
    intro V V' h
    have k : "W" ∈ (flightConditions gas (some a) (rn q)).wiring.externals :=
      (by rw [ww_eq]; exact ((ww_interface q).2 _).mpr (by simp [flightIns]))
    have k' : ∀ q, "Fl_O:tot:h" ∈ (ww q).outs := by decide +kernel
    refine ⟨(h "W" (Or.inl k)).1, ?_, fun _ => trivial⟩
    simp only [startAccount, (h "W" (Or.inl k)).1, (h "Fl_O:tot:h" (Or.inr (by rw [ww_eq]; exact k' _))).1]
  states := by
    intro V hV p hp
    obtain ⟨-, -, h1⟩ := C68_flight gas a hr hV
    obtain rfl := List.mem_singleton.mp hp
    exact h1.total
  mass := by
    intro V hV _
    obtain ⟨-, -, h1⟩ := C68_flight gas a hr hV
    simp [Account.MassBalance, startAccount, Env.W, h1.flow]
  energy := by
    intro V hV _ _
    obtain ⟨-, -, h1⟩ := C68_flight gas a hr hV
    simp [Account.EnergyBalance, startAccount, Env.H, h1.flow]

end

end PyCycle.OM
