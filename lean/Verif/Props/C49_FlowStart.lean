import Verif.Model.ElementWiring
import Verif.Proofs.OMLemmas
import Verif.Props.C10_C11_CeaMixing
import Verif.Props.C12_C13_TabMixing
import Verif.Props.C38_Atmosphere

/-! # C49: the elements that start a flow -/

namespace PyCycle.OM

/-- The flow leaving the element is gas `g` at total temperature `T` and pressure `P`, moving isentropically
at Mach number `M` with mass flow `W`. (Guards of the static relations as for C24.) -/
structure Starts (g : TPGas) (E : Env) (T P M W : ℝ) : Prop where
  total : StateOf g E "Fl_O:tot"
  temperature : E.num "Fl_O:tot:T" = T
  pressure : E.num "Fl_O:tot:P" = P
  static : StateOf g E "Fl_O:stat"
  mach : E.num "Fl_O:stat:MN" = M
  flow : E.num "Fl_O:stat:W" = W
  entropy : E.num "Fl_O:stat:S" = E.num "Fl_O:tot:S"
  moving : 0 < E.num "Fl_O:stat:gamma" * E.num "Fl_O:stat:R" * E.num "Fl_O:stat:T" →
    0 < E.num "Fl_O:stat:rho" → E.num "Fl_O:tot:h" ≠ 0 → 1e-16 ≤ M →
    Moving E "Fl_O:stat" W (E.num "Fl_O:tot:h") (E.num "Fl_O:tot:S")

namespace C49
/-- Some gas. -/
def gas0 : (ℕ → ℝ) → TPGas := fun _ =>
  ⟨fun T _ => T, fun T _ => T, fun T _ => T, fun T _ => T, fun T _ => T, fun T _ => T, fun T _ => T⟩

/-- The option, without its data. -/
def shape (r : Bool) : Option Adder := if r then some (.tab 1 0) else none

/-- Wiring of `FlowStart`. -/
abbrev fw (r : Bool) : Wiring := (flowStart gas0 (shape r)).wiring

theorem fw_eq (gas : (ℕ → ℝ) → TPGas) (r : Option Adder) : (flowStart gas r).wiring = fw r.isSome := by
  cases r <;> rfl

theorem fw_nodup (r : Bool) : ((fw r).subs.map (·.name)).Nodup := by
  revert r; decide +kernel

theorem fw_links (r : Bool) :
    ((fw r).inSrc "totals" "T" = "T" ∧ (fw r).inSrc "totals" "P" = "P"
      ∧ (fw r).inSrc "totals" "composition" = "composition" ∧ (fw r).Reports "totals" "Fl_O:tot" .total_TP
      ∧ (fw r).outOf "totals" "h" = "totals.h" ∧ (fw r).outOf "totals" "S" = "totals.S")
    ∧ ((fw r).inSrc "exit_static" "MN" = "MN" ∧ (fw r).inSrc "exit_static" "W" = "W"
      ∧ (fw r).inSrc "exit_static" "composition" = "composition"
      ∧ (fw r).inSrc "exit_static" "ht" = "totals.h" ∧ (fw r).inSrc "exit_static" "S" = "totals.S"
      ∧ (fw r).Reports "exit_static" "Fl_O:stat" .static_MN) := by
  revert r; decide +kernel

theorem fw_add :
    (fw true).inSrc "thermo_add" "Fl_I:stat:W" = "W" ∧ (fw true).inSrc "thermo_add" "mix:ratio" = "mix:ratio"
    ∧ (fw true).inSrc "thermo_add" "Fl_I:tot:composition" = "thermo_add.Fl_I:tot:composition"
    ∧ (fw true).inSrc "thermo_add" "Fl_I:tot:h" = "thermo_add.Fl_I:tot:h"
    ∧ (fw true).inSrc "thermo_add" "mix:h" = "thermo_add.mix:h"
    ∧ (fw true).outOf "thermo_add" "composition_out" = "composition" := by
  decide +kernel

/-- `FlowStart`'s `totals` reports the unpromoted values it also passes on. -/
theorem totals_pass {gas : (ℕ → ℝ) → TPGas} {fl : String} {pI pO : List Prom} {i o : Env}
    (h : (thermo gas "totals" .total_TP fl pI pO).eqn i o) :
    o.num (fl ++ ":" ++ "h") = o.num "h" ∧ o.num (fl ++ ":" ++ "S") = o.num "S" := by
  obtain ⟨val, hc, -, ho, hf, -⟩ := h
  have e : ∀ v, v ∈ TG.flowVars → val (.out .flow v) = (TG.setup .total_TP).read val .flow v :=
    fun v hv => hc (TG.flowSub TG.Mode.total_TP.chars) (by simp [TG.setup]) v hv
  have e1 := e .h (by decide)
  have e2 := e .S (by decide)
  have f1 := hf .h (by decide) (by decide)
  have f2 := hf .S (by decide) (by decide)
  have o1 := ho (.baseThermo, .h, .h) (by decide)
  have o2 := ho (.baseThermo, .S, .S) (by decide)
  simp only [nm] at f1 f2 o1 o2
  exact ⟨by rw [f1, o1, e1]; rfl, by rw [f2, o2, e2]; rfl⟩

end C49

open C49

/-- **C49 (interface).** `FlowStart` is accepted by OpenMDAO; it has to be given `T`, `P`, `MN`, `W` and the
composition, and with a reactant `mix:ratio` instead of the composition (the base composition and the unused
enthalpies are inputs of `thermo_add` that stay at their defaults). -/
theorem C49_interface (gas : (ℕ → ℝ) → TPGas) (r : Option Adder) :
    (flowStart gas r).wiring.Accepted
    ∧ ∀ n, n ∈ (flowStart gas r).wiring.externals ↔ n ∈ ["T", "P", "MN", "W"]
        ++ (if r.isSome then ["mix:ratio", "thermo_add.Fl_I:tot:composition", "thermo_add.Fl_I:tot:h",
          "thermo_add.mix:h"] else ["composition"]) := by
  rw [fw_eq]
  have h : ∀ r : Bool, (fw r).Accepted
      ∧ (fw r).externals ⊆ ["T", "P", "MN", "W"]
        ++ (if r then ["mix:ratio", "thermo_add.Fl_I:tot:composition", "thermo_add.Fl_I:tot:h",
          "thermo_add.mix:h"] else ["composition"])
      ∧ ["T", "P", "MN", "W"]
        ++ (if r then ["mix:ratio", "thermo_add.Fl_I:tot:composition", "thermo_add.Fl_I:tot:h",
          "thermo_add.mix:h"] else ["composition"]) ⊆ (fw r).externals := by
    decide +kernel
  obtain ⟨h1, h2, h3⟩ := h r.isSome
  exact ⟨h1, fun n => ⟨fun hn => h2 hn, fun hn => h3 hn⟩⟩

/-- **C49 (flow start).** A converged `FlowStart`, with or without a reactant: the flow has the given total
temperature, total pressure, Mach number and mass flow, and is one state of the gas whose composition is the
variable `composition`. -/
theorem C49_flow_start (gas : (ℕ → ℝ) → TPGas) (r : Option Adder) (E : Env)
    (hc : (flowStart gas r).Converged E) :
    Starts (gas (E.vec "composition")) E (E.num "T") (E.num "P") (E.num "MN") (E.num "W")
    ∧ E.vec "Fl_O:tot:composition" = E.vec "composition" := by
  obtain ⟨⟨t1, t2, t3, t4, t5, t6⟩, s1, s2, s3, s4, s5, s6⟩ := fw_links r.isSome
  have hn := fw_nodup r.isSome
  have ht : ThermoSays gas .total_TP "Fl_O:tot" ((fw r.isSome).rd E "totals") E := by
    cases r
    · exact hc.station (gas := gas) (fw_eq gas none) hn 0 rfl t4
    · exact hc.station (gas := gas) (fw_eq gas (some _)) hn 1 rfl t4
  have hs : ThermoSays gas .static_MN "Fl_O:stat" ((fw r.isSome).rd E "exit_static") E := by
    cases r
    · exact hc.station (gas := gas) (fw_eq gas none) hn 1 rfl s6
    · exact hc.station (gas := gas) (fw_eq gas (some _)) hn 2 rfl s6
  have hp : E.num "Fl_O:tot:h" = E.num "totals.h" ∧ E.num "Fl_O:tot:S" = E.num "totals.S" := by
    have q : ∃ pI pO, (thermo gas "totals" .total_TP "Fl_O:tot" pI pO).eqn ((fw r.isSome).rd E "totals")
        ((fw r.isSome).wr E "totals") := by
      cases r
      · exact ⟨_, _, hc.sub (fw_eq gas none) hn 0 (thermo gas "totals" .total_TP "Fl_O:tot"
          [.var "T", .var "P", .var "composition"] [.pre "Fl_O:tot:"]) rfl "totals" rfl⟩
      · exact ⟨_, _, hc.sub (fw_eq gas (some _)) hn 1 (thermo gas "totals" .total_TP "Fl_O:tot"
          [.var "T", .var "P", .var "composition"] [.pre "Fl_O:tot:"]) rfl "totals" rfl⟩
    obtain ⟨pI, pO, q⟩ := q
    have := totals_pass q
    have a1 := t4.1 .h (by decide)
    have a2 := t4.1 .S (by decide)
    simp only [nm, String.reduceAppend] at a1 a2
    simpa only [Wiring.wr, String.reduceAppend, a1, a2, t5, t6] using this
  have u1 := ht.state
  have u2 := ht.tp rfl
  have u3 := ht.comp rfl
  have w1 := hs.state
  have w2 := hs.stat rfl
  have w3 := hs.mn rfl
  have w4 := hs.moving rfl
  simp only [Wiring.rd, t1, t2, t3, s1, s2, s3, s4, s5, Env.at, String.reduceAppend, ← hp.1, ← hp.2,
    forall_const, reduceCtorEq, false_implies] at u1 u2 u3 w1 w2 w3 w4
  refine ⟨⟨u1, u2.1, u2.2, w1, w3, w2.2, w2.1, ?_⟩, u3⟩
  intro g1 g2 g3 g4
  exact w4 g1 g2 g3 (by rw [w3]; exact g4)

/-- **C49 (reactant, CEA).** With a reactant, `mix:ratio` is the mass of reactant per mass of base gas: every
element's mass fraction in the flow is that of `1` part base composition and `ratio` parts reactant. The mass
flow of the station is `W`, base gas and reactant together. -/
theorem C49_reactant_cea (gas : (ℕ → ℝ) → TPGas) (E : Env)
    (data : ThermoData) (infl : PyDict ℝ) (hin : infl.keys.Nodup) (reactant : String) (f : PyDict ℝ)
    (hf : data.reactants.get? reactant = some f) (hfk : f.keys.Nodup) (hfm : formulaMass f data.wtOf ≠ 0)
    (S : ReactantAdd) (hS : reactantSetup data (some infl) ["mix"] [reactant] = .ok S)
    (hwt : ∀ e ∈ S.mixed.elements, data.wtOf e ≠ 0)
    (hcomp : totalMass S.inflow.elements data.wtOf (fun k => E.vec "thermo_add.Fl_I:tot:composition" k) ≠ 0)
    (hW : E.num "W" ≠ 0) (hr : 1 + E.num "mix:ratio" ≠ 0)
    (hc : (flowStart gas (some (.cea S))).Converged E) (e : String) :
    (1 + E.num "mix:ratio")
        * elemMassFrac S.mixed.elements data.wtOf (fun k => E.vec "Fl_O:tot:composition" k) e
      = elemMassFrac S.inflow.elements data.wtOf (fun k => E.vec "thermo_add.Fl_I:tot:composition" k) e
        + E.num "mix:ratio" * formulaMassFrac f data.wtOf e := by
  obtain ⟨-, oc⟩ := C49_flow_start gas _ E hc
  obtain ⟨m1, m2, m3, m4, m5, m6⟩ := fw_add
  have hm := hc.sub (fw_eq gas (some (.cea S))) (fw_nodup true) 0
    (reactantSub (.cea S) "thermo_add" [.as "Fl_I:stat:W" "W", .as "mix:ratio" "mix:ratio"]
      [.as "composition_out" "composition"]) rfl "thermo_add" rfl
  have hi : (some (Adder.cea S)).isSome = true := rfl
  have a1 : ("mix" : String) ++ ":ratio" = "mix:ratio" := by decide
  have a2 : ("mix" : String) ++ ":h" = "mix:h" := by decide
  simp only [reactantSub, Wiring.rd, Wiring.wr, NC.rd, NC.wr, NC.inSrc_eq, NC.outOf_eq, hi, m1, m3, m4, m6] at hm
  obtain ⟨-, r2, r3, -⟩ := hm
  have hW' : E.num "W" + E.num "W" * E.num "mix:ratio" ≠ 0 := by
    rw [show E.num "W" + E.num "W" * E.num "mix:ratio" = E.num "W" * (1 + E.num "mix:ratio") by ring]
    exact mul_ne_zero hW hr
  have key := C10_reactant_conservation data infl hin ["mix"] [reactant] S hS
    (fun r hr g hg => by
      rw [List.mem_singleton] at hr; subst hr
      rw [hf] at hg; cases hg; exact ⟨hfk, hfm⟩) hwt (E.num "W") (E.num "thermo_add.Fl_I:tot:h")
    (fun k => E.vec "thermo_add.Fl_I:tot:composition" k) hcomp
    (fun n => E.num ((fw true).inSrc "thermo_add" (n ++ ":ratio")))
    (fun n => E.num ((fw true).inSrc "thermo_add" (n ++ ":h")))
    (by simpa [a1, m2] using hW')
  obtain ⟨⟨k1, -, k3, -⟩, -⟩ := key
  simp only [List.zip_cons_cons, List.zip_nil_right, List.map_cons, List.map_nil, List.sum_cons, List.sum_nil,
    add_zero, a1, m2, hf, Option.getD_some] at k1 k3
  have k3' := k3 e
  rw [k1] at k3'
  have hcv : (fun k : Fin S.mixed.elements.length => E.vec "Fl_O:tot:composition" k)
      = (reactantCompute S (E.num "W") (E.num "thermo_add.Fl_I:tot:h")
        (fun k => E.vec "thermo_add.Fl_I:tot:composition" k)
        (fun n => E.num ((fw true).inSrc "thermo_add" (n ++ ":ratio")))
        (fun n => E.num ((fw true).inSrc "thermo_add" (n ++ ":h")))).comp := by
    funext k; rw [oc]; exact r3 k
  rw [hcv]
  refine mul_left_cancel₀ hW ?_
  linear_combination k3'

/-- **C49 (reactant, tabular).** With the tabular method the composition of the flow is the base composition
with `mix:ratio` added to the reactant's entry. -/
theorem C49_reactant_tab (gas : (ℕ → ℝ) → TPGas) (E : Env) (n : ℕ) (idx : Fin n)
    (hcomp : 1 + ∑ i : Fin n, E.vec "thermo_add.Fl_I:tot:composition" i ≠ 0) (hW : E.num "W" ≠ 0)
    (hc : (flowStart gas (some (.tab n idx))).Converged E) (i : Fin n) :
    E.vec "Fl_O:tot:composition" i = E.vec "thermo_add.Fl_I:tot:composition" i
      + if i = idx then E.num "mix:ratio" else 0 := by
  obtain ⟨-, oc⟩ := C49_flow_start gas _ E hc
  obtain ⟨m1, m2, m3, m4, m5, m6⟩ := fw_add
  have hm := hc.sub (fw_eq gas (some (.tab n idx))) (fw_nodup true) 0
    (reactantSub (.tab n idx) "thermo_add" [.as "Fl_I:stat:W" "W", .as "mix:ratio" "mix:ratio"]
      [.as "composition_out" "composition"]) rfl "thermo_add" rfl
  have hi : (some (Adder.tab n idx)).isSome = true := rfl
  simp only [reactantSub, Wiring.rd, Wiring.wr, NC.rd, NC.wr, NC.inSrc_eq, NC.outOf_eq, hi, m1, m2, m3, m4, m6] at hm
  obtain ⟨-, -, r3, -⟩ := hm
  have hair : E.num "W" / (1 + ∑ i : Fin n, E.vec "thermo_add.Fl_I:tot:composition" i) ≠ 0 :=
    div_ne_zero hW hcomp
  rw [oc, r3 i]
  simp only [tabReactantCompute, tabReactantW, tabStart, tabAir, List.foldl_cons, List.foldl_nil]
  by_cases h : i = idx
  · simp only [h, if_true]; field_simp
  · simp only [h, if_false]; field_simp; ring

/-- **C49 (refuted: "None means using the default").** The option's description says that without a
composition the package's default is used; with a reactant and the CEA method `setup` raises `ValueError`
instead, whatever the thermodynamic data and the reactant. -/
theorem C49_refuted_default_with_reactant (data : ThermoData) (names reactants : List String) :
    reactantSetup data none names reactants = .error .valueError := rfl

/-! ## Flight conditions -/

namespace C49

/-- Two environments agree on the outlet. -/
def SameOut (E E' : Env) : Prop :=
  (∀ v ∈ TG.flowVars, E.num ("Fl_O:tot" ++ ":" ++ nm v) = E'.num ("Fl_O:tot" ++ ":" ++ nm v)
    ∧ E.num ("Fl_O:stat" ++ ":" ++ nm v) = E'.num ("Fl_O:stat" ++ ":" ++ nm v))
  ∧ (∀ v ∈ statVars, E.num ("Fl_O:stat" ++ ":" ++ nm v) = E'.num ("Fl_O:stat" ++ ":" ++ nm v))
  ∧ E.vec "Fl_O:tot:composition" = E'.vec "Fl_O:tot:composition"

theorem StateOf.congr {g : TPGas} {E E' : Env} {fl : String}
    (h : ∀ v ∈ TG.flowVars, E.num (fl ++ ":" ++ nm v) = E'.num (fl ++ ":" ++ nm v)) (k : StateOf g E' fl) :
    StateOf g E fl := by
  have T := h .T (by decide)
  have P := h .P (by decide)
  have hh := h .h (by decide)
  have S := h .S (by decide)
  have ga := h .gamma (by decide)
  have Cp := h .Cp (by decide)
  have Cv := h .Cv (by decide)
  have rho := h .rho (by decide)
  have R := h .R (by decide)
  simp only [nm] at T P hh S ga Cp Cv rho R
  obtain ⟨k1, k2, k3, k4, k5, k6, k7⟩ := k
  simp only [Env.at] at k1 k2 k3 k4 k5 k6 k7
  constructor <;> simp only [Env.at, T, P, hh, S, ga, Cp, Cv, rho, R] <;> assumption

theorem Starts.congr {g : TPGas} {E E' : Env} {T P M W : ℝ} (h : SameOut E E') (k : Starts g E' T P M W) :
    Starts g E T P M W := by
  obtain ⟨h1, h2, -⟩ := h
  have tT := (h1 .T (by decide)).1
  have tP := (h1 .P (by decide)).1
  have th := (h1 .h (by decide)).1
  have tS := (h1 .S (by decide)).1
  have sT := (h1 .T (by decide)).2
  have sh := (h1 .h (by decide)).2
  have sS := (h1 .S (by decide)).2
  have sg := (h1 .gamma (by decide)).2
  have sR := (h1 .R (by decide)).2
  have sr := (h1 .rho (by decide)).2
  have sM := h2 .MN (by decide)
  have sW := h2 .W (by decide)
  have sV := h2 .V (by decide)
  have sVs := h2 .Vsonic (by decide)
  have sA := h2 .area (by decide)
  simp only [nm, String.reduceAppend] at tT tP th tS sT sh sS sg sR sr sM sW sV sVs sA
  obtain ⟨k1, k2, k3, k4, k5, k6, k7, k8⟩ := k
  refine ⟨StateOf.congr (fun v hv => (h1 v hv).1) k1, tT.trans k2, tP.trans k3,
    StateOf.congr (fun v hv => (h1 v hv).2) k4, sM.trans k5, sW.trans k6, by rw [sS, tS]; exact k7, ?_⟩
  intro g1 g2 g3 g4
  rw [sg, sR, sT] at g1; rw [sr] at g2; rw [th] at g3
  obtain ⟨m1, m2, m3, m4, m5, m6⟩ := k8 g1 g2 g3 g4
  simp only [Env.at, String.reduceAppend] at m1 m2 m3 m4 m5 m6
  constructor <;> simp only [Env.at, String.reduceAppend, th, tS, sg, sR, sT, sr, sh, sS, sM, sW, sV, sVs, sA] <;>
    assumption

/-- Wiring of `FlightConditions`. -/
abbrev cwf (r : Bool) : Wiring := (flightConditions gas0 (shape r)).wiring

theorem cwf_eq (gas : (ℕ → ℝ) → TPGas) (r : Option Adder) :
    (flightConditions gas r).wiring = cwf r.isSome := by
  cases r <;> rfl

theorem cwf_nodup (r : Bool) : ((cwf r).subs.map (·.name)).Nodup := by
  revert r; decide +kernel

/-- The station names of `FlowStart` keep their names in a group that promotes `Fl_O:*`. -/
def KeepsOut (w : Wiring) : Prop :=
  (∀ v ∈ TG.flowVars, w.outOf "fs" ("Fl_O:tot" ++ ":" ++ nm v) = "Fl_O:tot" ++ ":" ++ nm v
    ∧ w.outOf "fs" ("Fl_O:stat" ++ ":" ++ nm v) = "Fl_O:stat" ++ ":" ++ nm v)
  ∧ ∀ v ∈ statVars, w.outOf "fs" ("Fl_O:stat" ++ ":" ++ nm v) = "Fl_O:stat" ++ ":" ++ nm v

noncomputable instance (w : Wiring) : Decidable (KeepsOut w) := by unfold KeepsOut; infer_instance

theorem cwf_links (r : Bool) :
    KeepsOut (cwf r)
    ∧ ((cwf r).inSrc "fs" "T" = "balance.Tt" ∧ (cwf r).inSrc "fs" "P" = "balance.Pt"
      ∧ (cwf r).inSrc "fs" "MN" = "MN" ∧ (cwf r).inSrc "fs" "W" = "W")
    ∧ ((cwf r).inSrc "balance" "lhs:Pt" = "Fl_O:stat:P" ∧ (cwf r).inSrc "balance" "rhs:Pt" = "ambient.Ps"
      ∧ (cwf r).inSrc "balance" "lhs:Tt" = "Fl_O:stat:T" ∧ (cwf r).inSrc "balance" "rhs:Tt" = "ambient.Ts")
    ∧ ((cwf r).inSrc "ambient" "alt" = "alt" ∧ (cwf r).inSrc "ambient" "dTs" = "dTs"
      ∧ (cwf r).outOf "ambient" "Ps" = "ambient.Ps" ∧ (cwf r).outOf "ambient" "Ts" = "ambient.Ts")
    ∧ (cwf true).inSrc "fs" "mix:ratio" = "mix:ratio" ∧ (cwf false).inSrc "fs" "composition" = "fs.composition" := by
  revert r; decide +kernel

theorem fw_outs (r : Bool) :
    (∀ v ∈ TG.flowVars, "Fl_O:tot" ++ ":" ++ nm v ∈ (fw r).outs ∧ "Fl_O:stat" ++ ":" ++ nm v ∈ (fw r).outs)
    ∧ ∀ v ∈ statVars, "Fl_O:stat" ++ ":" ++ nm v ∈ (fw r).outs := by
  revert r; decide +kernel

/-- What a nested `FlowStart` says about the outlet of the group around it. -/
theorem nested {gas : (ℕ → ℝ) → TPGas} {r : Option Adder} {w : Wiring} {E : Env} {pI pO : List Prom}
    (h : ((flowStart gas r).asSub "fs" pI pO).eqn (w.rd E "fs") (w.wr E "fs")) (hk : KeepsOut w) :
    Starts (gas (E.vec "Fl_O:tot:composition")) E (E.num (w.inSrc "fs" "T")) (E.num (w.inSrc "fs" "P"))
      (E.num (w.inSrc "fs" "MN")) (E.num (w.inSrc "fs" "W"))
    ∧ (r = none → E.vec "Fl_O:tot:composition" = E.vec (w.inSrc "fs" "composition")) := by
  obtain ⟨E', hc, hi, ho⟩ := h
  have hx : ∀ n, n ∈ ["T", "P", "MN", "W"] → E'.num n = E.num (w.inSrc "fs" n) := by
    intro n hn
    exact (hi n (((C49_interface gas r).2 n).mpr (List.mem_append_left _ hn))).1
  rw [fw_eq] at ho
  obtain ⟨o1, o2⟩ := fw_outs r.isSome
  obtain ⟨st, cm⟩ := C49_flow_start gas r E' hc
  have same : SameOut E E' := by
    refine ⟨fun v hv => ⟨?_, ?_⟩, fun v hv => ?_, ?_⟩
    · have := (ho _ (o1 v hv).1).1
      simpa only [Wiring.wr, (hk.1 v hv).1] using this
    · have := (ho _ (o1 v hv).2).1
      simpa only [Wiring.wr, (hk.1 v hv).2] using this
    · have := (ho _ (o2 v hv)).1
      simpa only [Wiring.wr, hk.2 v hv] using this
    · have := (ho _ (o1 .composition (by decide)).1).2
      have k := (hk.1 .composition (by decide)).1
      simp only [nm, String.reduceAppend] at this k
      simpa only [Wiring.wr, k] using this
  have st' := Starts.congr same st
  rw [hx "T" (by decide), hx "P" (by decide), hx "MN" (by decide), hx "W" (by decide)] at st'
  refine ⟨?_, ?_⟩
  · rw [same.2.2, cm]; exact st'
  · rintro rfl
    rw [same.2.2, cm]
    exact (hi "composition" (((C49_interface gas none).2 _).mpr (by simp))).2

end C49

/-- **C49 (flight conditions, interface).** `FlightConditions` is accepted by OpenMDAO and has to be given
`alt`, `dTs`, `MN`, `W`, with a reactant `mix:ratio`; the composition and the unused values stay inputs of
`fs`. -/
theorem C49_flight_interface (gas : (ℕ → ℝ) → TPGas) (r : Option Adder) :
    (flightConditions gas r).wiring.Accepted
    ∧ ∀ n, n ∈ (flightConditions gas r).wiring.externals ↔ n ∈ ["alt", "dTs", "MN", "W"]
        ++ (if r.isSome then ["mix:ratio", "fs.thermo_add.Fl_I:tot:composition", "fs.thermo_add.Fl_I:tot:h",
          "fs.thermo_add.mix:h"] else ["fs.composition"]) := by
  rw [cwf_eq]
  have h : ∀ r : Bool, (cwf r).Accepted
      ∧ (cwf r).externals ⊆ ["alt", "dTs", "MN", "W"]
        ++ (if r then ["mix:ratio", "fs.thermo_add.Fl_I:tot:composition", "fs.thermo_add.Fl_I:tot:h",
          "fs.thermo_add.mix:h"] else ["fs.composition"])
      ∧ ["alt", "dTs", "MN", "W"]
        ++ (if r then ["mix:ratio", "fs.thermo_add.Fl_I:tot:composition", "fs.thermo_add.Fl_I:tot:h",
          "fs.thermo_add.mix:h"] else ["fs.composition"]) ⊆ (cwf r).externals := by
    decide +kernel
  obtain ⟨h1, h2, h3⟩ := h r.isSome
  exact ⟨h1, fun n => ⟨fun hn => h2 hn, fun hn => h3 hn⟩⟩

/-- **C49 (flight conditions).** A converged `FlightConditions`: the *static* temperature and pressure of the
flow are those of the atmosphere at the given altitude and temperature offset; the flow moves at the given
Mach number with the given mass flow; and the total state is that of the same gas stopped isentropically. -/
theorem C49_flight (gas : (ℕ → ℝ) → TPGas) (r : Option Adder) (E : Env)
    (hc : (flightConditions gas r).Converged E) :
    Atm.ambient (E.num "alt") (E.num "dTs") .Ps = some (E.num "Fl_O:stat:P")
    ∧ Atm.ambient (E.num "alt") (E.num "dTs") .Ts = some (E.num "Fl_O:stat:T")
    ∧ Starts (gas (E.vec "Fl_O:tot:composition")) E (E.num "balance.Tt") (E.num "balance.Pt") (E.num "MN")
        (E.num "W")
    ∧ (r = none → E.vec "Fl_O:tot:composition" = E.vec "fs.composition") := by
  obtain ⟨k, ⟨f1, f2, f3, f4⟩, ⟨b1, b2, b3, b4⟩, ⟨a1, a2, a3, a4⟩, -, c2⟩ := cwf_links r.isSome
  have hn := cwf_nodup r.isSome
  have ha := hc.sub (cwf_eq gas r) hn 0 ambientSub rfl "ambient" rfl
  have hb := hc.sub (cwf_eq gas r) hn 2
    (balanceComp [("Tt", "lhs:Tt", "rhs:Tt"), ("Pt", "lhs:Pt", "rhs:Pt")] [] []) rfl "balance" rfl
  have hs := nested (hc.sub (cwf_eq gas r) hn 1 _ rfl "fs" rfl) k
  simp only [balanceComp, Wiring.rd] at hb
  have p := hb ("Pt", "lhs:Pt", "rhs:Pt") (by simp)
  have t := hb ("Tt", "lhs:Tt", "rhs:Tt") (by simp)
  simp only [b1, b2, b3, b4] at p t
  simp only [ambientSub, Wiring.rd, Wiring.wr, NC.rd, NC.wr, NC.inSrc_eq, NC.outOf_eq, a1, a2, a3, a4] at ha
  rw [f1, f2, f3, f4] at hs
  refine ⟨by rw [p]; exact ha.1, by rw [t]; exact ha.2.1, hs.1, ?_⟩
  rintro rfl
  have := hs.2 rfl
  simp only [Option.isSome_none] at this
  rw [c2] at this
  exact this

/-! ## CFD start -/

namespace C49

/-- Wiring of `CFDStart`. -/
abbrev wcfd : Wiring := (cfdStart gas0).wiring

theorem wcfd_eq (gas : (ℕ → ℝ) → TPGas) : (cfdStart gas).wiring = wcfd := rfl

theorem wcfd_nodup : (wcfd.subs.map (·.name)).Nodup := by decide +kernel

theorem wcfd_links :
    KeepsOut wcfd
    ∧ (wcfd.inSrc "fs" "T" = "balance.T" ∧ wcfd.inSrc "fs" "P" = "balance.P"
      ∧ wcfd.inSrc "fs" "MN" = "balance.MN" ∧ wcfd.inSrc "fs" "W" = "W"
      ∧ wcfd.inSrc "fs" "composition" = "fs.composition")
    ∧ (wcfd.inSrc "balance" "Ps_computed" = "Fl_O:stat:P" ∧ wcfd.inSrc "balance" "Ps" = "Ps"
      ∧ wcfd.inSrc "balance" "V_computed" = "Fl_O:stat:V" ∧ wcfd.inSrc "balance" "V" = "V"
      ∧ wcfd.inSrc "balance" "area_computed" = "Fl_O:stat:area" ∧ wcfd.inSrc "balance" "area" = "area") := by
  decide +kernel

end C49

/-- **C49 (CFD start, interface).** `CFDStart` has to be given `Ps`, `V`, `area` and `W`; the composition
stays an input of `fs`. -/
theorem C49_cfd_interface (gas : (ℕ → ℝ) → TPGas) :
    (cfdStart gas).wiring.Accepted
    ∧ ∀ n, n ∈ (cfdStart gas).wiring.externals ↔ n ∈ ["Ps", "V", "area", "W", "fs.composition"] := by
  rw [wcfd_eq]
  have h : wcfd.Accepted ∧ wcfd.externals ⊆ ["Ps", "V", "area", "W", "fs.composition"]
      ∧ ["Ps", "V", "area", "W", "fs.composition"] ⊆ wcfd.externals := by
    decide +kernel
  exact ⟨h.1, fun n => ⟨fun hn => h.2.1 hn, fun hn => h.2.2 hn⟩⟩

/-- **C49 (CFD start).** A converged `CFDStart`: the flow has the given static pressure, speed, area and mass
flow; it is one state of the gas; and (guards as for C24) its density is `W / (V · area)`, its total enthalpy
exceeds the static one by `V²/2`. -/
theorem C49_cfd (gas : (ℕ → ℝ) → TPGas) (E : Env) (hc : (cfdStart gas).Converged E) :
    E.num "Fl_O:stat:P" = E.num "Ps" ∧ E.num "Fl_O:stat:V" = E.num "V"
    ∧ E.num "Fl_O:stat:area" = E.num "area" ∧ E.num "Fl_O:stat:W" = E.num "W"
    ∧ Starts (gas (E.vec "fs.composition")) E (E.num "balance.T") (E.num "balance.P") (E.num "balance.MN")
        (E.num "W")
    ∧ (0 < E.num "Fl_O:stat:gamma" * E.num "Fl_O:stat:R" * E.num "Fl_O:stat:T" → 0 < E.num "Fl_O:stat:rho" →
        E.num "Fl_O:tot:h" ≠ 0 → 1e-16 ≤ E.num "balance.MN" → E.num "V" ≠ 0 → E.num "area" ≠ 0 →
        E.num "Fl_O:stat:rho" = E.num "W" / (E.num "V" * E.num "area")
        ∧ E.num "Fl_O:tot:h" = E.num "Fl_O:stat:h" + E.num "V" ^ 2 / 2) := by
  obtain ⟨k, ⟨f1, f2, f3, f4, f5⟩, b1, b2, b3, b4, b5, b6⟩ := wcfd_links
  have hb := hc.sub (wcfd_eq gas) wcfd_nodup 1
    (balanceComp [("P", "Ps_computed", "Ps"), ("T", "V_computed", "V"), ("MN", "area_computed", "area")]
        [.var "Ps", .var "V", .var "area"] []) rfl "balance" rfl
  have hs := nested (hc.sub (wcfd_eq gas) wcfd_nodup 0 _ rfl "fs" rfl) k
  simp only [balanceComp, Wiring.rd] at hb
  have p := hb ("P", "Ps_computed", "Ps") (by simp)
  have t := hb ("T", "V_computed", "V") (by simp)
  have m := hb ("MN", "area_computed", "area") (by simp)
  simp only [b1, b2, b3, b4, b5, b6] at p t m
  have hcomp := hs.2 rfl
  rw [f5] at hcomp
  have st := hs.1
  rw [f1, f2, f3, f4, hcomp] at st
  refine ⟨p, t, m, st.flow, st, ?_⟩
  intro g1 g2 g3 g4 g5 g6
  have mv := st.moving g1 g2 g3 g4
  have c1 := mv.continuity
  have c2 := mv.energy
  simp only [Env.at, String.reduceAppend] at c1 c2
  rw [t, m] at c1
  rw [t] at c2
  exact ⟨by rw [← c1]; field_simp, c2.symm⟩

/-! ## Converged starts -/

namespace C49Example

/-- A gas with unit properties and enthalpy equal to temperature. -/
def unitGas : (ℕ → ℝ) → TPGas := fun _ =>
  ⟨fun T _ => T, fun _ _ => 0, fun _ _ => 1, fun _ _ => 1, fun _ _ => 1, fun _ _ => 1, fun _ _ => 1⟩

/-- Totals. -/
noncomputable def tot : TG.Station := ⟨1.5, 14, 1.5, 0, 1, 1, 1, 1, 1⟩
/-- Statics. -/
noncomputable def sta : TG.Station := ⟨1, 7.33889, 1, 0, 1, 1, 1, 1, 1⟩
/-- Speed: Mach 1. -/
def mov : StaticState := ⟨1, 3, 1, 1⟩

/-- Everything a group around a start can see. -/
noncomputable def rows (pre : String) : List (String × ℝ) :=
  stationRows (pre ++ "totals.") tot ++ stationRows "Fl_O:tot:" tot
  ++ stationRows (pre ++ "exit_static.") sta ++ staticRows (pre ++ "exit_static.") mov 3
  ++ stationRows "Fl_O:stat:" sta ++ staticRows "Fl_O:stat:" mov 3

/-- A flow of 3 at Mach 1. -/
noncomputable def started : Env :=
  Env.ofTable ([("T", 1.5), ("P", 14), ("MN", 1), ("W", 3)] ++ rows "") []

/-- The example's static state. -/
theorem mov_ok : IsStatic (sta.psIn 1.5 3) mov ∧ 0 < sta.gamma * sta.R * sta.T ∧ 0 < sta.rho ∧ (1.5 : ℝ) ≠ 0
    ∧ 1e-16 ≤ mov.MN ∧ mov.area ≠ 0 :=
  ⟨⟨by simp [TG.Station.psIn, sta, mov], by simp [mov], by simp [TG.Station.psIn, sta, mov],
    by simp [TG.Station.psIn, sta, mov]; norm_num⟩, by simp [sta], by simp [sta], by norm_num,
    by norm_num [mov], by simp [mov]⟩

/-- A converged `FlowStart`. -/
theorem started_converged : (flowStart unitGas none).Converged started := by
  refine Group.converged_quick (fw_eq unitGas none) (fw_nodup false) ?_
  intro s hs
  simp only [flowStart, List.nil_append, List.mem_cons, List.not_mem_nil, or_false] at hs
  rcases hs with rfl | rfl
  · refine thermo_eqn_of tot mov 1.5 3 (fun _ => 0) ⟨rfl, rfl, rfl, rfl, rfl, rfl, rfl⟩
      (fun h => absurd h (by decide)) ?_ ?_ ?_ (fun h => absurd h (by decide)) (fun _ => rfl)
    · intro v hv hne
      fin_cases hv <;> rfl
    · intro q hq
      fin_cases hq <;> rfl
    · intro v hv hne
      fin_cases hv <;> rfl
  · refine thermo_eqn_of sta mov 1.5 3 (fun v => if v = .guessPt then 14 else 1)
      ⟨rfl, rfl, rfl, rfl, rfl, rfl, rfl⟩ (fun _ => mov_ok) ?_ ?_ ?_ ?_ (fun h => absurd h (by decide))
    · intro v hv hne
      fin_cases hv <;> rfl
    · intro q hq
      fin_cases hq <;> rfl
    · intro v hv hne
      fin_cases hv <;> rfl
    · intro _ v hv
      fin_cases hv <;> rfl

/-- The same flow, asked for by its static pressure, speed and area. -/
noncomputable def cfd : Env :=
  Env.ofTable ([("Ps", 7.33889), ("V", 1), ("area", 3), ("W", 3), ("balance.T", 1.5), ("balance.P", 14),
    ("balance.MN", 1)] ++ rows "fs.") []

/-- The same flow, met in flight at 18000 ft on a cold day. -/
noncomputable def flight (dTs rho : ℝ) : Env :=
  Env.ofTable ([("alt", 18000), ("dTs", dTs), ("MN", 1), ("W", 3), ("balance.Tt", 1.5), ("balance.Pt", 14),
    ("ambient.Ps", 7.33889), ("ambient.Ts", 1), ("ambient.rhos", rho)] ++ rows "fs.") []

/-- The outputs of `FlowStart`. -/
theorem outs_lit : (fw false).outs =
  ["totals.h", "totals.S", "totals.gamma", "totals.Cp", "totals.Cv", "totals.rho", "totals.R", "Fl_O:tot:T", "Fl_O:tot:P",
  "Fl_O:tot:h", "Fl_O:tot:S", "Fl_O:tot:gamma", "Fl_O:tot:Cp", "Fl_O:tot:Cv", "Fl_O:tot:rho", "Fl_O:tot:R",
  "Fl_O:tot:composition", "exit_static.h", "exit_static.gamma", "exit_static.Cp", "exit_static.Cv", "exit_static.rho",
  "exit_static.R", "exit_static.T", "exit_static.Ps", "exit_static.V", "exit_static.Vsonic", "exit_static.area",
  "Fl_O:stat:T", "Fl_O:stat:P", "Fl_O:stat:h", "Fl_O:stat:S", "Fl_O:stat:gamma", "Fl_O:stat:Cp", "Fl_O:stat:Cv",
  "Fl_O:stat:rho", "Fl_O:stat:R", "Fl_O:stat:composition", "Fl_O:stat:area", "Fl_O:stat:W", "Fl_O:stat:V",
  "Fl_O:stat:Vsonic", "Fl_O:stat:MN"] := by
  decide +kernel

private theorem ext_lit : (flowStart unitGas none).wiring.externals ⊆ ["T", "P", "MN", "W", "composition"] := by
  rw [fw_eq]
  have : (fw false).externals ⊆ ["T", "P", "MN", "W", "composition"] := by decide +kernel
  exact this

/-- A converged `CFDStart`. -/
theorem cfd_converged : (cfdStart unitGas).Converged cfd := by
  refine Group.converged_quick (wcfd_eq unitGas) wcfd_nodup ?_
  obtain ⟨-, -, b1, b2, b3, b4, b5, b6⟩ := wcfd_links
  intro s hs
  simp only [cfdStart, List.mem_cons, List.not_mem_nil, or_false] at hs
  rcases hs with rfl | rfl
  · refine ⟨started, started_converged, ?_, ?_⟩
    · intro n hn
      have := ext_lit hn
      fin_cases this <;> exact ⟨by krfl, by krfl⟩
    · intro n hn
      rw [fw_eq, show (none : Option Adder).isSome = false from rfl, outs_lit] at hn
      fin_cases hn <;> exact ⟨by krfl, by krfl⟩
  · intro b hb
    fin_cases hb <;> rfl

/-- A converged `FlightConditions`. -/
theorem flight_converged : ∃ dTs rho, (flightConditions unitGas none).Converged (flight dTs rho) := by
  have hT : (Atm.compute 18000 .Ts).isSome := (Atm.C38_domain 18000 .Ts).1.mpr (by norm_num)
  have hr : (Atm.compute 18000 .rhos).isSome := (Atm.C38_domain 18000 .rhos).1.mpr (by norm_num)
  obtain ⟨t, ht⟩ := Option.isSome_iff_exists.mp hT
  obtain ⟨rho, hrho⟩ := Option.isSome_iff_exists.mp hr
  refine ⟨1 - t, rho, Group.converged_quick (cwf_eq unitGas none) (cwf_nodup false) ?_⟩
  intro s hs
  simp only [flightConditions, List.mem_cons, List.not_mem_nil, or_false] at hs
  rcases hs with rfl | rfl | rfl
  · refine ⟨?_, ?_, ?_⟩
    · exact Atm.C38_refuted.2.1
    · show (Atm.compute 18000 .Ts).map (· + (1 - t)) = some 1
      rw [ht]; simp
    · exact hrho
  · refine ⟨started, started_converged, ?_, ?_⟩
    · intro n hn
      have := ext_lit hn
      fin_cases this <;> exact ⟨by krfl, by krfl⟩
    · intro n hn
      rw [fw_eq, show (none : Option Adder).isSome = false from rfl, outs_lit] at hn
      fin_cases hn <;> exact ⟨by krfl, by krfl⟩
  · intro b hb
    fin_cases hb <;> rfl

end C49Example

end PyCycle.OM
