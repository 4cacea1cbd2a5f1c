import Verif.Model.ElementWiring
import Verif.Proofs.OMLemmas
import Verif.Props.C48_Combustor

/-! # C50: inlet, duct and splitter, as whole elements -/

namespace PyCycle.OM

/-! ## Inlet -/

private abbrev iw (d s : Bool) : Wiring := (inlet gas0 d s).wiring

private theorem iw_eq (gas : (ℕ → ℝ) → TPGas) (d s : Bool) : (inlet gas d s).wiring = iw d s := by
  cases d <;> cases s <;> rfl

private theorem iw_nodup : ∀ d s, ((iw d s).subs.map (·.name)).Nodup := by decide +kernel

/-- The inputs every single-stream element leaves to the upstream element. -/
def inletPort : List String := (flowVarNames "Fl_I").filter (· ≠ "Fl_I:FAR")

/-- **C50 (inlet, interface).** -/
theorem C50_inlet_interface (gas : (ℕ → ℝ) → TPGas) (d s : Bool) :
    (inlet gas d s).wiring.Accepted
    ∧ ∀ n, n ∈ (inlet gas d s).wiring.externals ↔
        n ∈ inletPort ++ ["flow_in.Fl_I:FAR", "ram_recovery"]
          ++ (if s then if d then ["MN"] else ["area", "out_stat.guess:MN"] else []) := by
  rw [iw_eq]
  have h : ∀ d s, (iw d s).Accepted
      ∧ (iw d s).externals ⊆ inletPort ++ ["flow_in.Fl_I:FAR", "ram_recovery"]
          ++ (if s then if d then ["MN"] else ["area", "out_stat.guess:MN"] else [])
      ∧ inletPort ++ ["flow_in.Fl_I:FAR", "ram_recovery"]
          ++ (if s then if d then ["MN"] else ["area", "out_stat.guess:MN"] else []) ⊆ (iw d s).externals := by
    decide +kernel
  exact ⟨(h d s).1, fun n => ⟨fun hn => (h d s).2.1 hn, fun hn => (h d s).2.2 hn⟩⟩

private theorem iw_links : ∀ d s,
    ((iw d s).inSrc "calcs_inlet" "Pt_in" = "Fl_I:tot:P"
      ∧ (iw d s).inSrc "calcs_inlet" "ram_recovery" = "ram_recovery"
      ∧ (iw d s).inSrc "calcs_inlet" "V_in" = "Fl_I:stat:V"
      ∧ (iw d s).inSrc "calcs_inlet" "W_in" = "Fl_I:stat:W"
      ∧ (iw d s).outOf "calcs_inlet" "Pt_out" = "calcs_inlet.Pt_out"
      ∧ (iw d s).outOf "calcs_inlet" "F_ram" = "F_ram")
    ∧ ((iw d s).inSrc "real_flow" "T" = "Fl_I:tot:T"
      ∧ (iw d s).inSrc "real_flow" "P" = "calcs_inlet.Pt_out"
      ∧ (iw d s).inSrc "real_flow" "composition" = "Fl_I:tot:composition"
      ∧ (iw d s).Reports "real_flow" "Fl_O:tot" .total_TP) := by
  decide +kernel

private theorem iw_stat : ∀ d,
    (iw d true).inSrc "out_stat" "S" = "Fl_O:tot" ++ ":" ++ "S"
    ∧ (iw d true).inSrc "out_stat" "ht" = "Fl_O:tot" ++ ":" ++ "h"
    ∧ (iw d true).inSrc "out_stat" "W" = "Fl_I:stat:W"
    ∧ (iw d true).inSrc "out_stat" "composition" = "Fl_I:tot:composition"
    ∧ (iw true true).inSrc "out_stat" "MN" = "MN"
    ∧ (iw false true).inSrc "out_stat" "area" = "area"
    ∧ (iw d true).Reports "out_stat" "Fl_O:stat" .static_A
    ∧ (iw d false).inSrc "W_passthru" "Fl_I:stat:W" = "Fl_I:stat:W"
    ∧ (iw d false).outOf "W_passthru" "Fl_O:stat:W" = "Fl_O:stat:W" := by
  decide +kernel

/-- **C50 (inlet).** A converged inlet delivers the incoming flow, composition and total temperature at the
incoming total pressure times the recovery, all other outlet totals being those of that state; the ram drag is
the incoming momentum. With statics, the static outlet passes that flow at the Mach number or area asked
for. -/
theorem C50_inlet (gas : (ℕ → ℝ) → TPGas) (d s : Bool) (E : Env) (hc : (inlet gas d s).Converged E) :
    E.num "Fl_O:tot:P" = E.num "Fl_I:tot:P" * E.num "ram_recovery"
    ∧ E.num "Fl_O:tot:T" = E.num "Fl_I:tot:T"
    ∧ E.vec "Fl_O:tot:composition" = E.vec "Fl_I:tot:composition"
    ∧ StateOf (gas (E.vec "Fl_I:tot:composition")) E "Fl_O:tot"
    ∧ E.num "Fl_O:stat:W" = E.num "Fl_I:stat:W"
    ∧ E.num "F_ram" = E.num "Fl_I:stat:W" * E.num "Fl_I:stat:V" / 32.174
    ∧ (s = true → StaticOutlet (gas (E.vec "Fl_I:tot:composition")) E "Fl_O:tot" "Fl_O:stat" d
        (E.num "Fl_I:stat:W") (E.num "MN") (E.num "area")) := by
  have hn := iw_nodup d s
  obtain ⟨⟨c1, c2, c3, c4, c5, c6⟩, r1, r2, r3, r4⟩ := iw_links d s
  have hcal := hc.sub (iw_eq gas d s) hn 1 _ rfl "calcs_inlet" rfl
  simp only [Wiring.rd, Wiring.wr, NC.rd, NC.wr, NC.inSrc_eq, NC.outOf_eq, c1, c2, c3, c4, c5, c6, Inlet.calcs, Inlet.g_c] at hcal
  have hr := hc.station (gas := gas) (iw_eq gas d s) hn 2 rfl r4
  have s1 := hr.state
  have s2 := hr.tp rfl
  have s3 := hr.comp rfl
  simp only [Wiring.rd, r1, r2, r3, Env.at, String.reduceAppend] at s1 s2 s3
  refine ⟨by rw [s2.2, hcal.1], s2.1, s3, s1, ?_, hcal.2, ?_⟩
  · cases s
    · obtain ⟨-, -, -, -, -, -, -, p1, p2⟩ := iw_stat d
      have hw := hc.sub (iw_eq gas d false) hn 3 (passThrough "W_passthru" "Fl_I:stat:W" "Fl_O:stat:W") rfl
        "W_passthru" rfl
      simpa only [passThrough, Wiring.rd, Wiring.wr, NC.rd, NC.wr, NC.inSrc_eq, NC.outOf_eq, p1, p2] using hw
    · obtain ⟨q1, q2, q3, q4, q5, q6, q7, -, -⟩ := iw_stat d
      exact (hc.staticOutlet (d := d) (iw_eq gas d true) hn 3 rfl q7 q1 q2 q3 q4 (by rintro rfl; exact q5)
        (by rintro rfl; exact q6)).flow
  · rintro rfl
    obtain ⟨q1, q2, q3, q4, q5, q6, q7, -, -⟩ := iw_stat d
    exact hc.staticOutlet (d := d) (iw_eq gas d true) hn 3 rfl q7 q1 q2 q3 q4 (by rintro rfl; exact q5)
        (by rintro rfl; exact q6)

/-! ## Duct -/

private abbrev dw (d s m : Bool) : Wiring := (duct gas0 d s 0 m).wiring

private theorem dw_eq (gas : (ℕ → ℝ) → TPGas) (d s : Bool) (x : ℝ) (m : Bool) :
    (duct gas d s x m).wiring = dw d s m := by
  cases d <;> cases s <;> cases m <;> rfl

private theorem dw_nodup : ∀ d s m, ((dw d s m).subs.map (·.name)).Nodup := by decide +kernel

/-- What the user supplies to a duct besides the inlet station: the loss at design or without a map, the
scaled loss off design with a map. -/
def ductInputs (d s m : Bool) : List String :=
  (if m && !d then ["s_dPqP"] else ["dPqP"]) ++ ["Q_dot"]
    ++ (if s then if d then ["MN"] else ["area", "out_stat.guess:MN"] else [])

/-- **C50 (duct, interface).** -/
theorem C50_duct_interface (gas : (ℕ → ℝ) → TPGas) (d s : Bool) (x : ℝ) (m : Bool) :
    (duct gas d s x m).wiring.Accepted
    ∧ ∀ n, n ∈ (duct gas d s x m).wiring.externals ↔
        n ∈ inletPort ++ ["flow_in.Fl_I:FAR"] ++ ductInputs d s m := by
  rw [dw_eq]
  have h : ∀ d s m, (dw d s m).Accepted
      ∧ (dw d s m).externals ⊆ inletPort ++ ["flow_in.Fl_I:FAR"] ++ ductInputs d s m
      ∧ inletPort ++ ["flow_in.Fl_I:FAR"] ++ ductInputs d s m ⊆ (dw d s m).externals := by
    decide +kernel
  exact ⟨(h d s m).1, fun n => ⟨fun hn => (h d s m).2.1 hn, fun hn => (h d s m).2.2 hn⟩⟩

private theorem dw_links : ∀ d s m,
    ((dw d s m).inSrc "p_loss" "Pt_in" = "Fl_I:tot:P"
      ∧ (dw d s m).inSrc "p_loss" "dPqP" = "dPqP"
      ∧ (dw d s m).outOf "p_loss" "Pt_out" = "p_loss.Pt_out")
    ∧ ((dw d s m).inSrc "q_calc" "W_in" = "Fl_I:stat:W"
      ∧ (dw d s m).inSrc "q_calc" "ht_in" = "Fl_I:tot:h"
      ∧ (dw d s m).inSrc "q_calc" "Q_dot" = "Q_dot"
      ∧ (dw d s m).outOf "q_calc" "ht_out" = "q_calc.ht_out")
    ∧ ((dw d s m).inSrc "real_flow" "h" = "q_calc.ht_out"
      ∧ (dw d s m).inSrc "real_flow" "P" = "p_loss.Pt_out"
      ∧ (dw d s m).inSrc "real_flow" "composition" = "Fl_I:tot:composition"
      ∧ (dw d s m).Reports "real_flow" "Fl_O:tot" .total_hP) := by
  decide +kernel

private theorem dw_stat : ∀ d m,
    ((dw d true m).inSrc "out_stat" "S" = "Fl_O:tot" ++ ":" ++ "S"
    ∧ (dw d true m).inSrc "out_stat" "ht" = "Fl_O:tot" ++ ":" ++ "h"
    ∧ (dw d true m).inSrc "out_stat" "W" = "Fl_I:stat:W"
    ∧ (dw d true m).inSrc "out_stat" "composition" = "Fl_I:tot:composition"
    ∧ (dw true true m).inSrc "out_stat" "MN" = "MN"
    ∧ (dw false true m).inSrc "out_stat" "area" = "area"
    ∧ (dw d true m).Reports "out_stat" "Fl_O:stat" .static_A)
    ∧ (dw d false m).inSrc "W_passthru" "Fl_I:stat:W" = "Fl_I:stat:W"
    ∧ (dw d false m).outOf "W_passthru" "Fl_O:stat:W" = "Fl_O:stat:W" := by
  decide +kernel

private theorem dw_map : ∀ s,
    ((dw true s true).inSrc "dPqP_MN" "MN_in" = "Fl_I:stat:MN"
      ∧ (dw true s true).inSrc "dPqP_MN" "dPqP" = "dPqP"
      ∧ (dw true s true).outOf "dPqP_MN" "s_dPqP" = "s_dPqP")
    ∧ ((dw false s true).inSrc "dPqP_MN" "MN_in" = "Fl_I:stat:MN"
      ∧ (dw false s true).inSrc "dPqP_MN" "s_dPqP" = "s_dPqP"
      ∧ (dw false s true).outOf "dPqP_MN" "dPqP" = "dPqP") := by
  decide +kernel

/-- **C50 (duct).** A converged duct delivers the incoming flow and composition at the incoming total
pressure less the loss fraction, carrying the incoming enthalpy plus the heat added; the outlet totals are one
state of the gas. With a loss map the fraction and the scaled fraction differ by the inlet Mach number to the
given power, at design and off design alike. -/
theorem C50_duct (gas : (ℕ → ℝ) → TPGas) (d s : Bool) (x : ℝ) (m : Bool) (E : Env)
    (hc : (duct gas d s x m).Converged E) :
    E.num "Fl_O:tot:P" = E.num "Fl_I:tot:P" * (1 - E.num "dPqP")
    ∧ (E.num "Fl_I:stat:W" ≠ 0 → E.num "Fl_O:stat:W" * E.num "Fl_O:tot:h"
        = E.num "Fl_I:stat:W" * E.num "Fl_I:tot:h" + E.num "Q_dot")
    ∧ E.vec "Fl_O:tot:composition" = E.vec "Fl_I:tot:composition"
    ∧ StateOf (gas (E.vec "Fl_I:tot:composition")) E "Fl_O:tot"
    ∧ E.num "Fl_O:stat:W" = E.num "Fl_I:stat:W"
    ∧ (m = true → 0 < E.num "Fl_I:stat:MN" → E.num "dPqP" = E.num "s_dPqP" * E.num "Fl_I:stat:MN" ^ x)
    ∧ (s = true → StaticOutlet (gas (E.vec "Fl_I:tot:composition")) E "Fl_O:tot" "Fl_O:stat" d
        (E.num "Fl_I:stat:W") (E.num "MN") (E.num "area")) := by
  have hn := dw_nodup d s m
  obtain ⟨⟨c1, c2, c3⟩, ⟨h1, h2, h3, h4⟩, r1, r2, r3, r4⟩ := dw_links d s m
  have hp : E.num "p_loss.Pt_out" = E.num "Fl_I:tot:P" * (1 - E.num "dPqP") := by
    have : pressureLoss.eqn ((dw d s m).rd E "p_loss") ((dw d s m).wr E "p_loss") := by
      cases m
      · exact hc.sub (dw_eq gas d s x false) hn 1 pressureLoss rfl "p_loss" rfl
      · exact hc.sub (dw_eq gas d s x true) hn 2 pressureLoss rfl "p_loss" rfl
    simpa only [pressureLoss, Wiring.rd, Wiring.wr, NC.rd, NC.wr, NC.inSrc_eq, NC.outOf_eq, c1, c2, c3, Duct.ptOut] using this
  have hq : E.num "q_calc.ht_out" = E.num "Fl_I:tot:h" + E.num "Q_dot" / E.num "Fl_I:stat:W" := by
    cases m
    · have := hc.sub (dw_eq gas d s x false) hn 2 _ rfl "q_calc" rfl
      simpa only [Wiring.rd, Wiring.wr, NC.rd, NC.wr, NC.inSrc_eq, NC.outOf_eq, h1, h2, h3, h4, Duct.htOut] using this
    · have := hc.sub (dw_eq gas d s x true) hn 3 _ rfl "q_calc" rfl
      simpa only [Wiring.rd, Wiring.wr, NC.rd, NC.wr, NC.inSrc_eq, NC.outOf_eq, h1, h2, h3, h4, Duct.htOut] using this
  have hr : ThermoSays gas .total_hP "Fl_O:tot" ((dw d s m).rd E "real_flow") E := by
    cases m
    · exact hc.station (gas := gas) (dw_eq gas d s x false) hn 3 rfl r4
    · exact hc.station (gas := gas) (dw_eq gas d s x true) hn 4 rfl r4
  have s1 := hr.state
  have s2 := hr.hp rfl
  have s3 := hr.comp rfl
  simp only [Wiring.rd, r1, r2, r3, Env.at, String.reduceAppend] at s1 s2 s3
  have hst : s = true → StaticOutlet (gas (E.vec "Fl_I:tot:composition")) E "Fl_O:tot" "Fl_O:stat" d
        (E.num "Fl_I:stat:W") (E.num "MN") (E.num "area") := by
    rintro rfl
    obtain ⟨⟨q1, q2, q3, q4, q5, q6, q7⟩, -⟩ := dw_stat d m
    cases m
    · exact hc.staticOutlet (d := d) (dw_eq gas d true x false) hn 4 rfl q7 q1 q2 q3 q4
        (by rintro rfl; exact q5) (by rintro rfl; exact q6)
    · exact hc.staticOutlet (d := d) (dw_eq gas d true x true) hn 5 rfl q7 q1 q2 q3 q4
        (by rintro rfl; exact q5) (by rintro rfl; exact q6)
  have hW : E.num "Fl_O:stat:W" = E.num "Fl_I:stat:W" := by
    cases s
    · obtain ⟨-, p1, p2⟩ := dw_stat d m
      have hw : (passThrough "W_passthru" "Fl_I:stat:W" "Fl_O:stat:W").eqn ((dw d false m).rd E "W_passthru")
          ((dw d false m).wr E "W_passthru") := by
        cases m
        · exact hc.sub (dw_eq gas d false x false) hn 4 _ rfl _ rfl
        · exact hc.sub (dw_eq gas d false x true) hn 5 _ rfl _ rfl
      simpa only [passThrough, Wiring.rd, Wiring.wr, NC.rd, NC.wr, NC.inSrc_eq, NC.outOf_eq, p1, p2] using hw
    · exact (hst rfl).flow
  refine ⟨by rw [s2.2, hp], ?_, s3, s1, hW, ?_, hst⟩
  · intro h0
    rw [hW, s2.1, hq]; field_simp
  · rintro rfl hM
    obtain ⟨⟨a1, a2, a3⟩, b1, b2, b3⟩ := dw_map s
    cases d
    · have := hc.sub (dw_eq gas false s x true) hn 1 _ rfl "dPqP_MN" rfl
      simpa only [Wiring.rd, Wiring.wr, NC.rd, NC.wr, NC.inSrc_eq, NC.outOf_eq, b1, b2, b3, Duct.lossMap, Bool.false_eq_true, if_false] using this
    · have := hc.sub (dw_eq gas true s x true) hn 1 _ rfl "dPqP_MN" rfl
      simp only [Wiring.rd, Wiring.wr, NC.rd, NC.wr, NC.inSrc_eq, NC.outOf_eq, a1, a2, a3, Duct.lossMap, if_true] at this
      rw [this, div_mul_cancel₀ _ (Real.rpow_pos_of_pos hM x).ne']

/-! ## Splitter -/

private abbrev sw (d s : Bool) : Wiring := (splitter gas0 d s).wiring

private theorem sw_eq (gas : (ℕ → ℝ) → TPGas) (d s : Bool) : (splitter gas d s).wiring = sw d s := by
  cases d <;> cases s <;> rfl

private theorem sw_nodup : ∀ d s, ((sw d s).subs.map (·.name)).Nodup := by decide +kernel

/-- **C50 (splitter, interface).** -/
theorem C50_splitter_interface (gas : (ℕ → ℝ) → TPGas) (d s : Bool) :
    (splitter gas d s).wiring.Accepted
    ∧ ∀ n, n ∈ (splitter gas d s).wiring.externals ↔
        n ∈ flowVarNames "Fl_I" ++ ["BPR"]
          ++ (if s then if d then ["MN1", "MN2"]
            else ["area1", "area2", "out1_stat.guess:MN", "out2_stat.guess:MN"] else []) := by
  rw [sw_eq]
  have h : ∀ d s, (sw d s).Accepted
      ∧ (sw d s).externals ⊆ flowVarNames "Fl_I" ++ ["BPR"]
          ++ (if s then if d then ["MN1", "MN2"]
            else ["area1", "area2", "out1_stat.guess:MN", "out2_stat.guess:MN"] else [])
      ∧ flowVarNames "Fl_I" ++ ["BPR"]
          ++ (if s then if d then ["MN1", "MN2"]
            else ["area1", "area2", "out1_stat.guess:MN", "out2_stat.guess:MN"] else []) ⊆ (sw d s).externals := by
    decide +kernel
  exact ⟨(h d s).1, fun n => ⟨fun hn => (h d s).2.1 hn, fun hn => (h d s).2.2 hn⟩⟩

private theorem sw_links : ∀ d s,
    ((sw d s).inSrc "split_calc" "BPR" = "BPR" ∧ (sw d s).inSrc "split_calc" "W_in" = "Fl_I:stat:W"
      ∧ (sw d s).outOf "split_calc" "W1" = "split_calc.W1" ∧ (sw d s).outOf "split_calc" "W2" = "split_calc.W2")
    ∧ ((sw d s).inSrc "real_flow1" "T" = "Fl_I:tot:T" ∧ (sw d s).inSrc "real_flow1" "P" = "Fl_I:tot:P"
      ∧ (sw d s).inSrc "real_flow1" "composition" = "Fl_I:tot:composition"
      ∧ (sw d s).Reports "real_flow1" "Fl_O1:tot" .total_TP)
    ∧ ((sw d s).inSrc "real_flow2" "T" = "Fl_I:tot:T" ∧ (sw d s).inSrc "real_flow2" "P" = "Fl_I:tot:P"
      ∧ (sw d s).inSrc "real_flow2" "composition" = "Fl_I:tot:composition"
      ∧ (sw d s).Reports "real_flow2" "Fl_O2:tot" .total_TP) := by
  decide +kernel

private theorem sw_stat : ∀ d,
    ((sw d true).inSrc "out1_stat" "S" = "Fl_O1:tot" ++ ":" ++ "S"
      ∧ (sw d true).inSrc "out1_stat" "ht" = "Fl_O1:tot" ++ ":" ++ "h"
      ∧ (sw d true).inSrc "out1_stat" "W" = "split_calc.W1"
      ∧ (sw d true).inSrc "out1_stat" "composition" = "Fl_I:tot:composition"
      ∧ (sw true true).inSrc "out1_stat" "MN" = "MN1" ∧ (sw false true).inSrc "out1_stat" "area" = "area1"
      ∧ (sw d true).Reports "out1_stat" "Fl_O1:stat" .static_A)
    ∧ ((sw d true).inSrc "out2_stat" "S" = "Fl_O2:tot" ++ ":" ++ "S"
      ∧ (sw d true).inSrc "out2_stat" "ht" = "Fl_O2:tot" ++ ":" ++ "h"
      ∧ (sw d true).inSrc "out2_stat" "W" = "split_calc.W2"
      ∧ (sw d true).inSrc "out2_stat" "composition" = "Fl_I:tot:composition"
      ∧ (sw true true).inSrc "out2_stat" "MN" = "MN2" ∧ (sw false true).inSrc "out2_stat" "area" = "area2"
      ∧ (sw d true).Reports "out2_stat" "Fl_O2:stat" .static_A)
    ∧ ((sw d false).inSrc "W1_passthru" "split_calc_W1" = "split_calc.W1"
      ∧ (sw d false).outOf "W1_passthru" "Fl_O1:stat:W" = "Fl_O1:stat:W"
      ∧ (sw d false).inSrc "W2_passthru" "split_calc_W2" = "split_calc.W2"
      ∧ (sw d false).outOf "W2_passthru" "Fl_O2:stat:W" = "Fl_O2:stat:W") := by
  decide +kernel

/-- **C50 (splitter).** A converged splitter divides the flow: the two outlet flows add up to the inlet's and
have the ratio `BPR`; both outlets carry the inlet's composition, total temperature and total pressure. -/
theorem C50_splitter (gas : (ℕ → ℝ) → TPGas) (d s : Bool) (E : Env) (hc : (splitter gas d s).Converged E) :
    E.num "Fl_O1:stat:W" + E.num "Fl_O2:stat:W" = E.num "Fl_I:stat:W"
    ∧ (E.num "BPR" ≠ -1 → E.num "Fl_O2:stat:W" = E.num "BPR" * E.num "Fl_O1:stat:W")
    ∧ (E.num "Fl_O1:tot:T" = E.num "Fl_I:tot:T" ∧ E.num "Fl_O1:tot:P" = E.num "Fl_I:tot:P"
      ∧ E.vec "Fl_O1:tot:composition" = E.vec "Fl_I:tot:composition"
      ∧ StateOf (gas (E.vec "Fl_I:tot:composition")) E "Fl_O1:tot")
    ∧ (E.num "Fl_O2:tot:T" = E.num "Fl_I:tot:T" ∧ E.num "Fl_O2:tot:P" = E.num "Fl_I:tot:P"
      ∧ E.vec "Fl_O2:tot:composition" = E.vec "Fl_I:tot:composition"
      ∧ StateOf (gas (E.vec "Fl_I:tot:composition")) E "Fl_O2:tot")
    ∧ (s = true → StaticOutlet (gas (E.vec "Fl_I:tot:composition")) E "Fl_O1:tot" "Fl_O1:stat" d
        (E.num "Fl_O1:stat:W") (E.num "MN1") (E.num "area1")
      ∧ StaticOutlet (gas (E.vec "Fl_I:tot:composition")) E "Fl_O2:tot" "Fl_O2:stat" d
        (E.num "Fl_O2:stat:W") (E.num "MN2") (E.num "area2")) := by
  have hn := sw_nodup d s
  obtain ⟨⟨c1, c2, c3, c4⟩, ⟨a1, a2, a3, a4⟩, b1, b2, b3, b4⟩ := sw_links d s
  have hsp := hc.sub (sw_eq gas d s) hn 1 _ rfl "split_calc" rfl
  simp only [Wiring.rd, Wiring.wr, NC.rd, NC.wr, NC.inSrc_eq, NC.outOf_eq, c1, c2, c3, c4, Split.compute] at hsp
  have h1 := hc.station (gas := gas) (sw_eq gas d s) hn 2 rfl a4
  have h2 := hc.station (gas := gas) (sw_eq gas d s) hn 3 rfl b4
  have u1 := h1.state
  have u2 := h1.tp rfl
  have u3 := h1.comp rfl
  have v1 := h2.state
  have v2 := h2.tp rfl
  have v3 := h2.comp rfl
  simp only [Wiring.rd, a1, a2, a3, b1, b2, b3, Env.at, String.reduceAppend] at u1 u2 u3 v1 v2 v3
  have hst : s = true → StaticOutlet (gas (E.vec "Fl_I:tot:composition")) E "Fl_O1:tot" "Fl_O1:stat" d
        (E.num "split_calc.W1") (E.num "MN1") (E.num "area1")
      ∧ StaticOutlet (gas (E.vec "Fl_I:tot:composition")) E "Fl_O2:tot" "Fl_O2:stat" d
        (E.num "split_calc.W2") (E.num "MN2") (E.num "area2") := by
    rintro rfl
    obtain ⟨⟨q1, q2, q3, q4, q5, q6, q7⟩, ⟨p1, p2, p3, p4, p5, p6, p7⟩, -⟩ := sw_stat d
    exact ⟨hc.staticOutlet (d := d) (sw_eq gas d true) hn 4 rfl q7 q1 q2 q3 q4 (by rintro rfl; exact q5)
        (by rintro rfl; exact q6),
      hc.staticOutlet (d := d) (sw_eq gas d true) hn 5 rfl p7 p1 p2 p3 p4 (by rintro rfl; exact p5)
        (by rintro rfl; exact p6)⟩
  have hW : E.num "Fl_O1:stat:W" = E.num "split_calc.W1" ∧ E.num "Fl_O2:stat:W" = E.num "split_calc.W2" := by
    cases s
    · obtain ⟨-, -, p1, p2, p3, p4⟩ := sw_stat d
      have g1 := hc.sub (sw_eq gas d false) hn 4 (passThrough "W1_passthru" "split_calc_W1" "Fl_O1:stat:W") rfl
        _ rfl
      have g2 := hc.sub (sw_eq gas d false) hn 5 (passThrough "W2_passthru" "split_calc_W2" "Fl_O2:stat:W") rfl
        _ rfl
      simp only [passThrough, Wiring.rd, Wiring.wr, NC.rd, NC.wr, NC.inSrc_eq, NC.outOf_eq, p1, p2, p3, p4] at g1 g2
      exact ⟨g1, g2⟩
    · exact ⟨(hst rfl).1.flow, (hst rfl).2.flow⟩
  refine ⟨?_, ?_, ⟨u2.1, u2.2, u3, u1⟩, ⟨v2.1, v2.2, v3, v1⟩, ?_⟩
  · rw [hW.1, hW.2, hsp.1, hsp.2]; ring
  · intro hB
    have : E.num "BPR" + 1 ≠ 0 := fun h => hB (by linarith)
    rw [hW.1, hW.2, hsp.1, hsp.2]; field_simp; ring
  · rw [hW.1, hW.2]; exact hst

/-! ## Converged examples -/

namespace C50Example
open C48Example (unitGas tot sta)

/-- Outlet speed for flow `W`. -/
def mov (W : ℝ) : StaticState := ⟨1, W, 1, 1⟩

theorem mov_ok (W : ℝ) (hW : W ≠ 0) : IsStatic (sta.psIn 1.5 W) (mov W) ∧ 0 < sta.gamma * sta.R * sta.T
    ∧ 0 < sta.rho ∧ (1.5 : ℝ) ≠ 0 ∧ (1e-16 : ℝ) ≤ (mov W).MN ∧ (mov W).area ≠ 0 :=
  ⟨⟨by simp [TG.Station.psIn, sta, mov], by simp [mov], by simp [TG.Station.psIn, sta, mov],
    by simp [TG.Station.psIn, sta, mov]; norm_num⟩, by simp [sta], by simp [sta], by norm_num,
    by norm_num [mov], by simpa [mov] using hW⟩

/-- Flow 3 enters an inlet of recovery 1/2. -/
noncomputable def caught : Env := Env.ofTable
  ([("Fl_I:stat:W", 3), ("Fl_I:tot:T", 1.5), ("Fl_I:tot:P", 4), ("ram_recovery", 0.5), ("MN", 1),
    ("Fl_I:stat:V", 32.174), ("F_ram", 3), ("calcs_inlet.Pt_out", 2)]
    ++ stationRows "real_flow." tot ++ stationRows "Fl_O:tot:" tot ++ stationRows "out_stat." sta
    ++ stationRows "Fl_O:stat:" sta ++ staticRows "out_stat." (mov 3) 3 ++ staticRows "Fl_O:stat:" (mov 3) 3)
  []

theorem caught_converged : (inlet unitGas true true).Converged caught := by
  refine Group.converged_quick (iw_eq unitGas true true) (iw_nodup true true) ?_
  obtain ⟨⟨c1, c2, c3, c4, c5, c6⟩, -⟩ := iw_links true true
  intro s hs
  simp only [inlet, if_true, List.cons_append, List.nil_append, List.mem_cons, List.not_mem_nil,
    or_false] at hs
  rcases hs with rfl | rfl | rfl | rfl
  · exact trivial
  · simp only [Wiring.rd, Wiring.wr, NC.rd, NC.wr, NC.inSrc_eq, NC.outOf_eq, c1, c2, c3, c4, c5, c6, Inlet.calcs, Inlet.g_c]
    have b1 : caught.num "Fl_I:stat:W" = 3 := rfl
    have b2 : caught.num "Fl_I:tot:P" = 4 := rfl
    have b3 : caught.num "ram_recovery" = 0.5 := rfl
    have b4 : caught.num "Fl_I:stat:V" = 32.174 := rfl
    have b5 : caught.num "F_ram" = 3 := rfl
    have b6 : caught.num "calcs_inlet.Pt_out" = 2 := rfl
    rw [b1, b2, b3, b4, b5, b6]; norm_num
  · total_of tot
  · static_of sta (mov 3) 1.5 3 (fun v => if v = .guessPt then 2 else 1) (mov_ok 3 (by norm_num))

/-- The guards of the static outlet hold of it. -/
example : 0 < caught.num "Fl_O:stat:gamma" * caught.num "Fl_O:stat:R" * caught.num "Fl_O:stat:T"
    ∧ 0 < caught.num "Fl_O:stat:rho" ∧ caught.num "Fl_O:tot:h" ≠ 0 ∧ 1e-16 ≤ caught.num "MN" := by
  have b4 : caught.num "Fl_O:stat:gamma" = 1 := rfl
  have b5 : caught.num "Fl_O:stat:R" = 1 := rfl
  have b6 : caught.num "Fl_O:stat:T" = 1 := rfl
  have b7 : caught.num "Fl_O:stat:rho" = 1 := rfl
  have b8 : caught.num "Fl_O:tot:h" = 1.5 := rfl
  have b9 : caught.num "MN" = 1 := rfl
  rw [b4, b5, b6, b7, b8, b9]
  norm_num

/-- Flow 3 takes up heat 3/2 in an off-design duct with a loss map. -/
noncomputable def heated : Env := Env.ofTable
  ([("Fl_I:stat:W", 3), ("Fl_I:tot:h", 1), ("Fl_I:tot:P", 4), ("s_dPqP", 0.5), ("dPqP", 0.5), ("area", 3),
    ("Fl_I:stat:MN", 1), ("Q_dot", 1.5), ("p_loss.Pt_out", 2), ("q_calc.ht_out", 1.5),
    ("out_stat.guess:MN", 1)]
    ++ stationRows "real_flow." tot ++ stationRows "Fl_O:tot:" tot ++ stationRows "out_stat." sta
    ++ stationRows "Fl_O:stat:" sta ++ staticRows "out_stat." (mov 3) 3 ++ staticRows "Fl_O:stat:" (mov 3) 3)
  []

theorem heated_converged : (duct unitGas false true 2 true).Converged heated := by
  refine Group.converged_quick (dw_eq unitGas false true 2 true) (dw_nodup false true true) ?_
  obtain ⟨⟨c1, c2, c3⟩, ⟨h1, h2, h3, h4⟩, -⟩ := dw_links false true true
  obtain ⟨-, a1, a2, a3⟩ := dw_map true
  have b1 : heated.num "Fl_I:stat:W" = 3 := rfl
  have b2 : heated.num "Fl_I:tot:P" = 4 := rfl
  have b3 : heated.num "s_dPqP" = 0.5 := rfl
  have b4 : heated.num "dPqP" = 0.5 := rfl
  have b5 : heated.num "Fl_I:stat:MN" = 1 := rfl
  have b6 : heated.num "p_loss.Pt_out" = 2 := rfl
  have b7 : heated.num "q_calc.ht_out" = 1.5 := rfl
  have b8 : heated.num "Fl_I:tot:h" = 1 := rfl
  have b9 : heated.num "Q_dot" = 1.5 := rfl
  intro s hs
  simp only [duct, if_true, Bool.false_eq_true, if_false, List.cons_append, List.nil_append, List.mem_cons,
    List.not_mem_nil, or_false] at hs
  rcases hs with rfl | rfl | rfl | rfl | rfl | rfl
  · exact trivial
  · simp only [Wiring.rd, Wiring.wr, NC.rd, NC.wr, NC.inSrc_eq, NC.outOf_eq, a1, a2, a3, Duct.lossMap, Bool.false_eq_true, if_false]
    rw [b3, b4, b5]; norm_num
  · simp only [pressureLoss, Wiring.rd, Wiring.wr, NC.rd, NC.wr, NC.inSrc_eq, NC.outOf_eq, c1, c2, c3, Duct.ptOut]
    rw [b2, b4, b6]; norm_num
  · simp only [Wiring.rd, Wiring.wr, NC.rd, NC.wr, NC.inSrc_eq, NC.outOf_eq, h1, h2, h3, h4, Duct.htOut]
    rw [b1, b7, b8, b9]; norm_num
  · total_of tot
  · static_of sta (mov 3) 1.5 3 (fun v => if v = .guessPt then 2 else 1) (mov_ok 3 (by norm_num))

/-- Flow 3 is split 1 to 2. -/
noncomputable def parted : Env := Env.ofTable
  ([("Fl_I:stat:W", 3), ("Fl_I:tot:T", 1.5), ("Fl_I:tot:P", 2), ("BPR", 2), ("MN1", 1), ("MN2", 1),
    ("split_calc.W1", 1), ("split_calc.W2", 2)]
    ++ stationRows "real_flow1." tot ++ stationRows "Fl_O1:tot:" tot ++ stationRows "out1_stat." sta
    ++ stationRows "Fl_O1:stat:" sta ++ staticRows "out1_stat." (mov 1) 1 ++ staticRows "Fl_O1:stat:" (mov 1) 1
    ++ stationRows "real_flow2." tot ++ stationRows "Fl_O2:tot:" tot ++ stationRows "out2_stat." sta
    ++ stationRows "Fl_O2:stat:" sta ++ staticRows "out2_stat." (mov 2) 2 ++ staticRows "Fl_O2:stat:" (mov 2) 2)
  []

theorem parted_converged : (splitter unitGas true true).Converged parted := by
  refine Group.converged_quick (sw_eq unitGas true true) (sw_nodup true true) ?_
  obtain ⟨⟨c1, c2, c3, c4⟩, -⟩ := sw_links true true
  intro s hs
  simp only [splitter, if_true, List.cons_append, List.nil_append, List.mem_cons, List.not_mem_nil,
    or_false] at hs
  rcases hs with rfl | rfl | rfl | rfl | rfl | rfl
  · exact trivial
  · simp only [Wiring.rd, Wiring.wr, NC.rd, NC.wr, NC.inSrc_eq, NC.outOf_eq, c1, c2, c3, c4, Split.compute]
    have b1 : parted.num "Fl_I:stat:W" = 3 := rfl
    have b2 : parted.num "BPR" = 2 := rfl
    have b3 : parted.num "split_calc.W1" = 1 := rfl
    have b4 : parted.num "split_calc.W2" = 2 := rfl
    rw [b1, b2, b3, b4]; norm_num
  · total_of tot
  · total_of tot
  · static_of sta (mov 1) 1.5 1 (fun v => if v = .guessPt then 2 else 1) (mov_ok 1 (by norm_num))
  · static_of sta (mov 2) 1.5 2 (fun v => if v = .guessPt then 2 else 1) (mov_ok 2 (by norm_num))

end C50Example

end PyCycle.OM
