import Verif.Props.C58_Example
import Verif.Props.C59_Mixer
import Verif.Props.C59_Turbojet

/-! # C59: the hypotheses are met -/

namespace PyCycle.OM

namespace C59Example
open C48Example (unitGas tot sta)
open C50Example (mov mov_ok caught caught_converged parted parted_converged)
open C54Example (cmap tmap)

/-- A tabulated station is moving. -/
theorem flowing {E : Env} {a b : String} {s : TG.Station} {m : StaticState} {ht W : ℝ}
    (ok : IsStatic (s.psIn ht W) m ∧ 0 < s.gamma * s.R * s.T ∧ 0 < s.rho ∧ ht ≠ 0 ∧ (1e-16 : ℝ) ≤ m.MN ∧ m.area ≠ 0)
    (h1 : E.at b "gamma" = s.gamma) (h2 : E.at b "R" = s.R) (h3 : E.at b "T" = s.T) (h4 : E.at b "rho" = s.rho)
    (h5 : E.at a "h" = ht) (h6 : E.at b "MN" = m.MN) (h7 : E.at b "area" = m.area) : Flowing E a b := by
  obtain ⟨-, k1, k2, k3, k4, k5⟩ := ok
  exact ⟨by rw [h1, h2, h3]; exact k1, by rw [h4]; exact k2, by rw [h5]; exact k3, by rw [h6]; exact k4, by rw [h7]; exact k5⟩

/-! ## Elements -/

example : ∃ E', Redesign (inlet unitGas true true) (inlet unitGas false true) areaConns caught E' :=
  C59_inlet unitGas caught caught_converged (flowing (mov_ok 3 (by norm_num)) rfl rfl rfl rfl rfl rfl rfl)

example : ∃ E', Redesign (combustor unitGas (.tab 1 0) true true) (combustor unitGas (.tab 1 0) false true) areaConns
    C58Example.burnerE E' :=
  C59_combustor unitGas (.tab 1 0) trivial _ (C58Example.burner_converged true)
    (flowing C58Example.ok4 rfl rfl rfl rfl rfl rfl rfl)

/-- A heated duct at design, with a loss map of exponent 2 or without one. -/
noncomputable def heated : Env := Env.ofTable
  ([("Fl_I:stat:W", 3), ("Fl_I:tot:h", 1), ("Fl_I:tot:P", 4), ("s_dPqP", 0.125), ("dPqP", 0.5), ("MN", 1),
    ("Fl_I:stat:MN", 2), ("Q_dot", 1.5), ("p_loss.Pt_out", 2), ("q_calc.ht_out", 1.5)]
    ++ stationRows "real_flow." tot ++ stationRows "Fl_O:tot:" tot ++ stationRows "out_stat." sta
    ++ stationRows "Fl_O:stat:" sta ++ staticRows "out_stat." (mov 3) 3 ++ staticRows "Fl_O:stat:" (mov 3) 3)
  []

theorem heated_converged (m : Bool) : (duct unitGas true true 2 m).Converged heated := by
  have e : (duct unitGas true true 2 m).wiring = (duct gas0 true true 0 m).wiring := by cases m <;> rfl
  have nd : ∀ m, ((duct gas0 true true 0 m).wiring.subs.map (·.name)).Nodup := by decide +kernel
  refine Group.converged_quick e (nd m) ?_
  have lk : ∀ m, ((duct gas0 true true 0 m).wiring.inSrc "p_loss" "Pt_in" = "Fl_I:tot:P"
      ∧ (duct gas0 true true 0 m).wiring.inSrc "p_loss" "dPqP" = "dPqP"
      ∧ (duct gas0 true true 0 m).wiring.outOf "p_loss" "Pt_out" = "p_loss.Pt_out")
    ∧ ((duct gas0 true true 0 m).wiring.inSrc "q_calc" "W_in" = "Fl_I:stat:W"
      ∧ (duct gas0 true true 0 m).wiring.inSrc "q_calc" "ht_in" = "Fl_I:tot:h"
      ∧ (duct gas0 true true 0 m).wiring.inSrc "q_calc" "Q_dot" = "Q_dot"
      ∧ (duct gas0 true true 0 m).wiring.outOf "q_calc" "ht_out" = "q_calc.ht_out") := by decide +kernel
  obtain ⟨⟨c1, c2, c3⟩, h1, h2, h3, h4⟩ := lk m
  have mp : (duct gas0 true true 0 true).wiring.inSrc "dPqP_MN" "MN_in" = "Fl_I:stat:MN"
      ∧ (duct gas0 true true 0 true).wiring.inSrc "dPqP_MN" "dPqP" = "dPqP"
      ∧ (duct gas0 true true 0 true).wiring.outOf "dPqP_MN" "s_dPqP" = "s_dPqP" := by decide +kernel
  obtain ⟨a1, a2, a3⟩ := mp
  have b1 : heated.num "Fl_I:stat:W" = 3 := rfl
  have b2 : heated.num "Fl_I:tot:P" = 4 := rfl
  have b3 : heated.num "s_dPqP" = 0.125 := rfl
  have b4 : heated.num "dPqP" = 0.5 := rfl
  have b5 : heated.num "Fl_I:stat:MN" = 2 := rfl
  have b6 : heated.num "p_loss.Pt_out" = 2 := rfl
  have b7 : heated.num "q_calc.ht_out" = 1.5 := rfl
  have b8 : heated.num "Fl_I:tot:h" = 1 := rfl
  have b9 : heated.num "Q_dot" = 1.5 := rfl
  intro s hs
  cases m
  · simp only [duct, if_true, Bool.false_eq_true, if_false, List.cons_append, List.nil_append, List.mem_cons,
      List.not_mem_nil, or_false] at hs
    rcases hs with rfl | rfl | rfl | rfl | rfl
    · exact trivial
    · simp only [pressureLoss, Wiring.rd, Wiring.wr, NC.rd, NC.wr, NC.inSrc_eq, NC.outOf_eq, c1, c2, c3, Duct.ptOut]
      rw [b2, b4, b6]; norm_num
    · simp only [Wiring.rd, Wiring.wr, NC.rd, NC.wr, NC.inSrc_eq, NC.outOf_eq, h1, h2, h3, h4, Duct.htOut]
      rw [b1, b7, b8, b9]; norm_num
    · total_of tot
    · static_of sta (mov 3) 1.5 3 (fun v => if v = .guessPt then 2 else 1) (mov_ok 3 (by norm_num))
  · simp only [duct, if_true, Bool.false_eq_true, if_false, List.cons_append, List.nil_append, List.mem_cons,
      List.not_mem_nil, or_false] at hs
    rcases hs with rfl | rfl | rfl | rfl | rfl | rfl
    · exact trivial
    · simp only [Wiring.rd, Wiring.wr, NC.rd, NC.wr, NC.inSrc_eq, NC.outOf_eq, a1, a2, a3, Duct.lossMap, if_true]
      rw [b3, b4, b5]; norm_num
    · simp only [pressureLoss, Wiring.rd, Wiring.wr, NC.rd, NC.wr, NC.inSrc_eq, NC.outOf_eq, c1, c2, c3, Duct.ptOut]
      rw [b2, b4, b6]; norm_num
    · simp only [Wiring.rd, Wiring.wr, NC.rd, NC.wr, NC.inSrc_eq, NC.outOf_eq, h1, h2, h3, h4, Duct.htOut]
      rw [b1, b7, b8, b9]; norm_num
    · total_of tot
    · static_of sta (mov 3) 1.5 3 (fun v => if v = .guessPt then 2 else 1) (mov_ok 3 (by norm_num))

theorem heated_flowing : Flowing heated "Fl_O:tot" "Fl_O:stat" :=
  flowing (mov_ok 3 (by norm_num)) rfl rfl rfl rfl rfl rfl rfl

example : ∃ E', Redesign (duct unitGas true true 2 false) (duct unitGas false true 2 false) areaConns heated E' :=
  C59_duct unitGas 2 heated (heated_converged false) heated_flowing

example : ∃ E', Redesign (duct unitGas true true 2 true) (duct unitGas false true 2 true)
    (areaConns ++ [("s_dPqP", "s_dPqP")]) heated E' :=
  C59_duct_map unitGas 2 heated (heated_converged true) heated_flowing (by
    have : heated.num "Fl_I:stat:MN" = 2 := rfl
    rw [this]; norm_num)

example : ∃ E', Redesign (splitter unitGas true true) (splitter unitGas false true) splitterConns parted E' :=
  C59_splitter unitGas parted parted_converged (flowing (mov_ok 1 (by norm_num)) rfl rfl rfl rfl rfl rfl rfl)
    (flowing (mov_ok 2 (by norm_num)) rfl rfl rfl rfl rfl rfl rfl)

example : ∃ E', Redesign (mixer unitGas (.tab 1) true true) (mixer unitGas (.tab 1) true false) (mixerConns true)
    C51Example.mixed E' :=
  C59_mixer unitGas (.tab 1) true _ C51Example.mixed_converged
    (flowing (mov_ok 1 (by norm_num)) rfl rfl rfl rfl rfl rfl rfl) (by
      show (1 : ℝ) < 1.5
      norm_num)

example : ∃ E', Redesign (bleedOut unitGas C53Example.two true true) (bleedOut unitGas C53Example.two false true) areaConns
    C53Example.bled E' :=
  C59_bleed_out unitGas C53Example.two_ok (by decide) _ C53Example.bled_converged
    (flowing (mov_ok 2 (by norm_num)) rfl rfl rfl rfl rfl rfl rfl)

set_option maxHeartbeats 1000000 in
example : ∃ E', Redesign (compressor unitGas cmap C55Example.two true true) (compressor unitGas cmap C55Example.two false true)
    compressorConns C55Example.squeezed E' :=
  C59_compressor unitGas cmap C55Example.two_ok _ C55Example.squeezed_converged
    (flowing (m := mov (C55Example.w / 2)) (mov_ok _ (div_ne_zero C55Example.w_ne two_ne_zero)) rfl rfl rfl rfl rfl rfl rfl) (by
      show Map.Usable (cmap.at 0 2 2)
      simp [Map.Usable, Map.CMap.at, cmap]; norm_num)

set_option maxHeartbeats 1000000 in
example : ∃ E', Redesign (turbine unitGas (fun _ => unitGas) tmap (.tab 1) C56Example.two true true)
    (turbine unitGas (fun _ => unitGas) tmap (.tab 1) C56Example.two false true) turbineConns C56Example.spun E' :=
  C59_turbine unitGas _ tmap (.tab 1) C56Example.two_ok _ C56Example.spun_converged
    (flowing (mov_ok 160 (by norm_num)) rfl rfl rfl rfl rfl rfl rfl) (by
      show Map.Usable (tmap.at 0 2 3)
      simp [Map.Usable, Map.TMap.at, tmap]; norm_num)

/-! ## The engine -/

example : ∃ E E', (C58Example.engine true).Solved E ∧ (C58Example.engine false).Solved E'
    ∧ 0 < E.num "perf.Fn" ∧ ∀ p ∈ turbojetConns, E'.num p.2 = E.num p.1 := by
  obtain ⟨dTs, rho, hs⟩ := C58Example.solved
  obtain ⟨E', h1, h2, -⟩ := C59_turbojet (a := .tab 1 0) trivial (hs true)
    (flowing C58Example.ok1 rfl rfl rfl rfl rfl rfl rfl) (flowing C58Example.ok3 rfl rfl rfl rfl rfl rfl rfl)
    (flowing C58Example.ok4 rfl rfl rfl rfl rfl rfl rfl) (flowing C58Example.ok5 rfl rfl rfl rfl rfl rfl rfl)
    (by
      show Map.Usable (cmap.at 0 2 2)
      simp [Map.Usable, Map.CMap.at, cmap]; norm_num)
    (by
      show Map.Usable (tmap.at 0 2 3)
      simp [Map.Usable, Map.TMap.at, tmap]; norm_num)
  exact ⟨_, E', hs true, h1, (C58Example.guards dTs rho true).1, h2⟩

end C59Example
end PyCycle.OM
