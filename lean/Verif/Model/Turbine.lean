import Verif.Model.Compressor
import Verif.Model.CeaThermoAdd
import Verif.Model.Mixer

/-! # Turbine components (pycycle/elements/turbine.py:19-637) -/

namespace PyCycle.Turb

/-! ## CorrectedInputsCalc, eff_poly_calc -/

/-- Outputs of `CorrectedInputsCalc` (turbine.py:29-32); inputs as in the compressor. -/
inductive CO | Wp | Np
  deriving DecidableEq

/-- `CorrectedInputsCalc.compute` (turbine.py:37-43); the `FloatingPointError` handler (42-43, which
itself raises `NameError` because `AnalysisError` is not imported) is not modelled. -/
noncomputable def corr (x : Comp.CI → ℝ) : CO → ℝ
  | .Wp => x .W_in * x .Tt ^ (0.5 : ℝ) / x .Pt
  | .Np => x .Nmech * x .Tt ^ (-0.5 : ℝ)

/-- `CorrectedInputsCalc.compute_partials` (turbine.py:45-54). -/
noncomputable def corrJ (x : Comp.CI → ℝ) : CO → Comp.CI → ℝ
  | .Wp, .Tt => 0.5 * x .W_in / x .Pt * x .Tt ^ (-0.5 : ℝ)
  | .Wp, .Pt => -x .W_in * x .Tt ^ (0.5 : ℝ) * x .Pt ^ (-2 : ℝ)
  | .Wp, .W_in => x .Tt ^ (0.5 : ℝ) / x .Pt
  | .Np, .Nmech => x .Tt ^ (-0.5 : ℝ)
  | .Np, .Tt => -0.5 * x .Nmech * x .Tt ^ (-1.5 : ℝ)
  | _, _ => 0

/-- Turbine `eff_poly_calc.compute` (turbine.py:78-89). -/
noncomputable def effPoly (x : Comp.EI → ℝ) : ℝ :=
  1 + (x .S_out - x .S_in) / (x .Rt * Real.log (1 / x .PR))

/-- Turbine `eff_poly_calc.compute_partials` (turbine.py:91-112). -/
noncomputable def effPolyJ (x : Comp.EI → ℝ) : Comp.EI → ℝ
  | .PR => -(x .S_in - x .S_out) / (x .PR * x .Rt * Real.log (1 / x .PR) ^ 2)
  | .S_in => -1 / (x .Rt * Real.log (1 / x .PR))
  | .S_out => 1 / (x .Rt * Real.log (1 / x .PR))
  | .Rt => -(x .S_out - x .S_in) / (x .Rt ^ 2 * Real.log (1 / x .PR))

/-! ## PressureDrop, EnthalpyDrop, BleedPressure -/

/-- `PressureDrop.compute` (turbine.py:130-131). -/
noncomputable def pressDrop (x : Comp.PI → ℝ) : ℝ := x .Pt_in / x .PR

/-- `PressureDrop.compute_partials` (turbine.py:133-136). -/
noncomputable def pressDropJ (x : Comp.PI → ℝ) : Comp.PI → ℝ
  | .PR => -x .Pt_in * x .PR ^ (-2 : ℤ)
  | .Pt_in => 1 / x .PR

/-- Inputs of `EnthalpyDrop` (turbine.py:144-148). -/
inductive HI | ht_in | ht_out_ideal | eff
  deriving DecidableEq

/-- `EnthalpyDrop.compute` (turbine.py:156-158). -/
def enthDrop (x : HI → ℝ) : ℝ := x .ht_in - (x .ht_in - x .ht_out_ideal) * x .eff

/-- `EnthalpyDrop.compute_partials` (turbine.py:160-163). -/
def enthDropJ (x : HI → ℝ) : HI → ℝ
  | .ht_in => 1 - x .eff
  | .ht_out_ideal => x .eff
  | .eff => -x .ht_in + x .ht_out_ideal

variable {n : ℕ}

/-- Inputs of `BleedPressure` (turbine.py:180-192). -/
inductive BI (n : ℕ) | Pt_in | Pt_out | frac_P (k : Fin n) | W (k : Fin n)
  deriving DecidableEq

/-- `BleedPressure.compute` (turbine.py:199-208), output `BN:Pt` of bleed `k`. -/
def bldPt (x : BI n → ℝ) (k : Fin n) : ℝ := x .Pt_out + x (.frac_P k) * (x .Pt_in - x .Pt_out)

/-- `BleedPressure.compute_partials` (turbine.py:210-227). -/
def bldPtJ (x : BI n → ℝ) (k : Fin n) : BI n → ℝ
  | .Pt_in => x (.frac_P k)
  | .Pt_out => 1 - x (.frac_P k)
  | .frac_P j => if j = k then x .Pt_in - x .Pt_out else 0
  | .W _ => 0

/-! ## EnthalpyAndPower -/

/-- Inputs of `EnthalpyAndPower` (turbine.py:239-247, 264-269). -/
inductive EI (n : ℕ)
  | W_in | W_out | ht_in | ht_out_ideal | eff | Nmech
  | W (k : Fin n) | ht (k : Fin n) | ht_ideal (k : Fin n)
  deriving DecidableEq

/-- Outputs of `EnthalpyAndPower` (turbine.py:249-254). -/
inductive EO | ht_out_b4bld | ht_out | power | trq
  deriving DecidableEq

/-- `ht_out_b4bld` (turbine.py:289). -/
def b4bld (x : EI n → ℝ) : ℝ := x .ht_in * (1 - x .eff) + x .ht_out_ideal * x .eff

/-- `ht_out` after the loop (turbine.py:290, 299). -/
noncomputable def htOut (x : EI n → ℝ) : ℝ :=
  (List.finRange n).foldl (fun acc k => acc
      + x (.W k) / x .W_out * (x (.ht k) * (1 - x .eff) + x (.ht_ideal k) * x .eff))
    (x .W_in / x .W_out * b4bld x)

/-- `power` after the loop (turbine.py:291, 300). -/
noncomputable def pwr (x : EI n → ℝ) : ℝ :=
  (List.finRange n).foldl (fun acc k => acc
      + x (.W k) * x .eff * (x (.ht k) - x (.ht_ideal k)) * BTU_s2HP)
    (x .W_in * x .eff * (x .ht_in - x .ht_out_ideal) * BTU_s2HP)

/-- `EnthalpyAndPower.compute` (turbine.py:281-306). -/
noncomputable def enthPower (x : EI n → ℝ) : EO → ℝ
  | .ht_out_b4bld => b4bld x
  | .ht_out => htOut x
  | .power => pwr x
  | .trq => pwr x / x .Nmech * HP_per_RPM_to_FT_LBF

/-- `EnthalpyAndPower.compute_partials` (turbine.py:308-365), each accumulator of the loop (339-359)
as its own fold; undeclared pairs are zero. -/
noncomputable def enthPowerJ (x : EI n → ℝ) : EO → EI n → ℝ :=
  let B := BTU_s2HP
  let H := HP_per_RPM_to_FT_LBF
  let ht_in := x .ht_in
  let W_out := x .W_out
  let W_in := x .W_in
  let eff := x .eff
  let hid := x .ht_out_ideal
  let N := x .Nmech
  let loop := fun (init : ℝ) (f : Fin n → ℝ) => (List.finRange n).foldl (fun acc k => acc + f k) init
  fun
  | .ht_out_b4bld, .ht_in => 1 - eff
  | .ht_out_b4bld, .ht_out_ideal => eff
  | .ht_out_b4bld, .eff => hid - ht_in
  | .ht_out, .W_in => (ht_in * (1 - eff) + hid * eff) / W_out
  | .ht_out, .W_out => loop (-W_in / W_out ^ 2 * (ht_in * (1 - eff) + hid * eff))
      (fun k => -x (.W k) / W_out ^ 2 * (x (.ht k) * (1 - eff) + x (.ht_ideal k) * eff))
  | .ht_out, .ht_in => W_in / W_out * (1 - eff)
  | .ht_out, .ht_out_ideal => W_in / W_out * eff
  | .ht_out, .eff => loop (W_in / W_out * (hid - ht_in))
      (fun k => x (.W k) / W_out * (x (.ht_ideal k) - x (.ht k)))
  | .power, .W_in => (ht_in - hid) * eff * B
  | .power, .ht_in => W_in * eff * B
  | .power, .ht_out_ideal => -W_in * eff * B
  | .power, .eff => loop (W_in * (ht_in - hid) * B)
      (fun k => x (.W k) * (x (.ht k) - x (.ht_ideal k)) * B)
  | .trq, .W_in => (ht_in - hid) * eff / N * B * H
  | .trq, .ht_in => W_in * eff / N * B * H
  | .trq, .ht_out_ideal => -W_in * eff / N * B * H
  | .trq, .eff => loop (W_in * (ht_in - hid) / N * B * H)
      (fun k => x (.W k) * (x (.ht k) - x (.ht_ideal k)) / N * B * H)
  | .trq, .Nmech => loop (-W_in * eff * (ht_in - hid) / N ^ 2 * B * H)
      (fun k => -x (.W k) * eff * (x (.ht k) - x (.ht_ideal k)) / N ^ 2 * B * H)
  | .ht_out, .W k => (x (.ht k) * (1 - eff) + x (.ht_ideal k) * eff) / W_out
  | .ht_out, .ht k => x (.W k) / W_out * (1 - eff)
  | .ht_out, .ht_ideal k => x (.W k) / W_out * eff
  | .power, .W k => eff * (x (.ht k) - x (.ht_ideal k)) * B
  | .power, .ht k => x (.W k) * eff * B
  | .power, .ht_ideal k => -x (.W k) * eff * B
  | .trq, .W k => eff * (x (.ht k) - x (.ht_ideal k)) / N * B * H
  | .trq, .ht k => x (.W k) * eff / N * B * H
  | .trq, .ht_ideal k => -x (.W k) * eff / N * B * H
  | _, _ => 0

/-! ## The group -/

/-- What a turbine receives: inflow station, bleed stations, map pressure ratio and efficiency. -/
structure GIn (n : ℕ) where
  W : ℝ
  ht : ℝ
  Pt : ℝ
  S : ℝ
  R : ℝ
  PR : ℝ
  eff : ℝ
  Nmech : ℝ
  bW : Fin n → ℝ
  bht : Fin n → ℝ
  frac_P : Fin n → ℝ

/-- Thermodynamics of the primary stream and of each bleed (each has its own composition,
turbine.py:499, 535, 545, 565), as arbitrary functions: `hSP` enthalpy at entropy and pressure
(`total_SP`), `sHP` entropy at enthalpy and pressure (`total_hP`). -/
structure Therm (n : ℕ) where
  main : Comp.Therm
  bleed : Fin n → Comp.Therm

/-- `press_drop.Pt_out` (turbine.py:493-494), also `Fl_O:tot:P` (586). -/
noncomputable def GIn.PtOut (g : GIn n) : ℝ := pressDrop fun | .PR => g.PR | .Pt_in => g.Pt

/-- `blds.BN:Pt` (turbine.py:516-520). -/
noncomputable def GIn.bPt (g : GIn n) (k : Fin n) : ℝ :=
  bldPt (fun | .Pt_in => g.Pt | .Pt_out => g.PtOut | .frac_P k => g.frac_P k | .W k => g.bW k) k

/-- `BN_ideal.h` (turbine.py:533-550): the bleed is brought to its entry pressure at constant enthalpy
and then expanded at constant entropy to the exit pressure. -/
noncomputable def GIn.bIdeal (g : GIn n) (th : Therm n) (k : Fin n) : ℝ :=
  (th.bleed k).hSP ((th.bleed k).sHP (g.bht k) (g.bPt k)) g.PtOut

/-- The inputs of `pwr_turb` (turbine.py:553-560). `Wout` is the total flow found by `bld_add`,
a `flow` mixer (522-527). -/
noncomputable def GIn.enthIn (g : GIn n) (th : Therm n) (Wout : ℝ) : EI n → ℝ
  | .W_in => g.W | .W_out => Wout | .ht_in => g.ht
  | .ht_out_ideal => th.main.hSP g.S g.PtOut | .eff => g.eff | .Nmech => g.Nmech
  | .W k => g.bW k | .ht k => g.bht k | .ht_ideal k => g.bIdeal th k

/-- `eff_poly` of the group (turbine.py:563-576): the outlet entropy is that of the primary stream
before the bleeds are added. -/
noncomputable def GIn.effPoly (g : GIn n) (th : Therm n) (Wout : ℝ) : ℝ :=
  Turb.effPoly fun
    | .PR => g.PR | .S_in => g.S
    | .S_out => th.main.sHP (enthPower (g.enthIn th Wout) .ht_out_b4bld) g.PtOut | .Rt => g.R

/-- The composition connections of a turbine with inflow elements `f` and bleed elements `bs`
(turbine.py:451-456, 470, 579-587, 590-621): the mixer lists the union, but the outlet's total and
static solvers are built with the inflow's elements. -/
def compConns (f : PyDict ℝ) (bs : List (PyDict ℝ)) : List Mix.CompConn :=
  [⟨f.sortedKeys, f.sortedKeys⟩]                                     -- ideal_flow, real_flow_b4bld
  ++ bs.map (fun b => ⟨b.sortedKeys, b.sortedKeys⟩)                  -- BN_inflow, BN_ideal
  ++ [⟨(mixedFlows f bs).sortedKeys, f.sortedKeys⟩,                  -- real_flow
      ⟨(mixedFlows f bs).sortedKeys, f.sortedKeys⟩]                  -- out_stat

end PyCycle.Turb
