import Mathlib.Analysis.SpecialFunctions.Pow.Real
import Mathlib.Analysis.SpecialFunctions.Log.Basic
import Mathlib.Data.List.FinRange

/-! # Compressor components (pycycle/elements/compressor.py:18-587) -/

namespace PyCycle

/-- `BTU_s2HP` (pycycle/constants.py:55). -/
noncomputable def BTU_s2HP : ℝ := 1.4148532
/-- `HP_per_RPM_to_FT_LBF` (pycycle/constants.py:56). -/
noncomputable def HP_per_RPM_to_FT_LBF : ℝ := 5252.11
/-- `T_STDeng` (pycycle/constants.py:66). -/
noncomputable def T_STDeng : ℝ := 518.67
/-- `P_STDeng` (pycycle/constants.py:67). -/
noncomputable def P_STDeng : ℝ := 14.695951

namespace Comp

/-! ## CorrectedInputsCalc -/

/-- Inputs (compressor.py:23-27; the same in turbine.py:23-27). -/
inductive CI | Tt | Pt | W_in | Nmech
  deriving DecidableEq

/-- Outputs (compressor.py:29-32). -/
inductive CO | Wc | Nc
  deriving DecidableEq

/-- The attributes `self.delta`, `self.W`, `self.theta` written by `compute`
(compressor.py:39-41) and read by `compute_partials` (48-55). -/
structure Cache where
  delta : ℝ
  W : ℝ
  theta : ℝ

/-- What `compute` stores (compressor.py:39-41). -/
noncomputable def cacheOf (x : CI → ℝ) : Cache := ⟨x .Pt / P_STDeng, x .W_in, x .Tt / T_STDeng⟩

/-- `CorrectedInputsCalc.compute` (compressor.py:37-44); exponents are reals. -/
noncomputable def corr (x : CI → ℝ) : CO → ℝ
  | .Wc => (cacheOf x).W * (cacheOf x).theta ^ (0.5 : ℝ) / (cacheOf x).delta
  | .Nc => x .Nmech * (cacheOf x).theta ^ (-0.5 : ℝ)

/-- `CorrectedInputsCalc.compute_partials` (compressor.py:46-55): reads the attributes left by the
last `compute`, and `Nmech` from its own inputs. -/
noncomputable def corrJ (c : Cache) (x : CI → ℝ) : CO → CI → ℝ
  | .Wc, .Tt => 0.5 * c.W / c.delta * c.theta ^ (-0.5 : ℝ) / T_STDeng
  | .Wc, .Pt => -c.W * c.theta ^ (0.5 : ℝ) * c.delta ^ (-2 : ℝ) / P_STDeng
  | .Wc, .W_in => c.theta ^ (0.5 : ℝ) / c.delta
  | .Nc, .Nmech => c.theta ^ (-0.5 : ℝ)
  | .Nc, .Tt => -0.5 * x .Nmech * c.theta ^ (-1.5 : ℝ) / T_STDeng
  | _, _ => 0

/-- A call made by the framework on the component. -/
inductive Call
  | compute (x : CI → ℝ)
  | compute_partials (x : CI → ℝ)

/-- State after a sequence of calls, starting from the given attributes (`none` before the first
`compute`: reading them would raise `AttributeError`). -/
noncomputable def runCalls : Option Cache → List Call → Option Cache
  | c, [] => c
  | _, .compute x :: cs => runCalls (some (cacheOf x)) cs
  | c, .compute_partials _ :: cs => runCalls c cs

/-! ## eff_poly_calc -/

/-- Inputs of `eff_poly_calc` (compressor.py:61-64, turbine.py:66-69). -/
inductive EI | PR | S_in | S_out | Rt
  deriving DecidableEq

/-- Compressor `eff_poly_calc.compute` (compressor.py:69-75). -/
noncomputable def effPoly (x : EI → ℝ) : ℝ :=
  x .Rt * Real.log (x .PR) / (x .Rt * Real.log (x .PR) + x .S_out - x .S_in)

/-- Compressor `eff_poly_calc.compute_partials` (compressor.py:77-88). -/
noncomputable def effPolyJ (x : EI → ℝ) : EI → ℝ
  | .PR => (x .Rt * (x .S_out - x .S_in))
      / (x .PR * (Real.log (x .PR) * x .Rt + x .S_out - x .S_in) ^ 2)
  | .S_in => (Real.log (x .PR) * x .Rt) / (Real.log (x .PR) * x .Rt + x .S_out - x .S_in) ^ 2
  | .S_out => -(Real.log (x .PR) * x .Rt) / (Real.log (x .PR) * x .Rt + x .S_out - x .S_in) ^ 2
  | .Rt => (Real.log (x .PR) * (x .S_out - x .S_in))
      / (Real.log (x .PR) * x .Rt + x .S_out - x .S_in) ^ 2

/-! ## Power -/

/-- Inputs of `Power` (compressor.py:96-101). -/
inductive WI | W | ht_out | ht_in | Nmech
  deriving DecidableEq
/-- Outputs of `Power` (compressor.py:104-105). -/
inductive WO | power | trq
  deriving DecidableEq

/-- `Power.compute` (compressor.py:110-113). -/
noncomputable def power (x : WI → ℝ) : WO → ℝ
  | .power => x .W * (x .ht_in - x .ht_out) * BTU_s2HP
  | .trq => HP_per_RPM_to_FT_LBF * (x .W * (x .ht_in - x .ht_out) * BTU_s2HP) / x .Nmech

/-- `Power.compute_partials` (compressor.py:116-130). -/
noncomputable def powerJ (x : WI → ℝ) : WO → WI → ℝ
  | .power, .W => (x .ht_in - x .ht_out) * BTU_s2HP
  | .power, .ht_out => -x .W * BTU_s2HP
  | .power, .ht_in => x .W * BTU_s2HP
  | .trq, .W => (x .ht_in - x .ht_out) * BTU_s2HP * HP_per_RPM_to_FT_LBF / x .Nmech
  | .trq, .ht_out => -x .W * BTU_s2HP * HP_per_RPM_to_FT_LBF / x .Nmech
  | .trq, .ht_in => x .W * BTU_s2HP * HP_per_RPM_to_FT_LBF / x .Nmech
  | .trq, .Nmech => -x .W * (x .ht_in - x .ht_out) * BTU_s2HP * HP_per_RPM_to_FT_LBF
      * x .Nmech ^ (-2 : ℤ)
  | .power, .Nmech => 0

/-! ## BleedsAndPower -/

variable {n : ℕ}

/-- Inputs of `BleedsAndPower` (compressor.py:141-151, 163-168); `n` bleed names. -/
inductive BI (n : ℕ)
  | W_in | ht_out | ht_in | Pt_out | Pt_in | Nmech
  | frac_W (k : Fin n) | frac_P (k : Fin n) | frac_work (k : Fin n)
  deriving DecidableEq

/-- Outputs of `BleedsAndPower` (compressor.py:153-155, 170-175). -/
inductive BO (n : ℕ) | W_out | power | trq | W (k : Fin n) | Pt (k : Fin n) | ht (k : Fin n)
  deriving DecidableEq

/-- `stat_W` of one bleed (compressor.py:202). -/
def statW (x : BI n → ℝ) (k : Fin n) : ℝ := x .W_in * x (.frac_W k)

/-- `ht` of one bleed (compressor.py:204). -/
def bldHt (x : BI n → ℝ) (k : Fin n) : ℝ := x .ht_in + x (.frac_work k) * (x .ht_out - x .ht_in)

/-- `outputs['W_out']` after the loop (compressor.py:194, 206). -/
def wOut (x : BI n → ℝ) : ℝ :=
  (List.finRange n).foldl (fun acc k => acc - statW x k) (x .W_in)

/-- `outputs['power']` after the loop (compressor.py:195, 207). -/
noncomputable def bldPower (x : BI n → ℝ) : ℝ :=
  (List.finRange n).foldl (fun acc k => acc - statW x k * (bldHt x k - x .ht_out) * BTU_s2HP)
    (x .W_in * (x .ht_in - x .ht_out) * BTU_s2HP)

/-- `BleedsAndPower.compute` (compressor.py:185-212). -/
noncomputable def blds (x : BI n → ℝ) : BO n → ℝ
  | .W_out => wOut x
  | .power => bldPower x
  | .trq => HP_per_RPM_to_FT_LBF * bldPower x / x .Nmech
  | .W k => statW x k
  | .Pt k => x .Pt_in + x (.frac_P k) * (x .Pt_out - x .Pt_in)
  | .ht k => bldHt x k

/-- `BleedsAndPower.compute_partials` (compressor.py:214-287), each accumulator of the loop (235-278)
as its own fold; undeclared pairs are zero. -/
noncomputable def bldsJ (x : BI n → ℝ) : BO n → BI n → ℝ :=
  let ht_in := x .ht_in
  let ht_out := x .ht_out
  let W_in := x .W_in
  let Nmech := x .Nmech
  let B := BTU_s2HP
  let H := HP_per_RPM_to_FT_LBF
  let loop := fun (init : ℝ) (f : Fin n → ℝ) => (List.finRange n).foldl (fun acc k => acc - f k) init
  fun
  | .W_out, .W_in => loop 1 (fun k => x (.frac_W k))
  | .W_out, .frac_W _ => -W_in
  | .power, .W_in => loop ((ht_in - ht_out) * B)
      (fun k => x (.frac_W k) * (1 - x (.frac_work k)) * (ht_in - ht_out) * B)
  | .power, .ht_in => loop (W_in * B)
      (fun k => W_in * x (.frac_W k) * (1 - x (.frac_work k)) * B)
  | .power, .ht_out => loop (-W_in * B)
      (fun k => -W_in * x (.frac_W k) * (1 - x (.frac_work k)) * B)
  | .power, .frac_W k => -W_in * (1 - x (.frac_work k)) * (ht_in - ht_out) * B
  | .power, .frac_work k => W_in * x (.frac_W k) * (ht_in - ht_out) * B
  | .W k, .W_in => x (.frac_W k)
  | .W k, .frac_W j => if k = j then W_in else 0
  | .Pt k, .Pt_in => 1 - x (.frac_P k)
  | .Pt k, .frac_P j => if k = j then x .Pt_out - x .Pt_in else 0
  | .Pt k, .Pt_out => x (.frac_P k)
  | .ht k, .ht_in => 1 - x (.frac_work k)
  | .ht k, .frac_work j => if k = j then ht_out - ht_in else 0
  | .ht k, .ht_out => x (.frac_work k)
  | .trq, .W_in => loop ((ht_in - ht_out) * B * H / Nmech)
      (fun k => x (.frac_W k) * (1 - x (.frac_work k)) * (ht_in - ht_out) * B * H / Nmech)
  | .trq, .ht_in => loop (W_in * B * H / Nmech)
      (fun k => W_in * x (.frac_W k) * (1 - x (.frac_work k)) * B * H / Nmech)
  | .trq, .ht_out => loop (-W_in * B * H / Nmech)
      (fun k => -W_in * x (.frac_W k) * (1 - x (.frac_work k)) * B * H / Nmech)
  | .trq, .frac_W k => -W_in * (1 - x (.frac_work k)) * (ht_in - ht_out) * B * H / Nmech
  | .trq, .frac_work k => W_in * x (.frac_W k) * (ht_in - ht_out) * B * H / Nmech
  | .trq, .Nmech => loop (-W_in * (ht_in - ht_out) * B * H * Nmech ^ (-2 : ℤ))
      (fun k => -W_in * x (.frac_W k) * (1 - x (.frac_work k)) * (ht_in - ht_out) * B * H
        * Nmech ^ (-2 : ℤ))
  | _, _ => 0

/-! ## EnthalpyRise, PressureRise -/

/-- Inputs of `EnthalpyRise` (compressor.py:294-298). -/
inductive HI | ideal_ht | inlet_ht | eff
  deriving DecidableEq

/-- `EnthalpyRise.compute` (compressor.py:305-307). -/
noncomputable def enthRise (x : HI → ℝ) : ℝ := (x .ideal_ht - x .inlet_ht) / x .eff + x .inlet_ht

/-- `EnthalpyRise.compute_partials` (compressor.py:309-315). -/
noncomputable def enthRiseJ (x : HI → ℝ) : HI → ℝ
  | .ideal_ht => 1 / x .eff
  | .inlet_ht => 1 - 1 / x .eff
  | .eff => -(x .ideal_ht - x .inlet_ht) * x .eff ^ (-2 : ℤ)

/-- Inputs of `PressureRise` (compressor.py:322-324). -/
inductive PI | PR | Pt_in
  deriving DecidableEq

/-- `PressureRise.compute` (compressor.py:331-332). -/
def pressRise (x : PI → ℝ) : ℝ := x .PR * x .Pt_in

/-- `PressureRise.compute_partials` (compressor.py:334-336). -/
def pressRiseJ (x : PI → ℝ) : PI → ℝ
  | .Pt_in => x .PR
  | .PR => x .Pt_in

/-! ## The group -/

/-- What a compressor receives: the inflow station, the pressure ratio and efficiency of its map, the
shaft speed and the bleed fractions. -/
structure GIn (n : ℕ) where
  W : ℝ
  ht : ℝ
  Pt : ℝ
  S : ℝ
  R : ℝ
  PR : ℝ
  eff : ℝ
  Nmech : ℝ
  frac_W : Fin n → ℝ
  frac_P : Fin n → ℝ
  frac_work : Fin n → ℝ

/-- The thermodynamics solvers used by the group as arbitrary functions: enthalpy at given entropy and
pressure (`total_SP`, compressor.py:463-470) and entropy at given enthalpy and pressure (`total_hP`,
478-487). The composition is the inflow's throughout (469, 484, 523). -/
structure Therm where
  hSP : ℝ → ℝ → ℝ
  sHP : ℝ → ℝ → ℝ

/-- `press_rise.Pt_out`, which is also `Fl_O:tot:P` (compressor.py:459-460, 487). -/
def GIn.PtOut (g : GIn n) : ℝ := pressRise fun | .PR => g.PR | .Pt_in => g.Pt

/-- `enth_rise.ht_out`, which is also `Fl_O:tot:h` (compressor.py:473-475, 486). -/
noncomputable def GIn.htOut (g : GIn n) (th : Therm) : ℝ :=
  enthRise fun | .ideal_ht => th.hSP g.S g.PtOut | .inlet_ht => g.ht | .eff => g.eff

/-- The inputs of `blds_pwr` (compressor.py:505-511). -/
noncomputable def GIn.bldsIn (g : GIn n) (th : Therm) : BI n → ℝ
  | .W_in => g.W | .ht_out => g.htOut th | .ht_in => g.ht | .Pt_out => g.PtOut | .Pt_in => g.Pt
  | .Nmech => g.Nmech | .frac_W k => g.frac_W k | .frac_P k => g.frac_P k
  | .frac_work k => g.frac_work k

/-- `eff_poly` of the group (compressor.py:489-496): the outlet entropy is that of the real flow. -/
noncomputable def GIn.effPoly (g : GIn n) (th : Therm) : ℝ :=
  Comp.effPoly fun | .PR => g.PR | .S_in => g.S | .S_out => th.sHP (g.htOut th) g.PtOut | .Rt => g.R

end Comp
end PyCycle
