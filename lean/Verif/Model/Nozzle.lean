import Mathlib.Analysis.Real.Sqrt
import Verif.Model.ElementBase

/-! # `Nozzle` (pycycle/elements/nozzle.py:11-465) -/

namespace PyCycle.Noz

/-- `g_c` (pycycle/constants.py:64). -/
noncomputable def g_c : ℝ := 32.174

/-! ## PR_bal -/

/-- `PR_bal.apply_nonlinear` (nozzle.py:28-29). -/
def prResid (Ps_exhaust Ps_calc : ℝ) : ℝ := Ps_exhaust - Ps_calc

/-- The `lower` bound of `PR` (nozzle.py:23), enforced by the line search (nozzle.py:459-460). -/
noncomputable def prLower : ℝ := 1.000001

/-! ## PressureCalcs -/

/-- Inputs (nozzle.py:42-44). -/
inductive PI | Pt_in | PR | dPqP
  deriving DecidableEq

/-- Outputs (nozzle.py:47-48). -/
inductive PO | Pt_th | Ps_calc
  deriving DecidableEq

/-- `PressureCalcs.compute` (nozzle.py:53-55). -/
noncomputable def press (x : PI → ℝ) : PO → ℝ
  | .Pt_th => x .Pt_in * (1 - x .dPqP)
  | .Ps_calc => (x .Pt_in * (1 - x .dPqP)) / x .PR

/-- `PressureCalcs.compute_partials` (nozzle.py:57-62). `PR**-2.` is modelled by an integer power. -/
noncomputable def pressJ (x : PI → ℝ) : PO → PI → ℝ
  | .Pt_th, .Pt_in => 1 - x .dPqP
  | .Pt_th, .dPqP => -x .Pt_in
  | .Ps_calc, .Pt_in => (1 - x .dPqP) / x .PR
  | .Ps_calc, .PR => -x .Pt_in * (1 - x .dPqP) * x .PR ^ (-2 : ℤ)
  | .Ps_calc, .dPqP => -x .Pt_in / x .PR
  | _, _ => 0

/-! ## PerformanceCalcs -/

/-- The accepted values of the option `lossCoef`. -/
inductive Loss | Cfg | Cv
  deriving DecidableEq

/-- The check in `PerformanceCalcs.setup` (nozzle.py:75-78); `none` is the `ValueError`. -/
def lossOf (s : String) : Option Loss :=
  if ¬ (s = "Cfg" ∨ s = "Cv") then none
  else if s = "Cfg" then some .Cfg else some .Cv

/-- Inputs (nozzle.py:81-94). -/
inductive FI
  | W_in | Ps_calc | V_ideal | Cfg | Cv | Cang | CmixCorr | V_actual | A_actual | Ps_actual
  deriving DecidableEq

/-- Outputs (nozzle.py:97-98). -/
inductive FO | Fg_ideal | Fg
  deriving DecidableEq

/-- `PerformanceCalcs.compute` (nozzle.py:108-118). -/
noncomputable def perf (l : Loss) (x : FI → ℝ) : FO → ℝ
  | .Fg_ideal => (x .W_in / g_c) * x .V_ideal
  | .Fg => match l with
    | .Cfg => (x .W_in / g_c) * x .V_ideal * x .Cfg
    | .Cv => (x .W_in / g_c) * x .V_actual * x .Cv * x .Cang * x .CmixCorr
        + (x .Ps_actual - x .Ps_calc) * x .A_actual

/-- `PerformanceCalcs.compute_partials` (nozzle.py:120-138). -/
noncomputable def perfJ (l : Loss) (x : FI → ℝ) : FO → FI → ℝ
  | .Fg_ideal, .W_in => 1 / g_c * x .V_ideal
  | .Fg_ideal, .V_ideal => x .W_in / g_c
  | .Fg, i => match l with
    | .Cfg => match i with
      | .W_in => 1 / g_c * x .V_ideal * x .Cfg
      | .V_ideal => x .W_in / g_c * x .Cfg
      | .Cfg => (x .W_in / g_c) * x .V_ideal
      | _ => 0
    | .Cv => match i with
      | .W_in => 1 / g_c * x .V_actual * x .Cv * x .Cang * x .CmixCorr
      | .V_actual => (x .W_in / g_c) * x .Cv * x .Cang * x .CmixCorr
      | .Cv => (x .W_in / g_c) * x .V_actual * x .Cang * x .CmixCorr
      | .Cang => (x .W_in / g_c) * x .V_actual * x .Cv * x .CmixCorr
      | .CmixCorr => (x .W_in / g_c) * x .V_actual * x .Cv * x .Cang
      | .Ps_actual => x .A_actual
      | .Ps_calc => -x .A_actual
      | .A_actual => x .Ps_actual - x .Ps_calc
      | _ => 0
  | _, _ => 0

/-! ## Mux -/

/-- `self.flow_out` (nozzle.py:196). -/
inductive Pr | h | T | P | rho | gamma | Cp | Cv | V | Vsonic | MN | area | W
  deriving DecidableEq

/-- The accepted nozzle types. -/
inductive NozzType | CV | CD | CD_CV
  deriving DecidableEq

/-- The check in `Mux.setup` (nozzle.py:156-158) followed by the string comparisons of `compute`;
`none` is the `ValueError`. -/
def nozzOf (s : String) : Option NozzType :=
  if s ∉ ["CV", "CD", "CD_CV"] then none
  else if s = "CV" then some .CV else if s = "CD" then some .CD else some .CD_CV

/-- Inputs of `Mux` (nozzle.py:161-176). -/
inductive MI | Ps_calc | S | ps (p : Pr) | mn (p : Pr)
  deriving DecidableEq

/-- Outputs of `Mux` (nozzle.py:179-194). -/
inductive MO | choked | throat (p : Pr) | throatS | out (p : Pr) | outS
  deriving DecidableEq

open Classical in
/-- The prefix chosen in `compute` (nozzle.py:218-221, 239-242). -/
noncomputable def pick (x : MI → ℝ) : Pr → ℝ :=
  if x .Ps_calc < x (.mn .P) then fun p => x (.mn p) else fun p => x (.ps p)

/-- `Mux.compute` (nozzle.py:212-249). No branch assigns `choked`, so it keeps its initial value:
`add_output('choked', shape=1)` has OpenMDAO's default value 1.0. -/
noncomputable def mux (k : NozzType) (x : MI → ℝ) : MO → ℝ
  | .choked => 1
  | .throatS => x .S
  | .outS => x .S
  | .throat p => match k with
    | .CV => pick x p
    | .CD => x (.mn p)
    | .CD_CV => pick x p
  | .out p => match k with
    | .CV => pick x p
    | .CD => x (.ps p)
    | .CD_CV => x (.ps p)

open Classical in
/-- `Mux.compute_partials` (nozzle.py:251-297) with the sparsity of lines 198-210. -/
noncomputable def muxJ (k : NozzType) (x : MI → ℝ) : MO → MI → ℝ
  | .throatS, .S => 1
  | .outS, .S => 1
  | .throat p, .mn q => if p = q then
      (match k with
        | .CD => 1
        | _ => if x .Ps_calc < x (.mn .P) then 1 else 0) else 0
  | .throat p, .ps q => if p = q then
      (match k with
        | .CD => 0
        | _ => if x .Ps_calc < x (.mn .P) then 0 else 1) else 0
  | .out p, .mn q => if p = q then
      (match k with
        | .CV => if x .Ps_calc < x (.mn .P) then 1 else 0
        | _ => 0) else 0
  | .out p, .ps q => if p = q then
      (match k with
        | .CV => if x .Ps_calc < x (.mn .P) then 0 else 1
        | _ => 1) else 0
  | _, _ => 0

/-! ## The nozzle group -/

/-- Inflow, ambient pressure and coefficients of a nozzle (nozzle.py:330-344, 437-440). -/
structure NozIn where
  W : ℝ
  ht : ℝ
  Pt : ℝ
  S : ℝ
  Ps_exhaust : ℝ
  dPqP : ℝ
  Cfg : ℝ := 1
  Cv : ℝ := 1

/-- The thermodynamics solvers used by the group, as arbitrary functions:
`totS h P` is the entropy found by the `total_hP` solver (nozzle.py:347-355), `statMN ht S W MN` and
`statPs ht S W Ps` the static states of the two static solvers (nozzle.py:358-399). Composition is
the inflow's everywhere (nozzle.py:352, 364, 381, 397) and is left implicit. -/
structure Therm where
  totS : ℝ → ℝ → ℝ
  statMN : ℝ → ℝ → ℝ → ℝ → Pr → ℝ
  statPs : ℝ → ℝ → ℝ → ℝ → Pr → ℝ

/-- Inputs of `press_calcs` (nozzle.py:341-344). -/
def NozIn.pressIn (n : NozIn) (PR : ℝ) : PI → ℝ
  | .Pt_in => n.Pt | .PR => PR | .dPqP => n.dPqP

/-- `Pt_th` and `Ps_calc` of the group. -/
noncomputable def NozIn.Pt_th (n : NozIn) (PR : ℝ) : ℝ := press (n.pressIn PR) .Pt_th

/-- See `NozIn.Pt_th`. -/
noncomputable def NozIn.Ps_calc (n : NozIn) (PR : ℝ) : ℝ := press (n.pressIn PR) .Ps_calc

/-- Inputs of `mux` (nozzle.py:405-432): `MN:W` and `Ps:W` are the inflow, `Ps:P` is `Ps_calc`,
`MN:MN` is the constant 1.0 (nozzle.py:326, 431), everything else comes from the two static states
at the throat entropy. -/
noncomputable def NozIn.muxIn (n : NozIn) (th : Therm) (PR : ℝ) : MI → ℝ
  | .Ps_calc => n.Ps_calc PR
  | .S => th.totS n.ht (n.Pt_th PR)
  | .ps .W => n.W
  | .ps .P => n.Ps_calc PR
  | .ps p => th.statPs n.ht (th.totS n.ht (n.Pt_th PR)) n.W (n.Ps_calc PR) p
  | .mn .W => n.W
  | .mn .MN => 1
  | .mn p => th.statMN n.ht (th.totS n.ht (n.Pt_th PR)) n.W 1 p

/-- Inputs of `perf_calcs` (nozzle.py:435-449). `Cang` and `CmixCorr` are not promoted and keep
their default 1.0. With `lossCoef = 'Cfg'` the `*_actual` inputs do not exist. -/
noncomputable def NozIn.perfIn (n : NozIn) (th : Therm) (k : NozzType) (PR : ℝ) : FI → ℝ
  | .W_in => n.W
  | .Ps_calc => n.Ps_calc PR
  | .V_ideal => th.statPs n.ht n.S n.W (n.Ps_calc PR) .V
  | .Cfg => n.Cfg
  | .Cv => n.Cv
  | .Cang => 1
  | .CmixCorr => 1
  | .V_actual => mux k (n.muxIn th PR) (.out .V)
  | .A_actual => mux k (n.muxIn th PR) (.out .area)
  | .Ps_actual => mux k (n.muxIn th PR) (.out .P)

/-- A converged nozzle: the pressure-ratio residual vanishes within the bound. -/
def NozIn.Converged (n : NozIn) (PR : ℝ) : Prop :=
  prLower ≤ PR ∧ prResid n.Ps_exhaust (n.Ps_calc PR) = 0

end PyCycle.Noz
