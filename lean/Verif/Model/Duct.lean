import Mathlib.Analysis.SpecialFunctions.Pow.Real

/-! # Duct components (pycycle/elements/duct.py:13-108, 149-207) -/

namespace PyCycle.Duct

/-- Variables of `MachPressureLossMap` (duct.py:26-39): `loss` = `dPqP`, `s` = `s_dPqP`; one of the
two is the output depending on `design`. -/
inductive I | MN_in | given
  deriving DecidableEq

/-- `MachPressureLossMap.compute` (duct.py:41-48); `given` is `dPqP` in design mode (output
`s_dPqP`), and `s_dPqP` off-design (output `dPqP`). -/
noncomputable def lossMap (design : Bool) (expMN : ℝ) (x : I → ℝ) : ℝ :=
  if design then x .given / x .MN_in ^ expMN else x .given * x .MN_in ^ expMN

/-- `MachPressureLossMap.compute_partials` (duct.py:50-59). -/
noncomputable def lossMapJ (design : Bool) (expMN : ℝ) (x : I → ℝ) : I → ℝ
  | .given => if design then 1 / x .MN_in ^ expMN else x .MN_in ^ expMN
  | .MN_in => if design then -expMN * x .given * x .MN_in ^ (-expMN - 1)
      else expMN * x .given * x .MN_in ^ (expMN - 1)

/-- Inputs of `PressureLoss` (duct.py:68-70). -/
inductive PI | dPqP | Pt_in
  deriving DecidableEq
/-- `PressureLoss.compute` (duct.py:77-78). -/
noncomputable def ptOut (x : PI → ℝ) : ℝ := x .Pt_in * (1 - x .dPqP)
/-- `PressureLoss.compute_partials` (duct.py:80-82). -/
noncomputable def ptOutJ (x : PI → ℝ) : PI → ℝ
  | .dPqP => -x .Pt_in
  | .Pt_in => 1 - x .dPqP

/-- Inputs of `qCalc` (duct.py:92-95). -/
inductive QI | W_in | Q_dot | ht_in
  deriving DecidableEq
/-- `qCalc.compute` (duct.py:102-103). -/
noncomputable def htOut (x : QI → ℝ) : ℝ := x .ht_in + x .Q_dot / x .W_in
/-- `qCalc.compute_partials` (duct.py:105-108). -/
noncomputable def htOutJ (x : QI → ℝ) : QI → ℝ
  | .W_in => -x .Q_dot / x .W_in ^ 2
  | .Q_dot => 1 / x .W_in
  | .ht_in => 1

/-- External inputs of a `Duct` as far as the losses are concerned. The default values are those of
`add_input` (duct.py:29, 35, 68, 94), i.e. zero. -/
structure DuctIn where
  Pt : ℝ
  ht : ℝ
  W : ℝ
  MN : ℝ
  Q_dot : ℝ := 0
  dPqP : ℝ := 0
  s_dPqP : ℝ := 0

open Classical in
/-- Loss seen by `p_loss` in a duct (duct.py:180-192). With an exponent above `1e-10` the off-design
loss comes from the map, otherwise (and always in design) it is the input `dPqP`. -/
noncomputable def loss (design : Bool) (expMN : ℝ) (d : DuctIn) : ℝ :=
  if expMN > 1e-10 then
    (if design then d.dPqP
     else lossMap false expMN (fun | .MN_in => d.MN | .given => d.s_dPqP))
  else d.dPqP

open Classical in
/-- The output `s_dPqP` of a design duct, if it exists (duct.py:180-184). -/
noncomputable def scalar (expMN : ℝ) (d : DuctIn) : Option ℝ :=
  if expMN > 1e-10 then
    some (lossMap true expMN (fun | .MN_in => d.MN | .given => d.dPqP))
  else none

/-- Total pressure and enthalpy handed to the outlet thermo (duct.py:190-207). -/
noncomputable def outlet (design : Bool) (expMN : ℝ) (d : DuctIn) : ℝ × ℝ :=
  (ptOut (fun | .dPqP => loss design expMN d | .Pt_in => d.Pt),
   htOut (fun | .W_in => d.W | .Q_dot => d.Q_dot | .ht_in => d.ht))

/-- `default_des_od_conns` (duct.py:157-160): targets that a default design→off-design connection
sets. -/
def defaultTargets : List String := ["area"]

/-- Off-design inputs after `pyc_use_default_des_od_conns`: only the listed targets get the design
values; `Q_dot`, `dPqP` and `s_dPqP` keep their defaults unless named. -/
noncomputable def defaultOffDesign (expMN : ℝ) (des flow : DuctIn) : DuctIn :=
  { Pt := flow.Pt, ht := flow.ht, W := flow.W, MN := flow.MN
    s_dPqP := if "s_dPqP" ∈ defaultTargets then (scalar expMN des).getD 0 else 0 }

end PyCycle.Duct
