import Mathlib.Analysis.SpecialFunctions.Pow.Real

/-! # Inlet components (pycycle/elements/inlet.py:16-89) -/

namespace PyCycle.Inlet

/-- `g_c` (constants.py:60). -/
noncomputable def g_c : ℝ := 32.174

/-- Inputs of `MilSpecRecovery` (inlet.py:23-24). -/
inductive I | MN | base
  deriving DecidableEq

open Classical in
/-- `MilSpecRecovery.compute` (inlet.py:31-43). -/
noncomputable def recovery (x : I → ℝ) : ℝ :=
  if x .MN < 1 then x .base
  else if x .MN ≥ 1 ∧ x .MN < 5 then x .base * (1 - 0.075 * (x .MN - 1) ^ (1.35 : ℝ))
  else 800 / (x .MN ^ 4 + 935)

open Classical in
/-- `MilSpecRecovery.compute_partials` (inlet.py:45-60). -/
noncomputable def J (x : I → ℝ) : I → ℝ
  | .base =>
    if x .MN < 1 then 1
    else if x .MN ≥ 1 ∧ x .MN < 5 then 1 - 0.075 * (x .MN - 1) ^ (1.35 : ℝ)
    else 0
  | .MN =>
    if x .MN < 1 then 0
    else if x .MN ≥ 1 ∧ x .MN < 5 then -0.10125 * x .base * (x .MN - 1) ^ (0.35 : ℝ)
    else -(3200 * x .MN ^ 3) / (x .MN ^ 4 + 935) ^ 2

/-- Inputs of `Calcs` (inlet.py:69-72). -/
inductive CI | Pt_in | ram_recovery | V_in | W_in
  deriving DecidableEq
/-- Outputs of `Calcs` (inlet.py:75-76). -/
inductive CO | Pt_out | F_ram
  deriving DecidableEq

/-- `Calcs.compute` (inlet.py:81-83). -/
noncomputable def calcs (x : CI → ℝ) : CO → ℝ
  | .Pt_out => x .Pt_in * x .ram_recovery
  | .F_ram => x .W_in * x .V_in / g_c

/-- `Calcs.compute_partials` (inlet.py:85-89). -/
noncomputable def calcsJ (x : CI → ℝ) : CO → CI → ℝ
  | .Pt_out, .Pt_in => x .ram_recovery
  | .Pt_out, .ram_recovery => x .Pt_in
  | .F_ram, .V_in => x .W_in / g_c
  | .F_ram, .W_in => x .V_in / g_c
  | _, _ => 0

end PyCycle.Inlet
