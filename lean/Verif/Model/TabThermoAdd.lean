import Mathlib.Data.Real.Basic
import Mathlib.Algebra.BigOperators.Fin

/-! # `ThermoAdd.compute` of the TABULAR method
(pycycle/thermo/tabular/thermo_add.py:90-144)

A composition is a vector of `<additive>`-to-air mass ratios (line 99). -/

namespace PyCycle
open Finset

/-- `W_air_in = W_in/(1+np.sum(compo_in))` (tabular/thermo_add.py:100, 135). -/
noncomputable def tabAir {n : Nat} (W : ℝ) (compo : Fin n → ℝ) : ℝ := W / (1 + ∑ i, compo i)

/-- Running values of the loops: `W_other_out`, `W_air_out`, `W_out`, `W_times_h`. -/
structure TabAcc (n : Nat) where
  other : Fin n → ℝ
  air : ℝ
  W : ℝ
  hW : ℝ

/-- Outputs `composition_out`, `Wout`, `mass_avg_h`. -/
structure TabOut (n : Nat) where
  comp : Fin n → ℝ
  W : ℝ
  h : ℝ

/-- tabular/thermo_add.py:98-111. -/
noncomputable def tabStart {n : Nat} (W h : ℝ) (compo : Fin n → ℝ) : TabAcc n where
  other := fun i => tabAir W compo * compo i
  air := tabAir W compo
  W := W
  hW := W * h

/-- A reactant port: its `ratio` and `h` inputs. -/
structure TabReactant where
  ratio : ℝ
  h : ℝ

/-- `{mix_name}:W` in reactant mode (tabular/thermo_add.py:118-120). -/
noncomputable def tabReactantW {n : Nat} (W : ℝ) (compo : Fin n → ℝ) (r : TabReactant) : ℝ :=
  tabAir W compo * r.ratio

/-- `compute` in reactant mode (tabular/thermo_add.py:98-127); `idx` is `idx_compo`. -/
noncomputable def tabReactantCompute {n : Nat} (W h : ℝ) (compo : Fin n → ℝ) (idx : Fin n)
    (rs : List TabReactant) : TabOut n :=
  let a := rs.foldl (fun a r =>
    let Wm := tabReactantW W compo r
    { a with
      other := fun i => if i = idx then a.other i + Wm else a.other i      -- 121
      W := a.W + Wm                                                       -- 122
      hW := a.hW + Wm * r.h }) (tabStart W h compo)                       -- 123
  { comp := fun i => a.other i / tabAir W compo, W := a.W, h := a.hW / a.W }   -- 125-127

/-- A flow port: its `composition`, `W` and `h` inputs. -/
structure TabStream (n : Nat) where
  comp : Fin n → ℝ
  W : ℝ
  h : ℝ

/-- `compute` in flow mode (tabular/thermo_add.py:98-111, 131-144). -/
noncomputable def tabFlowCompute {n : Nat} (W h : ℝ) (compo : Fin n → ℝ)
    (ss : List (TabStream n)) : TabOut n :=
  let a := ss.foldl (fun a s =>
    { other := fun i => a.other i + tabAir s.W s.comp * s.comp i      -- 135-136
      W := a.W + s.W                                                  -- 137
      air := a.air + tabAir s.W s.comp                                -- 138
      hW := a.hW + s.W * s.h }) (tabStart W h compo)                  -- 139
  { comp := fun i => a.other i / a.air, W := a.W, h := a.hW / a.W }   -- 142-144

end PyCycle
