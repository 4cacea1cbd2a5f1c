import Verif.Model.Maps

/-! # Table interpolation for the shipped maps

`CompressorMap` and `TurbineMap` read a map with `om.MetaModelStructuredComp(method='slinear',
extrapolate=False)` (compressor_map.py:163-183, turbine_map.py:107-127). The interpolation is
OpenMDAO's: piecewise linear along each axis in turn, first axis outermost. It is modelled here as
dependency behaviour; outside the grid OpenMDAO raises, so no theorem speaks about such points. -/

namespace PyCycle.MapData

/-- Piecewise-linear interpolation of the values `ys` on the grid `xs` (method `'slinear'` along one
axis). Beyond the last node the last segment is continued; no theorem uses that. -/
def lin {K : Type*} [Field K] [LinearOrder K] : List K → List K → K → K
  | x₀ :: x₁ :: xs, y₀ :: y₁ :: ys, x =>
      if x ≤ x₁ ∨ xs = [] then y₀ + (x - x₀) * ((y₁ - y₀) / (x₁ - x₀))
      else lin (x₁ :: xs) (y₁ :: ys) x
  | _, y :: _, _ => y
  | _, [], _ => 0

/-- Interpolation in a table with three axes (compressor_map.py:176-180, turbine_map.py:120-125:
the axes are added in the order of `param_data`). -/
def lin3 {K : Type*} [Field K] [LinearOrder K] (as ns rs : List K) (t : List (List (List K)))
    (a n r : K) : K :=
  lin as (t.map fun p => lin ns (p.map fun row => lin rs row r) n) a

/-- The literals of a compressor map file: axes, defaults, stall line, tables. -/
structure CTable where
  alpha : List ℚ
  N : List ℚ
  R : List ℚ
  dAlpha : ℚ
  dN : ℚ
  dR : ℚ
  stall : ℚ
  W : List (List (List ℚ))
  eff : List (List (List ℚ))
  PR : List (List (List ℚ))

/-- The literals of a turbine map file. -/
structure TTable where
  alpha : List ℚ
  N : List ℚ
  PR : List ℚ
  dAlpha : ℚ
  dN : ℚ
  dPR : ℚ
  W : List (List (List ℚ))
  eff : List (List (List ℚ))

/-- A list of literals as real numbers. -/
def real (l : List ℚ) : List ℝ := l.map fun q : ℚ => (q : ℝ)

/-- A table of literals as real numbers. -/
def real3 (t : List (List (List ℚ))) : List (List (List ℝ)) := t.map fun p => p.map real

/-- `x` lies on the axis `xs`, between its first and last node. Elsewhere OpenMDAO raises
(`extrapolate=False`, compressor_map.py:174, turbine_map.py:119). -/
def Span (xs : List ℝ) (x : ℝ) : Prop := xs.headD 0 ≤ x ∧ x ≤ xs.getLastD 0

/-- The map functions of a compressor table (compressor_map.py:175-180). -/
noncomputable def CTable.map (t : CTable) : Map.CMap where
  PR := lin3 (real t.alpha) (real t.N) (real t.R) (real3 t.PR)
  eff := lin3 (real t.alpha) (real t.N) (real t.R) (real3 t.eff)
  W := lin3 (real t.alpha) (real t.N) (real t.R) (real3 t.W)
  RlineStall := t.stall

/-- The points a compressor map can be read at. -/
def CTable.InRange (t : CTable) (a N R : ℝ) : Prop :=
  Span (real t.alpha) a ∧ Span (real t.N) N ∧ Span (real t.R) R

/-- The points a turbine map can be read at. -/
def TTable.InRange (t : TTable) (a N PR : ℝ) : Prop :=
  Span (real t.alpha) a ∧ Span (real t.N) N ∧ Span (real t.PR) PR

/-- The map functions of a turbine table (turbine_map.py:120-125). -/
noncomputable def TTable.map (t : TTable) : Map.TMap where
  eff := lin3 (real t.alpha) (real t.N) (real t.PR) (real3 t.eff)
  W := lin3 (real t.alpha) (real t.N) (real t.PR) (real3 t.W)

end PyCycle.MapData
