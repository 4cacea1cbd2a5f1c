import Mathlib.Analysis.SpecialFunctions.Log.Basic

/-! # Temperature tables of `Properties` (pycycle/thermo/cea/species_data.py:107-185)

The object caches one coefficient row per product and the temperature interval for which the
cached rows are valid; `H0`, `S0`, ... rebuild the cache only when asked for a temperature
outside that interval. -/

namespace PyCycle

/-- The temperature data of one product: `ranges` and `coeffs` (thermo_data/*.py). -/
structure TempFit where
  ranges : List ℝ
  coeffs : List (List ℝ)

/-- One row of `self.a` (species_data.py:64), ten entries wide. -/
abbrev Row := Fin 10 → ℝ

/-- The cache: `self.a` (one row per product) and `valid_temp_range`. -/
structure Table where
  a : List Row
  low : ℝ
  high : ℝ

open Classical in
/-- `np.searchsorted(tr, T)` (side `left`) on a sorted array: the number of leading entries
below `T` (species_data.py:168). -/
noncomputable def searchsorted (tr : List ℝ) (T : ℝ) : Nat :=
  (tr.takeWhile (fun x => decide (x < T))).length

/-- The clamped interval index `j` of species_data.py:168-172. -/
noncomputable def intervalIdx (tr : List ℝ) (T : ℝ) : Nat :=
  let j := searchsorted tr T
  if j = 0 then 1 else if j = tr.length then j - 1 else j

/-- `self.a[i][:len(data)] = data` (species_data.py:183): entries past the end keep their old
value. -/
def writeRow (old : Row) (data : List ℝ) : Row :=
  fun i => if h : i.val < data.length then data[i.val] else old i

/-- The loop of `build_coeff_table` (species_data.py:161-183) over products paired with their
old rows; returns the new rows and `(max_low, min_high)`. List indexing past the end (an
`IndexError` in Python) defaults to 0/[]; the theorems assume well-formed data. -/
noncomputable def buildLoop (T : ℝ) : List (TempFit × Row) → ℝ → ℝ → Table
  | [], maxLow, minHigh => { a := [], low := maxLow, high := minHigh }
  | (p, old) :: rest, maxLow, minHigh =>
    let j := intervalIdx p.ranges T
    let low := p.ranges.getD (j - 1) 0                     -- 175
    let high := p.ranges.getD j 0
    let t := buildLoop T rest (max low maxLow) (min high minHigh)   -- 176-177
    { t with a := writeRow old (p.coeffs.getD (j - 1) []) :: t.a }  -- 180-183

/-- `build_coeff_table(T)` (species_data.py:153-185). -/
noncomputable def buildTable (ps : List TempFit) (a : List Row) (T : ℝ) : Table :=
  buildLoop T (ps.zip a) (-(10 ^ 50)) (10 ^ 50)

/-- The state after `__init__` (species_data.py:64, 107): zero rows, then
`build_coeff_table(999)`. -/
noncomputable def initTable (ps : List TempFit) : Table :=
  buildTable ps (ps.map (fun _ => (fun _ => 0))) 999

open Classical in
/-- The refresh performed at the start of every evaluation method (species_data.py:112-113,
119-120, 127-128, 134-135, 141-142, 148-149). -/
noncomputable def refresh (ps : List TempFit) (t : Table) (T : ℝ) : Table :=
  if T < t.low ∨ t.high < T then buildTable ps t.a T else t

/-- `H0` for one coefficient row (species_data.py:115). -/
noncomputable def h0 (a : Row) (T : ℝ) : ℝ :=
  -a 0 / T ^ 2 + a 1 / T * Real.log T + a 2 + a 3 * T / 2 + a 4 * T ^ 2 / 3 + a 5 * T ^ 3 / 4
    + a 6 * T ^ 4 / 5 + a 7 / T

/-- `S0` for one coefficient row (species_data.py:122). -/
noncomputable def s0 (a : Row) (T : ℝ) : ℝ :=
  -a 0 / (2 * T ^ 2) - a 1 / T + a 2 * Real.log T + a 3 * T + a 4 * T ^ 2 / 2 + a 5 * T ^ 3 / 3
    + a 6 * T ^ 4 / 4 + a 8

/-- `Cp0` for one coefficient row (species_data.py:130). -/
noncomputable def cp0 (a : Row) (T : ℝ) : ℝ :=
  a 0 / T ^ 2 + a 1 / T + a 2 + a 3 * T + a 4 * T ^ 2 + a 5 * T ^ 3 + a 6 * T ^ 4

/-- `H0_applyJ` for one coefficient row (species_data.py:137). -/
noncomputable def h0ApplyJ (a : Row) (T vec : ℝ) : ℝ :=
  vec * (2 * a 0 / T ^ 3 + a 1 * (1 - Real.log T) / T ^ 2 + a 3 / 2 + 2 * a 4 / 3 * T
    + 3 * a 5 / 4 * T ^ 2 + 4 * a 6 / 5 * T ^ 3 - a 7 / T ^ 2)

/-- `S0_applyJ` for one coefficient row (species_data.py:144). -/
noncomputable def s0ApplyJ (a : Row) (T vec : ℝ) : ℝ :=
  vec * (a 0 / T ^ 3 + a 1 / T ^ 2 + a 2 / T + a 3 + a 4 * T + a 5 * T ^ 2
    + 4 * a 6 / 4 * T ^ 3)

/-- `Cp0_applyJ` for one coefficient row (species_data.py:151). -/
noncomputable def cp0ApplyJ (a : Row) (T vec : ℝ) : ℝ :=
  vec * (-2 * a 0 / T ^ 3 - a 1 / T ^ 2 + a 3 + 2 * a 4 * T + 3 * a 5 * T ^ 2
    + 4 * a 6 * T ^ 3)

/-- The evaluation methods of `Properties`; the `applyJ` ones take one vector entry per
product. -/
inductive PropFn
  | H0 | S0 | Cp0
  | H0J (vec : Nat → ℝ) | S0J (vec : Nat → ℝ) | Cp0J (vec : Nat → ℝ)

/-- The value of a method for product number `i` with coefficient row `a`. -/
noncomputable def PropFn.value : PropFn → Nat → Row → ℝ → ℝ
  | .H0, _, a, T => h0 a T
  | .S0, _, a, T => s0 a T
  | .Cp0, _, a, T => cp0 a T
  | .H0J v, i, a, T => h0ApplyJ a T (v i)
  | .S0J v, i, a, T => s0ApplyJ a T (v i)
  | .Cp0J v, i, a, T => cp0ApplyJ a T (v i)

/-- One method call: refresh the cache, evaluate every product. -/
noncomputable def callFn (ps : List TempFit) (t : Table) (f : PropFn) (T : ℝ) :
    Table × List ℝ :=
  let t' := refresh ps t T
  (t', t'.a.mapIdx (fun i a => f.value i a T))

/-- The cache after a history of calls. -/
noncomputable def runHistory (ps : List TempFit) (calls : List (PropFn × ℝ)) : Table :=
  calls.foldl (fun t c => (callFn ps t c.1 c.2).1) (initTable ps)

end PyCycle
