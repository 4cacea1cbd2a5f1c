import Verif.Model.ThermoDataTables
import Verif.Lemmas.PolyPos
import Mathlib.Data.List.GetD

/-! # Rational certificates for the built-in fits (used by C44) -/

namespace PyCycle
open Data

/-- Coefficient `m` of interval `k`. -/
def Data.Prod.co (p : Prod) (k m : ℕ) : ℚ := (p.coeffs.getD k []).getD m 0

/-- Knot number `k`. -/
def Data.Prod.knot (p : Prod) (k : ℕ) : ℚ := p.ranges.getD k 0

/-- Rational enclosures of the logarithms of the interior knots. -/
def logEnc (t : ℚ) : Option (ℚ × ℚ) :=
  if t = 1000 then some (6.90775527895, 6.90775527902)
  else if t = 999 then some (6.90675477861, 6.90675477869)
  else if t = 6000 then some (8.69951474815, 8.69951474826)
  else none

/-- `Cp0` of a rational row. -/
def cpQ (d : ℕ → ℚ) (t : ℚ) : ℚ :=
  d 0 / t ^ 2 + d 1 / t + d 2 + d 3 * t + d 4 * t ^ 2 + d 5 * t ^ 3 + d 6 * t ^ 4
/-- `H0` of a rational row with `l` for the logarithm. -/
def hQ (d : ℕ → ℚ) (t l : ℚ) : ℚ :=
  -d 0 / t ^ 2 + d 1 / t * l + d 2 + d 3 * t / 2 + d 4 * t ^ 2 / 3 + d 5 * t ^ 3 / 4
    + d 6 * t ^ 4 / 5 + d 7 / t
/-- `S0` of a rational row with `l` for the logarithm. -/
def sQ (d : ℕ → ℚ) (t l : ℚ) : ℚ :=
  -d 0 / (2 * t ^ 2) - d 1 / t + d 2 * l + d 3 * t + d 4 * t ^ 2 / 2 + d 5 * t ^ 3 / 3
    + d 6 * t ^ 4 / 4 + d 8

/-- Check of the three jumps at knot `k + 1`. -/
def jumpOK (ε : ℚ) (p : Prod) (k : ℕ) : Bool :=
  let t := p.knot (k + 1)
  let d := fun m => p.co (k + 1) m - p.co k m
  match logEnc t with
  | none => false
  | some (lo, hi) =>
    decide (0 < t) && decide (|cpQ d t| ≤ ε) && decide (|hQ d t lo| ≤ ε) && decide (|hQ d t hi| ≤ ε)
      && decide (|sQ d t lo| ≤ ε) && decide (|sQ d t hi| ≤ ε)

/-- Check of `Cp0 > c` on interval `k` with 4, 10 or 20 subintervals. -/
def cpOK (c : ℚ) (p : Prod) (k : ℕ) : Bool :=
  decide (0 < p.knot k) && decide (p.knot k < p.knot (k + 1)) &&
  ([4, 10, 20] : List ℕ).any fun n =>
    pcheck [p.co k 0, p.co k 1, p.co k 2 - c, p.co k 3, p.co k 4, p.co k 5, p.co k 6]
      ((p.knot (k + 1) - p.knot k) / (n : ℚ)) (p.knot k) n

/-- All checks for one product. -/
def prodOK (ε c : ℚ) (p : Prod) : Bool :=
  decide (p.ranges.Pairwise (· < ·)) && decide (2 ≤ p.ranges.length)
    && decide (p.coeffs.length + 1 = p.ranges.length)
    && decide (∀ r ∈ p.coeffs, r.length = 9 ∨ r.length = 10)
    && (List.range (p.ranges.length - 2)).all (jumpOK ε p)
    && (List.range (p.ranges.length - 1)).all (cpOK c p)
    && decide (∀ t ∈ p.ranges.tail.dropLast, t ≤ 6000)

set_option maxRecDepth 100000 in
theorem janaf_fit_ok : janaf.all (prodOK 0.000001 2.49) = true := by decide +kernel
set_option maxRecDepth 100000 in
theorem wet_air_fit_ok : wet_air.all (prodOK 0.000001 2.49) = true := by decide +kernel
set_option maxRecDepth 100000 in
theorem co2_fit_ok : co2_co_o2.all (prodOK 0.00003 2.49) = true := by decide +kernel

end PyCycle
