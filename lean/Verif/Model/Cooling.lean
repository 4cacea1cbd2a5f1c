import Mathlib.Analysis.SpecialFunctions.Pow.Real
import Mathlib.Data.List.OfFn
import Verif.Model.ElementBase

/-! # Turbine cooling (pycycle/elements/cooling.py:11-325) -/

namespace PyCycle.Cool

/-- `CombineCooling.compute` (cooling.py:24-28): the loop over `n_ins` inputs. -/
noncomputable def combine {n : Nat} (W : Fin n → ℝ) : ℝ :=
  (List.ofFn W).foldl (· + ·) 0

/-- `declare_partials('W_cool', '*', val=1)` (cooling.py:22). -/
def combineJ {n : Nat} (_ : Fin n → ℝ) : Fin n → ℝ := fun _ => 1

/-- Options of `CoolingCalcs` (cooling.py:33-37); `i_row` counts from zero (cooling.py:296, 305). -/
structure Opt where
  n_stages : ℕ
  i_row : ℕ
  T_safety : ℝ := 150
  T_metal : ℝ := 2460

/-- Inputs (cooling.py:41-49). -/
inductive I
  | turb_pwr | Pt_in | Pt_out | x_factor | W_primary | Tt_primary | Tt_cool | ht_primary | ht_cool
  deriving DecidableEq

/-- Outputs (cooling.py:51-55). -/
inductive O | W_cool | Pt_stage | ht_out
  deriving DecidableEq

/-- `self.i_stage` (cooling.py:58), Python floor division of naturals. -/
def iStage (o : Opt) : ℕ := (o.i_row / 2 + 1) / o.n_stages

/-- `T_gas` (cooling.py:70-75). -/
noncomputable def Tgas (o : Opt) (x : I → ℝ) : ℝ :=
  if o.i_row % 2 = 0 then x .Tt_primary + o.T_safety else 0.92 * x .Tt_primary + o.T_safety

/-- `dh` (cooling.py:72, 75). -/
noncomputable def dh (o : Opt) (x : I → ℝ) : ℝ :=
  if o.i_row % 2 = 0 then 0 else x .turb_pwr / o.n_stages

/-- `profile_factor` (cooling.py:78-81). -/
noncomputable def profileFactor (o : Opt) : ℝ := if o.i_row = 0 then 0.3 else 0.13

/-- `phi` (cooling.py:88). -/
noncomputable def phi (o : Opt) (x : I → ℝ) : ℝ :=
  (Tgas o x - o.T_metal) / (Tgas o x - x .Tt_cool)

/-- `phi_prime` (cooling.py:89). -/
noncomputable def phi' (o : Opt) (x : I → ℝ) : ℝ :=
  (phi o x + profileFactor o) / (profileFactor o + 1)

open Classical in
/-- `W_cool` (cooling.py:84-95). The `FloatingPointError` re-raise (96-97) is not modelled: real
arithmetic does not overflow, and the theorems assume the base of the power positive. -/
noncomputable def Wcool (o : Opt) (x : I → ℝ) : ℝ :=
  if Tgas o x < o.T_metal then 0
  else 0.022 * x .x_factor * (4 / 3) * x .W_primary * (phi' o x / (1 - phi' o x)) ^ (1.25 : ℝ)

/-- `compute` (cooling.py:65-102). -/
noncomputable def compute (o : Opt) (x : I → ℝ) : O → ℝ
  | .W_cool => Wcool o x
  | .ht_out => (x .W_primary * x .ht_primary + Wcool o x * x .ht_cool)
      / (x .W_primary + Wcool o x) - dh o x / x .W_primary
  | .Pt_stage => x .Pt_out + (x .Pt_in - x .Pt_out) * (iStage o : ℝ)

/-- `ddh_dturb_pwr` (cooling.py:113, 118). -/
noncomputable def ddh (o : Opt) : ℝ := if o.i_row % 2 = 0 then 0 else 1 / o.n_stages

/-- `dTgas_dTprimary` (cooling.py:114, 119). -/
noncomputable def dTgas (o : Opt) : ℝ := if o.i_row % 2 = 0 then 1 else 0.92

/-- `dphi_prime_term_dphi_prime` (cooling.py:146). -/
noncomputable def dTerm (o : Opt) (x : I → ℝ) : ℝ :=
  (1.25 * (phi' o x / (1 - phi' o x)) ^ (0.25 : ℝ))
    * (1 / (1 - phi' o x) + phi' o x / (1 - phi' o x) ^ 2)

open Classical in
/-- `dWc_d*` (cooling.py:128-151). -/
noncomputable def dWc (o : Opt) (x : I → ℝ) : I → ℝ :=
  if Tgas o x < o.T_metal then fun _ => 0
  else
    let const : ℝ := 0.022 * 4 / 3
    let term := (phi' o x / (1 - phi' o x)) ^ (1.25 : ℝ)
    let dphi_prime_dphi := 1 / (profileFactor o + 1)
    let dphi_dTgas := 1 / (Tgas o x - x .Tt_cool)
      - (Tgas o x - o.T_metal) / (Tgas o x - x .Tt_cool) ^ 2
    let dphi_dTcool := (Tgas o x - o.T_metal) / (Tgas o x - x .Tt_cool) ^ 2
    fun
    | .x_factor => const * term * x .W_primary
    | .W_primary => const * term * x .x_factor
    | .Tt_primary => const * x .W_primary * x .x_factor * dTerm o x * dphi_prime_dphi
        * dphi_dTgas * dTgas o
    | .Tt_cool => const * x .W_primary * x .x_factor * dTerm o x * dphi_prime_dphi * dphi_dTcool
    | _ => 0

open Classical in
/-- `W_cool` recomputed in `compute_partials` (cooling.py:133, 152). -/
noncomputable def WcoolJ (o : Opt) (x : I → ℝ) : ℝ :=
  if Tgas o x < o.T_metal then 0
  else 0.022 * 4 / 3 * x .x_factor * x .W_primary * (phi' o x / (1 - phi' o x)) ^ (1.25 : ℝ)

/-- `compute_partials` (cooling.py:105-173); undeclared pairs (60-62) are zero. -/
noncomputable def J (o : Opt) (x : I → ℝ) : O → I → ℝ :=
  let Wp := x .W_primary
  let Wc := WcoolJ o x
  let hp := x .ht_primary
  let hc := x .ht_cool
  let WpWc := Wp + Wc
  let dht := -Wp * hp / WpWc ^ 2 + hc / WpWc - Wc * hc / WpWc ^ 2
  fun
  | .W_cool, .W_primary => dWc o x .W_primary
  | .W_cool, .x_factor => dWc o x .x_factor
  | .W_cool, .Tt_primary => dWc o x .Tt_primary
  | .W_cool, .Tt_cool => dWc o x .Tt_cool
  | .ht_out, .x_factor => dht * dWc o x .x_factor
  | .ht_out, .W_primary => (hp - hc) * (Wc - Wp * dWc o x .W_primary) / WpWc ^ 2
      + dh o x / Wp ^ 2
  | .ht_out, .Tt_primary => dht * dWc o x .Tt_primary
  | .ht_out, .Tt_cool => dht * dWc o x .Tt_cool
  | .ht_out, .ht_primary => Wp / WpWc
  | .ht_out, .ht_cool => Wc / WpWc
  | .ht_out, .turb_pwr => -ddh o / Wp
  | .Pt_stage, .Pt_in => (iStage o : ℝ)
  | .Pt_stage, .Pt_out => 1 - (iStage o : ℝ)
  | _, _ => 0

/-! ## The chain of rows -/

/-- What the whole element sees (cooling.py:283-288): the inputs shared by every row. -/
structure Shared where
  n_stages : ℕ
  T_safety : ℝ := 150
  T_metal : ℝ := 2460
  x_factor : ℝ
  Pt_in : ℝ
  Pt_out : ℝ
  Tt_cool : ℝ
  ht_cool : ℝ
  turb_pwr : ℝ

/-- The primary stream entering a row: flow and total enthalpy. -/
structure Stream where
  W : ℝ
  h : ℝ

/-- Options handed to row `i` (cooling.py:294-301, 308-316). -/
def Shared.opt (s : Shared) (i : ℕ) : Opt := ⟨s.n_stages, i, s.T_safety, s.T_metal⟩

/-- Inputs of row `i`: shared ones by promotion, the primary stream from the turbine inlet or the
previous row (cooling.py:283-292, 318-320). -/
def Shared.inputs (s : Shared) (p : Stream) (Tt : ℝ) : I → ℝ
  | .turb_pwr => s.turb_pwr | .Pt_in => s.Pt_in | .Pt_out => s.Pt_out | .x_factor => s.x_factor
  | .W_primary => p.W | .Tt_primary => Tt | .Tt_cool => s.Tt_cool | .ht_primary => p.h
  | .ht_cool => s.ht_cool

/-- One `Row` (cooling.py:207-247): `cooling_calcs` gives the coolant and the outgoing enthalpy; the
`flow` mixer adds the flows (`W_out = W_primary + cool:W`, see C11/C12); the `total_hP` thermo
reports the enthalpy it is given. -/
noncomputable def row (s : Shared) (i : ℕ) (Tt : ℝ) (p : Stream) : Stream :=
  ⟨p.W + compute (s.opt i) (s.inputs p Tt) .W_cool, compute (s.opt i) (s.inputs p Tt) .ht_out⟩

/-- The primary stream entering row `i` (cooling.py:303-321). `Tt i` is the total temperature
reported by the thermo solution in front of row `i`; it is left arbitrary. -/
noncomputable def chain (s : Shared) (Tt : ℕ → ℝ) (p0 : Stream) : ℕ → Stream
  | 0 => p0
  | i + 1 => row s i (Tt i) (chain s Tt p0 i)

/-- Coolant used by row `i`. -/
noncomputable def coolant (s : Shared) (Tt : ℕ → ℝ) (p0 : Stream) (i : ℕ) : ℝ :=
  compute (s.opt i) (s.inputs (chain s Tt p0 i) (Tt i)) .W_cool

/-- `pyc_setup_output_ports` (cooling.py:256-266): the port name is the raw string
`r'row_{i}.Fl_O'`, which is not formatted. -/
def outputPorts {D : Type} (n_stages : ℕ) (e : ElemPorts D) : Except FlowErr (ElemPorts D) :=
  (List.range (2 * n_stages)).foldlM
    (fun e _ => copyFlow e (.str "Fl_turb_I") "row_{i}.Fl_O") e

end PyCycle.Cool
