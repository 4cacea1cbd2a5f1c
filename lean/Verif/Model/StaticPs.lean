import Mathlib.Analysis.SpecialFunctions.Pow.Real
import Mathlib.Analysis.SpecialFunctions.Sqrt

/-! # Static conditions: `PsCalc` and `PsResid`
(pycycle/thermo/static_ps_calc.py, pycycle/thermo/static_ps_resid.py) -/

namespace PyCycle

/-! ## PsCalc -/

/-- Inputs of `PsCalc` (static_ps_calc.py:12-18). -/
structure PsCalcIn where
  gamma : ℝ
  R : ℝ
  Ts : ℝ
  ht : ℝ
  hs : ℝ
  W : ℝ
  rho : ℝ

namespace PsCalcIn
/-- Output `Vsonic` (static_ps_calc.py:32). -/
noncomputable def Vsonic (i : PsCalcIn) : ℝ := Real.sqrt (i.gamma * i.R * i.Ts)
open Classical in
/-- Output `V` (static_ps_calc.py:35-39): the "inverse relationship" when `ht < hs`. -/
noncomputable def V (i : PsCalcIn) : ℝ :=
  if i.ht ≥ i.hs then Real.sqrt (2.0 * (i.ht - i.hs)) else Real.sqrt (2.0 * (i.hs - i.ht))
/-- Output `MN` (static_ps_calc.py:41). -/
noncomputable def MN (i : PsCalcIn) : ℝ := i.V / i.Vsonic
/-- Output `area` (static_ps_calc.py:42). -/
noncomputable def area (i : PsCalcIn) : ℝ := i.W / (i.rho * i.V)

/-- `J['Vsonic','gamma']` (static_ps_calc.py:49). -/
noncomputable def J_Vsonic_gamma (i : PsCalcIn) : ℝ := i.Vsonic / (2.0 * i.gamma)
/-- `J['Vsonic','R']` (static_ps_calc.py:50). -/
noncomputable def J_Vsonic_R (i : PsCalcIn) : ℝ := i.Vsonic / (2.0 * i.R)
/-- `J['Vsonic','Ts']` (static_ps_calc.py:51). -/
noncomputable def J_Vsonic_Ts (i : PsCalcIn) : ℝ := i.Vsonic / (2.0 * i.Ts)
open Classical in
/-- `J['V','ht']` (static_ps_calc.py:53-60). -/
noncomputable def J_V_ht (i : PsCalcIn) : ℝ := if i.ht ≥ i.hs then 1.0 / i.V else -1.0 / i.V
open Classical in
/-- `J['V','hs']` (static_ps_calc.py:53-60). -/
noncomputable def J_V_hs (i : PsCalcIn) : ℝ := if i.ht ≥ i.hs then -1.0 / i.V else 1.0 / i.V
/-- `J['MN','ht']` (static_ps_calc.py:62). -/
noncomputable def J_MN_ht (i : PsCalcIn) : ℝ := 1.0 / i.Vsonic * i.J_V_ht
/-- `J['MN','hs']` (static_ps_calc.py:63). -/
noncomputable def J_MN_hs (i : PsCalcIn) : ℝ := 1.0 / i.Vsonic * i.J_V_hs
/-- `J['MN','gamma']` (static_ps_calc.py:64). -/
noncomputable def J_MN_gamma (i : PsCalcIn) : ℝ := -i.V / i.Vsonic ^ 2 * i.J_Vsonic_gamma
/-- `J['MN','R']` (static_ps_calc.py:65). -/
noncomputable def J_MN_R (i : PsCalcIn) : ℝ := -i.V / i.Vsonic ^ 2 * i.J_Vsonic_R
/-- `J['MN','Ts']` (static_ps_calc.py:66). -/
noncomputable def J_MN_Ts (i : PsCalcIn) : ℝ := -i.V / i.Vsonic ^ 2 * i.J_Vsonic_Ts
/-- `J['area','W']` (static_ps_calc.py:68). -/
noncomputable def J_area_W (i : PsCalcIn) : ℝ := 1.0 / (i.rho * i.V)
/-- `J['area','rho']` (static_ps_calc.py:69). -/
noncomputable def J_area_rho (i : PsCalcIn) : ℝ := -i.W / (i.rho ^ 2 * i.V)
/-- `J['area','ht']` (static_ps_calc.py:70). -/
noncomputable def J_area_ht (i : PsCalcIn) : ℝ := -i.W / (i.rho * i.V ^ 2) * i.J_V_ht
/-- `J['area','hs']` (static_ps_calc.py:71). -/
noncomputable def J_area_hs (i : PsCalcIn) : ℝ := -i.W / (i.rho * i.V ^ 2) * i.J_V_hs
end PsCalcIn

/-! ## PsResid -/

/-- A flow area as the component sees it: a float, or `np.inf`. -/
inductive AreaVal
  | inf
  | fin (a : ℝ)

/-- Physical inputs of `PsResid` common to both modes (static_ps_resid.py:17-24). -/
structure PsIn where
  Ts : ℝ
  ht : ℝ
  hs : ℝ
  R : ℝ
  gamma : ℝ
  W : ℝ
  rho : ℝ

namespace PsIn
/-- `(gamma*R*Ts)**0.5` (static_ps_resid.py:108, 128). -/
noncomputable def Vsonic (i : PsIn) : ℝ := Real.sqrt (i.gamma * i.R * i.Ts)

open Classical in
/-- The `area` of `_compute_outputs_MN` (static_ps_resid.py:117-121). -/
noncomputable def areaOfMN (i : PsIn) (MN : ℝ) : AreaVal :=
  if MN < 1e-16 then .inf else .fin (i.W / (i.rho * i.Vsonic * MN))

open Classical in
/-- The `MN` of `_compute_outputs_area` (static_ps_resid.py:129-143): infinite area gives 0; a
floating-point error (division by zero, numpy being in raise mode) is caught and gives 5. -/
noncomputable def mnOfArea (i : PsIn) : AreaVal → ℝ
  | .inf => 0
  | .fin a => if i.rho * i.Vsonic * a = 0 then 5 else i.W / (i.rho * i.Vsonic * a)

/-- The Ps residual for a given Mach number (static_ps_resid.py:183-189). -/
noncomputable def residPs (i : PsIn) (MN : ℝ) : ℝ :=
  (i.hs + MN ^ 2 / 2 * i.gamma * (i.Ts * i.R) - i.ht) / i.ht

/-- Outputs of the component in Mach mode: `Ps` is only the state (the residual does not read
it), so it is not part of the residual functions. -/
structure OutMN where
  V : ℝ
  Vsonic : ℝ
  area : AreaVal
/-- Outputs of the component in area mode. -/
structure OutArea where
  V : ℝ
  Vsonic : ℝ
  MN : ℝ

/-- `resids['area']` (static_ps_resid.py:168-171); a finite computed area against an infinite
state counts as an infinite residual. -/
noncomputable def residArea (i : PsIn) (MN : ℝ) (area : AreaVal) : AreaVal :=
  match i.areaOfMN MN, area with
  | .inf, _ => .fin 0
  | .fin _, .inf => .inf
  | .fin a, .fin b => .fin (a - b)

/-- All residuals of Mach mode vanish (static_ps_resid.py:166-189). -/
def ConvergedMN (i : PsIn) (MN : ℝ) (o : OutMN) : Prop :=
  i.residArea MN o.area = .fin 0 ∧ i.Vsonic - o.Vsonic = 0 ∧ MN * i.Vsonic - o.V = 0
    ∧ i.residPs MN = 0

/-- All residuals of area mode vanish (static_ps_resid.py:173-189). -/
def ConvergedArea (i : PsIn) (area : AreaVal) (o : OutArea) : Prop :=
  i.mnOfArea area - o.MN = 0 ∧ i.Vsonic - o.Vsonic = 0
    ∧ i.mnOfArea area * i.Vsonic - o.V = 0 ∧ i.residPs (i.mnOfArea area) = 0

/-! ### linearize, Mach mode (static_ps_resid.py:202-258) -/

/-- `ht_calc` (static_ps_resid.py:214-220) for the Mach number the mode uses. -/
noncomputable def htCalc (i : PsIn) (MN : ℝ) : ℝ := i.hs + MN ^ 2 / 2 * i.gamma * (i.R * i.Ts)
/-- `J['Ps','ht']` (static_ps_resid.py:222). -/
noncomputable def J_Ps_ht (i : PsIn) (MN : ℝ) : ℝ := -i.htCalc MN / i.ht ^ 2
/-- `J['Ps','hs']` (static_ps_resid.py:223). -/
noncomputable def J_Ps_hs (i : PsIn) : ℝ := 1 / i.ht
/-- `.5*(gamma*R*Ts)**-.5` (static_ps_resid.py:226). -/
noncomputable def part (i : PsIn) : ℝ := 0.5 * (i.gamma * i.R * i.Ts) ^ (-0.5 : ℝ)
/-- `J['Vsonic','gamma']` (static_ps_resid.py:227). -/
noncomputable def J_Vs_gamma (i : PsIn) : ℝ := i.part * i.R * i.Ts
/-- `J['Vsonic','R']` (static_ps_resid.py:228). -/
noncomputable def J_Vs_R (i : PsIn) : ℝ := i.part * i.gamma * i.Ts
/-- `J['Vsonic','Ts']` (static_ps_resid.py:229). -/
noncomputable def J_Vs_Ts (i : PsIn) : ℝ := i.part * i.gamma * i.R

/-- `J['Ps','MN']` (static_ps_resid.py:240). -/
noncomputable def M_Ps_MN (i : PsIn) (MN : ℝ) : ℝ := MN * i.gamma * (i.R * i.Ts) / i.ht
/-- `J['Ps','R']` (static_ps_resid.py:241). -/
noncomputable def M_Ps_R (i : PsIn) (MN : ℝ) : ℝ := i.Ts * (MN ^ 2 / 2) * i.gamma / i.ht
/-- `J['Ps','gamma']` (static_ps_resid.py:242). -/
noncomputable def M_Ps_gamma (i : PsIn) (MN : ℝ) : ℝ := i.R * i.Ts * (MN ^ 2 / 2) / i.ht
/-- `J['Ps','Ts']` (static_ps_resid.py:243). -/
noncomputable def M_Ps_Ts (i : PsIn) (MN : ℝ) : ℝ := MN ^ 2 / 2 * i.gamma * i.R / i.ht

/-- The blocks of Mach mode that are only rewritten when `MN >= 1e-16`
(static_ps_resid.py:245-258). -/
structure JacMN where
  area_W : ℝ
  area_rho : ℝ
  area_gamma : ℝ
  area_R : ℝ
  area_Ts : ℝ
  area_MN : ℝ
  V_MN : ℝ
  V_Ts : ℝ
  V_R : ℝ
  V_gamma : ℝ

open Classical in
/-- `linearize` on these blocks: below `1e-16` the previous values are kept
(static_ps_resid.py:245-258). -/
noncomputable def linearizeMN (i : PsIn) (MN : ℝ) (old : JacMN) : JacMN :=
  if MN ≥ 1e-16 then
    let p := -i.W / (i.rho * i.Vsonic ^ 2 * MN) * 0.5 * (i.R * i.gamma * i.Ts) ^ (-0.5 : ℝ)
    { area_W := 1.0 / (i.rho * i.Vsonic * MN)
      area_rho := -i.W / (i.Vsonic * MN * i.rho ^ 2)
      area_gamma := p * i.R * i.Ts
      area_R := p * i.gamma * i.Ts
      area_Ts := p * i.gamma * i.R
      area_MN := -i.W / i.rho / i.Vsonic / MN ^ 2
      V_MN := i.Vsonic
      V_Ts := MN * i.J_Vs_Ts
      V_R := MN * i.J_Vs_R
      V_gamma := MN * i.J_Vs_gamma }
  else old

/-! ### linearize, area mode (static_ps_resid.py:260-301); `MNo` is `outputs['MN']` -/

/-- Blocks of area mode. -/
structure JacArea where
  Ps_area : ℝ
  V_area : ℝ
  MN_area : ℝ
  Ps_Ts : ℝ
  V_Ts : ℝ
  MN_Ts : ℝ
  Ps_R : ℝ
  V_R : ℝ
  MN_R : ℝ
  Ps_W : ℝ
  V_W : ℝ
  MN_W : ℝ
  Ps_gamma : ℝ
  V_gamma : ℝ
  MN_gamma : ℝ
  Ps_rho : ℝ
  V_rho : ℝ
  MN_rho : ℝ

/-- `linearize` in area mode for a finite area (static_ps_resid.py:261-301). -/
noncomputable def linearizeArea (i : PsIn) (area MNo : ℝ) : JacArea :=
  let MN := i.mnOfArea (.fin area)
  let q := MNo ^ 2 / 2
  let RT := i.R * i.Ts
  let dr := MN * i.gamma * RT
  let dA := -(i.W / i.rho / i.Vsonic / area ^ 2)
  let dVs := -i.W / (i.rho * area * i.Vsonic ^ 2)
  let vT := 0.5 * i.gamma * i.R / i.Vsonic
  let vR := 0.5 * i.gamma * i.Ts / i.Vsonic
  let dW := 1 / i.rho / i.Vsonic / area
  let dg := dVs * i.J_Vs_gamma
  let drho := -i.W / (area * i.Vsonic * i.rho ^ 2)
  { Ps_area := dA * dr / i.ht
    V_area := dA * i.Vsonic
    MN_area := dA
    Ps_Ts := i.gamma * (MN * dVs * vT * RT + q * i.R) / i.ht
    V_Ts := -(dVs * vT * i.Vsonic + MN * vT)
    MN_Ts := dVs * vT
    Ps_R := -i.gamma * (MN * RT * dVs * vR + q * i.Ts) / i.ht
    V_R := dVs * vR * i.Vsonic + vR * MN
    MN_R := dVs * vR
    Ps_W := dW * dr / i.ht
    V_W := dW * i.Vsonic
    MN_W := dW
    Ps_gamma := RT / i.ht * (q + i.gamma * MN * dg)
    V_gamma := dg * i.Vsonic + i.J_Vs_gamma * MN
    MN_gamma := dg
    Ps_rho := MN * i.gamma * i.R * i.Ts * drho / i.ht
    V_rho := drho * i.Vsonic
    MN_rho := drho }

end PsIn

/-! ## guess_nonlinear -/

/-- Inputs of the guess (static_ps_resid.py:27-28, 44, 53-54). -/
structure GuessIn where
  gamt : ℝ
  Pt : ℝ
  MN : ℝ       -- `MN` in Mach mode, `guess:MN` in area mode
  W : ℝ
  Ts : ℝ
  area : ℝ

/-- `Pt*(1 + (gamt-1)/2*MN**2)**(-gamt/(gamt-1))` (static_ps_resid.py:83, 98). -/
noncomputable def GuessIn.isentropic (q : GuessIn) : ℝ :=
  q.Pt * (1 + (q.gamt - 1) / 2 * q.MN ^ 2) ^ (-q.gamt / (q.gamt - 1))

/-- `equations` (static_ps_resid.py:91-95): the free variables `M_guess`, `ps_guess` are the
values before `fsolve` rebinds them, not the unknowns. -/
noncomputable def GuessIn.equations (q : GuessIn) (ps MN : ℝ) : ℝ × ℝ :=
  (ps - q.Pt * (1 + (q.gamt - 1) / 2 * q.MN ^ 2) ^ (-q.gamt / (q.gamt - 1)),
   MN - q.W * Real.sqrt (8314.4598 * q.Ts)
     / (q.isentropic * 1.0e6 * q.area * Real.sqrt q.gamt))

/-- Component state relevant to the guess: `_ps_guess_cache` (static_ps_resid.py:78) and the
state variable `Ps`. -/
structure GuessState where
  cache : ℝ
  Ps : ℝ

/-- After `setup` (static_ps_resid.py:30, 78). -/
noncomputable def GuessState.init : GuessState := ⟨-1, 0.001⟩

open Classical in
/-- `guess_nonlinear` in Mach mode (static_ps_resid.py:82-87) with the computed `ps_guess`. -/
noncomputable def guessMN (s : GuessState) (psGuess : ℝ) : GuessState :=
  if |psGuess - s.cache| > 1e-10 then
    if s.cache = -1 then ⟨psGuess, psGuess⟩ else s
  else s

open Classical in
/-- `guess_nonlinear` in area mode (static_ps_resid.py:102-104) with the `ps_guess` returned by
`fsolve`. -/
noncomputable def guessArea (s : GuessState) (psGuess : ℝ) : GuessState :=
  if |psGuess - s.cache| > 1e-10 then ⟨psGuess, psGuess⟩ else s

/-- What happens to the component over time: the framework asks for a guess, or the solver
assigns the state. -/
inductive GuessEvent
  | guess (psGuess : ℝ)
  | solver (Ps : ℝ)

/-- Run a history of events with the given guess function. -/
noncomputable def runGuess (f : GuessState → ℝ → GuessState) (s : GuessState) :
    List GuessEvent → GuessState
  | [] => s
  | .guess q :: es => runGuess f (f s q) es
  | .solver p :: es => runGuess f { s with Ps := p } es

end PyCycle
