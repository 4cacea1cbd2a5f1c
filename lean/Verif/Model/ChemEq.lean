import Verif.Model.CoeffTable
import Mathlib.Analysis.SpecialFunctions.Exp
import Mathlib.Analysis.SpecialFunctions.Sqrt
import Mathlib.Algebra.BigOperators.Fin

/-! # Chemical equilibrium: `ChemEq`, `PropsRHS`, `PropsCalcs`
(pycycle/thermo/cea/chem_eq.py, props_rhs.py, props_calcs.py)

Vectors over products are functions on `Fin np`, over elements on `Fin ne`. The species
properties `H0, S0, Cp0` are those of `Verif.Model.CoeffTable` for the coefficient row of each
product (`rows`), i.e. for temperatures inside the cached table interval. -/

namespace PyCycle
open Finset

/-- `P_REF` (constants.py:67), bar. -/
noncomputable def P_REF : ℝ := 1.01325
/-- `R_UNIVERSAL_ENG` (constants.py), cal/(mol K). -/
noncomputable def R_ENG : ℝ := 1.9872035
/-- `R_UNIVERSAL_SI` (constants.py), J/(kmol K). -/
noncomputable def R_SI : ℝ := 8314.4598
/-- `MIN_VALID_CONCENTRATION + 1e-20` (constants.py; chem_eq.py:187, props_calcs.py:160). -/
noncomputable def TRACE : ℝ := 1e-10 + 1e-20

/-- The part of the thermo object used here: stoichiometry and coefficient rows. -/
structure Gas (ne np : Nat) where
  aij : Fin ne → Fin np → ℝ
  rows : Fin np → Row

namespace Gas
variable {ne np : Nat}
/-- `thermo.H0(T)[j]`. -/
noncomputable def H0 (g : Gas ne np) (T : ℝ) (j : Fin np) : ℝ := h0 (g.rows j) T
/-- `thermo.S0(T)[j]`. -/
noncomputable def S0 (g : Gas ne np) (T : ℝ) (j : Fin np) : ℝ := s0 (g.rows j) T
/-- `thermo.Cp0(T)[j]`. -/
noncomputable def Cp0 (g : Gas ne np) (T : ℝ) (j : Fin np) : ℝ := cp0 (g.rows j) T
/-- `thermo.H0_applyJ(T, 1)[j]`. -/
noncomputable def dH0 (g : Gas ne np) (T : ℝ) (j : Fin np) : ℝ := h0ApplyJ (g.rows j) T 1
/-- `thermo.S0_applyJ(T, 1)[j]`. -/
noncomputable def dS0 (g : Gas ne np) (T : ℝ) (j : Fin np) : ℝ := s0ApplyJ (g.rows j) T 1
/-- `thermo.Cp0_applyJ(T, 1)[j]`. -/
noncomputable def dCp0 (g : Gas ne np) (T : ℝ) (j : Fin np) : ℝ := cp0ApplyJ (g.rows j) T 1
end Gas

/-! ## ChemEq -/

/-- `_resid_weighting` (chem_eq.py:40-45). -/
noncomputable def residWeighting (x : ℝ) : ℝ := (1 / (1 + Real.exp (-1e5 * x)) - 0.5) * 2

/-- The mutable attributes of a `ChemEq` instance used across calls: `remove_trace_species`
(chem_eq.py:83), `_trace` (187; absent until first set) and `weights` (179; absent likewise). -/
structure ChemEqState (np : Nat) where
  removeTrace : Bool
  trace : Option (Fin np → Bool)
  weights : Option (Fin np → ℝ)

/-- After `setup` (chem_eq.py:83). -/
def ChemEqState.init (np : Nat) : ChemEqState np := ⟨false, none, none⟩

/-- Inputs and outputs the residuals are evaluated at (chem_eq.py:144-149, 152). -/
structure ChemEqPoint (ne np : Nat) where
  T : ℝ
  P : ℝ
  composition : Fin ne → ℝ
  n : Fin np → ℝ
  pi : Fin ne → ℝ
  nMoles : ℝ

/-- The residual vectors. -/
structure ChemEqResids (ne np : Nat) where
  n : Fin np → ℝ
  pi : Fin ne → ℝ
  nMoles : ℝ

variable {ne np : Nat}

open Classical in
/-- `self.mu` (chem_eq.py:165-175): a non-positive pressure makes `np.log(P)` raise and is
silently replaced by `1e-5`. (A non-positive `n` raises a second time and propagates; the
theorems assume `n > 0`.) -/
noncomputable def chemMu (g : Gas ne np) (x : ChemEqPoint ne np) (j : Fin np) : ℝ :=
  g.H0 x.T j - g.S0 x.T j + Real.log (x.n j)
    + Real.log (if 0 < x.P / P_REF then x.P / P_REF else 1e-5) - Real.log (∑ k, x.n k)

/-- `resids_n` before damping: `mu - sum(pi * aij.T, axis=1)` (chem_eq.py:177). -/
noncomputable def chemGap (g : Gas ne np) (x : ChemEqPoint ne np) (j : Fin np) : ℝ :=
  chemMu g x j - ∑ i, x.pi i * g.aij i j

/-- `self.weights` (chem_eq.py:148, 179). -/
noncomputable def chemWeights (x : ChemEqPoint ne np) (j : Fin np) : ℝ :=
  residWeighting (x.n j * ∑ k, x.n k)

open Classical in
/-- `self._trace` as a mask (chem_eq.py:187). -/
noncomputable def chemTrace (x : ChemEqPoint ne np) (j : Fin np) : Bool := decide (x.n j ≤ TRACE)

open Classical in
/-- `resids['n']` (chem_eq.py:177-191) given the current `remove_trace_species` flag. -/
noncomputable def chemResidN (removeTrace : Bool) (g : Gas ne np) (x : ChemEqPoint ne np)
    (j : Fin np) : ℝ :=
  if removeTrace && chemTrace x j then 0 else chemGap g x j * chemWeights x j

/-- `resids['pi']` (chem_eq.py:194). -/
def chemResidPi (g : Gas ne np) (x : ChemEqPoint ne np) (i : Fin ne) : ℝ :=
  ∑ j, g.aij i j * x.n j - x.composition i

/-- `resids['n_moles']` (chem_eq.py:148, 152). -/
def chemResidNMoles (x : ChemEqPoint ne np) : ℝ := ∑ k, x.n k - x.nMoles

open Classical in
/-- `apply_nonlinear` (chem_eq.py:141-199). -/
noncomputable def applyNonlinear (g : Gas ne np) (st : ChemEqState np) (x : ChemEqPoint ne np) :
    ChemEqState np × ChemEqResids ne np :=
  let r := chemResidN st.removeTrace g x
  ({ removeTrace := decide (Real.sqrt (∑ j, r j ^ 2) < 1e-4)                -- 196-199
     trace := if st.removeTrace then some (chemTrace x) else st.trace        -- 183-187
     weights := some (chemWeights x) },                                      -- 179
   { n := r, pi := chemResidPi g x, nMoles := chemResidNMoles x })

/-- The Jacobian blocks written by `linearize`. The constant blocks `(n_moles, n_moles)` and
`(pi, composition)` are included. -/
structure ChemEqJac (ne np : Nat) where
  n_n : Fin np → Fin np → ℝ
  n_pi : Fin np → Fin ne → ℝ
  n_P : Fin np → ℝ
  n_T : Fin np → ℝ
  pi_n : Fin ne → Fin np → ℝ
  pi_comp : Fin ne → Fin ne → ℝ
  nMoles_n : Fin np → ℝ
  nMoles_nMoles : ℝ

/-- Errors of `linearize`: attribute read before it was ever assigned. -/
inductive ChemEqErr | attributeError
  deriving DecidableEq

/-- `linearize` with `_calc_dRdy` (chem_eq.py:139, 201-277, 279-327). The masks `_trace` and the
damping `weights` are whatever the last `apply_nonlinear` left behind. The rows overwritten at
lines 321-327 are overwritten again at 262-269 except when `n <= 1e-10` and the stale mask
disagree; that corner is modelled by `lowN`. -/
noncomputable def chemLinearize (g : Gas ne np) (st : ChemEqState np) (x : ChemEqPoint ne np) :
    Except ChemEqErr (ChemEqJac ne np) :=
  match st.weights with
  | none => .error .attributeError
  | some w =>
    let N := ∑ k, x.n k
    let nn₀ : Fin np → Fin np → ℝ := fun j k => (if j = k then 1 / x.n j - 1 / N else -(1 / N)) * w j
    let npi₀ : Fin np → Fin ne → ℝ := fun j i => -(g.aij i j) * w j
    let nP₀ : Fin np → ℝ := fun j => w j * (1.0 / P_REF / (x.P / P_REF))
    let nT₀ : Fin np → ℝ := fun j => (g.dH0 x.T j - g.dS0 x.T j) * w j
    let base : ChemEqJac ne np :=
      { n_n := nn₀, n_pi := npi₀, n_P := nP₀, n_T := nT₀
        pi_n := g.aij
        pi_comp := fun i k => if i = k then -1 else 0
        nMoles_n := fun _ => 1
        nMoles_nMoles := -1 }
    if st.removeTrace then
      match st.trace with
      | none => .error .attributeError                                   -- 262
      | some mask =>
        open Classical in
        let lowN : Fin np → Bool := fun j => decide (x.n j ≤ 1.0e-10)     -- 325
        .ok { base with
          n_n := fun j k =>
            if mask j || mask k then (if j = k then 1 else 0)              -- 263-265
            else if lowN j then (if j = k then -1 else 0)                  -- 326-327
            else nn₀ j k
          n_pi := fun j i => if mask j then 0 else if lowN j then 0 else npi₀ j i
          n_P := fun j => if mask j then 0 else nP₀ j
          n_T := fun j => if mask j then 0 else nT₀ j }
    else .ok base

/-! ## PropsRHS -/

/-- `lhs_TP` (props_rhs.py:85-95), with `aij_prod[i][j] = aij[i]*aij[j]`
(species_data.py:84-87). The last index is `num_element`. -/
def lhsTP (g : Gas ne np) (n : Fin np → ℝ) (b : Fin ne → ℝ) (r c : Fin (ne + 1)) : ℝ :=
  Fin.lastCases (motive := fun _ => ℝ)
    (Fin.lastCases (motive := fun _ => ℝ) 0 b c)
    (fun i => Fin.lastCases (motive := fun _ => ℝ) (b i)
      (fun k => ∑ j, g.aij i j * g.aij k j * n j) c) r

/-- `rhs_P` (props_rhs.py:98-99). -/
def rhsP (b : Fin ne → ℝ) (nMoles : ℝ) (r : Fin (ne + 1)) : ℝ :=
  Fin.lastCases (motive := fun _ => ℝ) nMoles b r

/-- `rhs_T` (props_rhs.py:102-105). -/
noncomputable def rhsT (g : Gas ne np) (T : ℝ) (n : Fin np → ℝ) (r : Fin (ne + 1)) : ℝ :=
  Fin.lastCases (motive := fun _ => ℝ) (∑ j, n j * g.H0 T j)
    (fun i => ∑ j, g.aij i j * (n j * g.H0 T j)) r

/-- `J['rhs_T','T']` (props_rhs.py:124-127, 132). -/
noncomputable def rhsT_dT (g : Gas ne np) (T : ℝ) (n : Fin np → ℝ) (r : Fin (ne + 1)) : ℝ :=
  Fin.lastCases (motive := fun _ => ℝ) (∑ j, h0ApplyJ (g.rows j) T (n j))
    (fun i => ∑ j, g.aij i j * h0ApplyJ (g.rows j) T (n j)) r

/-- `J['rhs_T','n']` (props_rhs.py:129-130, 133). -/
noncomputable def rhsT_dn (g : Gas ne np) (T : ℝ) (r : Fin (ne + 1)) (j : Fin np) : ℝ :=
  Fin.lastCases (motive := fun _ => ℝ) (g.H0 T j) (fun i => g.aij i j * g.H0 T j) r

/-- `J['lhs_TP','n']` (props_rhs.py:54-64), entry (r,c) of the flattened matrix. -/
def lhsTP_dn (g : Gas ne np) (r c : Fin (ne + 1)) (j : Fin np) : ℝ :=
  Fin.lastCases (motive := fun _ => ℝ) 0
    (fun i => Fin.lastCases (motive := fun _ => ℝ) 0 (fun k => g.aij i j * g.aij k j) c) r

/-- `J['lhs_TP','composition']` (props_rhs.py:66-71): 1 at `(num_element, m)` and
`(m, num_element)`. -/
def lhsTP_db {ne : Nat} (r c : Fin (ne + 1)) (m : Fin ne) : ℝ :=
  if (r = Fin.last ne ∧ c = m.castSucc) ∨ (r = m.castSucc ∧ c = Fin.last ne) then 1 else 0

/-! ## PropsCalcs -/

/-- Inputs of `PropsCalcs` (props_calcs.py:18-28). -/
structure PropsIn (ne np : Nat) where
  T : ℝ
  P : ℝ
  n : Fin np → ℝ
  nMoles : ℝ
  resultT : Fin (ne + 1) → ℝ
  resultP : Fin (ne + 1) → ℝ

namespace PropsIn
variable {ne np : Nat}

/-- `dlnVqdlnP` (props_calcs.py:65). -/
def dlnVqdlnP (x : PropsIn ne np) : ℝ := -1 + x.resultP (Fin.last ne)
/-- `dlnVqdlnT` (props_calcs.py:66). -/
def dlnVqdlnT (x : PropsIn ne np) : ℝ := 1 - x.resultT (Fin.last ne)
/-- `Cpf` (props_calcs.py:68-69). -/
noncomputable def Cpf (g : Gas ne np) (x : PropsIn ne np) : ℝ := ∑ j, x.n j * g.Cp0 x.T j
/-- `Cpe` (props_calcs.py:80-82). -/
noncomputable def Cpe (g : Gas ne np) (x : PropsIn ne np) : ℝ :=
  -(∑ i : Fin ne, (∑ j, g.aij i j * (x.n j * g.H0 x.T j)) * x.resultT i.castSucc)
    + ∑ j, x.n j * g.H0 x.T j * g.H0 x.T j
    - (∑ j, x.n j * g.H0 x.T j) * x.resultT (Fin.last ne)
/-- Output `h` (props_calcs.py:84). -/
noncomputable def h (g : Gas ne np) (x : PropsIn ne np) : ℝ :=
  (∑ j, x.n j * g.H0 x.T j) * R_ENG * x.T
/-- Output `S` (props_calcs.py:86-93); the `FloatingPointError` fallback (lines 88-90) needs
numpy to be in raise mode and is not modelled. -/
noncomputable def S (g : Gas ne np) (x : PropsIn ne np) : ℝ :=
  R_ENG * ∑ j, x.n j * (g.S0 x.T j + Real.log (x.nMoles / x.n j / (x.P / P_REF)))
/-- Output `Cp` (props_calcs.py:94). -/
noncomputable def Cp (g : Gas ne np) (x : PropsIn ne np) : ℝ := (x.Cpe g + x.Cpf g) * R_ENG
/-- Output `Cv` (props_calcs.py:95). -/
noncomputable def Cv (g : Gas ne np) (x : PropsIn ne np) : ℝ :=
  x.Cp g + x.nMoles * R_ENG * x.dlnVqdlnT ^ 2 / x.dlnVqdlnP
/-- Output `gamma` (props_calcs.py:97). -/
noncomputable def gamma (g : Gas ne np) (x : PropsIn ne np) : ℝ :=
  -1 * x.Cp g / x.Cv g / x.dlnVqdlnP
/-- Output `rho` (props_calcs.py:99). -/
noncomputable def rho (x : PropsIn ne np) : ℝ := x.P / (x.nMoles * R_SI * x.T) * 100
/-- Output `R` (props_calcs.py:101). -/
noncomputable def R (x : PropsIn ne np) : ℝ := R_SI * x.nMoles

/-! ### compute_partials -/

/-- `dCpe_dT` (props_calcs.py:147-151). -/
noncomputable def dCpe_dT (g : Gas ne np) (x : PropsIn ne np) : ℝ :=
  2 * ∑ j, x.n j * g.H0 x.T j * g.dH0 x.T j
    - ∑ i : Fin ne, (∑ j, g.aij i j * x.n j * g.dH0 x.T j) * x.resultT i.castSucc
    - (∑ j, x.n j * g.dH0 x.T j) * x.resultT (Fin.last ne)
/-- `dCpf_dT` (props_calcs.py:153). -/
noncomputable def dCpf_dT (g : Gas ne np) (x : PropsIn ne np) : ℝ := ∑ j, x.n j * g.dCp0 x.T j
/-- `J['h','T']` (props_calcs.py:155). -/
noncomputable def J_h_T (g : Gas ne np) (x : PropsIn ne np) : ℝ :=
  R_ENG * ((∑ j, x.n j * g.dH0 x.T j) * x.T + ∑ j, x.n j * g.H0 x.T j)
/-- `J['h','n']` (props_calcs.py:156). -/
noncomputable def J_h_n (g : Gas ne np) (x : PropsIn ne np) (j : Fin np) : ℝ :=
  R_ENG * x.T * g.H0 x.T j
open Classical in
/-- `J['S','n']` (props_calcs.py:158-161), zeroed for trace species. -/
noncomputable def J_S_n (g : Gas ne np) (x : PropsIn ne np) (j : Fin np) : ℝ :=
  if x.n j ≤ TRACE then 0 else
    R_ENG * (g.S0 x.T j + Real.log x.nMoles - Real.log (x.P / P_REF) - Real.log (x.n j) - 1)
/-- `J['S','T']` (props_calcs.py:162). -/
noncomputable def J_S_T (g : Gas ne np) (x : PropsIn ne np) : ℝ := R_ENG * ∑ j, x.n j * g.dS0 x.T j
/-- `J['S','P']` (props_calcs.py:163). -/
noncomputable def J_S_P (x : PropsIn ne np) : ℝ := -R_ENG * ∑ j, x.n j / x.P
/-- `J['S','n_moles']` (props_calcs.py:164). -/
noncomputable def J_S_nMoles (x : PropsIn ne np) : ℝ := R_ENG * (∑ j, x.n j) / x.nMoles
/-- `J['rho','T']` (props_calcs.py:142, 165). -/
noncomputable def J_rho_T (x : PropsIn ne np) : ℝ := -x.P / (x.nMoles * R_SI * x.T ^ 2) * 100
/-- `J['rho','n_moles']` (props_calcs.py:166). -/
noncomputable def J_rho_nMoles (x : PropsIn ne np) : ℝ := -x.P / (x.nMoles ^ 2 * R_SI * x.T) * 100
/-- `J['rho','P']` (props_calcs.py:167). -/
noncomputable def J_rho_P (x : PropsIn ne np) : ℝ := 1 / (x.nMoles * R_SI * x.T) * 100
/-- `J['Cp','n']` (props_calcs.py:169-174). -/
noncomputable def J_Cp_n (g : Gas ne np) (x : PropsIn ne np) (j : Fin np) : ℝ :=
  R_ENG * (g.Cp0 x.T j + g.H0 x.T j ^ 2)
    - ∑ i : Fin ne, R_ENG * g.aij i j * g.H0 x.T j * x.resultT i.castSucc
    - R_ENG * g.H0 x.T j * x.resultT (Fin.last ne)
/-- `J['Cp','result_T']` (props_calcs.py:177-182). -/
noncomputable def J_Cp_rT (g : Gas ne np) (x : PropsIn ne np) (r : Fin (ne + 1)) : ℝ :=
  Fin.lastCases (motive := fun _ => ℝ) (-R_ENG * ∑ j, x.n j * g.H0 x.T j)
    (fun i => -R_ENG * ∑ j, g.aij i j * (x.n j * g.H0 x.T j)) r
/-- `J['Cp','T']` (props_calcs.py:184-185). -/
noncomputable def J_Cp_T (g : Gas ne np) (x : PropsIn ne np) : ℝ :=
  (x.dCpe_dT g + x.dCpf_dT g) * R_ENG
/-- `J['Cv','n']` (props_calcs.py:187). -/
noncomputable def J_Cv_n (g : Gas ne np) (x : PropsIn ne np) (j : Fin np) : ℝ := x.J_Cp_n g j
/-- `J['Cv','n_moles']` (props_calcs.py:189-190). -/
noncomputable def J_Cv_nMoles (x : PropsIn ne np) : ℝ := R_ENG * x.dlnVqdlnT ^ 2 / x.dlnVqdlnP
/-- `J['Cv','T']` (props_calcs.py:191). -/
noncomputable def J_Cv_T (g : Gas ne np) (x : PropsIn ne np) : ℝ := x.J_Cp_T g
/-- `J['Cv','result_P']` (props_calcs.py:194-196). -/
noncomputable def J_Cv_rP (x : PropsIn ne np) (r : Fin (ne + 1)) : ℝ :=
  if r = Fin.last ne then -R_ENG * x.nMoles * (x.dlnVqdlnT / x.dlnVqdlnP) ^ 2 else 0
/-- `J['Cv','result_T']` (props_calcs.py:198-199). -/
noncomputable def J_Cv_rT (g : Gas ne np) (x : PropsIn ne np) (r : Fin (ne + 1)) : ℝ :=
  if r = Fin.last ne then
    x.J_Cp_rT g r - x.nMoles * R_ENG / x.dlnVqdlnP * (2 * x.dlnVqdlnT)
  else x.J_Cp_rT g r
/-- `J['gamma','n']` (props_calcs.py:202). -/
noncomputable def J_gamma_n (g : Gas ne np) (x : PropsIn ne np) (j : Fin np) : ℝ :=
  x.J_Cp_n g j * (x.Cp g / x.Cv g - 1) / (x.dlnVqdlnP * x.Cv g)
/-- `J['gamma','n_moles']` (props_calcs.py:203). -/
noncomputable def J_gamma_nMoles (g : Gas ne np) (x : PropsIn ne np) : ℝ :=
  x.Cp g / x.dlnVqdlnP / x.Cv g ^ 2 * x.J_Cv_nMoles
/-- `J['gamma','T']` (props_calcs.py:204). -/
noncomputable def J_gamma_T (g : Gas ne np) (x : PropsIn ne np) : ℝ :=
  x.J_Cp_T g / x.dlnVqdlnP / x.Cv g * (x.Cp g / x.Cv g - 1)
/-- `J['gamma','result_T']` (props_calcs.py:207-210). -/
noncomputable def J_gamma_rT (g : Gas ne np) (x : PropsIn ne np) (r : Fin (ne + 1)) : ℝ :=
  if r = Fin.last ne then
    (-x.J_Cp_rT g r / x.Cv g + x.Cp g / x.Cv g ^ 2 * x.J_Cv_rT g r) / x.dlnVqdlnP
  else 1 / x.Cv g / x.dlnVqdlnP * x.J_Cp_rT g r * (x.Cp g / x.Cv g - 1)
/-- `J['gamma','result_P']` (props_calcs.py:212-214). -/
noncomputable def J_gamma_rP (g : Gas ne np) (x : PropsIn ne np) (r : Fin (ne + 1)) : ℝ :=
  if r = Fin.last ne then
    x.Cp g / x.Cv g / x.dlnVqdlnP * (x.J_Cv_rP r / x.Cv g + 1 / x.dlnVqdlnP)
  else 0

end PropsIn
end PyCycle
