import Verif.Model.SpeciesSetup
import Verif.Model.ThermoAddPorts

/-! # `ThermoAdd` of the CEA method: `setup` and `compute`
(pycycle/thermo/cea/thermo_add.py:59-191) -/

namespace PyCycle

open Finset

/-- The permutation-like mapping matrix of thermo_add.py:104-107 and 137-140:
`M[j,i] = 1` where `j = eout.index(ein[i])`, else 0. -/
def idxMap (ein eout : List String) (j : Fin eout.length) (i : Fin ein.length) : ℝ :=
  if j.val = eout.idxOf (ein.get i) then 1 else 0

/-- `M.dot(v)`. -/
noncomputable def idxDot (ein eout : List String) (v : Fin ein.length → ℝ) :
    Fin eout.length → ℝ :=
  fun j => ∑ i, idxMap ein eout j i * v i

/-! ### Reactant mode -/

/-- thermo_add.py:48-50 at the level of values: `inflow.copy()` updated with each reactant. -/
noncomputable def mixedReactants (data : ThermoData) :
    PyDict ℝ → List String → Except PyErr (PyDict ℝ)
  | d, [] => .ok d
  | d, r :: rs =>
    match data.reactants.get? r with
    | none => .error .keyError
    | some f => mixedReactants data (d.update f) rs

/-- `init_fuel_amounts_1kg[reactant]` (thermo_add.py:87-92) for the formula `f`. -/
noncomputable def ifa1kg (data : ThermoData) (eout : List String) (f : PyDict ℝ) :
    Fin eout.length → ℝ :=
  let raw : Fin eout.length → ℝ := fun i => (f.get? (eout.get i)).getD 0 * data.wtOf (eout.get i)
  fun i => raw i / ∑ k, raw k

/-- The attributes set by `setup` in reactant mode. `streams` is
`zip(mix_names, mix_composition)` with each reactant's `init_fuel_amounts_1kg`. -/
structure ReactantAdd where
  inflow : Properties
  mixed : Properties
  streams : List (String × (Fin mixed.elements.length → ℝ))

/-- `setup` in reactant mode (thermo_add.py:59-92, 137-140). -/
noncomputable def reactantSetup (data : ThermoData) (inflow : Option (PyDict ℝ))
    (mixNames mixComposition : List String) : Except PyErr ReactantAdd :=
  match inflow with
  | none => .error .valueError          -- line 72: `Properties(spec, init_elements=None)`
  | some infl =>
    match mixedReactants data infl mixComposition with       -- line 70
    | .error e => .error e
    | .ok mixedDict =>
      match mkProperties data (some infl), mkProperties data (some mixedDict) with   -- 72-80
      | .error e, _ => .error e
      | _, .error e => .error e
      | .ok pin, .ok pmix =>
        .ok { inflow := pin, mixed := pmix
              streams := (mixNames.zip mixComposition).map (fun nr =>
                (nr.1, ifa1kg data pmix.elements ((data.reactants.get? nr.2).getD []))) }

/-- The running values of the loops in `compute`: `b0_out`, `mass_avg_h`, `W_out`. -/
structure AddAcc (n : Nat) where
  b0 : Fin n → ℝ
  hW : ℝ
  W : ℝ

/-- The outputs `composition_out`, `mass_avg_h`, `Wout`. -/
structure AddOut (n : Nat) where
  comp : Fin n → ℝ
  h : ℝ
  W : ℝ

/-- thermo_add.py:147-161: the inflow converted to element mass flows. -/
noncomputable def addStart (pin pmix : Properties) (W h : ℝ) (comp : Fin pin.elements.length → ℝ) :
    AddAcc pmix.elements.length :=
  let b₁ := idxDot pin.elements pmix.elements comp        -- 151
  let b₂ := fun j => b₁ j * pmix.elementWt j              -- 154
  let b₃ := fun j => b₂ j / ∑ k, b₂ k                     -- 155-156
  { b0 := fun j => b₃ j * W, hW := h * W, W := W }        -- 157-161

/-- thermo_add.py:186-191. -/
noncomputable def addFinish (pmix : Properties) (a : AddAcc pmix.elements.length) :
    AddOut pmix.elements.length :=
  { comp := fun j => (a.b0 j / ∑ k, a.b0 k) / pmix.elementWt j
    h := a.hW / a.W
    W := a.W }

/-- The output `{name}:W` in reactant mode (thermo_add.py:167). -/
def reactantW (W : ℝ) (ratio : String → ℝ) (name : String) : ℝ := W * ratio name

/-- `compute` in reactant mode (thermo_add.py:146-171, 186-191). -/
noncomputable def reactantCompute (S : ReactantAdd) (W h : ℝ)
    (comp : Fin S.inflow.elements.length → ℝ) (ratio hmix : String → ℝ) :
    AddOut S.mixed.elements.length :=
  addFinish S.mixed (S.streams.foldl (fun a s =>
    let Wmix := reactantW W ratio s.1
    { b0 := fun j => a.b0 j + s.2 j * Wmix
      hW := a.hW + hmix s.1 * Wmix
      W := a.W + Wmix }) (addStart S.inflow S.mixed W h comp))

/-! ### Flow mode -/

/-- One mixed-in stream: its thermo (from `setup`, lines 98-107) and its inputs (lines
115-124). The dependent packaging of setup data and inputs replaces the Python dictionaries
keyed by mix name. -/
structure MixStream where
  thermo : Properties
  W : ℝ
  h : ℝ
  comp : Fin thermo.elements.length → ℝ

/-- thermo_add.py:51-53 at the level of values. -/
def mixedFlows (d : PyDict ℝ) (flows : List (PyDict ℝ)) : PyDict ℝ :=
  flows.foldl PyDict.update d

/-- thermo_add.py:176-181: the element mass flows a stream adds. -/
noncomputable def mixContribution (pmix : Properties) (s : MixStream) :
    Fin pmix.elements.length → ℝ :=
  let m₁ := fun i => s.comp i * s.thermo.elementWt i         -- 176-177
  let m₂ := fun i => m₁ i / ∑ k, m₁ k                        -- 178
  let m₃ := fun i => m₂ i * s.W                              -- 179
  idxDot s.thermo.elements pmix.elements m₃                  -- 181

/-- `compute` in flow mode (thermo_add.py:146-161, 173-191). -/
noncomputable def flowCompute (pin pmix : Properties) (W h : ℝ)
    (comp : Fin pin.elements.length → ℝ) (streams : List MixStream) :
    AddOut pmix.elements.length :=
  addFinish pmix (streams.foldl (fun a s =>
    { b0 := fun j => a.b0 j + mixContribution pmix s j
      hW := a.hW + s.h * s.W
      W := a.W + s.W }) (addStart pin pmix W h comp))

end PyCycle
