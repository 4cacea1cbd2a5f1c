import Verif.Model.PyDict

/-! # `ThermoAdd.output_port_data` (CEA), pycycle/thermo/cea/thermo_add.py:28-57 -/

namespace PyCycle

/-- `mix_mode` option (thermo_add.py:21). -/
inductive MixMode | reactant | flow
  deriving DecidableEq, Repr

/-- One entry of `mix_composition` (thermo_add.py:23): a reactant name or a reference to a
composition dictionary. -/
inductive MixItem | name (reactant : String) | dict (ref : Nat)

/-- The `mix_composition` option (thermo_add.py:23): a `str`/`dict`, or a list/tuple. -/
inductive MixArg | single (x : MixItem) | seq (xs : List MixItem)

/-- thermo_add.py:41-43: cast to a tuple. -/
def MixArg.items : MixArg → List MixItem
  | .single x => [x]
  | .seq xs => xs

/-- The dictionary whose items are merged for one `mix_composition` entry: lines 48-50
(`spec.reactants[reactant]`; `KeyError` for an unknown reactant, `TypeError` for an unhashable
dictionary used as a key) or lines 51-53 (`update` with a string raises `ValueError`).
`reactants` is the `spec.reactants` dictionary, whose values are references. -/
def mixItemRef (reactants : PyDict Nat) : MixMode → MixItem → Except PyErr Nat
  | .reactant, .name r =>
    match reactants.get? r with
    | none => .error .keyError
    | some s => .ok s
  | .reactant, .dict _ => .error .typeError
  | .flow, .dict s => .ok s
  | .flow, .name _ => .error .valueError

/-- The `for ...: mixed_flow_elements.update(...)` loop (thermo_add.py:48-53) on the
dictionary `r`. -/
def mixLoop {V} (reactants : PyDict Nat) (mode : MixMode) (r : Nat) :
    DictHeap V → List MixItem → Except PyErr (DictHeap V)
  | h, [] => .ok h
  | h, x :: xs =>
    match mixItemRef reactants mode x with
    | .error e => .error e
    | .ok s =>
      match h.updateAt r s with
      | .error e => .error e
      | .ok h' => mixLoop reactants mode r h' xs

/-- `ThermoAdd.output_port_data` (thermo_add.py:28-57): returns the new heap and the reference
of the returned dictionary. `air` is the reference of `CEA_AIR_COMPOSITION` (lines 36-37). -/
def outputPortData {V} (h : DictHeap V) (reactants : PyDict Nat) (air : Nat)
    (inflow : Option Nat) (mode : MixMode) (mix : MixArg) : Except PyErr (DictHeap V × Nat) :=
  match h.copy (inflow.getD air) with
  | .error e => .error e
  | .ok (h₁, r) =>
    match mixLoop reactants mode r h₁ mix.items with
    | .error e => .error e
    | .ok h₂ => .ok (h₂, r)

/-- `ThermoAdd.output_port_data` of the TABULAR method (thermo/tabular/thermo_add.py:30-44):
there is no `return` statement, so the result is always `None` (modelled as `none`); in
reactant mode `sorted_compo.index(reactant)` raises `ValueError` for an unknown reactant. -/
def outputPortDataTab {V} (inflow : PyDict V) (mode : MixMode) (reactant : String) :
    Except PyErr (Option (PyDict V)) :=
  match mode with
  | .reactant => if reactant ∈ inflow.sortedKeys then .ok none else .error .valueError
  | .flow => .ok none

end PyCycle
