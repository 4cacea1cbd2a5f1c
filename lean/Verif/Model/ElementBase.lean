import Verif.Model.FlowGraph

/-! # `DeprecatedDict` (pycycle/constants.py:6-20), `Element.copy_flow` /
`init_output_flow` (pycycle/element_base.py:30-54) and the option push-down in
`Cycle.add_subsystem` / `Cycle.setup` (pycycle/mp_cycle.py:61-68, 91-96) -/

namespace PyCycle

/-! ### DeprecatedDict -/

/-- A `DeprecatedDict` instance: contents and `_has_warned` (constants.py:8-12). -/
structure DepDict (V : Type) where
  data : String → Option V
  hasWarned : Bool := false

/-- Result of one `d[key]` (constants.py:14-20): the value (`none` = `KeyError`), and
whether a `DeprecationWarning` was emitted. -/
structure ReadOut (V : Type) where
  value : Option V
  warned : Bool

/-- `__getitem__` (constants.py:14-20). -/
def DepDict.getItem {V} (d : DepDict V) (key : String) : DepDict V × ReadOut V :=
  if d.hasWarned then (d, ⟨d.data key, false⟩)
  else ({ d with hasWarned := true }, ⟨d.data key, true⟩)

/-- A sequence of reads. -/
def DepDict.reads {V} (d : DepDict V) : List String → List (ReadOut V)
  | [] => []
  | k :: ks => (d.getItem k).2 :: (d.getItem k).1.reads ks

/-! ### copy_flow / init_output_flow -/

/-- The argument of `copy_flow`/`init_output_flow`: a string, a `ThermoAdd` (with the
result of its `output_port_data()`), or any other Python value. -/
inductive FlowSrc (D : Type)
  | str (port : String)
  | thermoAdd (outputPortData : D)
  | other (val : D)

inductive FlowErr
  | keyError | valueError
  deriving DecidableEq, Repr

/-- The port dictionaries of an element (element_base.py:18-19). -/
structure ElemPorts (D : Type) where
  flI : Ports D
  flO : Ports D

/-- `copy_flow(src_port, output_port)` (element_base.py:30-44). -/
def copyFlow {D} (e : ElemPorts D) (src : FlowSrc D) (outputPort : String) :
    Except FlowErr (ElemPorts D) :=
  match src with
  | .str p =>
    match e.flI p with
    | none => .error .keyError
    | some x => .ok { e with flO := fun q => if q = outputPort then some x else e.flO q }
  | .thermoAdd x => .ok { e with flO := fun q => if q = outputPort then some x else e.flO q }
  | .other _ => .error .valueError

/-- `init_output_flow(port_name, port_data)` (element_base.py:46-54). A string argument is
stored as it is; `ofStr` embeds strings into port data. -/
def initOutputFlow {D} (ofStr : String → D) (e : ElemPorts D) (portName : String) (src : FlowSrc D) :
    ElemPorts D :=
  let x := match src with
    | .thermoAdd x => x
    | .other x => x
    | .str s => ofStr s
  { e with flO := fun q => if q = portName then some x else e.flO q }

/-- Output ports of a compressor: `Fl_O` and every bleed copy the inflow
(pycycle/elements/compressor.py:413-419; same code in bleed_out.py:97-101). -/
def compressorPorts {D} (bleeds : List String) (e : ElemPorts D) : Except FlowErr (ElemPorts D) :=
  match copyFlow e (.str "Fl_I") "Fl_O" with
  | .error x => .error x
  | .ok e => bleeds.foldlM (fun e b => copyFlow e (.str "Fl_I") b) e

/-! ### Option push-down -/

/-- The options dictionary of a child: `none` = not declared. -/
abbrev Options (V : Type) := String → Option V

/-- `if opt in child.options: child.options[opt] = self.options[opt]`
(mp_cycle.py:95-96). -/
def pushOption {V} (cycle : String → V) (child : Options V) (opt : String) : Options V :=
  if (child opt).isSome then fun o => if o = opt then some (cycle opt) else child o else child

/-- The cycle-level options (mp_cycle.py:92). -/
def cycleLevelOptions : List String := ["thermo_method", "thermo_data", "design"]

/-- Push all cycle-level options into every child (mp_cycle.py:93-96). -/
def pushDown {V} (cycle : String → V) (children : List (String × Options V)) :
    List (String × Options V) :=
  children.map (fun c => (c.1, cycleLevelOptions.foldl (pushOption cycle) c.2))

end PyCycle
