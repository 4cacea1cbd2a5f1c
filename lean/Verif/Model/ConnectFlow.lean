import Verif.Model.FlowGraph

/-! # The variable connections issued by `pyc_connect_flow`
(pycycle/mp_cycle.py:156-177) and the inputs declared by `FlowIn`
(pycycle/flow_in.py:18-53). -/

namespace PyCycle

/-- A flow-station variable `"<port>:<scope>:<name>"`, e.g. `comp.Fl_O:tot:h`. -/
structure FlowVar where
  port : Key
  var : String
  deriving DecidableEq, Repr

/-- `self.connect(src, tgt)` for a list of same-named variables (mp_cycle.py:165-166,
170-174, 177). -/
def connectSame (src tgt : Key) (vs : List String) : List (FlowVar × FlowVar) :=
  vs.map (fun v => (⟨src, v⟩, ⟨tgt, v⟩))

/-- The (source, target) pairs passed to `connect` by `pyc_connect_flow`
(pycycle/mp_cycle.py:156-177), in order. A `connect` with a list of targets (line 162)
is one pair per target. -/
def connectFlowCalls (src tgt : Key) (connectStat connectTot connectW : Bool) :
    List (FlowVar × FlowVar) :=
  [(⟨src, "tot:composition"⟩, ⟨tgt, "tot:composition"⟩),
   (⟨src, "tot:composition"⟩, ⟨tgt, "stat:composition"⟩)] ++
  (if connectTot then
    connectSame src tgt ["tot:h", "tot:T", "tot:P", "tot:S", "tot:rho", "tot:gamma", "tot:Cp",
      "tot:Cv", "tot:R"]
   else []) ++
  (if connectStat then
    connectSame src tgt ["stat:V", "stat:Vsonic"] ++
    connectSame src tgt ["stat:Cp", "stat:Cv", "stat:MN", "stat:P", "stat:S", "stat:T", "stat:area",
      "stat:gamma", "stat:h", "stat:rho"]
   else []) ++
  (if connectW then connectSame src tgt ["stat:W"] else [])

/-- The input variables declared by `FlowIn` for its port (pycycle/flow_in.py:24-53). -/
def flowInInputs : List String :=
  ["tot:h", "tot:T", "tot:P", "tot:rho", "tot:gamma", "tot:Cp", "tot:Cv", "tot:S", "tot:R",
   "tot:composition",
   "stat:h", "stat:T", "stat:P", "stat:rho", "stat:gamma", "stat:Cp", "stat:Cv", "stat:S", "stat:R",
   "stat:composition",
   "stat:V", "stat:Vsonic", "stat:MN", "stat:area", "stat:Wc", "stat:W", "FAR"]

end PyCycle
