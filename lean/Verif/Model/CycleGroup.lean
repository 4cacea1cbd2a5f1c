import Verif.Model.OMGroup
import Verif.Model.ConnectFlow

/-! # A cycle as a group

A `Cycle` (mp_cycle.py:13-195) is an OpenMDAO group whose `setup`, written by the user, adds elements with
`add_subsystem`, joins their flow stations with `pyc_connect_flow`, and adds further components and plain
connections (balances, shafts, performance). What the set-up walk passes between elements (port data) is in
`Verif.Model.FlowGraph`; here is what the joined group computes. -/

namespace PyCycle.OM

/-- An element of a cycle: `add_subsystem(name, element, promotes_inputs, promotes_outputs)` (mp_cycle.py:52-69). -/
structure Member where
  name : String
  group : Group
  promI : List Prom
  promO : List Prom

/-- As a subsystem. -/
def Member.sub (m : Member) : Sub := m.group.asSub m.name m.promI m.promO

/-- `pyc_connect_flow('a.p', 'b.q', connect_stat, connect_tot, connect_w)` (mp_cycle.py:156-177); ports are pairs
(element, port). -/
structure Link where
  src : String × String
  tgt : String × String
  stat : Bool := true
  tot : Bool := true
  w : Bool := true

/-- The name `a.p:v`. -/
def FlowVar.render (v : FlowVar) : String := String.intercalate "." v.port ++ ":" ++ v.var

/-- The connections it makes. -/
def Link.conns (l : Link) : List (String × String) :=
  (connectFlowCalls [l.src.1, l.src.2] [l.tgt.1, l.tgt.2] l.stat l.tot l.w).map fun c =>
    (FlowVar.render c.1, FlowVar.render c.2)

/-- A cycle after `setup`: elements, links, other subsystems, other connections. -/
structure Cycle where
  members : List Member
  links : List Link
  others : List Sub
  conns : List (String × String)

/-- As a group. OpenMDAO's rules do not depend on the order of the calls. -/
def Cycle.group (c : Cycle) : Group :=
  ⟨c.members.map Member.sub ++ c.others, c.links.flatMap Link.conns ++ c.conns⟩

/-- What an element sees: its outputs, and the values its inputs take, under its own names. -/
def Cycle.view (c : Cycle) (E : Env) (m : Member) : Env :=
  ⟨fun n => if n ∈ m.group.wiring.outs then E.num (m.sub.outName n)
      else E.num (c.group.wiring.src (m.sub.inName n)),
   fun n => if n ∈ m.group.wiring.outs then E.vec (m.sub.outName n)
      else E.vec (c.group.wiring.src (m.sub.inName n))⟩

end PyCycle.OM
