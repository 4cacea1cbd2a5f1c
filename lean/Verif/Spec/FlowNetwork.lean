import Verif.Model.FlowGraph
import Mathlib.Logic.Relation

/-! Specification vocabulary for the flow network a user declares on a `Cycle`,
in terms of the calls made, not of the graph the code builds. -/

namespace PyCycle.Spec

/-- Port paths are `element.port` (one level), as in all pyCycle examples. -/
def OneLevel (ops : List CycleOp) : Prop :=
  ∀ s t, CycleOp.connectFlow s t ∈ ops → ∃ a p b q, s = [a, p] ∧ t = [b, q]

/-- No port is used both as a source and as a target. -/
def NoDualUse (ops : List CycleOp) : Prop :=
  ∀ s t s' t', CycleOp.connectFlow s t ∈ ops → CycleOp.connectFlow s' t' ∈ ops → s ≠ t'

/-- Every input port is connected from at most one output port (OpenMDAO rejects a
second connection to the same input). -/
def SingleSource (ops : List CycleOp) : Prop :=
  ∀ s s' t, CycleOp.connectFlow s t ∈ ops → CycleOp.connectFlow s' t ∈ ops → s = s'

/-- `name` was added as an element. -/
def IsElement (ops : List CycleOp) (name : String) : Prop :=
  CycleOp.addSubsystem name true ∈ ops

/-- Some output port of `a` is connected to some input port of `b`. -/
def Feeds (ops : List CycleOp) (a b : String) : Prop :=
  ∃ p q, CycleOp.connectFlow [a, p] [b, q] ∈ ops

/-- `e` lies on a flow loop or downstream of one. -/
def OnOrAfterLoop (ops : List CycleOp) (e : String) : Prop :=
  ∃ c, Relation.TransGen (Feeds ops) c c ∧ Relation.ReflTransGen (Feeds ops) c e

/-- The data-flow equations of the network: every element's outputs are what its port
function makes of its inputs, every connected input carries the (present) data of the
output it is connected from, and unconnected inputs carry nothing. -/
structure IsConfiguration {D : Type} (ops : List CycleOp)
    (portFn : String → Ports D → Except SetupErr (Ports D))
    (I O : String → Ports D) : Prop where
  outputs : ∀ e, IsElement ops e → portFn e (I e) = .ok (O e)
  links : ∀ a p b q, CycleOp.connectFlow [a, p] [b, q] ∈ ops →
    (O a p).isSome ∧ I b q = O a p
  unlinked : ∀ b q, (∀ s, CycleOp.connectFlow s [b, q] ∉ ops) → I b q = none

end PyCycle.Spec
