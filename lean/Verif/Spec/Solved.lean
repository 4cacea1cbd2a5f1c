import Verif.Model.CycleGroup

/-! # A solved cycle

In OpenMDAO every input has a value of its own, which the transfers make equal to the value of the output it is
connected to. -/

namespace PyCycle.OM

/-- Connections hold. -/
def Group.Agrees (g : Group) (E : Env) : Prop := ∀ x ∈ g.conns, E.num x.1 = E.num x.2 ∧ E.vec x.1 = E.vec x.2

/-- A cycle is solved: every subsystem is converged and every connection is transferred. -/
structure Cycle.Solved (c : Cycle) (E : Env) : Prop where
  converged : c.group.Converged E
  agrees : c.group.Agrees E

/-- All inputs get the values of the outputs they are connected to. -/
def Group.transfer (g : Group) (E : Env) : Env :=
  ⟨fun n => E.num (g.wiring.src n), fun n => E.vec (g.wiring.src n)⟩

/-- The equations of a subsystem speak of declared variables only. -/
def Sub.Local (s : Sub) : Prop := ∀ i i' o o' : Env, (∀ v ∈ s.ins, i.num v = i'.num v ∧ i.vec v = i'.vec v) →
  (∀ v ∈ s.outs, o.num v = o'.num v ∧ o.vec v = o'.vec v) → s.eqn i o → s.eqn i' o'

end PyCycle.OM
