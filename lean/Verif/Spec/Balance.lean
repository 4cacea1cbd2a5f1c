import Verif.Model.CycleGroup
import Verif.Spec.Station

/-! # Accounts of mass and energy

An element's account says which ports it has, how much mass and energy it takes from outside the flow network
(fuel, heat, shaft power), and under what circumstances its books balance. -/

namespace PyCycle.OM

/-- Mass flow at port `p`. -/
def Env.W (V : Env) (p : String) : ℝ := V.num (p ++ ":stat:W")
/-- Energy flow at port `p`: mass flow times total enthalpy. -/
def Env.H (V : Env) (p : String) : ℝ := V.num (p ++ ":stat:W") * V.num (p ++ ":tot:h")

/-- The account of an element, in terms of what it sees under its own names. -/
structure Account where
  ins : List String
  outs : List String
  /-- The gas at a port, for a composition. -/
  gas : String → (ℕ → ℝ) → TPGas
  /-- Mass taken from outside per unit time. -/
  mass : Env → ℝ
  /-- Energy taken from outside per unit time. -/
  heat : Env → ℝ
  /-- When the books balance. -/
  ok : Env → Prop

/-- The totals at port `p` are a state of the port's gas. -/
def Account.IsState (a : Account) (V : Env) (p : String) : Prop :=
  StateOf (a.gas p (V.vec (p ++ ":tot:composition"))) V (p ++ ":tot")

/-- The books balance: what leaves is what enters plus what is taken from outside. -/
def Account.MassBalance (a : Account) (V : Env) : Prop :=
  (a.outs.map V.W).sum = (a.ins.map V.W).sum + a.mass V
def Account.EnergyBalance (a : Account) (V : Env) : Prop :=
  (a.outs.map V.H).sum = (a.ins.map V.H).sum + a.heat V

/-- The variables of a port a link can carry and the accounts speak of. -/
def portVars : List String :=
  ["stat:W", "tot:composition", "tot:h", "tot:T", "tot:P", "tot:S", "tot:rho", "tot:gamma", "tot:Cp", "tot:Cv", "tot:R"]

/-- The account is right for the group. -/
structure Account.Holds (a : Account) (g : Group) : Prop where
  insNodup : a.ins.Nodup
  outsNodup : a.outs.Nodup
  /-- Inlets are inputs, outlets outputs, of the element. -/
  ins : ∀ p ∈ a.ins, ∀ v ∈ portVars, p ++ ":" ++ v ∈ g.wiring.externals
  outs : ∀ p ∈ a.outs, ∀ v ∈ portVars, p ++ ":" ++ v ∈ g.wiring.outs
  /-- The account speaks only of what can be seen from outside the element. -/
  seen : ∀ V V' : Env, (∀ n, n ∈ g.wiring.externals ∨ n ∈ g.wiring.outs → V.num n = V'.num n ∧ V.vec n = V'.vec n) →
    a.mass V = a.mass V' ∧ a.heat V = a.heat V' ∧ (a.ok V → a.ok V')
  /-- Outlets are states of their gas. -/
  states : ∀ V, g.Converged V → ∀ p ∈ a.outs, a.IsState V p
  mass : ∀ V, g.Converged V → a.ok V → a.MassBalance V
  energy : ∀ V, g.Converged V → a.ok V → (∀ p ∈ a.ins, a.IsState V p) → a.EnergyBalance V

namespace Cycle

variable (c : Cycle) (acc : String → Account)

/-- Ports of the cycle: (element, port). -/
def outlets : List (Member × String) := c.members.flatMap fun m => (acc m.name).outs.map (m, ·)
def inlets : List (Member × String) := c.members.flatMap fun m => (acc m.name).ins.map (m, ·)

/-- Links of a kind start, or end, at a port. -/
def feeds (k : Link → Bool) (q : Member × String) : Bool := c.links.any fun l => k l && (l.src == (q.1.name, q.2))
def fed (k : Link → Bool) (q : Member × String) : Bool := c.links.any fun l => k l && (l.tgt == (q.1.name, q.2))

/-- How many links of a kind start at a port. -/
def copies (k : Link → Bool) (q : Member × String) : ℕ := ((c.links.filter k).map Link.src).count (q.1.name, q.2)

/-- Ports where the network is open, for links of a kind. -/
def openOutlets (k : Link → Bool) : List (Member × String) := (c.outlets acc).filter fun q => !c.feeds k q
def openInlets (k : Link → Bool) : List (Member × String) := (c.inlets acc).filter fun q => !c.fed k q

end Cycle

/-- Links that carry mass. -/
def Link.carriesMass (l : Link) : Bool := l.w
/-- Links that carry mass and energy. -/
def Link.carriesEnergy (l : Link) : Bool := l.w && l.tot

/-- What is needed of a cycle to add up the accounts of its elements. -/
structure Cycle.Network (c : Cycle) (acc : String → Account) : Prop where
  wired : c.group.wiring.Wired
  accounts : ∀ m ∈ c.members, (acc m.name).Holds m.group
  /-- Flow ports keep their names `element.port:variable` in the cycle. -/
  plainIn : ∀ m ∈ c.members, ∀ p ∈ (acc m.name).ins, ∀ v ∈ portVars, promoted m.promI (p ++ ":" ++ v) = none
  plainOut : ∀ m ∈ c.members, ∀ p ∈ (acc m.name).outs, ∀ v ∈ portVars, promoted m.promO (p ++ ":" ++ v) = none
  /-- Links go from an outlet to an inlet of elements of the cycle. -/
  linked : ∀ l ∈ c.links, (∃ m ∈ c.members, m.name = l.src.1 ∧ l.src.2 ∈ (acc m.name).outs)
    ∧ ∃ m ∈ c.members, m.name = l.tgt.1 ∧ l.tgt.2 ∈ (acc m.name).ins

end PyCycle.OM
