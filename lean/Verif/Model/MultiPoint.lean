import Verif.Model.DesOdConns
import Verif.Model.CycleGroup

/-! # A multipoint problem as a group

An `MPCycle` (mp_cycle.py:197-277) is an OpenMDAO group whose subsystems are points, each a cycle; `configure` promotes
the cycle parameters from all points and connects the design point to the off-design points. Which promotions and
connections a history of calls leads to is in `Verif.Model.MPCycle`; here is what the resulting group computes. -/

namespace PyCycle.OM

/-- A point: `pyc_add_pnt(name, cycle)` (mp_cycle.py:236-247). -/
structure Point where
  name : String
  cycle : Cycle

/-- A multipoint problem after `configure`: the design point, the off-design points, the names given to
`pyc_add_cycle_param`, the pairs (output at design, input off design) of `pyc_connect_des_od` and of the elements'
`default_des_od_conns`, and the connections the class makes between points with `connect`, each end a pair (point,
variable). -/
structure Multi where
  des : Point
  ods : List Point
  params : List String
  desOd : List (String × String)
  extra : List ((String × String) × (String × String)) := []

namespace Multi

/-- All points. -/
def points (m : Multi) : List Point := m.des :: m.ods

/-- A point as a subsystem: the cycle parameters are promoted from it (mp_cycle.py:255-260), each under its own name. -/
def member (m : Multi) (o : Point) : Member := ⟨o.name, o.cycle.group, m.params.map .var, []⟩

/-- Connections from the design point to every off-design point (mp_cycle.py:263-277). -/
def passes (m : Multi) : List (String × String) :=
  m.desOd.flatMap fun c => m.ods.map fun o => (m.des.name ++ "." ++ c.1, o.name ++ "." ++ c.2)

/-- The group. Values of `set_input_defaults` and solvers are left out. -/
def cycle (m : Multi) : Cycle :=
  { members := m.points.map m.member
    links := []
    others := []
    conns := m.passes ++ m.extra.map fun x => (x.1.1 ++ "." ++ x.1.2, x.2.1 ++ "." ++ x.2.2) }

end Multi
end PyCycle.OM
