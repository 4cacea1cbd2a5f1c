import Verif.Model.MultiPoint
import Verif.Spec.Solved
import Verif.Spec.BleedNames

/-! # Multipoint problems: which are in order, and their points on their own -/

namespace PyCycle.OM

/-- In the state `E` of the problem, point `o` is in state `V`: a solved state of its cycle, whose outputs the problem
reports under `point.variable`, and whose inputs are the problem's: the cycle parameters, the others under
`point.variable`. -/
structure Multi.Flies (m : Multi) (E : Env) (o : Point) (V : Env) : Prop where
  solved : o.cycle.Solved V
  outs : ∀ n ∈ o.cycle.group.wiring.outs, V.num n = E.num (o.name ++ "." ++ n) ∧ V.vec n = E.vec (o.name ++ "." ++ n)
  ins : ∀ n ∈ o.cycle.group.wiring.externals, n ∉ m.params →
    V.num n = E.num (o.name ++ "." ++ n) ∧ V.vec n = E.vec (o.name ++ "." ++ n)
  params : ∀ n ∈ o.cycle.group.wiring.externals, n ∈ m.params → V.num n = E.num n ∧ V.vec n = E.vec n

/-- The calls of a multipoint class make sense: points have different names, their cycles are accepted, every cycle
parameter is a free input of every point, what is passed from design to off design is an output there and a free input
here, no input is fed twice. -/
structure Multi.Sound (m : Multi) : Prop where
  names : (m.points.map (·.name)).Nodup
  plain : ∀ o ∈ m.points, Plain o.name
  accepted : ∀ o ∈ m.points, o.cycle.group.wiring.Accepted
  locals : ∀ o ∈ m.points, ∀ s ∈ o.cycle.others, s.Local
  params : ∀ n ∈ m.params, ∀ o ∈ m.points, n ∈ o.cycle.group.wiring.externals
  gives : ∀ c ∈ m.desOd, c.1 ∈ m.des.cycle.group.wiring.outs
  takes : ∀ c ∈ m.desOd, ∀ o ∈ m.ods, c.2 ∈ o.cycle.group.wiring.externals ∧ c.2 ∉ m.params
  once : (m.desOd.map (·.2)).Nodup
  extraOut : ∀ x ∈ m.extra, ∃ o ∈ m.points, o.name = x.1.1 ∧ x.1.2 ∈ o.cycle.group.wiring.outs
  extraIn : ∀ x ∈ m.extra, ∃ o ∈ m.points, o.name = x.2.1 ∧ x.2.2 ∈ o.cycle.group.wiring.externals ∧ x.2.2 ∉ m.params
    ∧ x.2.2 ∉ m.desOd.map (·.2)
  extraOnce : (m.extra.map (·.2)).Nodup

/-- Off design these variables have, in every solved state, the values they have at the design point. -/
def Multi.Keeps (m : Multi) (names : List String) : Prop := ∀ E, m.cycle.Solved E → ∀ o ∈ m.ods, ∀ n ∈ names,
  E.num (o.name ++ "." ++ n) = E.num (m.des.name ++ "." ++ n)

/-- Areas behind elements. -/
def exitAreas (xs : List String) : List String := xs.map fun x => x ++ "." ++ "Fl_O:stat:area"

/-- Map scalars of compressors and turbines. -/
def mapScalars (comps turbs : List String) : List String :=
  (comps.flatMap fun x => ["s_Wc", "s_PR", "s_eff", "s_Nc"].map fun v => x ++ "." ++ v)
  ++ turbs.flatMap fun x => ["s_Wp", "s_PR", "s_eff", "s_Np"].map fun v => x ++ "." ++ v

end PyCycle.OM
