import Verif.Model.MultiGeared
import Verif.Spec.MultiPoint

/-! # The points of the N+3 problem on their own -/

namespace PyCycle.OM

/-- The inputs of the design point that the problem knows by another name. -/
def N3.renamed : List (String × String) :=
  [("fan.PR", "fan:PRdes"), ("opr_calc.FPR", "fan:PRdes"), ("lpc.PR", "lpc:PRdes"), ("opr_calc.LPCPR", "lpc:PRdes")]

/-- In the state `E` of the problem, the point called `x`, an engine in mode `m`, is in state `V`: a solved state of the
engine, whose outputs the problem reports under `point.variable`, and whose inputs are the problem's: the cycle parameters,
at the design point the pressure ratios of fan and booster, the others under `point.variable`. -/
structure N3.Flies (p : N3Parts) (k : N3Problem) (E : Env) (x : String) (m : N3Mode) (V : Env) : Prop where
  solved : (n3 p m).Solved V
  outs : ∀ n ∈ (n3 p m).group.wiring.outs, V.num n = E.num (x ++ "." ++ n) ∧ V.vec n = E.vec (x ++ "." ++ n)
  ins : ∀ n ∈ (n3 p m).group.wiring.externals, n ∉ N3.params k → (m = .design → n ∉ N3.renamed.map (·.1)) →
    V.num n = E.num (x ++ "." ++ n) ∧ V.vec n = E.vec (x ++ "." ++ n)
  params : ∀ n ∈ N3.params k, V.num n = E.num n ∧ V.vec n = E.vec n
  ratios : m = .design → ∀ c ∈ N3.renamed, V.num c.1 = E.num c.2 ∧ V.vec c.1 = E.vec c.2

/-- Off design these variables have, in every solved state of the problem, the values they have at top of climb. -/
def N3.Keeps (p : N3Parts) (k : N3Problem) (statics : Bool) (names : List String) : Prop :=
  ∀ E, (mpN3 p k statics).Solved E → ∀ o ∈ ["RTO", "SLS", "CRZ"], ∀ n ∈ names,
    E.num (o ++ "." ++ n) = E.num ("TOC" ++ "." ++ n)

end PyCycle.OM
