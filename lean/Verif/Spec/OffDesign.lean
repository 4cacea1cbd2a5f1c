import Verif.Spec.Station

/-! # A design point seen off design -/

namespace PyCycle.OM

/-- The gas at static station `st`, with totals `tot`, is moving: the guards under which the static solvers have a
meaning (C24). -/
structure Flowing (E : Env) (tot st : String) : Prop where
  sound : 0 < E.at st "gamma" * E.at st "R" * E.at st "T"
  dense : 0 < E.at st "rho"
  energy : E.at tot "h" ≠ 0
  mach : 1e-16 ≤ E.at st "MN"
  size : E.at st "area" ≠ 0

/-- `E'` is a converged state of `off` that keeps every input and output `E` has in `des`, and has received what the
connections `cs` pass. -/
structure Redesign (des off : Group) (cs : List (String × String)) (E E' : Env) : Prop where
  converged : off.Converged E'
  keeps : ∀ n, n ∈ des.wiring.outs ∨ n ∈ des.wiring.externals → E'.num n = E.num n ∧ E'.vec n = E.vec n
  passed : ∀ c ∈ cs, E'.num c.2 = E.num c.1

/-- Every input of `off` is an input of `des`, is passed on, or is a starting guess. -/
def Supplied (des off : Group) (cs : List (String × String)) : Prop :=
  ∀ n ∈ off.wiring.externals, n ∈ des.wiring.externals ∨ n ∈ cs.map (·.2) ∨ ∃ s ∈ off.subs, n = s.name ++ ".guess:MN"

end PyCycle.OM
