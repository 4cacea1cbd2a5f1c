import Verif.Model.ThermoGroup

/-! # Groups of components, as elements put them together

An element's `setup` (elements/*.py) is a list of `add_subsystem` calls with promotions and a list of
`connect` calls. What these mean is OpenMDAO's rule: inside the group a variable is known by its promoted
name, or by `subsystem.variable` if it is not promoted; an input takes its value from the output of the same
name, else from the source of the connection to it, else it is an input of the group.

Values are real numbers, compositions vectors, each known by its name in the group; unit conversions are
left out (one consistent unit system). -/

namespace PyCycle.OM

/-- Values of the variables of a group, by name: scalars and composition vectors. -/
structure Env where
  num : String → ℝ
  vec : String → ℕ → ℝ

/-- An entry of `promotes`, `promotes_inputs`, `promotes_outputs`: `'v'`, `('v', 't')`, or a pattern
`'p*'`, `'*s'`, `'*m*'`. -/
inductive Prom
  | var (v : String)
  | as (v t : String)
  | pre (p : String)
  | suf (s : String)
  | mid (m : String)
  deriving DecidableEq

/-- Does `m` occur in the list? -/
def occurs (m : List Char) : List Char → Bool
  | [] => m.isEmpty
  | c :: s => m.isPrefixOf (c :: s) || occurs m s

/-- Pattern match. -/
def Prom.fits (v : String) : Prom → Bool
  | .pre p => p.toList.isPrefixOf v.toList
  | .suf s => s.toList.isSuffixOf v.toList
  | .mid m => occurs m.toList v.toList
  | _ => false

/-- Exact entry. -/
def Prom.exact (v : String) : Prom → Option String
  | .var w => if w = v then some v else none
  | .as w t => if w = v then some t else none
  | _ => none

/-- The promoted name of a variable, if it is promoted: exact entries come before patterns. -/
def promoted (ps : List Prom) (v : String) : Option String :=
  match ps.findSome? (Prom.exact v) with
  | some t => some t
  | none => if ps.any (Prom.fits v) then some v else none

/-- The entry that promotes a variable: an exact one, else the first pattern that matches. -/
def taker (ps : List Prom) (v : String) : Option Prom :=
  match ps.find? (fun p => (p.exact v).isSome) with
  | some p => some p
  | none => ps.find? (Prom.fits v)

/-- One `add_subsystem`: declared inputs and outputs, and promotions. -/
structure Decl where
  name : String
  ins : List String
  outs : List String
  promI : List Prom
  promO : List Prom

/-- Name of an input in the group. -/
def Decl.inName (s : Decl) (v : String) : String := (promoted s.promI v).getD (s.name ++ "." ++ v)
/-- Name of an output in the group. -/
def Decl.outName (s : Decl) (v : String) : String := (promoted s.promO v).getD (s.name ++ "." ++ v)

/-- Every entry of `promotes_inputs` and `promotes_outputs` promotes something, an entry of `promotes` (listed
in both here) an input or an output; OpenMDAO refuses entries that find nothing. -/
def Decl.PromotesFound (s : Decl) : Prop :=
  (∀ p ∈ s.promI, (∃ v ∈ s.ins, taker s.promI v = some p) ∨ (p ∈ s.promO ∧ ∃ v ∈ s.outs, taker s.promO v = some p))
  ∧ ∀ p ∈ s.promO, (∃ v ∈ s.outs, taker s.promO v = some p) ∨ (p ∈ s.promI ∧ ∃ v ∈ s.ins, taker s.promI v = some p)

instance (s : Decl) : Decidable s.PromotesFound := by unfold Decl.PromotesFound; infer_instance

/-- The names of a group after `setup`: subsystems and `connect(source, target)` calls. -/
structure Wiring where
  subs : List Decl
  conns : List (String × String)

namespace Wiring

/-- Names of all outputs. -/
def outs (w : Wiring) : List String := w.subs.flatMap fun s => s.outs.map s.outName
/-- Names of all inputs. -/
def ins (w : Wiring) : List String := w.subs.flatMap fun s => s.ins.map s.inName

/-- The name an input takes its value from. -/
def src (w : Wiring) (n : String) : String :=
  if n ∈ w.outs then n else ((w.conns.find? fun c => c.2 = n).map (·.1)).getD n

/-- The inputs left to the outside. -/
def externals (w : Wiring) : List String :=
  ((w.ins.map w.src).filter fun n => !(w.outs.contains n)).dedup

/-- Distinct subsystem names, one producer per name, connections go from an output to an input that has no
producer, at most one to each. -/
def Wired (w : Wiring) : Prop :=
  (w.subs.map (·.name)).Nodup ∧ w.outs.Nodup ∧ (w.conns.map (·.2)).Nodup
  ∧ ∀ c ∈ w.conns, c.1 ∈ w.outs ∧ c.2 ∈ w.ins ∧ c.2 ∉ w.outs

instance (w : Wiring) : Decidable w.Wired := by unfold Wired; infer_instance

/-- The wiring is accepted: moreover every promotion finds a variable. -/
def Accepted (w : Wiring) : Prop := w.Wired ∧ ∀ s ∈ w.subs, s.PromotesFound

instance (w : Wiring) : Decidable w.Accepted := by unfold Accepted; infer_instance

end Wiring

/-- A subsystem with the equations it imposes on its inputs and outputs (under its own names) when it is
converged. -/
structure Sub extends Decl where
  eqn : Env → Env → Prop

/-- A group after `setup`. -/
structure Group where
  subs : List Sub
  conns : List (String × String)

/-- Its names. -/
def Group.wiring (g : Group) : Wiring := ⟨g.subs.map Sub.toDecl, g.conns⟩

/-- What a subsystem reads, under its own names. -/
def Wiring.reads (w : Wiring) (E : Env) (s : Decl) : Env :=
  ⟨fun v => E.num (w.src (s.inName v)), fun v => E.vec (w.src (s.inName v))⟩
/-- What a subsystem writes, under its own names. -/
def writes (E : Env) (s : Decl) : Env := ⟨fun v => E.num (s.outName v), fun v => E.vec (s.outName v)⟩

/-- All subsystems are converged. -/
def Group.Converged (g : Group) (E : Env) : Prop :=
  ∀ s ∈ g.subs, s.eqn (g.wiring.reads E s.toDecl) (writes E s.toDecl)

/-- A group as a subsystem of another one. -/
def Group.asSub (g : Group) (name : String) (promI promO : List Prom) : Sub :=
  { name, ins := g.wiring.externals, outs := g.wiring.outs, promI, promO
    eqn := fun i o => ∃ E : Env, g.Converged E
      ∧ (∀ n ∈ g.wiring.externals, E.num n = i.num n ∧ E.vec n = i.vec n)
      ∧ ∀ n ∈ g.wiring.outs, o.num n = E.num n ∧ o.vec n = E.vec n }

/-! ## Recurring components -/

/-- `PassThrough` (passthrough.py:6-42), promoted with `'*'`. -/
def passThrough (name i o : String) : Sub :=
  { name, ins := [i], outs := [o], promI := [.pre ""], promO := [.pre ""]
    eqn := fun a b => b.num o = a.num i }

/-- The variables `FlowIn` declares for a port (flow_in.py:18-55). -/
def flowVarNames (fl : String) : List String :=
  ["tot:h", "tot:T", "tot:P", "tot:rho", "tot:gamma", "tot:Cp", "tot:Cv", "tot:S", "tot:R",
   "tot:composition", "stat:h", "stat:T", "stat:P", "stat:rho", "stat:gamma", "stat:Cp", "stat:Cv", "stat:S",
   "stat:R", "stat:composition", "stat:V", "stat:Vsonic", "stat:MN", "stat:area", "stat:Wc", "stat:W",
   "FAR"].map fun v => fl ++ ":" ++ v

/-- `FlowIn` (flow_in.py:8-61): reads the port, computes nothing; its output `foo` has a dummy value. -/
def flowIn (name fl : String) (promI promO : List Prom) : Sub :=
  { name, ins := flowVarNames fl, outs := ["foo"], promI, promO, eqn := fun _ _ => True }

/-- `om.BalanceComp` with the balances `(output, lhs, rhs)`: at convergence the sides agree (a bound of the
output may prevent convergence, then nothing is claimed). -/
def balanceComp (bs : List (String × String × String)) (promI promO : List Prom) : Sub :=
  { name := "balance", ins := bs.flatMap fun b => [b.2.1, b.2.2], outs := bs.map (·.1), promI, promO
    eqn := fun i _ => ∀ b ∈ bs, i.num b.2.1 = i.num b.2.2 }

/-! ## The `Thermo` group as a subsystem -/

/-- The names of the variables of `Thermo`. -/
def nm : TG.Var → String
  | .T => "T" | .P => "P" | .Ps => "Ps" | .h => "h" | .S => "S" | .gamma => "gamma" | .Cp => "Cp"
  | .Cv => "Cv" | .rho => "rho" | .R => "R" | .composition => "composition" | .ht => "ht" | .hs => "hs"
  | .Ts => "Ts" | .W => "W" | .MN => "MN" | .V => "V" | .Vsonic => "Vsonic" | .area => "area"
  | .lhsT => "lhs:T" | .rhsT => "rhs:T" | .guessGamt => "guess:gamt" | .guessPt => "guess:Pt"
  | .guessMN => "guess:MN"

/-- The properties of a gas of fixed composition, as functions of temperature and pressure. -/
structure TPGas where
  h : ℝ → ℝ → ℝ
  S : ℝ → ℝ → ℝ
  gamma : ℝ → ℝ → ℝ
  Cp : ℝ → ℝ → ℝ
  Cv : ℝ → ℝ → ℝ
  rho : ℝ → ℝ → ℝ
  R : ℝ → ℝ → ℝ

/-- As the `base_thermo` of `Verif.Model.ThermoGroup`, its opaque composition argument unused. -/
def TPGas.base (g : TPGas) : TG.Base :=
  ⟨fun T P _ => g.h T P, fun T P _ => g.S T P, fun T P _ => g.gamma T P, fun T P _ => g.Cp T P,
   fun T P _ => g.Cv T P, fun T P _ => g.rho T P, fun T P _ => g.R T P⟩

/-- Inputs of the group `Thermo` (thermo.py:37-143; `Wiring.thermoIns_iff` shows they are those of
`TG.setup`). -/
def thermoIns : TG.Mode → List TG.Var
  | .total_TP => [.T, .P, .composition]
  | .total_hP => [.h, .P, .composition]
  | .total_SP => [.S, .P, .composition]
  | .static_MN => [.S, .MN, .ht, .W, .composition, .guessGamt, .guessPt]
  | .static_A => [.S, .area, .ht, .W, .composition, .guessGamt, .guessPt, .guessMN]
  | .static_Ps => [.S, .Ps, .ht, .W, .composition]

/-- The static modes. -/
def isStat : TG.Mode → Bool
  | .static_MN | .static_A | .static_Ps => true
  | _ => false

/-- Promoted outputs of the subsystems of `Thermo`: subsystem, variable, promoted name. -/
def thermoOuts (m : TG.Mode) : List (TG.SubN × TG.Var × TG.Var) :=
  (TG.setup m).subs.flatMap fun s => s.outs.filterMap fun o => o.2.map fun p => (s.name, o.1, p)

/-- Variables `flow_static` copies (unit_comps.py:73-77). -/
def statVars : List TG.Var := [.area, .W, .V, .Vsonic, .MN]

/-- `Thermo(mode, fl_name)` as a subsystem; `gas` gives the properties at a composition. The station
variables are `fl_name:v` (thermo.py:133-143). The composition a static station reports is left open (it is
the default of an unconnected input, `C24_refuted_static_composition`). -/
def thermo (gas : (ℕ → ℝ) → TPGas) (name : String) (m : TG.Mode) (fl : String) (promI promO : List Prom) :
    Sub :=
  { name
    ins := (thermoIns m).map nm
    outs := (thermoOuts m).map (fun o => nm o.2.2) ++ TG.flowVars.map (fun v => fl ++ ":" ++ nm v)
      ++ (if isStat m then statVars.map (fun v => fl ++ ":" ++ nm v) else [])
    promI, promO
    eqn := fun i o => ∃ val : TG.Source → ℝ, TG.Converged m (gas (i.vec "composition")).base val
      ∧ (∀ v ∈ thermoIns m, v ≠ .composition → val (.ext v) = i.num (nm v))
      ∧ (∀ q ∈ thermoOuts m, o.num (nm q.2.2) = val (.out q.1 q.2.1))
      ∧ (∀ v ∈ TG.flowVars, v ≠ .composition → o.num (fl ++ ":" ++ nm v) = val (.out .flow v))
      ∧ (isStat m = true → ∀ v ∈ statVars, o.num (fl ++ ":" ++ nm v) = val (.out .flowStatic v))
      ∧ (isStat m = false → o.vec (fl ++ ":" ++ "composition") = i.vec "composition") }

end PyCycle.OM
