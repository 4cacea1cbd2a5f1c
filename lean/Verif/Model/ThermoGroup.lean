import Verif.Model.StaticPs

/-! # The `Thermo` group (pycycle/thermo/thermo.py:15-188)

`setup` is modelled as the list of subsystems with their promotions and the explicit connections;
what a promoted or connected variable means is OpenMDAO's rule (one producer per promoted name,
an input whose promoted name has no producer is an input of the group, an unpromoted and
unconnected input keeps its default value). -/

namespace PyCycle.TG

/-- Variable names occurring in the group. -/
inductive Var
  | T | P | Ps | h | S | gamma | Cp | Cv | rho | R | composition
  | ht | hs | Ts | W | MN | V | Vsonic | area
  | lhsT | rhsT | guessGamt | guessPt | guessMN
  deriving DecidableEq, Repr

/-- Subsystem names (thermo.py:75, 82, 105, 111/117, 133, 141). -/
inductive SubN | baseThermo | balance | psCalc | psResid | flow | flowStatic
  deriving DecidableEq, Repr, Inhabited

/-- The allowed values of the option `mode` (thermo.py:24-25). -/
inductive Mode | total_TP | total_SP | total_hP | static_MN | static_A | static_Ps
  deriving DecidableEq, Repr

/-- The option strings. -/
def Mode.chars : Mode → List Char
  | .total_TP => ['t','o','t','a','l','_','T','P']
  | .total_SP => ['t','o','t','a','l','_','S','P']
  | .total_hP => ['t','o','t','a','l','_','h','P']
  | .static_MN => ['s','t','a','t','i','c','_','M','N']
  | .static_A => ['s','t','a','t','i','c','_','A']
  | .static_Ps => ['s','t','a','t','i','c','_','P','s']

/-- Python's `sub in s` for strings. -/
def pyIn (sub : List Char) : List Char → Bool
  | [] => sub.isEmpty
  | c :: s => sub.isPrefixOf (c :: s) || pyIn sub s

/-- A subsystem with, for each of its inputs/outputs, the promoted name if it is promoted. -/
structure SubDecl where
  name : SubN
  ins : List (Var × Option Var)
  outs : List (Var × Option Var)
  deriving Inhabited

/-- The group after `setup`. -/
structure Group where
  subs : List SubDecl
  conns : List ((SubN × Var) × (SubN × Var))   -- source, target

/-- Attach promoted names to declared variables: `promotes` lists `(local, promoted)`. -/
def promoteVars (declared : List Var) (promotes : List (Var × Var)) : List (Var × Option Var) :=
  declared.map (fun v => (v, promotes.lookup v))

/-- `in_vars` of base_thermo (thermo.py:56, 60-72). -/
def baseIns (m : List Char) : List (Var × Var) :=
  [(.T, .T), (.composition, .composition)]
  ++ (if pyIn ['T','P'] m then [(.P, .P)] else [])
  ++ (if pyIn ['h','P'] m then [(.P, .P)] else [])
  ++ (if pyIn ['S','P'] m then [(.P, .P)] else [])
  ++ (if pyIn ['s','t','a','t','i','c'] m then [(.P, .Ps)] else [])

/-- `out_vars` of base_thermo (thermo.py:58, 60-73). -/
def baseOuts (m : List Char) : List (Var × Var) :=
  [(.gamma, .gamma), (.Cp, .Cp), (.Cv, .Cv), (.rho, .rho), (.R, .R)]
  ++ (if pyIn ['T','P'] m then [(.S, .S), (.h, .h)] else [])
  ++ (if pyIn ['h','P'] m then [(.S, .S)] else [])
  ++ (if pyIn ['S','P'] m then [(.h, .h)] else [])
  ++ (if pyIn ['s','t','a','t','i','c'] m then [(.h, .h)] else [])

/-- `base_thermo` (thermo.py:75-77): inputs `T, P, composition`, outputs of either method. -/
def baseSub (m : List Char) : SubDecl :=
  { name := .baseThermo
    ins := promoteVars [.T, .P, .composition] (baseIns m)
    outs := promoteVars [.h, .S, .gamma, .Cp, .Cv, .rho, .R] (baseOuts m) }

/-- `balance` (thermo.py:82-99). -/
def balanceSub (m : List Char) : SubDecl × List ((SubN × Var) × (SubN × Var)) :=
  if pyIn ['S','P'] m || pyIn ['s','t','a','t','i','c'] m then
    ({ name := .balance, ins := promoteVars [.lhsT, .rhsT] [(.rhsT, .S)]
       outs := promoteVars [.T] [(.T, .T)] },
     [((.baseThermo, .S), (.balance, .lhsT))])
  else if pyIn ['h','P'] m then
    ({ name := .balance, ins := promoteVars [.lhsT, .rhsT] [(.rhsT, .h)]
       outs := promoteVars [.T] [(.T, .T)] },
     [((.baseThermo, .h), (.balance, .lhsT))])
  else ({ name := .balance, ins := [], outs := promoteVars [.T] [(.T, .T)] }, [])

/-- The static components (thermo.py:104-120). -/
def staticSubs (m : List Char) : List SubDecl :=
  if pyIn ['P','s'] m then
    [{ name := .psCalc
       ins := promoteVars [.gamma, .R, .Ts, .ht, .hs, .W, .rho]
         [(.gamma, .gamma), (.R, .R), (.ht, .ht), (.W, .W), (.rho, .rho), (.Ts, .T), (.hs, .h)]
       outs := promoteVars [.MN, .V, .Vsonic, .area]
         [(.MN, .MN), (.V, .V), (.Vsonic, .Vsonic), (.area, .area)] }]
  else if pyIn ['A'] m then
    [{ name := .psResid
       ins := promoteVars [.Ts, .ht, .hs, .R, .gamma, .W, .rho, .guessGamt, .guessPt, .guessMN, .area]
         [(.ht, .ht), (.R, .R), (.gamma, .gamma), (.W, .W), (.rho, .rho), (.area, .area),
          (.guessGamt, .guessGamt), (.guessPt, .guessPt), (.guessMN, .guessMN),
          (.Ts, .T), (.hs, .h)]
       outs := promoteVars [.Ps, .V, .Vsonic, .MN]
         [(.V, .V), (.Vsonic, .Vsonic), (.MN, .MN), (.Ps, .Ps)] }]
  else if pyIn ['M','N'] m then
    [{ name := .psResid
       ins := promoteVars [.Ts, .ht, .hs, .R, .gamma, .W, .rho, .guessGamt, .guessPt, .MN]
         [(.ht, .ht), (.R, .R), (.gamma, .gamma), (.W, .W), (.rho, .rho), (.MN, .MN),
          (.guessGamt, .guessGamt), (.guessPt, .guessPt),
          (.Ts, .T), (.hs, .h)]
       outs := promoteVars [.Ps, .V, .Vsonic, .area]
         [(.V, .V), (.Vsonic, .Vsonic), (.area, .area), (.Ps, .Ps)] }]
  else []

/-- The inputs (and hence outputs) `EngUnitProps` declares (unit_comps.py:55-64). -/
def flowVars : List Var := [.T, .P, .h, .S, .gamma, .Cp, .Cv, .rho, .R, .composition]

/-- `flow` (thermo.py:126-135); in static mode `in_vars` is redefined *without* `composition`
(line 129). Its outputs are promoted to the flow-station name and have no other reader in the
group; they are recorded unpromoted here. -/
def flowSub (m : List Char) : SubDecl :=
  { name := .flow
    ins := promoteVars flowVars
      (if pyIn ['s','t','a','t','i','c'] m then
        [(.T, .T), (.P, .Ps), (.h, .h), (.S, .S), (.gamma, .gamma), (.Cp, .Cp), (.Cv, .Cv),
         (.rho, .rho), (.R, .R)]
      else
        [(.T, .T), (.P, .P), (.h, .h), (.S, .S), (.gamma, .gamma), (.Cp, .Cp), (.Cv, .Cv),
         (.rho, .rho), (.composition, .composition), (.R, .R)])
    outs := promoteVars flowVars [] }

/-- `flow_static` (thermo.py:137-143; unit_comps.py:73-77). -/
def flowStaticSub : SubDecl :=
  { name := .flowStatic
    ins := promoteVars [.area, .W, .V, .Vsonic, .MN]
      [(.area, .area), (.W, .W), (.V, .V), (.Vsonic, .Vsonic), (.MN, .MN)]
    outs := promoteVars [.area, .W, .V, .Vsonic, .MN] [] }

/-- `Thermo.setup` (thermo.py:37-143). -/
def setup (mode : Mode) : Group :=
  let m := mode.chars
  let bal := balanceSub m
  { subs := [baseSub m]
      ++ (if mode ≠ .total_TP then bal.1 :: staticSubs m else [])
      ++ [flowSub m]
      ++ (if pyIn ['s','t','a','t','i','c'] m then [flowStaticSub] else [])
    conns := if mode ≠ .total_TP then bal.2 else [] }

/-- Where an input's value comes from. -/
inductive Source
  | ext (v : Var)                -- an input of the group
  | out (s : SubN) (v : Var)     -- an output of a subsystem
  | default (s : SubN) (v : Var) -- the default value of an unconnected input
  deriving DecidableEq, Repr

/-- The subsystem output promoted as `p`, if any. -/
def Group.producer (g : Group) (p : Var) : Option (SubN × Var) :=
  (g.subs.flatMap (fun s => s.outs.filterMap (fun o =>
    if o.2 = some p then some (s.name, o.1) else none))).head?

/-- OpenMDAO's resolution of an input. -/
def Group.resolve (g : Group) (s : SubN) (i : Var × Option Var) : Source :=
  match (g.conns.find? (fun c => c.2 = (s, i.1))) with
  | some c => .out c.1.1 c.1.2
  | none => match i.2 with
    | none => .default s i.1
    | some p => match g.producer p with
      | some o => .out o.1 o.2
      | none => .ext p

/-- All inputs of the group with their sources. -/
def Group.inputs (g : Group) : List (SubN × Var × Source) :=
  g.subs.flatMap (fun s => s.ins.map (fun i => (s.name, i.1, g.resolve s.name i)))

/-- The value an input `v` of subsystem `s` sees. -/
def Group.read (g : Group) (val : Source → ℝ) (s : SubN) (v : Var) : ℝ :=
  match (g.inputs.find? (fun i => i.1 = s ∧ i.2.1 = v)) with
  | some i => val i.2.2
  | none => 0

/-- The thermodynamic property functions of the `base_thermo` (either method). The composition
vector is represented by one opaque value. -/
structure Base where
  h : ℝ → ℝ → ℝ → ℝ
  S : ℝ → ℝ → ℝ → ℝ
  gamma : ℝ → ℝ → ℝ → ℝ
  Cp : ℝ → ℝ → ℝ → ℝ
  Cv : ℝ → ℝ → ℝ → ℝ
  rho : ℝ → ℝ → ℝ → ℝ
  R : ℝ → ℝ → ℝ → ℝ

/-- The equations of one subsystem at a converged group: explicit components output what they
compute, `BalanceComp` has `lhs = rhs`, `PsResid` its residuals zero. `read` gives the
subsystem's inputs, `val (.out …)` its outputs. An area is finite here. Unit conversions between
the SI and English sides are left out (all values in one consistent unit system). -/
def subEq (mode : Mode) (b : Base) (read : Var → ℝ) (val : Source → ℝ) : SubN → Prop
  | .baseThermo =>
    let T := read .T; let P := read .P; let c := read .composition
    val (.out .baseThermo .h) = b.h T P c ∧ val (.out .baseThermo .S) = b.S T P c
    ∧ val (.out .baseThermo .gamma) = b.gamma T P c ∧ val (.out .baseThermo .Cp) = b.Cp T P c
    ∧ val (.out .baseThermo .Cv) = b.Cv T P c ∧ val (.out .baseThermo .rho) = b.rho T P c
    ∧ val (.out .baseThermo .R) = b.R T P c
  | .balance => read .lhsT = read .rhsT
  | .psCalc =>
    let i : PsCalcIn := ⟨read .gamma, read .R, read .Ts, read .ht, read .hs, read .W, read .rho⟩
    val (.out .psCalc .V) = i.V ∧ val (.out .psCalc .Vsonic) = i.Vsonic
    ∧ val (.out .psCalc .MN) = i.MN ∧ val (.out .psCalc .area) = i.area
  | .psResid =>
    let i : PsIn := ⟨read .Ts, read .ht, read .hs, read .R, read .gamma, read .W, read .rho⟩
    if mode = .static_A then
      i.ConvergedArea (.fin (read .area)) ⟨val (.out .psResid .V), val (.out .psResid .Vsonic),
        val (.out .psResid .MN)⟩
    else
      i.ConvergedMN (read .MN) ⟨val (.out .psResid .V), val (.out .psResid .Vsonic),
        .fin (val (.out .psResid .area))⟩
  | .flow => ∀ v ∈ flowVars, val (.out .flow v) = read v
  | .flowStatic => ∀ v ∈ [Var.area, .W, .V, .Vsonic, .MN], val (.out .flowStatic v) = read v

/-- The group is converged. -/
def Converged (mode : Mode) (b : Base) (val : Source → ℝ) : Prop :=
  ∀ s ∈ (setup mode).subs, subEq mode b ((setup mode).read val s.name) val s.name

end PyCycle.TG
