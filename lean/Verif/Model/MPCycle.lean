import Mathlib.Data.List.Infix

/-! # Model of `MPCycle` (pycycle/mp_cycle.py:197-277) as a state machine -/

namespace PyCycle.MP

/-- The `design` option of a point: the code tests `is True` / `is False`
(mp_cycle.py:237, 243), so any other Python value (e.g. `1`, `None`) is a third case. -/
inductive DesignOpt
  | isTrue | isFalse | other
  deriving DecidableEq, Repr

/-- The `skip` argument of `pyc_use_default_des_od_conns`: `None`, a list of names, or a
string (tested with Python's `in`, i.e. as a substring; mp_cycle.py:270). -/
inductive Skip
  | none | names (l : List String) | text (s : String)
  deriving DecidableEq, Repr

/-- Python's `elem.name in skip` with the `skip is not None` guard (mp_cycle.py:270). -/
def Skip.skips : Skip → String → Bool
  | .none, _ => false
  | .names l, n => decide (n ∈ l)
  | .text s, n => decide (n.toList <:+: s.toList)

/-- Attributes of an `MPCycle` (mp_cycle.py:199-205). `V` is the type of (value, units)
pairs. Points are represented by their name; `subs` are all subsystem names already
added (OpenMDAO's own bookkeeping, needed because `add_subsystem` rejects duplicates). -/
structure State (V : Type) where
  cycleParams : List (String × V) := []
  desPnt : Option String := none
  odPnts : List String := []
  desOd : List (String × String) := []
  useDefault : Bool := false
  skip : Skip := .none
  subs : List String := []

/-- API calls. -/
inductive Op (V : Type)
  | addCycleParam (name : String) (val : V)
  | addPnt (name : String) (design : DesignOpt)
  | connectDesOd (src tgt : String)
  | useDefaultConns (skip : Skip)

/-- Outcomes: returned normally or raised. `nameClash` is OpenMDAO's error for a duplicate
subsystem name. -/
inductive Out
  | ok | valueError | nameClash
  deriving DecidableEq, Repr

/-- `pyc_add_cycle_param` (mp_cycle.py:208-215). -/
def addCycleParam {V} (s : State V) (name : String) (val : V) : State V × Out :=
  if name ∈ s.cycleParams.map Prod.fst then (s, .valueError)
  else ({ s with cycleParams := s.cycleParams ++ [(name, val)] }, .ok)

/-- `pyc_connect_des_od` (mp_cycle.py:217-224). -/
def connectDesOd {V} (s : State V) (src tgt : String) : State V × Out :=
  if s.desPnt = none then (s, .valueError)
  else if s.odPnts = [] then (s, .valueError)
  else ({ s with desOd := s.desOd ++ [(src, tgt)] }, .ok)

/-- `pyc_use_default_des_od_conns` (mp_cycle.py:226-234). -/
def useDefaultConns {V} (s : State V) (skip : Skip) : State V × Out :=
  if s.desPnt = none then (s, .valueError)
  else if s.odPnts = [] then (s, .valueError)
  else ({ s with skip := skip, useDefault := true }, .ok)

/-- `pyc_add_pnt` (mp_cycle.py:236-247). A point whose `design` option is neither `True`
nor `False` is silently not added. -/
def addPnt {V} (s : State V) (name : String) : DesignOpt → State V × Out
  | .isTrue =>
    if s.desPnt ≠ none then (s, .valueError)
    else if name ∈ s.subs then (s, .nameClash)
    else ({ s with subs := s.subs ++ [name], desPnt := some name }, .ok)
  | .isFalse =>
    if name ∈ s.subs then (s, .nameClash)
    else ({ s with subs := s.subs ++ [name], odPnts := s.odPnts ++ [name] }, .ok)
  | .other => (s, .ok)

/-- One API call. -/
def step {V} (s : State V) : Op V → State V × Out
  | .addCycleParam n v => addCycleParam s n v
  | .addPnt n d => addPnt s n d
  | .connectDesOd a b => connectDesOd s a b
  | .useDefaultConns k => useDefaultConns s k

/-- State after a history of calls, starting from `__init__` (mp_cycle.py:199-205). A
rejected call raises; the history continues with the caller having caught it. -/
def run {V} (h : List (Op V)) : State V := h.foldl (fun s op => (step s op).1) {}

/-- What `configure` issues. -/
inductive Cmd (V : Type)
  | setInputDefaults (name : String) (val : V)
  | promotes (pnt name : String)
  | connect (srcPnt src tgtPnt tgt : String)

/-- An element of the design point: its name and its `default_des_od_conns`, if defined. -/
structure ElemConns where
  name : String
  conns : Option (List (String × String))

/-- First loop of `configure` (mp_cycle.py:255-260), given the design point's name. -/
def paramCmds {V} (s : State V) (d : String) : List (Cmd V) :=
  s.cycleParams.flatMap (fun pv =>
    [.setInputDefaults pv.1 pv.2, .promotes d pv.1] ++ s.odPnts.map (fun p => .promotes p pv.1))

/-- Second loop of `configure` (mp_cycle.py:263-265). -/
def pairCmds {V} (s : State V) (d : String) : List (Cmd V) :=
  s.desOd.flatMap (fun st => s.odPnts.map (fun p => .connect d st.1 p st.2))

/-- Third loop of `configure` (mp_cycle.py:269-277). `elems` is `_des_pnt._elements`, a
Python set, in its (arbitrary) iteration order. The `except AttributeError` (line 276)
is only taken for elements without `default_des_od_conns`. -/
def defaultCmds {V} (s : State V) (d : String) (elems : List ElemConns) : List (Cmd V) :=
  elems.flatMap (fun e =>
    if s.skip.skips e.name then [] else
    match e.conns with
    | none => []
    | some cs => cs.flatMap (fun st =>
        s.odPnts.map (fun p => .connect d (e.name ++ "." ++ st.1) p (e.name ++ "." ++ st.2))))

/-- `configure` (mp_cycle.py:250-277). `none` = `AttributeError`, raised when
`self._des_pnt` is `None` and one of the loops needs its name. -/
def configure {V} (s : State V) (elems : List ElemConns) : Option (List (Cmd V)) :=
  match s.desPnt with
  | none =>
    if s.cycleParams ≠ [] then none
    else if s.desOd ≠ [] ∧ s.odPnts ≠ [] then none
    else if s.useDefault then none
    else some []
  | some d =>
    some (paramCmds s d ++ pairCmds s d ++ (if s.useDefault then defaultCmds s d elems else []))

end PyCycle.MP
