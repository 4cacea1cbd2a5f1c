import Mathlib.Data.List.Basic

/-!
# Model of `Cycle` (pycycle/mp_cycle.py:13-195): the flow graph and its set-up walk

Strings are represented by their list of dot-separated segments: the Python string
`"comp.Fl_O"` is the key `["comp", "Fl_O"]`, the element `"comp"` is `["comp"]`.
(`str.split('.')` is injective, so string equality is key equality.)
-/

namespace PyCycle

/-- A dotted name, as the list of its segments (`name.split('.')`). -/
abbrev Key := List String

/-- Node kinds, the values of the `type` node attribute
(pycycle/mp_cycle.py:68, 190, 191). -/
inductive Kind
  | element | outPort | inPort
  deriving DecidableEq, Repr

/-- networkx node attributes used by pyCycle: `type`, `parent`, `port_name`
(pycycle/mp_cycle.py:80-82, 190-191). `none` = attribute absent. -/
structure Attr where
  kind : Option Kind := none
  parent : Option Key := none
  port : Option String := none

/-- `nx.DiGraph` (pycycle/mp_cycle.py:28): nodes and edges in insertion order, plus
node attributes. networkx keeps, per node, successors in insertion order; filtering
the edge list by source preserves that order. -/
structure Graph where
  nodes : List Key := []
  edges : List (Key × Key) := []
  attr : Key → Attr := fun _ => {}

/-- `G.successors(v)` (pycycle/mp_cycle.py:119), and the targets of `G.out_edges(v)`
(pycycle/mp_cycle.py:130). -/
def Graph.succ (G : Graph) (v : Key) : List Key :=
  (G.edges.filter (fun e => e.1 == v)).map (·.2)

/-- `G.predecessors(v)` (pycycle/mp_cycle.py:112). -/
def Graph.pred (G : Graph) (v : Key) : List Key :=
  (G.edges.filter (fun e => e.2 == v)).map (·.1)

/-- networkx `add_node(v)` without attributes: no-op if present. -/
def Graph.touch (G : Graph) (v : Key) : Graph :=
  if v ∈ G.nodes then G else { G with nodes := G.nodes ++ [v] }

/-- networkx `add_node(v, **attrs)`: adds the node if needed and updates its
attributes (attributes not mentioned are kept). -/
def Graph.addNode (G : Graph) (v : Key) (upd : Attr → Attr) : Graph :=
  { G.touch v with attr := fun w => if w = v then upd (G.attr v) else G.attr w }

/-- networkx `add_edge(u, v)`: creates missing end points (without attributes), no-op
if the edge exists. -/
def Graph.addEdge (G : Graph) (u v : Key) : Graph :=
  let G := (G.touch u).touch v
  if (u, v) ∈ G.edges then G else { G with edges := G.edges ++ [(u, v)] }

/-- `''.join(path.split('.')[:-1])` (pycycle/mp_cycle.py:180, 183). Note: joined with
the empty string, so the separators are lost. -/
def elementName (path : Key) : String := String.join path.dropLast

/-- `path.split('.')[-1]` (pycycle/mp_cycle.py:181, 184). -/
def portName (path : Key) : String := path.getLastD ""

/-- The calls on a `Cycle` that shape the flow graph: `add_subsystem(name, subsys)`
(with `isElement := isinstance(subsys, Element)`) and
`pyc_connect_flow(fl_src, fl_target, ...)`. -/
inductive CycleOp
  | addSubsystem (name : String) (isElement : Bool)
  | connectFlow (src tgt : Key)
  deriving DecidableEq

/-- What a `Cycle` remembers about its children for the walk: the flow graph and the
names of children that are `Element`s. -/
structure CycleState where
  graph : Graph := {}
  elems : List String := []

/-- One call (pycycle/mp_cycle.py:55-71 for `add_subsystem`, 179-195 for
`pyc_connect_flow`; the variable connections it issues are in
`Verif.Model.ConnectFlow`). Adding a non-element child does not touch the graph. -/
def CycleState.apply (c : CycleState) : CycleOp → CycleState
  | .addSubsystem name true =>
      { graph := c.graph.addNode [name] (fun a => { a with kind := some .element })
        elems := c.elems ++ [name] }
  | .addSubsystem _ false => c
  | .connectFlow src tgt =>
      let g := c.graph
      let g := g.addNode src (fun _ => ⟨some .outPort, some [elementName src], some (portName src)⟩)
      let g := g.addNode tgt (fun _ => ⟨some .inPort, some [elementName tgt], some (portName tgt)⟩)
      let g := g.addEdge [elementName src] src
      let g := g.addEdge src tgt
      let g := g.addEdge tgt [elementName tgt]
      { c with graph := g }

/-- The cycle after a sequence of calls, starting from `Cycle.initialize`
(pycycle/mp_cycle.py:26-33). -/
def buildCycle (ops : List CycleOp) : CycleState := ops.foldl CycleState.apply {}

/-- Exceptions that `Cycle.setup` can raise. `elementError` stands for anything raised
by an element's own `pyc_setup_output_ports`. -/
inductive SetupErr
  | keyError | attributeError | runtimeError | elementError
  deriving DecidableEq, Repr

/-- Port dictionaries `Fl_I_data` / `Fl_O_data` (pycycle/element_base.py:18-19), of one
element: port name to data. -/
abbrev Ports (D : Type) := String → Option D

/-- Everything `setup` reads and does not change. `isElem` says that
`_get_subsystem(k)` returns an `Element`; `portFn k` is that element's
`pyc_setup_output_ports`, as a function from its `Fl_I_data` to its `Fl_O_data`
(simplification: options are fixed, and an element's method neither changes its
`Fl_I_data` nor other elements, which holds for all elements in pycycle/elements). -/
structure Env (D : Type) where
  G : Graph
  isElem : Key → Bool
  portFn : Key → Ports D → Except SetupErr (Ports D)

/-- The mutable state of the walk: FIFO `queue`, `visited` (a Python set, here in
insertion order), the port dictionaries of all elements, and `calls`, the log of
`pyc_setup_output_ports` invocations (observable, not stored by the code). -/
structure Walk (D : Type) where
  queue : List Key
  visited : List Key
  flI : Key → Ports D
  flO : Key → Ports D
  calls : List Key

/-- `d[e][p] = x` on a family of dictionaries. -/
def setPort {D : Type} (f : Key → Ports D) (e : Key) (p : String) (x : D) : Key → Ports D :=
  fun e' p' => if e' = e ∧ p' = p then some x else f e' p'

/-- One pass of the inner loop over the links of an out port
(pycycle/mp_cycle.py:131-151), for the link `node → tgt`. Attribute access on a missing
element (`None`) is an `AttributeError`; a missing node attribute is a `KeyError`. -/
def deliver {D : Type} (E : Env D) (srcElem : Key) (node : Key) (w : Walk D) (tgt : Key) :
    Except SetupErr (Walk D) :=
  match (E.G.attr tgt).parent with
  | none => .error .keyError
  | some tgtElem =>
    match (E.G.attr node).port, (E.G.attr tgt).port with
    | some outPort, some inPort =>
      if E.isElem srcElem then
        match w.flO srcElem outPort with
        | none => .error .runtimeError
        | some x =>
          if E.isElem tgtElem then
            .ok { w with flI := setPort w.flI tgtElem inPort x }
          else .error .attributeError
      else .error .attributeError
    | _, _ => .error .keyError

/-- The body executed for a node seen for the first time
(pycycle/mp_cycle.py:121-153), including `visited.add(node)`. -/
def process {D : Type} (E : Env D) (kind : Kind) (node : Key) (w : Walk D) :
    Except SetupErr (Walk D) :=
  match kind with
  | .element =>
    if E.isElem node then
      match E.portFn node (w.flI node) with
      | .error e => .error e
      | .ok out =>
        .ok { w with
              flO := fun e => if e = node then out else w.flO e
              calls := w.calls ++ [node]
              visited := w.visited ++ [node] }
    else .error .attributeError
  | .outPort =>
    match (E.G.attr node).parent with
    | none => .error .keyError
    | some srcElem =>
      match (E.G.succ node).foldlM (deliver E srcElem node) w with
      | .error e => .error e
      | .ok w' => .ok { w' with visited := w'.visited ++ [node] }
  | .inPort => .ok { w with visited := w.visited ++ [node] }

/-- One iteration of the `while queue` loop (pycycle/mp_cycle.py:104-153) after
`node = queue.pop(0)`; `w.queue` is already the rest of the queue. Note that the
successors are queued even when the node was visited before (line 119). -/
def iter {D : Type} (E : Env D) (node : Key) (w : Walk D) : Except SetupErr (Walk D) :=
  match (E.G.attr node).kind with
  | none => .error .keyError
  | some kind =>
    if ∀ p ∈ E.G.pred node, p ∈ w.visited then
      let w := { w with queue := w.queue ++ E.G.succ node }
      if node ∈ w.visited then .ok w else process E kind node w
    else .ok w

/-- The `while queue` loop (pycycle/mp_cycle.py:104-153) with a step allowance;
`none` = allowance used up. Termination is a theorem, not an assumption. -/
def loop {D : Type} (E : Env D) : Nat → Walk D → Option (Except SetupErr (Walk D))
  | fuel, w =>
    match w.queue with
    | [] => some (.ok w)
    | node :: rest =>
      match fuel with
      | 0 => none
      | fuel + 1 =>
        match iter E node { w with queue := rest } with
        | .error e => some (.error e)
        | .ok w' => loop E fuel w'

/-- Initial state of the walk (pycycle/mp_cycle.py:87-88): all nodes without incoming
edges, in node order; port dictionaries as left by `Element.__init__`
(pycycle/element_base.py:18-19) - empty. -/
def initWalk {D : Type} (E : Env D) : Walk D where
  queue := E.G.nodes.filter (fun v => (E.G.pred v).isEmpty)
  visited := []
  flI := fun _ _ => none
  flO := fun _ _ => none
  calls := []

/-- `SetupResult E r`: `Cycle.setup` on the environment `E` finishes with result `r`
(an exception or the final state). -/
def SetupResult {D : Type} (E : Env D) (r : Except SetupErr (Walk D)) : Prop :=
  ∃ fuel, loop E fuel (initWalk E) = some r

/-- The environment of a cycle built by a sequence of calls. -/
def cycleEnv {D : Type} (ops : List CycleOp)
    (portFn : String → Ports D → Except SetupErr (Ports D)) : Env D where
  G := (buildCycle ops).graph
  isElem := fun k => decide (∃ n ∈ (buildCycle ops).elems, k = [n])
  portFn := fun k => portFn (k.headD "")

end PyCycle
