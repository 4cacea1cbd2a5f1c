import Verif.Model.ElementBase

/-! # C08, C39, C40 -/

namespace PyCycle

/-- C08. Any sequence of reads of a fresh deprecated constant returns the dictionary's own
values, and warns on the first read and on no other. -/
theorem C08_reads {V} (data : String → Option V) (ks : List String) :
    ((DepDict.mk data false).reads ks).map ReadOut.value = ks.map data ∧
    ((DepDict.mk data false).reads ks).map ReadOut.warned =
      (List.range ks.length).map (fun i => decide (i = 0)) := by
  have warned : ∀ ks : List String, ((DepDict.mk data true).reads ks).map ReadOut.value = ks.map data ∧
      ((DepDict.mk data true).reads ks).map ReadOut.warned = ks.map (fun _ => false) := by
    intro ks
    induction ks with
    | nil => simp [DepDict.reads]
    | cons k ks ih => simp [DepDict.reads, DepDict.getItem, ih.1, ih.2]
  cases ks with
  | nil => simp [DepDict.reads]
  | cons k ks =>
    obtain ⟨h1, h2⟩ := warned ks
    simp only [DepDict.reads, DepDict.getItem, Bool.false_eq_true, if_false, List.map_cons, h1, h2,
      true_and, List.length_cons, List.range_succ_eq_map, List.map_map]
    congr 1
    apply List.ext_getElem <;> simp

example : ((DepDict.mk (fun k => if k = "N" then some 7 else none) false).reads
    ["N", "X", "N"]).map (fun r => (r.value, r.warned)) =
    [(some 7, true), (none, false), (some 7, false)] := by decide +kernel

/-- C39. `copy_flow` from an input port succeeds iff that port has data; it then stores
exactly that data under the output port and changes nothing else. -/
theorem C39_copy_flow_port {D} (e : ElemPorts D) (p out : String) :
    (∀ x, e.flI p = some x → ∃ e', copyFlow e (.str p) out = .ok e' ∧ e'.flI = e.flI ∧
      e'.flO out = some x ∧ ∀ q, q ≠ out → e'.flO q = e.flO q) ∧
    (e.flI p = none → copyFlow e (.str p) out = .error .keyError) := by
  constructor
  · intro x hx
    refine ⟨{ e with flO := fun q => if q = out then some x else e.flO q },
      by simp [copyFlow, hx], rfl, by simp, ?_⟩
    intro q hq; simp [hq]
  · intro h; simp [copyFlow, h]

/-- C39. `copy_flow` from a mixer stores the mixer's port data; any other kind of source is
rejected, storing nothing. -/
theorem C39_copy_flow_other {D} (e : ElemPorts D) (x : D) (out : String) :
    (∃ e', copyFlow e (.thermoAdd x) out = .ok e' ∧ e'.flI = e.flI ∧
      e'.flO out = some x ∧ ∀ q, q ≠ out → e'.flO q = e.flO q) ∧
    copyFlow e (.other x) out = .error .valueError := by
  refine ⟨⟨_, rfl, rfl, by simp, ?_⟩, rfl⟩
  intro q hq; simp [hq]

/-- C39. `init_output_flow` stores exactly one datum. -/
theorem C39_init_output_flow {D} (ofStr : String → D) (e : ElemPorts D) (x : D) (out : String) :
    (initOutputFlow ofStr e out (.other x)).flO out = some x ∧
    (initOutputFlow ofStr e out (.thermoAdd x)).flO out = some x ∧
    ∀ src q, q ≠ out → (initOutputFlow ofStr e out src).flO q = e.flO q ∧
      (initOutputFlow ofStr e out src).flI = e.flI := by
  refine ⟨by simp [initOutputFlow], by simp [initOutputFlow], ?_⟩
  intro src q hq; simp [initOutputFlow, hq]

/-- C39. A compressor (or bleed extraction) with any list of bleeds gives `Fl_O` and every
bleed port the data of its inflow, and touches no other port; without inflow data it
fails. -/
theorem C39_compressor_ports {D} (bleeds : List String) (e : ElemPorts D) :
    (∀ x, e.flI "Fl_I" = some x → ∃ e', compressorPorts bleeds e = .ok e' ∧ e'.flI = e.flI ∧
      ∀ q, e'.flO q = if q = "Fl_O" ∨ q ∈ bleeds then some x else e.flO q) ∧
    (e.flI "Fl_I" = none → compressorPorts bleeds e = .error .keyError) := by
  constructor
  · intro x hx
    have key : ∀ (bleeds : List String) (e : ElemPorts D), e.flI "Fl_I" = some x →
        ∃ e', bleeds.foldlM (fun e b => copyFlow e (.str "Fl_I") b) e = Except.ok e' ∧
          e'.flI = e.flI ∧ ∀ q, e'.flO q = if q ∈ bleeds then some x else e.flO q := by
      intro bleeds
      induction bleeds with
      | nil => intro e _; exact ⟨e, rfl, rfl, by simp⟩
      | cons b bs ih =>
        intro e he
        obtain ⟨e', h1, h2, h3⟩ := ih { e with flO := fun q => if q = b then some x else e.flO q } he
        refine ⟨e', ?_, h2, ?_⟩
        · simp only [List.foldlM, copyFlow, he, bind, Except.bind]; exact h1
        · intro q
          rw [h3 q]
          by_cases hq : q ∈ bs <;> by_cases hb : q = b <;> simp [hq, hb]
    obtain ⟨e', h1, h2, h3⟩ := key bleeds
      { e with flO := fun q => if q = "Fl_O" then some x else e.flO q } hx
    refine ⟨e', ?_, h2, ?_⟩
    · simp only [compressorPorts, copyFlow, hx]; exact h1
    · intro q
      rw [h3 q]
      by_cases hq : q ∈ bleeds <;> by_cases hb : q = "Fl_O" <;> simp [hq, hb]
  · intro h; simp [compressorPorts, copyFlow, h]

example : ∃ e', compressorPorts ["b1", "b2"] (ElemPorts.mk (fun p => if p = "Fl_I" then some 3 else none)
    (fun _ => none)) = .ok e' ∧ e'.flO "b2" = some 3 ∧ e'.flO "b3" = none := ⟨_, rfl, rfl, rfl⟩

/-- C40. After `setup`, every child keeps its name and set of declared options; a declared
cycle-level option has the cycle's value, all other options are untouched. -/
theorem C40_options_reach_children {V} (cycle : String → V) (children : List (String × Options V)) :
    (pushDown cycle children).map Prod.fst = children.map Prod.fst ∧
    ∀ i (hi : i < children.length) (opt : String),
      ((pushDown cycle children)[i]'(by simpa [pushDown] using hi)).2 opt =
        (if (opt = "design" ∨ opt = "thermo_method" ∨ opt = "thermo_data") ∧
            (children[i].2 opt).isSome
         then some (cycle opt) else children[i].2 opt) := by
  constructor
  · simp [pushDown]
  · intro i hi opt
    simp only [pushDown, List.getElem_map, cycleLevelOptions, List.foldl_cons, List.foldl_nil]
    generalize children[i].2 = o
    have hp : ∀ (o : Options V) (n x : String), pushOption cycle o n x =
        if x = n ∧ (o x).isSome then some (cycle x) else o x := by
      intro o n x
      unfold pushOption
      by_cases hx : x = n
      · subst hx
        by_cases hs : (o x).isSome <;> simp [hs]
      · by_cases hs : (o n).isSome <;> simp [hs, hx]
    simp only [hp]
    by_cases h1 : opt = "thermo_method"
    · subst h1; simp
    · by_cases h2 : opt = "thermo_data"
      · subst h2; simp
      · by_cases h3 : opt = "design"
        · subst h3; simp
        · simp [h1, h2, h3]

example : (pushDown (fun o => if o = "design" then 1 else 2)
    [("comp", fun o => if o = "design" ∨ o = "statics" then some 9 else none)]).map
      (fun c => (c.1, c.2 "design", c.2 "statics", c.2 "thermo_data")) =
    [("comp", some 1, some 9, none)] := by decide +kernel

end PyCycle
