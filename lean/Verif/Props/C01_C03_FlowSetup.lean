import Verif.Lemmas.FlowData

/-!
# C01, C02, C03: `Cycle.setup` walks the flow network correctly

All statements range over arbitrary sequences of `add_subsystem` / `pyc_connect_flow`
calls and arbitrary element port functions.
-/

namespace PyCycle
open Spec
variable {D : Type}

/-- C01 (termination). Whatever was declared - any graph, cyclic or not, well-formed or
not - `setup` finishes, with exactly one result. -/
theorem C01_setup_terminates (ops : List CycleOp)
    (portFn : String → Ports D → Except SetupErr (Ports D)) :
    ∃! r, SetupResult (cycleEnv ops portFn) r := by
  obtain ⟨r, hr⟩ := setup_terminates (cycleEnv ops portFn) (build_closed ops)
  exact ⟨r, hr, fun r' hr' => setupResult_unique _ _ _ hr' hr⟩

/-- C01 (at most once, exactly the loop-free elements). After a successful `setup`, no
element's `pyc_setup_output_ports` was called twice, and it was called precisely for
the added elements that are not on or after a flow loop. -/
theorem C01_setup_once (ops : List CycleOp)
    (portFn : String → Ports D → Except SetupErr (Ports D))
    (h1 : OneLevel ops) (h2 : NoDualUse ops) (w : Walk D)
    (h : SetupResult (cycleEnv ops portFn) (.ok w)) :
    w.calls.Nodup ∧
    (∀ k ∈ w.calls, ∃ name, k = [name]) ∧
    ∀ name, [name] ∈ w.calls ↔ IsElement ops name ∧ ¬ OnOrAfterLoop ops name := by
  obtain ⟨hi, _⟩ := setup_inv (build_closed ops) h
  have hat := build_attr ops h1 h2
  refine ⟨?_, ?_, ?_⟩
  · rw [hi.calls_eq]; exact hi.nodup.filter _
  · intro k hk
    rw [hi.calls_eq, List.mem_filter] at hk
    have hkn := hi.visited_nodes k hk.1
    have hke : ((buildCycle ops).graph.attr k).kind = some .element := of_decide_eq_true hk.2
    rcases (mem_build_nodes ops k).1 hkn with ⟨n, _, rfl⟩ | ⟨s, t, hc, h | h | h | h⟩
    · exact ⟨n, rfl⟩
    · exact ⟨_, h⟩
    · rw [h, hat.src s t hc] at hke; simp at hke
    · rw [h, hat.tgt s t hc] at hke; simp at hke
    · exact ⟨_, h⟩
  · intro name
    rw [hi.calls_eq, List.mem_filter]
    constructor
    · rintro ⟨hv, hk⟩
      have hk' : ((buildCycle ops).graph.attr [name]).kind = some .element := of_decide_eq_true hk
      have he : IsElement ops name := by
        by_contra hne; rw [hat.elemOnly name hne] at hk'; simp at hk'
      refine ⟨he, ?_⟩
      rw [← acc_iff_not_onOrAfterLoop, ← acc_graph_iff ops h1 h2]
      exact (visited_iff_acc (build_closed ops) h _ (hi.visited_nodes _ hv)).1 hv
    · rintro ⟨he, hl⟩
      have hn : ([name] : Key) ∈ (buildCycle ops).graph.nodes :=
        (mem_build_nodes ops _).2 (Or.inl ⟨name, he, rfl⟩)
      rw [← acc_iff_not_onOrAfterLoop, ← acc_graph_iff ops h1 h2] at hl
      refine ⟨(visited_iff_acc (build_closed ops) h _ hn).2 hl, ?_⟩
      have : ((cycleEnv ops portFn).G.attr [name]).kind = some .element := hat.elem name he
      simpa using this

/-- C01 (upstream first). If a flows into b and b was set up, then a was set up
before b. -/
theorem C01_upstream_first (ops : List CycleOp)
    (portFn : String → Ports D → Except SetupErr (Ports D))
    (h1 : OneLevel ops) (h2 : NoDualUse ops) (w : Walk D)
    (h : SetupResult (cycleEnv ops portFn) (.ok w))
    (a b : String) (hf : Feeds ops a b) (before after : List Key)
    (hb : w.calls = before ++ [b] :: after) : [a] ∈ before := by
  obtain ⟨hi, _⟩ := setup_inv (build_closed ops) h
  obtain ⟨p, q, hc⟩ := hf
  obtain ⟨e1, e2, e3⟩ := edges_of_conn (portFn := portFn) hc
  rw [elementName_pair] at e1 e3
  rw [hi.calls_eq] at hb
  obtain ⟨l₁, l₂, hl, hf1, hf2⟩ := List.filter_eq_append_iff.1 hb
  obtain ⟨m₁, m₂, hm, hm1, _⟩ := List.filter_eq_cons_iff.1 hf2
  have hvis : w.visited = (l₁ ++ m₁) ++ [b] :: m₂ := by rw [hl, hm]; simp
  have v3 := hi.order _ _ _ hvis _ (mem_pred.2 e3)
  obtain ⟨x1, x2, hx⟩ := List.append_of_mem v3
  have v2 := hi.order x1 [b, q] (x2 ++ [b] :: m₂) (by rw [hvis, hx]; simp) _ (mem_pred.2 e2)
  obtain ⟨y1, y2, hy⟩ := List.append_of_mem v2
  have v1 := hi.order y1 [a, p] (y2 ++ [b, q] :: x2 ++ [b] :: m₂)
    (by rw [hvis, hx, hy]; simp) _ (mem_pred.2 e1)
  have va : ([a] : Key) ∈ l₁ ++ m₁ := by rw [hx, hy]; simp [v1]
  -- `a` is an element, since everything visited under a one-segment key is
  have hat := build_attr ops h1 h2
  have hka : ((cycleEnv ops portFn).G.attr [a]).kind = some .element := by
    obtain ⟨k, hk⟩ := hi.typed [a] (by rw [hvis]; exact List.mem_append_left _ va)
    by_cases he : IsElement ops a
    · exact hat.elem a he
    · have := hat.elemOnly a he
      change ((buildCycle ops).graph.attr [a]).kind = some k at hk
      rw [this] at hk; simp at hk
  rw [← hf1, List.mem_filter]
  rcases List.mem_append.1 va with hva | hva
  · exact ⟨hva, by simpa using hka⟩
  · exact absurd hka (by simpa using hm1 [a] hva)

/-- C02 (delivery). After a successful `setup` of a loop-free network, what the
elements hold solves the data-flow equations of the declared network. -/
theorem C02_setup_delivers (ops : List CycleOp)
    (portFn : String → Ports D → Except SetupErr (Ports D))
    (h1 : OneLevel ops) (h2 : NoDualUse ops) (h3 : SingleSource ops)
    (hac : ∀ e, ¬ OnOrAfterLoop ops e) (w : Walk D)
    (h : SetupResult (cycleEnv ops portFn) (.ok w)) :
    IsConfiguration ops portFn (fun e => w.flI [e]) (fun e => w.flO [e]) := by
  obtain ⟨hi, _⟩ := setup_inv (build_closed ops) h
  obtain ⟨n, hn⟩ := h
  have hd := dataInv_loop ⟨h1, h2, h3⟩ n _ _ (walkInv_init _) dataInv_init hn
  have hvis : ∀ v ∈ (buildCycle ops).graph.nodes,
      Acc (fun a b => (a, b) ∈ (buildCycle ops).graph.edges) v → v ∈ w.visited :=
    fun v hv ha => (visited_iff_acc (build_closed ops) ⟨n, hn⟩ v hv).2 ha
  have hacc : ∀ e, Acc (fun a b => (a, b) ∈ (buildCycle ops).graph.edges) [e] := fun e =>
    (acc_graph_iff ops h1 h2 e).2 ((acc_iff_not_onOrAfterLoop ops e).2 (hac e))
  constructor
  · intro e he
    exact hd.elem e (hvis _ ((mem_build_nodes ops _).2 (Or.inl ⟨e, he, rfl⟩)) (hacc e))
  · intro a p b q hc
    have hb : ([b] : Key) ∈ w.visited := hvis _ ((mem_build_nodes ops _).2
      (Or.inr ⟨_, _, hc, by simp⟩)) (hacc b)
    obtain ⟨e1, e2, e3⟩ := edges_of_conn (portFn := portFn) hc
    rw [elementName_pair] at e3
    exact hd.link a p b q hc (pred_visited hi e2 (pred_visited hi e3 hb))
  · intro b q hno
    exact hd.fresh b q (fun a p hc => absurd hc (hno _))

/-- C02 (success and uniqueness). On a loop-free network whose connected elements were
all added, `setup` succeeds exactly when the data-flow equations have a solution, and
the elements then hold that solution - which is therefore unique. -/
theorem C02_setup_iff_solvable (ops : List CycleOp)
    (portFn : String → Ports D → Except SetupErr (Ports D))
    (h1 : OneLevel ops) (h2 : NoDualUse ops) (h3 : SingleSource ops)
    (hac : ∀ e, ¬ OnOrAfterLoop ops e)
    (hdecl : ∀ a p b q, CycleOp.connectFlow [a, p] [b, q] ∈ ops → IsElement ops a ∧ IsElement ops b) :
    ((∃ w, SetupResult (cycleEnv ops portFn) (.ok w)) ↔ ∃ I O, IsConfiguration ops portFn I O) ∧
    ∀ w I O, SetupResult (cycleEnv ops portFn) (.ok w) → IsConfiguration ops portFn I O →
      ∀ e, IsElement ops e → w.flI [e] = I e ∧ w.flO [e] = O e := by
  have hN : NetOK ops := ⟨h1, h2, h3⟩
  have ag0 : ∀ I O : String → Ports D, Agrees I O (initWalk (cycleEnv ops portFn)) := by
    intro I O n hn; simp [initWalk] at hn
  refine ⟨⟨?_, ?_⟩, ?_⟩
  · rintro ⟨w, h⟩
    exact ⟨_, _, C02_setup_delivers ops portFn h1 h2 h3 hac w h⟩
  · rintro ⟨I, O, hcfg⟩
    obtain ⟨r, n, hn⟩ := setup_terminates (cycleEnv ops portFn) (build_closed ops)
    obtain ⟨w', rfl, _⟩ := loop_ok hN hdecl hcfg n _ _ (walkInv_init _) dataInv_init (ag0 I O) hn
    exact ⟨w', n, hn⟩
  · rintro w I O ⟨n, hn⟩ hcfg e he
    obtain ⟨w', hw', hag⟩ := loop_ok hN hdecl hcfg n _ _ (walkInv_init _) dataInv_init (ag0 I O) hn
    injection hw' with hw'; subst hw'
    apply hag
    refine (visited_iff_acc (build_closed ops) ⟨n, hn⟩ _ ((mem_build_nodes ops _).2 (Or.inl ⟨e, he, rfl⟩))).2 ?_
    exact (acc_graph_iff ops h1 h2 e).2 ((acc_iff_not_onOrAfterLoop ops e).2 (hac e))

/-- C02 (order independence). Two sequences of calls that make the same declarations in
any order (and any multiplicity) either both succeed or both fail, and leave the same
port data in every element. -/
theorem C02_order_independent (ops ops' : List CycleOp) (hsame : ∀ op, op ∈ ops ↔ op ∈ ops')
    (portFn : String → Ports D → Except SetupErr (Ports D))
    (h1 : OneLevel ops) (h2 : NoDualUse ops) (h3 : SingleSource ops)
    (hac : ∀ e, ¬ OnOrAfterLoop ops e)
    (hdecl : ∀ a p b q, CycleOp.connectFlow [a, p] [b, q] ∈ ops → IsElement ops a ∧ IsElement ops b) :
    ((∃ w, SetupResult (cycleEnv ops portFn) (.ok w)) ↔
      (∃ w, SetupResult (cycleEnv ops' portFn) (.ok w))) ∧
    ∀ w w', SetupResult (cycleEnv ops portFn) (.ok w) →
      SetupResult (cycleEnv ops' portFn) (.ok w') →
      ∀ e, IsElement ops e → w.flI [e] = w'.flI [e] ∧ w.flO [e] = w'.flO [e] := by
  have h1' : OneLevel ops' := fun s t h => h1 s t ((hsame _).2 h)
  have h2' : NoDualUse ops' := fun s t s' t' h h' => h2 s t s' t' ((hsame _).2 h) ((hsame _).2 h')
  have h3' : SingleSource ops' := fun s t s' h h' => h3 s t s' ((hsame _).2 h) ((hsame _).2 h')
  have hF : Feeds ops = Feeds ops' := by
    funext a b; simp only [Feeds, hsame]
  have hac' : ∀ e, ¬ OnOrAfterLoop ops' e := by
    intro e; have := hac e; unfold OnOrAfterLoop at this ⊢; rwa [← hF]
  have hE : ∀ e, IsElement ops e ↔ IsElement ops' e := fun e => hsame _
  have hdecl' : ∀ a p b q, CycleOp.connectFlow [a, p] [b, q] ∈ ops' →
      IsElement ops' a ∧ IsElement ops' b := by
    intro a p b q h
    have := hdecl a p b q ((hsame _).2 h)
    exact ⟨(hE a).1 this.1, (hE b).1 this.2⟩
  have hcfg : ∀ I O, IsConfiguration ops portFn I O ↔ IsConfiguration ops' portFn I O := by
    intro I O
    constructor <;> rintro ⟨a, b, c⟩
    · exact ⟨fun e he => a e ((hE e).2 he), fun x p y q h => b x p y q ((hsame _).2 h),
        fun b q h => c b q (fun s hs => h s ((hsame _).1 hs))⟩
    · exact ⟨fun e he => a e ((hE e).1 he), fun x p y q h => b x p y q ((hsame _).1 h),
        fun b q h => c b q (fun s hs => h s ((hsame _).2 hs))⟩
  obtain ⟨s1, u1⟩ := C02_setup_iff_solvable ops portFn h1 h2 h3 hac hdecl
  obtain ⟨s2, u2⟩ := C02_setup_iff_solvable ops' portFn h1' h2' h3' hac' hdecl'
  refine ⟨?_, ?_⟩
  · rw [s1, s2]
    constructor <;> rintro ⟨I, O, h⟩
    · exact ⟨I, O, (hcfg I O).1 h⟩
    · exact ⟨I, O, (hcfg I O).2 h⟩
  · intro w w' hw hw' e he
    obtain ⟨I, O, hc⟩ := s1.1 ⟨w, hw⟩
    have a := u1 w I O hw hc e he
    have b := u2 w' I O hw' ((hcfg I O).1 hc) e ((hE e).1 he)
    exact ⟨a.1.trans b.1.symm, a.2.trans b.2.symm⟩

/-- C02 (misspelt element names are reported). On a loop-free network, connecting a
port of an element that was never added makes `setup` raise. -/
theorem C02_undeclared_element_is_error (ops : List CycleOp)
    (portFn : String → Ports D → Except SetupErr (Ports D))
    (h1 : OneLevel ops) (h2 : NoDualUse ops) (hac : ∀ e, ¬ OnOrAfterLoop ops e)
    (a p b q : String) (hc : CycleOp.connectFlow [a, p] [b, q] ∈ ops)
    (hmiss : ¬ IsElement ops a ∨ ¬ IsElement ops b) :
    ∃ err, SetupResult (cycleEnv ops portFn) (.error err) := by
  obtain ⟨r, hr⟩ := setup_terminates (cycleEnv ops portFn) (build_closed ops)
  cases r with
  | error e => exact ⟨e, hr⟩
  | ok w =>
    exfalso
    obtain ⟨hi, _⟩ := setup_inv (build_closed ops) hr
    have hat := build_attr ops h1 h2
    have hvis : ∀ e, ([e] : Key) ∈ (buildCycle ops).graph.nodes → ([e] : Key) ∈ w.visited :=
      fun e hv => (visited_iff_acc (build_closed ops) hr _ hv).2
        ((acc_graph_iff ops h1 h2 e).2 ((acc_iff_not_onOrAfterLoop ops e).2 (hac e)))
    have typed : ∀ e, ([e] : Key) ∈ (buildCycle ops).graph.nodes → IsElement ops e := by
      intro e he
      by_contra hne
      obtain ⟨k, hk⟩ := hi.typed _ (hvis e he)
      change ((buildCycle ops).graph.attr [e]).kind = some k at hk
      rw [hat.elemOnly e hne] at hk; simp at hk
    rcases hmiss with hm | hm
    · exact hm (typed a ((mem_build_nodes ops _).2 (Or.inr ⟨_, _, hc, by simp⟩)))
    · exact hm (typed b ((mem_build_nodes ops _).2 (Or.inr ⟨_, _, hc, by simp⟩)))

/-! ### Non-vacuity: a burner fed by a compressor and an inlet, in scrambled order -/

/-- A four-element engine front: fc → inlet → comp → burner, plus a bypass to a mixer. -/
def sampleOps : List CycleOp :=
  [.connectFlow ["comp", "Fl_O"] ["burner", "Fl_I"], .addSubsystem "burner" true,
   .addSubsystem "comp" true, .connectFlow ["split", "Fl_O1"] ["comp", "Fl_I"],
   .addSubsystem "split" true, .addSubsystem "bal" false,
   .connectFlow ["split", "Fl_O2"] ["mixer", "Fl_I2"], .addSubsystem "mixer" true,
   .connectFlow ["burner", "Fl_O"] ["mixer", "Fl_I1"]]

/-- Port functions of the sample: `split` emits 7 on both outputs, others add one. -/
def samplePortFn (name : String) (i : Ports Nat) : Except SetupErr (Ports Nat) :=
  if name = "split" then .ok (fun p => if p = "Fl_O1" ∨ p = "Fl_O2" then some 7 else none)
  else
    match (if name = "mixer" then i "Fl_I1" else i "Fl_I") with
    | none => .error .keyError
    | some x => .ok (fun p => if p = "Fl_O" then some (x + 1) else none)

theorem sample_wf : OneLevel sampleOps ∧ NoDualUse sampleOps ∧ SingleSource sampleOps := by
  refine ⟨?_, ?_, ?_⟩
  · intro s t h
    simp [sampleOps] at h
    rcases h with ⟨rfl, rfl⟩ | ⟨rfl, rfl⟩ | ⟨rfl, rfl⟩ | ⟨rfl, rfl⟩ <;> simp
  · intro s t s' t' h h'
    simp [sampleOps] at h h'
    rcases h with ⟨rfl, rfl⟩ | ⟨rfl, rfl⟩ | ⟨rfl, rfl⟩ | ⟨rfl, rfl⟩ <;>
    rcases h' with ⟨rfl, rfl⟩ | ⟨rfl, rfl⟩ | ⟨rfl, rfl⟩ | ⟨rfl, rfl⟩ <;> decide
  · intro s s' t h h'
    simp [sampleOps] at h h'
    rcases h with ⟨rfl, rfl⟩ | ⟨rfl, rfl⟩ | ⟨rfl, rfl⟩ | ⟨rfl, rfl⟩ <;>
    rcases h' with ⟨rfl, h'⟩ | ⟨rfl, h'⟩ | ⟨rfl, h'⟩ | ⟨rfl, h'⟩ <;> first | rfl | simp at h'

/-- A rank function shows the sample is loop-free. -/
theorem sample_loopfree : ∀ e, ¬ OnOrAfterLoop sampleOps e := by
  rintro e ⟨c, hc, _⟩
  let rank : String → Nat := fun n =>
    if n = "split" then 0 else if n = "comp" then 1 else if n = "burner" then 2 else 3
  have step : ∀ a b, Feeds sampleOps a b → rank a < rank b := by
    rintro a b ⟨p, q, h⟩
    simp [sampleOps] at h
    rcases h with ⟨⟨rfl, rfl⟩, rfl, rfl⟩ | ⟨⟨rfl, rfl⟩, rfl, rfl⟩ | ⟨⟨rfl, rfl⟩, rfl, rfl⟩ |
      ⟨⟨rfl, rfl⟩, rfl, rfl⟩ <;> decide
  have : ∀ a b, Relation.TransGen (Feeds sampleOps) a b → rank a < rank b := by
    intro a b h
    induction h with
    | single h => exact step _ _ h
    | tail _ h ih => exact lt_trans ih (step _ _ h)
  exact lt_irrefl _ (this c c hc)

theorem sample_declared : ∀ a p b q, CycleOp.connectFlow [a, p] [b, q] ∈ sampleOps →
    IsElement sampleOps a ∧ IsElement sampleOps b := by
  intro a p b q h
  simp [sampleOps] at h
  rcases h with ⟨⟨rfl, rfl⟩, rfl, rfl⟩ | ⟨⟨rfl, rfl⟩, rfl, rfl⟩ | ⟨⟨rfl, rfl⟩, rfl, rfl⟩ |
      ⟨⟨rfl, rfl⟩, rfl, rfl⟩ <;> simp [IsElement, sampleOps]

/-- The hypotheses of C01/C02 are met and `setup` really succeeds on the sample, calling
the four elements in flow order. -/
example : ∃ w, SetupResult (cycleEnv sampleOps samplePortFn) (.ok w) ∧
    w.calls = [["split"], ["comp"], ["burner"], ["mixer"]] ∧
    w.flI ["mixer"] "Fl_I1" = some 9 ∧ w.flI ["mixer"] "Fl_I2" = some 7 := by
  have h : (match loop (cycleEnv sampleOps samplePortFn) 40
      (initWalk (cycleEnv sampleOps samplePortFn)) with
    | some (.ok w) => decide (w.calls = [["split"], ["comp"], ["burner"], ["mixer"]] ∧
        w.flI ["mixer"] "Fl_I1" = some 9 ∧ w.flI ["mixer"] "Fl_I2" = some 7)
    | _ => false) = true := by decide +kernel
  split at h
  · rename_i w hw
    exact ⟨w, ⟨40, hw⟩, of_decide_eq_true h⟩
  · simp at h

/-- `C02_undeclared_element_is_error` has a concrete instance: the sample with the
target of one connection misspelt. -/
example : ∃ err, SetupResult
    (cycleEnv (D := Nat) [.addSubsystem "comp" true,
      .connectFlow ["comp", "Fl_O"] ["brner", "Fl_I"]] samplePortFn) (.error err) := by
  refine C02_undeclared_element_is_error _ _ ?_ ?_ ?_ "comp" "Fl_O" "brner" "Fl_I" (by simp)
    (Or.inr (by simp [IsElement]))
  · intro s t h; simp at h; obtain ⟨rfl, rfl⟩ := h; simp
  · intro s t s' t' h h'; simp at h h'; obtain ⟨rfl, rfl⟩ := h; obtain ⟨rfl, rfl⟩ := h'; decide
  · rintro e ⟨c, hc, _⟩
    have : ∀ a b, Relation.TransGen (Feeds [.addSubsystem "comp" true,
      .connectFlow ["comp", "Fl_O"] ["brner", "Fl_I"]]) a b → a = "comp" ∧ b = "brner" := by
      intro a b h
      induction h with
      | single h => obtain ⟨p, q, h⟩ := h; simp at h; exact ⟨h.1.1, h.2.1⟩
      | tail _ h ih => obtain ⟨p, q, h⟩ := h; simp at h; exact ⟨ih.1, h.2.1⟩
    obtain ⟨rfl, h⟩ := this c c hc
    simp at h

/-! ### C03: silent omission -/

/-- C03 as a user would state it: if `setup` returns normally, every added element had
its ports set up. -/
def C03_statement (D : Type) : Prop :=
  ∀ (ops : List CycleOp) (portFn : String → Ports D → Except SetupErr (Ports D)) (w : Walk D),
    OneLevel ops → NoDualUse ops → SingleSource ops →
    SetupResult (cycleEnv ops portFn) (.ok w) → ∀ e, IsElement ops e → [e] ∈ w.calls

/-- C03 is false of the code: two elements feeding each other are skipped without any
error (the initial queue is empty, so the loop body never runs). -/
theorem C03_refuted : ¬ C03_statement Nat := by
  intro h
  let ops : List CycleOp := [.addSubsystem "a" true, .addSubsystem "b" true,
    .connectFlow ["a", "Fl_O"] ["b", "Fl_I"], .connectFlow ["b", "Fl_O"] ["a", "Fl_I"]]
  have h1 : OneLevel ops := by
    intro s t h; simp [ops] at h
    rcases h with ⟨rfl, rfl⟩ | ⟨rfl, rfl⟩ <;> simp
  have h2 : NoDualUse ops := by
    intro s t s' t' h h'; simp [ops] at h h'
    rcases h with ⟨rfl, rfl⟩ | ⟨rfl, rfl⟩ <;> rcases h' with ⟨rfl, rfl⟩ | ⟨rfl, rfl⟩ <;> decide
  have h3 : SingleSource ops := by
    intro s s' t h h'; simp [ops] at h h'
    rcases h with ⟨rfl, rfl⟩ | ⟨rfl, rfl⟩ <;>
    rcases h' with ⟨rfl, h'⟩ | ⟨rfl, h'⟩ <;> first | rfl | simp at h'
  have hrun : SetupResult (cycleEnv ops samplePortFn) (.ok (initWalk (cycleEnv ops samplePortFn))) :=
    ⟨0, by
      have hq : (initWalk (cycleEnv ops samplePortFn)).queue = [] := by decide +kernel
      unfold loop; rw [hq]⟩
  have := h ops samplePortFn _ h1 h2 h3 hrun "a" (by simp [IsElement, ops])
  simp [initWalk] at this

/-- C03, the part that holds: on a loop-free network nothing is omitted. Missing from the
full statement: networks with a flow loop, where the code is silent. -/
theorem C03_no_omission_partial (ops : List CycleOp)
    (portFn : String → Ports D → Except SetupErr (Ports D))
    (h1 : OneLevel ops) (h2 : NoDualUse ops) (hac : ∀ e, ¬ OnOrAfterLoop ops e) (w : Walk D)
    (h : SetupResult (cycleEnv ops portFn) (.ok w)) (e : String) (he : IsElement ops e) :
    [e] ∈ w.calls :=
  ((C01_setup_once ops portFn h1 h2 w h).2.2 e).2 ⟨he, hac e⟩

/-- C03, the exact omission set: an added element is skipped iff it is on or after a
loop. -/
theorem C03_omitted_iff_loop (ops : List CycleOp)
    (portFn : String → Ports D → Except SetupErr (Ports D))
    (h1 : OneLevel ops) (h2 : NoDualUse ops) (w : Walk D)
    (h : SetupResult (cycleEnv ops portFn) (.ok w)) (e : String) (he : IsElement ops e) :
    [e] ∉ w.calls ↔ OnOrAfterLoop ops e := by
  have := (C01_setup_once ops portFn h1 h2 w h).2.2 e
  constructor
  · intro hn; by_contra hl; exact hn (this.2 ⟨he, hl⟩)
  · intro hl hn; exact (this.1 hn).2 hl

end PyCycle
