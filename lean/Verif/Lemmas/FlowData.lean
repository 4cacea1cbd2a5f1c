import Verif.Lemmas.FlowBuild

/-! Data delivered by the walk. -/

namespace PyCycle
open Spec
variable {D : Type}

theorem deliver_ok_iff {E : Env D} {se nd : Key} {w w' : Walk D} {b q op : String}
    (hnd : (E.G.attr nd).port = some op)
    (ht : E.G.attr [b, q] = ⟨some .inPort, some [b], some q⟩) :
    deliver E se nd w [b, q] = .ok w' ↔
      E.isElem se = true ∧ E.isElem [b] = true ∧
      ∃ x, w.flO se op = some x ∧ w' = { w with flI := setPort w.flI [b] q x } := by
  unfold deliver
  simp only [ht, hnd]
  by_cases h1 : E.isElem se = true
  · cases hx : w.flO se op with
    | none => simp [h1, hx]
    | some x =>
      by_cases h2 : E.isElem [b] = true
      · simp only [h1, hx, h2, if_true, Except.ok.injEq, true_and, Option.some.injEq]
        constructor
        · rintro rfl; exact ⟨x, rfl, rfl⟩
        · rintro ⟨y, rfl, rfl⟩; rfl
      · simp [h1, hx, h2]
  · simp [h1]

theorem deliver_fold_data {E : Env D} {se nd : Key} {op : String}
    (hnd : (E.G.attr nd).port = some op) : ∀ (l : List Key),
    (∀ t ∈ l, ∃ b q, t = [b, q] ∧ E.G.attr [b, q] = ⟨some .inPort, some [b], some q⟩) →
    ∀ (w w' : Walk D), l.foldlM (deliver E se nd) w = .ok w' →
      (l ≠ [] → (w.flO se op).isSome) ∧
      ∀ b q, w'.flI [b] q = if ([b, q] : Key) ∈ l then w.flO se op else w.flI [b] q := by
  intro l
  induction l with
  | nil =>
    intro _ w w' h
    simp only [List.foldlM, pure, Except.pure] at h
    injection h with h; subst h; simp
  | cons t l ih =>
    intro hl w w' h
    obtain ⟨b, q, rfl, ht⟩ := hl t (by simp)
    simp only [List.foldlM, bind, Except.bind] at h
    cases hd : deliver E se nd w [b, q] with
    | error e => simp [hd] at h
    | ok w1 =>
      simp only [hd] at h
      obtain ⟨_, _, x, hx, rfl⟩ := (deliver_ok_iff hnd ht).1 hd
      obtain ⟨_, i2⟩ := ih (fun t ht => hl t (by simp [ht])) _ _ h
      refine ⟨fun _ => by simp [hx], ?_⟩
      intro b' q'
      rw [i2 b' q']
      by_cases hm : ([b', q'] : Key) ∈ l
      · simp [hm]
      · rw [if_neg hm]
        by_cases he : b' = b ∧ q' = q
        · obtain ⟨rfl, rfl⟩ := he
          simp [setPort, hx]
        · have : ¬ (([b'] : Key) = [b] ∧ q' = q) := by simpa using he
          have h3 : ([b', q'] : Key) ∉ ([b, q] :: l : List Key) := by
            simp [hm]; intro h; exact fun h' => he ⟨h, h'⟩
          rw [if_neg h3]
          simp only [setPort, if_neg this]

theorem deliver_fold_ok {E : Env D} {se nd : Key} {op : String}
    (hnd : (E.G.attr nd).port = some op) (hse : E.isElem se = true) : ∀ (l : List Key),
    (∀ t ∈ l, ∃ b q, t = [b, q] ∧ E.G.attr [b, q] = ⟨some .inPort, some [b], some q⟩ ∧
      E.isElem [b] = true) →
    ∀ (w : Walk D), (l ≠ [] → (w.flO se op).isSome) →
      ∃ w', l.foldlM (deliver E se nd) w = .ok w' := by
  intro l
  induction l with
  | nil => intro _ w _; exact ⟨w, rfl⟩
  | cons t l ih =>
    intro hl w hs
    obtain ⟨b, q, rfl, ht, hb⟩ := hl t (by simp)
    obtain ⟨x, hx⟩ := Option.isSome_iff_exists.1 (hs (by simp))
    have hd := (deliver_ok_iff (w := w) (w' := { w with flI := setPort w.flI [b] q x }) (se := se)
      hnd ht).2 ⟨hse, hb, x, hx, rfl⟩
    obtain ⟨w', hw'⟩ := ih (fun t ht => hl t (by simp [ht]))
      { w with flI := setPort w.flI [b] q x } (fun _ => by simp [hx])
    exact ⟨w', by simp only [List.foldlM, bind, Except.bind, hd]; exact hw'⟩

section
variable (ops : List CycleOp) (portFn : String → Ports D → Except SetupErr (Ports D))

structure NetOK : Prop where
  one : OneLevel ops
  dual : NoDualUse ops
  single : SingleSource ops

/-- Data invariant of the walk. -/
structure DataInv (w : Walk D) : Prop where
  elem : ∀ n, ([n] : Key) ∈ w.visited → portFn n (w.flI [n]) = .ok (w.flO [n])
  link : ∀ a p b q, CycleOp.connectFlow [a, p] [b, q] ∈ ops → ([a, p] : Key) ∈ w.visited →
    (w.flO [a] p).isSome ∧ w.flI [b] q = w.flO [a] p
  fresh : ∀ b q, (∀ a p, CycleOp.connectFlow [a, p] [b, q] ∈ ops → ([a, p] : Key) ∉ w.visited) →
    w.flI [b] q = none

variable {ops portFn}

theorem isElem_iff (k : String) : (cycleEnv ops portFn).isElem [k] = true ↔ IsElement ops k := by
  simp [cycleEnv, mem_build_elems]

theorem succ_src (hn : NetOK ops) {a p : String} {t0 : Key}
    (h0 : CycleOp.connectFlow [a, p] t0 ∈ ops) (t : Key) :
    t ∈ (cycleEnv ops portFn).G.succ [a, p] ↔ CycleOp.connectFlow [a, p] t ∈ ops := by
  rw [mem_succ]
  show (_, _) ∈ (buildCycle ops).graph.edges ↔ _
  rw [mem_build_edges]
  constructor
  · rintro ⟨s', t', hc, ⟨h, _⟩ | ⟨h, h'⟩ | ⟨h, _⟩⟩
    · simp at h
    · subst h'; rw [h]; exact hc
    · exact absurd h (hn.dual _ _ _ _ h0 hc)
  · intro h; exact ⟨_, _, h, Or.inr (Or.inl ⟨rfl, rfl⟩)⟩

theorem kind_cases (hn : NetOK ops) {v : Key} (hv : v ∈ (buildCycle ops).graph.nodes) :
    (∃ n, v = [n]) ∨
    (∃ a p t, v = [a, p] ∧ CycleOp.connectFlow [a, p] t ∈ ops) ∨
    (∃ b q s, v = [b, q] ∧ CycleOp.connectFlow s [b, q] ∈ ops) := by
  rcases (mem_build_nodes ops v).1 hv with ⟨n, _, rfl⟩ | ⟨s, t, hc, h⟩
  · exact Or.inl ⟨n, rfl⟩
  · obtain ⟨a, p, b, q, rfl, rfl⟩ := hn.one s t hc
    rcases h with rfl | rfl | rfl | rfl
    · exact Or.inl ⟨_, rfl⟩
    · exact Or.inr (Or.inl ⟨a, p, _, rfl, hc⟩)
    · exact Or.inr (Or.inr ⟨b, q, _, rfl, hc⟩)
    · exact Or.inl ⟨_, rfl⟩

/-- If a node is visited, so are its predecessors. -/
theorem pred_visited {E : Env D} {w : Walk D} (hi : WalkInv E w) {u v : Key}
    (he : (u, v) ∈ E.G.edges) (hv : v ∈ w.visited) : u ∈ w.visited := by
  obtain ⟨l₁, l₂, h⟩ := List.append_of_mem hv
  have := hi.order l₁ v l₂ h u (mem_pred.2 he)
  rw [h]; exact List.mem_append_left _ this

theorem edges_of_conn {s t : Key} (hc : CycleOp.connectFlow s t ∈ ops) :
    ([elementName s], s) ∈ (cycleEnv ops portFn).G.edges ∧ (s, t) ∈ (cycleEnv ops portFn).G.edges ∧
    (t, [elementName t]) ∈ (cycleEnv ops portFn).G.edges := by
  refine ⟨?_, ?_, ?_⟩ <;> show (_, _) ∈ (buildCycle ops).graph.edges <;> rw [mem_build_edges]
  · exact ⟨s, t, hc, Or.inl ⟨rfl, rfl⟩⟩
  · exact ⟨s, t, hc, Or.inr (Or.inl ⟨rfl, rfl⟩)⟩
  · exact ⟨s, t, hc, Or.inr (Or.inr ⟨rfl, rfl⟩)⟩

theorem dataInv_init : DataInv ops portFn (initWalk (cycleEnv ops portFn)) := by
  constructor <;> simp [initWalk]

theorem dataInv_queue {w : Walk D} {q : List Key} (h : DataInv ops portFn w) :
    DataInv ops portFn { w with queue := q } := ⟨h.elem, h.link, h.fresh⟩

theorem process_data (hn : NetOK ops) {k : Kind} {nd : Key} {w w' : Walk D}
    (hi : WalkInv (cycleEnv ops portFn) w) (hnd : nd ∈ (buildCycle ops).graph.nodes)
    (hnv : nd ∉ w.visited)
    (hk : ((cycleEnv ops portFn).G.attr nd).kind = some k)
    (hd : DataInv ops portFn w) (hp : process (cycleEnv ops portFn) k nd w = .ok w') :
    DataInv ops portFn w' := by
  have hat := build_attr ops hn.one hn.dual
  have hG : (cycleEnv ops portFn).G = (buildCycle ops).graph := rfl
  obtain ⟨_, hvis, _⟩ := process_frame hp
  rcases kind_cases hn hnd with ⟨n, rfl⟩ | ⟨a, p, t, rfl, hc⟩ | ⟨b, q, s, rfl, hc⟩
  · -- element
    have hke : k = .element := by
      by_cases he : IsElement ops n
      · have := hat.elem n he; rw [hG, this] at hk; exact (Option.some.inj hk).symm
      · have := hat.elemOnly n he; rw [hG, this] at hk; simp at hk
    subst hke
    simp only [process] at hp
    split at hp
    · split at hp
      · simp at hp
      · rename_i out hout
        injection hp with hp; subst hp
        have hout : portFn n (w.flI [n]) = .ok out := hout
        constructor
        · intro m hm
          simp only at hm ⊢
          by_cases hmn : m = n
          · subst hmn; simpa using hout
          · have : ([m] : Key) ∈ w.visited := by
              simpa [hmn] using hm
            simpa [hmn] using hd.elem m this
        · intro a p b q hc hv
          simp only at hv ⊢
          have hv' : ([a, p] : Key) ∈ w.visited := by simpa using hv
          have hav : ([a] : Key) ∈ w.visited := by
            have := (edges_of_conn (portFn := portFn) hc).1
            rw [elementName_pair] at this
            exact pred_visited hi this hv'
          have hne : a ≠ n := by rintro rfl; exact hnv hav
          simpa [hne] using hd.link a p b q hc hv'
        · intro b q h
          simp only at h ⊢
          apply hd.fresh
          intro a p hc hv
          exact h a p hc (by simp [hv])
    · simp at hp
  · -- out port
    have hatt := hat.src _ _ hc
    have hke : k = .outPort := by
      rw [hG, hatt] at hk; exact (Option.some.inj hk).symm
    subst hke
    simp only [process, hG, hatt, elementName_pair] at hp
    split at hp
    · simp at hp
    · rename_i w1 hw1
      injection hp with hp; subst hp
      obtain ⟨hf1, hf2, hf3, hf4⟩ := deliver_fold_frame hw1
      obtain ⟨hdsome, hdat⟩ := deliver_fold_data (op := p) (by rw [hG, hatt]; simp) _ (by
        intro t' ht'
        have hc' := (succ_src (portFn := portFn) hn hc t').1 ht'
        obtain ⟨_, _, b, q, h1, h2⟩ := hn.one _ _ hc'
        subst h2
        exact ⟨b, q, rfl, by simpa [hG] using hat.tgt _ _ hc'⟩) _ _ hw1
      have hdat' : ∀ b q, w1.flI [b] q =
          if CycleOp.connectFlow [a, p] [b, q] ∈ ops then w.flO [a] p else w.flI [b] q := by
        intro b q
        rw [hdat b q]
        by_cases hm : CycleOp.connectFlow [a, p] [b, q] ∈ ops
        · rw [if_pos hm]; exact if_pos ((succ_src (portFn := portFn) hn hc _).2 hm)
        · rw [if_neg hm]
          exact if_neg (fun h => hm ((succ_src (portFn := portFn) hn hc _).1 h))
      have hsome : (w.flO [a] p).isSome := by
        apply hdsome
        have := (succ_src (portFn := portFn) hn hc t).2 hc
        intro h0; rw [← hG] at h0; rw [h0] at this; simp at this
      constructor
      · intro m hm
        simp only at hm ⊢
        rw [hf2] at hm
        have hm' : ([m] : Key) ∈ w.visited := by simpa using hm
        have : w1.flI [m] = w.flI [m] := by
          funext q
          rw [hdat' m q, if_neg]
          intro hcc
          obtain ⟨_, e2, e3⟩ := edges_of_conn (portFn := portFn) hcc
          rw [elementName_pair] at e3
          exact hnv (pred_visited hi e2 (pred_visited hi e3 hm'))
        rw [this, hf3]; exact hd.elem m hm'
      · intro a' p' b q hcc hv
        simp only at hv ⊢
        rw [hf2] at hv
        rw [hf3, hdat' b q]
        by_cases hcc' : CycleOp.connectFlow [a, p] [b, q] ∈ ops
        · have := hn.single _ _ _ hcc hcc'
          simp at this; obtain ⟨rfl, rfl⟩ := this
          rw [if_pos hcc]; exact ⟨hsome, rfl⟩
        · rw [if_neg hcc']
          have hne : ¬ (a' = a ∧ p' = p) := by rintro ⟨rfl, rfl⟩; exact hcc' hcc
          have hv' : ([a', p'] : Key) ∈ w.visited := by
            rcases List.mem_append.1 hv with h | h
            · exact h
            · simp at h; exact absurd h hne
          exact hd.link a' p' b q hcc hv'
      · intro b q h
        simp only at h ⊢
        rw [hf2] at h
        have hno : CycleOp.connectFlow [a, p] [b, q] ∉ ops := fun hcc => h a p hcc (by simp)
        rw [hdat' b q, if_neg hno]
        apply hd.fresh
        intro a' p' hcc hv
        exact h a' p' hcc (List.mem_append_left _ hv)
  · -- in port
    have hatt := hat.tgt _ _ hc
    have hke : k = .inPort := by
      rw [hG, hatt] at hk; exact (Option.some.inj hk).symm
    subst hke
    simp only [process] at hp
    injection hp with hp; subst hp
    constructor
    · intro m hm
      simp only at hm ⊢
      exact hd.elem m (by simpa using hm)
    · intro a' p' b' q' hcc hv
      simp only at hv ⊢
      have hne : ([a', p'] : Key) ≠ [b, q] := hn.dual _ _ _ _ hcc hc
      have hv' : ([a', p'] : Key) ∈ w.visited := by
        rcases List.mem_append.1 hv with h | h
        · exact h
        · exact absurd (List.mem_singleton.1 h) hne
      exact hd.link a' p' b' q' hcc hv'
    · intro b' q' h
      simp only at h ⊢
      apply hd.fresh
      intro a' p' hcc hv
      exact h a' p' hcc (List.mem_append_left _ hv)

/-- `WalkInv` does not constrain the queue beyond what `queue_nodes`/`progress` say; for
`process_data` only the visited part matters. -/
theorem walkInv_visitedOnly {E : Env D} {w : Walk D} (hi : WalkInv E w) (hc : E.G.Closed) {nd : Key}
    {rest : List Key} (hq : w.queue = nd :: rest) (hr : ∀ p ∈ E.G.pred nd, p ∈ w.visited) :
    WalkInv E { w with queue := nd :: rest ++ E.G.succ nd } where
  queue_nodes := by
    intro v hv
    rcases List.mem_append.1 hv with h | h
    · exact hi.queue_nodes v (by rw [hq]; exact h)
    · exact (hc _ _ (mem_succ.1 h)).2
  visited_nodes := hi.visited_nodes
  nodup := hi.nodup
  order := hi.order
  progress := by
    intro v hv h
    rcases hi.progress v hv h with h | h
    · exact Or.inl h
    · right; rw [hq] at h; exact List.mem_append_left _ h
  calls_eq := hi.calls_eq
  typed := hi.typed

theorem dataInv_iter (hn : NetOK ops) {nd : Key} {rest : List Key} {w w' : Walk D}
    (hq : w.queue = nd :: rest) (hi : WalkInv (cycleEnv ops portFn) w)
    (hd : DataInv ops portFn w)
    (h : iter (cycleEnv ops portFn) nd { w with queue := rest } = .ok w') :
    DataInv ops portFn w' := by
  obtain ⟨_, hcs⟩ := iter_cases h
  rcases hcs with ⟨_, rfl⟩ | ⟨_, _, rfl⟩ | ⟨hr, hv, k, hk, hp⟩
  · exact ⟨hd.elem, hd.link, hd.fresh⟩
  · exact ⟨hd.elem, hd.link, hd.fresh⟩
  · -- run `process` from the state with the full queue, then forget the queue
    have hnd : nd ∈ (buildCycle ops).graph.nodes := hi.queue_nodes nd (by simp [hq])
    -- process does not look at the queue
    have hi' := walkInv_visitedOnly hi (build_closed ops) hq hr
    have hpq : ∀ (Q : List Key) (w w' : Walk D),
        process (cycleEnv ops portFn) k nd w = .ok w' →
        process (cycleEnv ops portFn) k nd { w with queue := Q } = .ok { w' with queue := Q } := by
      intro Q w w' hp
      have hdq : ∀ (se : Key) (l : List Key) (w w' : Walk D),
          l.foldlM (deliver (cycleEnv ops portFn) se nd) w = .ok w' →
          l.foldlM (deliver (cycleEnv ops portFn) se nd) { w with queue := Q } =
            .ok { w' with queue := Q } := by
        intro se l
        induction l with
        | nil =>
          intro w w' h
          simp only [List.foldlM, pure, Except.pure] at h ⊢
          injection h with h; subst h; rfl
        | cons t l ih =>
          intro w w' h
          simp only [List.foldlM, bind, Except.bind] at h ⊢
          cases hd : deliver (cycleEnv ops portFn) se nd w t with
          | error e => simp [hd] at h
          | ok w1 =>
            simp only [hd] at h
            have : deliver (cycleEnv ops portFn) se nd { w with queue := Q } t =
                .ok { w1 with queue := Q } := by
              unfold deliver at hd ⊢
              repeat' split at hd
              all_goals first
                | (injection hd with hd; subst hd; simp_all)
                | simp at hd
            simp only [this]
            exact ih _ _ h
      cases k with
      | element =>
        simp only [process] at hp ⊢
        split at hp
        · rename_i he
          split at hp
          · simp at hp
          · rename_i out hout
            injection hp with hp; subst hp
            simp [he, hout]
        · simp at hp
      | outPort =>
        simp only [process] at hp ⊢
        split at hp
        · simp at hp
        · rename_i se hse
          split at hp
          · simp at hp
          · rename_i w1 hw1
            injection hp with hp; subst hp
            simp [hse, hdq _ _ _ _ hw1]
      | inPort =>
        simp only [process] at hp ⊢
        injection hp with hp; subst hp; rfl
    have hp' := hpq (nd :: rest ++ (cycleEnv ops portFn).G.succ nd) _ _ hp
    have := process_data hn hi' hnd hv hk (dataInv_queue hd) hp'
    exact ⟨this.elem, this.link, this.fresh⟩

theorem dataInv_loop (hn : NetOK ops) : ∀ (n : Nat) (w w' : Walk D),
    WalkInv (cycleEnv ops portFn) w → DataInv ops portFn w →
    loop (cycleEnv ops portFn) n w = some (.ok w') → DataInv ops portFn w' := by
  intro n
  induction n with
  | zero =>
    intro w w' hi hd h
    unfold loop at h
    cases hq : w.queue with
    | nil => simp only [hq] at h; injection h with h; injection h with h; subst h; exact hd
    | cons a l => simp [hq] at h
  | succ n ih =>
    intro w w' hi hd h
    unfold loop at h
    cases hq : w.queue with
    | nil => simp only [hq] at h; injection h with h; injection h with h; subst h; exact hd
    | cons a l =>
      simp only [hq] at h
      cases hit : iter (cycleEnv ops portFn) a { w with queue := l } with
      | error e => simp [hit] at h
      | ok w1 =>
        simp only [hit] at h
        exact ih w1 w' (walkInv_iter (build_closed ops) hq hi hit) (dataInv_iter hn hq hi hd hit) h

/-! ### Completeness: a solvable network does not fail -/

/-- All connected elements were added. -/
def Declared (ops : List CycleOp) : Prop :=
  ∀ a p b q, CycleOp.connectFlow [a, p] [b, q] ∈ ops → IsElement ops a ∧ IsElement ops b

/-- What visited elements hold is the given configuration. -/
def Agrees (I O : String → Ports D) (w : Walk D) : Prop :=
  ∀ n, ([n] : Key) ∈ w.visited → w.flI [n] = I n ∧ w.flO [n] = O n

theorem ready_elem_inputs (hn : NetOK ops) {I O : String → Ports D}
    (hcfg : IsConfiguration ops portFn I O) {w : Walk D}
    (hi : WalkInv (cycleEnv ops portFn) w) (hd : DataInv ops portFn w) (ha : Agrees I O w)
    {n : String} (hr : ∀ p ∈ (cycleEnv ops portFn).G.pred [n], p ∈ w.visited) :
    w.flI [n] = I n := by
  funext q
  by_cases hs : ∃ s, CycleOp.connectFlow s [n, q] ∈ ops
  · obtain ⟨s, hs⟩ := hs
    obtain ⟨a, p, _, _, rfl, _⟩ := hn.one _ _ hs
    obtain ⟨e1, e2, e3⟩ := edges_of_conn (portFn := portFn) hs
    rw [elementName_pair] at e1 e3
    have v3 := hr _ (mem_pred.2 e3)
    have v2 := pred_visited hi e2 v3
    have v1 := pred_visited hi e1 v2
    rw [(hd.link a p n q hs v2).2, (ha a v1).2, ← (hcfg.links a p n q hs).2]
  · rw [hcfg.unlinked n q (fun s h => hs ⟨s, h⟩)]
    exact hd.fresh n q (fun a p h => absurd ⟨_, h⟩ hs)

theorem agrees_iter (hn : NetOK ops) {I O : String → Ports D}
    (hcfg : IsConfiguration ops portFn I O) {nd : Key} {rest : List Key} {w w' : Walk D}
    (hq : w.queue = nd :: rest) (hi : WalkInv (cycleEnv ops portFn) w)
    (hd : DataInv ops portFn w) (ha : Agrees I O w)
    (h : iter (cycleEnv ops portFn) nd { w with queue := rest } = .ok w') :
    Agrees I O w' := by
  have hi' := walkInv_iter (build_closed ops) hq hi h
  have hd' := dataInv_iter hn hq hi hd h
  obtain ⟨_, hcs⟩ := iter_cases h
  rcases hcs with ⟨_, rfl⟩ | ⟨_, _, rfl⟩ | ⟨hr, hv, k, hk, hp⟩
  · exact ha
  · exact ha
  · obtain ⟨_, hvis, _⟩ := process_frame hp
    simp only at hvis
    -- it suffices to know the inputs of every visited element, in visiting order
    have key : ∀ (l₁ l₂ : List Key), w'.visited = l₁ ++ l₂ → ∀ n, ([n] : Key) ∈ l₁ →
        w'.flI [n] = I n ∧ w'.flO [n] = O n := by
      intro l₁
      induction l₁ using List.reverseRecOn with
      | nil => simp
      | append_singleton l x ih =>
        intro l₂ hl n hx
        have ih' := ih (x :: l₂) (by simpa using hl)
        rcases List.mem_append.1 hx with hx | hx
        · exact ih' n hx
        · simp at hx; subst hx
          have hnv : ([n] : Key) ∈ w'.visited := by rw [hl]; simp
          have hin : w'.flI [n] = I n := by
            funext q
            by_cases hs : ∃ s, CycleOp.connectFlow s [n, q] ∈ ops
            · obtain ⟨s, hs⟩ := hs
              obtain ⟨a, p, _, _, rfl, _⟩ := hn.one _ _ hs
              obtain ⟨e1, e2, e3⟩ := edges_of_conn (portFn := portFn) hs
              rw [elementName_pair] at e1 e3
              have m3 : ([n, q] : Key) ∈ l := hi'.order l [n] l₂ (by simpa using hl) _ (mem_pred.2 e3)
              have v3 : ([n, q] : Key) ∈ w'.visited := by rw [hl]; simp [m3]
              have v2 := pred_visited hi' e2 v3
              -- [a] is before [a,p] is before [n,q] is before [n]
              obtain ⟨x1, x2, hx⟩ := List.append_of_mem m3
              have m2 := hi'.order x1 [n, q] (x2 ++ [[n]] ++ l₂) (by rw [hl, hx]; simp) _ (mem_pred.2 e2)
              obtain ⟨y1, y2, hy⟩ := List.append_of_mem m2
              have m1 := hi'.order y1 [a, p] (y2 ++ [n, q] :: x2 ++ [[n]] ++ l₂)
                (by rw [hl, hx, hy]; simp) _ (mem_pred.2 e1)
              have ml : ([a] : Key) ∈ l := by rw [hx, hy]; simp [m1]
              rw [(hd'.link a p n q hs v2).2, (ih' a ml).2, ← (hcfg.links a p n q hs).2]
            · rw [hcfg.unlinked n q (fun s h => hs ⟨s, h⟩)]
              exact hd'.fresh n q (fun a p h => absurd ⟨_, h⟩ hs)
          refine ⟨hin, ?_⟩
          have he : IsElement ops n := by
            by_contra hne
            have := (build_attr ops hn.one hn.dual).elemOnly n hne
            obtain ⟨k, hk⟩ := hi'.typed _ hnv
            change ((buildCycle ops).graph.attr [n]).kind = some k at hk
            rw [this] at hk; simp at hk
          have h1 := hd'.elem n hnv
          rw [hin, hcfg.outputs n he] at h1
          injection h1 with h1; exact h1.symm
    intro n hn'
    exact key w'.visited [] (by simp) n hn'

theorem iter_ok (hn : NetOK ops) (hdecl : Declared ops) {I O : String → Ports D}
    (hcfg : IsConfiguration ops portFn I O) {nd : Key} {rest : List Key} {w : Walk D}
    (hq : w.queue = nd :: rest) (hi : WalkInv (cycleEnv ops portFn) w)
    (hd : DataInv ops portFn w) (ha : Agrees I O w) :
    ∃ w', iter (cycleEnv ops portFn) nd { w with queue := rest } = .ok w' := by
  have hat := build_attr ops hn.one hn.dual
  have hG : (cycleEnv ops portFn).G = (buildCycle ops).graph := rfl
  have hnd : nd ∈ (buildCycle ops).graph.nodes := hi.queue_nodes nd (by simp [hq])
  have helem : ∀ n, nd = [n] → IsElement ops n := by
    rintro n rfl
    rcases (mem_build_nodes ops _).1 hnd with ⟨m, hm, h⟩ | ⟨s, t, hc, h⟩
    · simp at h; subst h; exact hm
    · obtain ⟨a, p, b, q, rfl, rfl⟩ := hn.one s t hc
      have hdc := hdecl _ _ _ _ hc
      rcases h with h | h | h | h
      · simp at h; subst h; exact hdc.1
      · simp at h
      · simp at h
      · simp at h; subst h; exact hdc.2
  unfold iter
  rcases kind_cases hn hnd with ⟨n, rfl⟩ | ⟨a, p, t, rfl, hc⟩ | ⟨b, q, s, rfl, hc⟩
  · have he := helem n rfl
    rw [hG, hat.elem n he]
    simp only
    split
    · rename_i hr
      split
      · exact ⟨_, rfl⟩
      · simp only [process, (isElem_iff (portFn := portFn) n).2 he, if_true]
        have := ready_elem_inputs hn hcfg hi hd ha hr
        have h2 : (cycleEnv ops portFn).portFn [n] (w.flI [n]) = .ok (O n) := by
          rw [this]; exact hcfg.outputs n he
        rw [h2]
        exact ⟨_, rfl⟩
    · exact ⟨_, rfl⟩
  · have hatt := hat.src _ _ hc
    rw [elementName_pair, portName_pair] at hatt
    rw [hG, hatt]
    simp only
    split
    · rename_i hr
      split
      · exact ⟨_, rfl⟩
      · rename_i hnv
        simp only [process, hG, hatt]
        have hav : ([a] : Key) ∈ w.visited := by
          have e1 := (edges_of_conn (portFn := portFn) hc).1
          rw [elementName_pair] at e1
          exact hr _ (mem_pred.2 e1)
        obtain ⟨b, q, hbq⟩ : ∃ b q, t = [b, q] := by
          obtain ⟨_, _, b, q, _, h⟩ := hn.one _ _ hc; exact ⟨b, q, h⟩
        subst hbq
        have hae : IsElement ops a := (hdecl _ _ _ _ hc).1
        have hsome : (w.flO [a] p).isSome := by
          rw [(ha a hav).2]; exact (hcfg.links a p b q hc).1
        obtain ⟨w', hw'⟩ := deliver_fold_ok (E := cycleEnv ops portFn) (nd := [a, p]) (op := p)
          (se := [a]) (by rw [hG, hatt]) ((isElem_iff (portFn := portFn) a).2 hae)
          ((cycleEnv ops portFn).G.succ [a, p]) (by
            intro t' ht'
            have hc' := (succ_src (portFn := portFn) hn hc t').1 ht'
            obtain ⟨_, _, b', q', h1, rfl⟩ := hn.one _ _ hc'
            refine ⟨b', q', rfl, by simpa [hG] using hat.tgt _ _ hc', ?_⟩
            exact (isElem_iff (portFn := portFn) b').2 (hdecl _ _ _ _ hc').2)
          { w with queue := rest ++ (cycleEnv ops portFn).G.succ [a, p] } (fun _ => hsome)
        rw [hG] at hw'
        rw [hw']
        exact ⟨_, rfl⟩
    · exact ⟨_, rfl⟩
  · have hatt := hat.tgt _ _ hc
    rw [hG, hatt]
    simp only
    split
    · split
      · exact ⟨_, rfl⟩
      · exact ⟨_, rfl⟩
    · exact ⟨_, rfl⟩

theorem loop_ok (hn : NetOK ops) (hdecl : Declared ops) {I O : String → Ports D}
    (hcfg : IsConfiguration ops portFn I O) : ∀ (n : Nat) (w : Walk D) (r),
    WalkInv (cycleEnv ops portFn) w → DataInv ops portFn w → Agrees I O w →
    loop (cycleEnv ops portFn) n w = some r → ∃ w', r = .ok w' ∧ Agrees I O w' := by
  intro n
  induction n with
  | zero =>
    intro w r hi hd ha h
    unfold loop at h
    cases hq : w.queue with
    | nil => simp only [hq] at h; injection h with h; exact ⟨w, h.symm, ha⟩
    | cons a l => simp [hq] at h
  | succ n ih =>
    intro w r hi hd ha h
    unfold loop at h
    cases hq : w.queue with
    | nil => simp only [hq] at h; injection h with h; exact ⟨w, h.symm, ha⟩
    | cons a l =>
      simp only [hq] at h
      obtain ⟨w1, hit⟩ := iter_ok hn hdecl hcfg hq hi hd ha
      simp only [hit] at h
      exact ih w1 r (walkInv_iter (build_closed ops) hq hi hit) (dataInv_iter hn hq hi hd hit)
        (agrees_iter hn hcfg hq hi hd ha hit) h

end

end PyCycle
