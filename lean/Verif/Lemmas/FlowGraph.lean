import Verif.Model.FlowGraph
import Mathlib.Data.List.Nodup
import Mathlib.Data.Finset.Card
import Mathlib.Data.Finset.Basic
import Mathlib.Logic.Relation
import Mathlib.Tactic.Linarith
import Mathlib.Tactic.Ring

/-! Helper lemmas about the flow-graph walk (`Verif.Model.FlowGraph`). -/

namespace PyCycle
variable {D : Type}

/-! ### Graph primitives -/

theorem mem_succ {G : Graph} {u v : Key} : v ∈ G.succ u ↔ (u, v) ∈ G.edges := by
  simp [Graph.succ]

theorem mem_pred {G : Graph} {u v : Key} : u ∈ G.pred v ↔ (u, v) ∈ G.edges := by
  simp [Graph.pred]

theorem succ_length_le (G : Graph) (v : Key) : (G.succ v).length ≤ G.edges.length := by
  simp only [Graph.succ, List.length_map]
  exact List.length_filter_le _ _

/-- networkx guarantees that the end points of edges are nodes. -/
def Graph.Closed (G : Graph) : Prop := ∀ u v, (u, v) ∈ G.edges → u ∈ G.nodes ∧ v ∈ G.nodes

/-! ### The loop and its allowance -/

theorem loop_mono (E : Env D) : ∀ (n m : Nat) (w : Walk D) (r), n ≤ m → loop E n w = some r →
    loop E m w = some r := by
  intro n
  induction n with
  | zero =>
    intro m w r _ h
    unfold loop at h ⊢
    cases hq : w.queue with
    | nil => simpa [hq] using h
    | cons a l => simp [hq] at h
  | succ n ih =>
    intro m w r hm h
    obtain ⟨m, rfl⟩ : ∃ k, m = k + 1 := ⟨m - 1, by omega⟩
    unfold loop at h ⊢
    cases hq : w.queue with
    | nil => simpa [hq] using h
    | cons a l =>
      simp only [hq] at h ⊢
      cases hi : iter E a { w with queue := l } with
      | error e => simpa [hi] using h
      | ok w' =>
        simp only [hi] at h ⊢
        exact ih m w' r (by omega) h

theorem setupResult_unique (E : Env D) (r r' : Except SetupErr (Walk D))
    (h : SetupResult E r) (h' : SetupResult E r') : r = r' := by
  obtain ⟨n, hn⟩ := h
  obtain ⟨m, hm⟩ := h'
  have h1 := loop_mono E n (max n m) _ _ (le_max_left _ _) hn
  have h2 := loop_mono E m (max n m) _ _ (le_max_right _ _) hm
  rw [h1] at h2
  exact Option.some.inj h2

/-! ### Effects of one step -/

theorem deliver_frame {E : Env D} {se nd : Key} {w w' : Walk D} {t : Key}
    (h : deliver E se nd w t = .ok w') :
    w'.queue = w.queue ∧ w'.visited = w.visited ∧ w'.flO = w.flO ∧ w'.calls = w.calls := by
  unfold deliver at h
  repeat' split at h
  all_goals first | (injection h with h; subst h; simp) | simp at h

theorem deliver_fold_frame {E : Env D} {se nd : Key} : ∀ {l : List Key} {w w' : Walk D},
    l.foldlM (deliver E se nd) w = .ok w' →
    w'.queue = w.queue ∧ w'.visited = w.visited ∧ w'.flO = w.flO ∧ w'.calls = w.calls := by
  intro l
  induction l with
  | nil =>
    intro w w' h
    simp only [List.foldlM, pure, Except.pure] at h
    injection h with h; subst h; simp
  | cons t l ih =>
    intro w w' h
    simp only [List.foldlM, bind, Except.bind] at h
    cases hd : deliver E se nd w t with
    | error e => simp [hd] at h
    | ok w1 =>
      simp only [hd] at h
      obtain ⟨a, b, c, d⟩ := deliver_frame hd
      obtain ⟨a', b', c', d'⟩ := ih h
      exact ⟨a'.trans a, b'.trans b, c'.trans c, d'.trans d⟩

theorem process_frame {E : Env D} {k : Kind} {nd : Key} {w w' : Walk D}
    (h : process E k nd w = .ok w') :
    w'.queue = w.queue ∧ w'.visited = w.visited ++ [nd] ∧
    w'.calls = w.calls ++ (if k = .element then [nd] else []) := by
  cases k with
  | element =>
    simp only [process] at h
    split at h
    · split at h
      · simp at h
      · injection h with h; subst h; simp
    · simp at h
  | outPort =>
    simp only [process] at h
    split at h
    · simp at h
    · split at h
      · simp at h
      · rename_i w1 hw
        injection h with h; subst h
        obtain ⟨a, b, _, d⟩ := deliver_fold_frame hw
        simp [a, b, d]
  | inPort =>
    simp only [process] at h
    injection h with h; subst h; simp

/-- The three ways an iteration can succeed. -/
theorem iter_cases {E : Env D} {nd : Key} {w w' : Walk D} (h : iter E nd w = .ok w') :
    (∃ k, (E.G.attr nd).kind = some k) ∧
    ((¬ (∀ p ∈ E.G.pred nd, p ∈ w.visited) ∧ w' = w) ∨
     ((∀ p ∈ E.G.pred nd, p ∈ w.visited) ∧ nd ∈ w.visited ∧
        w' = { w with queue := w.queue ++ E.G.succ nd }) ∨
     ((∀ p ∈ E.G.pred nd, p ∈ w.visited) ∧ nd ∉ w.visited ∧
        ∃ k, (E.G.attr nd).kind = some k ∧
          process E k nd { w with queue := w.queue ++ E.G.succ nd } = .ok w')) := by
  unfold iter at h
  split at h
  · simp at h
  · rename_i k hk
    refine ⟨⟨k, hk⟩, ?_⟩
    split at h
    · rename_i hr
      simp only at h
      split at h
      · rename_i hv
        injection h with h
        exact Or.inr (Or.inl ⟨hr, hv, h.symm⟩)
      · rename_i hv
        exact Or.inr (Or.inr ⟨hr, hv, k, hk, h⟩)
    · rename_i hr
      injection h with h
      exact Or.inl ⟨hr, h.symm⟩

/-! ### Structural invariant of the walk -/

structure WalkInv (E : Env D) (w : Walk D) : Prop where
  queue_nodes : ∀ v ∈ w.queue, v ∈ E.G.nodes
  visited_nodes : ∀ v ∈ w.visited, v ∈ E.G.nodes
  nodup : w.visited.Nodup
  order : ∀ l₁ v l₂, w.visited = l₁ ++ v :: l₂ → ∀ u ∈ E.G.pred v, u ∈ l₁
  progress : ∀ v ∈ E.G.nodes, (∀ u ∈ E.G.pred v, u ∈ w.visited) → v ∈ w.visited ∨ v ∈ w.queue
  calls_eq : w.calls = w.visited.filter (fun v => (E.G.attr v).kind = some .element)
  typed : ∀ v ∈ w.visited, ∃ k, (E.G.attr v).kind = some k

theorem walkInv_init (E : Env D) : WalkInv E (initWalk E) where
  queue_nodes := by intro v hv; simp [initWalk] at hv; exact hv.1
  visited_nodes := by simp [initWalk]
  nodup := by simp [initWalk]
  order := by intro l₁ v l₂ h; simp [initWalk] at h
  progress := by
    intro v hv h
    right
    simp only [initWalk, List.mem_filter, hv, true_and]
    cases hp : E.G.pred v with
    | nil => rfl
    | cons a l => exact absurd (h a (by simp [hp])) (by simp [initWalk])
  calls_eq := by simp [initWalk]
  typed := by simp [initWalk]

theorem order_append {V : List Key} {G : Graph} {nd : Key}
    (ho : ∀ l₁ v l₂, V = l₁ ++ v :: l₂ → ∀ u ∈ G.pred v, u ∈ l₁)
    (hr : ∀ p ∈ G.pred nd, p ∈ V) :
    ∀ l₁ v l₂, V ++ [nd] = l₁ ++ v :: l₂ → ∀ u ∈ G.pred v, u ∈ l₁ := by
  intro l₁ v l₂ h u hu
  rcases List.eq_nil_or_concat l₂ with rfl | ⟨l, b, rfl⟩
  · have := List.append_inj' (s₁ := V) (t₁ := [nd]) (s₂ := l₁) (t₂ := [v]) h rfl
    obtain ⟨rfl, h2⟩ := this
    simp at h2; subst h2
    exact hr u hu
  · have h' : V ++ [nd] = (l₁ ++ v :: l) ++ [b] := by simpa using h
    have := List.append_inj' h' rfl
    exact ho l₁ v l this.1 u hu

theorem walkInv_iter {E : Env D} (hc : E.G.Closed) {nd : Key} {rest : List Key} {w w' : Walk D}
    (hq : w.queue = nd :: rest) (hi : WalkInv E w)
    (h : iter E nd { w with queue := rest } = .ok w') : WalkInv E w' := by
  have hnd : nd ∈ E.G.nodes := hi.queue_nodes nd (by simp [hq])
  have hrest : ∀ v ∈ rest, v ∈ E.G.nodes := fun v hv => hi.queue_nodes v (by simp [hq, hv])
  have hsucc : ∀ v ∈ E.G.succ nd, v ∈ E.G.nodes := fun v hv => (hc _ _ (mem_succ.1 hv)).2
  obtain ⟨_, h⟩ := iter_cases h
  rcases h with ⟨hr, rfl⟩ | ⟨hr, hv, rfl⟩ | ⟨hr, hv, k, hk, hp⟩
  · refine ⟨hrest, hi.visited_nodes, hi.nodup, hi.order, ?_, hi.calls_eq, hi.typed⟩
    intro v hv hpv
    rcases hi.progress v hv hpv with h | h
    · exact Or.inl h
    · rw [hq] at h
      rcases List.mem_cons.1 h with rfl | h
      · exact absurd hpv hr
      · exact Or.inr h
  · refine ⟨?_, hi.visited_nodes, hi.nodup, hi.order, ?_, hi.calls_eq, hi.typed⟩
    · intro v hv'
      rcases List.mem_append.1 hv' with h | h
      · exact hrest v h
      · exact hsucc v h
    · intro v hvn hpv
      rcases hi.progress v hvn hpv with h | h
      · exact Or.inl h
      · rw [hq] at h
        rcases List.mem_cons.1 h with rfl | h
        · exact Or.inl hv
        · exact Or.inr (List.mem_append_left _ h)
  · obtain ⟨a, b, c⟩ := process_frame hp
    simp only at a b c hr hv
    refine ⟨?_, ?_, ?_, ?_, ?_, ?_, ?_⟩
    · intro v hv'
      rw [a] at hv'
      rcases List.mem_append.1 hv' with h | h
      · exact hrest v h
      · exact hsucc v h
    · intro v hv'
      rw [b] at hv'
      rcases List.mem_append.1 hv' with h | h
      · exact hi.visited_nodes v h
      · simp at h; subst h; exact hnd
    · rw [b]
      exact List.nodup_append.2 ⟨hi.nodup, by simp, by
        intro x hx y hy hxy; simp at hy; subst hy; subst hxy; exact hv hx⟩
    · rw [b]
      exact order_append hi.order hr
    · intro v hvn hpv
      rw [a, b]
      rw [b] at hpv
      by_cases hall : ∀ u ∈ E.G.pred v, u ∈ w.visited
      · rcases hi.progress v hvn hall with h | h
        · exact Or.inl (List.mem_append_left _ h)
        · rw [hq] at h
          rcases List.mem_cons.1 h with rfl | h
          · exact Or.inl (by simp)
          · exact Or.inr (List.mem_append_left _ h)
      · push Not at hall
        obtain ⟨u, hu, huv⟩ := hall
        have := hpv u hu
        rcases List.mem_append.1 this with h | h
        · exact absurd h huv
        · simp at h; subst h
          exact Or.inr (List.mem_append_right _ (mem_succ.2 (mem_pred.1 hu)))
    · rw [b, c, hi.calls_eq, List.filter_append]
      congr 1
      by_cases hke : k = .element
      · subst hke; simp [hk]
      · simp [hk, hke]
    · intro v hv'
      rw [b] at hv'
      rcases List.mem_append.1 hv' with h | h
      · exact hi.typed v h
      · simp at h; subst h; exact ⟨k, hk⟩

theorem walkInv_loop {E : Env D} (hc : E.G.Closed) : ∀ (n : Nat) (w w' : Walk D),
    WalkInv E w → loop E n w = some (.ok w') → WalkInv E w' ∧ w'.queue = [] := by
  intro n
  induction n with
  | zero =>
    intro w w' hi h
    unfold loop at h
    cases hq : w.queue with
    | nil => simp only [hq] at h; injection h with h; injection h with h; subst h; exact ⟨hi, hq⟩
    | cons a l => simp [hq] at h
  | succ n ih =>
    intro w w' hi h
    unfold loop at h
    cases hq : w.queue with
    | nil => simp only [hq] at h; injection h with h; injection h with h; subst h; exact ⟨hi, hq⟩
    | cons a l =>
      simp only [hq] at h
      cases hit : iter E a { w with queue := l } with
      | error e => simp [hit] at h
      | ok w1 =>
        simp only [hit] at h
        exact ih w1 w' (walkInv_iter hc hq hi hit) h

/-! ### Termination -/

/-- Weight of a queued node: visited nodes weigh exponentially more the earlier they
were visited. -/
def nodeWeight (d : Nat) (V : List Key) (v : Key) : Nat :=
  if v ∈ V then (d + 1) ^ (V.length - V.idxOf v) else 1

def queueWeight (d : Nat) (V q : List Key) : Nat := (q.map (nodeWeight d V)).sum

theorem nodeWeight_pos (d : Nat) (V : List Key) (v : Key) : 1 ≤ nodeWeight d V v := by
  unfold nodeWeight; split
  · exact Nat.one_le_pow _ _ (by omega)
  · exact le_refl 1

theorem sum_le_mul {l : List Key} {f : Key → Nat} {b : Nat} (h : ∀ v ∈ l, f v ≤ b) :
    (l.map f).sum ≤ l.length * b := by
  induction l with
  | nil => simp
  | cons a l ih =>
    simp only [List.map_cons, List.sum_cons, List.length_cons, Nat.add_mul, Nat.one_mul]
    have := h a (by simp)
    have := ih (fun v hv => h v (by simp [hv]))
    omega

theorem succ_weight_lt {E : Env D} {w : Walk D} (hi : WalkInv E w) {nd : Key}
    (hv : nd ∈ w.visited) :
    queueWeight E.G.edges.length w.visited (E.G.succ nd) <
      nodeWeight E.G.edges.length w.visited nd := by
  set d := E.G.edges.length
  set V := w.visited
  have hidx : V.idxOf nd < V.length := List.idxOf_lt_length_iff.2 hv
  obtain ⟨k, hk⟩ : ∃ k, V.length - V.idxOf nd = k + 1 := ⟨V.length - V.idxOf nd - 1, by omega⟩
  have hb : ∀ s ∈ E.G.succ nd, nodeWeight d V s ≤ (d + 1) ^ k := by
    intro s hs
    unfold nodeWeight
    split
    · rename_i hsV
      apply Nat.pow_le_pow_right (by omega)
      -- nd occurs before s
      have hsidx : V.idxOf s < V.length := List.idxOf_lt_length_iff.2 hsV
      have hsplit : V = V.take (V.idxOf s) ++ s :: V.drop (V.idxOf s + 1) := by
        conv_lhs => rw [← List.take_append_drop (V.idxOf s) V]
        congr 1
        rw [List.drop_eq_getElem_cons hsidx]
        simp
      have hmem : nd ∈ V.take (V.idxOf s) :=
        hi.order _ _ _ hsplit nd (mem_pred.2 (mem_succ.1 hs))
      have hlt : V.idxOf nd < V.idxOf s := by
        have h1 : (V.take (V.idxOf s)).idxOf nd < (V.take (V.idxOf s)).length :=
          List.idxOf_lt_length_iff.2 hmem
        have h2 : V.idxOf nd = (V.take (V.idxOf s)).idxOf nd := by
          conv_lhs => rw [← List.take_append_drop (V.idxOf s) V]
          exact List.idxOf_append_of_mem hmem
        rw [h2]
        refine lt_of_lt_of_le h1 ?_
        simp
      omega
    · exact Nat.one_le_pow _ _ (by omega)
  have h1 : queueWeight d V (E.G.succ nd) ≤ (E.G.succ nd).length * (d + 1) ^ k := sum_le_mul hb
  have h2 : (E.G.succ nd).length * (d + 1) ^ k ≤ d * (d + 1) ^ k :=
    Nat.mul_le_mul_right _ (succ_length_le _ _)
  have h3 : nodeWeight d V nd = (d + 1) ^ k * (d + 1) := by
    unfold nodeWeight; rw [if_pos hv, hk, pow_succ]
  have h4 : 0 < (d + 1) ^ k := Nat.pow_pos (by omega)
  rw [h3]
  nlinarith

theorem queueWeight_append (d : Nat) (V q q' : List Key) :
    queueWeight d V (q ++ q') = queueWeight d V q + queueWeight d V q' := by
  simp [queueWeight]

theorem visited_length_le {E : Env D} {w : Walk D} (hi : WalkInv E w) :
    w.visited.length ≤ E.G.nodes.length := by
  have h1 : w.visited.toFinset.card = w.visited.length := List.toFinset_card_of_nodup hi.nodup
  have h2 : w.visited.toFinset ⊆ E.G.nodes.toFinset := by
    intro v hv; simp at hv ⊢; exact hi.visited_nodes v hv
  have h3 := Finset.card_le_card h2
  have h4 := List.toFinset_card_le E.G.nodes
  omega

theorem loop_terminates {E : Env D} (hc : E.G.Closed) : ∀ (m q : Nat) (w : Walk D),
    WalkInv E w → E.G.nodes.length - w.visited.length ≤ m →
    queueWeight E.G.edges.length w.visited w.queue ≤ q →
    ∃ n r, loop E n w = some r := by
  intro m
  induction m with
  | zero =>
    intro q
    induction q with
    | zero =>
      intro w hi _ hq
      cases hql : w.queue with
      | nil => exact ⟨0, _, by unfold loop; rw [hql]⟩
      | cons a l =>
        rw [hql] at hq
        have := nodeWeight_pos E.G.edges.length w.visited a
        simp [queueWeight] at hq; omega
    | succ q ihq =>
      intro w hi hm hq
      cases hql : w.queue with
      | nil => exact ⟨0, _, by unfold loop; rw [hql]⟩
      | cons a l =>
        cases hit : iter E a { w with queue := l } with
        | error e => exact ⟨1, .error e, by unfold loop; simp [hql, hit]⟩
        | ok w1 =>
          have hi1 := walkInv_iter hc hql hi hit
          have hpos := nodeWeight_pos E.G.edges.length w.visited a
          rw [hql] at hq
          have hq' : nodeWeight E.G.edges.length w.visited a +
              queueWeight E.G.edges.length w.visited l ≤ q + 1 := by
            simpa [queueWeight] using hq
          obtain ⟨_, hcs⟩ := iter_cases hit
          have key : ∃ n r, loop E n w1 = some r := by
            rcases hcs with ⟨_, rfl⟩ | ⟨_, hv, rfl⟩ | ⟨_, hv, k, _, hp⟩
            · exact ihq _ hi1 hm (by simp only; omega)
            · refine ihq _ hi1 hm ?_
              have := succ_weight_lt hi hv
              simp only [queueWeight_append]; omega
            · obtain ⟨_, b, _⟩ := process_frame hp
              have h1 := visited_length_le hi1
              rw [b] at h1; simp at h1; omega
          obtain ⟨n, r, hn⟩ := key
          exact ⟨n + 1, r, by unfold loop; simp only [hql, hit]; exact hn⟩
  | succ m ihm =>
    intro q
    induction q with
    | zero =>
      intro w hi _ hq
      cases hql : w.queue with
      | nil => exact ⟨0, _, by unfold loop; rw [hql]⟩
      | cons a l =>
        rw [hql] at hq
        have := nodeWeight_pos E.G.edges.length w.visited a
        simp [queueWeight] at hq; omega
    | succ q ihq =>
      intro w hi hm hq
      cases hql : w.queue with
      | nil => exact ⟨0, _, by unfold loop; rw [hql]⟩
      | cons a l =>
        cases hit : iter E a { w with queue := l } with
        | error e => exact ⟨1, .error e, by unfold loop; simp [hql, hit]⟩
        | ok w1 =>
          have hi1 := walkInv_iter hc hql hi hit
          have hpos := nodeWeight_pos E.G.edges.length w.visited a
          rw [hql] at hq
          have hq' : nodeWeight E.G.edges.length w.visited a +
              queueWeight E.G.edges.length w.visited l ≤ q + 1 := by
            simpa [queueWeight] using hq
          obtain ⟨_, hcs⟩ := iter_cases hit
          have key : ∃ n r, loop E n w1 = some r := by
            rcases hcs with ⟨_, rfl⟩ | ⟨_, hv, rfl⟩ | ⟨_, hv, k, _, hp⟩
            · exact ihq _ hi1 hm (by simp only; omega)
            · refine ihq _ hi1 hm ?_
              have := succ_weight_lt hi hv
              simp only [queueWeight_append]; omega
            · obtain ⟨_, b, _⟩ := process_frame hp
              refine ihm (queueWeight E.G.edges.length w1.visited w1.queue) w1 hi1 ?_ (le_refl _)
              rw [b]; simp only [List.length_append, List.length_singleton]; omega
          obtain ⟨n, r, hn⟩ := key
          exact ⟨n + 1, r, by unfold loop; simp only [hql, hit]; exact hn⟩

theorem setup_terminates (E : Env D) (hc : E.G.Closed) : ∃ r, SetupResult E r := by
  obtain ⟨n, r, h⟩ := loop_terminates hc _ _ (initWalk E) (walkInv_init E) (le_refl _) (le_refl _)
  exact ⟨r, n, h⟩

theorem setup_inv {E : Env D} (hc : E.G.Closed) {w : Walk D} (h : SetupResult E (.ok w)) :
    WalkInv E w ∧ w.queue = [] := by
  obtain ⟨n, h⟩ := h
  exact walkInv_loop hc n _ _ (walkInv_init E) h

/-- Visited nodes are exactly the accessible ones. -/
theorem visited_iff_acc {E : Env D} (hc : E.G.Closed) {w : Walk D} (h : SetupResult E (.ok w))
    (v : Key) (hv : v ∈ E.G.nodes) :
    v ∈ w.visited ↔ Acc (fun a b => (a, b) ∈ E.G.edges) v := by
  obtain ⟨hi, hq⟩ := setup_inv hc h
  constructor
  · -- by induction on the position in `visited`
    have key : ∀ (l₁ l₂ : List Key), w.visited = l₁ ++ l₂ → ∀ x ∈ l₁,
        Acc (fun a b => (a, b) ∈ E.G.edges) x := by
      intro l₁
      induction l₁ using List.reverseRecOn with
      | nil => simp
      | append_singleton l a ih =>
        intro l₂ hl x hx
        have ih' := ih (a :: l₂) (by simpa using hl)
        rcases List.mem_append.1 hx with h | h
        · exact ih' x h
        · simp at h; subst h
          constructor
          intro y hy
          exact ih' y (hi.order l x l₂ (by simpa using hl) y (mem_pred.2 hy))
    intro hvis
    exact key w.visited [] (by simp) v hvis
  · intro hacc
    induction hacc with
    | intro x _ ih =>
      have : ∀ u ∈ E.G.pred x, u ∈ w.visited := by
        intro u hu
        have he := mem_pred.1 hu
        exact ih u he (hc _ _ he).1
      rcases hi.progress x hv this with h | h
      · exact h
      · rw [hq] at h; simp at h

end PyCycle
