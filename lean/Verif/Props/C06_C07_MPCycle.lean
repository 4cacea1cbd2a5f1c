import Verif.Model.MPCycle
import Mathlib.Data.List.Nodup

/-! # C06, C07: multi-point bookkeeping over every history of calls -/

namespace PyCycle.MP
variable {V : Type}

namespace Spec

/-- The calls of a history that were accepted (returned normally), in order. Each call is
judged in the state produced by the calls before it. -/
def accepted : List (Op V) → List (Op V)
  | h => (h.foldl (fun (acc : State V × List (Op V)) op =>
      let r := step acc.1 op
      (r.1, if r.2 = .ok then acc.2 ++ [op] else acc.2)) ({}, [])).2

/-- Names of the design points among some calls. -/
def designPoints (h : List (Op V)) : List String :=
  h.filterMap (fun | .addPnt n .isTrue => some n | _ => none)
/-- Names of the off-design points among some calls. -/
def offDesignPoints (h : List (Op V)) : List String :=
  h.filterMap (fun | .addPnt n .isFalse => some n | _ => none)
/-- Cycle parameters among some calls. -/
def params (h : List (Op V)) : List (String × V) :=
  h.filterMap (fun | .addCycleParam n v => some (n, v) | _ => none)
/-- Requested design-to-off-design connections among some calls. -/
def pairs (h : List (Op V)) : List (String × String) :=
  h.filterMap (fun | .connectDesOd a b => some (a, b) | _ => none)
/-- Requests for default connections among some calls. -/
def skipRequests (h : List (Op V)) : List Skip :=
  h.filterMap (fun | .useDefaultConns k => some k | _ => none)
/-- Last requested skip among some calls. -/
def lastSkip (h : List (Op V)) : Option Skip := (skipRequests h).getLast?

end Spec
open Spec

section append
variable (l l' : List (Op V))
theorem dp_append : designPoints (l ++ l') = designPoints l ++ designPoints l' := by
  simp [designPoints]
theorem op_append : offDesignPoints (l ++ l') = offDesignPoints l ++ offDesignPoints l' := by
  simp [offDesignPoints]
theorem pa_append : params (l ++ l') = params l ++ params l' := by simp [params]
theorem pr_append : pairs (l ++ l') = pairs l ++ pairs l' := by simp [pairs]
theorem sk_append : skipRequests (l ++ l') = skipRequests l ++ skipRequests l' := by
  simp [skipRequests]
end append

/-- Evaluation of the views on a single call. -/
theorem views_single (op : Op V) :
    designPoints [op] = (match op with | .addPnt n .isTrue => [n] | _ => []) ∧
    offDesignPoints [op] = (match op with | .addPnt n .isFalse => [n] | _ => []) ∧
    params [op] = (match op with | .addCycleParam n v => [(n, v)] | _ => []) ∧
    pairs [op] = (match op with | .connectDesOd a b => [(a, b)] | _ => []) ∧
    skipRequests [op] = (match op with | .useDefaultConns k => [k] | _ => []) := by
  cases op with
  | addPnt n d => cases d <;> exact ⟨rfl, rfl, rfl, rfl, rfl⟩
  | _ => exact ⟨rfl, rfl, rfl, rfl, rfl⟩

theorem accepted_append (h : List (Op V)) (op : Op V) :
    accepted (h ++ [op]) = accepted h ++ (if (step (run h) op).2 = .ok then [op] else []) := by
  have key : ∀ (h : List (Op V)) (s : State V) (l : List (Op V)),
      (h.foldl (fun (acc : State V × List (Op V)) op =>
        ((step acc.1 op).1, if (step acc.1 op).2 = .ok then acc.2 ++ [op] else acc.2)) (s, l)).1 =
      h.foldl (fun s op => (step s op).1) s := by
    intro h
    induction h with
    | nil => intros; rfl
    | cons o h ih => intro s l; simp only [List.foldl_cons]; exact ih _ _
  simp only [accepted, List.foldl_append, List.foldl_cons, List.foldl_nil]
  rw [key]
  show (if (step (run h) op).2 = .ok then _ else _) = _
  split <;> simp

theorem run_append (h : List (Op V)) (op : Op V) : run (h ++ [op]) = (step (run h) op).1 := by
  simp [run]

/-- C06 (a rejected call changes nothing). -/
theorem C06_rejected_unchanged (s : State V) (op : Op V) (h : (step s op).2 ≠ .ok) :
    (step s op).1 = s := by
  cases op with
  | addCycleParam n v => simp only [step, addCycleParam] at *; split <;> simp_all
  | connectDesOd a b => simp only [step, connectDesOd] at *; split_ifs <;> simp_all
  | useDefaultConns k => simp only [step, useDefaultConns] at *; split_ifs <;> simp_all
  | addPnt n d =>
    cases d <;> simp only [step, addPnt] at * <;> split_ifs <;> simp_all

/-- C06 (the state is exactly the accepted history). After any history: the design point
is the accepted design point, of which there is at most one; off-design points,
parameters and connection pairs are the accepted ones in call order; parameter names
are unique; default connections are on iff requested, with the latest skip. -/
theorem C06_state_is_accepted_history (h : List (Op V)) :
    (designPoints (accepted h)).length ≤ 1 ∧
    (run h).desPnt = (designPoints (accepted h)).head? ∧
    (run h).odPnts = offDesignPoints (accepted h) ∧
    (run h).cycleParams = params (accepted h) ∧
    ((params (accepted h)).map Prod.fst).Nodup ∧
    (run h).desOd = pairs (accepted h) ∧
    ((run h).useDefault = (lastSkip (accepted h)).isSome) ∧
    (∀ k, lastSkip (accepted h) = some k → (run h).skip = k) ∧
    (∀ n, n ∈ (run h).subs ↔ n ∈ designPoints (accepted h) ∨ n ∈ offDesignPoints (accepted h)) := by
  induction h using List.reverseRecOn with
  | nil => simp [run, accepted, designPoints, offDesignPoints, params, pairs, lastSkip, skipRequests]
  | append_singleton h op ih =>
    obtain ⟨i1, i2, i3, i4, i5, i6, i7, i8, i9⟩ := ih
    rw [accepted_append, run_append]
    by_cases hok : (step (run h) op).2 = .ok
    · rw [if_pos hok]
      obtain ⟨v1, v2, v3, v4, v5⟩ := views_single op
      simp only [lastSkip, dp_append, op_append, pa_append, pr_append, sk_append, v1, v2, v3, v4, v5]
      simp only [lastSkip] at i7 i8
      clear v1 v2 v3 v4 v5
      cases op with
      | addCycleParam n v =>
        simp only [step, addCycleParam] at hok ⊢
        split_ifs at hok with hm
        rw [if_neg hm]
        rw [i4] at hm
        simp only [List.append_nil]
        refine ⟨i1, i2, i3, by rw [i4], ?_, i6, i7, i8, i9⟩
        rw [List.map_append]
        refine List.nodup_append.2 ⟨i5, by simp, ?_⟩
        intro a ha b hb hab
        simp at hb; subst hb; subst hab
        exact hm ha
      | connectDesOd a b =>
        simp only [step, connectDesOd] at hok ⊢
        split_ifs at hok with h1 h2
        rw [if_neg h1, if_neg h2]
        simp only [List.append_nil]
        exact ⟨i1, i2, i3, i4, i5, by rw [i6], i7, i8, i9⟩
      | useDefaultConns k =>
        simp only [step, useDefaultConns] at hok ⊢
        split_ifs at hok with h1 h2
        rw [if_neg h1, if_neg h2]
        simp only [List.append_nil]
        exact ⟨i1, i2, i3, i4, i5, i6, by simp, by simp, i9⟩
      | addPnt n d =>
        cases d with
        | isTrue =>
          simp only [step, addPnt] at hok ⊢
          split_ifs at hok with h1 h2
          rw [if_neg h1, if_neg h2]
          have hnil : designPoints (accepted h) = [] := by
            rw [i2] at h1
            cases hd : designPoints (accepted h) with
            | nil => rfl
            | cons a l => rw [hd] at h1; simp at h1
          rw [hnil] at i9 ⊢
          simp only [List.append_nil]
          refine ⟨by simp, by simp, i3, i4, i5, i6, i7, i8, ?_⟩
          intro m
          rw [List.mem_append, i9 m]
          simp only [List.not_mem_nil, false_or, List.nil_append, List.mem_singleton]
          tauto
        | isFalse =>
          simp only [step, addPnt] at hok ⊢
          split_ifs at hok with h2
          rw [if_neg h2]
          simp only [List.append_nil]
          refine ⟨i1, i2, by rw [i3], i4, i5, i6, i7, i8, ?_⟩
          intro m
          rw [List.mem_append, i9 m, List.mem_append]
          tauto
        | other =>
          simp only [step, addPnt, List.append_nil]
          exact ⟨i1, i2, i3, i4, i5, i6, i7, i8, i9⟩
    · rw [if_neg hok, C06_rejected_unchanged _ _ hok]
      simp only [List.append_nil]
      exact ⟨i1, i2, i3, i4, i5, i6, i7, i8, i9⟩

/-- C06 (which calls are accepted). In terms of what was accepted before: a parameter iff
its name is new; a second design point never; a point name iff unused; a design to
off-design request iff both kinds of point exist. -/
theorem C06_acceptance (h : List (Op V)) :
    (∀ n v, (step (run h) (.addCycleParam n v)).2 = .ok ↔
      n ∉ (params (accepted h)).map Prod.fst) ∧
    (∀ n, (step (run h) (.addPnt n .isTrue)).2 = .ok ↔
      designPoints (accepted h) = [] ∧ n ∉ offDesignPoints (accepted h)) ∧
    (∀ n, (step (run h) (.addPnt n .isFalse)).2 = .ok ↔
      n ∉ designPoints (accepted h) ∧ n ∉ offDesignPoints (accepted h)) ∧
    (∀ a b, (step (run h) (.connectDesOd a b)).2 = .ok ↔
      designPoints (accepted h) ≠ [] ∧ offDesignPoints (accepted h) ≠ []) ∧
    (∀ k, (step (run h) (.useDefaultConns k)).2 = .ok ↔
      designPoints (accepted h) ≠ [] ∧ offDesignPoints (accepted h) ≠ []) := by
  obtain ⟨i1, i2, i3, i4, i5, i6, i7, i8, i9⟩ := C06_state_is_accepted_history h
  have hdes : (run h).desPnt = none ↔ designPoints (accepted h) = [] := by
    rw [i2]; simp
  refine ⟨?_, ?_, ?_, ?_, ?_⟩
  · intro n v
    simp only [step, addCycleParam, i4]
    split_ifs with hm <;> simp [hm]
  · intro n
    simp only [step, addPnt]
    split_ifs with h1 h2
    · simp only [reduceCtorEq, false_iff, not_and]
      intro hd; exact absurd (hdes.2 hd) h1
    · simp only [reduceCtorEq, false_iff, not_and, not_not]
      intro hd
      rcases (i9 n).1 h2 with h | h
      · rw [hd] at h; simp at h
      · exact h
    · simp only [true_iff]
      have h1' : (run h).desPnt = none := by simpa using h1
      exact ⟨hdes.1 h1', fun hh => h2 ((i9 n).2 (Or.inr hh))⟩
  · intro n
    simp only [step, addPnt]
    split_ifs with h2
    · simp only [reduceCtorEq, false_iff]
      have := (i9 n).1 h2; tauto
    · simp only [true_iff]
      have := fun hh => h2 ((i9 n).2 hh); tauto
  · intro a b
    simp only [step, connectDesOd, hdes, i3]
    split_ifs with h1 h2 <;> simp [*]
  · intro k
    simp only [step, useDefaultConns, hdes, i3]
    split_ifs with h1 h2 <;> simp [*]

/-- C07 (no spurious failure). On any reachable state, `configure` fails only if cycle
parameters were declared without a design point. -/
theorem C07_configure_fails_iff (h : List (Op V)) (elems : List ElemConns) :
    configure (run h) elems = none ↔
      params (accepted h) ≠ [] ∧ designPoints (accepted h) = [] := by
  obtain ⟨i1, i2, i3, i4, i5, i6, i7, i8, i9⟩ := C06_state_is_accepted_history h
  -- default connections / pairs can only have been requested with a design point present
  have hdef : (run h).desPnt = none → (run h).useDefault = false ∧ (run h).desOd = [] := by
    clear i1 i2 i3 i4 i5 i6 i7 i8 i9
    induction h using List.reverseRecOn with
    | nil => intro _; simp [run]
    | append_singleton h op ih =>
      rw [run_append]
      intro hd
      by_cases hok : (step (run h) op).2 = .ok
      · cases op with
        | addCycleParam n v =>
          simp only [step, addCycleParam] at *
          split_ifs at * <;> simp_all
        | connectDesOd a b =>
          simp only [step, connectDesOd] at *
          split_ifs at * <;> simp_all
        | useDefaultConns k =>
          simp only [step, useDefaultConns] at *
          split_ifs at * <;> simp_all
        | addPnt n d =>
          cases d
          · simp only [step, addPnt] at *; split_ifs at * <;> simp_all
          · simp only [step, addPnt] at *; split_ifs at * <;> simp_all
          · simp only [step, addPnt] at *; exact ih hd
      · rw [C06_rejected_unchanged _ _ hok] at hd ⊢
        exact ih hd
  cases hdp : (run h).desPnt with
  | none =>
    obtain ⟨hu, ho⟩ := hdef hdp
    have hn : designPoints (accepted h) = [] := by rw [hdp] at i2; simpa using i2.symm
    simp only [configure, hdp, hu, ho, hn, ← i4]
    split_ifs with hp <;> simp_all
  | some d =>
    have hn : designPoints (accepted h) ≠ [] := by
      intro hh; rw [hdp, hh] at i2; simp at i2
    simp [configure, hdp, hn]

/-- C07 (exactly the requested connections). Whenever `configure` succeeds on a reachable
state, a connection is issued iff it runs from the design point to an off-design point
along a requested pair, or along a default pair of a non-skipped element when default
connections were requested. -/
theorem C07_connections (h : List (Op V)) (elems : List ElemConns) (cmds : List (Cmd V))
    (hc : configure (run h) elems = some cmds) (d src o tgt : String) :
    Cmd.connect d src o tgt ∈ cmds ↔
      d ∈ designPoints (accepted h) ∧ o ∈ offDesignPoints (accepted h) ∧
      ((src, tgt) ∈ pairs (accepted h) ∨
       ∃ k, lastSkip (accepted h) = some k ∧ ∃ e ∈ elems, k.skips e.name = false ∧
         ∃ cs, e.conns = some cs ∧ ∃ st ∈ cs,
           src = e.name ++ "." ++ st.1 ∧ tgt = e.name ++ "." ++ st.2) := by
  obtain ⟨i1, i2, i3, i4, i5, i6, i7, i8, i9⟩ := C06_state_is_accepted_history h
  have hd : ∀ x, (run h).desPnt = some x ↔ x ∈ designPoints (accepted h) := by
    intro x
    rw [i2]
    match hl : designPoints (accepted h), i1 with
    | [], _ => simp
    | [a], _ => simp [eq_comm]
    | a :: b :: l, hh => simp at hh
  rw [← hd, ← i3, ← i6]
  have hsk : (∃ k, lastSkip (accepted h) = some k ∧ ∃ e ∈ elems, k.skips e.name = false ∧
         ∃ cs, e.conns = some cs ∧ ∃ st ∈ cs,
           src = e.name ++ "." ++ st.1 ∧ tgt = e.name ++ "." ++ st.2) ↔
      ((run h).useDefault = true ∧ ∃ e ∈ elems, (run h).skip.skips e.name = false ∧
         ∃ cs, e.conns = some cs ∧ ∃ st ∈ cs,
           src = e.name ++ "." ++ st.1 ∧ tgt = e.name ++ "." ++ st.2) := by
    constructor
    · rintro ⟨k, hk, rest⟩
      rw [i7, hk, i8 k hk]; exact ⟨rfl, rest⟩
    · rintro ⟨hu, rest⟩
      rw [i7] at hu
      obtain ⟨k, hk⟩ := Option.isSome_iff_exists.1 hu
      rw [i8 k hk] at rest
      exact ⟨k, hk, rest⟩
  rw [hsk]
  generalize run h = s at *
  clear hd i1 i2 i3 i4 i5 i6 i7 i8 i9 hsk
  have hparam : ∀ d' : String, Cmd.connect d src o tgt ∉ paramCmds s d' := by
    intro d' hm
    simp [paramCmds] at hm
  have hconn : ∀ d' : String, Cmd.connect d src o tgt ∈ pairCmds s d' ↔
      d' = d ∧ o ∈ s.odPnts ∧ (src, tgt) ∈ s.desOd := by
    intro d'
    simp only [pairCmds, List.mem_flatMap, List.mem_map, Cmd.connect.injEq, Prod.exists]
    constructor
    · rintro ⟨a, b, hab, p, hp, rfl, rfl, rfl, rfl⟩; exact ⟨rfl, hp, hab⟩
    · rintro ⟨rfl, hp, hab⟩; exact ⟨src, tgt, hab, o, hp, rfl, rfl, rfl, rfl⟩
  have hdflt : ∀ d' : String, Cmd.connect d src o tgt ∈ defaultCmds s d' elems ↔
      d' = d ∧ o ∈ s.odPnts ∧ ∃ e ∈ elems, s.skip.skips e.name = false ∧
         ∃ cs, e.conns = some cs ∧ ∃ st ∈ cs,
           src = e.name ++ "." ++ st.1 ∧ tgt = e.name ++ "." ++ st.2 := by
    intro d'
    rw [defaultCmds, List.mem_flatMap]
    constructor
    · rintro ⟨e, he, hm⟩
      split_ifs at hm with hsk
      · simp at hm
      · cases hcs : e.conns with
        | none => rw [hcs] at hm; simp at hm
        | some cs =>
          rw [hcs] at hm
          simp only [List.mem_flatMap, List.mem_map, Cmd.connect.injEq] at hm
          obtain ⟨st, hst, p, hp, rfl, hs, rfl, ht⟩ := hm
          exact ⟨rfl, hp, e, he, by simpa using hsk, cs, hcs, st, hst, hs.symm, ht.symm⟩
    · rintro ⟨rfl, hp, e, he, hsk, cs, hcs, st, hst, hs, ht⟩
      refine ⟨e, he, ?_⟩
      rw [if_neg (by simp [hsk]), hcs]
      simp only [List.mem_flatMap, List.mem_map, Cmd.connect.injEq]
      exact ⟨st, hst, o, hp, True.intro, hs.symm, rfl, ht.symm⟩
  simp only [configure] at hc
  cases hdp : s.desPnt with
  | none =>
    rw [hdp] at hc
    simp only [reduceCtorEq, false_and, iff_false]
    split_ifs at hc
    simp at hc; subst hc; simp
  | some d' =>
    rw [hdp] at hc
    simp only [Option.some.injEq] at hc ⊢
    subst hc
    rw [List.mem_append, List.mem_append, hconn]
    by_cases hu : s.useDefault = true
    · rw [if_pos hu, hdflt]
      have := hparam d'
      simp only [hu, true_and]
      tauto
    · rw [if_neg hu]
      have := hparam d'
      simp only [hu, false_and, or_false, List.not_mem_nil]
      tauto

/-- C07 (parameters reach every point). Whenever `configure` succeeds on a reachable state,
each accepted cycle parameter gets its default set and is promoted from exactly the
design point and every off-design point. -/
theorem C07_parameters (h : List (Op V)) (elems : List ElemConns) (cmds : List (Cmd V))
    (hc : configure (run h) elems = some cmds) :
    (∀ n v, Cmd.setInputDefaults n v ∈ cmds ↔ (n, v) ∈ params (accepted h)) ∧
    (∀ p n, Cmd.promotes p n ∈ cmds ↔ n ∈ (params (accepted h)).map Prod.fst ∧
      (p ∈ designPoints (accepted h) ∨ p ∈ offDesignPoints (accepted h))) := by
  obtain ⟨i1, i2, i3, i4, i5, i6, i7, i8, i9⟩ := C06_state_is_accepted_history h
  have hd : ∀ x, (run h).desPnt = some x ↔ x ∈ designPoints (accepted h) := by
    intro x
    rw [i2]
    match hl : designPoints (accepted h), i1 with
    | [], _ => simp
    | [a], _ => simp [eq_comm]
    | a :: b :: l, hh => simp at hh
  rw [← i3, ← i4]
  simp only [← hd]
  generalize run h = s at *
  clear hd i1 i2 i3 i4 i5 i6 i7 i8 i9
  have n1 : ∀ (d' : String) (c : Cmd V), (∀ a b e f, c ≠ .connect a b e f) → c ∉ pairCmds s d' := by
    intro d' c hcn hm
    simp only [pairCmds, List.mem_flatMap, List.mem_map] at hm
    obtain ⟨_, _, _, _, h⟩ := hm
    exact hcn _ _ _ _ h.symm
  have n2 : ∀ (d' : String) (c : Cmd V), (∀ a b e f, c ≠ .connect a b e f) →
      c ∉ defaultCmds s d' elems := by
    intro d' c hcn hm
    rw [defaultCmds, List.mem_flatMap] at hm
    obtain ⟨e, he, hm⟩ := hm
    split_ifs at hm with hsk
    · simp at hm
    · cases hcs : e.conns with
      | none => rw [hcs] at hm; simp at hm
      | some cs =>
        rw [hcs] at hm
        simp only [List.mem_flatMap, List.mem_map] at hm
        obtain ⟨_, _, _, _, h⟩ := hm
        exact hcn _ _ _ _ h.symm
  have hP : ∀ c : Cmd V, (∀ a b e f, c ≠ .connect a b e f) →
      (c ∈ cmds ↔ ∃ d, s.desPnt = some d ∧ c ∈ paramCmds s d) := by
    intro c hcn
    simp only [configure] at hc
    cases hdp : s.desPnt with
    | none =>
      rw [hdp] at hc
      simp only [reduceCtorEq, false_and, exists_false, iff_false]
      split_ifs at hc
      simp at hc; subst hc; simp
    | some d' =>
      rw [hdp] at hc
      simp only [Option.some.injEq, exists_eq_left'] at hc ⊢
      subst hc
      have h1 := n1 d' c hcn
      have h2 := n2 d' c hcn
      rw [List.mem_append, List.mem_append]
      split_ifs <;> simp [h1, h2]
  have hsuc : s.desPnt = none → s.cycleParams = [] := by
    intro hn
    by_contra hp
    simp [configure, hn, hp] at hc
  constructor
  · intro n v
    rw [hP _ (by simp)]
    constructor
    · rintro ⟨d, _, hm⟩
      simp only [paramCmds, List.mem_flatMap, List.mem_append, List.mem_cons, Cmd.setInputDefaults.injEq,
        List.mem_map, reduceCtorEq, List.not_mem_nil, and_false, exists_false, or_false,
        false_or] at hm
      obtain ⟨⟨a, b⟩, hab, rfl, rfl⟩ := hm
      exact hab
    · intro hm
      cases hdp : s.desPnt with
      | none => rw [hsuc hdp] at hm; simp at hm
      | some d =>
        refine ⟨d, rfl, ?_⟩
        rw [paramCmds, List.mem_flatMap]
        exact ⟨(n, v), hm, by simp⟩
  · intro p n
    rw [hP _ (by simp)]
    constructor
    · rintro ⟨d, hdp, hm⟩
      simp only [paramCmds, List.mem_flatMap, List.mem_append, List.mem_cons, Cmd.promotes.injEq,
        List.mem_map, reduceCtorEq, List.not_mem_nil, or_false, false_or] at hm
      obtain ⟨pv, hpv, ⟨rfl, rfl⟩ | ⟨x, hx, rfl, rfl⟩⟩ := hm
      · exact ⟨List.mem_map_of_mem hpv, Or.inl hdp⟩
      · exact ⟨List.mem_map_of_mem hpv, Or.inr hx⟩
    · rintro ⟨hn, hp⟩
      obtain ⟨pv, hpv, rfl⟩ := List.mem_map.1 hn
      cases hdp : s.desPnt with
      | none => rw [hsuc hdp] at hpv; simp at hpv
      | some d =>
        refine ⟨d, rfl, ?_⟩
        rw [paramCmds, List.mem_flatMap]
        refine ⟨pv, hpv, ?_⟩
        rcases hp with hp | hp
        · rw [hdp] at hp; injection hp with hp; subst hp; simp
        · simp [hp]

/-! ### `skip` -/

/-- C07 (skip list). With a list of names, exactly the named elements are skipped. -/
theorem C07_skip_list (l : List String) (n : String) : (Skip.names l).skips n = true ↔ n ∈ l := by
  simp [Skip.skips]

/-- C07 (skip string). Passing one name as a plain string skips that element, but "exactly
that element" is false: any element whose name is a substring is skipped too. -/
theorem C07_skip_string_refuted :
    (∀ s, (Skip.text s).skips s = true) ∧ ¬ (∀ s n, (Skip.text s).skips n = true → n = s) := by
  refine ⟨?_, ?_⟩
  · intro s
    simp only [Skip.skips, decide_eq_true_eq]
    exact List.infix_rfl
  · intro h
    exact absurd (h "hpcomp" "comp" (by decide +kernel)) (by decide)

/-! ### Non-vacuity -/

/-- A history with rejected calls and its accepted part. -/
def sampleHistory : List (Op Nat) :=
  [.connectDesOd "a" "b", .addCycleParam "burner.dPqP" 3, .addPnt "DESIGN" .isTrue,
   .addPnt "DESIGN2" .isTrue, .useDefaultConns .none, .addPnt "OD1" .isFalse,
   .addPnt "OD2" .isFalse, .addPnt "OD1" .isFalse, .connectDesOd "inlet.Fl_O:stat:area" "inlet.area",
   .addCycleParam "burner.dPqP" 4, .useDefaultConns (.names ["shaft"]), .addPnt "X" .other]

example : designPoints (accepted sampleHistory) = ["DESIGN"] ∧
    offDesignPoints (accepted sampleHistory) = ["OD1", "OD2"] ∧
    params (accepted sampleHistory) = [("burner.dPqP", 3)] ∧
    lastSkip (accepted sampleHistory) = some (.names ["shaft"]) ∧
    (configure (run sampleHistory) [⟨"comp", some [("s_PR", "s_PR")]⟩, ⟨"shaft", some [("x", "y")]⟩,
      ⟨"fc", none⟩]).map List.length = some 8 := by decide +kernel

end PyCycle.MP
