import Verif.Model.CoeffTable
import Mathlib.Tactic.Linarith
import Mathlib.Tactic.NormNum
import Mathlib.Tactic.FieldSimp
import Mathlib.Data.List.GetD

/-! # C14: species properties and evaluation history -/

namespace PyCycle

/-! ## Specification -/

/-- Well-formed fit data: strictly increasing knots, at least two, one row of 9 or 10
coefficients per interval. -/
structure FitWF (p : TempFit) : Prop where
  sorted : p.ranges.Pairwise (· < ·)
  two : 2 ≤ p.ranges.length
  rows : p.coeffs.length + 1 = p.ranges.length
  width : ∀ r ∈ p.coeffs, r.length = 9 ∨ r.length = 10

/-- `T` is an interior knot of the fit (a boundary between two temperature intervals). -/
def InteriorKnot (p : TempFit) (T : ℝ) : Prop :=
  ∃ k, 0 < k ∧ k + 1 < p.ranges.length ∧ p.ranges[k]? = some T

/-- Interval number `k` of the fit is the one that should serve temperature `T`: below the
first interior knot it is the first interval, above the last interior knot the last one. At an
interior knot both neighbours qualify. -/
structure Serves (p : TempFit) (k : Nat) (T : ℝ) : Prop where
  idx : k + 1 < p.ranges.length
  lower : k = 0 ∨ p.ranges.getD k 0 ≤ T
  upper : k + 2 = p.ranges.length ∨ T ≤ p.ranges.getD (k + 1) 0

/-- The reference value of method `f` for product `i` at `T` using interval `k`. -/
noncomputable def refValue (p : TempFit) (f : PropFn) (i k : Nat) (T : ℝ) : ℝ :=
  f.value i (fun m => (p.coeffs.getD k []).getD m.val 0) T

/-! ## Proofs -/

private theorem value_congr (f : PropFn) (i : Nat) (a b : Row) (T : ℝ)
    (h : ∀ m : Fin 10, m.val < 9 → a m = b m) : f.value i a T = f.value i b T := by
  have e0 := h 0 (by decide)
  have e1 := h 1 (by decide)
  have e2 := h 2 (by decide)
  have e3 := h 3 (by decide)
  have e4 := h 4 (by decide)
  have e5 := h 5 (by decide)
  have e6 := h 6 (by decide)
  have e7 := h 7 (by decide)
  have e8 := h 8 (by decide)
  cases f <;>
    simp only [PropFn.value, h0, s0, cp0, h0ApplyJ, s0ApplyJ, cp0ApplyJ, e0, e1, e2, e3, e4, e5,
      e6, e7, e8]

private theorem takeWhile_spec (tr : List ℝ) (hs : tr.Pairwise (· < ·)) (T : ℝ) :
    (∀ k, k < searchsorted tr T → tr.getD k 0 < T)
    ∧ (∀ k, searchsorted tr T ≤ k → k < tr.length → T ≤ tr.getD k 0)
    ∧ searchsorted tr T ≤ tr.length := by
  classical
  induction tr with
  | nil => simp [searchsorted]
  | cons x tr ih =>
    rw [List.pairwise_cons] at hs
    obtain ⟨h1, h2, h3⟩ := ih hs.2
    by_cases hx : x < T
    · have he : searchsorted (x :: tr) T = searchsorted tr T + 1 := by
        simp [searchsorted, List.takeWhile_cons, hx]
      rw [he]
      refine ⟨fun k hk => ?_, fun k hk hl => ?_, by simpa using h3⟩
      · cases k with
        | zero => simpa using hx
        | succ k => simpa using h1 k (by omega)
      · cases k with
        | zero => omega
        | succ k => simpa using h2 k (by omega) (by simpa using hl)
    · have he : searchsorted (x :: tr) T = 0 := by
        simp [searchsorted, List.takeWhile_cons, hx]
      rw [he]
      push_neg at hx
      refine ⟨fun k hk => by omega, fun k _ hl => ?_, by simp⟩
      cases k with
      | zero => simpa using hx
      | succ k =>
        have hk : k < tr.length := by simpa using hl
        have := hs.1 (tr[k]) (List.getElem_mem hk)
        simp only [List.getD_cons_succ, List.getD_eq_getElem _ _ hk]
        linarith

private theorem intervalIdx_serves (p : TempFit) (wf : FitWF p) (T : ℝ) :
    0 < intervalIdx p.ranges T ∧ Serves p (intervalIdx p.ranges T - 1) T := by
  obtain ⟨h1, h2, h3⟩ := takeWhile_spec p.ranges wf.sorted T
  have htwo := wf.two
  unfold intervalIdx
  simp only
  by_cases hj : searchsorted p.ranges T = 0
  · rw [if_pos hj]
    refine ⟨by decide, by simp only [Nat.sub_self, Nat.zero_add]; omega, .inl rfl, .inr ?_⟩
    simpa using h2 1 (by omega) (by omega)
  · rw [if_neg hj]
    by_cases hl : searchsorted p.ranges T = p.ranges.length
    · rw [if_pos hl]
      refine ⟨by omega, by omega, .inr (h1 _ (by omega)).le, .inl (by omega)⟩
    · rw [if_neg hl]
      refine ⟨by omega, by omega, .inr (h1 _ (by omega)).le, .inr ?_⟩
      have := h2 (searchsorted p.ranges T) (le_refl _) (by omega)
      rwa [show searchsorted p.ranges T - 1 + 1 = searchsorted p.ranges T by omega]

/-- A cached row comes from interval `k` of its fit. -/
private def RowFrom (p : TempFit) (k : Nat) (a : Row) : Prop :=
  k + 1 < p.ranges.length ∧ ∀ m : Fin 10, m.val < 9 → a m = (p.coeffs.getD k []).getD m.val 0

/-- Invariant linking the cache to the data for `(p, row)`. -/
private def CacheOK (low high : ℝ) (p : TempFit) (a : Row) : Prop :=
  ∃ k, RowFrom p k a ∧ p.ranges.getD k 0 ≤ low ∧ high ≤ p.ranges.getD (k + 1) 0

private theorem writeRow_from (p : TempFit) (wf : FitWF p) (old : Row) (k : Nat)
    (hk : k + 1 < p.ranges.length) : RowFrom p k (writeRow old (p.coeffs.getD k [])) := by
  refine ⟨hk, fun m hm => ?_⟩
  have hk' : k < p.coeffs.length := by have := wf.rows; omega
  have hw := wf.width (p.coeffs.getD k []) (by
    rw [List.getD_eq_getElem _ _ hk']; exact List.getElem_mem hk')
  have hlen : m.val < (p.coeffs.getD k []).length := by omega
  rw [writeRow, dif_pos hlen, List.getD_eq_getElem _ _ hlen]

private theorem buildLoop_low (T : ℝ) (l : List (TempFit × Row)) (ml mh : ℝ) :
    ml ≤ (buildLoop T l ml mh).low ∧ (buildLoop T l ml mh).high ≤ mh := by
  induction l generalizing ml mh with
  | nil => simp [buildLoop]
  | cons x l ih =>
    obtain ⟨p, old⟩ := x
    simp only [buildLoop]
    have := ih (max (p.ranges.getD (intervalIdx p.ranges T - 1) 0) ml)
      (min (p.ranges.getD (intervalIdx p.ranges T) 0) mh)
    exact ⟨le_trans (le_max_right _ _) this.1, le_trans this.2 (min_le_right _ _)⟩

private theorem buildLoop_spec (T : ℝ) (l : List (TempFit × Row)) (hwf : ∀ x ∈ l, FitWF x.1)
    (ml mh : ℝ) :
    List.Forall₂ (fun (x : TempFit × Row) a => ∃ k, RowFrom x.1 k a ∧ Serves x.1 k T
        ∧ x.1.ranges.getD k 0 ≤ (buildLoop T l ml mh).low
        ∧ (buildLoop T l ml mh).high ≤ x.1.ranges.getD (k + 1) 0)
      l (buildLoop T l ml mh).a := by
  induction l generalizing ml mh with
  | nil => simp [buildLoop]
  | cons x l ih =>
    obtain ⟨p, old⟩ := x
    have wf : FitWF p := hwf (p, old) List.mem_cons_self
    have ih' := ih (fun x hx => hwf x (List.mem_cons_of_mem _ hx))
      (max (p.ranges.getD (intervalIdx p.ranges T - 1) 0) ml)
      (min (p.ranges.getD (intervalIdx p.ranges T) 0) mh)
    obtain ⟨hpos, hserves⟩ := intervalIdx_serves p wf T
    have hb := buildLoop_low T l (max (p.ranges.getD (intervalIdx p.ranges T - 1) 0) ml)
      (min (p.ranges.getD (intervalIdx p.ranges T) 0) mh)
    simp only [buildLoop]
    refine List.Forall₂.cons ?_ ih'
    refine ⟨intervalIdx p.ranges T - 1, writeRow_from p wf old _ hserves.idx, hserves, ?_, ?_⟩
    · exact le_trans (le_max_left _ _) hb.1
    · rw [show intervalIdx p.ranges T - 1 + 1 = intervalIdx p.ranges T by omega]
      exact le_trans hb.2 (min_le_left _ _)

private theorem forall₂_zip_left {α β γ : Type} {R : α → γ → Prop} :
    ∀ (l : List α) (m : List β) (r : List γ), l.length = m.length →
      List.Forall₂ (fun (x : α × β) c => R x.1 c) (l.zip m) r → List.Forall₂ R l r
  | [], _, r, _, h => by
    simp at h
    subst h; exact .nil
  | a :: l, [], r, hl, _ => by simp at hl
  | a :: l, b :: m, r, hl, h => by
    rw [List.zip_cons_cons] at h
    cases h with
    | cons h1 h2 => exact .cons h1 (forall₂_zip_left l m _ (by simpa using hl) h2)

private theorem buildTable_spec (ps : List TempFit) (hwf : ∀ p ∈ ps, FitWF p) (a : List Row)
    (hl : ps.length = a.length) (T : ℝ) :
    List.Forall₂ (fun p r => ∃ k, RowFrom p k r ∧ Serves p k T
        ∧ p.ranges.getD k 0 ≤ (buildTable ps a T).low
        ∧ (buildTable ps a T).high ≤ p.ranges.getD (k + 1) 0)
      ps (buildTable ps a T).a := by
  refine forall₂_zip_left (R := fun p r => ∃ k, RowFrom p k r ∧ Serves p k T
        ∧ p.ranges.getD k 0 ≤ (buildTable ps a T).low
        ∧ (buildTable ps a T).high ≤ p.ranges.getD (k + 1) 0) ps a _ hl ?_
  exact buildLoop_spec T (ps.zip a) (fun x hx => hwf _ (List.of_mem_zip hx).1) _ _

private def TableOK (ps : List TempFit) (t : Table) : Prop :=
  List.Forall₂ (fun p r => CacheOK t.low t.high p r) ps t.a

private theorem TableOK.of_build (ps : List TempFit) (hwf : ∀ p ∈ ps, FitWF p) (a : List Row)
    (hl : ps.length = a.length) (T : ℝ) : TableOK ps (buildTable ps a T) :=
  (buildTable_spec ps hwf a hl T).imp (fun _ _ ⟨k, h1, _, h3, h4⟩ => ⟨k, h1, h3, h4⟩)

private theorem refresh_spec (ps : List TempFit) (hwf : ∀ p ∈ ps, FitWF p) (t : Table)
    (h : TableOK ps t) (T : ℝ) :
    TableOK ps (refresh ps t T)
    ∧ List.Forall₂ (fun p r => ∃ k, RowFrom p k r ∧ Serves p k T) ps (refresh ps t T).a := by
  unfold refresh
  split
  · have hl := h.length_eq
    exact ⟨TableOK.of_build ps hwf t.a hl T, (buildTable_spec ps hwf t.a hl T).imp
      (fun _ _ ⟨k, h1, h2, _, _⟩ => ⟨k, h1, h2⟩)⟩
  · rename_i hc
    push_neg at hc
    refine ⟨h, h.imp (fun p r ⟨k, h1, h3, h4⟩ => ⟨k, h1, h1.1, .inr ?_, .inr ?_⟩)⟩
    · linarith [hc.1]
    · linarith [hc.2]

private theorem history_ok (ps : List TempFit) (hwf : ∀ p ∈ ps, FitWF p)
    (calls : List (PropFn × ℝ)) : TableOK ps (runHistory ps calls) := by
  unfold runHistory
  have h0 : TableOK ps (initTable ps) := TableOK.of_build ps hwf _ (by simp) 999
  generalize initTable ps = t at h0
  induction calls generalizing t with
  | nil => exact h0
  | cons c calls ih => exact ih _ (refresh_spec ps hwf t h0 c.2).1

/-- **C14 (values).** After any history of calls, a call at `T` returns for every product the
fit's polynomial for an interval that serves `T`. -/
theorem C14_value_from_serving_interval (ps : List TempFit) (hwf : ∀ p ∈ ps, FitWF p)
    (calls : List (PropFn × ℝ)) (f : PropFn) (T : ℝ) (i : Nat) (hi : i < ps.length) :
    ∃ k, Serves ps[i] k T ∧
      (callFn ps (runHistory ps calls) f T).2[i]? = some (refValue ps[i] f i k T) := by
  have h := (refresh_spec ps hwf _ (history_ok ps hwf calls) T).2
  have hi' : i < (refresh ps (runHistory ps calls) T).a.length := by rw [← h.length_eq]; exact hi
  obtain ⟨k, h1, h2⟩ := List.Forall₂.get h (i := i) hi hi'
  simp only [List.get_eq_getElem] at h1 h2
  refine ⟨k, h2, ?_⟩
  simp only [callFn, List.getElem?_mapIdx, List.getElem?_eq_getElem hi', Option.map_some]
  congr 1
  exact value_congr f i _ _ T h1.2

private theorem serves_unique (p : TempFit) (wf : FitWF p) (T : ℝ) (hT : ¬ InteriorKnot p T)
    (k l : Nat) (hk : Serves p k T) (hl : Serves p l T) : k = l := by
  have mono : ∀ i j, i < j → j < p.ranges.length → p.ranges.getD i 0 < p.ranges.getD j 0 := by
    intro i j hij hj
    rw [List.getD_eq_getElem _ _ hj, List.getD_eq_getElem _ _ (by omega)]
    exact List.pairwise_iff_getElem.mp wf.sorted i j (by omega) hj hij
  have key : ∀ a b, Serves p a T → Serves p b T → a < b → False := by
    intro a b ha hb hab
    have h1 := hb.lower.resolve_left (by omega)
    have h2 := ha.upper.resolve_left (by have := hb.idx; omega)
    rcases Nat.lt_or_ge (a + 1) b with hlt | hge
    · have := mono (a + 1) b hlt (by have := hb.idx; omega); linarith
    · have hb' : b = a + 1 := by omega
      subst hb'
      have hb1 : a + 1 < p.ranges.length := ha.idx
      refine hT ⟨a + 1, by omega, hb.idx, ?_⟩
      rw [List.getD_eq_getElem _ _ hb1] at h1 h2
      rw [List.getElem?_eq_getElem hb1]
      congr 1; linarith
  rcases Nat.lt_trichotomy k l with h | h | h
  · exact (key _ _ hk hl h).elim
  · exact h
  · exact (key _ _ hl hk h).elim

/-- **C14 (partial: every temperature that is not an interior table knot).** The result of a
call does not depend on the calls made before: it is the same after any two histories, and in
particular equals the result of a freshly built object. Missing for the full claim: interior
knots, where it is false (`C14_refuted`). -/
theorem C14_history_independent_partial (ps : List TempFit) (hwf : ∀ p ∈ ps, FitWF p)
    (T : ℝ) (hT : ∀ p ∈ ps, ¬ InteriorKnot p T) (calls calls' : List (PropFn × ℝ)) (f : PropFn) :
    (callFn ps (runHistory ps calls) f T).2 = (callFn ps (runHistory ps calls') f T).2 := by
  have hlen : ∀ c, (callFn ps (runHistory ps c) f T).2.length = ps.length := by
    intro c
    have h := (refresh_spec ps hwf _ (history_ok ps hwf c) T).2
    simp [callFn, h.length_eq]
  apply List.ext_getElem?
  intro i
  rcases Nat.lt_or_ge i ps.length with hi | hi
  · obtain ⟨k, hk, e1⟩ := C14_value_from_serving_interval ps hwf calls f T i hi
    obtain ⟨l, hl, e2⟩ := C14_value_from_serving_interval ps hwf calls' f T i hi
    have : k = l := serves_unique _ (hwf _ (List.getElem_mem hi)) T
      (hT _ (List.getElem_mem hi)) k l hk hl
    rw [e1, e2, this]
  · rw [List.getElem?_eq_none (by rw [hlen]; exact hi),
      List.getElem?_eq_none (by rw [hlen]; exact hi)]

/-! ## Refutation at a knot, with the JANAF data of argon -/

/-- Argon, thermo/cea/thermo_data/janaf.py:5, 9-20. -/
noncomputable def argonFit : TempFit where
  ranges := [200, 1000, 6000, 20000]
  coeffs := [
    [0, 0, 2.5, 0, 0, 0, 0, -7.453750000e+02, 4.379674910],
    [2.010538475e+01, -5.992661070e-02, 2.500069401, -3.992141160e-08, 1.205272140e-11,
      -1.819015576e-15, 1.078576636e-19, -7.449939610e+02, 4.379180110],
    [-9.951265080e+08, 6.458887260e+05, -1.675894697e+02, 2.319933363e-02, -1.721080911e-06,
      6.531938460e-11, -9.740147729e-16, -5.078300340e+06, 1.465298484e+03]]

theorem argonFit_wf : FitWF argonFit where
  sorted := by simp [argonFit]; norm_num
  two := by simp [argonFit]
  rows := by simp [argonFit]
  width := by simp [argonFit]

private theorem argon_idx (T : ℝ) (h1 : 200 < T) (h2 : T ≤ 1000) :
    intervalIdx argonFit.ranges T = 1 := by
  have : ¬ (1000 : ℝ) < T := by linarith
  simp [intervalIdx, searchsorted, argonFit, List.takeWhile_cons, h1, this]

private theorem argon_idx' (T : ℝ) (h1 : 1000 < T) (h2 : T ≤ 6000) :
    intervalIdx argonFit.ranges T = 2 := by
  have h : (200 : ℝ) < T := by linarith
  have : ¬ (6000 : ℝ) < T := by linarith
  simp [intervalIdx, searchsorted, argonFit, List.takeWhile_cons, h, h1, this]

/-- **C14 is false at an interior knot.** Argon's heat capacity at exactly 1000 K depends on
whether 1500 K was evaluated before. -/
theorem C14_refuted :
    ¬ ∀ (ps : List TempFit), (∀ p ∈ ps, FitWF p) → ∀ (T : ℝ) (calls calls' : List (PropFn × ℝ))
      (f : PropFn), (callFn ps (runHistory ps calls) f T).2
        = (callFn ps (runHistory ps calls') f T).2 := by
  intro hall
  have h := hall [argonFit] (by simpa using argonFit_wf) 1000 [] [(.Cp0, 1500)] .Cp0
  have i1 : intervalIdx argonFit.ranges 999 = 1 := argon_idx 999 (by norm_num) (by norm_num)
  have i2 : intervalIdx argonFit.ranges 1500 = 2 := argon_idx' 1500 (by norm_num) (by norm_num)
  have hr : argonFit.ranges = [200, 1000, 6000, 20000] := rfl
  have t0 : initTable [argonFit]
      = ⟨[writeRow (fun _ => 0) (argonFit.coeffs.getD 0 [])], 200, 1000⟩ := by
    simp only [initTable, buildTable, buildLoop, List.map_cons, List.map_nil, List.zip_cons_cons,
      List.zip_nil_left, i1]
    simp [hr]
    norm_num
  have t1 : refresh [argonFit] (initTable [argonFit]) 1000 = initTable [argonFit] := by
    rw [t0]; simp [refresh]; norm_num
  have t2 : refresh [argonFit] (initTable [argonFit]) 1500
      = ⟨[writeRow (writeRow (fun _ => 0) (argonFit.coeffs.getD 0 []))
          (argonFit.coeffs.getD 1 [])], 1000, 6000⟩ := by
    rw [t0]
    have hc : (1500 : ℝ) < 200 ∨ (1000 : ℝ) < 1500 := by norm_num
    simp only [refresh, if_pos hc, buildTable, buildLoop, List.zip_cons_cons,
      List.zip_nil_left, i2]
    simp [hr]
    norm_num
  have t3 : refresh [argonFit] (refresh [argonFit] (initTable [argonFit]) 1500) 1000
      = refresh [argonFit] (initTable [argonFit]) 1500 := by
    rw [t2]; simp [refresh]; norm_num
  simp only [callFn, runHistory, List.foldl_cons, List.foldl_nil] at h
  rw [t1, t3, t2, t0] at h
  simp [PropFn.value, cp0, writeRow, argonFit] at h
  norm_num at h

/-- Non-vacuity of `C14_history_independent_partial`: the argon fit is well formed and 1500 K
is not an interior knot. -/
example : FitWF argonFit ∧ ¬ InteriorKnot argonFit 1500 := by
  refine ⟨argonFit_wf, ?_⟩
  rintro ⟨k, h0, h1, h2⟩
  simp only [argonFit, List.length_cons, List.length_nil] at h1
  have : k = 1 ∨ k = 2 := by omega
  rcases this with rfl | rfl <;> simp [argonFit] at h2 <;> norm_num at h2

end PyCycle
