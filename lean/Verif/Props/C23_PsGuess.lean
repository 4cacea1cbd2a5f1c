import Verif.Model.StaticPs
import Mathlib.Tactic.Linarith
import Mathlib.Tactic.NormNum
import Mathlib.Tactic.Positivity

/-! # C23: when is the static-pressure guess applied? -/

namespace PyCycle

/-- Specification: the value of `Ps` after a history, where `adopt last q` decides whether a
supplied guess `q` replaces the current solution, `last` being the guess that was last adopted
(`none`: never). No sentinel value, no cache. -/
def guessSpec (adopt : Option ℝ → ℝ → Prop) [∀ l q, Decidable (adopt l q)]
    (last : Option ℝ) (Ps : ℝ) : List GuessEvent → ℝ
  | [] => Ps
  | .solver p :: es => guessSpec adopt last p es
  | .guess q :: es => if adopt last q then guessSpec adopt (some q) q es
      else guessSpec adopt last Ps es

/-- Adopt the guess only if none was adopted before. -/
def firstOnly (last : Option ℝ) (_ : ℝ) : Prop := last = none
/-- Adopt the guess if none was adopted before, or it differs by more than `1e-10` from the one
last adopted. -/
def whenMoved (last : Option ℝ) (q : ℝ) : Prop := ∀ l, last = some l → 1e-10 < |q - l|

/-- Every guess in the history is positive (a pressure). -/
def PositiveGuesses (es : List GuessEvent) : Prop := ∀ q, GuessEvent.guess q ∈ es → 0 < q

private theorem abs_sentinel {q : ℝ} (h : 0 < q) : |q - -1| > 1e-10 := by
  rw [abs_of_pos (by linarith)]; norm_num; linarith

/-- The cache encodes the last adopted guess, `-1` standing for "none". -/
private def Enc (cache : ℝ) (last : Option ℝ) : Prop :=
  (cache = -1 ∧ last = none) ∨ (0 < cache ∧ last = some cache)

open Classical in
private theorem run_mach (es : List GuessEvent) (hpos : PositiveGuesses es) (s : GuessState)
    (last : Option ℝ) (h : Enc s.cache last) :
    (runGuess guessMN s es).Ps = guessSpec firstOnly last s.Ps es := by
  induction es generalizing s last with
  | nil => rfl
  | cons e es ih =>
    have hpos' : PositiveGuesses es := fun q hq => hpos q (List.mem_cons_of_mem _ hq)
    cases e with
    | solver p => exact ih hpos' _ _ h
    | guess q =>
      have hq : 0 < q := hpos q List.mem_cons_self
      rcases h with ⟨hc, hl⟩ | ⟨hc, hl⟩
      · have e1 : guessMN s q = ⟨q, q⟩ := by
          rw [guessMN, hc, if_pos (abs_sentinel hq), if_pos rfl]
        show (runGuess guessMN (guessMN s q) es).Ps = _
        rw [e1, ih hpos' ⟨q, q⟩ (some q) (.inr ⟨hq, rfl⟩)]
        simp only [guessSpec, firstOnly, hl, if_true]
      · have e1 : guessMN s q = s := by
          rw [guessMN]
          have : ¬ s.cache = -1 := by linarith
          simp only [this, if_false, ite_self]
        show (runGuess guessMN (guessMN s q) es).Ps = _
        rw [e1, ih hpos' s last (.inr ⟨hc, hl⟩)]
        have hn : ¬ firstOnly last q := by simp [firstOnly, hl]
        simp only [guessSpec, if_neg hn]

open Classical in
private theorem run_area (es : List GuessEvent) (hpos : PositiveGuesses es) (s : GuessState)
    (last : Option ℝ) (h : Enc s.cache last) :
    (runGuess guessArea s es).Ps = guessSpec whenMoved last s.Ps es := by
  induction es generalizing s last with
  | nil => rfl
  | cons e es ih =>
    have hpos' : PositiveGuesses es := fun q hq => hpos q (List.mem_cons_of_mem _ hq)
    cases e with
    | solver p => exact ih hpos' _ _ h
    | guess q =>
      have hq : 0 < q := hpos q List.mem_cons_self
      have key : |q - s.cache| > 1e-10 ↔ whenMoved last q := by
        rcases h with ⟨hc, hl⟩ | ⟨hc, hl⟩
        · rw [hc]; exact ⟨fun _ => (by intro l h'; rw [hl] at h'; cases h'), fun _ => abs_sentinel hq⟩
        · subst hl
          exact ⟨fun h' l hl => by cases hl; exact h', fun h' => h' _ rfl⟩
      show (runGuess guessArea (guessArea s q) es).Ps = _
      by_cases hm : whenMoved last q
      · rw [guessArea, if_pos (key.mpr hm), ih hpos' ⟨q, q⟩ (some q) (.inr ⟨hq, rfl⟩)]
        simp only [guessSpec, if_pos hm]
      · rw [guessArea, if_neg (fun h' => hm (key.mp h')), ih hpos' s last h]
        simp only [guessSpec, if_neg hm]

open Classical in
/-- **C23 (Mach mode).** Over every history of guess requests (with positive guesses) and solver
updates, the static pressure is what results from adopting the first guess only. -/
theorem C23_mach_first_only (es : List GuessEvent) (hpos : PositiveGuesses es) :
    (runGuess guessMN GuessState.init es).Ps
      = guessSpec firstOnly none GuessState.init.Ps es :=
  run_mach es hpos _ _ (.inl ⟨rfl, rfl⟩)

open Classical in
/-- **C23 (area mode).** Over every history, a guess is adopted exactly when none was adopted
before or it moved by more than `1e-10` from the one last adopted; otherwise the current solution
is kept. -/
theorem C23_area_when_moved (es : List GuessEvent) (hpos : PositiveGuesses es) :
    (runGuess guessArea GuessState.init es).Ps
      = guessSpec whenMoved none GuessState.init.Ps es :=
  run_area es hpos _ _ (.inl ⟨rfl, rfl⟩)

/-- **C23 (the guess is positive).** For a positive total pressure and `gamma_t > 1` the guess
both modes compute is positive, so the theorems above apply. -/
theorem C23_guess_positive (q : GuessIn) (hP : 0 < q.Pt) (hg : 1 < q.gamt) :
    0 < q.isentropic := by
  have h1 : 0 ≤ (q.gamt - 1) / 2 * q.MN ^ 2 := by
    have : 0 ≤ q.gamt - 1 := by linarith
    positivity
  exact mul_pos hP (Real.rpow_pos_of_pos (by linarith) _)

/-- **C23 (area mode ignores the area).** Any root of the two equations handed to the nonlinear
root finder has the isentropic pressure at `guess:MN` as its pressure: area, flow and temperature
do not influence the pressure guess. -/
theorem C23_area_guess_ignores_area (q : GuessIn) (ps MN : ℝ) (h : q.equations ps MN = (0, 0)) :
    ps = q.isentropic := by
  have := congrArg Prod.fst h
  simp only [GuessIn.equations] at this
  rw [GuessIn.isentropic]
  linarith

/-- **C23 (the discarded Mach number).** For positive flow, temperature, area and pressure the two equations have
exactly one root: the isentropic pressure at `guess:MN`, and the positive Mach number at which the flow `W` passes `area`
at ten to the sixth times that pressure (bar; a pascal factor would be ten to the fifth) in a gas of molar mass one. -/
theorem C23_area_guess_root (q : GuessIn) (hP : 0 < q.Pt) (hg : 1 < q.gamt) (hW : 0 < q.W) (hT : 0 < q.Ts)
    (hA : 0 < q.area) (ps MN : ℝ) :
    q.equations ps MN = (0, 0)
      ↔ ps = q.Pt * (1 + (q.gamt - 1) / 2 * q.MN ^ 2) ^ (-q.gamt / (q.gamt - 1))
        ∧ 0 < MN ∧ MN ^ 2 * q.gamt * (ps * 1000000 * q.area) ^ 2 = q.W ^ 2 * (8314.4598 * q.Ts) := by
  have hi := C23_guess_positive q hP hg
  have hg0 : 0 < q.gamt := by linarith
  have sg := Real.sq_sqrt hg0.le
  have sT := Real.sq_sqrt (show (0 : ℝ) ≤ 8314.4598 * q.Ts by positivity)
  have pg := Real.sqrt_pos.mpr hg0
  have pT := Real.sqrt_pos.mpr (show (0 : ℝ) < 8314.4598 * q.Ts by positivity)
  have hd : 0 < q.isentropic * 1.0e6 * q.area * Real.sqrt q.gamt := by positivity
  simp only [GuessIn.equations, Prod.mk.injEq, sub_eq_zero]
  have key : ps = q.isentropic → (MN = q.W * Real.sqrt (8314.4598 * q.Ts) / (q.isentropic * 1.0e6 * q.area * Real.sqrt q.gamt)
      ↔ 0 < MN ∧ MN ^ 2 * q.gamt * (ps * 1000000 * q.area) ^ 2 = q.W ^ 2 * (8314.4598 * q.Ts)) := by
    rintro rfl
    rw [eq_div_iff hd.ne']
    have hR : 0 < q.W * Real.sqrt (8314.4598 * q.Ts) := by positivity
    have e1 : (MN * (q.isentropic * 1.0e6 * q.area * Real.sqrt q.gamt)) ^ 2
        = MN ^ 2 * q.gamt * (q.isentropic * 1000000 * q.area) ^ 2 := by
      rw [show (1.0e6 : ℝ) = 1000000 by norm_num]
      linear_combination (MN ^ 2 * (q.isentropic * 1000000 * q.area) ^ 2) * sg
    have e2 : (q.W * Real.sqrt (8314.4598 * q.Ts)) ^ 2 = q.W ^ 2 * (8314.4598 * q.Ts) := by
      rw [mul_pow, sT]
    rw [← e1, ← e2]
    constructor
    · intro h
      exact ⟨by by_contra h0
                have := mul_nonpos_of_nonpos_of_nonneg (not_lt.mp h0) hd.le
                linarith, by rw [h]⟩
    · rintro ⟨hM, h⟩
      exact (pow_left_inj₀ (by positivity) hR.le two_ne_zero).mp h
  constructor
  · rintro ⟨h1, h2⟩; exact ⟨h1, (key h1).mp h2⟩
  · rintro ⟨h1, h2⟩; exact ⟨h1, (key h1).mpr h2⟩

/-- Non-vacuity: a Mach number solving the second equation exists. -/
example : ∃ ps MN : ℝ, (⟨1.4, 1, 0.5, 1, 300, 1⟩ : GuessIn).equations ps MN = (0, 0) :=
  ⟨_, _, Prod.ext (sub_self _) (sub_self _)⟩

open Classical in
/-- **C23 (documented intent fails in Mach mode).** The comment says the guess is re-applied when
it changes; in Mach mode it never is: a changed guess after a solve leaves the old solution. -/
theorem C23_mach_never_reapplied (q₀ q₁ p : ℝ) (h₀ : 0 < q₀) (h₁ : 0 < q₁) :
    (runGuess guessMN GuessState.init [.guess q₀, .solver p, .guess q₁]).Ps = p := by
  rw [C23_mach_first_only _ (by
    intro q hq; simp at hq; rcases hq with rfl | rfl <;> assumption)]
  simp [guessSpec, firstOnly]

open Classical in
/-- Non-vacuity: a history in which the two modes differ. -/
example : (runGuess guessArea GuessState.init [.guess 1, .solver 5, .guess 2]).Ps = 2
    ∧ (runGuess guessMN GuessState.init [.guess 1, .solver 5, .guess 2]).Ps = 5 := by
  have hpos : PositiveGuesses [.guess 1, .solver 5, .guess 2] := by
    intro q hq; simp at hq; rcases hq with rfl | rfl <;> norm_num
  rw [C23_area_when_moved _ hpos, C23_mach_first_only _ hpos]
  constructor
  · have h1 : whenMoved none 1 := by intro l h; cases h
    have h2 : whenMoved (some 1) 2 := by intro l h; cases h; norm_num
    simp [guessSpec, h1, h2]
  · simp [guessSpec, firstOnly]

end PyCycle
