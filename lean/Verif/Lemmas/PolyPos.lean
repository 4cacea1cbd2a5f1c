import Mathlib.Data.Rat.Cast.Order
import Mathlib.Data.Real.Basic
import Mathlib.Tactic.Ring
import Mathlib.Tactic.Linarith
import Mathlib.Tactic.Positivity

/-! # Rational certificates for positivity of a polynomial on an interval

Polynomials are coefficient lists, lowest degree first. The checker shifts the polynomial to the left
end of each subinterval and bounds it below there; its soundness is a theorem, so a successful check
is a proof for every real point of the interval. -/

namespace PyCycle

/-- Value of a polynomial with rational coefficients. -/
noncomputable def peval : List ℚ → ℝ → ℝ
  | [], _ => 0
  | c :: p, x => c + x * peval p x

/-- Sum of two polynomials. -/
def padd : List ℚ → List ℚ → List ℚ
  | [], q => q
  | p, [] => p
  | a :: p, b :: q => (a + b) :: padd p q

theorem peval_padd (p q : List ℚ) (x : ℝ) : peval (padd p q) x = peval p x + peval q x := by
  induction p generalizing q with
  | nil => simp [padd, peval]
  | cons a p ih =>
    cases q with
    | nil => simp [padd, peval]
    | cons b q => simp only [padd, peval, ih]; push_cast; ring

/-- Multiple of a polynomial. -/
def pscale (a : ℚ) (p : List ℚ) : List ℚ := p.map (a * ·)

theorem peval_pscale (a : ℚ) (p : List ℚ) (x : ℝ) : peval (pscale a p) x = a * peval p x := by
  induction p with
  | nil => simp [pscale, peval]
  | cons c p ih =>
    simp only [pscale, List.map_cons, peval]
    have : peval (List.map (a * ·) p) x = a * peval p x := ih
    rw [this]; push_cast; ring

/-- The polynomial `h ↦ p (a + h)`. -/
def pshift (a : ℚ) : List ℚ → List ℚ
  | [] => []
  | c :: p => padd [c] (padd (pscale a (pshift a p)) (0 :: pshift a p))

theorem peval_pshift (a : ℚ) (p : List ℚ) (h : ℝ) : peval (pshift a p) h = peval p (a + h) := by
  induction p with
  | nil => rfl
  | cons c p ih =>
    simp only [pshift, peval_padd, peval_pscale, peval, ih]
    push_cast; ring

/-- A lower bound on `[0, w]`. -/
def plow (w : ℚ) : List ℚ → ℚ
  | [] => 0
  | c :: p => c + min 0 (w * plow w p)

theorem plow_le (w : ℚ) (p : List ℚ) {h : ℝ} (h0 : 0 ≤ h) (h1 : h ≤ w) :
    ((plow w p : ℚ) : ℝ) ≤ peval p h := by
  induction p with
  | nil => simp [plow, peval]
  | cons c p ih =>
    simp only [plow, peval]
    push_cast
    refine add_le_add_right ?_ _
    rcases le_or_gt 0 ((plow w p : ℚ) : ℝ) with hp | hp
    · exact (min_le_left _ _).trans (mul_nonneg h0 (hp.trans ih))
    · refine (min_le_right _ _).trans ?_
      calc (w : ℝ) * (plow w p : ℝ) ≤ h * (plow w p : ℝ) := mul_le_mul_of_nonpos_right h1 hp.le
        _ ≤ h * peval p h := mul_le_mul_of_nonneg_left ih h0

/-- Check positivity on `[a, a + k*w]` in `k` steps. -/
def pcheck (p : List ℚ) (w : ℚ) : ℚ → ℕ → Bool
  | _, 0 => true
  | a, k + 1 => decide (0 < plow w (pshift a p)) && pcheck p w (a + w) k

theorem pcheck_sound (p : List ℚ) (w : ℚ) (a : ℚ) (k : ℕ) (h : pcheck p w a k = true)
    {x : ℝ} (h0 : (a : ℝ) ≤ x) (hk : 0 < k) (h1 : x ≤ a + k * w) : 0 < peval p x := by
  induction k generalizing a with
  | zero => omega
  | succ k ih =>
    simp only [pcheck, Bool.and_eq_true, decide_eq_true_eq] at h
    obtain ⟨hp, hr⟩ := h
    rcases le_or_gt x (a + w) with hx | hx
    · have := plow_le w (pshift a p) (h := x - a) (by linarith) (by linarith)
      rw [peval_pshift] at this
      have e : (a : ℝ) + (x - a) = x := by ring
      rw [e] at this
      have hp' : (0 : ℝ) < ((plow w (pshift a p) : ℚ) : ℝ) := by exact_mod_cast hp
      linarith
    · rcases Nat.eq_zero_or_pos k with rfl | hk'
      · push_cast at h1; linarith
      · refine ih (a + w) hr ?_ hk' ?_
        · push_cast; exact hx.le
        · push_cast at h1 ⊢; linarith

end PyCycle
