import Verif.Model.Shaft
import Verif.Lemmas.HasD
import Mathlib.Algebra.BigOperators.Fin

/-! # C26: shaft power balance -/

namespace PyCycle.Shaft
open Finset
variable {n : Nat}

private theorem convert_pos : 0 < convert := by
  unfold convert; have := Real.pi_pos; positivity

private theorem foldl_step (l : List ℝ) (a b : ℝ) :
    l.foldl step (a, b) = (a + (l.map (fun t => max t 0)).sum, b + (l.map (fun t => min t 0)).sum) := by
  induction l generalizing a b with
  | nil => simp
  | cons t l ih =>
    by_cases h : t ≥ 0
    · rw [List.foldl_cons, step, if_pos h, ih]
      simp [max_eq_left h, min_eq_right h, add_assoc]
    · have h' : t ≤ 0 := (not_le.mp h).le
      rw [List.foldl_cons, step, if_neg h, ih]
      simp [max_eq_right h', min_eq_left h', add_assoc]

/-- **C26 (ports).** For any number of ports, the torque in is the sum of the positive parts and the
torque out the sum of the negative parts of the port torques. -/
theorem C26_ports (x : I n → ℝ) :
    compute x .trq_in = ∑ k, max (x (.trq k)) 0 ∧ compute x .trq_out = ∑ k, min (x (.trq k)) 0 := by
  simp only [compute, torques, foldl_step, zero_add, List.map_ofFn]
  exact ⟨by rw [List.sum_ofFn]; rfl, by rw [List.sum_ofFn]; rfl⟩

/-- **C26 (balance).** The net torque is zero iff the turbine torque (positive parts) less the
fractional loss equals the compressor torque (negative parts) plus the power extraction divided by
speed, with `rpm → rad/s` and `1 hp = 550 ft·lbf/s`. -/
theorem C26_balance (x : I n → ℝ) (hN : x .Nmech ≠ 0) :
    compute x .trq_net = 0 ↔
      (1 - x .fracLoss) * ∑ k, max (x (.trq k)) 0
        = ∑ k, max (-x (.trq k)) 0 + 550 * x .HPX / (x .Nmech * (2 * Real.pi / 60)) := by
  have h1 := (C26_ports x).1; have h2 := (C26_ports x).2
  have hmin : ∑ k, min (x (.trq k)) 0 = -∑ k, max (-x (.trq k)) 0 := by
    rw [← Finset.sum_neg_distrib]
    refine Finset.sum_congr rfl fun k _ => ?_
    rw [← min_neg_neg, neg_neg, neg_zero]
  have hn : compute x .trq_net = compute x .trq_in * (1 - x .fracLoss) + compute x .trq_out
      - x .HPX / (x .Nmech * convert) := rfl
  have hc : x .HPX / (x .Nmech * convert) = 550 * x .HPX / (x .Nmech * (2 * Real.pi / 60)) := by
    unfold convert; have := Real.pi_pos.ne'; field_simp
  rw [hn, h1, h2, hmin, hc]
  constructor <;> intro h <;> linarith

/-- **C26 (powers).** Every reported power (in hp, times 550 ft·lbf/s) is the corresponding torque
times the angular speed; the loss applies to the torque in, the extraction to the torque out, and
the net power is the sum of the two real ones. -/
theorem C26_powers (x : I n → ℝ) :
    550 * compute x .pwr_in = compute x .trq_in * (x .Nmech * (2 * Real.pi / 60))
    ∧ 550 * compute x .pwr_out = compute x .trq_out * (x .Nmech * (2 * Real.pi / 60))
    ∧ 550 * compute x .pwr_net = compute x .trq_net * (x .Nmech * (2 * Real.pi / 60))
    ∧ compute x .pwr_in_real = (1 - x .fracLoss) * compute x .pwr_in
    ∧ compute x .pwr_out_real = compute x .pwr_out - x .HPX
    ∧ (x .Nmech ≠ 0 → compute x .pwr_net = compute x .pwr_in_real + compute x .pwr_out_real) := by
  have hc := convert_pos.ne'
  refine ⟨?_, ?_, ?_, ?_, ?_, ?_⟩
  · simp only [compute, convert]; ring
  · simp only [compute, convert]; ring
  · simp only [compute, convert]; ring
  · simp only [compute]; ring
  · simp only [compute]
  · intro hN
    simp only [compute]
    field_simp
    ring

/-- **C26 (order).** Renaming the ports by any permutation changes no output. -/
theorem C26_order (x : I n → ℝ) (σ : Equiv.Perm (Fin n)) (y : I n → ℝ)
    (h1 : y .Nmech = x .Nmech) (h2 : y .HPX = x .HPX) (h3 : y .fracLoss = x .fracLoss)
    (hk : ∀ k, y (.trq k) = x (.trq (σ k))) (o : O) : compute y o = compute x o := by
  have e1 : (torques y).1 = (torques x).1 := by
    have a := (C26_ports y).1; have b := (C26_ports x).1
    simp only [compute] at a b
    rw [a, b]; simp only [hk]
    exact Equiv.sum_comp σ (fun k => max (x (.trq k)) 0)
  have e2 : (torques y).2 = (torques x).2 := by
    have a := (C26_ports y).2; have b := (C26_ports x).2
    simp only [compute] at a b
    rw [a, b]; simp only [hk]
    exact Equiv.sum_comp σ (fun k => min (x (.trq k)) 0)
  cases o <;> simp only [compute, e1, e2, h1, h2, h3]

private theorem torques_eq (x : I n → ℝ) :
    torques x = (∑ k, max (x (.trq k)) 0, ∑ k, min (x (.trq k)) 0) := by
  have h := C26_ports x
  simp only [compute] at h
  exact Prod.ext h.1 h.2

private theorem torques_update (x : I n → ℝ) (i : I n) (hi : ∀ k, i ≠ .trq k) (t : ℝ) :
    torques (Function.update x i t) = torques x := by
  simp only [torques]
  congr 2
  funext k
  rw [Function.update_of_ne (hi k).symm]

open Classical in
private theorem hd_tin (x : I n → ℝ) (k : Fin n) (h : x (.trq k) ≠ 0) :
    HasDerivAt (fun t => (torques (Function.update x (.trq k) t)).1)
      (if x (.trq k) ≥ 0 then 1 else 0) (x (.trq k)) := by
  simp only [torques_eq]
  have hs : ∀ j, HasDerivAt (fun t => max (Function.update x (.trq k) t (.trq j)) 0)
      (if j = k then (if x (.trq k) ≥ 0 then (1:ℝ) else 0) else 0) (x (.trq k)) := by
    intro j
    by_cases hj : j = k
    · subst hj
      simp only [Function.update_self, if_true]
      rcases lt_or_gt_of_ne h with h0 | h0
      · rw [if_neg (not_le.mpr h0)]
        refine (hasDerivAt_const _ (0:ℝ)).congr_of_eventuallyEq ?_
        filter_upwards [Iio_mem_nhds h0] with t ht using max_eq_right ht.le
      · rw [if_pos h0.le]
        refine (hasDerivAt_id' _).congr_of_eventuallyEq ?_
        filter_upwards [Ioi_mem_nhds h0] with t ht using max_eq_left ht.le
    · rw [if_neg hj]
      have : I.trq j ≠ (I.trq k : I n) := fun e => hj (by injection e)
      simp only [Function.update_of_ne this]
      exact hasDerivAt_const _ _
  have := HasDerivAt.fun_sum (u := Finset.univ) (fun j _ => hs j)
  simpa using this

open Classical in
private theorem hd_tout (x : I n → ℝ) (k : Fin n) (h : x (.trq k) ≠ 0) :
    HasDerivAt (fun t => (torques (Function.update x (.trq k) t)).2)
      (if x (.trq k) ≥ 0 then 0 else 1) (x (.trq k)) := by
  simp only [torques_eq]
  have hs : ∀ j, HasDerivAt (fun t => min (Function.update x (.trq k) t (.trq j)) 0)
      (if j = k then (if x (.trq k) ≥ 0 then (0:ℝ) else 1) else 0) (x (.trq k)) := by
    intro j
    by_cases hj : j = k
    · subst hj
      simp only [Function.update_self, if_true]
      rcases lt_or_gt_of_ne h with h0 | h0
      · rw [if_neg (not_le.mpr h0)]
        refine (hasDerivAt_id' _).congr_of_eventuallyEq ?_
        filter_upwards [Iio_mem_nhds h0] with t ht using min_eq_left ht.le
      · rw [if_pos h0.le]
        refine (hasDerivAt_const _ (0:ℝ)).congr_of_eventuallyEq ?_
        filter_upwards [Ioi_mem_nhds h0] with t ht using min_eq_right ht.le
    · rw [if_neg hj]
      have : I.trq j ≠ (I.trq k : I n) := fun e => hj (by injection e)
      simp only [Function.update_of_ne this]
      exact hasDerivAt_const _ _
  have := HasDerivAt.fun_sum (u := Finset.univ) (fun j _ => hs j)
  simpa using this

/-- **C26 (partials).** With non-zero speed and no port exactly at zero torque, the whole Jacobian
(for any number of ports) is exact. -/
theorem C26_partials (x : I n → ℝ) (hN : x .Nmech ≠ 0) (h0 : ∀ k, x (.trq k) ≠ 0) :
    ExactPartials compute J x := by
  have hc := convert_pos.ne'
  intro o i
  cases i with
  | trq k =>
    have h1 := hd_tin x k (h0 k)
    have h2 := hd_tout x k (h0 k)
    have e1 : ∀ t, Function.update x (.trq k) t .Nmech = x .Nmech := fun t =>
      Function.update_of_ne (by simp) _ _
    have e2 : ∀ t, Function.update x (.trq k) t .HPX = x .HPX := fun t =>
      Function.update_of_ne (by simp) _ _
    have e3 : ∀ t, Function.update x (.trq k) t .fracLoss = x .fracLoss := fun t =>
      Function.update_of_ne (by simp) _ _
    by_cases hp : x (.trq k) ≥ 0
    · simp only [hp, if_true] at h1 h2
      cases o <;> simp only [compute, J, e1, e2, e3, hp, if_true] <;>
        hd (skip) (fring)
    · simp only [hp, if_false] at h1 h2
      cases o <;> simp only [compute, J, e1, e2, e3, hp, if_false] <;>
        hd (skip) (fring)
  | Nmech =>
    have ht := torques_update x .Nmech (by simp)
    have hNc : x .Nmech * convert ≠ 0 := mul_ne_zero hN hc
    cases o <;> simp only [compute, J, ht, Function.update_self,
      Function.update_of_ne (show (I.HPX : I n) ≠ .Nmech by simp),
      Function.update_of_ne (show (I.fracLoss : I n) ≠ .Nmech by simp)] <;>
      hd (exact hNc) (first | ring1 | (simp only [zpow_neg, zpow_ofNat]; fring) | fring)
  | HPX =>
    have ht := torques_update x .HPX (by simp)
    cases o <;> simp only [compute, J, ht, Function.update_self,
      Function.update_of_ne (show (I.Nmech : I n) ≠ .HPX by simp),
      Function.update_of_ne (show (I.fracLoss : I n) ≠ .HPX by simp)] <;>
      hd (skip) (fring)
  | fracLoss =>
    have ht := torques_update x .fracLoss (by simp)
    cases o <;> simp only [compute, J, ht, Function.update_self,
      Function.update_of_ne (show (I.Nmech : I n) ≠ .fracLoss by simp),
      Function.update_of_ne (show (I.HPX : I n) ≠ .fracLoss by simp)] <;>
      hd (skip) (fring)

/-- **C26 (kink).** At a port with exactly zero torque the torque in is not differentiable, so no
declared value could be exact there (the guard of `C26_partials` is necessary). -/
theorem C26_refuted_zero_torque (x : I n → ℝ) (k : Fin n) (h : x (.trq k) = 0) (d : ℝ) :
    ¬ HasDerivAt (fun t => compute (Function.update x (.trq k) t) .trq_in) d (x (.trq k)) := by
  intro hd
  have e : ∀ t, compute (Function.update x (.trq k) t) .trq_in
      = max t 0 + ∑ j ∈ univ.erase k, max (x (.trq j)) 0 := by
    intro t
    rw [(C26_ports _).1, ← Finset.add_sum_erase _ _ (Finset.mem_univ k), Function.update_self]
    congr 1
    refine Finset.sum_congr rfl fun j hj => ?_
    rw [Function.update_of_ne (fun e => (Finset.mem_erase.mp hj).1 (by injection e))]
  simp only [e, h] at hd
  have hr := (hd.hasDerivWithinAt (s := Set.Ici 0))
  have hl := (hd.hasDerivWithinAt (s := Set.Iic 0))
  have hr' : HasDerivWithinAt (fun t : ℝ => max t 0 + ∑ j ∈ univ.erase k, max (x (.trq j)) 0) 1
      (Set.Ici 0) 0 := by
    refine ((hasDerivAt_id' (0:ℝ)).add_const
      (∑ j ∈ univ.erase k, max (x (.trq j)) 0)).hasDerivWithinAt.congr ?_ ?_
    · intro t ht; simp [max_eq_left (Set.mem_Ici.mp ht)]
    · simp
  have hl' : HasDerivWithinAt (fun t : ℝ => max t 0 + ∑ j ∈ univ.erase k, max (x (.trq j)) 0) 0
      (Set.Iic 0) 0 := by
    refine (hasDerivAt_const (0:ℝ) (∑ j ∈ univ.erase k, max (x (.trq j)) 0)).hasDerivWithinAt.congr
      ?_ ?_
    · intro t ht; simp [max_eq_right (Set.mem_Iic.mp ht)]
    · simp
  have a := (uniqueDiffWithinAt_Ici (0:ℝ)).eq_deriv _ hr hr'
  have b := (uniqueDiffWithinAt_Iic (0:ℝ)).eq_deriv _ hl hl'
  linarith

/-- **C26 (units).** Turbomachinery converts power to torque with
`HP_per_RPM_to_FT_LBF = 5252.11` (constants.py:58), the shaft converts back with `2π/60/550`; the
round trip is not the identity: every power arrives about `6·10⁻⁷` too small. -/
theorem C26_refuted_round_trip (pwr N : ℝ) (hp : 0 < pwr) (hN : 0 < N) :
    (1 - 1e-6) * pwr < (pwr / N * 5252.11) * N * convert
      ∧ (pwr / N * 5252.11) * N * convert < (1 - 4e-7) * pwr := by
  have e : (pwr / N * 5252.11) * N * convert = pwr * (5252.11 * convert) := by field_simp
  rw [e, mul_comm _ pwr, mul_comm _ pwr]
  have h1 := Real.pi_gt_d6
  have h2 := Real.pi_lt_d6
  constructor
  · refine mul_lt_mul_of_pos_left ?_ hp
    unfold convert; norm_num at h1 ⊢; linarith
  · refine mul_lt_mul_of_pos_left ?_ hp
    unfold convert; norm_num at h2 ⊢; linarith

/-- Non-vacuity: a shaft with one turbine and one compressor port, with loss and extraction. -/
example : ∃ x : I 2 → ℝ, x .Nmech ≠ 0 ∧ (∀ k, x (.trq k) ≠ 0) ∧ x .fracLoss ≠ 0 ∧ x .HPX ≠ 0
    ∧ compute x .trq_net = 0 := by
  refine ⟨fun | .Nmech => 60 * 550 / (2 * Real.pi) | .HPX => 1 | .fracLoss => 1/2
              | .trq k => if k = 0 then 4 else -1, ?_, ?_, ?_, ?_, ?_⟩
  · have := Real.pi_pos; positivity
  · intro k; fin_cases k <;> norm_num
  · norm_num
  · norm_num
  · rw [C26_balance _ (by have := Real.pi_pos; positivity)]
    have := Real.pi_pos.ne'
    simp [Fin.sum_univ_two]
    field_simp
    norm_num

end PyCycle.Shaft
