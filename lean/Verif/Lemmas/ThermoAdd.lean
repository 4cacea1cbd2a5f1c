import Verif.Model.CeaThermoAdd
import Verif.Spec.MassBalance
import Verif.Lemmas.PyDict
import Mathlib.Tactic.Ring
import Mathlib.Tactic.FieldSimp
import Mathlib.Algebra.BigOperators.Field

namespace PyCycle
open Finset

theorem mkProperties_ok {data : ThermoData} {d : PyDict ℝ} {P : Properties}
    (h : mkProperties data (some d) = .ok P) :
    P.elements = d.sortedKeys ∧ (∀ i, P.elementWt i = data.wtOf (P.elements.get i)) := by
  simp only [mkProperties] at h
  split at h
  · cases h
  · split at h
    · cases h
    · cases h
      exact ⟨rfl, fun i => rfl⟩

theorem sum_idxDot (ein eout : List String) (hsub : ∀ e ∈ ein, e ∈ eout)
    (v : Fin ein.length → ℝ) (g : String → ℝ) :
    ∑ j, idxDot ein eout v j * g (eout.get j) = ∑ i, v i * g (ein.get i) := by
  simp only [idxDot, Finset.sum_mul]
  rw [Finset.sum_comm]
  refine Finset.sum_congr rfl (fun i _ => ?_)
  have hmem : ein.get i ∈ eout := hsub _ (List.get_mem _ _)
  have hlt : eout.idxOf (ein.get i) < eout.length := List.idxOf_lt_length_of_mem hmem
  rw [Finset.sum_eq_single (⟨eout.idxOf (ein.get i), hlt⟩ : Fin eout.length)]
  · have : eout.get ⟨eout.idxOf (ein.get i), hlt⟩ = ein.get i := List.idxOf_get hlt
    rw [this]
    simp [idxMap]
  · intro j _ hj
    have : j.val ≠ eout.idxOf (ein.get i) := fun e => hj (Fin.ext e)
    simp only [idxMap, if_neg this, zero_mul]
  · simp

theorem sum_single (eout : List String) (hn : eout.Nodup) (k : String) (hk : k ∈ eout) (v : ℝ)
    (g : String → ℝ) :
    ∑ j : Fin eout.length, (if eout.get j = k then v else 0) * g (eout.get j) = v * g k := by
  have hlt : eout.idxOf k < eout.length := List.idxOf_lt_length_of_mem hk
  have hget : eout.get ⟨eout.idxOf k, hlt⟩ = k := List.idxOf_get hlt
  rw [Finset.sum_eq_single (⟨eout.idxOf k, hlt⟩ : Fin eout.length)]
  · rw [hget]; simp
  · intro j _ hj
    have : eout.get j ≠ k := by
      intro e
      apply hj
      rw [← hget] at e
      exact (List.nodup_iff_injective_get.mp hn) e
    rw [if_neg this, zero_mul]
  · simp

theorem sum_formula (eout : List String) (hn : eout.Nodup) (f : PyDict ℝ) (hf : f.keys.Nodup)
    (hsub : ∀ e ∈ f.keys, e ∈ eout) (g : String → ℝ) :
    ∑ j : Fin eout.length, (f.get? (eout.get j)).getD 0 * g (eout.get j)
      = (f.map (fun kv => kv.2 * g kv.1)).sum := by
  induction f with
  | nil => simp [PyDict.get?]
  | cons p f ih =>
    rw [PyDict.keys_cons, List.nodup_cons] at hf
    have hnone : PyDict.get? f p.1 = none := by
      have := mt (PyDict.mem_keys_iff f p.1).mpr hf.1
      simpa using this
    have hsplit : ∀ j : Fin eout.length, (PyDict.get? (p :: f) (eout.get j)).getD 0
        = (if eout.get j = p.1 then p.2 else 0) + (PyDict.get? f (eout.get j)).getD 0 := by
      intro j
      rw [PyDict.get?_cons]
      split
      · rename_i e; rw [e, hnone]; simp
      · simp
    simp only [hsplit, add_mul, Finset.sum_add_distrib]
    rw [sum_single eout hn p.1 (hsub _ (by rw [PyDict.keys_cons]; simp)) p.2 g,
      ih hf.2 (fun e he => hsub e (by rw [PyDict.keys_cons]; exact List.mem_cons_of_mem _ he))]
    simp

theorem get?_sum (f : PyDict ℝ) (hf : f.keys.Nodup) (w : String → ℝ) (e : String) :
    (f.map (fun kv => kv.2 * (if kv.1 = e then w kv.1 else 0))).sum = (f.get? e).getD 0 * w e := by
  induction f with
  | nil => simp [PyDict.get?]
  | cons p f ih =>
    rw [PyDict.keys_cons, List.nodup_cons] at hf
    rw [List.map_cons, List.sum_cons, ih hf.2, PyDict.get?_cons]
    by_cases h : p.1 = e
    · have hnone : PyDict.get? f e = none := by
        have := mt (PyDict.mem_keys_iff f p.1).mpr hf.1
        rw [h] at this
        simpa using this
      simp [h, hnone]
    · have h' : e ≠ p.1 := fun x => h x.symm
      simp [h, h']

end PyCycle
