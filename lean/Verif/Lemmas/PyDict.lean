import Verif.Model.PyDict

namespace PyCycle.PyDict
variable {V : Type}

theorem get?_cons (k : String) (p : String × V) (d : PyDict V) :
    get? (p :: d) k = if k = p.1 then some p.2 else get? d k := by
  simp only [get?, List.lookup]
  by_cases h : k = p.1
  · simp [h]
  · have : (k == p.1) = false := by simpa using h
    simp [h, this]

theorem get?_setItem (d : PyDict V) (k : String) (v : V) (q : String) :
    (d.setItem k v).get? q = if q = k then some v else d.get? q := by
  induction d with
  | nil => rw [setItem, get?_cons]
  | cons p d ih =>
    obtain ⟨k', v'⟩ := p
    simp only [setItem]
    split
    · rename_i h; subst h
      by_cases hq : q = k' <;> simp [get?_cons, hq]
    · rename_i h
      by_cases hq : q = k'
      · subst hq; simp [get?_cons, h]
      · simp [get?_cons, hq, ih]

theorem keys_setItem (d : PyDict V) (k : String) (v : V) :
    (d.setItem k v).keys = if k ∈ d.keys then d.keys else d.keys ++ [k] := by
  induction d with
  | nil => simp [setItem, keys]
  | cons p d ih =>
    obtain ⟨k', v'⟩ := p
    simp only [setItem]
    split
    · rename_i h; subst h; simp [keys]
    · rename_i h
      have h' : ¬ k = k' := fun e => h e.symm
      simp only [keys, List.map_cons] at ih ⊢
      rw [ih]
      by_cases hk : k ∈ List.map Prod.fst d <;> simp [hk, h']

theorem nodup_setItem {d : PyDict V} (h : d.keys.Nodup) (k : String) (v : V) :
    (d.setItem k v).keys.Nodup := by
  rw [keys_setItem]
  split
  · exact h
  · rename_i hk; simp [List.nodup_append, h]; intro a ha e; exact hk (e ▸ ha)

theorem nodup_update {d : PyDict V} (h : d.keys.Nodup) (e : PyDict V) :
    (d.update e).keys.Nodup := by
  unfold update
  induction e generalizing d with
  | nil => exact h
  | cons p e ih => exact ih (nodup_setItem h _ _)

theorem get?_update {d e : PyDict V} (he : e.keys.Nodup) (q : String) :
    (d.update e).get? q = (e.get? q).or (d.get? q) := by
  unfold update
  induction e generalizing d with
  | nil => simp [get?]
  | cons p e ih =>
    simp only [keys, List.map_cons, List.nodup_cons] at he
    rw [List.foldl_cons, ih he.2, get?_setItem, get?_cons]
    by_cases hq : q = p.1
    · have : get? e q = none := by
        simp only [get?]
        rw [List.lookup_eq_none_iff]
        intro x hx
        simp
        intro e'
        apply he.1
        rw [List.mem_map]
        exact ⟨x, hx, by rw [← e', hq]⟩
      simp [hq, this]
      rw [hq] at this
      rw [this]; rfl
    · simp [hq]

theorem mem_keys_iff (d : PyDict V) (k : String) : k ∈ d.keys ↔ (d.get? k).isSome := by
  induction d with
  | nil => simp [keys, get?]
  | cons p d ih =>
    rw [get?_cons]
    simp only [keys, List.map_cons, List.mem_cons] at ih ⊢
    by_cases h : k = p.1
    · simp [h]
    · simp [h, ih]

theorem keys_cons (p : String × V) (d : PyDict V) : keys (p :: d) = p.1 :: keys d := rfl

theorem mem_keys_update (d e : PyDict V) (k : String) :
    k ∈ (d.update e).keys ↔ k ∈ d.keys ∨ k ∈ e.keys := by
  unfold update
  induction e generalizing d with
  | nil => simp [keys]
  | cons p e ih =>
    rw [List.foldl_cons, ih, keys_setItem, keys_cons, List.mem_cons]
    by_cases h : p.1 ∈ d.keys
    · rw [if_pos h]
      constructor
      · rintro (h1 | h1)
        · exact .inl h1
        · exact .inr (.inr h1)
      · rintro (h1 | rfl | h1)
        · exact .inl h1
        · exact .inl h
        · exact .inr h1
    · rw [if_neg h, List.mem_append, List.mem_singleton]; tauto

theorem sortedKeys_perm (d : PyDict V) : d.sortedKeys.Perm d.keys :=
  List.perm_insertionSort _ _

theorem mem_sortedKeys (d : PyDict V) (k : String) : k ∈ d.sortedKeys ↔ k ∈ d.keys :=
  (sortedKeys_perm d).mem_iff

theorem nodup_sortedKeys {d : PyDict V} (h : d.keys.Nodup) : d.sortedKeys.Nodup :=
  (sortedKeys_perm d).nodup_iff.mpr h

end PyCycle.PyDict
