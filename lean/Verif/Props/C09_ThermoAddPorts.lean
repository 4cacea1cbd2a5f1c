import Verif.Model.ThermoAddPorts
import Verif.Lemmas.PyDict

/-! # C09: `ThermoAdd.output_port_data`: union of elements, no mutation -/

namespace PyCycle

/-! ## Specification -/

/-- The value a reader expects after merging dictionaries left to right: the value in the last
dictionary that has the key. -/
def lastValue {V} (ds : List (PyDict V)) (k : String) : Option V :=
  ds.foldl (fun acc d => (d.get? k).or acc) none

/-- The dictionary a `mix_composition` entry denotes: the data-set entry of a reactant, or the
composition of a mixed-in flow. -/
def Denotes {V} (h : DictHeap V) (reactants : PyDict Nat) : MixMode → MixItem → PyDict V → Prop
  | .reactant, .name r, d => ∃ s, reactants.get? r = some s ∧ h[s]? = some d
  | .flow, .dict s, d => h[s]? = some d
  | _, _, _ => False

/-- The state of the interpreter is well formed: dictionaries have distinct keys, and the
data set's reactant entries exist. -/
structure HeapWF {V} (h : DictHeap V) (reactants : PyDict Nat) (air : Nat) : Prop where
  nodup : ∀ d ∈ h, d.keys.Nodup
  reactantsLive : ∀ r s, reactants.get? r = some s → s < h.length
  airLive : air < h.length

/-! ## Proofs -/

private theorem mixLoop_ok {V} (reactants : PyDict Nat) (mode : MixMode) (h₀ : DictHeap V)
    (r : Nat) (hr : r = h₀.length) (hn : ∀ d ∈ h₀, d.keys.Nodup) (xs : List MixItem)
    (ds : List (PyDict V)) (hd : List.Forall₂ (Denotes h₀ reactants mode) xs ds) (d : PyDict V) :
    mixLoop reactants mode r (h₀ ++ [d]) xs = .ok (h₀ ++ [ds.foldl PyDict.update d]) := by
  induction hd generalizing d with
  | nil => rfl
  | @cons x e xs ds hx _ ih =>
    have : ∃ s, mixItemRef reactants mode x = .ok s ∧ h₀[s]? = some e := by
      cases mode <;> cases x <;> simp only [Denotes] at hx
      · obtain ⟨s, h1, h2⟩ := hx
        exact ⟨s, by simp [mixItemRef, h1], h2⟩
      · exact ⟨_, rfl, hx⟩
    obtain ⟨s, hs, he⟩ := this
    have hlt : s < h₀.length := by
      rw [List.getElem?_eq_some_iff] at he; exact he.1
    have h1 : (h₀ ++ [d])[s]? = some e := by rw [List.getElem?_append_left hlt]; exact he
    have h2 : (h₀ ++ [d])[r]? = some d := by subst hr; simp
    simp only [mixLoop, hs, DictHeap.updateAt, h1, h2, List.foldl_cons]
    have h3 : (h₀ ++ [d]).set r (d.update e) = h₀ ++ [d.update e] := by
      subst hr; rw [List.set_append_right _ _ (Nat.le_refl _)]; simp
    rw [h3]; exact ih _

private theorem foldl_update_get? {V} (ds : List (PyDict V)) (hn : ∀ d ∈ ds, d.keys.Nodup)
    (d : PyDict V) (k : String) :
    (ds.foldl PyDict.update d).get? k
      = ds.foldl (fun acc d => (d.get? k).or acc) (d.get? k) := by
  induction ds generalizing d with
  | nil => rfl
  | cons e ds ih =>
    rw [List.foldl_cons, List.foldl_cons, ih (fun x hx => hn x (List.mem_cons_of_mem _ hx)),
      PyDict.get?_update (hn e List.mem_cons_self)]

private theorem foldl_update_nodup {V} (ds : List (PyDict V)) (d : PyDict V)
    (hd : d.keys.Nodup) : (ds.foldl PyDict.update d).keys.Nodup := by
  induction ds generalizing d with
  | nil => exact hd
  | cons e ds ih => exact ih _ (PyDict.nodup_update hd e)

private theorem foldl_update_keys {V} (ds : List (PyDict V)) (d : PyDict V) (k : String) :
    k ∈ (ds.foldl PyDict.update d).keys ↔ k ∈ d.keys ∨ ∃ e ∈ ds, k ∈ e.keys := by
  induction ds generalizing d with
  | nil => simp
  | cons e ds ih =>
    rw [List.foldl_cons, ih, PyDict.mem_keys_update]
    simp only [List.mem_cons, exists_eq_or_imp]
    tauto

/-- **C09.** If every `mix_composition` entry denotes a dictionary (a known reactant in
reactant mode, a composition dictionary in flow mode), the call succeeds; the returned
dictionary is a *new* object; every dictionary that existed before (inflow data, mixed flows'
data, the species data, the default air composition) is unchanged; the keys of the result are
exactly the elements of the inflow (or default air) and of the mixed dictionaries, without
duplicates; and each value is the one of the last dictionary mentioning the element. -/
theorem C09_union_and_no_mutation {V} (h : DictHeap V) (reactants : PyDict Nat) (air : Nat)
    (wf : HeapWF h reactants air) (inflow : Option Nat) (mode : MixMode) (mix : MixArg)
    (base : PyDict V) (hbase : h[inflow.getD air]? = some base)
    (ds : List (PyDict V)) (hds : List.Forall₂ (Denotes h reactants mode) mix.items ds) :
    ∃ h' r d, outputPortData h reactants air inflow mode mix = .ok (h', r)
      ∧ h.length ≤ r ∧ h'[r]? = some d
      ∧ (∀ s, s < h.length → h'[s]? = h[s]?)
      ∧ d.keys.Nodup
      ∧ (∀ k, k ∈ d.keys ↔ k ∈ base.keys ∨ ∃ e ∈ ds, k ∈ e.keys)
      ∧ (∀ k, d.get? k = lastValue (base :: ds) k) := by
  have hbm : base ∈ h := List.mem_of_getElem? hbase
  have hdn : ∀ d ∈ ds, d.keys.Nodup := by
    intro d hd
    obtain ⟨i, hi, rfl⟩ := List.getElem_of_mem hd
    have hlen := hds.length_eq
    have := List.Forall₂.get hds (i := i) (by omega) hi
    apply wf.nodup
    simp only [List.get_eq_getElem] at this
    revert this
    generalize mix.items[i]'(by omega) = x
    intro this
    cases mode <;> cases x <;> simp only [Denotes] at this
    · obtain ⟨s, _, h2⟩ := this; exact List.mem_of_getElem? h2
    · exact List.mem_of_getElem? this
  refine ⟨h ++ [ds.foldl PyDict.update base], h.length, ds.foldl PyDict.update base,
    ?_, Nat.le_refl _, by simp, ?_, ?_, ?_, ?_⟩
  · simp only [outputPortData, DictHeap.copy, hbase]
    rw [mixLoop_ok reactants mode h h.length rfl wf.nodup mix.items ds hds base]
  · intro s hs; rw [List.getElem?_append_left hs]
  · exact foldl_update_nodup _ _ (wf.nodup _ hbm)
  · exact fun k => foldl_update_keys _ _ _
  · intro k
    rw [foldl_update_get? ds hdn]
    simp [lastValue]

private theorem mixLoop_err {V} (reactants : PyDict Nat) (mode : MixMode) (h₀ : DictHeap V)
    (r : Nat) (xs : List MixItem) (x : MixItem) (hx : x ∈ xs)
    (hno : ∀ s, mixItemRef reactants mode x ≠ .ok s) (h : DictHeap V) :
    ∃ e, mixLoop reactants mode r h xs = .error e := by
  induction xs generalizing h with
  | nil => simp at hx
  | cons y ys ih =>
    simp only [mixLoop]
    rcases hy : mixItemRef reactants mode y with e | s
    · exact ⟨e, rfl⟩
    · simp only
      rcases hu : h.updateAt r s with e | h'
      · exact ⟨e, rfl⟩
      · simp only
        rcases List.mem_cons.mp hx with rfl | hx
        · exact absurd hy (hno s)
        · exact ih hx h'

/-- **C09 (rejection).** An unknown reactant, a dictionary used as a reactant or a name used
as a flow is an error. -/
theorem C09_unknown_reactant_rejected {V} (h : DictHeap V) (reactants : PyDict Nat) (air : Nat)
    (inflow : Option Nat) (mode : MixMode) (mix : MixArg) (x : MixItem) (hx : x ∈ mix.items)
    (hbad : match mode, x with
      | .reactant, .name r => reactants.get? r = none
      | .reactant, .dict _ => True
      | .flow, .name _ => True
      | .flow, .dict _ => False) :
    ∃ e, outputPortData h reactants air inflow mode mix = .error e := by
  unfold outputPortData
  rcases h.copy (inflow.getD air) with e | ⟨h₁, r⟩
  · exact ⟨e, rfl⟩
  · simp only
    have hno : ∀ s, mixItemRef reactants mode x ≠ .ok s := by
      intro s
      cases mode <;> cases x <;> simp_all [mixItemRef]
    obtain ⟨e, he⟩ := mixLoop_err reactants mode h₁ r mix.items x hx hno h₁
    exact ⟨e, by rw [he]⟩

/-- Non-vacuity: JP-7 added to CEA air adds the element H and keeps the rest. -/
example : ∃ h' r d, outputPortData
      ([[("Ar", 3), ("C", 1), ("N", 53), ("O", 14)], [("C", 1), ("H", 2)]] : DictHeap Nat)
      [("JP-7", 1)] 0 none .reactant (.single (.name "JP-7")) = .ok (h', r)
      ∧ h'[r]? = some d ∧ d.keys = ["Ar", "C", "N", "O", "H"] :=
  ⟨_, _, _, rfl, rfl, rfl⟩

example : HeapWF ([[("Ar", 3), ("C", 1), ("N", 53), ("O", 14)], [("C", 1), ("H", 2)]] : DictHeap Nat)
    [("JP-7", 1)] 0 where
  nodup := by decide
  reactantsLive := by
    intro r s
    rw [PyDict.get?_cons]
    split
    · intro h; cases h; decide
    · intro h; cases h
  airLive := by decide

/-- **C09 is false for the TABULAR method**: `output_port_data` returns `None` instead of the
port data, so the element that stores it stores no composition. -/
theorem C09_tabular_refuted {V} (inflow : PyDict V) (mode : MixMode) (reactant : String) :
    ∀ d, outputPortDataTab inflow mode reactant ≠ .ok (some d) := by
  intro d
  unfold outputPortDataTab
  cases mode
  · simp only; split <;> simp
  · simp

end PyCycle
