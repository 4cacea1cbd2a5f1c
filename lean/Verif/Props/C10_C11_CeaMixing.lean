import Verif.Lemmas.ThermoAdd

/-! # C10, C11: mass and enthalpy conservation of `ThermoAdd` (CEA) -/

namespace PyCycle
open Finset

/-- What a mixing calculation must deliver, for an inflow with flow rate `W`, enthalpy `h` and
element mass fractions `fin`, and added streams given as (flow rate, enthalpy, element mass
fractions): total mass, normalisation, element-by-element mass, and enthalpy balance. -/
structure ConservesMix (w : String → ℝ) (eout : List String) (out : AddOut eout.length)
    (W h : ℝ) (fin : String → ℝ) (added : List (ℝ × ℝ × (String → ℝ))) : Prop where
  mass : out.W = W + (added.map (fun s => s.1)).sum
  unitMass : totalMass eout w out.comp = 1
  element : ∀ e, out.W * elemMassFrac eout w out.comp e
    = W * fin e + (added.map (fun s => s.1 * s.2.2 e)).sum
  enthalpy : out.W * out.h = W * h + (added.map (fun s => s.1 * s.2.1)).sum

private theorem finish_conserves (w : String → ℝ) (P : Properties)
    (hP : ∀ i, P.elementWt i = w (P.elements.get i)) (hw : ∀ e ∈ P.elements, w e ≠ 0)
    (a : AddAcc P.elements.length) (W h : ℝ) (fin : String → ℝ)
    (added : List (ℝ × ℝ × (String → ℝ)))
    (hW : a.W = W + (added.map (fun s => s.1)).sum)
    (hh : a.hW = W * h + (added.map (fun s => s.1 * s.2.1)).sum)
    (hsum : ∑ j, a.b0 j = a.W)
    (hel : ∀ e, (∑ j, if P.elements.get j = e then a.b0 j else 0)
      = W * fin e + (added.map (fun s => s.1 * s.2.2 e)).sum)
    (hne : a.W ≠ 0) :
    ConservesMix w P.elements (addFinish P a) W h fin added := by
  have hcw : ∀ j, (addFinish P a).comp j * w (P.elements.get j) = a.b0 j / a.W := by
    intro j
    simp only [addFinish, hP, hsum]
    have := hw _ (List.get_mem P.elements j)
    field_simp
  have hunit : totalMass P.elements w (addFinish P a).comp = 1 := by
    simp only [totalMass, hcw]
    rw [← Finset.sum_div, hsum, div_self hne]
  refine ⟨hW, hunit, fun e => ?_, ?_⟩
  · rw [elemMassFrac, hunit, div_one, ← hel e]
    show a.W * _ = _
    rw [Finset.mul_sum]
    refine Finset.sum_congr rfl (fun j _ => ?_)
    split
    · rw [hcw]; field_simp
    · simp
  · rw [← hh]
    show a.W * (a.hW / a.W) = a.hW
    field_simp

private theorem start_sum (w : String → ℝ) (pin pmix : Properties)
    (hmix : ∀ i, pmix.elementWt i = w (pmix.elements.get i))
    (hsub : ∀ e ∈ pin.elements, e ∈ pmix.elements) (W h : ℝ)
    (comp : Fin pin.elements.length → ℝ) (hne : totalMass pin.elements w comp ≠ 0) :
    ∑ j, (addStart pin pmix W h comp).b0 j = W
    ∧ ∀ e, (∑ j, if pmix.elements.get j = e then (addStart pin pmix W h comp).b0 j else 0)
      = W * elemMassFrac pin.elements w comp e := by
  have hs := sum_idxDot pin.elements pmix.elements hsub comp w
  have hs' : ∑ k, idxDot pin.elements pmix.elements comp k * pmix.elementWt k
      = totalMass pin.elements w comp := by
    simp only [hmix]; exact hs
  constructor
  · simp only [addStart, hs', hmix]
    rw [← Finset.sum_mul, ← Finset.sum_div, hs]
    show totalMass pin.elements w comp / totalMass pin.elements w comp * W = W
    rw [div_self hne, one_mul]
  · intro e
    simp only [addStart, hs', hmix]
    have hg := sum_idxDot pin.elements pmix.elements hsub comp (fun x => if x = e then w x else 0)
    have : (∑ i, if pin.elements.get i = e then comp i * w (pin.elements.get i) else 0)
        = ∑ i, comp i * (if pin.elements.get i = e then w (pin.elements.get i) else 0) := by
      refine Finset.sum_congr rfl (fun i _ => ?_)
      split <;> simp
    rw [elemMassFrac, this, ← hg, Finset.sum_div, Finset.mul_sum]
    refine Finset.sum_congr rfl (fun j _ => ?_)
    rw [show (∑ x, idxDot pin.elements pmix.elements comp x * w (pmix.elements.get x))
      = totalMass pin.elements w comp from hs]
    split
    · ring
    · simp

private theorem fold_acc {S : Type} (n : Nat) (c : S → Fin n → ℝ) (hh ww : S → ℝ)
    (l : List S) (a : AddAcc n) :
    let r := l.foldl (fun a s =>
      ({ b0 := fun j => a.b0 j + c s j, hW := a.hW + hh s, W := a.W + ww s } : AddAcc n)) a
    (∀ j, r.b0 j = a.b0 j + (l.map (fun s => c s j)).sum)
      ∧ r.hW = a.hW + (l.map hh).sum ∧ r.W = a.W + (l.map ww).sum := by
  induction l generalizing a with
  | nil => simp
  | cons s l ih =>
    simp only [List.foldl_cons, List.map_cons, List.sum_cons]
    obtain ⟨h1, h2, h3⟩ := ih
      { b0 := fun j => a.b0 j + c s j, hW := a.hW + hh s, W := a.W + ww s }
    refine ⟨fun j => ?_, ?_, ?_⟩
    · rw [h1 j]; simp only; ring
    · rw [h2]; simp only; ring
    · rw [h3]; simp only; ring

private theorem sum_listsum {S : Type} {n : Nat} (l : List S) (c : S → Fin n → ℝ) :
    ∑ j, (l.map (fun s => c s j)).sum = (l.map (fun s => ∑ j, c s j)).sum := by
  induction l with
  | nil => simp
  | cons s l ih => simp [Finset.sum_add_distrib, ih]

private theorem ite_add_listsum {S : Type} (p : Prop) [Decidable p] (b : ℝ) (l : List S)
    (c : S → ℝ) : (if p then b + (l.map c).sum else 0)
      = (if p then b else 0) + (l.map (fun s => if p then c s else 0)).sum := by
  split
  · rfl
  · induction l with
    | nil => simp
    | cons s l ih => simp

private theorem fold_conserves {S : Type} (w : String → ℝ) (pin pmix : Properties)
    (hmixw : ∀ i, pmix.elementWt i = w (pmix.elements.get i))
    (hsub : ∀ e ∈ pin.elements, e ∈ pmix.elements) (hw : ∀ e ∈ pmix.elements, w e ≠ 0)
    (W h : ℝ) (comp : Fin pin.elements.length → ℝ) (hne : totalMass pin.elements w comp ≠ 0)
    (l : List S) (c : S → Fin pmix.elements.length → ℝ) (ws hs : S → ℝ) (fr : S → String → ℝ)
    (hc : ∀ s ∈ l, ∑ j, c s j = ws s)
    (hce : ∀ s ∈ l, ∀ e, (∑ j, if pmix.elements.get j = e then c s j else 0) = ws s * fr s e)
    (hWne : W + (l.map ws).sum ≠ 0) :
    ConservesMix w pmix.elements (addFinish pmix (l.foldl (fun a s =>
      ({ b0 := fun j => a.b0 j + c s j, hW := a.hW + hs s * ws s, W := a.W + ws s } : AddAcc _))
      (addStart pin pmix W h comp))) W h (elemMassFrac pin.elements w comp)
      (l.map (fun s => (ws s, hs s, fr s))) := by
  obtain ⟨hb, hhW, hWW⟩ := fold_acc pmix.elements.length c (fun s => hs s * ws s) ws l
    (addStart pin pmix W h comp)
  obtain ⟨h1, h2⟩ := start_sum w pin pmix hmixw hsub W h comp hne
  apply finish_conserves w pmix hmixw hw
  · rw [hWW]; simp [addStart, Function.comp_def]
  · rw [hhW]; simp only [addStart, List.map_map, Function.comp_def]
    congr 1
    · ring
    · congr 1; apply List.map_congr_left; intro s _; ring
  · rw [hWW]
    simp only [hb, Finset.sum_add_distrib, h1, sum_listsum]
    have : (l.map (fun s => ∑ j, c s j)) = l.map ws := List.map_congr_left hc
    rw [this]; rfl
  · intro e
    simp only [hb, ite_add_listsum, Finset.sum_add_distrib, h2, sum_listsum, List.map_map,
      Function.comp_def]
    congr 2
    exact List.map_congr_left (fun s hs => hce s hs e)
  · rw [hWW]; exact hWne

private theorem mixedReactants_sub {data : ThermoData} {d m : PyDict ℝ} {rs : List String}
    (h : mixedReactants data d rs = .ok m) (hd : d.keys.Nodup) :
    m.keys.Nodup ∧ (∀ e ∈ d.keys, e ∈ m.keys) ∧
      ∀ r ∈ rs, ∃ f, data.reactants.get? r = some f ∧ ∀ e ∈ f.keys, e ∈ m.keys := by
  induction rs generalizing d with
  | nil => simp [mixedReactants] at h; subst h; simp [hd]
  | cons r rs ih =>
    simp only [mixedReactants] at h
    rcases hr : data.reactants.get? r with _ | f
    · rw [hr] at h; cases h
    · rw [hr] at h
      obtain ⟨h1, h2, h3⟩ := ih h (PyDict.nodup_update hd f)
      refine ⟨h1, fun e he => h2 e ((PyDict.mem_keys_update d f e).mpr (.inl he)), ?_⟩
      intro r' hr'
      rcases List.mem_cons.mp hr' with rfl | hr'
      · exact ⟨f, hr, fun e he => h2 e ((PyDict.mem_keys_update d f e).mpr (.inr he))⟩
      · exact h3 r' hr'

private theorem reactantSetup_ok {data : ThermoData} {infl : PyDict ℝ}
    {names comps : List String} {S : ReactantAdd}
    (h : reactantSetup data (some infl) names comps = .ok S) :
    ∃ m, mixedReactants data infl comps = .ok m ∧ mkProperties data (some infl) = .ok S.inflow
      ∧ mkProperties data (some m) = .ok S.mixed
      ∧ S.streams = (names.zip comps).map (fun nr =>
          (nr.1, ifa1kg data S.mixed.elements ((data.reactants.get? nr.2).getD []))) := by
  simp only [reactantSetup] at h
  rcases hm : mixedReactants data infl comps with e | m
  · rw [hm] at h; cases h
  · rw [hm] at h
    simp only at h
    rcases h1 : mkProperties data (some infl) with e | pin
    · rw [h1] at h; cases h
    · rcases h2 : mkProperties data (some m) with e | pmix
      · rw [h1, h2] at h; cases h
      · rw [h1, h2] at h
        cases h
        exact ⟨m, rfl, rfl, h2, rfl⟩

/-- **C10.** Injecting reactants: whenever `setup` accepts the inflow composition, the mix
names and the reactant names, then for every inflow composition vector with non-zero mass,
every flow rate, enthalpy and injection ratios,
`compute` conserves total mass, the mass of every chemical element, and enthalpy; each injected
flow is `ratio * W`, and the outlet composition is normalised to unit mass. -/
theorem C10_reactant_conservation (data : ThermoData) (infl : PyDict ℝ) (hin : infl.keys.Nodup)
    (names comps : List String) (S : ReactantAdd)
    (hS : reactantSetup data (some infl) names comps = .ok S)
    (hformula : ∀ r ∈ comps, ∀ f, data.reactants.get? r = some f →
      f.keys.Nodup ∧ formulaMass f data.wtOf ≠ 0)
    (hwt : ∀ e ∈ S.mixed.elements, data.wtOf e ≠ 0)
    (W h : ℝ) (comp : Fin S.inflow.elements.length → ℝ)
    (hcomp : totalMass S.inflow.elements data.wtOf comp ≠ 0)
    (ratio hmix : String → ℝ)
    (hW : W + ((names.zip comps).map (fun nr => W * ratio nr.1)).sum ≠ 0) :
    ConservesMix data.wtOf S.mixed.elements (reactantCompute S W h comp ratio hmix) W h
      (elemMassFrac S.inflow.elements data.wtOf comp)
      ((names.zip comps).map (fun nr =>
        (W * ratio nr.1, hmix nr.1,
          formulaMassFrac ((data.reactants.get? nr.2).getD []) data.wtOf)))
    ∧ ∀ n, reactantW W ratio n = W * ratio n := by
  refine ⟨?_, fun n => rfl⟩
  obtain ⟨m, hm, hp1, hp2, hst⟩ := reactantSetup_ok hS
  obtain ⟨hmn, hsub, hr⟩ := mixedReactants_sub hm hin
  obtain ⟨he1, hw1⟩ := mkProperties_ok hp1
  obtain ⟨he2, hw2⟩ := mkProperties_ok hp2
  have hnod : S.mixed.elements.Nodup := by rw [he2]; exact PyDict.nodup_sortedKeys hmn
  have hsub' : ∀ e ∈ S.inflow.elements, e ∈ S.mixed.elements := by
    intro e he
    rw [he1, PyDict.mem_sortedKeys] at he
    rw [he2, PyDict.mem_sortedKeys]; exact hsub e he
  have key := fold_conserves data.wtOf S.inflow S.mixed hw2 hsub' hwt W h comp hcomp
    (names.zip comps)
    (fun nr j => ifa1kg data S.mixed.elements ((data.reactants.get? nr.2).getD []) j
      * (W * ratio nr.1))
    (fun nr => W * ratio nr.1) (fun nr => hmix nr.1)
    (fun nr => formulaMassFrac ((data.reactants.get? nr.2).getD []) data.wtOf) ?_ ?_ hW
  · have : reactantCompute S W h comp ratio hmix = _ := rfl
    rw [this]
    simp only [hst, List.foldl_map, reactantW, reactantCompute]
    exact key
  · intro nr hnr
    have hmem : nr.2 ∈ comps := (List.of_mem_zip hnr).2
    obtain ⟨f, hf, hfs⟩ := hr nr.2 hmem
    obtain ⟨hfn, hfm⟩ := hformula nr.2 hmem f hf
    rw [hf]
    simp only [ifa1kg, Option.getD_some]
    rw [← Finset.sum_mul, ← Finset.sum_div]
    have hs := sum_formula S.mixed.elements hnod f hfn
      (fun e he => by rw [he2, PyDict.mem_sortedKeys]; exact hfs e he) data.wtOf
    rw [hs]
    show formulaMass f data.wtOf / formulaMass f data.wtOf * _ = _
    rw [div_self hfm, one_mul]
  · intro nr hnr e
    have hmem : nr.2 ∈ comps := (List.of_mem_zip hnr).2
    obtain ⟨f, hf, hfs⟩ := hr nr.2 hmem
    obtain ⟨hfn, hfm⟩ := hformula nr.2 hmem f hf
    have hsubf : ∀ e ∈ f.keys, e ∈ S.mixed.elements :=
      fun e he => by rw [he2, PyDict.mem_sortedKeys]; exact hfs e he
    rw [hf]
    simp only [ifa1kg, Option.getD_some]
    have hs := sum_formula S.mixed.elements hnod f hfn hsubf data.wtOf
    have hse := sum_formula S.mixed.elements hnod f hfn hsubf
      (fun x => if x = e then data.wtOf x else 0)
    rw [get?_sum f hfn data.wtOf e] at hse
    rw [hs]
    show _ = _ * (_ / formulaMass f data.wtOf)
    rw [← hse, Finset.sum_div, Finset.mul_sum]
    refine Finset.sum_congr rfl (fun j _ => ?_)
    have : (f.map (fun kv => kv.2 * data.wtOf kv.1)).sum = formulaMass f data.wtOf := rfl
    rw [this]
    split
    · ring
    · simp

/-- **C11.** Mixing streams: for every inflow and any number of mixed-in streams, each with its
own element list, whenever `Properties` accepts the compositions, `compute` in flow mode
conserves total mass, the mass of every chemical element and enthalpy. -/
theorem C11_flow_conservation (data : ThermoData) (infl : PyDict ℝ) (hin : infl.keys.Nodup)
    (flows : List (PyDict ℝ)) (pin pmix : Properties)
    (hpin : mkProperties data (some infl) = .ok pin)
    (hpmix : mkProperties data (some (mixedFlows infl flows)) = .ok pmix)
    (streams : List MixStream)
    (hstreams : List.Forall₂ (fun s d => mkProperties data (some d) = .ok s.thermo) streams flows)
    (hwt : ∀ e ∈ pmix.elements, data.wtOf e ≠ 0)
    (W h : ℝ) (comp : Fin pin.elements.length → ℝ)
    (hcomp : totalMass pin.elements data.wtOf comp ≠ 0)
    (hscomp : ∀ s ∈ streams, totalMass s.thermo.elements data.wtOf s.comp ≠ 0)
    (hW : W + (streams.map (fun s => s.W)).sum ≠ 0) :
    ConservesMix data.wtOf pmix.elements (flowCompute pin pmix W h comp streams) W h
      (elemMassFrac pin.elements data.wtOf comp)
      (streams.map (fun s =>
        (s.W, s.h, elemMassFrac s.thermo.elements data.wtOf s.comp))) := by
  obtain ⟨he1, hw1⟩ := mkProperties_ok hpin
  obtain ⟨he2, hw2⟩ := mkProperties_ok hpmix
  have hkeys : ∀ (fl : List (PyDict ℝ)) (d : PyDict ℝ) (e : String),
      (e ∈ d.keys ∨ ∃ f ∈ fl, e ∈ f.keys) → e ∈ (mixedFlows d fl).keys := by
    intro fl
    induction fl with
    | nil => intro d e; simp [mixedFlows]
    | cons f fl ih =>
      intro d e he
      refine ih (d.update f) e ?_
      rw [PyDict.mem_keys_update]
      simp only [List.mem_cons, exists_eq_or_imp] at he
      tauto
  have hsub' : ∀ e ∈ pin.elements, e ∈ pmix.elements := by
    intro e he
    rw [he1, PyDict.mem_sortedKeys] at he
    rw [he2, PyDict.mem_sortedKeys]; exact hkeys _ _ _ (.inl he)
  have hss : ∀ s ∈ streams, (∀ e ∈ s.thermo.elements, e ∈ pmix.elements) ∧
      ∀ i, s.thermo.elementWt i = data.wtOf (s.thermo.elements.get i) := by
    intro s hs
    obtain ⟨i, hi, rfl⟩ := List.getElem_of_mem hs
    have hlen := hstreams.length_eq
    have hthis := List.Forall₂.get hstreams (i := i) hi (by omega)
    simp only [List.get_eq_getElem] at hthis
    obtain ⟨h1, h2⟩ := mkProperties_ok hthis
    refine ⟨fun e he => ?_, h2⟩
    rw [h1, PyDict.mem_sortedKeys] at he
    rw [he2, PyDict.mem_sortedKeys]
    exact hkeys _ _ _ (.inr ⟨_, List.getElem_mem _, he⟩)
  refine fold_conserves data.wtOf pin pmix hw2 hsub' hwt W h comp hcomp streams
    (mixContribution pmix) (fun s => s.W) (fun s => s.h)
    (fun s => elemMassFrac s.thermo.elements data.wtOf s.comp) ?_ ?_ hW
  · intro s hs
    obtain ⟨hsub, hsw⟩ := hss s hs
    have hg := sum_idxDot s.thermo.elements pmix.elements hsub
      (fun i => s.comp i * s.thermo.elementWt i / (∑ k, s.comp k * s.thermo.elementWt k) * s.W)
      (fun _ => 1)
    simp only [mul_one] at hg
    rw [mixContribution, hg, ← Finset.sum_mul, ← Finset.sum_div, div_self, one_mul]
    simp only [hsw]
    exact hscomp s hs
  · intro s hs e
    obtain ⟨hsub, hsw⟩ := hss s hs
    have hg := sum_idxDot s.thermo.elements pmix.elements hsub
      (fun i => s.comp i * s.thermo.elementWt i / (∑ k, s.comp k * s.thermo.elementWt k) * s.W)
      (fun x => if x = e then 1 else 0)
    have : ∀ j, (if pmix.elements.get j = e then mixContribution pmix s j else 0)
        = mixContribution pmix s j * (if pmix.elements.get j = e then 1 else 0) := by
      intro j; split <;> simp
    simp only [this]
    rw [mixContribution, hg, elemMassFrac, totalMass, Finset.sum_div, Finset.mul_sum]
    refine Finset.sum_congr rfl (fun i _ => ?_)
    simp only [hsw]
    split
    · ring
    · simp

/-! ## Non-vacuity -/

/-- A small data set: hydrogen/oxygen. -/
noncomputable def demoData : ThermoData where
  products := [("H2", ⟨[("H", 2)], 2⟩), ("O2", ⟨[("O", 2)], 32⟩), ("H2O", ⟨[("H", 2), ("O", 1)], 18⟩)]
  elementWts := [("H", 1), ("O", 16)]
  reactants := [("H2", [("H", 2)])]

/-- Injecting hydrogen into oxygen: `setup` succeeds and the hypotheses of C10 hold. -/
example : ∃ S, reactantSetup demoData (some [("O", 1)]) ["fuel"] ["H2"] = .ok S
    ∧ S.mixed.elements = ["H", "O"] ∧ S.inflow.elements = ["O"]
    ∧ (∀ r ∈ ["H2"], ∀ f, demoData.reactants.get? r = some f →
      f.keys.Nodup ∧ formulaMass f demoData.wtOf ≠ 0)
    ∧ (∀ e ∈ S.mixed.elements, demoData.wtOf e ≠ 0) := by
  have hs1 : PyDict.sortedKeys ([("O", 1)] : PyDict ℝ) = ["O"] := by
    simp [PyDict.sortedKeys, PyDict.keys]
  have hs2 : PyDict.sortedKeys ([("O", 1), ("H", 2)] : PyDict ℝ) = ["H", "O"] := by
    have : PyDict.keys ([("O", 1), ("H", 2)] : PyDict ℝ) = ["O", "H"] := rfl
    rw [PyDict.sortedKeys, this]; decide +kernel
  have hH : demoData.wtOf "H" = 1 := by simp [ThermoData.wtOf, demoData, PyDict.get?, List.lookup]
  have hO : demoData.wtOf "O" = 16 := by
    simp [ThermoData.wtOf, demoData, PyDict.get?, List.lookup]
  have hm : mixedReactants demoData [("O", 1)] ["H2"] = .ok [("O", 1), ("H", 2)] := by
    simp [mixedReactants, demoData, PyDict.get?, List.lookup, PyDict.update, PyDict.setItem]
  have hv : validElements demoData = ["H", "O", "H", "O"] := rfl
  have hw : ∀ e ∈ ["H", "O"], (demoData.elementWts.get? e).isNone = false := by
    intro e he
    simp only [List.mem_cons, List.not_mem_nil, or_false] at he
    rcases he with rfl | rfl <;> simp [demoData, PyDict.get?, List.lookup]
  have hH' := hw "H" (by simp)
  have hO' := hw "O" (by simp)
  have hr : demoData.reactants.get? "H2" = some [("H", 2)] := by
    simp [demoData, PyDict.get?, List.lookup]
  obtain ⟨S, hS⟩ : ∃ S, reactantSetup demoData (some [("O", 1)]) ["fuel"] ["H2"] = .ok S := by
    simp [reactantSetup, hm, mkProperties, hs1, hs2, hv, hH', hO']
  obtain ⟨m, hm', hp1, hp2, -⟩ := reactantSetup_ok hS
  rw [hm] at hm'
  cases hm'
  have e1 := (mkProperties_ok hp1).1
  have e2 := (mkProperties_ok hp2).1
  rw [hs1] at e1
  rw [hs2] at e2
  refine ⟨S, hS, e2, e1, ?_, ?_⟩
  · intro r hr' f hf
    simp only [List.mem_singleton] at hr'
    subst hr'
    rw [hr] at hf
    cases hf
    simp [PyDict.keys, formulaMass, hH]
  · intro e he
    have : e ∈ ["H", "O"] := by rw [← e2]; exact he
    simp only [List.mem_cons, List.not_mem_nil, or_false] at this
    rcases this with rfl | rfl <;> simp [hH, hO]

/-- Mixing a hydrogen stream into oxygen: all three `Properties` calls of C11 succeed, with
different element lists. -/
example : ∃ pin pmix p₂, mkProperties demoData (some [("O", 1)]) = .ok pin
    ∧ mkProperties demoData (some (mixedFlows [("O", 1)] [[("H", 2)]])) = .ok pmix
    ∧ mkProperties demoData (some [("H", 2)]) = .ok p₂
    ∧ pin.elements = ["O"] ∧ pmix.elements = ["H", "O"] ∧ p₂.elements = ["H"] := by
  have hs1 : PyDict.sortedKeys ([("O", 1)] : PyDict ℝ) = ["O"] := by
    simp [PyDict.sortedKeys, PyDict.keys]
  have hs3 : PyDict.sortedKeys ([("H", 2)] : PyDict ℝ) = ["H"] := by
    simp [PyDict.sortedKeys, PyDict.keys]
  have hs2 : PyDict.sortedKeys ([("O", 1), ("H", 2)] : PyDict ℝ) = ["H", "O"] := by
    have : PyDict.keys ([("O", 1), ("H", 2)] : PyDict ℝ) = ["O", "H"] := rfl
    rw [PyDict.sortedKeys, this]; decide +kernel
  have hm : mixedFlows [("O", 1)] [[("H", 2)]] = [("O", 1), ("H", 2)] := by
    simp [mixedFlows, PyDict.update, PyDict.setItem]
  have hv : validElements demoData = ["H", "O", "H", "O"] := rfl
  have hH' : (demoData.elementWts.get? "H").isNone = false := by
    simp [demoData, PyDict.get?, List.lookup]
  have hO' : (demoData.elementWts.get? "O").isNone = false := by
    simp [demoData, PyDict.get?, List.lookup]
  obtain ⟨pin, h1⟩ : ∃ p, mkProperties demoData (some [("O", 1)]) = .ok p := by
    simp [mkProperties, hs1, hv, hO']
  obtain ⟨p2, h2⟩ : ∃ p, mkProperties demoData (some [("H", 2)]) = .ok p := by
    simp [mkProperties, hs3, hv, hH']
  obtain ⟨pmix, h3⟩ : ∃ p, mkProperties demoData (some [("O", 1), ("H", 2)]) = .ok p := by
    simp [mkProperties, hs2, hv, hO', hH']
  refine ⟨pin, pmix, p2, h1, by rw [hm]; exact h3, h2, ?_, ?_, ?_⟩
  · rw [(mkProperties_ok h1).1, hs1]
  · rw [(mkProperties_ok h3).1, hs2]
  · rw [(mkProperties_ok h2).1, hs3]

end PyCycle
