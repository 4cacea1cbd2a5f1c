import Verif.Proofs.Redesign
import Verif.Proofs.Seen

/-! # Components speak of their declared variables -/

namespace PyCycle.OM

/-- Closes locality of a component with literally listed variables. -/
macro "local_sub" : tactic => `(tactic| (
  intro i i' o o' hi ho e
  simp only [List.forall_mem_cons, List.not_mem_nil, false_implies, implies_true, and_true] at hi ho e ⊢
  simp_all only [and_self]))

theorem flowIn_local (n f : String) (pI pO) : (flowIn n f pI pO).Local := fun _ _ _ _ _ _ _ => trivial

theorem passThrough_local (n i o : String) : (passThrough n i o).Local := by
  intro a a' b b' hi ho e
  simp only [passThrough] at *
  rw [← (ho o (by simp)).1, ← (hi i (by simp)).1]; exact e

theorem thermo_local (gas n m fl pI pO) : (thermo gas n m fl pI pO).Local := by
  rintro i i' o o' hi ho ⟨val, h1, h2, h3, h4, h5, h6⟩
  have hins : ∀ v ∈ thermoIns m, i.num (nm v) = i'.num (nm v) ∧ i.vec (nm v) = i'.vec (nm v) :=
    fun v hv => hi _ (List.mem_map_of_mem hv)
  have hc : i.vec "composition" = i'.vec "composition" := (hins .composition (by cases m <;> decide)).2
  have ho1 : ∀ q ∈ thermoOuts m, o.num (nm q.2.2) = o'.num (nm q.2.2) := fun q hq =>
    (ho _ (List.mem_append_left _ (List.mem_append_left _ (List.mem_map.mpr ⟨q, hq, rfl⟩)))).1
  have ho2 : ∀ v ∈ TG.flowVars, o.num (fl ++ ":" ++ nm v) = o'.num (fl ++ ":" ++ nm v)
      ∧ o.vec (fl ++ ":" ++ nm v) = o'.vec (fl ++ ":" ++ nm v) := fun v hv =>
    ho _ (List.mem_append_left _ (List.mem_append_right _ (List.mem_map.mpr ⟨v, hv, rfl⟩)))
  have ho3 : isStat m = true → ∀ v ∈ statVars, o.num (fl ++ ":" ++ nm v) = o'.num (fl ++ ":" ++ nm v) := fun hm v hv =>
    (ho _ (List.mem_append_right _ (by rw [if_pos hm]; exact List.mem_map.mpr ⟨v, hv, rfl⟩))).1
  refine ⟨val, ?_, ?_, ?_, ?_, ?_, ?_⟩
  · rw [← hc]; exact h1
  · intro v hv hne; rw [← (hins v hv).1]; exact h2 v hv hne
  · intro q hq; rw [← ho1 q hq]; exact h3 q hq
  · intro v hv hne; rw [← (ho2 v hv).1]; exact h4 v hv hne
  · intro hm v hv; rw [← ho3 hm v hv]; exact h5 hm v hv
  · intro hm
    have := (ho2 .composition (by decide)).2
    simp only [nm] at this
    rw [← this, ← hc]; exact h6 hm

theorem pressureLoss_local : pressureLoss.Local := by unfold pressureLoss; local_sub

/-- The data of a reactant mix are about the stream `mix`, the default `mix_names` (what `setup` makes of it,
`Adder.named_of_setup`). -/
def Adder.Named : Adder → Prop
  | .cea S => ∀ s ∈ S.streams, s.1 = "mix"
  | .tab _ _ => True

theorem Adder.named_of_setup {data : ThermoData} {infl : Option (PyDict ℝ)} {comps : List String} {S : ReactantAdd}
    (h : reactantSetup data infl ["mix"] comps = .ok S) : (Adder.cea S).Named := by
  intro s hs
  unfold reactantSetup at h
  split at h
  · cases h
  · split at h
    · cases h
    · split at h
      · cases h
      · cases h
      · cases h
        obtain ⟨x, hx, rfl⟩ := List.mem_map.mp hs
        have := (List.of_mem_zip hx).1
        simpa using this

theorem reactantCompute_congr {S : ReactantAdd} (hS : ∀ s ∈ S.streams, s.1 = "mix") (W h : ℝ) (c) {r r' q q' : String → ℝ}
    (hr : r "mix" = r' "mix") (hq : q "mix" = q' "mix") : reactantCompute S W h c r q = reactantCompute S W h c r' q' := by
  unfold reactantCompute
  congr 1
  generalize addStart S.inflow S.mixed W h c = z
  have : ∀ l : List (String × (Fin S.mixed.elements.length → ℝ)), (∀ s ∈ l, s.1 = "mix") → ∀ z,
      l.foldl (fun a s => ({ b0 := fun j => a.b0 j + s.2 j * reactantW W r s.1
                             hW := a.hW + q s.1 * reactantW W r s.1
                             W := a.W + reactantW W r s.1 } : AddAcc _)) z
      = l.foldl (fun a s => ({ b0 := fun j => a.b0 j + s.2 j * reactantW W r' s.1
                               hW := a.hW + q' s.1 * reactantW W r' s.1
                               W := a.W + reactantW W r' s.1 } : AddAcc _)) z := by
    intro l
    induction l with
    | nil => intro _ _; rfl
    | cons x l ih =>
      intro hl z
      have e := hl x (by simp)
      simp only [List.foldl_cons]
      rw [ih (fun s hs => hl s (by simp [hs]))]
      simp only [reactantW, e, hr, hq]
  exact this _ hS z

theorem reactantSub_local {a} (ha : Adder.Named a) (n pI pO) : (reactantSub a n pI pO).Local := by
  intro i i' o o' hi ho e
  simp only [reactantSub, List.forall_mem_cons, List.not_mem_nil, false_implies, implies_true, and_true] at hi ho e ⊢
  obtain ⟨⟨a1, -⟩, ⟨a2, -⟩, ⟨-, a3⟩, ⟨a4, -⟩, a5, -⟩ := hi
  obtain ⟨⟨b1, -⟩, ⟨b2, -⟩, ⟨b3, -⟩, -, b4⟩ := ho
  cases a with
  | cea S =>
    simp only [← a1, ← a2, ← a3, ← b1, ← b2, ← b3, ← b4] at e ⊢
    rw [reactantCompute_congr ha _ _ _ (r' := fun n => i'.num (n ++ ":ratio")) (q' := fun n => i'.num (n ++ ":h"))
      (by simpa using a5) (by simpa using a4)] at e
    have : reactantW (i.num "Fl_I:stat:W") (fun n => i.num (n ++ ":ratio")) "mix"
        = reactantW (i.num "Fl_I:stat:W") (fun n => i'.num (n ++ ":ratio")) "mix" := by
      simp only [reactantW, String.reduceAppend, a5]
    rw [this] at e
    exact e
  | tab n idx =>
    simp only [← a1, ← a2, ← a3, ← a4, ← a5, ← b1, ← b2, ← b3, ← b4] at e ⊢
    exact e

theorem flowAddSub_local (a n pI pO) : (flowAddSub a n pI pO).Local := by
  intro i i' o o' hi ho e
  simp only [flowAddSub, List.forall_mem_cons, List.not_mem_nil, false_implies, implies_true, and_true] at hi ho e ⊢
  obtain ⟨⟨a1, -⟩, ⟨a2, -⟩, ⟨-, a3⟩, ⟨a4, -⟩, ⟨-, a5⟩, a6, -⟩ := hi
  obtain ⟨⟨b1, -⟩, ⟨b2, -⟩, -, b4⟩ := ho
  cases a <;>
  · simp only [← a1, ← a2, ← a3, ← a4, ← a5, ← a6, ← b1, ← b2, ← b4] at e ⊢
    exact e

theorem areaSumSub_local (pI pO) : (areaSumSub pI pO).Local := by unfold areaSumSub; local_sub

theorem mixImpulseSub_local (pI) : (mixImpulseSub pI).Local := by
  intro i i' o o' hi ho e
  simp only [mixImpulseSub, List.forall_mem_cons, List.not_mem_nil, false_implies, implies_true, and_true] at hi ho e ⊢
  rw [← ho.1, e]
  congr 1
  funext x
  have k : ∀ k : Fin 2, k = 0 ∨ k = 1 := by decide
  cases x <;> (rename_i k'; rcases k k' with rfl | rfl <;> simp [mixName, hi])

theorem bleedCalcsSub_local (bs) : (bleedCalcsSub bs).Local := by
  intro i i' o o' hi ho e
  simp only [bleedCalcsSub] at hi ho e ⊢
  have hx : (fun j : Bleed.I bs.length => match j with | .W_in => i.num "W_in" | .frac k => i.num (bs[k] ++ ":frac_W"))
      = fun j => match j with | .W_in => i'.num "W_in" | .frac k => i'.num (bs[k] ++ ":frac_W") := by
    funext j
    cases j with
    | W_in => exact (hi "W_in" (by simp)).1
    | frac k => exact (hi _ (List.mem_append_right _ (List.mem_flatMap.mpr ⟨bs[k], by simp, by simp⟩))).1
  refine ⟨?_, fun k => ?_⟩
  · rw [← (ho "W_out" (by simp)).1]; exact e.1.trans (congrArg (fun x => Bleed.compute x .W_out) hx)
  · rw [← (ho _ (List.mem_append_right _ (List.mem_flatMap.mpr ⟨bs[k], by simp, by simp⟩))).1]
    exact (e.2 k).trans (congrArg (fun x => Bleed.compute x (.W k)) hx)

theorem bldsPwrSub_local (bs) : (bldsPwrSub bs).Local := by
  intro i i' o o' hi ho e
  simp only [bldsPwrSub] at hi ho e ⊢
  have hb : ∀ k : Fin bs.length, ∀ v ∈ [bs[k] ++ ":frac_W", bs[k] ++ ":frac_P", bs[k] ++ ":frac_work"], i.num v = i'.num v :=
    fun k v hv => (hi v (List.mem_append_right _ (List.mem_flatMap.mpr ⟨bs[k], by simp, hv⟩))).1
  have hb' : ∀ k : Fin bs.length, ∀ v ∈ [bs[k] ++ ":stat:W", bs[k] ++ ":Pt", bs[k] ++ ":ht"], o.num v = o'.num v :=
    fun k v hv => (ho v (List.mem_append_right _ (List.mem_flatMap.mpr ⟨bs[k], by simp, hv⟩))).1
  have hh : ∀ v ∈ ["W_in", "ht_out", "ht_in", "Pt_out", "Pt_in", "Nmech"], i.num v = i'.num v :=
    fun v hv => (hi v (List.mem_append_left _ hv)).1
  have hx : (fun j : Comp.BI bs.length => match j with
        | .W_in => i.num "W_in" | .ht_out => i.num "ht_out" | .ht_in => i.num "ht_in"
        | .Pt_out => i.num "Pt_out" | .Pt_in => i.num "Pt_in" | .Nmech => i.num "Nmech"
        | .frac_W k => i.num (bs[k] ++ ":frac_W") | .frac_P k => i.num (bs[k] ++ ":frac_P")
        | .frac_work k => i.num (bs[k] ++ ":frac_work"))
      = fun j => match j with
        | .W_in => i'.num "W_in" | .ht_out => i'.num "ht_out" | .ht_in => i'.num "ht_in"
        | .Pt_out => i'.num "Pt_out" | .Pt_in => i'.num "Pt_in" | .Nmech => i'.num "Nmech"
        | .frac_W k => i'.num (bs[k] ++ ":frac_W") | .frac_P k => i'.num (bs[k] ++ ":frac_P")
        | .frac_work k => i'.num (bs[k] ++ ":frac_work") := by
    funext j
    cases j
    all_goals first
      | exact hh _ (by decide)
      | (rename_i k; first
          | exact hb k _ (List.mem_cons_self ..)
          | exact hb k _ (List.mem_cons_of_mem _ (List.mem_cons_self ..))
          | exact hb k _ (List.mem_cons_of_mem _ (List.mem_cons_of_mem _ (List.mem_cons_self ..))))
  have tr := fun o => congrArg (fun x => Comp.blds x o) hx
  obtain ⟨e1, e2, e3, e4⟩ := e
  refine ⟨?_, ?_, ?_, fun k => ⟨?_, ?_, ?_⟩⟩
  · rw [← (ho "W_out" (by simp)).1]; exact e1.trans (tr _)
  · rw [← (ho "power" (by simp)).1]; exact e2.trans (tr _)
  · rw [← (ho "trq" (by simp)).1]; exact e3.trans (tr _)
  · rw [← hb' k (bs[k] ++ ":stat:W") (by simp)]; exact (e4 k).1.trans (tr _)
  · rw [← hb' k (bs[k] ++ ":Pt") (by simp)]; exact (e4 k).2.1.trans (tr _)
  · rw [← hb' k (bs[k] ++ ":ht") (by simp)]; exact (e4 k).2.2.trans (tr _)

theorem bldPressSub_local (bs) : (bldPressSub bs).Local := by
  intro i i' o o' hi ho e
  simp only [bldPressSub] at hi ho e ⊢
  have hb : ∀ k : Fin bs.length, ∀ v ∈ [bs[k] ++ ":frac_P", bs[k] ++ ":W"], i.num v = i'.num v :=
    fun k v hv => (hi v (List.mem_append_right _ (List.mem_flatMap.mpr ⟨bs[k], by simp, hv⟩))).1
  have hh : ∀ v ∈ ["Pt_in", "Pt_out"], i.num v = i'.num v := fun v hv => (hi v (List.mem_append_left _ hv)).1
  intro k
  rw [← (ho _ (List.mem_flatMap.mpr ⟨bs[k], by simp, by simp⟩)).1, e k]
  congr 1
  funext j
  cases j
  all_goals first
    | exact hh _ (by decide)
    | (rename_i k; first
        | exact hb k _ (List.mem_cons_self ..)
        | exact hb k _ (List.mem_cons_of_mem _ (List.mem_cons_self ..)))

theorem bldAddSub_local (a bs) : (bldAddSub a bs).Local := by
  intro i i' o o' hi ho e
  simp only [bldAddSub] at hi ho e ⊢
  have hb : ∀ b ∈ bs, ∀ v ∈ [b ++ ":h", b ++ ":composition", b ++ ":W"], i.num v = i'.num v ∧ i.vec v = i'.vec v :=
    fun b hb v hv => hi v (List.mem_append_right _ (List.mem_flatMap.mpr ⟨b, hb, hv⟩))
  have a1 := (hi "Fl_I:stat:W" (by simp)).1
  have a2 := (hi "Fl_I:tot:h" (by simp)).1
  have a3 := (hi "Fl_I:tot:composition" (by simp)).2
  have b1 := (ho "mass_avg_h" (by simp)).1
  have b2 := (ho "Wout" (by simp)).1
  have b3 := (ho "composition_out" (by simp)).2
  cases a with
  | cea pin pmix pb =>
    have : (bs.map fun b => (⟨pb b, i.num (b ++ ":W"), i.num (b ++ ":h"), fun k => i.vec (b ++ ":composition") k⟩ : MixStream))
        = bs.map fun b => ⟨pb b, i'.num (b ++ ":W"), i'.num (b ++ ":h"), fun k => i'.vec (b ++ ":composition") k⟩ := by
      refine List.map_congr_left fun b hbm => ?_
      rw [(hb b hbm (b ++ ":W") (by simp)).1, (hb b hbm (b ++ ":h") (by simp)).1,
        (hb b hbm (b ++ ":composition") (by simp)).2]
    simp only [a1, a2, a3, b1, b2, b3, this] at e ⊢
    exact e
  | tab n =>
    have : (bs.map fun b => ((⟨fun k : Fin n => i.vec (b ++ ":composition") k, i.num (b ++ ":W"), i.num (b ++ ":h")⟩) : TabStream n))
        = bs.map fun b => ⟨fun k => i'.vec (b ++ ":composition") k, i'.num (b ++ ":W"), i'.num (b ++ ":h")⟩ := by
      refine List.map_congr_left fun b hbm => ?_
      rw [(hb b hbm (b ++ ":W") (by simp)).1, (hb b hbm (b ++ ":h") (by simp)).1,
        (hb b hbm (b ++ ":composition") (by simp)).2]
    simp only [a1, a2, a3, b1, b2, b3, this] at e ⊢
    exact e

theorem pwrTurbSub_local (bs) : (pwrTurbSub bs).Local := by
  intro i i' o o' hi ho e
  simp only [pwrTurbSub] at hi ho e ⊢
  have hb : ∀ k : Fin bs.length, ∀ v ∈ [bs[k] ++ ":W", bs[k] ++ ":ht", bs[k] ++ ":ht_ideal"], i.num v = i'.num v :=
    fun k v hv => (hi v (List.mem_append_right _ (List.mem_flatMap.mpr ⟨bs[k], by simp, hv⟩))).1
  have hh : ∀ v ∈ ["W_in", "W_out", "ht_in", "ht_out_ideal", "eff", "Nmech"], i.num v = i'.num v :=
    fun v hv => (hi v (List.mem_append_left _ hv)).1
  have hx : (fun j : Turb.EI bs.length => match j with
        | .W_in => i.num "W_in" | .W_out => i.num "W_out" | .ht_in => i.num "ht_in"
        | .ht_out_ideal => i.num "ht_out_ideal" | .eff => i.num "eff" | .Nmech => i.num "Nmech"
        | .W k => i.num (bs[k] ++ ":W") | .ht k => i.num (bs[k] ++ ":ht")
        | .ht_ideal k => i.num (bs[k] ++ ":ht_ideal"))
      = fun j => match j with
        | .W_in => i'.num "W_in" | .W_out => i'.num "W_out" | .ht_in => i'.num "ht_in"
        | .ht_out_ideal => i'.num "ht_out_ideal" | .eff => i'.num "eff" | .Nmech => i'.num "Nmech"
        | .W k => i'.num (bs[k] ++ ":W") | .ht k => i'.num (bs[k] ++ ":ht")
        | .ht_ideal k => i'.num (bs[k] ++ ":ht_ideal") := by
    funext j
    cases j
    all_goals first
      | exact hh _ (by decide)
      | (rename_i k; first
          | exact hb k _ (List.mem_cons_self ..)
          | exact hb k _ (List.mem_cons_of_mem _ (List.mem_cons_self ..))
          | exact hb k _ (List.mem_cons_of_mem _ (List.mem_cons_of_mem _ (List.mem_cons_self ..))))
  have tr := fun o => congrArg (fun x => Turb.enthPower x o) hx
  obtain ⟨e1, e2, e3, e4⟩ := e
  refine ⟨?_, ?_, ?_, ?_⟩
  · rw [← (ho "ht_out_b4bld" (by simp)).1]; exact e1.trans (tr _)
  · rw [← (ho "ht_out" (by simp)).1]; exact e2.trans (tr _)
  · rw [← (ho "power" (by simp)).1]; exact e3.trans (tr _)
  · rw [← (ho "trq" (by simp)).1]; exact e4.trans (tr _)

theorem compressorHead_local (gas m d) : ∀ s ∈ compressorHead gas m d, s.Local := by
  simp only [compressorHead, List.forall_mem_cons]
  refine ⟨flowIn_local _ _ _ _, ?_, Group.asSub_local _ _ _ _, ?_, thermo_local _ _ _ _ _ _, ?_, thermo_local _ _ _ _ _ _, ?_, by simp⟩
  · local_sub
  · local_sub
  · local_sub
  · local_sub

theorem turbineHead_local (gas m d) : ∀ s ∈ turbineHead gas m d, s.Local := by
  simp only [turbineHead, List.forall_mem_cons]
  refine ⟨flowIn_local _ _ _ _, ?_, ?_, ?_, thermo_local _ _ _ _ _ _, by simp⟩
  · local_sub
  · cases d <;> exact Group.asSub_local _ _ _ _
  · local_sub

/-- Closes `s ∈ g.subs ∧ s.Local` for a subsystem listed literally. -/
macro "shared" : tactic => `(tactic| (
  refine Or.inr (Or.inl ⟨by simp, ?_⟩)
  first
    | exact flowIn_local _ _ _ _
    | exact thermo_local _ _ _ _ _ _
    | exact pressureLoss_local
    | exact passThrough_local _ _ _
    | exact flowAddSub_local _ _ _ _
    | exact mixImpulseSub_local _
    | local_sub))

end PyCycle.OM
