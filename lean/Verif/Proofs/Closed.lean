import Verif.Proofs.Locals
import Verif.Proofs.TurbojetNames

/-! # Elements speak only of what they show

All components of an element are local, so whether an element is converged depends only on its inputs and outputs. -/

namespace PyCycle.OM

/-- All components speak of their declared variables only. -/
def Group.Closed (g : Group) : Prop := ∀ s ∈ g.subs, s.Local

/-- Convergence is a matter of inputs and outputs. -/
theorem Group.Closed.converged {g : Group} (hl : g.Closed) {V V' : Env}
    (h : ∀ n, n ∈ g.wiring.externals ∨ n ∈ g.wiring.outs → V.num n = V'.num n ∧ V.vec n = V'.vec n)
    (hc : g.Converged V) : g.Converged V' := by
  intro s hs
  refine hl s hs _ _ _ _ (fun v hv => ?_) (fun v hv => ?_) (hc s hs)
  · exact h _ (Wiring.src_known (Group.mem_ins hs hv)).symm
  · exact h _ (Or.inr (Group.mem_outs hs hv))

/-- Locality of a listed component. -/
macro "local_one" : tactic => `(tactic| first
    | exact flowIn_local _ _ _ _
    | exact thermo_local _ _ _ _ _ _
    | exact pressureLoss_local
    | exact passThrough_local _ _ _
    | exact flowAddSub_local _ _ _ _
    | exact mixImpulseSub_local _
    | exact areaSumSub_local _ _
    | exact balanceComp_local _ _ _
    | exact Group.asSub_local _ _ _ _
    | local_sub)

variable (gas : (ℕ → ℝ) → TPGas)

theorem flight_closed (r) {ratio : String} : (flightConditions gas r ratio).Closed := by
  simp only [Group.Closed, flightConditions, List.forall_mem_cons]
  refine ⟨?_, Group.asSub_local _ _ _ _, balanceComp_local _ _ _, by simp⟩
  unfold ambientSub; local_sub

theorem inlet_closed (d s : Bool) : (inlet gas d s).Closed := by
  cases d <;> cases s <;>
  · simp only [Group.Closed, inlet, List.forall_mem_cons, List.forall_mem_append, if_true, if_false, Bool.false_eq_true]
    refine ⟨⟨?_, ?_, ?_, by simp⟩, ?_, by simp⟩ <;> local_one

theorem duct_closed (d s : Bool) (x : ℝ) (m : Bool) : (duct gas d s x m).Closed := by
  cases d <;> cases s <;> cases m <;>
  · simp only [Group.Closed, duct, List.forall_mem_cons, List.forall_mem_append, if_true, if_false, Bool.false_eq_true,
      List.not_mem_nil, false_implies, implies_true, and_true]
    repeat' apply And.intro
    all_goals local_one

theorem combustor_closed {a : Adder} (ha : a.Named) (d s : Bool) : (combustor gas a d s).Closed := by
  cases d <;> cases s <;>
  · simp only [Group.Closed, combustor, List.forall_mem_cons, List.forall_mem_append, if_true, if_false, Bool.false_eq_true]
    refine ⟨⟨?_, reactantSub_local ha _ _ _, ?_, ?_, by simp⟩, ?_, by simp⟩ <;> local_one

theorem splitter_closed (d s : Bool) : (splitter gas d s).Closed := by
  cases d <;> cases s <;>
  · simp only [Group.Closed, splitter, List.forall_mem_cons, List.forall_mem_append, if_true, if_false, Bool.false_eq_true]
    refine ⟨⟨?_, ?_, ?_, ?_, by simp⟩, ?_, ?_, by simp⟩ <;> local_one

theorem mixer_closed (a : FlowAdder) (f d : Bool) : (mixer gas a f d).Closed := by
  cases d <;>
  · simp only [Group.Closed, mixer, List.forall_mem_cons, List.forall_mem_append, if_true, if_false, Bool.false_eq_true,
      List.not_mem_nil, false_implies, implies_true, and_true]
    repeat' apply And.intro
    all_goals local_one

theorem muxSub_local (k) : (muxSub k).Local := by
  intro i i' o o' hi ho e
  simp only [muxSub] at hi ho e ⊢
  have p1 : ∀ p ∈ prAll, i.num ("Ps:" ++ prName p) = i'.num ("Ps:" ++ prName p) := fun p hp =>
    (hi _ (List.mem_append_left _ (List.mem_append_right _ (List.mem_map.mpr ⟨p, hp, rfl⟩)))).1
  have p2 : ∀ p ∈ prAll, i.num ("MN:" ++ prName p) = i'.num ("MN:" ++ prName p) := fun p hp =>
    (hi _ (List.mem_append_right _ (List.mem_map.mpr ⟨p, hp, rfl⟩))).1
  have all : ∀ p : Noz.Pr, p ∈ prAll := by intro p; cases p <;> decide
  have hx : (fun j : Noz.MI => match j with
        | .Ps_calc => i.num "Ps_calc" | .S => i.num "S"
        | .ps p => i.num ("Ps:" ++ prName p) | .mn p => i.num ("MN:" ++ prName p))
      = fun j => match j with
        | .Ps_calc => i'.num "Ps_calc" | .S => i'.num "S"
        | .ps p => i'.num ("Ps:" ++ prName p) | .mn p => i'.num ("MN:" ++ prName p) := by
    funext j
    cases j with
    | Ps_calc => exact (hi "Ps_calc" (by simp)).1
    | S => exact (hi "S" (by simp)).1
    | ps p => exact p1 p (all p)
    | mn p => exact p2 p (all p)
  have tr := fun o => congrArg (fun x => Noz.mux k x o) hx
  obtain ⟨e1, e2, e3, e4, e5⟩ := e
  refine ⟨?_, fun p hp => ?_, ?_, fun p hp => ?_, ?_⟩
  · rw [← (ho "choked" (by simp)).1]; exact e1.trans (tr _)
  · rw [← (ho ("Throat:stat:" ++ prName p) (by
      refine List.mem_append_left _ (List.mem_append_left _ (List.mem_append_left _ (List.mem_append_right _ ?_)))
      exact List.mem_map.mpr ⟨p, hp, rfl⟩)).1]
    exact (e2 p hp).trans (tr _)
  · rw [← (ho "Throat:stat:S" (by simp)).1]; exact e3.trans (tr _)
  · rw [← (ho ("Fl_O:stat:" ++ prName p) (by
      refine List.mem_append_left _ (List.mem_append_right _ ?_)
      exact List.mem_map.mpr ⟨p, hp, rfl⟩)).1]
    exact (e4 p hp).trans (tr _)
  · rw [← (ho "Fl_O:stat:S" (by simp)).1]; exact e5.trans (tr _)

theorem perfSub_local (l) : (perfSub l).Local := by
  intro i i' o o' hi ho e
  simp only [perfSub] at hi ho e ⊢
  have h1 := (ho "Fg_ideal" (by simp)).1
  have h2 := (ho "Fg" (by simp)).1
  cases l
  all_goals
    simp only [perfIns, List.forall_mem_cons, List.not_mem_nil, false_implies, implies_true, and_true] at hi
    simp only [Noz.perf] at e ⊢
    simp_all only [and_self]

theorem nozzle_closed (k : Noz.NozzType) (l : Noz.Loss) : (nozzle gas k l).Closed := by
  simp only [Group.Closed, nozzle, List.forall_mem_cons]
  refine ⟨?_, ?_, ?_, ?_, ?_, ?_, ?_, ?_, muxSub_local _, perfSub_local _, by simp⟩
  all_goals local_one

theorem bleedOut_closed (bs : List String) (d s : Bool) : (bleedOut gas bs d s).Closed := by
  have m : ∀ t ∈ bs.map (extractFlow gas), t.Local := by
    intro t ht; obtain ⟨b, -, rfl⟩ := List.mem_map.mp ht; exact thermo_local _ _ _ _ _ _
  cases d <;> cases s <;>
  · simp only [Group.Closed, bleedOut, List.forall_mem_cons, List.forall_mem_append, if_true, if_false, Bool.false_eq_true]
    refine ⟨⟨⟨⟨?_, by simp⟩, bleedCalcsSub_local _, by simp⟩, m⟩, ?_, ?_, by simp⟩ <;> local_one

theorem compressor_closed (m : Map.CMap) (bs : List String) (d s : Bool) : (compressor gas m bs d s).Closed := by
  have hm : ∀ t ∈ bs.map (bleedFlow gas), t.Local := by
    intro t ht; obtain ⟨b, -, rfl⟩ := List.mem_map.mp ht; exact thermo_local _ _ _ _ _ _
  cases d <;> cases s <;>
  · simp only [Group.Closed, compressor, List.forall_mem_cons, List.forall_mem_append, if_true, if_false, Bool.false_eq_true]
    refine ⟨⟨⟨compressorHead_local _ _ _, bldsPwrSub_local _, by simp⟩, hm⟩, ?_, by simp⟩; local_one

theorem turbine_closed (gb : String → (ℕ → ℝ) → TPGas) (m : Map.TMap) (a : BleedAdder) (bs : List String) (d s : Bool) :
    (turbine gas gb m a bs d s).Closed := by
  have h1 : ∀ t ∈ bs.map bleedPort, t.Local := by
    intro t ht; obtain ⟨b, -, rfl⟩ := List.mem_map.mp ht; exact flowIn_local _ _ _ _
  have h2 : ∀ t ∈ bs.flatMap (fun b => bleedIn (gb b) b), t.Local := by
    intro t ht; obtain ⟨b, -, hb⟩ := List.mem_flatMap.mp ht
    simp only [bleedIn, List.mem_cons, List.not_mem_nil, or_false] at hb
    rcases hb with rfl | rfl <;> exact thermo_local _ _ _ _ _ _
  cases d <;> cases s <;>
  · simp only [Group.Closed, turbine, turbineTail, List.forall_mem_cons, List.forall_mem_append, if_true, if_false,
      Bool.false_eq_true]
    refine ⟨⟨⟨⟨⟨turbineHead_local _ _ _, h1⟩, bldPressSub_local _, bldAddSub_local _ _, by simp⟩, h2⟩,
      pwrTurbSub_local _, by simp⟩, ?_, ?_, ?_, ?_, by simp⟩ <;> local_one

end PyCycle.OM
