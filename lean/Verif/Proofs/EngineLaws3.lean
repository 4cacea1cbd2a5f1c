import Verif.Proofs.EngineLaws2

/-! # Laws of a duct with loss map, under the engine's names -/

namespace PyCycle.OM.Cycle.Solved
variable {c : Cycle} {E : Env} (h : c.Solved E)
include h
variable {x : String} {gas : (ℕ → ℝ) → TPGas} {d : Bool}

/-- A duct whose loss goes with a power of the Mach number at its entry. -/
theorem duct_map_laws {e : ℝ} (hm : ⟨x, duct gas d true e true, [], []⟩ ∈ c.members) {y : String × String}
    (j : E.Joined y (x, "Fl_I")) :
    E.num (x ++ "." ++ "Fl_O:tot:P") = E.num (y.1 ++ "." ++ (y.2 ++ ":" ++ "tot:P")) * (1 - E.num (x ++ "." ++ "dPqP"))
    ∧ E.num (x ++ "." ++ "Fl_O:stat:W") = E.num (y.1 ++ "." ++ (y.2 ++ ":" ++ "stat:W"))
    ∧ E.vec (x ++ "." ++ "Fl_O:tot:composition") = E.vec (y.1 ++ "." ++ (y.2 ++ ":" ++ "tot:composition"))
    ∧ (0 < E.num (x ++ "." ++ "Fl_I:stat:MN") →
        E.num (x ++ "." ++ "dPqP") = E.num (x ++ "." ++ "s_dPqP") * E.num (x ++ "." ++ "Fl_I:stat:MN") ^ e) := by
  have hc := h.member_plain hm rfl rfl (duct_closed _ _ _ _ _)
  obtain ⟨h1, -, h3, -, h5, h6, -⟩ := C50_duct gas d true e true _ hc
  exact ⟨h1.trans (congrArg (· * _) j.P), h5.trans j.W, h3.trans j.C, h6 rfl⟩

/-- A group among the components. -/
theorem other_group {g : Group} {name : String} (hs : g.asSub name [] [] ∈ c.others) {i : Iface}
    (I : i.Of (g.asSub name [] [])) {o : String} (ho : o ∈ g.wiring.outs) : ∃ V, g.Converged V
    ∧ (∀ n ∈ i.ins, V.num n = E.num (name ++ "." ++ n))
    ∧ (∀ q ∈ i.inlets, ∀ v ∈ linkInVars, V.num (q ++ ":" ++ v) = E.num (name ++ "." ++ (q ++ ":" ++ v)))
    ∧ (∀ n ∈ i.outs, E.num (name ++ "." ++ n) = V.num n) ∧ E.num (name ++ "." ++ o) = V.num o := by
  obtain ⟨V, hV, hi, ho'⟩ := h.other hs
  exact ⟨V, hV, fun n hn => (hi n (I.ins n hn).1).1, fun q hq v hv => (hi _ (I.inlets q hq v hv).1).1,
    fun n hn => (ho' n (I.outs n hn)).1, (ho' o ho).1⟩

end PyCycle.OM.Cycle.Solved
