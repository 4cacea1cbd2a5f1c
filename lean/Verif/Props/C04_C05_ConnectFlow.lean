import Verif.Model.ConnectFlow
import Mathlib.Data.List.Nodup

/-! # C04, C05: what `pyc_connect_flow` connects, and which element a port belongs to -/

namespace PyCycle
namespace Spec

/-- Total-state variables of a flow station, besides the composition. -/
def totalVars : List String :=
  ["tot:Cp", "tot:Cv", "tot:P", "tot:R", "tot:S", "tot:T", "tot:gamma", "tot:h", "tot:rho"]
/-- Static-state variables of a flow station carried by a connection, besides
composition and mass flow. -/
def staticVars : List String :=
  ["stat:Cp", "stat:Cv", "stat:MN", "stat:P", "stat:S", "stat:T", "stat:V", "stat:Vsonic",
   "stat:area", "stat:gamma", "stat:h", "stat:rho"]

end Spec
open Spec

/-- C04. A pair of variables is connected by `pyc_connect_flow(src, tgt, ...)` iff it is a
composition pair (always), or a same-named pair of a group whose flag is on. -/
theorem C04_connections (src tgt : Key) (cs ct cw : Bool) (x y : FlowVar) :
    (x, y) ∈ connectFlowCalls src tgt cs ct cw ↔
      x.port = src ∧ y.port = tgt ∧
      ((x.var = "tot:composition" ∧ (y.var = "tot:composition" ∨ y.var = "stat:composition")) ∨
       (x.var = y.var ∧
         ((ct = true ∧ x.var ∈ totalVars) ∨ (cs = true ∧ x.var ∈ staticVars) ∨
          (cw = true ∧ x.var = "stat:W")))) := by
  obtain ⟨xp, xv⟩ := x
  obtain ⟨yp, yv⟩ := y
  have hsame : ∀ vs, ((⟨xp, xv⟩, ⟨yp, yv⟩) : FlowVar × FlowVar) ∈ connectSame src tgt vs ↔
      xp = src ∧ yp = tgt ∧ xv = yv ∧ xv ∈ vs := by
    intro vs
    simp only [connectSame, List.mem_map, Prod.mk.injEq, FlowVar.mk.injEq]
    constructor
    · rintro ⟨v, hv, ⟨rfl, rfl⟩, rfl, rfl⟩; exact ⟨rfl, rfl, rfl, hv⟩
    · rintro ⟨rfl, rfl, rfl, hv⟩; exact ⟨xv, hv, ⟨rfl, rfl⟩, rfl, rfl⟩
  have ht : xv ∈ ["tot:h", "tot:T", "tot:P", "tot:S", "tot:rho", "tot:gamma", "tot:Cp",
      "tot:Cv", "tot:R"] ↔ xv ∈ totalVars :=
    List.Perm.mem_iff (by decide +kernel)
  have hs : (xv ∈ ["stat:V", "stat:Vsonic"] ∨
      xv ∈ ["stat:Cp", "stat:Cv", "stat:MN", "stat:P", "stat:S", "stat:T", "stat:area",
      "stat:gamma", "stat:h", "stat:rho"]) ↔ xv ∈ staticVars := by
    rw [← List.mem_append]
    exact List.Perm.mem_iff (by decide +kernel)
  have hT : ((⟨xp, xv⟩, ⟨yp, yv⟩) : FlowVar × FlowVar) ∈ (if ct = true then
    connectSame src tgt ["tot:h", "tot:T", "tot:P", "tot:S", "tot:rho", "tot:gamma", "tot:Cp",
      "tot:Cv", "tot:R"] else []) ↔ ct = true ∧ xp = src ∧ yp = tgt ∧ xv = yv ∧ xv ∈ totalVars := by
    cases ct
    · simp
    · simp only [if_true, hsame, ht, true_and]
  have hS : ((⟨xp, xv⟩, ⟨yp, yv⟩) : FlowVar × FlowVar) ∈ (if cs = true then
    connectSame src tgt ["stat:V", "stat:Vsonic"] ++
    connectSame src tgt ["stat:Cp", "stat:Cv", "stat:MN", "stat:P", "stat:S", "stat:T", "stat:area",
      "stat:gamma", "stat:h", "stat:rho"] else []) ↔
      cs = true ∧ xp = src ∧ yp = tgt ∧ xv = yv ∧ xv ∈ staticVars := by
    cases cs
    · simp
    · simp only [if_true, List.mem_append, hsame, ← hs, true_and]
      tauto
  have hW : ((⟨xp, xv⟩, ⟨yp, yv⟩) : FlowVar × FlowVar) ∈ (if cw = true then
    connectSame src tgt ["stat:W"] else []) ↔
      cw = true ∧ xp = src ∧ yp = tgt ∧ xv = yv ∧ xv = "stat:W" := by
    cases cw
    · simp
    · simp only [if_true, hsame, List.mem_singleton, true_and]
  simp only [connectFlowCalls, List.mem_append, hT, hS, hW, List.mem_cons, List.not_mem_nil,
    or_false, Prod.mk.injEq, FlowVar.mk.injEq]
  constructor
  · clear hsame hT hS hW
    rintro ((((⟨⟨rfl, h⟩, rfl, h'⟩ | ⟨⟨rfl, h⟩, rfl, h'⟩) | ⟨h, rfl, rfl, h', h''⟩) |
      ⟨h, rfl, rfl, h', h''⟩) | ⟨h, rfl, rfl, h', h''⟩)
    · exact ⟨rfl, rfl, Or.inl ⟨h, Or.inl h'⟩⟩
    · exact ⟨rfl, rfl, Or.inl ⟨h, Or.inr h'⟩⟩
    · exact ⟨rfl, rfl, Or.inr ⟨h', Or.inl ⟨h, h''⟩⟩⟩
    · exact ⟨rfl, rfl, Or.inr ⟨h', Or.inr (Or.inl ⟨h, h''⟩)⟩⟩
    · exact ⟨rfl, rfl, Or.inr ⟨h', Or.inr (Or.inr ⟨h, h''⟩)⟩⟩
  · rintro ⟨rfl, rfl, ⟨h, h' | h'⟩ | ⟨h', ⟨h, h''⟩ | ⟨h, h''⟩ | ⟨h, h''⟩⟩⟩
    · exact Or.inl (Or.inl (Or.inl (Or.inl ⟨⟨rfl, h⟩, rfl, h'⟩)))
    · exact Or.inl (Or.inl (Or.inl (Or.inr ⟨⟨rfl, h⟩, rfl, h'⟩)))
    · exact Or.inl (Or.inl (Or.inr ⟨h, rfl, rfl, h', h''⟩))
    · exact Or.inl (Or.inr ⟨h, rfl, rfl, h', h''⟩)
    · exact Or.inr ⟨h, rfl, rfl, h', h''⟩

/-- C04. No target variable is connected twice by one call (OpenMDAO would reject it). -/
theorem C04_targets_once (src tgt : Key) (cs ct cw : Bool) :
    ((connectFlowCalls src tgt cs ct cw).map Prod.snd).Nodup := by
  have h : (connectFlowCalls src tgt cs ct cw).map Prod.snd =
      ((connectFlowCalls [] [] cs ct cw).map (fun p => p.2.var)).map (fun v => ⟨tgt, v⟩) := by
    cases cs <;> cases ct <;> cases cw <;> rfl
  rw [h]
  refine List.Nodup.map (fun a b hab => by simpa using hab) ?_
  clear h
  revert cs ct cw
  decide +kernel

/-- C04. Every connected target variable is an input that `FlowIn` declares, and with all
flags on the only `FlowIn` inputs left unconnected are the static gas constant, the
corrected flow and the fuel-air ratio. -/
theorem C04_flowIn_coverage (src tgt : Key) (v : String) :
    (∀ cs ct cw, (∃ x, (x, ⟨tgt, v⟩) ∈ connectFlowCalls src tgt cs ct cw) → v ∈ flowInInputs) ∧
    (v ∈ flowInInputs → ((¬ ∃ x, (x, ⟨tgt, v⟩) ∈ connectFlowCalls src tgt true true true) ↔
      v = "stat:R" ∨ v = "stat:Wc" ∨ v = "FAR")) := by
  have mem : ∀ cs ct cw, (∃ x, (x, (⟨tgt, v⟩ : FlowVar)) ∈ connectFlowCalls src tgt cs ct cw) ↔
      v ∈ (connectFlowCalls [] [] cs ct cw).map (fun p => p.2.var) := by
    intro cs ct cw
    have h : (connectFlowCalls src tgt cs ct cw).map Prod.snd =
      ((connectFlowCalls [] [] cs ct cw).map (fun p => p.2.var)).map (fun v => ⟨tgt, v⟩) := by
      cases cs <;> cases ct <;> cases cw <;> rfl
    have h2 : (∃ x, (x, (⟨tgt, v⟩ : FlowVar)) ∈ connectFlowCalls src tgt cs ct cw) ↔
      (⟨tgt, v⟩ : FlowVar) ∈ (connectFlowCalls src tgt cs ct cw).map Prod.snd := by
      simp
    rw [h2, h]
    simp only [List.mem_map, FlowVar.mk.injEq, true_and, exists_eq_right]
  constructor
  · intro cs ct cw hx
    rw [mem] at hx
    have : ∀ cs ct cw, ∀ v ∈ (connectFlowCalls [] [] cs ct cw).map (fun p => p.2.var),
        v ∈ flowInInputs := by decide +kernel
    exact this cs ct cw v hx
  · intro hv
    rw [mem]
    have : ∀ v ∈ flowInInputs, (v ∉ (connectFlowCalls [] [] true true true).map (fun p => p.2.var)) ↔
      v = "stat:R" ∨ v = "stat:Wc" ∨ v = "FAR" := by decide +kernel
    exact this v hv

/-- Non-vacuity: an all-flags connection really links pressures and mass flow. -/
example : ((⟨["comp", "Fl_O"], "tot:P"⟩, ⟨["burner", "Fl_I"], "tot:P"⟩) ∈
    connectFlowCalls ["comp", "Fl_O"] ["burner", "Fl_I"] true true true) ∧
    ((⟨["comp", "Fl_O"], "stat:W"⟩, ⟨["burner", "Fl_I"], "stat:W"⟩) ∉
    connectFlowCalls ["comp", "Fl_O"] ["burner", "Fl_I"] true true false) := by decide +kernel

/-! ### C05 -/

/-- C05 as a user would state it: port paths naming different elements resolve to
different elements. The element a path names is everything before its last segment. -/
def C05_statement : Prop :=
  ∀ path path' : Key, path.length ≥ 2 → path'.length ≥ 2 →
    path.dropLast ≠ path'.dropLast → elementName path ≠ elementName path'

/-- C05 is false of the code: `a.b.Fl_O` and `ab.Fl_O` resolve to the same node. -/
theorem C05_refuted : ¬ C05_statement := by
  intro h
  exact h ["a", "b", "Fl_O"] ["ab", "Fl_O"] (by simp) (by simp) (by decide)
    (by decide +kernel)

/-- C05, the part that holds: one-level paths. Missing: nested paths. -/
theorem C05_one_level_partial (a p b q : String) :
    (elementName [a, p] = a ∧ portName [a, p] = p) ∧
    (a ≠ b → elementName [a, p] ≠ elementName [b, q]) := by
  simp [elementName, portName, String.join]

end PyCycle
