import Verif.Model.OMGroup

/-! # Which bleed names an element can be given

Bleed names are chosen by the user. An element builds further names from them: ports `b:stat:W`, subsystems
`b_flow`. The names must not collide. -/

namespace PyCycle.OM

/-- `:` and `.` structure names. -/
def isSep (c : Char) : Bool := c == ':' || c == '.'

/-- No separator in the name. -/
def Plain (s : String) : Prop := ∀ c ∈ s.toList, isSep c = false

instance (s : String) : Decidable (Plain s) := by unfold Plain; infer_instance

/-- The bleed names `bs` are distinct and contain no separator; names derived from different bleeds by the
element's endings `tails` differ; none is one of the element's own names `reserved`. -/
structure BleedNames (tails reserved bs : List String) : Prop where
  nodup : bs.Nodup
  plain : ∀ b ∈ bs, Plain b
  apart : ∀ b ∈ bs, ∀ b' ∈ bs, ∀ t ∈ tails, ∀ t' ∈ tails, b ++ t = b' ++ t' → b = b'
  fresh : ∀ b ∈ bs, ∀ t ∈ tails, b ++ t ∉ reserved

end PyCycle.OM
