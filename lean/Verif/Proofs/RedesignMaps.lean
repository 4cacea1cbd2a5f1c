import Verif.Proofs.Locals
import Verif.Props.C54_MapGroups

/-! # From a design state to an off-design state: maps and bleeds -/

namespace PyCycle.OM

/-- A name that neither the wiring without bleeds nor any bleed has. -/
theorem Extends.not_out {tails reserved bs : List String} {w₀ w : Wiring} {p : PerBleed}
    (hb : BleedNames tails reserved bs) (hf : p.Fits tails reserved w₀) (he : Extends w₀ p bs w) {n : String}
    (h : n ∉ w₀.outs) (hn : ∀ q ∈ p.outs, NameOk reserved q n) : n ∉ w.outs := by
  rw [he.outs.mem_iff, List.mem_append, List.mem_flatMap]
  rintro (h' | ⟨b, hbm, hx⟩)
  · exact h h'
  · obtain ⟨q, hq, e⟩ := List.mem_map.mp hx
    exact bname_ne hb hbm (hf.specs q (List.mem_append_left _ hq)) (hn q hq) e.symm

/-- A map group set up off design, in a group that keeps its design values. -/
theorem Group.map_redesign {g g' : Group} (hw : g.wiring.Wired) (hw' : g'.wiring.Wired) (hcon : g'.conns = g.conns)
    {E E' : Env}
    (hE : ∀ n, n ∈ g.wiring.outs ∨ n ∈ g.wiring.externals → E'.num n = E.num n ∧ E'.vec n = E.vec n)
    {G G' : Group} {name : String} {pI pO pI' pO' : List Prom} (hs : G.asSub name pI pO ∈ g.subs) {M M' : Env}
    (hi : ∀ n ∈ G.wiring.externals, M.num n = (g.wiring.reads E (G.asSub name pI pO).toDecl).num n
      ∧ M.vec n = (g.wiring.reads E (G.asSub name pI pO).toDecl).vec n)
    (ho : ∀ n ∈ G.wiring.outs, (writes E (G.asSub name pI pO).toDecl).num n = M.num n
      ∧ (writes E (G.asSub name pI pO).toDecl).vec n = M.vec n)
    (hM : G'.Converged M') {new : List String} (hnew : ∀ n, n ∉ new → M'.num n = M.num n) (hvec : ∀ n, M'.vec n = M.vec n)
    (h1 : ∀ n ∈ G'.wiring.externals, n ∉ new ∧ (
      (n ∈ G.wiring.externals ∧ (G'.asSub name pI' pO').inName n = (G.asSub name pI pO).inName n)
      ∨ (n ∈ G.wiring.outs ∧ (G'.asSub name pI' pO').inName n = (G.asSub name pI pO).outName n
        ∧ g'.wiring.src ((G'.asSub name pI' pO').inName n) = (G'.asSub name pI' pO').inName n)))
    (h2 : ∀ n ∈ G'.wiring.outs, n ∈ new ∨ n ∉ new ∧ (
      (n ∈ G.wiring.outs ∧ (G'.asSub name pI' pO').outName n = (G.asSub name pI pO).outName n)
      ∨ (n ∈ G.wiring.externals ∧ (G'.asSub name pI' pO').outName n = (G.asSub name pI pO).inName n
        ∧ g.wiring.src ((G.asSub name pI pO).inName n) = (G.asSub name pI pO).inName n)))
    (h3 : ∀ n ∈ new, E'.num ((G'.asSub name pI' pO').outName n) = M'.num n
      ∧ E'.vec ((G'.asSub name pI' pO').outName n) = M.vec n) :
    (G'.asSub name pI' pO').eqn (g'.wiring.reads E' (G'.asSub name pI' pO').toDecl)
      (writes E' (G'.asSub name pI' pO').toDecl) := by
  have hsub : ∀ c ∈ g'.conns, c ∈ g.conns := by rw [hcon]; exact fun _ h => h
  have hi' : ∀ n ∈ G.wiring.externals, E'.num (g'.wiring.src ((G.asSub name pI pO).inName n)) = M.num n
      ∧ E'.vec (g'.wiring.src ((G.asSub name pI pO).inName n)) = M.vec n := by
    intro n hn
    have a := hi n hn
    have b := Group.same_in hw hw' hsub hE (Group.mem_ins hs (show n ∈ (G.asSub name pI pO).ins from hn))
      (fun c h _ => by rw [hcon]; exact h)
    exact ⟨b.1.trans a.1.symm, b.2.trans a.2.symm⟩
  have ho' : ∀ n ∈ G.wiring.outs, E'.num ((G.asSub name pI pO).outName n) = M.num n
      ∧ E'.vec ((G.asSub name pI pO).outName n) = M.vec n := by
    intro n hn
    have a := ho n hn
    have b := hE _ (Or.inl (Group.mem_outs hs (show n ∈ (G.asSub name pI pO).outs from hn)))
    exact ⟨b.1.trans a.1, b.2.trans a.2⟩
  refine ⟨M', hM, ?_, ?_⟩
  · intro n hn
    obtain ⟨k, ⟨h, e⟩ | ⟨h, e, e'⟩⟩ := h1 n hn
    · rw [hnew n k, hvec]
      simp only [Wiring.reads, e]
      exact ⟨(hi' n h).1.symm, (hi' n h).2.symm⟩
    · rw [hnew n k, hvec]
      rw [e] at e'
      simp only [Wiring.reads, e, e']
      exact ⟨(ho' n h).1.symm, (ho' n h).2.symm⟩
  · intro n hn
    rcases h2 n hn with k | ⟨k, ⟨h, e⟩ | ⟨h, e, e'⟩⟩
    · rw [hvec]; exact h3 n k
    · rw [hnew n k, hvec]
      simp only [writes, e]
      exact ho' n h
    · rw [hnew n k, hvec]
      simp only [writes, e]
      have a := hi n h
      have : g.wiring.src ((G.asSub name pI pO).inName n) ∈ g.wiring.outs
          ∨ g.wiring.src ((G.asSub name pI pO).inName n) ∈ g.wiring.externals :=
        Wiring.src_known (Group.mem_ins hs (show n ∈ (G.asSub name pI pO).ins from h))
      have b := hE _ this
      simp only [Wiring.reads] at a
      rw [e'] at a b
      exact ⟨b.1.trans a.1.symm, b.2.trans a.2.symm⟩

/-- A reserved or plain name is no name of a bleed. -/
theorem bld_ne {tails reserved bs : List String} (hb : BleedNames tails reserved bs) {b : String} (hbm : b ∈ bs)
    {s : String} (hs : segL s.toList ≠ s.toList ∧ ∃ t ∈ tails, t.toList = segL s.toList) {n : String}
    (hn : CharsOk reserved n.toList) : n ≠ b ++ s := by
  rintro rfl
  rw [String.toList_append] at hn
  exact chars_ne hb hbm hs hn rfl

end PyCycle.OM
