import Verif.Proofs.EngineLaws2

/-! # Changing the loss and the extraction of a shaft whose net power nobody reads -/

namespace PyCycle.OM

/-- Changing values of names that nothing else mentions. -/
theorem Cycle.Solved.alter {c : Cycle} {E E' : Env} (h : c.Solved E) (X : List String)
    (he : ∀ n, n ∉ X → E'.num n = E.num n ∧ E'.vec n = E.vec n)
    (hx : ∀ x ∈ c.group.conns, x.1 ∉ X ∧ x.2 ∉ X)
    (hs : ∀ s ∈ c.group.subs, (s.Local ∧ (∀ v ∈ s.ins, s.inName v ∉ X) ∧ ∀ v ∈ s.outs, s.outName v ∉ X)
      ∨ s.eqn ⟨fun v => E'.num (s.inName v), fun v => E'.vec (s.inName v)⟩
          ⟨fun v => E'.num (s.outName v), fun v => E'.vec (s.outName v)⟩) : c.Solved E' := by
  have ha : c.group.Agrees E' := by
    intro x hxx
    obtain ⟨h1, h2⟩ := hx x hxx
    rw [(he _ h1).1, (he _ h1).2, (he _ h2).1, (he _ h2).2]
    exact h.agrees x hxx
  refine ⟨fun s hss => ?_, ha⟩
  simp only [Wiring.reads, writes, (ha.src _).1, (ha.src _).2]
  rcases hs s hss with ⟨hl, hi, ho⟩ | e
  · have k := h.converged s hss
    simp only [Wiring.reads, writes, (h.agrees.src _).1, (h.agrees.src _).2] at k
    exact hl _ _ _ _ (fun v hv => ⟨(he _ (hi v hv)).1.symm, (he _ (hi v hv)).2.symm⟩)
      (fun v hv => ⟨(he _ (ho v hv)).1.symm, (he _ (ho v hv)).2.symm⟩) k
  · exact e

/-- Names of a shaft that depend on loss and extraction. -/
def shaftNet (x : String) : List String :=
  [x ++ "." ++ "HPX", x ++ "." ++ "fracLoss", x ++ "." ++ "trq_net", x ++ "." ++ "pwr_in_real",
   x ++ "." ++ "pwr_out_real", x ++ "." ++ "pwr_net"]

theorem mem_shaftNet {x n : String} (hx : Plain x) (h : n ∈ shaftNet x) : (cut n).1 = x := by
  simp only [shaftNet, List.mem_cons, List.not_mem_nil, or_false] at h
  rcases h with rfl | rfl | rfl | rfl | rfl | rfl <;> rw [cut_dot hx]

/-- `E` with other values of loss and extraction at shaft `x`, and what it makes of them. -/
noncomputable def shaftSet (E : Env) (x N : String) (n : ℕ) (hpx loss : ℝ) : Env :=
  let i : Shaft.I n → ℝ
    | .Nmech => E.num N
    | .HPX => hpx
    | .fracLoss => loss
    | .trq k => E.num (x ++ "." ++ ("trq_" ++ toString k.val))
  E.over [(x ++ "." ++ "HPX", hpx), (x ++ "." ++ "fracLoss", loss), (x ++ "." ++ "trq_net", Shaft.compute i .trq_net),
    (x ++ "." ++ "pwr_in_real", Shaft.compute i .pwr_in_real), (x ++ "." ++ "pwr_out_real", Shaft.compute i .pwr_out_real),
    (x ++ "." ++ "pwr_net", Shaft.compute i .pwr_net)] []

theorem shaftSet_off {E : Env} {x N : String} {n : ℕ} {hpx loss : ℝ} {v : String} (h : v ∉ shaftNet x) :
    (shaftSet E x N n hpx loss).num v = E.num v ∧ (shaftSet E x N n hpx loss).vec v = E.vec v := by
  simp only [shaftSet, Env.over]
  rw [lookup_none (by simpa [shaftNet] using h)]
  simp

theorem Cycle.Solved.shaft_alter {c : Cycle} {E : Env} (h : c.Solved E) {x N : String} {n : ℕ} (hpx loss : ℝ)
    (px : Plain x) (pN : Plain N) (hx0 : x ≠ "")
    (hmem : ({ shaftSub n [.as "Nmech" N] with name := x } : Sub) ∈ c.others)
    (hn : ∀ k : Fin n, ("trq_" ++ toString k.val) ∉ ["Nmech", "HPX", "fracLoss", "trq_net", "pwr_in_real", "pwr_out_real", "pwr_net"])
    (hconn : ∀ a ∈ c.group.conns, a.1 ∉ shaftNet x ∧ a.2 ∉ shaftNet x)
    (hs : ∀ s ∈ c.group.subs, s = { shaftSub n [.as "Nmech" N] with name := x }
      ∨ (s.Local ∧ (∀ v ∈ s.ins, s.inName v ∉ shaftNet x) ∧ ∀ v ∈ s.outs, s.outName v ∉ shaftNet x)) :
    c.Solved (shaftSet E x N n hpx loss) := by
  refine h.alter (shaftNet x) (fun v hv => shaftSet_off hv) hconn fun s hss => ?_
  rcases hs s hss with rfl | hk
  swap
  · exact Or.inl hk
  refine Or.inr ?_
  have e := h.other hmem
  have inj : ∀ v w : String, x ++ "." ++ v = x ++ "." ++ w ↔ v = w := fun v w =>
    ⟨fun q => (append_right_inj (a := x ++ ".") q), fun q => by rw [q]⟩
  have nN : N ∉ shaftNet x := fun hm => by
    have := mem_shaftNet px hm
    rw [cut_plain pN] at this
    exact hx0 this.symm
  have offT : ∀ k : Fin n, x ++ "." ++ ("trq_" ++ toString k.val) ∉ shaftNet x := by
    intro k hm
    simp only [shaftNet, List.mem_cons, List.not_mem_nil, or_false, inj] at hm
    exact hn k (by simp only [List.mem_cons, List.not_mem_nil, or_false]; tauto)
  have iN : ∀ v : String, v ≠ "Nmech" →
      ({ shaftSub n [.as "Nmech" N] with name := x } : Sub).inName v = x ++ "." ++ v := by
    intro v hv
    simp [Decl.inName, shaftSub, promoted, Prom.exact, Prom.fits, hv, hv.symm]
  have iM : ({ shaftSub n [.as "Nmech" N] with name := x } : Sub).inName "Nmech" = N := by
    simp [Decl.inName, shaftSub, promoted, Prom.exact, Prom.fits]
  have oN : ∀ v : String, ({ shaftSub n [.as "Nmech" N] with name := x } : Sub).outName v = x ++ "." ++ v :=
    fun v => outName_plain rfl v
  have tN : ∀ k : Fin n, "trq_" ++ toString k.val ≠ "Nmech" := fun k hk => hn k (by rw [hk]; simp)
  obtain ⟨e1, e2, -, e4, -, e6, -, -⟩ := e
  set F := shaftSet E x N n hpx loss with hF
  have hi : shaftIn n ⟨fun v => F.num (({ shaftSub n [.as "Nmech" N] with name := x } : Sub).inName v),
      fun v => F.vec (({ shaftSub n [.as "Nmech" N] with name := x } : Sub).inName v)⟩ = fun
    | .Nmech => E.num N
    | .HPX => hpx
    | .fracLoss => loss
    | .trq k => E.num (x ++ "." ++ ("trq_" ++ toString k.val)) := by
    funext y
    cases y with
    | Nmech => simp only [shaftIn, iM]; rw [hF, (shaftSet_off nN).1]
    | HPX => simp only [shaftIn]; rw [iN _ (by decide), hF]; simp [shaftSet, Env.over, List.lookup]
    | fracLoss =>
      simp only [shaftIn]
      rw [iN _ (by decide), hF]
      simp [shaftSet, Env.over, List.lookup, beq_iff_eq, inj, show (x ++ "." ++ "fracLoss" == x ++ "." ++ "HPX") = false by
        rw [beq_eq_false_iff_ne]; exact fun q => absurd ((inj _ _).mp q) (by decide)]
    | trq k => simp only [shaftIn]; rw [iN _ (tN k), hF, (shaftSet_off (offT k)).1]
  have hi0 : shaftIn n ⟨fun v => E.num (({ shaftSub n [.as "Nmech" N] with name := x } : Sub).inName v),
      fun v => E.vec (({ shaftSub n [.as "Nmech" N] with name := x } : Sub).inName v)⟩ = fun
    | .Nmech => E.num N
    | .HPX => E.num (x ++ "." ++ "HPX")
    | .fracLoss => E.num (x ++ "." ++ "fracLoss")
    | .trq k => E.num (x ++ "." ++ ("trq_" ++ toString k.val)) := by
    funext y
    cases y with
    | Nmech => simp only [shaftIn, iM]
    | HPX => simp only [shaftIn]; rw [iN _ (by decide)]
    | fracLoss => simp only [shaftIn]; rw [iN _ (by decide)]
    | trq k => simp only [shaftIn]; rw [iN _ (tN k)]
  have off : ∀ v ∈ ["trq_in", "trq_out", "pwr_in", "pwr_out"], x ++ "." ++ v ∉ shaftNet x := by
    intro v hv hm
    simp only [shaftNet, List.mem_cons, List.not_mem_nil, or_false, inj] at hm
    revert v; decide
  have bne : ∀ v w : String, v ≠ w → (x ++ "." ++ v == x ++ "." ++ w) = false := fun v w q => by
    rw [beq_eq_false_iff_ne]; exact fun r => q ((inj _ _).mp r)
  have key : ∀ (i o : Env) (f : Shaft.I n → ℝ), shaftIn n i = f →
      o.num "trq_in" = Shaft.compute f .trq_in →
      o.num "trq_out" = Shaft.compute f .trq_out →
      o.num "trq_net" = Shaft.compute f .trq_net →
      o.num "pwr_in" = Shaft.compute f .pwr_in →
      o.num "pwr_in_real" = Shaft.compute f .pwr_in_real →
      o.num "pwr_out" = Shaft.compute f .pwr_out →
      o.num "pwr_out_real" = Shaft.compute f .pwr_out_real →
      o.num "pwr_net" = Shaft.compute f .pwr_net →
      (shaftSub n [.as "Nmech" N]).eqn i o := by
    rintro i o f rfl h1 h2 h3 h4 h5 h6 h7 h8
    exact ⟨h1, h2, h3, h4, h5, h6, h7, h8⟩
  refine key _ _ _ hi ((congrArg F.num (oN "trq_in")).trans ?_) ((congrArg F.num (oN "trq_out")).trans ?_) ((congrArg F.num (oN "trq_net")).trans ?_) ((congrArg F.num (oN "pwr_in")).trans ?_) ((congrArg F.num (oN "pwr_in_real")).trans ?_) ((congrArg F.num (oN "pwr_out")).trans ?_) ((congrArg F.num (oN "pwr_out_real")).trans ?_) ((congrArg F.num (oN "pwr_net")).trans ?_)
  · rw [hF, (shaftSet_off (off _ (by simp))).1]; exact (congrArg E.num (oN _)).symm.trans (e1.trans (by rw [hi0]; rfl))
  · rw [hF, (shaftSet_off (off _ (by simp))).1]; exact (congrArg E.num (oN _)).symm.trans (e2.trans (by rw [hi0]; rfl))
  · rw [hF]
    simp [shaftSet, Env.over, List.lookup, bne "trq_net" "HPX" (by decide), bne "trq_net" "fracLoss" (by decide)]
  · rw [hF, (shaftSet_off (off _ (by simp))).1]; exact (congrArg E.num (oN _)).symm.trans (e4.trans (by rw [hi0]; rfl))
  · rw [hF]
    simp [shaftSet, Env.over, List.lookup, bne "pwr_in_real" "HPX" (by decide), bne "pwr_in_real" "fracLoss" (by decide),
      bne "pwr_in_real" "trq_net" (by decide)]
  · rw [hF, (shaftSet_off (off _ (by simp))).1]; exact (congrArg E.num (oN _)).symm.trans (e6.trans (by rw [hi0]; rfl))
  · rw [hF]
    simp [shaftSet, Env.over, List.lookup, bne "pwr_out_real" "HPX" (by decide), bne "pwr_out_real" "fracLoss" (by decide),
      bne "pwr_out_real" "trq_net" (by decide), bne "pwr_out_real" "pwr_in_real" (by decide)]
  · rw [hF]
    simp [shaftSet, Env.over, List.lookup, bne "pwr_net" "HPX" (by decide), bne "pwr_net" "fracLoss" (by decide),
      bne "pwr_net" "trq_net" (by decide), bne "pwr_net" "pwr_in_real" (by decide), bne "pwr_net" "pwr_out_real" (by decide)]

theorem shaftSet_on {E : Env} {x N : String} {n : ℕ} {hpx loss : ℝ} :
    (shaftSet E x N n hpx loss).num (x ++ "." ++ "HPX") = hpx
    ∧ (shaftSet E x N n hpx loss).num (x ++ "." ++ "fracLoss") = loss := by
  have b : (x ++ "." ++ "fracLoss" == x ++ "." ++ "HPX") = false := by
    rw [beq_eq_false_iff_ne]
    exact fun q => absurd (append_right_inj (a := x ++ ".") q) (by decide)
  simp [shaftSet, Env.over, List.lookup, b]

/-- A subsystem of another plain name that promotes at most a speed. -/
theorem Sub.off_shaft {s : Sub} {x : String} (px : Plain x) (hx0 : x ≠ "") (hn : s.name ≠ x) (ps : Plain s.name)
    (hi : s.promI = [] ∨ ∃ N, Plain N ∧ s.promI = [.as "Nmech" N]) (ho : s.promO = []) :
    (∀ v ∈ s.ins, s.inName v ∉ shaftNet x) ∧ ∀ v ∈ s.outs, s.outName v ∉ shaftNet x := by
  have d : ∀ v, s.name ++ "." ++ v ∉ shaftNet x := fun v hm => by
    have := mem_shaftNet px hm
    rw [cut_dot ps] at this
    exact hn this
  refine ⟨fun v _ => ?_, fun v _ => by rw [outName_plain ho]; exact d v⟩
  rcases hi with hi | ⟨N, hN, hi⟩
  · have : s.inName v = s.name ++ "." ++ v := by simp [Decl.inName, promoted, hi]
    rw [this]; exact d v
  · by_cases hv : v = "Nmech"
    · have : s.inName v = N := by simp [Decl.inName, promoted, hi, Prom.exact, Prom.fits, hv]
      rw [this]
      intro hm
      have := mem_shaftNet px hm
      rw [cut_plain hN] at this
      exact hx0 this.symm
    · have : s.inName v = s.name ++ "." ++ v := by
        simp [Decl.inName, promoted, hi, Prom.exact, Prom.fits, hv, Ne.symm hv]
      rw [this]; exact d v

end PyCycle.OM
