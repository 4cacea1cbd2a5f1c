import Verif.Spec.MultiGeared
import Verif.Proofs.MultiGearedNames
import Verif.Props.C66_GearedFan
import Verif.Props.C69_Engines

/-! # C70: the geared turbofan at four points

What a solved `MPN3` of `example_cycles/N+3ref/N3ref.py` is, alone and with the balances the problems of
`N3_MDP.py`, `N3_MDP_Opt.py` and `N3_MDP_verif.py` add. -/

namespace PyCycle.OM

open N3 Multi

variable {p : N3Parts} {k : N3Problem} {st : Bool}

/-- **C70 (interface).** Every problem is accepted: every connection joins an output of a point to an input of a point that
nothing else feeds, every promotion finds its variable. -/
theorem C70_interface (p : N3Parts) (k : N3Problem) (st : Bool) : (mpN3 p k st).group.wiring.Accepted := mpAccepted p k st

theorem N3.mdp_local : ∀ k, ∀ s ∈ mdpSubs k, s.Local := by
  intro k s hs
  have h : ∀ bs pI, ({ balances bs pI with name := "bal" } : Sub).Local := fun bs pI => (balances_local bs pI).rename "bal"
  cases k
  · cases hs
  · obtain rfl := List.mem_singleton.mp hs; exact h _ _
  · obtain rfl := List.mem_singleton.mp hs; exact h _ _

theorem N3.t4_local : t4RatioSub.Local := by
  intro i i' o o' hi ho e
  simp only [t4RatioSub] at e ⊢
  rw [← (ho "TOC_T4" (by simp [t4RatioSub])).1, ← (hi "RTO_T4" (by simp [t4RatioSub])).1,
    ← (hi "TR" (by simp [t4RatioSub])).1]
  exact e

/-- **C70 (solved states).** Every converged problem can be completed, by transferring outputs to inputs, to a solved one
with the same outputs: the theorems below are about all converged problems. -/
theorem C70_complete (p : N3Parts) (k : N3Problem) (st : Bool) (E : Env) (hc : (mpN3 p k st).group.Converged E) :
    ∃ E', (mpN3 p k st).Solved E'
      ∧ ∀ n ∈ (mpN3 p k st).group.wiring.outs, E'.num n = E.num n ∧ E'.vec n = E.vec n :=
  Cycle.complete (mpAccepted p k st).1 (List.forall_mem_cons.mpr ⟨t4_local, mdp_local k⟩) hc

namespace N3

theorem params_sub : ∀ k, ∀ n ∈ params k, n ∈ params .ratio := by intro k; cases k <;> decide +kernel

theorem param_free (p : N3Parts) (m : N3Mode) {n : String} (hn : n ∈ params k) : n ∈ (n3 p m).group.wiring.externals := by
  have h : ∀ m, ∀ n ∈ params .ratio, n ∈ pntIns m := by intro m; cases m <;> decide +kernel
  exact free p m (List.all_eq_true.mp (pntIns_ok m) n (h m n (params_sub k n hn)))

theorem out' (p : N3Parts) {m : N3Mode} {n : String} (h : n ∈ pntOuts m) : n ∈ (n3 p m).group.wiring.outs :=
  out p m (List.all_eq_true.mp (pntOuts_ok m) n h)

theorem free' (p : N3Parts) {m : N3Mode} {n : String} (h : n ∈ pntIns m) : n ∈ (n3 p m).group.wiring.externals :=
  free p m (List.all_eq_true.mp (pntIns_ok m) n h)

/-- Names under which the problem knows the inputs of a point. -/
theorem promoted_param (m : N3Mode) {n : String} (hn : n ∈ params k) : promoted (pntProms k m) n = some n := by
  have h : ∀ k m, ∀ n ∈ params k, promoted (pntProms k m) n = some n := by
    intro k m; cases k <;> cases m <;> decide +kernel
  exact h k m n hn

theorem promoted_renamed : ∀ k, ∀ c ∈ renamed, promoted (pntProms k .design) c.1 = some c.2 := by
  intro k; cases k <;> decide +kernel

theorem promoted_other (m : N3Mode) {n : String} (hn : n ∉ params k) (hr : m = .design → n ∉ renamed.map (·.1)) :
    promoted (pntProms k m) n = none := by
  have h := promoted_vars (params k) n
  rw [if_neg hn] at h
  cases m with
  | off => exact h
  | cooled => exact h
  | design =>
    have hr := hr rfl
    simp only [renamed, List.map_cons, List.map_nil, List.mem_cons, List.not_mem_nil, or_false, not_or] at hr
    obtain ⟨h1, h2, h3, h4⟩ := hr
    have e1 : tocProms.findSome? (Prom.exact n) = none := by
      simp [tocProms, Prom.exact, Ne.symm h1, Ne.symm h2, Ne.symm h3, Ne.symm h4]
    have e2 : tocProms.any (Prom.fits n) = false := by simp [tocProms, Prom.fits]
    simp only [promoted] at h ⊢
    simp only [pntProms, List.findSome?_append, e1, Option.none_or, List.any_append, e2, Bool.false_or]
    exact h

end N3

/-- **C70 (points).** Each point of a solved problem is a solved engine: rolling take-off one that sizes its cooling. -/
theorem C70_points {E : Env} (hE : (mpN3 p k st).Solved E) : ∀ o ∈ [("TOC", N3Mode.design), ("RTO", .cooled),
    ("SLS", .off), ("CRZ", .off)], ∃ V, N3.Flies p k E o.1 o.2 V := by
  rintro ⟨x, m⟩ ho
  obtain ⟨V, h1, h2, h3⟩ := hE.seen (m := ⟨x, (n3 p m).group, pntProms k m, []⟩)
    (List.mem_map.mpr ⟨(x, m), ho, rfl⟩) rfl
  obtain ⟨V', s1, s2, s3⟩ := Cycle.complete_in (accepted p m).1 (locals p m) h1
  have hi : ∀ n ∈ (n3 p m).group.wiring.externals, ∀ q, promoted (pntProms k m) n = q →
      V'.num n = E.num (q.getD (x ++ "." ++ n)) ∧ V'.vec n = E.vec (q.getD (x ++ "." ++ n)) := by
    rintro n hn q rfl
    have a := s3 n hn
    have b := h2 n hn
    have e : Decl.inName (Member.sub ⟨x, (n3 p m).group, pntProms k m, []⟩).toDecl n
        = (promoted (pntProms k m) n).getD (x ++ "." ++ n) := by
      simp only [Decl.inName, Member.sub, Group.asSub]
      first | done | (cases promoted (pntProms k m) n <;> rfl)
    rw [e] at b
    exact ⟨a.1.trans b.1, a.2.trans b.2⟩
  refine ⟨V', s1, fun n hn => ⟨(s2 n hn).1.trans (h3 n hn).1, (s2 n hn).2.trans (h3 n hn).2⟩,
    fun n hn hp hr => hi n hn none (promoted_other m hp hr), fun n hn => hi n (param_free p m hn) _ (promoted_param m hn),
    ?_⟩
  rintro rfl c hc
  refine hi c.1 ?_ _ (promoted_renamed k c hc)
  have h : ∀ c ∈ renamed, c.1 ∈ pntIns .design := by decide +kernel
  exact free' p (h c hc)

namespace N3

/-- Sizes of an off-design point. -/
theorem areas {m : N3Mode} (hm : m ≠ .design) {W : Env} (hW : (n3 p m).Solved W) :
    ∀ c ∈ areaPairs ["inlet", "fan", "duct2", "lpc", "bld25", "duct25", "hpc", "bld3", "burner", "hpt", "duct45", "lpt",
        "duct5", "byp_bld", "duct17"]
      ++ [("splitter.Fl_O1:stat:area", "splitter.area1"), ("splitter.Fl_O2:stat:area", "splitter.area2")],
    W.num c.1 = W.num c.2 := by
  have e : (n3 p m).members = N3.elements p false := by cases m <;> first | exact absurd rfl hm | rfl
  have mem : ∀ {i : ℕ} {a : Member}, (N3.elements p false)[i]? = some a → a ∈ (n3 p m).members := by
    intro i a h; rw [e]; exact List.mem_of_getElem? h
  have sp := hW.splitter_areas (x := "splitter") (mem (i := 3) rfl)
  refine law_append (areaPairs_law ?_) (allOf sp.1 <| allOf sp.2 allNil)
  exact allOf (hW.inlet_area (mem (i := 1) rfl)) <|
      allOf (hW.compressor_area Turbojet.noComp (mem (i := 2) rfl) (by decide)) <|
      allOf (hW.duct_map_area (mem (i := 4) rfl)) <|
      allOf (hW.compressor_area Turbojet.noComp (mem (i := 5) rfl) (by decide)) <|
      allOf (hW.bleedOut_area bld25Names (by simp) (mem (i := 6) rfl)) <|
      allOf (hW.duct_map_area (mem (i := 7) rfl)) <|
      allOf (hW.compressor_area hpcNames (mem (i := 8) rfl) (by decide)) <|
      allOf (hW.bleedOut_area bld3Names (by simp) (mem (i := 9) rfl)) <|
      allOf (hW.burner_area (mem (i := 10) rfl)) <|
      allOf (hW.turbine_area turbNames (mem (i := 11) rfl) (by decide)) <|
      allOf (hW.duct_map_area (mem (i := 12) rfl)) <|
      allOf (hW.turbine_area turbNames (mem (i := 13) rfl) (by decide)) <|
      allOf (hW.duct_map_area (mem (i := 14) rfl)) <|
      allOf (hW.bleedOut_area HBTF.bypNames (by simp) (mem (i := 16) rfl)) <|
      allOf (hW.duct_map_area (mem (i := 17) rfl)) allNil

/-- The modes of the off-design points. -/
theorem od_mode {o : String} (ho : o ∈ ["RTO", "SLS", "CRZ"]) : ∃ m, m ≠ .design ∧ (o, m) ∈ pnts := by
  have h : ∀ o ∈ ["RTO", "SLS", "CRZ"], ∃ m, m ≠ .design ∧ (o, m) ∈ pnts := by
    simp only [List.forall_mem_cons]
    exact ⟨⟨.cooled, by decide, by decide⟩, ⟨.off, by decide, by decide⟩, ⟨.off, by decide, by decide⟩, by simp⟩
  exact h o ho

/-- What the design point passes. -/
theorem passed {E : Env} (hE : (mpN3 p k st).Solved E) {o : String} (ho : o ∈ ["RTO", "SLS", "CRZ"])
    {c : String × String} (hc : c ∈ mpConns st) : E.num ("TOC" ++ "." ++ c.1) = E.num (o ++ "." ++ c.2) := by
  refine (hE.conn (a := "TOC" ++ "." ++ c.1) (b := o ++ "." ++ c.2) ?_).1
  refine List.mem_append_left _ (List.mem_append_left _ (List.mem_append_left _ ?_))
  exact List.mem_flatMap.mpr ⟨c, hc, List.mem_map.mpr ⟨o, ho, rfl⟩⟩

/-- Outputs of off-design points that have inputs for them. -/
theorem keeps {pairs : List (String × String)} (hp : ∀ c ∈ pairs, c ∈ mpConns st)
    (hf : (pairs.all fun c => !(params .ratio).contains c.2 && Slots.gives (slots .off) c.1
      && Slots.gives (slots .cooled) c.1) = true)
    (hl : ∀ m ≠ .design, ∀ W, (n3 p m).Solved W → ∀ c ∈ pairs, W.num c.1 = W.num c.2) :
    N3.Keeps p k st (pairs.map (·.1)) := by
  intro E hE o ho n hn
  obtain ⟨c, hc, rfl⟩ := List.mem_map.mp hn
  obtain ⟨m, hm, hom⟩ := od_mode ho
  obtain ⟨W, hW⟩ := C70_points hE (o, m) hom
  simp only [List.all_eq_true, Bool.and_eq_true, Bool.not_eq_true', List.contains_eq_mem, decide_eq_false_iff_not] at hf
  obtain ⟨⟨f1, f2⟩, f3⟩ := hf c hc
  have a : c.1 ∈ (n3 p m).group.wiring.outs := by
    cases m
    · exact absurd rfl hm
    · exact out p _ f2
    · exact out p _ f3
  have ht : ∀ st, ∀ c ∈ mpConns st, c.2 ∈ pntIns .off ∧ c.2 ∈ pntIns .cooled := by decide +kernel
  have b : c.2 ∈ (n3 p m).group.wiring.externals := by
    have := ht st c (hp c hc)
    cases m
    · exact absurd rfl hm
    · exact free' p this.1
    · exact free' p this.2
  have a' := (hW.outs c.1 a).1
  have b' := (hW.ins c.2 b (fun h => f1 (params_sub k _ h)) fun h => absurd h hm).1
  exact a'.symm.trans ((hl m hm W hW.solved c hc).trans (b'.trans (passed hE ho (hp c hc)).symm))

theorem keeps_same {names : List String} (h : ∀ n ∈ names, (n, n) ∈ mpConns st) : N3.Keeps p k st names :=
  fun _ hE _ ho n hn => (passed hE ho (c := (n, n)) (h n hn)).symm

theorem Keeps.append {a b : List String} (ha : N3.Keeps p k st a) (hb : N3.Keeps p k st b) :
    N3.Keeps p k st (a ++ b) :=
  fun E hE o ho n hn => (List.mem_append.mp hn).elim (ha E hE o ho n) (hb E hE o ho n)

end N3

/-- **C70 (one engine).** Off design the engine is the one designed at top of climb: same maps, same gear ratio, same
losses of the ducts, same core nozzle; the throat of the bypass nozzle is open, the fan's operating line sets it. -/
theorem C70_engine (p : N3Parts) (k : N3Problem) (st : Bool) :
    N3.Keeps p k st (["core_nozz.Throat:stat:area"] ++ (mapScalars ["fan", "lpc", "hpc"] ["hpt", "lpt"]
      ++ ["gearbox.gear_ratio", "duct2.s_dPqP", "duct25.s_dPqP", "duct45.s_dPqP", "duct5.s_dPqP", "duct17.s_dPqP"])) := by
  refine Keeps.append (keeps (pairs := [("core_nozz.Throat:stat:area", "balance.rhs:W")]) ?_ (by decide +kernel) ?_)
    (keeps_same ?_)
  · revert st; decide +kernel
  · exact fun m hm W hW => allOf (C66_off hW hm).2.1 allNil
  · revert st; decide +kernel

/-- **C70 (sizes).** With the areas passed on, every element has the exit area it was designed with. -/
theorem C70_sizes (p : N3Parts) (k : N3Problem) :
    N3.Keeps p k true (exitAreas ["inlet", "fan", "duct2", "lpc", "bld25", "duct25", "hpc", "bld3", "burner", "hpt",
      "duct45", "lpt", "duct5", "byp_bld", "duct17"] ++ ["splitter.Fl_O1:stat:area", "splitter.Fl_O2:stat:area"]) := by
  have := keeps (p := p) (k := k) (st := true) (by decide +kernel) (by decide +kernel) fun m hm W hW => areas hm hW
  rw [List.map_append, areaPairs_fst] at this
  exact this

section
variable {E : Env} (hE : (mpN3 p k st).Solved E)
include hE

namespace N3

theorem wire {a b : String} (h : (a, b) ∈ mpCooling ++ [("T4_ratio.TOC_T4", "TOC.balance.rhs:FAR")]) :
    E.num a = E.num b := by
  refine (hE.conn (a := a) (b := b) (List.mem_append_left _ ?_)).1
  rw [mpWires, List.append_assoc]
  exact List.mem_append_right _ h

theorem mdpWire {a b : String} (h : (a, b) ∈ mdpConns k) : E.num a = E.num b :=
  (hE.conn (a := a) (b := b) (List.mem_append_right _ h)).1

theorem mdpBal (hk : k ≠ .single) {b : Bal} (hb : b ∈ mdpBals k) :
    b.Met ⟨fun v => E.num (promoted [.var "RTO_T4"] v |>.getD ("bal" ++ "." ++ v)), fun _ _ => 0⟩ := by
  have hs : ({ balances (mdpBals k) [.var "RTO_T4"] with name := "bal" } : Sub) ∈ (mpN3 p k st).others := by
    refine List.mem_cons_of_mem _ ?_
    cases k
    · exact absurd rfl hk
    · exact List.mem_singleton.mpr rfl
    · exact List.mem_singleton.mpr rfl
  have h := hE.other hs b hb
  have e : ∀ v, (Decl.inName ({ balances (mdpBals k) [.var "RTO_T4"] with name := "bal" } : Sub).toDecl v)
      = (promoted [.var "RTO_T4"] v).getD ("bal" ++ "." ++ v) := by
    intro v
    simp only [Decl.inName, balances]
    first | done | (cases promoted [Prom.var "RTO_T4"] v <;> rfl)
  simp only [Bal.Met, e] at h ⊢
  exact h

end N3

/-- **C70 (cooling).** At every point the share of the air the high-pressure turbine is cooled with is the share found at
rolling take-off: there the bleeds are what the cooling model asks for, elsewhere they are that share of the air the
compressor delivers. -/
theorem C70_cooling : ∀ o ∈ ["TOC", "RTO", "SLS", "CRZ"],
    E.num (o ++ "." ++ "bld3.bld_inlet:stat:W")
      = E.num "RTO.balance.hpt_nochrg_cool_frac" * E.num (o ++ "." ++ "hpc.Fl_O:stat:W")
    ∧ E.num (o ++ "." ++ "bld3.bld_exit:stat:W")
      = E.num "RTO.balance.hpt_chrg_cool_frac" * E.num (o ++ "." ++ "hpc.Fl_O:stat:W") := by
  have ho : ∀ m, ∀ n ∈ ["bld3.bld_inlet:stat:W", "bld3.bld_exit:stat:W", "hpc.Fl_O:stat:W"],
      n ∈ (n3 p m).group.wiring.outs := by
    have h : ∀ m, ∀ n ∈ ["bld3.bld_inlet:stat:W", "bld3.bld_exit:stat:W", "hpc.Fl_O:stat:W"],
        shows (parts m) n = true := by intro m; cases m <;> decide +kernel
    exact fun m n hn => shown p m (h m n hn)
  have key : ∀ o m, (o, m) ∈ pnts → ∀ V, N3.Flies p k E o m V →
      E.num (o ++ "." ++ "bld3.bld_inlet:stat:W") = V.num "bld3.bld_inlet:frac_W" * E.num (o ++ "." ++ "hpc.Fl_O:stat:W")
      ∧ E.num (o ++ "." ++ "bld3.bld_exit:stat:W") = V.num "bld3.bld_exit:frac_W" * E.num (o ++ "." ++ "hpc.Fl_O:stat:W") := by
    intro o m _ V hV
    obtain ⟨-, -, h3, h4, -⟩ := bld3_laws hV.solved
    have a := (hV.outs "bld3.bld_inlet:stat:W" (ho m _ (by simp))).1
    have b := (hV.outs "bld3.bld_exit:stat:W" (ho m _ (by simp))).1
    have c := (hV.outs "hpc.Fl_O:stat:W" (ho m _ (by simp))).1
    exact ⟨a.symm.trans (h3.trans (congrArg _ c)), b.symm.trans (h4.trans (congrArg _ c))⟩
  have frac : ∀ o m, (o, m) ∈ pnts → m ≠ .cooled → ∀ V, N3.Flies p k E o m V →
      V.num "bld3.bld_inlet:frac_W" = E.num "RTO.balance.hpt_nochrg_cool_frac"
      ∧ V.num "bld3.bld_exit:frac_W" = E.num "RTO.balance.hpt_chrg_cool_frac" := by
    intro o m ho' hm V hV
    have e : ∀ m, m ≠ .cooled → ∀ n ∈ ["bld3.bld_inlet:frac_W", "bld3.bld_exit:frac_W"],
        n ∈ pntIns m ∧ n ∉ params .ratio ∧ n ∉ renamed.map (·.1) := by
      intro m hm; cases m <;> first | exact absurd rfl hm | decide +kernel
    have i := fun n hn => (hV.ins n (free' p (e m hm n hn).1) (fun h => (e m hm n hn).2.1 (params_sub k n h))
      fun _ => (e m hm n hn).2.2).1
    have w : ∀ o m, (o, m) ∈ pnts → m ≠ .cooled →
        ("RTO.balance.hpt_nochrg_cool_frac", o ++ "." ++ "bld3.bld_inlet:frac_W") ∈ mpCooling
        ∧ ("RTO.balance.hpt_chrg_cool_frac", o ++ "." ++ "bld3.bld_exit:frac_W") ∈ mpCooling := by
      have : ∀ q ∈ pnts, q.2 ≠ .cooled →
        ("RTO.balance.hpt_nochrg_cool_frac", q.1 ++ "." ++ "bld3.bld_inlet:frac_W") ∈ mpCooling
        ∧ ("RTO.balance.hpt_chrg_cool_frac", q.1 ++ "." ++ "bld3.bld_exit:frac_W") ∈ mpCooling := by decide +kernel
      exact fun o m h => this (o, m) h
    have a := wire hE (List.mem_append_left _ (w o m ho' hm).1)
    have b := wire hE (List.mem_append_left _ (w o m ho' hm).2)
    exact ⟨(i "bld3.bld_inlet:frac_W" (by simp)).trans a.symm, (i "bld3.bld_exit:frac_W" (by simp)).trans b.symm⟩
  intro o ho'
  obtain ⟨m, hom⟩ : ∃ m, (o, m) ∈ pnts := by
    have : ∀ o ∈ ["TOC", "RTO", "SLS", "CRZ"], ∃ m, (o, m) ∈ pnts := by
      simp only [List.forall_mem_cons]
      exact ⟨⟨.design, by decide⟩, ⟨.cooled, by decide⟩, ⟨.off, by decide⟩, ⟨.off, by decide⟩, by simp⟩
    exact this o ho'
  obtain ⟨V, hV⟩ := C70_points hE (o, m) hom
  obtain ⟨k1, k2⟩ := key o m hom V hV
  by_cases hm : m = .cooled
  · subst hm
    have eo : o = "RTO" := by simpa [pnts] using hom
    subst eo
    have c := fun {x y : String} (hx : (x, y) ∈ coolConns) => cool_conn hV.solved hx
    have a : V.num "balance.hpt_nochrg_cool_frac" = V.num "bld3.bld_inlet:frac_W" := c (by simp [coolConns])
    have b : V.num "balance.hpt_chrg_cool_frac" = V.num "bld3.bld_exit:frac_W" := c (by simp [coolConns])
    have a' := (hV.outs "balance.hpt_nochrg_cool_frac" (out' p (by simp [pntOuts]))).1
    have b' := (hV.outs "balance.hpt_chrg_cool_frac" (out' p (by simp [pntOuts]))).1
    rw [← a, a'] at k1; rw [← b, b'] at k2
    exact ⟨k1, k2⟩
  · obtain ⟨f1, f2⟩ := frac o m hom hm V hV
    rw [f1] at k1; rw [f2] at k2
    exact ⟨k1, k2⟩

/-- **C70 (demand).** At rolling take-off the bleeds are what the cooling model asks for the four rows of the turbine, and
the first vane asks for nothing if the burner's exit, with the safety margin of 150 degR, stays below 2460 degR; above, it
asks for what the correlation gives. -/
theorem C70_demand : (∃ V, (turbineCooling p.cooled p.coolant coolOpt true).Converged V
      ∧ E.num "RTO.bld3.bld_inlet:stat:W" = V.num "row_0.W_cool"
      ∧ E.num "RTO.bld3.bld_exit:stat:W" = V.num "row_1.W_cool" + V.num "row_2.W_cool" + V.num "row_3.W_cool"
      ∧ V.num "Fl_turb_I:tot:T" = E.num "RTO.burner.Fl_O:tot:T" ∧ V.num "Fl_turb_I:stat:W" = E.num "RTO.burner.Fl_O:stat:W")
    ∧ (E.num "RTO.burner.Fl_O:tot:T" + 150 < 2460 → ∀ o ∈ ["TOC", "SLS", "CRZ"], E.num "RTO.hpc.Fl_O:stat:W" ≠ 0 →
      E.num (o ++ "." ++ "bld3.bld_inlet:stat:W") = 0) := by
  obtain ⟨V, hV⟩ := C70_points hE ("RTO", .cooled) (by simp)
  obtain ⟨U, hU, h1, h2, h3, -⟩ := C66_cooling hV.solved rfl
  have hv := (C66_vane hV.solved rfl).1
  have h : ∀ n ∈ ["bld3.bld_inlet:stat:W", "bld3.bld_exit:stat:W", "burner.Fl_O:tot:T", "burner.Fl_O:stat:W"],
      shows (parts .cooled) n = true := by decide +kernel
  have o := fun n hn => (hV.outs n (shown p .cooled (h n hn))).1
  have o1 : V.num "bld3.bld_inlet:stat:W" = E.num "RTO.bld3.bld_inlet:stat:W" := o "bld3.bld_inlet:stat:W" (by simp)
  have o2 : V.num "bld3.bld_exit:stat:W" = E.num "RTO.bld3.bld_exit:stat:W" := o "bld3.bld_exit:stat:W" (by simp)
  have o3 : V.num "burner.Fl_O:tot:T" = E.num "RTO.burner.Fl_O:tot:T" := o "burner.Fl_O:tot:T" (by simp)
  have o4 : V.num "burner.Fl_O:stat:W" = E.num "RTO.burner.Fl_O:stat:W" := o "burner.Fl_O:stat:W" (by simp)
  refine ⟨⟨U, hU, o1.symm.trans h1, o2.symm.trans h2, (h3 "tot:T" (by simp)).trans o3, (h3 "stat:W" (by simp)).trans o4⟩,
    fun hT q hq hW => ?_⟩
  rw [← o3] at hT
  have z := hv hT
  have C := C70_cooling hE
  have r : E.num "RTO.bld3.bld_inlet:stat:W" = E.num "RTO.balance.hpt_nochrg_cool_frac" * E.num "RTO.hpc.Fl_O:stat:W" :=
    (C "RTO" (by simp)).1
  rw [← o1, z] at r
  rw [(C q (by simp only [List.mem_cons, List.not_mem_nil, or_false] at hq ⊢; tauto)).1,
    (mul_eq_zero.mp r.symm).resolve_right hW, zero_mul]

/-- **C70 (temperature).** The burner's exit temperature at top of climb is `T4_ratio.TR` times `RTO_T4`. -/
theorem C70_temperature : E.num "TOC.burner.Fl_O:tot:T" = E.num "RTO_T4" * E.num "T4_ratio.TR" := by
  obtain ⟨V, hV⟩ := C70_points hE ("TOC", .design) (by simp)
  have h := (C66_design hV.solved rfl).1
  have s : ∀ n ∈ ["burner.Fl_O:tot:T"], shows (parts .design) n = true := by decide +kernel
  have a : V.num "burner.Fl_O:tot:T" = E.num "TOC.burner.Fl_O:tot:T" :=
    (hV.outs _ (shown p .design (s _ (by simp)))).1
  have b : V.num "balance.rhs:FAR" = E.num "TOC.balance.rhs:FAR" := by
    refine (hV.ins _ (free' p (by simp [pntIns])) (fun h => ?_) fun _ => by simp [renamed]).1
    have : "balance.rhs:FAR" ∉ params .ratio := by decide +kernel
    exact this (params_sub k _ h)
  have c : E.num "T4_ratio.TOC_T4" = E.num "TOC.balance.rhs:FAR" := wire hE (List.mem_append_right _ (by simp))
  have d : E.num "T4_ratio.TOC_T4" = E.num "RTO_T4" * E.num "T4_ratio.TR" :=
    hE.other (s := t4RatioSub) (List.mem_cons_self ..)
  rw [← a, h, b, ← c, d]

/-- **C70 (pressure ratios).** At top of climb fan and booster have the pressure ratios asked for, and with that of the
compressor they multiply to the overall ratio asked for. -/
theorem C70_pressure :
    E.num "TOC.fan.Fl_O:tot:P" = E.num "fan:PRdes" * E.num "TOC.inlet.Fl_O:tot:P"
    ∧ E.num "TOC.lpc.Fl_O:tot:P" = E.num "lpc:PRdes" * (E.num "TOC.fan.Fl_O:tot:P" * (1 - E.num "TOC.duct2.dPqP"))
    ∧ E.num "fan:PRdes" * E.num "lpc:PRdes" * E.num "TOC.balance.hpc_PR" = E.num "TOC.balance.rhs:hpc_PR" := by
  obtain ⟨V, hV⟩ := C70_points hE ("TOC", .design) (by simp)
  have s : ∀ n ∈ ["fan.Fl_O:tot:P", "inlet.Fl_O:tot:P", "lpc.Fl_O:tot:P", "balance.hpc_PR"],
      shows (parts .design) n = true := by decide +kernel
  have o := fun n hn => (hV.outs n (shown p .design (s n hn))).1
  have o1 : V.num "fan.Fl_O:tot:P" = E.num "TOC.fan.Fl_O:tot:P" := o "fan.Fl_O:tot:P" (by simp)
  have o2 : V.num "inlet.Fl_O:tot:P" = E.num "TOC.inlet.Fl_O:tot:P" := o "inlet.Fl_O:tot:P" (by simp)
  have o3 : V.num "lpc.Fl_O:tot:P" = E.num "TOC.lpc.Fl_O:tot:P" := o "lpc.Fl_O:tot:P" (by simp)
  have o4 : V.num "balance.hpc_PR" = E.num "TOC.balance.hpc_PR" := o "balance.hpc_PR" (by simp)
  have r := fun c hc => (hV.ratios rfl c hc).1
  have r1 : V.num "fan.PR" = E.num "fan:PRdes" := r ("fan.PR", "fan:PRdes") (by simp [renamed])
  have r2 : V.num "opr_calc.FPR" = E.num "fan:PRdes" := r ("opr_calc.FPR", "fan:PRdes") (by simp [renamed])
  have r3 : V.num "lpc.PR" = E.num "lpc:PRdes" := r ("lpc.PR", "lpc:PRdes") (by simp [renamed])
  have r4 : V.num "opr_calc.LPCPR" = E.num "lpc:PRdes" := r ("opr_calc.LPCPR", "lpc:PRdes") (by simp [renamed])
  have f : ∀ n ∈ ["duct2.dPqP", "balance.rhs:hpc_PR"], Slots.free (slots .design) (skel .design) n = true
      ∧ n ∉ params .ratio ∧ n ∉ renamed.map (·.1) := by decide +kernel
  have i := fun n hn => (hV.ins n (free p .design (f n hn).1) (fun h => (f n hn).2.1 (params_sub k n h))
    fun _ => (f n hn).2.2).1
  have i1 : V.num "duct2.dPqP" = E.num "TOC.duct2.dPqP" := i "duct2.dPqP" (by simp)
  have i2 : V.num "balance.rhs:hpc_PR" = E.num "TOC.balance.rhs:hpc_PR" := i "balance.rhs:hpc_PR" (by simp)
  have q : V.num "balance.hpc_PR" = V.num "hpc.PR" :=
    mconn hV.solved (m := .design) (by simp [modeConns, designConns])
  refine ⟨?_, ?_, ?_⟩
  · rw [← o1, ← o2, ← r1]; exact (fan_laws hV.solved).1
  · rw [← o3, ← o1, ← r3, ← i1]; exact (lpc_laws hV.solved).1
  · rw [← o4, q, ← r2, ← r4, ← i2]; exact C66_opr hV.solved rfl

/-- **C70 (MDP).** With the balances of the problems in `N3_MDP.py`, `N3_MDP_Opt.py` and `N3_MDP_verif.py`, `RTO_T4` is
the burner's exit temperature at rolling take-off, the thrust at cruise and at sea level are the parts asked for of those
at top of climb and at rolling take-off. -/
theorem C70_mdp (hk : k ≠ .single) :
    E.num "RTO.burner.Fl_O:tot:T" = E.num "RTO_T4"
    ∧ E.num "TOC.burner.Fl_O:tot:T" = E.num "RTO.burner.Fl_O:tot:T" * E.num "T4_ratio.TR"
    ∧ E.num "CRZ.perf.Fn" = E.num "bal.mult:CRZ_Fn_target" * E.num "TOC.perf.Fn"
    ∧ E.num "SLS.perf.Fn" = E.num "bal.mult:SLS_Fn_target" * E.num "RTO.perf.Fn"
    ∧ E.num "TOC.fc.W" = E.num "bal.TOC_W" ∧ E.num "TOC.splitter.BPR" = E.num "bal.TOC_BPR" := by
  have w := fun {a b : String} (h : (a, b) ∈ mdpConns k) => mdpWire hE h
  have b := fun {b : Bal} (h : b ∈ mdpBals k) => mdpBal hE hk h
  have hw : ∀ k ≠ N3Problem.single, ∀ x ∈ [("bal.TOC_BPR", "TOC.splitter.BPR"), ("bal.TOC_W", "TOC.fc.W"),
      ("RTO.burner.Fl_O:tot:T", "bal.lhs:TOC_W"), ("TOC.perf.Fn", "bal.lhs:CRZ_Fn_target"),
      ("CRZ.perf.Fn", "bal.rhs:CRZ_Fn_target"), ("RTO.perf.Fn", "bal.lhs:SLS_Fn_target"),
      ("SLS.perf.Fn", "bal.rhs:SLS_Fn_target")], x ∈ mdpConns k := by
    intro k hk; cases k <;> first | exact absurd rfl hk | decide +kernel
  have hw := hw k hk
  have b1 : (1 : ℝ) * E.num "bal.lhs:TOC_W" = E.num "RTO_T4" := by
    refine b (b := { Bal.of "TOC_W" with rhs := "RTO_T4" }) ?_
    cases k <;> first | exact absurd rfl hk | simp [mdpBals]
  have b2 : E.num "bal.mult:CRZ_Fn_target" * E.num "bal.lhs:CRZ_Fn_target" = E.num "bal.rhs:CRZ_Fn_target" := by
    refine b (b := .ofMult "CRZ_Fn_target") ?_
    cases k <;> first | exact absurd rfl hk | simp [mdpBals]
  have b3 : E.num "bal.mult:SLS_Fn_target" * E.num "bal.lhs:SLS_Fn_target" = E.num "bal.rhs:SLS_Fn_target" := by
    refine b (b := .ofMult "SLS_Fn_target") ?_
    cases k <;> first | exact absurd rfl hk | simp [mdpBals]
  have w1 := w (hw ("RTO.burner.Fl_O:tot:T", "bal.lhs:TOC_W") (by simp))
  have w2 := w (hw ("TOC.perf.Fn", "bal.lhs:CRZ_Fn_target") (by simp))
  have w3 := w (hw ("CRZ.perf.Fn", "bal.rhs:CRZ_Fn_target") (by simp))
  have w4 := w (hw ("RTO.perf.Fn", "bal.lhs:SLS_Fn_target") (by simp))
  have w5 := w (hw ("SLS.perf.Fn", "bal.rhs:SLS_Fn_target") (by simp))
  have t : E.num "RTO.burner.Fl_O:tot:T" = E.num "RTO_T4" := by rw [w1, ← b1, one_mul]
  refine ⟨t, t ▸ C70_temperature hE, ?_, ?_, (w (hw ("bal.TOC_W", "TOC.fc.W") (by simp))).symm,
    (w (hw ("bal.TOC_BPR", "TOC.splitter.BPR") (by simp))).symm⟩
  · rw [w3, ← b2, w2]
  · rw [w5, ← b3, w4]

/-- **C70 (jets).** The bypass ratio makes the jets at cruise move at the ratio asked for: of their velocities, or of the
ideal velocities times their coefficients. -/
theorem C70_jets :
    (k = .velocity → E.num "CRZ.core_nozz.Fl_O:stat:V" = E.num "bal.mult:TOC_BPR" * E.num "CRZ.byp_nozz.Fl_O:stat:V")
    ∧ (k = .ratio → E.num "CRZ.ext_ratio.ER" = E.num "bal.rhs:TOC_BPR"
      ∧ E.num "CRZ.ext_ratio.ER" = E.num "CRZ.core_nozz.ideal_flow.V" * E.num "ext_ratio.core_Cv"
        / (E.num "CRZ.byp_nozz.ideal_flow.V" * E.num "ext_ratio.byp_Cv")) := by
  have w := fun {a b : String} (h : (a, b) ∈ mdpConns k) => mdpWire hE h
  refine ⟨fun hk => ?_, fun hk => ?_⟩
  · have b2 : E.num "bal.mult:TOC_BPR" * E.num "bal.lhs:TOC_BPR" = E.num "bal.rhs:TOC_BPR" :=
      mdpBal hE (by rw [hk]; decide) (b := .ofMult "TOC_BPR") (by simp [hk, mdpBals])
    have w1 : E.num "CRZ.byp_nozz.Fl_O:stat:V" = E.num "bal.lhs:TOC_BPR" := w (by simp [hk, mdpConns])
    have w2 : E.num "CRZ.core_nozz.Fl_O:stat:V" = E.num "bal.rhs:TOC_BPR" := w (by simp [hk, mdpConns])
    rw [w1, w2, b2]
  · have b2 : (1 : ℝ) * E.num "bal.lhs:TOC_BPR" = E.num "bal.rhs:TOC_BPR" :=
      mdpBal hE (by rw [hk]; decide) (b := .of "TOC_BPR") (by simp [hk, mdpBals])
    have w1 : E.num "CRZ.ext_ratio.ER" = E.num "bal.lhs:TOC_BPR" := w (by simp [hk, mdpConns])
    obtain ⟨V, hV⟩ := C70_points hE ("CRZ", .off) (by simp)
    have s : ∀ n ∈ ["core_nozz.ideal_flow.V", "byp_nozz.ideal_flow.V", "ext_ratio.ER"],
        shows (parts .off) n = true := by decide +kernel
    have o := fun n hn => (hV.outs n (shown p .off (s n hn))).1
    have o1 : V.num "core_nozz.ideal_flow.V" = E.num "CRZ.core_nozz.ideal_flow.V" := o "core_nozz.ideal_flow.V" (by simp)
    have o2 : V.num "byp_nozz.ideal_flow.V" = E.num "CRZ.byp_nozz.ideal_flow.V" := o "byp_nozz.ideal_flow.V" (by simp)
    have o3 : V.num "ext_ratio.ER" = E.num "CRZ.ext_ratio.ER" := o "ext_ratio.ER" (by simp)
    have p1 : V.num "ext_ratio.core_Cv" = E.num "ext_ratio.core_Cv" := (hV.params _ (by simp [hk, N3.params])).1
    have p2 : V.num "ext_ratio.byp_Cv" = E.num "ext_ratio.byp_Cv" := (hV.params _ (by simp [hk, N3.params])).1
    refine ⟨by rw [w1, ← b2, one_mul], ?_⟩
    rw [← o1, ← o2, ← o3, ← p1, ← p2]
    exact (C66_thrust hV.solved).2.2

end

namespace N3

/-- Names of inputs of points are not the inputs of `T4_ratio`. -/
theorem name_other {o : String × N3Mode} (ho : o ∈ pnts) (n : String) :
    (promoted (pntProms k o.2) n).getD (o.1 ++ "." ++ n) ∉ ["RTO_T4", "T4_ratio.TR"] := by
  by_cases hp : n ∈ N3.params k
  · rw [promoted_param o.2 hp, Option.getD_some]
    have : ∀ n ∈ N3.params .ratio, n ∉ ["RTO_T4", "T4_ratio.TR"] := by decide +kernel
    exact this n (params_sub k n hp)
  by_cases hr : o.2 = .design ∧ n ∈ renamed.map (·.1)
  · obtain ⟨c, hc, rfl⟩ := List.mem_map.mp hr.2
    rw [hr.1, promoted_renamed k c hc, Option.getD_some]
    have : ∀ c ∈ renamed, c.2 ∉ ["RTO_T4", "T4_ratio.TR"] := by decide +kernel
    exact this c hc
  · rw [promoted_other o.2 hp (fun h hn => hr ⟨h, hn⟩), Option.getD_none]
    exact point_name ho n
where
  point_name {o : String × N3Mode} (ho : o ∈ pnts) (n : String) : o.1 ++ "." ++ n ∉ ["RTO_T4", "T4_ratio.TR"] := by
    have pl : ∀ o ∈ pnts, Plain o.1 ∧ o.1 ≠ "" ∧ o.1 ≠ "T4_ratio" := by decide +kernel
    intro h
    simp only [List.mem_cons, List.not_mem_nil, or_false] at h
    have hc : cut (o.1 ++ "." ++ n) = (o.1, n) := cut_dot (pl o ho).1 n
    rcases h with h | h
    · rw [h] at hc
      exact (pl o ho).2.1 (congrArg Prod.fst (hc.symm.trans (by decide +kernel : cut "RTO_T4" = ("", "RTO_T4"))))
    · rw [h] at hc
      exact (pl o ho).2.2 (congrArg Prod.fst (hc.symm.trans (by decide +kernel : cut "T4_ratio.TR" = ("T4_ratio", "TR"))))

end N3

/-- **C70, refuted (`RTO_T4`).** One would take `RTO_T4` for the temperature at rolling take-off. `MPN3` alone, as
`N3_SPD.py` uses it, ties it to nothing but the temperature at top of climb: in every solved state it can be given any
other value, with `T4_ratio.TR` to match, and all other values, that temperature among them, stay. -/
theorem C70_refuted_rto {E : Env} (hE : (mpN3 p .single st).Solved E) {r : ℝ} (hr : r ≠ 0) :
    ∃ E', (mpN3 p .single st).Solved E' ∧ E'.num "RTO_T4" = r * E.num "RTO_T4"
      ∧ E'.num "T4_ratio.TR" = E.num "T4_ratio.TR" / r
      ∧ ∀ n ∉ ["RTO_T4", "T4_ratio.TR"], E'.num n = E.num n ∧ E'.vec n = E.vec n := by
  let E' : Env := ⟨fun n => if n = "RTO_T4" then r * E.num "RTO_T4" else if n = "T4_ratio.TR" then E.num "T4_ratio.TR" / r
    else E.num n, E.vec⟩
  have k1 : E'.num "RTO_T4" = r * E.num "RTO_T4" := by simp [E']
  have k2 : E'.num "T4_ratio.TR" = E.num "T4_ratio.TR" / r := by simp [E']
  have k3 : ∀ n ∉ ["RTO_T4", "T4_ratio.TR"], E'.num n = E.num n ∧ E'.vec n = E.vec n := by
    intro n hn
    simp only [List.mem_cons, List.not_mem_nil, or_false, not_or] at hn
    simp [E', hn.1, hn.2]
  have hag : (mpN3 p .single st).group.Agrees E' := by
    intro x hx
    have h : ∀ st, ∀ x ∈ mpWires st ++ mdpConns .single, x.1 ∉ ["RTO_T4", "T4_ratio.TR"]
      ∧ x.2 ∉ ["RTO_T4", "T4_ratio.TR"] := by decide +kernel
    have e := h st x hx
    have a := hE.agrees x hx
    rw [(k3 _ e.1).1, (k3 _ e.1).2, (k3 _ e.2).1, (k3 _ e.2).2]
    exact a
  refine ⟨E', ⟨fun s hs => ?_, hag⟩, k1, k2, k3⟩
  rcases List.mem_append.mp hs with hs | hs
  · obtain ⟨m, hm, rfl⟩ := List.mem_map.mp hs
    obtain ⟨o, ho, rfl⟩ := List.mem_map.mp hm
    obtain ⟨V, h1, h2, h3⟩ := hE.seen hm rfl
    have en : ∀ n, Decl.inName (Member.sub ⟨o.1, (n3 p o.2).group, pntProms .single o.2, []⟩).toDecl n
        = (promoted (pntProms .single o.2) n).getD (o.1 ++ "." ++ n) := by
      intro n
      simp only [Decl.inName, Member.sub, Group.asSub]
      first | done | (cases promoted (pntProms .single o.2) n <;> rfl)
    refine ⟨V, h1, fun n hn => ?_, fun n hn => ?_⟩
    · have := h2 n hn
      rw [en] at this
      simp only [Wiring.reads, (hag.src _).1, (hag.src _).2, en, (k3 _ (name_other ho n)).1, (k3 _ (name_other ho n)).2]
      exact this
    · have := h3 n hn
      have e : (Member.sub ⟨o.1, (n3 p o.2).group, pntProms .single o.2, []⟩).outName n = o.1 ++ "." ++ n :=
        outName_plain (s := (Member.sub ⟨o.1, (n3 p o.2).group, pntProms .single o.2, []⟩).toDecl) rfl n
      have q := k3 _ (name_other.point_name ho n)
      simp only [writes, e, q.1, q.2]
      exact ⟨this.1.symm, this.2.symm⟩
  · obtain rfl := List.mem_singleton.mp hs
    have h : E.num "T4_ratio.TOC_T4" = E.num "RTO_T4" * E.num "T4_ratio.TR" :=
      hE.other (s := t4RatioSub) (List.mem_cons_self ..)
    simp only [Wiring.reads, writes, (hag.src _).1, (hag.src _).2]
    show E'.num "T4_ratio.TOC_T4" = E'.num "RTO_T4" * E'.num "T4_ratio.TR"
    rw [(k3 "T4_ratio.TOC_T4" (by simp)).1, k1, k2, h]
    field_simp

end PyCycle.OM
