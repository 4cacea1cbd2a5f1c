import Verif.Spec.OffDesign
import Verif.Spec.Solved
import Verif.Model.BleedWiring
import Verif.Model.DesOdConns
import Verif.Proofs.BleedLemmas

/-! # From a design state to an off-design state -/

namespace PyCycle.OM

/-- Fewer connections, same sources where no connection is lost. -/
theorem Wiring.src_congr {w w' : Wiring} (hw : w.Wired) (hw' : w'.Wired) (hc : ∀ c ∈ w'.conns, c ∈ w.conns) {n : String}
    (hn : ∀ c ∈ w.conns, c.2 = n → c ∈ w'.conns) : w'.src n = w.src n := by
  by_cases ht : n ∈ w'.conns.map (·.2)
  · obtain ⟨x, hx, rfl⟩ := List.mem_map.mp ht
    have e1 : w'.src x.2 = x.1 := Wiring.src_conn hw' (a := x.1) hx
    have e2 : w.src x.2 = x.1 := Wiring.src_conn hw (a := x.1) (hc x hx)
    rw [e1, e2]
  · have ht' : n ∉ w.conns.map (·.2) := by
      intro h
      obtain ⟨x, hx, rfl⟩ := List.mem_map.mp h
      exact ht (List.mem_map_of_mem (hn x hx rfl))
    have f : ∀ {u : Wiring}, n ∉ u.conns.map (·.2) → u.src n = n := by
      intro u hu
      by_cases ho : n ∈ u.outs
      · exact Wiring.src_out ho
      · exact Wiring.src_free ho hu
    rw [f ht, f ht']

theorem Group.mem_ins {g : Group} {s : Sub} (hs : s ∈ g.subs) {v : String} (hv : v ∈ s.ins) :
    s.inName v ∈ g.wiring.ins := by
  simp only [Wiring.ins, Group.wiring, List.mem_flatMap, List.mem_map]
  exact ⟨_, ⟨s, hs, rfl⟩, v, hv, rfl⟩

theorem Group.mem_outs {g : Group} {s : Sub} (hs : s ∈ g.subs) {v : String} (hv : v ∈ s.outs) :
    s.outName v ∈ g.wiring.outs := by
  simp only [Wiring.outs, Group.wiring, List.mem_flatMap, List.mem_map]
  exact ⟨_, ⟨s, hs, rfl⟩, v, hv, rfl⟩

/-- The source of an input is an output or an input of the group. -/
theorem Wiring.src_known {w : Wiring} {n : String} (hn : n ∈ w.ins) : w.src n ∈ w.outs ∨ w.src n ∈ w.externals := by
  by_cases h : w.src n ∈ w.outs
  · exact Or.inl h
  · right
    simp only [Wiring.externals, List.mem_dedup, List.mem_filter, List.mem_map]
    exact ⟨⟨n, hn, rfl⟩, by simpa using h⟩

section
variable {g g' : Group} (hw : g.wiring.Wired) (hw' : g'.wiring.Wired) (hcon : ∀ c ∈ g'.conns, c ∈ g.conns) {E E' : Env}
  (hE : ∀ n, n ∈ g.wiring.outs ∨ n ∈ g.wiring.externals → E'.num n = E.num n ∧ E'.vec n = E.vec n)
include hw hw' hcon hE

/-- An input whose connection is kept has kept its value. -/
theorem Group.same_in {n : String} (hn : n ∈ g.wiring.ins) (hx : ∀ c ∈ g.conns, c.2 = n → c ∈ g'.conns) :
    E'.num (g'.wiring.src n) = E.num (g.wiring.src n) ∧ E'.vec (g'.wiring.src n) = E.vec (g.wiring.src n) := by
  rw [Wiring.src_congr (w := g.wiring) hw hw' hcon hx]
  exact hE _ (Wiring.src_known hn)

/-- A subsystem of both modes is converged. -/
theorem Group.same_sub (hc : g.Converged E) {s : Sub} (hs : s ∈ g.subs) (hl : s.Local)
    (hx : ∀ c ∈ g.conns, ∀ v ∈ s.ins, c.2 = s.inName v → c ∈ g'.conns) :
    s.eqn (g'.wiring.reads E' s.toDecl) (writes E' s.toDecl) := by
  refine hl _ _ _ _ (fun v hv => ?_) (fun v hv => ?_) (hc s hs)
  · have := Group.same_in hw hw' hcon hE (Group.mem_ins hs hv) fun c h1 h2 => hx c h1 v hv h2
    exact ⟨this.1.symm, this.2.symm⟩
  · have := hE _ (Or.inl (Group.mem_outs hs hv))
    exact ⟨this.1.symm, this.2.symm⟩

end

/-! ## A static station solved for the Mach number is one solved for the area -/

/-- What a static `Thermo` in any mode says, said by one given the area. -/
theorem thermo_to_A {gas : (ℕ → ℝ) → TPGas} {name name' : String} {m : TG.Mode} {fl : String} {pI pO pI' pO' : List Prom}
    {i o i' o' : Env} (hm : isStat m = true) (h : (thermo gas name m fl pI pO).eqn i o)
    (g1 : 0 < o.at fl "gamma" * o.at fl "R" * o.at fl "T") (g2 : 0 < o.at fl "rho") (g3 : i.num "ht" ≠ 0)
    (g4 : 1e-16 ≤ o.at fl "MN") (g5 : o.at fl "area" ≠ 0) (g6 : m = .static_Ps → o.at fl "h" < i.num "ht")
    (hi : ∀ v ∈ ["S", "ht", "W"], i'.num v = i.num v) (hv : i'.vec "composition" = i.vec "composition")
    (ha : i'.num "area" = o.at fl "area")
    (ho : ∀ q ∈ thermoOuts .static_A, o'.num (nm q.2.2) = o.at fl (nm (if q.2.2 = .Ps then .P else q.2.2)))
    (hf : ∀ v ∈ TG.flowVars ++ statVars, v ≠ .composition → o'.num (fl ++ ":" ++ nm v) = o.at fl (nm v)) :
    (thermo gas name' .static_A fl pI' pO').eqn i' o' := by
  have t : ThermoSays gas m fl i o :=
    thermo_station (w := ⟨[], []⟩) (name := name) h ⟨fun _ _ => rfl, fun _ _ _ => rfl⟩
  obtain ⟨m1, m2, m3, m4, m5, m6⟩ := t.moving hm g1 g2 g3 (fun _ => g4) (fun _ => g5) g6
  obtain ⟨s1, s2, s3, s4, s5, s6, s7⟩ := t.state
  have k1 := hi "S" (by decide)
  have k2 := hi "ht" (by decide)
  have k3 := hi "W" (by decide)
  refine thermo_eqn_of (gas := gas) (name := name') (m := .static_A) (fl := fl)
    ⟨o.at fl "T", o.at fl "P", o.at fl "h", o.at fl "S", o.at fl "gamma", o.at fl "Cp", o.at fl "Cv", o.at fl "rho",
      o.at fl "R"⟩ ⟨o.at fl "MN", o.at fl "area", o.at fl "V", o.at fl "Vsonic"⟩ (i.num "ht") (i.num "W")
    (fun v => i'.num (nm v)) ?_ ?_ ?_ ?_ ?_ ?_ ?_
  · rw [hv]
    exact ⟨s1, s2, s3, s4, s5, s6, s7⟩
  · exact fun _ => ⟨⟨m3, m4, m5, m6⟩, g1, g2, g3, g4, g5⟩
  · intro v hv' hne
    fin_cases hv'
    · exact k1.trans m2.symm
    · exact ha
    · exact k2
    · exact k3
    · exact absurd rfl hne
    · rfl
    · rfl
    · rfl
  · intro q hq
    have := ho q hq
    fin_cases hq <;> exact this
  · intro v hv' hne
    have := hf v (List.mem_append_left _ hv') hne
    fin_cases hv' <;> first | exact absurd rfl hne | exact this
  · intro _ v hv'
    have := hf v (List.mem_append_right _ hv') (by rintro rfl; revert hv'; decide)
    fin_cases hv'
    · exact this
    · exact this.trans m1
    · exact this
    · exact this
    · exact this
  · intro hh; exact absurd hh (by decide)

/-- The static outlet of an element, solved for the Mach number (or given the pressure), is converged when given the
area it found. -/
theorem Group.outlet_redesign {g g' : Group} (hw : g.wiring.Wired) (hw' : g'.wiring.Wired)
    (hcon : ∀ c ∈ g'.conns, c ∈ g.conns) {E E' : Env}
    (hE : ∀ n, n ∈ g.wiring.outs ∨ n ∈ g.wiring.externals → E'.num n = E.num n ∧ E'.vec n = E.vec n)
    (hc : g.Converged E) {gas : (ℕ → ℝ) → TPGas} {name st : String} {m : TG.Mode} {pI pO pI' : List Prom}
    (hm : isStat m = true) (hs : thermo gas name m st pI pO ∈ g.subs)
    (hin : ∀ v ∈ ["S", "ht", "W", "composition"], (thermo gas name .static_A st pI' pO).inName v
      = (thermo gas name m st pI pO).inName v)
    (hx : ∀ c ∈ g.conns, ∀ v ∈ ["S", "ht", "W", "composition"], c.2 = (thermo gas name m st pI pO).inName v → c ∈ g'.conns)
    (hr : ∀ v ∈ TG.flowVars ++ statVars, (thermo gas name m st pI pO).outName (st ++ ":" ++ nm v) = st ++ ":" ++ nm v)
    (hA : E'.num (g'.wiring.src ((thermo gas name .static_A st pI' pO).inName "area")) = E.at st "area")
    (hM : ∀ q ∈ thermoOuts .static_A, q.2.2 ∉ (thermoOuts m).map (·.2.2) →
      E'.num ((thermo gas name .static_A st pI' pO).outName (nm q.2.2)) = E.at st (nm (if q.2.2 = .Ps then .P else q.2.2)))
    (g1 : 0 < E.at st "gamma" * E.at st "R" * E.at st "T") (g2 : 0 < E.at st "rho")
    (g3 : E.num (g.wiring.src ((thermo gas name m st pI pO).inName "ht")) ≠ 0)
    (g4 : 1e-16 ≤ E.at st "MN") (g5 : E.at st "area" ≠ 0)
    (g6 : m = .static_Ps → E.at st "h" < E.num (g.wiring.src ((thermo gas name m st pI pO).inName "ht"))) :
    (thermo gas name .static_A st pI' pO).eqn (g'.wiring.reads E' (thermo gas name .static_A st pI' pO).toDecl)
      (writes E' (thermo gas name .static_A st pI' pO).toDecl) := by
  have hsame : ∀ v, (thermo gas name .static_A st pI' pO).outName v = (thermo gas name m st pI pO).outName v := fun _ => rfl
  have hst : ∀ v ∈ TG.flowVars ++ statVars, (writes E (thermo gas name m st pI pO).toDecl).at st (nm v) = E.at st (nm v) := by
    intro v hv
    simp only [Env.at, writes, hr v hv]
  have hmem : ∀ v ∈ TG.flowVars ++ statVars, st ++ ":" ++ nm v ∈ (thermo gas name m st pI pO).outs := by
    intro v hv
    rcases List.mem_append.mp hv with h | h
    · exact List.mem_append_left _ (List.mem_append_right _ (List.mem_map.mpr ⟨v, h, rfl⟩))
    · exact List.mem_append_right _ (by rw [if_pos hm]; exact List.mem_map.mpr ⟨v, h, rfl⟩)
  have hmi : ∀ v ∈ ["S", "ht", "W", "composition"], v ∈ (thermo gas name m st pI pO).ins := by
    have : ∀ m, isStat m = true → ∀ v ∈ ["S", "ht", "W", "composition"], v ∈ (thermoIns m).map nm := by
      intro m hm
      cases m <;> first | (exact absurd hm (by decide)) | decide
    exact this m hm
  have hi : ∀ v ∈ ["S", "ht", "W", "composition"],
      (g'.wiring.reads E' (thermo gas name .static_A st pI' pO).toDecl).num v
        = (g.wiring.reads E (thermo gas name m st pI pO).toDecl).num v
      ∧ (g'.wiring.reads E' (thermo gas name .static_A st pI' pO).toDecl).vec v
        = (g.wiring.reads E (thermo gas name m st pI pO).toDecl).vec v := by
    intro v hv
    simp only [Wiring.reads, hin v hv]
    exact Group.same_in hw hw' hcon hE (Group.mem_ins hs (hmi v hv)) fun c h1 h2 => hx c h1 v hv h2
  have key := hc _ hs
  have cp := thermo_copies key
  have k := fun v hv => hst v hv
  have kT := k .T (by decide)
  have kg := k .gamma (by decide)
  have kR := k .R (by decide)
  have kr := k .rho (by decide)
  have kM := k .MN (by decide)
  have kA := k .area (by decide)
  have kh := k .h (by decide)
  simp only [nm] at kT kg kR kr kM kA kh
  refine thermo_to_A hm key ?_ ?_ g3 ?_ ?_ ?_ ?_ ?_ ?_ ?_ ?_
  · rw [kT, kg, kR]; exact g1
  · rw [kr]; exact g2
  · rw [kM]; exact g4
  · rw [kA]; exact g5
  · intro h; rw [kh]; exact g6 h
  · intro v hv
    refine (hi v ?_).1
    revert hv; revert v; decide
  · exact (hi _ (by decide)).2
  · rw [kA]; exact hA
  · intro q hq
    have hq' : (if q.2.2 = .Ps then .P else q.2.2) ∈ TG.flowVars ++ statVars := by
      have : ∀ q ∈ thermoOuts .static_A, (if q.2.2 = .Ps then .P else q.2.2) ∈ TG.flowVars ++ statVars := by decide +kernel
      exact this q hq
    rw [hst _ hq']
    by_cases hn : q.2.2 ∈ (thermoOuts m).map (·.2.2)
    · obtain ⟨r, hr', e⟩ := List.mem_map.mp hn
      have e : r.2.2 = q.2.2 := e
      have c := cp r hr'
      rw [e] at c
      have o1 : (writes E' (thermo gas name .static_A st pI' pO).toDecl).num (nm q.2.2)
          = (writes E (thermo gas name m st pI pO).toDecl).num (nm q.2.2) := by
        simp only [writes, hsame]
        refine (hE _ (Or.inl (Group.mem_outs hs ?_))).1
        rw [← e]
        exact List.mem_append_left _ (List.mem_append_left _ (List.mem_map.mpr ⟨r, hr', rfl⟩))
      rw [o1, c]
      exact hst _ hq'
    · exact hM q hq hn
  · intro v hv hne
    rw [hst v hv]
    simp only [writes, hsame, hr v hv, Env.at]
    have := hE _ (Or.inl (Group.mem_outs hs (hmem v hv)))
    rw [hr v hv] at this
    exact this.1

/-! ## Changing values of names that a group does not have -/

/-- `E` with some values changed. -/
def Env.over (E : Env) (l : List (String × ℝ)) (v : List (String × (ℕ → ℝ))) : Env :=
  ⟨fun n => (l.lookup n).getD (E.num n), fun n => (v.lookup n).getD (E.vec n)⟩

theorem lookup_none {α : Type} {l : List (String × α)} {n : String} (h : n ∉ l.map (·.1)) : l.lookup n = none := by
  rw [List.lookup_eq_none_iff]
  intro p hp
  simp only [bne_iff_ne, ne_eq]
  rintro rfl
  exact h (List.mem_map_of_mem hp)

theorem Env.over_keeps {E : Env} {l : List (String × ℝ)} {v : List (String × (ℕ → ℝ))} {w : Wiring}
    (h : ∀ n ∈ l.map (·.1) ++ v.map (·.1), n ∉ w.outs ∧ n ∉ w.externals) :
    ∀ n, n ∈ w.outs ∨ n ∈ w.externals → (E.over l v).num n = E.num n ∧ (E.over l v).vec n = E.vec n := by
  intro n hn
  have k : n ∉ l.map (·.1) ++ v.map (·.1) := fun hc => hn.elim (h n hc).1 (h n hc).2
  rw [List.mem_append, not_or] at k
  simp [Env.over, lookup_none k.1, lookup_none k.2]

/-- An element whose outlet is `out_stat`, the rest being shared or shown to be converged. -/
theorem Group.redesign_area {g g' : Group} (hw : g.wiring.Wired) (hw' : g'.wiring.Wired) (hcon : g'.conns = g.conns)
    {E E' : Env}
    (hE : ∀ n, n ∈ g.wiring.outs ∨ n ∈ g.wiring.externals → E'.num n = E.num n ∧ E'.vec n = E.vec n)
    (hc : g.Converged E) {gas : (ℕ → ℝ) → TPGas} {pI pI' : List Prom}
    (hs : thermo gas "out_stat" .static_MN "Fl_O:stat" pI [.pre "Fl_O:stat:"] ∈ g.subs)
    (hin : ∀ v ∈ ["S", "ht", "W", "composition"],
      (thermo gas "out_stat" .static_A "Fl_O:stat" pI' [.pre "Fl_O:stat:"]).inName v
      = (thermo gas "out_stat" .static_MN "Fl_O:stat" pI [.pre "Fl_O:stat:"]).inName v)
    (hA : (thermo gas "out_stat" .static_A "Fl_O:stat" pI' [.pre "Fl_O:stat:"]).inName "area" = "area")
    (hext : "area" ∈ g'.wiring.externals)
    (hht : g.wiring.src ((thermo gas "out_stat" .static_MN "Fl_O:stat" pI [.pre "Fl_O:stat:"]).inName "ht")
      = "Fl_O:tot:h")
    (va : E'.num "area" = E.at "Fl_O:stat" "area") (vm : E'.num "out_stat.MN" = E.at "Fl_O:stat" "MN")
    (F : Flowing E "Fl_O:tot" "Fl_O:stat")
    (rest : ∀ s ∈ g'.subs, s = thermo gas "out_stat" .static_A "Fl_O:stat" pI' [.pre "Fl_O:stat:"]
      ∨ (s ∈ g.subs ∧ s.Local) ∨ s.eqn (g'.wiring.reads E' s.toDecl) (writes E' s.toDecl)) :
    Redesign g g' areaConns E E' := by
  refine ⟨?_, hE, ?_⟩
  · intro s hs'
    rcases rest s hs' with rfl | ⟨h1, h2⟩ | h
    · obtain ⟨-, e1, e2⟩ := (Wiring.mem_externals hw' _).mp hext
      refine Group.outlet_redesign hw hw' (by rw [hcon]; exact fun _ h => h) hE hc rfl hs hin
        (fun c h _ _ _ => by rw [hcon]; exact h) ?_ ?_ ?_ F.sound F.dense ?_ F.mach F.size (by intro h; cases h)
      · show ∀ v ∈ TG.flowVars ++ statVars, (promoted [.pre "Fl_O:stat:"] ("Fl_O:stat" ++ ":" ++ nm v)).getD
          ("out_stat" ++ "." ++ ("Fl_O:stat" ++ ":" ++ nm v)) = "Fl_O:stat" ++ ":" ++ nm v
        decide +kernel
      · rw [hA, Wiring.src_free e1 e2]; exact va
      · intro q hq hn
        have : ∀ q ∈ thermoOuts .static_A, q.2.2 ∉ (thermoOuts .static_MN).map (·.2.2) → q.2.2 = .MN := by
          decide +kernel
        rw [this q hq hn]
        exact vm
      · rw [hht]; exact F.energy
    · exact Group.same_sub hw hw' (by rw [hcon]; exact fun _ h => h) hE hc h1 h2 fun c h _ _ _ => by rw [hcon]; exact h
    · exact h
  · intro c hc'
    rw [List.mem_singleton.mp hc']
    exact va

end PyCycle.OM
