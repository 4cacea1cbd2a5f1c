import Verif.Proofs.RedesignMaps
import Verif.Props.C56_Turbine
import Verif.Props.C59_Stations

/-! # C59: off design with the design data, an element has its design state (bleeds and maps) -/

namespace PyCycle.OM

/-! ## Bleed extraction -/

private theorem bleed_fresh (gas : (ℕ → ℝ) → TPGas) {bs : List String} (hb : BleedNames bleedTails bleedOutReserved bs)
    (hne : bs ≠ []) : ∀ n ∈ ["area", "out_stat.MN"],
      n ∉ (bleedOut gas bs true true).wiring.outs ∧ n ∉ (bleedOut gas bs true true).wiring.externals := by
  have hw := (C53_interface gas hb hne false true).1.1
  set X := ((([flowIn "flow_in" "Fl_I" [.pre "Fl_I:tot:", .pre "Fl_I:stat:"] [.pre "Fl_I:tot:", .pre "Fl_I:stat:"]]
      ++ [bleedCalcsSub bs] ++ bs.map (extractFlow gas)
      ++ [thermo gas "real_flow" .total_TP "Fl_O:tot"
            [.as "composition" "Fl_I:tot:composition", .as "T" "Fl_I:tot:T", .as "P" "Fl_I:tot:P"] [.pre "Fl_O:"]]).map
        Sub.toDecl).flatMap fun s => s.outs.map s.outName) with hX
  set A := (thermo gas "out_stat" .static_A "Fl_O:stat"
              [.as "composition" "Fl_I:tot:composition", .var "area"] [.pre "Fl_O:stat:"]) with hA
  set B := (thermo gas "out_stat" .static_MN "Fl_O:stat"
              [.as "composition" "Fl_I:tot:composition", .var "MN"] [.pre "Fl_O:stat:"]) with hB
  have e1 : (bleedOut gas bs false true).wiring.outs = X ++ A.outs.map A.outName := by
    simp [hX, hA, Wiring.outs, Group.wiring, bleedOut]
  have e2 : (bleedOut gas bs true true).wiring.outs = X ++ B.outs.map B.outName := by
    simp [hX, hB, Wiring.outs, Group.wiring, bleedOut]
  have h1 : "out_stat.MN" ∈ A.outs.map A.outName := by
    show "out_stat.MN" ∈ (thermo gas0 "out_stat" .static_A "Fl_O:stat" [.as "composition" "Fl_I:tot:composition", .var "area"] [.pre "Fl_O:stat:"]).outs.map
      (thermo gas0 "out_stat" .static_A "Fl_O:stat" [.as "composition" "Fl_I:tot:composition", .var "area"] [.pre "Fl_O:stat:"]).outName
    decide +kernel
  have h2 : ∀ n ∈ ["area", "out_stat.MN"], n ∉ B.outs.map B.outName := by
    show ∀ n ∈ ["area", "out_stat.MN"], n ∉ (thermo gas0 "out_stat" .static_MN "Fl_O:stat" [.as "composition" "Fl_I:tot:composition", .var "MN"] [.pre "Fl_O:stat:"]).outs.map
      (thermo gas0 "out_stat" .static_MN "Fl_O:stat" [.as "composition" "Fl_I:tot:composition", .var "MN"] [.pre "Fl_O:stat:"]).outName
    decide +kernel
  have h3 : "area" ∉ (bleedOut gas bs false true).wiring.outs := by
    refine ((Wiring.mem_externals hw _).mp ?_).2.1
    rw [(C53_interface gas hb hne false true).2]
    left; simp
  have h4 : "out_stat.MN" ∉ X := by
    have := hw.2.1
    rw [e1, List.nodup_append] at this
    intro hx
    exact this.2.2 _ hx _ h1 rfl
  intro n hn
  constructor
  · rw [e2, List.mem_append, not_or]
    refine ⟨?_, h2 n hn⟩
    simp only [List.mem_cons, List.not_mem_nil, or_false] at hn
    rcases hn with rfl | rfl
    · intro h; exact h3 (by rw [e1]; exact List.mem_append_left _ h)
    · exact h4
  · rw [(C53_interface gas hb hne true true).2]
    rintro (h | ⟨b, hbm, e⟩)
    · revert h hn
      clear * -
      revert n
      decide +kernel
    · refine bld_ne hb hbm ?_ ?_ e
      · decide +kernel
      · clear * - hn
        revert n
        decide +kernel

/-- **C59 (bleed extraction).** -/
theorem C59_bleed_out (gas : (ℕ → ℝ) → TPGas) {bs : List String} (hb : BleedNames bleedTails bleedOutReserved bs)
    (hne : bs ≠ []) (E : Env) (hc : (bleedOut gas bs true true).Converged E) (F : Flowing E "Fl_O:tot" "Fl_O:stat") :
    ∃ E', Redesign (bleedOut gas bs true true) (bleedOut gas bs false true) areaConns E E' := by
  have hw := (C53_interface gas hb hne true true).1.1
  refine ⟨sized E, Group.redesign_area hw (C53_interface gas hb hne false true).1.1 rfl
    (sized_keeps (bleed_fresh gas hb hne)) hc (gas := gas) (pI := [.as "composition" "Fl_I:tot:composition", .var "MN"])
    (pI' := [.as "composition" "Fl_I:tot:composition", .var "area"]) ?_ ?_ rfl ?_ ?_ rfl rfl F ?_⟩
  · simp [bleedOut]
  · intro v hv; fin_cases hv <;> rfl
  · rw [(C53_interface gas hb hne false true).2]; left; simp
  · show (bleedOut gas bs true true).wiring.src "out_stat.ht" = _
    exact Wiring.src_conn hw (by simp [Group.wiring, bleedOut, statConns])
  · intro s hs
    simp only [bleedOut, Bool.false_eq_true, if_false, if_true, List.mem_append, List.mem_cons, List.not_mem_nil, or_false,
      List.mem_map] at hs
    rcases hs with ((rfl | rfl) | ⟨b, hbm, rfl⟩) | rfl | h
    · exact Or.inr (Or.inl ⟨by simp [bleedOut], flowIn_local _ _ _ _⟩)
    · exact Or.inr (Or.inl ⟨by simp [bleedOut], bleedCalcsSub_local _⟩)
    · exact Or.inr (Or.inl ⟨by simp only [bleedOut, List.mem_append, List.mem_map]; exact Or.inl (Or.inr ⟨b, hbm, rfl⟩),
        thermo_local _ _ _ _ _ _⟩)
    · exact Or.inr (Or.inl ⟨by simp [bleedOut], thermo_local _ _ _ _ _ _⟩)
    · exact Or.inl h

/-- **C59 (bleed extraction, inputs).** -/
theorem C59_bleed_out_supplied (gas : (ℕ → ℝ) → TPGas) {bs : List String}
    (hb : BleedNames bleedTails bleedOutReserved bs) (hne : bs ≠ []) :
    Supplied (bleedOut gas bs true true) (bleedOut gas bs false true) areaConns := by
  intro n hn
  rw [(C53_interface gas hb hne false true).2] at hn
  rw [(C53_interface gas hb hne true true).2]
  rcases hn with hn | hn
  · have : n ∈ inletPort ++ ["flow_in.Fl_I:FAR"] ++ (if true then if true then ["MN"] else ["area", "out_stat.guess:MN"] else [])
        ∨ n = "area" ∨ n = "out_stat.guess:MN" := by
      revert n; decide +kernel
    rcases this with h | rfl | rfl
    · exact Or.inl (Or.inl h)
    · exact Or.inr (Or.inl (by decide))
    · exact Or.inr (Or.inr ⟨thermo gas "out_stat" .static_A "Fl_O:stat"
              [.as "composition" "Fl_I:tot:composition", .var "area"] [.pre "Fl_O:stat:"], by simp [bleedOut], rfl⟩)
  · exact Or.inl (Or.inr hn)

/-! ## Compressor -/

/-- Names the off-design compressor has besides those of the design compressor. -/
private def compNew : List String := ["area", "out_stat.MN", "map.scaledOutput.Nc", "map.scaledOutput.Wc"]

private theorem comp_fresh (gas : (ℕ → ℝ) → TPGas) (m : Map.CMap) {bs : List String}
    (hb : BleedNames compressorTails compressorReserved bs) : ∀ n ∈ compNew,
      n ∉ (compressor gas m bs true true).wiring.outs ∧ n ∉ (compressor gas m bs true true).wiring.externals := by
  intro n hn
  constructor
  · refine Extends.not_out hb (CompNames.per_fits true true) (CompNames.ext gas m true true) ?_ ?_
    · clear * - hn
      revert n; decide +kernel
    · clear * - hn
      revert n; decide +kernel
  · rw [(C55_interface gas m hb true true).2]
    rintro (h | ⟨b, hbm, v, hv, e⟩)
    · revert h hn
      clear * -
      revert n
      decide +kernel
    · refine bld_ne hb hbm ?_ ?_ e
      · clear * - hv
        revert v; decide +kernel
      · clear * - hn
        revert n; decide +kernel

private def cProms : List Prom := ["s_Nc", "s_eff", "s_Wc", "s_PR", "Nc", "Wc", "PR", "eff", "SMN", "SMW"].map .var

private theorem asSub_in (g : Group) (name : String) (pI pO : List Prom) (n : String) :
    (g.asSub name pI pO).inName n = (promoted pI n).getD (name ++ "." ++ n) := rfl
private theorem asSub_out (g : Group) (name : String) (pI pO : List Prom) (n : String) :
    (g.asSub name pI pO).outName n = (promoted pO n).getD (name ++ "." ++ n) := rfl

private theorem cmap_eq (m : Map.CMap) (d : Bool) : (compressorMap m d).wiring = (compressorMap CompNames.m₀ d).wiring := by
  cases d <;> rfl

/-- **C59 (compressor).** The point is on the usable part of the map. -/
theorem C59_compressor (gas : (ℕ → ℝ) → TPGas) (m : Map.CMap) {bs : List String}
    (hb : BleedNames compressorTails compressorReserved bs) (E : Env) (hc : (compressor gas m bs true true).Converged E)
    (F : Flowing E "Fl_O:tot" "Fl_O:stat")
    (hm : Map.Usable (m.at (E.num "map.alphaMap") (E.num "map.NcMap") (E.num "map.RlineMap"))) :
    ∃ E', Redesign (compressor gas m bs true true) (compressor gas m bs false true) compressorConns E E' := by
  have hw := (C55_interface gas m hb true true).1.1
  have hw' := (C55_interface gas m hb false true).1.1
  have hs : (compressorMap m true).asSub "map" cProms cProms ∈ (compressor gas m bs true true).subs := by
    simp [compressor, compressorHead, cProms]
  obtain ⟨M, hM, hi, ho⟩ := hc _ hs
  set E' := E.over [("area", E.at "Fl_O:stat" "area"), ("out_stat.MN", E.at "Fl_O:stat" "MN"),
    ("map.scaledOutput.Nc", M.num "Nc"), ("map.scaledOutput.Wc", M.num "Wc")]
    [("map.scaledOutput.Nc", M.vec "scaledOutput.Nc"), ("map.scaledOutput.Wc", M.vec "scaledOutput.Wc")] with hE'
  have hE : ∀ n, n ∈ (compressor gas m bs true true).wiring.outs ∨ n ∈ (compressor gas m bs true true).wiring.externals →
      E'.num n = E.num n ∧ E'.vec n = E.vec n := by
    refine Env.over_keeps fun n hn => comp_fresh gas m hb n ?_
    clear * - hn
    have : n ∈ ["area", "out_stat.MN", "map.scaledOutput.Nc", "map.scaledOutput.Wc"] ++ ["map.scaledOutput.Nc", "map.scaledOutput.Wc"] := hn
    clear hn
    revert n; decide
  have free : ∀ {n}, n ∈ (compressor gas m bs true true).wiring.externals →
      (compressor gas m bs true true).wiring.src n = n := fun {n} h =>
    Wiring.src_free ((Wiring.mem_externals hw n).mp h).2.1 ((Wiring.mem_externals hw n).mp h).2.2
  have free' : ∀ {n}, n ∈ (compressor gas m bs false true).wiring.externals →
      (compressor gas m bs false true).wiring.src n = n := fun {n} h =>
    Wiring.src_free ((Wiring.mem_externals hw' n).mp h).2.1 ((Wiring.mem_externals hw' n).mp h).2.2
  have hext : ∀ n ∈ compressorInputs true true, (compressor gas m bs true true).wiring.src n = n := fun n hn =>
    free (((C55_interface gas m hb true true).2 n).mpr (Or.inl (List.mem_append_right _ hn)))
  have hext' : ∀ n ∈ compressorInputs false true, (compressor gas m bs false true).wiring.src n = n := fun n hn =>
    free' (((C55_interface gas m hb false true).2 n).mpr (Or.inl (List.mem_append_right _ hn)))
  have pt : ∀ n ∈ ["alphaMap", "NcMap", "RlineMap"], M.num n = E.num ("map." ++ n) := by
    intro n hn
    have h1 := (hi n (((C54_compressor_interface m true).2 n).mpr (by revert n; decide))).1
    have e : ((compressorMap m true).asSub "map" cProms cProms).inName n = "map." ++ n := by
      clear h1
      fin_cases hn <;> rfl
    have : M.num n = E.num ((compressor gas m bs true true).wiring.src (((compressorMap m true).asSub "map" cProms cProms).inName n)) := h1
    rw [this, e, hext]
    clear e this h1
    revert n; decide
  have hdp := C54_compressor_design_point m M hM (by
    rw [pt _ (by decide), pt _ (by decide), pt _ (by decide)]; exact hm)
  have hmap := Group.map_redesign (g' := compressor gas m bs false true) hw hw' rfl hE hs hi ho hdp
    (pI' := cProms) (pO' := cProms) (new := ["scaledOutput.Nc", "scaledOutput.Wc"]) (by
      intro n hn
      simp only [List.mem_cons, List.not_mem_nil, or_false, not_or] at hn
      simp [hn.1, hn.2]) (fun _ => rfl) (by
      intro n hn
      have hn' := ((C54_compressor_interface m false).2 n).mp hn
      clear hn
      have c1 : ∀ n ∈ compressorMapInputs false, n ∉ ["scaledOutput.Nc", "scaledOutput.Wc"]
          ∧ (n ∈ compressorMapInputs true ∨ (n ∈ (compressorMap CompNames.m₀ true).wiring.outs
            ∧ (promoted cProms n).getD ("map" ++ "." ++ n) = n ∧ n ∈ compressorInputs false true)) := by decide +kernel
      obtain ⟨k, h | ⟨h1, h2, h3⟩⟩ := c1 n hn'
      · exact ⟨k, Or.inl ⟨((C54_compressor_interface m true).2 n).mpr h, by rw [asSub_in, asSub_in]⟩⟩
      · have e : ((compressorMap m false).asSub "map" cProms cProms).inName n = n := (asSub_in ..).trans h2
        refine ⟨k, Or.inr ⟨by rw [cmap_eq]; exact h1, ?_, ?_⟩⟩
        · rw [e, asSub_out]; exact h2.symm
        · rw [e]; exact hext' n h3) (by
      intro n hn
      have hn' : n ∈ (compressorMap CompNames.m₀ false).wiring.outs := by rw [cmap_eq] at hn; exact hn
      clear hn
      have c1 : ∀ n ∈ (compressorMap CompNames.m₀ false).wiring.outs, n ∈ ["scaledOutput.Nc", "scaledOutput.Wc"]
          ∨ n ∉ ["scaledOutput.Nc", "scaledOutput.Wc"] ∧ (n ∈ (compressorMap CompNames.m₀ true).wiring.outs
            ∨ (n ∈ compressorMapInputs true ∧ (promoted cProms n).getD ("map" ++ "." ++ n) ∈ compressorInputs true true)) := by
        decide +kernel
      rcases c1 n hn' with h | ⟨k, h | ⟨h1, h2⟩⟩
      · exact Or.inl h
      · exact Or.inr ⟨k, Or.inl ⟨by rw [cmap_eq]; exact h, by rw [asSub_out, asSub_out]⟩⟩
      · exact Or.inr ⟨k, Or.inr ⟨((C54_compressor_interface m true).2 n).mpr h1, by rw [asSub_out, asSub_in],
          by rw [asSub_in]; exact hext _ h2⟩⟩) (by
      intro n hn
      fin_cases hn
      · exact ⟨rfl, rfl⟩
      · exact ⟨rfl, rfl⟩)
  have r : Redesign (compressor gas m bs true true) (compressor gas m bs false true) areaConns E E' := by
    refine Group.redesign_area hw hw' rfl hE hc (gas := gas) (pI := [.var "MN", .as "composition" "Fl_I:tot:composition"])
      (pI' := [.var "area", .as "composition" "Fl_I:tot:composition"]) ?_ ?_ rfl ?_ ?_ rfl rfl F ?_
    · simp [compressor]
    · intro v hv; fin_cases hv <;> rfl
    · rw [(C55_interface gas m hb false true).2]; left; simp [compressorInputs]
    · show (compressor gas m bs true true).wiring.src "out_stat.ht" = _
      exact Wiring.src_conn hw (by simp [Group.wiring, compressor, statConns])
    · intro s hs
      simp only [compressor, Bool.false_eq_true, if_false, if_true, List.mem_append, List.mem_cons, List.not_mem_nil,
        or_false, List.mem_map] at hs
      rcases hs with ((hs | rfl) | ⟨b, hbm, rfl⟩) | h
      · by_cases hmp : s = (compressorMap m false).asSub "map" cProms cProms
        · subst hmp
          exact Or.inr (Or.inr hmap)
        · refine Or.inr (Or.inl ⟨?_, compressorHead_local gas m false s hs⟩)
          have : s ∈ compressorHead gas m true := by
            simp only [compressorHead, List.mem_cons, List.not_mem_nil, or_false] at hs ⊢
            rcases hs with h | h | h | h
            · exact Or.inl h
            · exact Or.inr (Or.inl h)
            · exact absurd h hmp
            · exact Or.inr (Or.inr (Or.inr h))
          simp only [compressor, List.mem_append]
          exact Or.inl (Or.inl (Or.inl this))
      · exact Or.inr (Or.inl ⟨by simp [compressor], bldsPwrSub_local _⟩)
      · exact Or.inr (Or.inl ⟨by simp only [compressor, List.mem_append, List.mem_map]; exact Or.inl (Or.inr ⟨b, hbm, rfl⟩),
          thermo_local _ _ _ _ _ _⟩)
      · exact Or.inl h
  refine ⟨E', r.converged, r.keeps, ?_⟩
  intro c hc'
  have : c ∈ areaConns ∨ (c.1 = c.2 ∧ c.1 ∈ (CompNames.w₀ true true).outs) := by
    clear * - hc'
    revert c; decide +kernel
  rcases this with h | ⟨h1, h2⟩
  · exact r.passed c h
  · rw [← h1]
    refine (hE _ (Or.inl ?_)).1
    exact (Extends.mem_outs_fixed hb (CompNames.per_fits true true) (CompNames.ext gas m true true)
      (List.mem_append_left _ h2)).mpr h2

/-- **C59 (compressor, inputs).** -/
theorem C59_compressor_supplied (gas : (ℕ → ℝ) → TPGas) (m : Map.CMap) {bs : List String}
    (hb : BleedNames compressorTails compressorReserved bs) :
    Supplied (compressor gas m bs true true) (compressor gas m bs false true) compressorConns := by
  intro n hn
  rw [(C55_interface gas m hb false true).2] at hn
  rw [(C55_interface gas m hb true true).2]
  rcases hn with hn | hn
  · have : n ∈ flowVarNames "Fl_I" ++ compressorInputs true true ∨ n ∈ compressorConns.map (·.2)
        ∨ n = "out_stat.guess:MN" := by
      revert n; decide +kernel
    rcases this with h | h | rfl
    · exact Or.inl (Or.inl h)
    · exact Or.inr (Or.inl h)
    · exact Or.inr (Or.inr ⟨thermo gas "out_stat" .static_A "Fl_O:stat"
              [.var "area", .as "composition" "Fl_I:tot:composition"] [.pre "Fl_O:stat:"], by simp [compressor], rfl⟩)
  · exact Or.inl (Or.inr hn)

/-! ## Turbine -/

/-- Names the off-design turbine has besides those of the design turbine. -/
private def turbNew : List String := ["area", "out_stat.MN", "map.scaledOutput.Np", "map.scaledOutput.Wp"]

private theorem turb_fresh (gas : (ℕ → ℝ) → TPGas) (gb : String → (ℕ → ℝ) → TPGas) (m : Map.TMap) (a : BleedAdder) {bs : List String}
    (hb : BleedNames turbineTails turbineReserved bs) : ∀ n ∈ turbNew,
      n ∉ (turbine gas gb m a bs true true).wiring.outs ∧ n ∉ (turbine gas gb m a bs true true).wiring.externals := by
  intro n hn
  constructor
  · refine Extends.not_out hb (TurbNames.per_fits true true) (TurbNames.ext hb.plain gas gb m a true true) ?_ ?_
    · clear * - hn
      revert n; decide +kernel
    · clear * - hn
      revert n; decide +kernel
  · rw [(C56_interface gas gb m a hb true true).2]
    rintro (h | ⟨b, hbm, h⟩)
    · revert h hn
      clear * -
      revert n
      decide +kernel
    · have : ∃ q ∈ TurbNames.portSpecs ++ [("", ":frac_P"), ("blds", ":W"), ("bld_add", ":h")], n = bname b q := by
        simp only [List.mem_append, List.mem_cons, List.not_mem_nil, or_false] at h
        rcases h with h | rfl | rfl | rfl
        · rw [TurbNames.flow_names] at h
          obtain ⟨v, hv, rfl⟩ := List.mem_map.mp h
          exact ⟨("", v), List.mem_append_left _ (List.mem_map.mpr ⟨v, hv, rfl⟩), (bname_nil b v).symm⟩
        · exact ⟨("", ":frac_P"), by simp, (bname_nil b _).symm⟩
        · exact ⟨("blds", ":W"), by simp, by rw [bname_cons b (by decide)]; simp only [← String.append_assoc]; rfl⟩
        · exact ⟨("bld_add", ":h"), by simp, by rw [bname_cons b (by decide)]; simp only [← String.append_assoc]; rfl⟩
      obtain ⟨q, hq, e⟩ := this
      have c : ∀ q ∈ TurbNames.portSpecs ++ [("", ":frac_P"), ("blds", ":W"), ("bld_add", ":h")],
          SpecOk turbineTails turbineReserved q ∧ ∀ n ∈ turbNew, NameOk turbineReserved q n := by decide +kernel
      exact bname_ne hb hbm (c q hq).1 ((c q hq).2 n hn) e

private def tI : Bool → List Prom
  | true => [.var "Np", .var "Wp", .var "PR", .var "eff"]
  | false => [.var "Np", .var "Wp", .var "s_PR", .var "s_Wp", .var "s_eff", .var "s_Np"]
private def tO : Bool → List Prom
  | true => [.var "s_PR", .var "s_Wp", .var "s_eff", .var "s_Np"]
  | false => [.var "PR", .var "eff"]

private theorem tmap_eq (m : Map.TMap) (d : Bool) : (turbineMap m d).wiring = (turbineMap TurbNames.m₀ d).wiring := by
  cases d <;> rfl

/-- **C59 (turbine).** The point is on the usable part of the map. -/
theorem C59_turbine (gas : (ℕ → ℝ) → TPGas) (gb : String → (ℕ → ℝ) → TPGas) (m : Map.TMap) (a : BleedAdder) {bs : List String}
    (hb : BleedNames turbineTails turbineReserved bs) (E : Env) (hc : (turbine gas gb m a bs true true).Converged E)
    (F : Flowing E "Fl_O:tot" "Fl_O:stat")
    (hm : Map.Usable (m.at (E.num "map.alphaMap") (E.num "map.NpMap") (E.num "map.PRmap"))) :
    ∃ E', Redesign (turbine gas gb m a bs true true) (turbine gas gb m a bs false true) turbineConns E E' := by
  have hw := (C56_interface gas gb m a hb true true).1.1
  have hw' := (C56_interface gas gb m a hb false true).1.1
  have hs : (turbineMap m true).asSub "map" (tI true) (tO true) ∈ (turbine gas gb m a bs true true).subs := by
    simp [turbine, turbineHead, tI, tO]
  obtain ⟨M, hM, hi, ho⟩ := hc _ hs
  set E' := E.over [("area", E.at "Fl_O:stat" "area"), ("out_stat.MN", E.at "Fl_O:stat" "MN"),
    ("map.scaledOutput.Np", M.num "Np"), ("map.scaledOutput.Wp", M.num "Wp")]
    [("map.scaledOutput.Np", M.vec "scaledOutput.Np"), ("map.scaledOutput.Wp", M.vec "scaledOutput.Wp")] with hE'
  have hE : ∀ n, n ∈ (turbine gas gb m a bs true true).wiring.outs ∨ n ∈ (turbine gas gb m a bs true true).wiring.externals →
      E'.num n = E.num n ∧ E'.vec n = E.vec n := by
    refine Env.over_keeps fun n hn => turb_fresh gas gb m a hb n ?_
    clear * - hn
    have : n ∈ ["area", "out_stat.MN", "map.scaledOutput.Np", "map.scaledOutput.Wp"] ++ ["map.scaledOutput.Np", "map.scaledOutput.Wp"] := hn
    clear hn
    revert n; decide
  have free : ∀ {n}, n ∈ (turbine gas gb m a bs true true).wiring.externals →
      (turbine gas gb m a bs true true).wiring.src n = n := fun {n} h =>
    Wiring.src_free ((Wiring.mem_externals hw n).mp h).2.1 ((Wiring.mem_externals hw n).mp h).2.2
  have free' : ∀ {n}, n ∈ (turbine gas gb m a bs false true).wiring.externals →
      (turbine gas gb m a bs false true).wiring.src n = n := fun {n} h =>
    Wiring.src_free ((Wiring.mem_externals hw' n).mp h).2.1 ((Wiring.mem_externals hw' n).mp h).2.2
  have hext : ∀ n ∈ turbineInputs true true, (turbine gas gb m a bs true true).wiring.src n = n := fun n hn =>
    free (((C56_interface gas gb m a hb true true).2 n).mpr (Or.inl (List.mem_append_right _ hn)))
  have hext' : ∀ n ∈ turbineInputs false true, (turbine gas gb m a bs false true).wiring.src n = n := fun n hn =>
    free' (((C56_interface gas gb m a hb false true).2 n).mpr (Or.inl (List.mem_append_right _ hn)))
  have pt : ∀ n ∈ ["alphaMap", "NpMap", "PRmap"], M.num n = E.num ("map." ++ n) := by
    intro n hn
    have h1 := (hi n (((C54_turbine_interface m true).2 n).mpr (by revert n; decide))).1
    have e : ((turbineMap m true).asSub "map" (tI true) (tO true)).inName n = "map." ++ n := by
      clear h1
      fin_cases hn <;> rfl
    have : M.num n = E.num ((turbine gas gb m a bs true true).wiring.src (((turbineMap m true).asSub "map" (tI true) (tO true)).inName n)) := h1
    rw [this, e, hext]
    clear e this h1
    revert n; decide
  have hdp := C54_turbine_design_point m M hM (by
    rw [pt _ (by decide), pt _ (by decide), pt _ (by decide)]; exact hm)
  have hmap := Group.map_redesign (g' := turbine gas gb m a bs false true) hw hw' rfl hE hs hi ho hdp
    (pI' := tI false) (pO' := tO false) (new := ["scaledOutput.Np", "scaledOutput.Wp"]) (by
      intro n hn
      simp only [List.mem_cons, List.not_mem_nil, or_false, not_or] at hn
      simp [hn.1, hn.2]) (fun _ => rfl) (by
      intro n hn
      have hn' := ((C54_turbine_interface m false).2 n).mp hn
      clear hn
      have c1 : ∀ n ∈ turbineMapInputs false, n ∉ ["scaledOutput.Np", "scaledOutput.Wp"]
          ∧ ((n ∈ turbineMapInputs true ∧ (promoted (tI false) n).getD ("map" ++ "." ++ n)
              = (promoted (tI true) n).getD ("map" ++ "." ++ n)) ∨ (n ∈ (turbineMap TurbNames.m₀ true).wiring.outs
            ∧ (promoted (tI false) n).getD ("map" ++ "." ++ n) = n ∧ (promoted (tO true) n).getD ("map" ++ "." ++ n) = n
            ∧ n ∈ turbineInputs false true)) := by decide +kernel
      obtain ⟨k, ⟨h, h'⟩ | ⟨h1, h2, h2', h3⟩⟩ := c1 n hn'
      · exact ⟨k, Or.inl ⟨((C54_turbine_interface m true).2 n).mpr h, by rw [asSub_in, asSub_in]; exact h'⟩⟩
      · have e : ((turbineMap m false).asSub "map" (tI false) (tO false)).inName n = n := (asSub_in ..).trans h2
        refine ⟨k, Or.inr ⟨by rw [tmap_eq]; exact h1, ?_, ?_⟩⟩
        · rw [e, asSub_out]; exact h2'.symm
        · rw [e]; exact hext' n h3) (by
      intro n hn
      have hn' : n ∈ (turbineMap TurbNames.m₀ false).wiring.outs := by rw [tmap_eq] at hn; exact hn
      clear hn
      have c1 : ∀ n ∈ (turbineMap TurbNames.m₀ false).wiring.outs, n ∈ ["scaledOutput.Np", "scaledOutput.Wp"]
          ∨ n ∉ ["scaledOutput.Np", "scaledOutput.Wp"] ∧ ((n ∈ (turbineMap TurbNames.m₀ true).wiring.outs
              ∧ (promoted (tO false) n).getD ("map" ++ "." ++ n) = (promoted (tO true) n).getD ("map" ++ "." ++ n))
            ∨ (n ∈ turbineMapInputs true
              ∧ (promoted (tO false) n).getD ("map" ++ "." ++ n) = (promoted (tI true) n).getD ("map" ++ "." ++ n)
              ∧ (promoted (tI true) n).getD ("map" ++ "." ++ n) ∈ turbineInputs true true)) := by
        decide +kernel
      rcases c1 n hn' with h | ⟨k, ⟨h, h'⟩ | ⟨h1, h1', h2⟩⟩
      · exact Or.inl h
      · exact Or.inr ⟨k, Or.inl ⟨by rw [tmap_eq]; exact h, by rw [asSub_out, asSub_out]; exact h'⟩⟩
      · exact Or.inr ⟨k, Or.inr ⟨((C54_turbine_interface m true).2 n).mpr h1, by rw [asSub_out, asSub_in]; exact h1',
          by rw [asSub_in]; exact hext _ h2⟩⟩) (by
      intro n hn
      fin_cases hn
      · exact ⟨rfl, rfl⟩
      · exact ⟨rfl, rfl⟩)
  have r : Redesign (turbine gas gb m a bs true true) (turbine gas gb m a bs false true) areaConns E E' := by
    refine Group.redesign_area hw hw' rfl hE hc (gas := gas) (pI := [.var "MN"]) (pI' := [.var "area"]) ?_ ?_ rfl ?_ ?_ rfl rfl F ?_
    · simp [turbine, turbineTail]
    · intro v hv; fin_cases hv <;> rfl
    · rw [(C56_interface gas gb m a hb false true).2]; left; simp [turbineInputs]
    · show (turbine gas gb m a bs true true).wiring.src "out_stat.ht" = _
      exact Wiring.src_conn hw (by simp [Group.wiring, turbine, statConns])
    · have keep : ∀ {s}, s ∈ turbineHead gas m true ++ bs.map bleedPort ++ [bldPressSub bs, bldAddSub a bs]
          ++ (bs.flatMap fun b => bleedIn (gb b) b) ++ [pwrTurbSub bs] → s ∈ (turbine gas gb m a bs true true).subs :=
        fun h => List.mem_append_left _ h
      intro s hs
      simp only [turbine, Bool.false_eq_true, if_false, if_true, List.mem_append, List.mem_cons, List.not_mem_nil,
        or_false, List.mem_map] at hs
      rcases hs with ((((hs | ⟨b, hbm, rfl⟩) | rfl | rfl) | hs) | rfl) | hs
      · by_cases hmp : s = (turbineMap m false).asSub "map" (tI false) (tO false)
        · subst hmp
          exact Or.inr (Or.inr hmap)
        · refine Or.inr (Or.inl ⟨?_, turbineHead_local gas m false s hs⟩)
          have : s ∈ turbineHead gas m true := by
            simp only [turbineHead, Bool.false_eq_true, if_false, if_true, List.mem_cons, List.not_mem_nil, or_false] at hs ⊢
            rcases hs with h | h | h | h
            · exact Or.inl h
            · exact Or.inr (Or.inl h)
            · exact absurd h hmp
            · exact Or.inr (Or.inr (Or.inr h))
          exact keep (List.mem_append_left _ (List.mem_append_left _ (List.mem_append_left _ (List.mem_append_left _ this))))
      · exact Or.inr (Or.inl ⟨keep (List.mem_append_left _ (List.mem_append_left _ (List.mem_append_left _
          (List.mem_append_right _ (List.mem_map_of_mem hbm))))), flowIn_local _ _ _ _⟩)
      · exact Or.inr (Or.inl ⟨keep (List.mem_append_left _ (List.mem_append_left _ (List.mem_append_right _ (by simp)))),
          bldPressSub_local _⟩)
      · exact Or.inr (Or.inl ⟨keep (List.mem_append_left _ (List.mem_append_left _ (List.mem_append_right _ (by simp)))),
          bldAddSub_local _ _⟩)
      · refine Or.inr (Or.inl ⟨keep (List.mem_append_left _ (List.mem_append_right _ hs)), ?_⟩)
        obtain ⟨b, -, hs⟩ := List.mem_flatMap.mp hs
        simp only [bleedIn, List.mem_cons, List.not_mem_nil, or_false] at hs
        rcases hs with rfl | rfl <;> exact thermo_local _ _ _ _ _ _
      · exact Or.inr (Or.inl ⟨by simp [turbine], pwrTurbSub_local _⟩)
      · simp only [turbineTail, Bool.false_eq_true, if_false, if_true, List.mem_cons, List.not_mem_nil, or_false] at hs
        have tl : ∀ {s}, s ∈ turbineTail gas true true → s ∈ (turbine gas gb m a bs true true).subs := fun h =>
          List.mem_append_right _ h
        rcases hs with rfl | rfl | rfl | h
        · exact Or.inr (Or.inl ⟨tl (by simp [turbineTail]), thermo_local _ _ _ _ _ _⟩)
        · exact Or.inr (Or.inl ⟨tl (by simp [turbineTail]), by local_sub⟩)
        · exact Or.inr (Or.inl ⟨tl (by simp [turbineTail]), thermo_local _ _ _ _ _ _⟩)
        · exact Or.inl h
  refine ⟨E', r.converged, r.keeps, ?_⟩
  intro c hc'
  have : c ∈ areaConns ∨ (c.1 = c.2 ∧ c.1 ∈ (TurbNames.w₀ true true).outs) := by
    clear * - hc'
    revert c; decide +kernel
  rcases this with h | ⟨h1, h2⟩
  · exact r.passed c h
  · rw [← h1]
    refine (hE _ (Or.inl ?_)).1
    exact (Extends.mem_outs_fixed hb (TurbNames.per_fits true true) (TurbNames.ext hb.plain gas gb m a true true)
      (List.mem_append_left _ h2)).mpr h2

/-- **C59 (turbine, inputs).** -/
theorem C59_turbine_supplied (gas : (ℕ → ℝ) → TPGas) (gb : String → (ℕ → ℝ) → TPGas) (m : Map.TMap) (a : BleedAdder) {bs : List String}
    (hb : BleedNames turbineTails turbineReserved bs) :
    Supplied (turbine gas gb m a bs true true) (turbine gas gb m a bs false true) turbineConns := by
  intro n hn
  rw [(C56_interface gas gb m a hb false true).2] at hn
  rw [(C56_interface gas gb m a hb true true).2]
  rcases hn with hn | hn
  · have : n ∈ flowVarNames "Fl_I" ++ turbineInputs true true ∨ n ∈ turbineConns.map (·.2)
        ∨ n = "out_stat.guess:MN" := by
      revert n; decide +kernel
    rcases this with h | h | rfl
    · exact Or.inl (Or.inl h)
    · exact Or.inr (Or.inl h)
    · exact Or.inr (Or.inr ⟨thermo gas "out_stat" .static_A "Fl_O:stat"
              [.var "area"] [.pre "Fl_O:stat:"], by simp [turbine, turbineTail], rfl⟩)
  · exact Or.inl (Or.inr hn)

/-! ## Without statics -/

/-- **C59 (statics=False, refuted).** Without statics an element has no input `area` (splitter: `area1`, `area2`)
and, off design, nothing to receive the area that `default_des_od_conns` connects all the same; the design element
has no `Fl_O:stat:area` to send. -/
theorem C59_statics_refuted (gas : (ℕ → ℝ) → TPGas) (gb : String → (ℕ → ℝ) → TPGas) (a : Adder) (x : ℝ) (l : Bool)
    (mc : Map.CMap) (mt : Map.TMap) (ba : BleedAdder) :
    ("area" ∉ (inlet gas false false).wiring.ins ∧ "Fl_O:stat:area" ∉ (inlet gas true false).wiring.outs)
    ∧ ("area" ∉ (combustor gas a false false).wiring.ins ∧ "Fl_O:stat:area" ∉ (combustor gas a true false).wiring.outs)
    ∧ ("area" ∉ (duct gas false false x l).wiring.ins ∧ "Fl_O:stat:area" ∉ (duct gas true false x l).wiring.outs)
    ∧ (∀ c ∈ splitterConns, c.2 ∉ (splitter gas false false).wiring.ins ∧ c.1 ∉ (splitter gas true false).wiring.outs)
    ∧ ("area" ∉ (compressor gas mc [] false false).wiring.ins
      ∧ "Fl_O:stat:area" ∉ (compressor gas mc [] true false).wiring.outs)
    ∧ ("area" ∉ (turbine gas gb mt ba [] false false).wiring.ins
      ∧ "Fl_O:stat:area" ∉ (turbine gas gb mt ba [] true false).wiring.outs) := by
  have h1 : "area" ∉ (inlet gas0 false false).wiring.ins ∧ "Fl_O:stat:area" ∉ (inlet gas0 true false).wiring.outs := by
    decide +kernel
  have h2 : "area" ∉ (combustor gas0 (.tab 1 0) false false).wiring.ins
      ∧ "Fl_O:stat:area" ∉ (combustor gas0 (.tab 1 0) true false).wiring.outs := by decide +kernel
  have h3 : ∀ l, "area" ∉ (duct gas0 false false 0 l).wiring.ins
      ∧ "Fl_O:stat:area" ∉ (duct gas0 true false 0 l).wiring.outs := by decide +kernel
  have h4 : ∀ c ∈ splitterConns, c.2 ∉ (splitter gas0 false false).wiring.ins
      ∧ c.1 ∉ (splitter gas0 true false).wiring.outs := by decide +kernel
  have h5 : "area" ∉ (compressor gas0 CompNames.m₀ [] false false).wiring.ins
      ∧ "Fl_O:stat:area" ∉ (compressor gas0 CompNames.m₀ [] true false).wiring.outs := by decide +kernel
  have h6 : "area" ∉ (turbine gas0 (fun _ => gas0) TurbNames.m₀ (.tab 1) [] false false).wiring.ins
      ∧ "Fl_O:stat:area" ∉ (turbine gas0 (fun _ => gas0) TurbNames.m₀ (.tab 1) [] true false).wiring.outs := by
    decide +kernel
  have h3 := h3 l
  exact ⟨h1, h2, by cases l <;> exact h3, h4, h5, h6⟩

end PyCycle.OM
