import Verif.Model.BleedWiring
import Verif.Spec.MapPoint
import Verif.Proofs.OMLemmas
import Verif.Props.C36_MapScaling

/-! # C54: the map groups, at design and off design -/

namespace PyCycle.OM

/-! ## Compressor map -/

private def m₀ : Map.CMap := ⟨fun _ _ _ => 0, fun _ _ _ => 0, fun _ _ _ => 0, 0⟩
private abbrev cw (d : Bool) : Wiring := (compressorMap m₀ d).wiring

private theorem cw_eq (m : Map.CMap) (d : Bool) : (compressorMap m d).wiring = cw d := by cases d <;> rfl

private theorem cw_nodup : ∀ d, ((cw d).subs.map (·.name)).Nodup := by decide +kernel

/-- What a compressor map needs: at design the machine's values and the point of the map, off design the machine's
speed and flow and the scalars. -/
def compressorMapInputs (d : Bool) : List String :=
  ["alphaMap", "Nc", "Wc"]
    ++ (if d then ["NcMap", "RlineMap", "PR", "eff"] else ["s_Nc", "s_PR", "s_eff", "s_Wc"])

/-- **C54 (compressor map, interface).** -/
theorem C54_compressor_interface (m : Map.CMap) (d : Bool) :
    (compressorMap m d).wiring.Accepted
    ∧ ∀ n, n ∈ (compressorMap m d).wiring.externals ↔ n ∈ compressorMapInputs d := by
  rw [cw_eq]
  have h : ∀ d, (cw d).Accepted ∧ (cw d).externals ⊆ compressorMapInputs d
      ∧ compressorMapInputs d ⊆ (cw d).externals := by decide +kernel
  exact ⟨(h d).1, fun n => ⟨fun hn => (h d).2.1 hn, fun hn => (h d).2.2 hn⟩⟩

private theorem cw_map : ∀ d,
    ((cw d).inSrc "map" "alphaMap" = "alphaMap" ∧ (cw d).inSrc "map" "NcMap" = "NcMap"
      ∧ (cw d).inSrc "map" "RlineMap" = "RlineMap" ∧ (cw d).outOf "map" "effMap" = "effMap"
      ∧ (cw d).outOf "map" "PRmap" = "PRmap" ∧ (cw d).outOf "map" "WcMap" = "WcMap")
    ∧ ((cw d).outOf "stall_R" "RlineStall" = "stall_R.RlineStall")
    ∧ ((cw d).inSrc "SMN_map" "alphaMap" = "alphaMap" ∧ (cw d).inSrc "SMN_map" "NcMap" = "NcMap"
      ∧ (cw d).inSrc "SMN_map" "RlineMap" = "stall_R.RlineStall" ∧ (cw d).outOf "SMN_map" "PRmap" = "SMN_map.PRmap"
      ∧ (cw d).outOf "SMN_map" "WcMap" = "SMN_map.WcMap")
    ∧ ((cw d).inSrc "SMW_map" "alphaMap" = "alphaMap" ∧ (cw d).inSrc "SMW_map" "NcMap" = "SMW_bal.NcMap"
      ∧ (cw d).inSrc "SMW_map" "RlineMap" = "stall_R.RlineStall" ∧ (cw d).outOf "SMW_map" "PRmap" = "SMW_map.PRmap"
      ∧ (cw d).outOf "SMW_map" "WcMap" = "SMW_map.WcMap")
    ∧ ((cw d).inSrc "SMW_bal" "lhs:NcMap" = "WcMap" ∧ (cw d).inSrc "SMW_bal" "rhs:NcMap" = "SMW_map.WcMap")
    ∧ ((cw d).inSrc "stall_margins" "PR_SMN" = "SMN_map.PRmap" ∧ (cw d).inSrc "stall_margins" "PR_SMW" = "SMW_map.PRmap"
      ∧ (cw d).inSrc "stall_margins" "PR_actual" = "PRmap" ∧ (cw d).inSrc "stall_margins" "Wc_SMN" = "SMN_map.WcMap"
      ∧ (cw d).inSrc "stall_margins" "Wc_actual" = "WcMap" ∧ (cw d).outOf "stall_margins" "SMN" = "SMN"
      ∧ (cw d).outOf "stall_margins" "SMW" = "SMW") := by
  decide +kernel

private theorem cw_scalars : ∀ q ∈ qAll, (cw true).inSrc "scalars" (qName "c" q) = qName "c" q
    ∧ (cw true).inSrc "scalars" (qMap "c" q) = qMap "c" q
    ∧ (cw true).outOf "scalars" ("s_" ++ qName "c" q) = "s_" ++ qName "c" q := by decide +kernel

private theorem cw_scaled : (∀ q ∈ qAll, (cw false).inSrc "scaledOutput" ("s_" ++ qName "c" q) = "s_" ++ qName "c" q
      ∧ (cw false).inSrc "scaledOutput" (qMap "c" q) = qMap "c" q)
    ∧ (cw false).outOf "scaledOutput" "Nc" = "scaledOutput.Nc" ∧ (cw false).outOf "scaledOutput" "Wc" = "scaledOutput.Wc"
    ∧ (cw false).outOf "scaledOutput" "PR" = "PR" ∧ (cw false).outOf "scaledOutput" "eff" = "eff"
    ∧ (cw false).inSrc "map_bal" "lhs:NcMap" = "Nc" ∧ (cw false).inSrc "map_bal" "rhs:NcMap" = "scaledOutput.Nc"
    ∧ (cw false).inSrc "map_bal" "lhs:RlineMap" = "Wc" ∧ (cw false).inSrc "map_bal" "rhs:RlineMap" = "scaledOutput.Wc" := by
  decide +kernel

/-- The values the map gives. -/
private theorem c_values {m : Map.CMap} {d : Bool} {E : Env} (hc : (compressorMap m d).Converged E) :
    E.num "effMap" = m.eff (E.num "alphaMap") (E.num "NcMap") (E.num "RlineMap")
    ∧ E.num "PRmap" = m.PR (E.num "alphaMap") (E.num "NcMap") (E.num "RlineMap")
    ∧ E.num "WcMap" = m.W (E.num "alphaMap") (E.num "NcMap") (E.num "RlineMap") := by
  obtain ⟨⟨a1, a2, a3, a4, a5, a6⟩, -⟩ := cw_map d
  have h := hc.sub (cw_eq m d) (cw_nodup d) 0 _ rfl "map" rfl
  simpa only [readCMap, Wiring.rd, Wiring.wr, NC.rd, NC.wr, NC.inSrc_eq, NC.outOf_eq, a1, a2, a3, a4, a5, a6] using h

/-- **C54 (compressor map).** A converged compressor map runs at a point of the map: speed, pressure ratio,
efficiency and flow are the scalars times the map's values there. Off design this determines the machine's
values, at design (where the map's values must not vanish) the scalars; the relation is the same, so the design
scalars make the off-design map reproduce the design point. -/
theorem C54_compressor_map (m : Map.CMap) (d : Bool) (E : Env) (hc : (compressorMap m d).Converged E)
    (hv : d = true → Map.Usable (m.at (E.num "alphaMap") (E.num "NcMap") (E.num "RlineMap"))) :
    OnMap E "c" (E.num "NcMap") (m.PR (E.num "alphaMap") (E.num "NcMap") (E.num "RlineMap"))
      (m.eff (E.num "alphaMap") (E.num "NcMap") (E.num "RlineMap"))
      (m.W (E.num "alphaMap") (E.num "NcMap") (E.num "RlineMap")) := by
  obtain ⟨v1, v2, v3⟩ := c_values hc
  cases d
  · obtain ⟨hq, o1, o2, o3, o4, b1, b2, b3, b4⟩ := cw_scaled
    have h := hc.sub (cw_eq m false) (cw_nodup false) 1 (scaledSub "c") rfl "scaledOutput" rfl
    have hb := hc.sub (cw_eq m false) (cw_nodup false) 2 _ rfl "map_bal" rfl
    have g1 := hb ("NcMap", "lhs:NcMap", "rhs:NcMap") (by simp)
    have g2 := hb ("RlineMap", "lhs:RlineMap", "rhs:RlineMap") (by simp)
    simp only [Wiring.rd, b1, b2, b3, b4] at g1 g2
    have k1 := h .N (by decide)
    have k2 := h .PR (by decide)
    have k3 := h .eff (by decide)
    have k4 := h .W (by decide)
    have f1 := hq .N (by decide)
    have f2 := hq .PR (by decide)
    have f3 := hq .eff (by decide)
    have f4 := hq .W (by decide)
    simp only [qName, qMap, String.reduceAppend] at f1 f2 f3 f4
    simp only [Wiring.rd, Wiring.wr, NC.rd, NC.wr, NC.inSrc_eq, NC.outOf_eq, qName, qMap, String.reduceAppend, o1, o2, o3, o4, f1, f2, f3, f4, Map.scaled]
      at k1 k2 k3 k4
    constructor
    · show E.num "Nc" = E.num "s_Nc" * _
      rw [g1, k1]; ring
    · rw [k2, ← v2]; ring
    · rw [k3, ← v1]; ring
    · show E.num "Wc" = E.num "s_Wc" * _
      rw [g2, k4, ← v3]; ring
  · obtain ⟨u1, u2, u3, u4⟩ := hv rfl
    simp only [Map.CMap.at] at u1 u2 u3 u4
    have h := hc.sub (cw_eq m true) (cw_nodup true) 1 (scalarsSub "c") rfl "scalars" rfl
    have k1 := h .N (by decide)
    have k2 := h .PR (by decide)
    have k3 := h .eff (by decide)
    have k4 := h .W (by decide)
    have f1 := cw_scalars .N (by decide)
    have f2 := cw_scalars .PR (by decide)
    have f3 := cw_scalars .eff (by decide)
    have f4 := cw_scalars .W (by decide)
    simp only [qName, qMap, String.reduceAppend] at f1 f2 f3 f4
    simp only [Wiring.rd, Wiring.wr, NC.rd, NC.wr, NC.inSrc_eq, NC.outOf_eq, qName, qMap, String.reduceAppend, f1, f2, f3, f4, Map.scalars, v1, v2, v3]
      at k1 k2 k3 k4
    have u2' := sub_ne_zero.mpr u2
    constructor
    · show E.num "Nc" = E.num "s_Nc" * _
      rw [k1]; field_simp
    · rw [k2]; field_simp
    · rw [k3]; field_simp
    · show E.num "Wc" = E.num "s_Wc" * _
      rw [k4]; field_simp

/-- **C54 (stall margins).** The margins compare the running point with the stall line of the map, at the same
speed (`SMN`) and at the speed where the stall line passes the running flow (`SMW`). -/
theorem C54_stall (m : Map.CMap) (d : Bool) (E : Env) (hc : (compressorMap m d).Converged E) :
    let a := E.num "alphaMap"
    let N := E.num "NcMap"
    let R := E.num "RlineMap"
    E.num "SMN" = ((m.W a N R / m.W a N m.RlineStall) / (m.PR a N R / m.PR a N m.RlineStall) - 1) * 100
    ∧ ∃ N', m.W a N' m.RlineStall = m.W a N R
      ∧ E.num "SMW" = (m.PR a N' m.RlineStall - m.PR a N R) / m.PR a N R * 100 := by
  obtain ⟨v1, v2, v3⟩ := c_values hc
  obtain ⟨-, s1, ⟨n1, n2, n3, n4, n5⟩, ⟨w1, w2, w3, w4, w5⟩, ⟨b1, b2⟩, t1, t2, t3, t4, t5, t6, t7⟩ := cw_map d
  have key : E.num "stall_R.RlineStall" = m.RlineStall
      ∧ (readCMap m "SMN_map" [.var "NcMap", .var "alphaMap"] []).eqn ((cw d).rd E "SMN_map") ((cw d).wr E "SMN_map")
      ∧ (readCMap m "SMW_map" [.var "alphaMap"] []).eqn ((cw d).rd E "SMW_map") ((cw d).wr E "SMW_map")
      ∧ E.num "WcMap" = E.num "SMW_map.WcMap"
      ∧ E.num "SMN" = ((E.num "WcMap" / E.num "SMN_map.WcMap") / (E.num "PRmap" / E.num "SMN_map.PRmap") - 1) * 100
      ∧ E.num "SMW" = (E.num "SMW_map.PRmap" - E.num "PRmap") / E.num "PRmap" * 100 := by
    have e1 : (compressorMap m d).subs[if d then 2 else 3]? = some
        { name := "stall_R", ins := [], outs := ["RlineStall"], promI := [], promO := []
          eqn := fun _ o => o.num "RlineStall" = m.RlineStall } := by cases d <;> rfl
    have e2 : (compressorMap m d).subs[if d then 3 else 4]? = some
        (readCMap m "SMN_map" [.var "NcMap", .var "alphaMap"] []) := by cases d <;> rfl
    have e3 : (compressorMap m d).subs[if d then 4 else 5]? = some (readCMap m "SMW_map" [.var "alphaMap"] []) := by
      cases d <;> rfl
    have e4 : (compressorMap m d).subs[if d then 5 else 6]? = some
        { balanceComp [("NcMap", "lhs:NcMap", "rhs:NcMap")] [] [] with name := "SMW_bal" } := by cases d <;> rfl
    have e5 : (compressorMap m d).subs[if d then 6 else 7]? = some
        { name := "stall_margins", ins := ["PR_SMN", "PR_SMW", "PR_actual", "Wc_SMN", "Wc_actual"]
          outs := ["SMN", "SMW"]
          promI := [.as "PR_actual" "PRmap", .as "Wc_actual" "WcMap"], promO := [.var "SMN", .var "SMW"]
          eqn := fun i o =>
            let x : Map.SI → ℝ := fun
              | .PR_SMN => i.num "PR_SMN" | .PR_SMW => i.num "PR_SMW" | .PR_actual => i.num "PR_actual"
              | .Wc_SMN => i.num "Wc_SMN" | .Wc_actual => i.num "Wc_actual"
            o.num "SMN" = Map.stall x .SMN ∧ o.num "SMW" = Map.stall x .SMW } := by cases d <;> rfl
    have h1 := hc.sub (cw_eq m d) (cw_nodup d) _ _ e1 "stall_R" rfl
    have h2 := hc.sub (cw_eq m d) (cw_nodup d) _ _ e2 "SMN_map" rfl
    have h3 := hc.sub (cw_eq m d) (cw_nodup d) _ _ e3 "SMW_map" rfl
    have h4 := hc.sub (cw_eq m d) (cw_nodup d) _ _ e4 "SMW_bal" rfl ("NcMap", "lhs:NcMap", "rhs:NcMap") (by simp)
    have h5 := hc.sub (cw_eq m d) (cw_nodup d) _ _ e5 "stall_margins" rfl
    simp only [Wiring.rd, Wiring.wr, NC.rd, NC.wr, NC.inSrc_eq, NC.outOf_eq, s1, b1, b2, t1, t2, t3, t4, t5, t6, t7, Map.stall] at h1 h4 h5
    exact ⟨h1, h2, h3, h4, h5⟩
  obtain ⟨k1, k2, k3, k4, k5, k6⟩ := key
  simp only [readCMap, Wiring.rd, Wiring.wr, NC.rd, NC.wr, NC.inSrc_eq, NC.outOf_eq, n1, n2, n3, n4, n5, w1, w2, w3, w4, w5, k1] at k2 k3
  refine ⟨?_, E.num "SMW_bal.NcMap", ?_, ?_⟩
  · rw [k5, k2.2.1, k2.2.2, v2, v3]
  · rw [← k3.2.2, ← k4, v3]
  · rw [k6, k3.2.1, v2]

/-- **C54 (design point).** A converged design map, read off design with the scalars it found, is converged:
every value keeps, and the off-design group's own outputs are the machine's speed and flow. -/
theorem C54_compressor_design_point (m : Map.CMap) (E : Env) (hc : (compressorMap m true).Converged E)
    (hv : Map.Usable (m.at (E.num "alphaMap") (E.num "NcMap") (E.num "RlineMap"))) :
    (compressorMap m false).Converged
      { E with num := fun n => if n = "scaledOutput.Nc" then E.num "Nc" else
          if n = "scaledOutput.Wc" then E.num "Wc" else E.num n } := by
  have hon := C54_compressor_map m true E hc fun _ => hv
  obtain ⟨v1, v2, v3⟩ := c_values hc
  set E' : Env := { E with num := fun n => if n = "scaledOutput.Nc" then E.num "Nc" else
          if n = "scaledOutput.Wc" then E.num "Wc" else E.num n } with hE'
  have e0 : ∀ n, n ≠ "scaledOutput.Nc" → n ≠ "scaledOutput.Wc" → E'.num n = E.num n := by
    intro n h1 h2
    simp only [hE', h1, h2, if_false]
  have e1 : E'.num "scaledOutput.Nc" = E.num "Nc" := by simp [hE']
  have e2 : E'.num "scaledOutput.Wc" = E.num "Wc" := by simp [hE']
  -- subsystems the two modes share read and write the same names
  have same : ∀ n ∈ ["map", "stall_R", "SMN_map", "SMW_map", "SMW_bal", "stall_margins"],
      (∀ v ∈ ["alphaMap", "NcMap", "RlineMap", "lhs:NcMap", "rhs:NcMap", "PR_SMN", "PR_SMW", "PR_actual", "Wc_SMN",
          "Wc_actual"], (cw false).inSrc n v = (cw true).inSrc n v ∧ (cw true).inSrc n v ≠ "scaledOutput.Nc"
          ∧ (cw true).inSrc n v ≠ "scaledOutput.Wc")
      ∧ ∀ v ∈ ["effMap", "PRmap", "WcMap", "RlineStall", "NcMap", "SMN", "SMW"],
        (cw false).outOf n v = (cw true).outOf n v ∧ (cw true).outOf n v ≠ "scaledOutput.Nc"
          ∧ (cw true).outOf n v ≠ "scaledOutput.Wc" := by decide +kernel
  have rd : ∀ n ∈ ["map", "stall_R", "SMN_map", "SMW_map", "SMW_bal", "stall_margins"],
      ∀ v ∈ ["alphaMap", "NcMap", "RlineMap", "lhs:NcMap", "rhs:NcMap", "PR_SMN", "PR_SMW", "PR_actual", "Wc_SMN",
          "Wc_actual"], ((cw false).rd E' n).num v = ((cw true).rd E n).num v := by
    intro n hn v hv
    obtain ⟨a, b, c⟩ := (same n hn).1 v hv
    simp only [Wiring.rd, a]
    exact e0 _ b c
  have wr : ∀ n ∈ ["map", "stall_R", "SMN_map", "SMW_map", "SMW_bal", "stall_margins"],
      ∀ v ∈ ["effMap", "PRmap", "WcMap", "RlineStall", "NcMap", "SMN", "SMW"],
        ((cw false).wr E' n).num v = ((cw true).wr E n).num v := by
    intro n hn v hv
    obtain ⟨a, b, c⟩ := (same n hn).2 v hv
    simp only [Wiring.wr, a]
    exact e0 _ b c
  have h : ∀ (k : ℕ) (s : Sub), (compressorMap m true).subs[k]? = some s →
      s.eqn ((cw true).rd E s.name) ((cw true).wr E s.name) := fun k s hs =>
    hc.sub (cw_eq m true) (cw_nodup true) k s hs s.name rfl
  refine Group.converged_of (cw_eq m false) (cw_nodup false) ?_
  intro s hs
  simp only [compressorMap, Bool.false_eq_true, if_false, List.cons_append, List.nil_append, List.mem_cons,
    List.not_mem_nil, or_false] at hs
  rcases hs with rfl | rfl | rfl | rfl | rfl | rfl | rfl | rfl
  · have := h 0 _ rfl
    simp only [readCMap] at this ⊢
    rwa [rd "map" (by decide) _ (by decide), rd "map" (by decide) _ (by decide), rd "map" (by decide) _ (by decide),
      wr "map" (by decide) _ (by decide), wr "map" (by decide) _ (by decide), wr "map" (by decide) _ (by decide)]
  · obtain ⟨hq, o1, o2, o3, o4, -⟩ := cw_scaled
    have f1 := hq .N (by decide)
    have f2 := hq .PR (by decide)
    have f3 := hq .eff (by decide)
    have f4 := hq .W (by decide)
    simp only [qName, qMap, String.reduceAppend] at f1 f2 f3 f4
    have n1 := hon.speed
    have n2 := hon.ratio
    have n3 := hon.efficiency
    have n4 := hon.flow
    simp only [String.reduceAppend] at n1 n2 n3 n4
    intro q hq
    cases q <;> simp only [scaledSub, Wiring.rd, Wiring.wr, NC.rd, NC.wr, NC.inSrc_eq, NC.outOf_eq, qName, qMap, String.reduceAppend, o1, o2, o3, o4, f1, f2, f3, f4,
      Map.scaled]
    · rw [e1, e0 "s_Nc" (by decide) (by decide), e0 "NcMap" (by decide) (by decide), n1]; ring
    · rw [e0 "PR" (by decide) (by decide), e0 "s_PR" (by decide) (by decide), e0 "PRmap" (by decide) (by decide), v2]
      linarith
    · rw [e0 "eff" (by decide) (by decide), e0 "s_eff" (by decide) (by decide), e0 "effMap" (by decide) (by decide), v1, n3]
      ring
    · rw [e2, e0 "s_Wc" (by decide) (by decide), e0 "WcMap" (by decide) (by decide), v3, n4]; ring
  · obtain ⟨-, -, -, -, -, b1, b2, b3, b4⟩ := cw_scaled
    intro b hb
    simp only [List.mem_cons, List.not_mem_nil, or_false] at hb
    rcases hb with rfl | rfl
    · show E'.num ((cw false).inSrc "map_bal" "lhs:NcMap") = E'.num ((cw false).inSrc "map_bal" "rhs:NcMap")
      rw [b1, b2, e1, e0 "Nc" (by decide) (by decide)]
    · show E'.num ((cw false).inSrc "map_bal" "lhs:RlineMap") = E'.num ((cw false).inSrc "map_bal" "rhs:RlineMap")
      rw [b3, b4, e2, e0 "Wc" (by decide) (by decide)]
  · have := h 2 _ rfl
    simp only at this ⊢
    rwa [wr "stall_R" (by decide) _ (by decide)]
  · have := h 3 _ rfl
    simp only [readCMap] at this ⊢
    rwa [rd "SMN_map" (by decide) _ (by decide), rd "SMN_map" (by decide) _ (by decide),
      rd "SMN_map" (by decide) _ (by decide), wr "SMN_map" (by decide) _ (by decide),
      wr "SMN_map" (by decide) _ (by decide), wr "SMN_map" (by decide) _ (by decide)]
  · have := h 4 _ rfl
    simp only [readCMap] at this ⊢
    rwa [rd "SMW_map" (by decide) _ (by decide), rd "SMW_map" (by decide) _ (by decide),
      rd "SMW_map" (by decide) _ (by decide), wr "SMW_map" (by decide) _ (by decide),
      wr "SMW_map" (by decide) _ (by decide), wr "SMW_map" (by decide) _ (by decide)]
  · have := h 5 _ rfl
    intro b hb
    have h2 := this b hb
    rw [List.mem_singleton] at hb
    subst hb
    simp only at h2 ⊢
    rwa [rd "SMW_bal" (by decide) _ (by decide), rd "SMW_bal" (by decide) _ (by decide)]
  · have := h 6 _ rfl
    simp only at this ⊢
    rwa [rd "stall_margins" (by decide) _ (by decide), rd "stall_margins" (by decide) _ (by decide),
      rd "stall_margins" (by decide) _ (by decide), rd "stall_margins" (by decide) _ (by decide),
      rd "stall_margins" (by decide) _ (by decide), wr "stall_margins" (by decide) _ (by decide),
      wr "stall_margins" (by decide) _ (by decide)]

/-! ## Turbine map -/

private def t₀ : Map.TMap := ⟨fun _ _ _ => 0, fun _ _ _ => 0⟩
private abbrev tw (d : Bool) : Wiring := (turbineMap t₀ d).wiring

private theorem tw_eq (m : Map.TMap) (d : Bool) : (turbineMap m d).wiring = tw d := by cases d <;> rfl

private theorem tw_nodup : ∀ d, ((tw d).subs.map (·.name)).Nodup := by decide +kernel

/-- What a turbine map needs. -/
def turbineMapInputs (d : Bool) : List String :=
  ["alphaMap", "Np", "Wp"]
    ++ (if d then ["NpMap", "PRmap", "PR", "eff"] else ["s_Np", "s_PR", "s_eff", "s_Wp"])

/-- **C54 (turbine map, interface).** -/
theorem C54_turbine_interface (m : Map.TMap) (d : Bool) :
    (turbineMap m d).wiring.Accepted
    ∧ ∀ n, n ∈ (turbineMap m d).wiring.externals ↔ n ∈ turbineMapInputs d := by
  rw [tw_eq]
  have h : ∀ d, (tw d).Accepted ∧ (tw d).externals ⊆ turbineMapInputs d
      ∧ turbineMapInputs d ⊆ (tw d).externals := by decide +kernel
  exact ⟨(h d).1, fun n => ⟨fun hn => (h d).2.1 hn, fun hn => (h d).2.2 hn⟩⟩

private theorem tw_map : ∀ d,
    ((tw d).inSrc "readMap" "alphaMap" = "alphaMap" ∧ (tw d).inSrc "readMap" "NpMap" = "NpMap"
      ∧ (tw d).inSrc "readMap" "PRmap" = "PRmap" ∧ (tw d).outOf "readMap" "effMap" = "effMap"
      ∧ (tw d).outOf "readMap" "WpMap" = "WpMap") := by
  decide +kernel

private theorem tw_scalars : ∀ q ∈ qAll, (tw true).inSrc "scalars" (qName "p" q) = qName "p" q
    ∧ (tw true).inSrc "scalars" (qMap "p" q) = qMap "p" q
    ∧ (tw true).outOf "scalars" ("s_" ++ qName "p" q) = "s_" ++ qName "p" q := by decide +kernel

private theorem tw_scaled : (∀ q ∈ qAll, (tw false).inSrc "scaledOutput" ("s_" ++ qName "p" q) = "s_" ++ qName "p" q
      ∧ (tw false).inSrc "scaledOutput" (qMap "p" q) = qMap "p" q)
    ∧ (tw false).outOf "scaledOutput" "Np" = "scaledOutput.Np" ∧ (tw false).outOf "scaledOutput" "Wp" = "scaledOutput.Wp"
    ∧ (tw false).outOf "scaledOutput" "PR" = "PR" ∧ (tw false).outOf "scaledOutput" "eff" = "eff"
    ∧ (tw false).inSrc "map_bal" "lhs:NpMap" = "Np" ∧ (tw false).inSrc "map_bal" "rhs:NpMap" = "scaledOutput.Np"
    ∧ (tw false).inSrc "map_bal" "lhs:PRmap" = "Wp" ∧ (tw false).inSrc "map_bal" "rhs:PRmap" = "scaledOutput.Wp" := by
  decide +kernel

/-- **C54 (turbine map).** The same for a turbine map, whose coordinates are speed and pressure ratio. -/
theorem C54_turbine_map (m : Map.TMap) (d : Bool) (E : Env) (hc : (turbineMap m d).Converged E)
    (hv : d = true → Map.Usable (m.at (E.num "alphaMap") (E.num "NpMap") (E.num "PRmap"))) :
    OnMap E "p" (E.num "NpMap") (E.num "PRmap") (m.eff (E.num "alphaMap") (E.num "NpMap") (E.num "PRmap"))
      (m.W (E.num "alphaMap") (E.num "NpMap") (E.num "PRmap")) := by
  obtain ⟨a1, a2, a3, a4, a5⟩ := tw_map d
  have h0 := hc.sub (tw_eq m d) (tw_nodup d) 0 (readTMap m) (by cases d <;> rfl) "readMap" rfl
  simp only [readTMap, Wiring.rd, Wiring.wr, NC.rd, NC.wr, NC.inSrc_eq, NC.outOf_eq, a1, a2, a3, a4, a5] at h0
  obtain ⟨v1, v3⟩ := h0
  cases d
  · obtain ⟨hq, o1, o2, o3, o4, b1, b2, b3, b4⟩ := tw_scaled
    have h := hc.sub (tw_eq m false) (tw_nodup false) 1 (scaledSub "p") rfl "scaledOutput" rfl
    have hb := hc.sub (tw_eq m false) (tw_nodup false) 2 _ rfl "map_bal" rfl
    have g1 := hb ("NpMap", "lhs:NpMap", "rhs:NpMap") (by simp)
    have g2 := hb ("PRmap", "lhs:PRmap", "rhs:PRmap") (by simp)
    simp only [Wiring.rd, b1, b2, b3, b4] at g1 g2
    have k1 := h .N (by decide)
    have k2 := h .PR (by decide)
    have k3 := h .eff (by decide)
    have k4 := h .W (by decide)
    have f1 := hq .N (by decide)
    have f2 := hq .PR (by decide)
    have f3 := hq .eff (by decide)
    have f4 := hq .W (by decide)
    simp only [qName, qMap, String.reduceAppend] at f1 f2 f3 f4
    simp only [Wiring.rd, Wiring.wr, NC.rd, NC.wr, NC.inSrc_eq, NC.outOf_eq, qName, qMap, String.reduceAppend, o1, o2, o3, o4, f1, f2, f3, f4, Map.scaled]
      at k1 k2 k3 k4
    constructor
    · show E.num "Np" = E.num "s_Np" * _
      rw [g1, k1]; ring
    · rw [k2]; ring
    · rw [k3, ← v1]; ring
    · show E.num "Wp" = E.num "s_Wp" * _
      rw [g2, k4, ← v3]; ring
  · obtain ⟨u1, u2, u3, u4⟩ := hv rfl
    simp only [Map.TMap.at] at u1 u2 u3 u4
    have h := hc.sub (tw_eq m true) (tw_nodup true) 1 (scalarsSub "p") rfl "scalars" rfl
    have k1 := h .N (by decide)
    have k2 := h .PR (by decide)
    have k3 := h .eff (by decide)
    have k4 := h .W (by decide)
    have f1 := tw_scalars .N (by decide)
    have f2 := tw_scalars .PR (by decide)
    have f3 := tw_scalars .eff (by decide)
    have f4 := tw_scalars .W (by decide)
    simp only [qName, qMap, String.reduceAppend] at f1 f2 f3 f4
    simp only [Wiring.rd, Wiring.wr, NC.rd, NC.wr, NC.inSrc_eq, NC.outOf_eq, qName, qMap, String.reduceAppend, f1, f2, f3, f4, Map.scalars, v1, v3]
      at k1 k2 k3 k4
    have u2' := sub_ne_zero.mpr u2
    constructor
    · show E.num "Np" = E.num "s_Np" * _
      rw [k1]; field_simp
    · rw [k2]; field_simp
    · rw [k3]; field_simp
    · show E.num "Wp" = E.num "s_Wp" * _
      rw [k4]; field_simp

/-- **C54 (turbine design point).** A converged design map, read off design with the scalars it found, is
converged. -/
theorem C54_turbine_design_point (m : Map.TMap) (E : Env) (hc : (turbineMap m true).Converged E)
    (hv : Map.Usable (m.at (E.num "alphaMap") (E.num "NpMap") (E.num "PRmap"))) :
    (turbineMap m false).Converged
      { E with num := fun n => if n = "scaledOutput.Np" then E.num "Np" else
          if n = "scaledOutput.Wp" then E.num "Wp" else E.num n } := by
  have hon := C54_turbine_map m true E hc fun _ => hv
  obtain ⟨a1, a2, a3, a4, a5⟩ := tw_map true
  have h0 := hc.sub (tw_eq m true) (tw_nodup true) 0 (readTMap m) rfl "readMap" rfl
  simp only [readTMap, Wiring.rd, Wiring.wr, NC.rd, NC.wr, NC.inSrc_eq, NC.outOf_eq, a1, a2, a3, a4, a5] at h0
  obtain ⟨v1, v3⟩ := h0
  set E' : Env := { E with num := fun n => if n = "scaledOutput.Np" then E.num "Np" else
          if n = "scaledOutput.Wp" then E.num "Wp" else E.num n } with hE'
  have e0 : ∀ n, n ≠ "scaledOutput.Np" → n ≠ "scaledOutput.Wp" → E'.num n = E.num n := by
    intro n h1 h2
    simp only [hE', h1, h2, if_false]
  have e1 : E'.num "scaledOutput.Np" = E.num "Np" := by simp [hE']
  have e2 : E'.num "scaledOutput.Wp" = E.num "Wp" := by simp [hE']
  refine Group.converged_of (tw_eq m false) (tw_nodup false) ?_
  intro s hs
  simp only [turbineMap, Bool.false_eq_true, if_false, List.cons_append, List.nil_append, List.mem_cons,
    List.not_mem_nil, or_false] at hs
  rcases hs with rfl | rfl | rfl
  · obtain ⟨c1, c2, c3, c4, c5⟩ := tw_map false
    simp only [readTMap, Wiring.rd, Wiring.wr, NC.rd, NC.wr, NC.inSrc_eq, NC.outOf_eq, c1, c2, c3, c4, c5]
    rw [e0 "effMap" (by decide) (by decide), e0 "WpMap" (by decide) (by decide), e0 "alphaMap" (by decide) (by decide),
      e0 "NpMap" (by decide) (by decide), e0 "PRmap" (by decide) (by decide)]
    exact ⟨v1, v3⟩
  · obtain ⟨hq, o1, o2, o3, o4, -⟩ := tw_scaled
    have f1 := hq .N (by decide)
    have f2 := hq .PR (by decide)
    have f3 := hq .eff (by decide)
    have f4 := hq .W (by decide)
    simp only [qName, qMap, String.reduceAppend] at f1 f2 f3 f4
    have n1 := hon.speed
    have n2 := hon.ratio
    have n3 := hon.efficiency
    have n4 := hon.flow
    simp only [String.reduceAppend] at n1 n2 n3 n4
    intro q hq
    cases q <;> simp only [scaledSub, Wiring.rd, Wiring.wr, NC.rd, NC.wr, NC.inSrc_eq, NC.outOf_eq, qName, qMap, String.reduceAppend, o1, o2, o3, o4, f1, f2, f3, f4,
      Map.scaled]
    · rw [e1, e0 "s_Np" (by decide) (by decide), e0 "NpMap" (by decide) (by decide), n1]; ring
    · rw [e0 "PR" (by decide) (by decide), e0 "s_PR" (by decide) (by decide), e0 "PRmap" (by decide) (by decide)]
      linarith
    · rw [e0 "eff" (by decide) (by decide), e0 "s_eff" (by decide) (by decide), e0 "effMap" (by decide) (by decide), v1, n3]
      ring
    · rw [e2, e0 "s_Wp" (by decide) (by decide), e0 "WpMap" (by decide) (by decide), v3, n4]; ring
  · obtain ⟨-, -, -, -, -, b1, b2, b3, b4⟩ := tw_scaled
    intro b hb
    simp only [List.mem_cons, List.not_mem_nil, or_false] at hb
    rcases hb with rfl | rfl
    · show E'.num ((tw false).inSrc "map_bal" "lhs:NpMap") = E'.num ((tw false).inSrc "map_bal" "rhs:NpMap")
      rw [b1, b2, e1, e0 "Np" (by decide) (by decide)]
    · show E'.num ((tw false).inSrc "map_bal" "lhs:PRmap") = E'.num ((tw false).inSrc "map_bal" "rhs:PRmap")
      rw [b3, b4, e2, e0 "Wp" (by decide) (by decide)]

/-! ## Converged examples -/

namespace C54Example

/-- A compressor map. -/
noncomputable def cmap : Map.CMap := ⟨fun _ N _ => 1 + N, fun _ _ _ => 0.5, fun _ N R => N * R, 1⟩

/-- A machine three times as fast and of twice the flow, at map speed 2 and line 2. -/
noncomputable def atDesign : Env := Env.ofTable
  [("alphaMap", 0), ("NcMap", 2), ("RlineMap", 2), ("PRmap", 3), ("effMap", 0.5), ("WcMap", 4), ("Nc", 6), ("PR", 5),
   ("eff", 0.25), ("Wc", 8), ("s_Nc", 3), ("s_PR", 2), ("s_eff", 0.5), ("s_Wc", 2), ("stall_R.RlineStall", 1),
   ("SMN_map.PRmap", 3), ("SMN_map.WcMap", 2), ("SMN_map.effMap", 0.5), ("SMW_map.PRmap", 5), ("SMW_map.WcMap", 4),
   ("SMW_map.effMap", 0.5), ("SMW_bal.NcMap", 4), ("SMN", 100), ("SMW", 200 / 3)] []

theorem atDesign_converged : (compressorMap cmap true).Converged atDesign := by
  refine Group.converged_of (cw_eq cmap true) (cw_nodup true) ?_
  intro s hs
  simp only [compressorMap, if_true, List.cons_append, List.nil_append, List.mem_cons,
    List.not_mem_nil, or_false] at hs
  rcases hs with rfl | rfl | rfl | rfl | rfl | rfl | rfl
  · show (0.5 : ℝ) = 0.5 ∧ (3 : ℝ) = 1 + 2 ∧ (4 : ℝ) = 2 * 2
    norm_num
  · intro q hq
    cases q
    · show (3 : ℝ) = 6 / 2
      norm_num
    · show (2 : ℝ) = (5 - 1) / (3 - 1)
      norm_num
    · show (0.5 : ℝ) = 0.25 / 0.5
      norm_num
    · show (2 : ℝ) = 8 / 4
      norm_num
  · rfl
  · show (0.5 : ℝ) = 0.5 ∧ (3 : ℝ) = 1 + 2 ∧ (2 : ℝ) = 2 * 1
    norm_num
  · show (0.5 : ℝ) = 0.5 ∧ (5 : ℝ) = 1 + 4 ∧ (4 : ℝ) = 4 * 1
    norm_num
  · intro b hb
    rw [List.mem_singleton] at hb
    subst hb
    rfl
  · show (100 : ℝ) = ((4 / 2) / (3 / 3) - 1) * 100 ∧ (200 / 3 : ℝ) = (5 - 3) / 3 * 100
    norm_num

/-- Its point of the map is usable. -/
example : Map.Usable (cmap.at (atDesign.num "alphaMap") (atDesign.num "NcMap") (atDesign.num "RlineMap")) := by
  show (2 : ℝ) ≠ 0 ∧ (1 + 2 : ℝ) ≠ 1 ∧ (0.5 : ℝ) ≠ 0 ∧ (2 * 2 : ℝ) ≠ 0
  norm_num

/-- A turbine map. -/
noncomputable def tmap : Map.TMap := ⟨fun _ _ _ => 0.5, fun _ N PR => N * PR⟩

/-- A turbine at map speed 2 and pressure ratio 3. -/
noncomputable def expanding : Env := Env.ofTable
  [("alphaMap", 0), ("NpMap", 2), ("PRmap", 3), ("effMap", 0.5), ("WpMap", 6), ("Np", 6), ("PR", 5),
   ("eff", 0.25), ("Wp", 12), ("s_Np", 3), ("s_PR", 2), ("s_eff", 0.5), ("s_Wp", 2)] []

theorem expanding_converged : (turbineMap tmap true).Converged expanding := by
  refine Group.converged_of (tw_eq tmap true) (tw_nodup true) ?_
  intro s hs
  simp only [turbineMap, if_true, List.cons_append, List.nil_append, List.mem_cons,
    List.not_mem_nil, or_false] at hs
  rcases hs with rfl | rfl
  · show (0.5 : ℝ) = 0.5 ∧ (6 : ℝ) = 2 * 3
    norm_num
  · intro q hq
    cases q
    · show (3 : ℝ) = 6 / 2
      norm_num
    · show (2 : ℝ) = (5 - 1) / (3 - 1)
      norm_num
    · show (0.5 : ℝ) = 0.25 / 0.5
      norm_num
    · show (2 : ℝ) = 12 / 6
      norm_num

/-- Its point of the map is usable. -/
example : Map.Usable (tmap.at (expanding.num "alphaMap") (expanding.num "NpMap") (expanding.num "PRmap")) := by
  show (2 : ℝ) ≠ 0 ∧ (3 : ℝ) ≠ 1 ∧ (0.5 : ℝ) ≠ 0 ∧ (2 * 3 : ℝ) ≠ 0
  norm_num

end C54Example

end PyCycle.OM
