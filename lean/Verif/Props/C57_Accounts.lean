import Verif.Spec.Accounts
import Verif.Props.C49_FlowStart
import Verif.Props.C56_Turbine

/-! # C57: the elements keep their accounts -/

namespace PyCycle.OM
open C49

/-! ## Flow start and flight conditions -/

/-- **C57 (flow start).** -/
theorem C57_flow_start (gas : (ℕ → ℝ) → TPGas) (r : Option Adder) :
    (startAccount gas).Holds (flowStart gas r) where
  insNodup := List.nodup_nil
  outsNodup := List.nodup_singleton _
  ins := by intro p hp; cases hp
  outs := by
    rw [fw_eq]
    have h : ∀ r, ∀ p ∈ ["Fl_O"], ∀ v ∈ portVars, p ++ ":" ++ v ∈ (fw r).outs := by decide +kernel
    exact h _
  seen := by
    intro V V' h
    have k : "W" ∈ (flowStart gas r).wiring.externals := ((C49_interface gas r).2 _).mpr (by simp)
    have k' : ∀ r, "Fl_O:tot:h" ∈ (fw r).outs := by decide +kernel
    refine ⟨(h "W" (Or.inl k)).1, ?_, fun _ => trivial⟩
    simp only [startAccount, (h "W" (Or.inl k)).1, (h "Fl_O:tot:h" (Or.inr (by rw [fw_eq]; exact k' _))).1]
  states := by
    intro V hV p hp
    obtain ⟨h1, h2⟩ := C49_flow_start gas r V hV
    obtain rfl := List.mem_singleton.mp hp
    have := h1.total
    rw [← h2] at this
    exact this
  mass := by
    intro V hV _
    obtain ⟨h1, -⟩ := C49_flow_start gas r V hV
    simp [Account.MassBalance, startAccount, Env.W, h1.flow]
  energy := by
    intro V hV _ _
    obtain ⟨h1, -⟩ := C49_flow_start gas r V hV
    simp [Account.EnergyBalance, startAccount, Env.H, h1.flow]

/-- **C57 (flight conditions).** -/
theorem C57_flight (gas : (ℕ → ℝ) → TPGas) (r : Option Adder) :
    (startAccount gas).Holds (flightConditions gas r) where
  insNodup := List.nodup_nil
  outsNodup := List.nodup_singleton _
  ins := by intro p hp; cases hp
  outs := by
    rw [cwf_eq]
    have h : ∀ r, ∀ p ∈ ["Fl_O"], ∀ v ∈ portVars, p ++ ":" ++ v ∈ (cwf r).outs := by decide +kernel
    exact h _
  seen := by
    intro V V' h
    have k : "W" ∈ (flightConditions gas r).wiring.externals := ((C49_flight_interface gas r).2 _).mpr (by simp)
    have k' : ∀ r, "Fl_O:tot:h" ∈ (cwf r).outs := by decide +kernel
    refine ⟨(h "W" (Or.inl k)).1, ?_, fun _ => trivial⟩
    simp only [startAccount, (h "W" (Or.inl k)).1, (h "Fl_O:tot:h" (Or.inr (by rw [cwf_eq]; exact k' _))).1]
  states := by
    intro V hV p hp
    obtain ⟨-, -, h1, -⟩ := C49_flight gas r V hV
    obtain rfl := List.mem_singleton.mp hp
    exact h1.total
  mass := by
    intro V hV _
    obtain ⟨-, -, h1, -⟩ := C49_flight gas r V hV
    simp [Account.MassBalance, startAccount, Env.W, h1.flow]
  energy := by
    intro V hV _ _
    obtain ⟨-, -, h1, -⟩ := C49_flight gas r V hV
    simp [Account.EnergyBalance, startAccount, Env.H, h1.flow]

/-! ## Inlet, duct, splitter -/

/-- **C57 (inlet).** -/
theorem C57_inlet (gas : (ℕ → ℝ) → TPGas) (d s : Bool) : (inletAccount gas).Holds (inlet gas d s) where
  insNodup := List.nodup_singleton _
  outsNodup := List.nodup_singleton _
  ins := by
    have h : ∀ p ∈ ["Fl_I"], ∀ v ∈ portVars, p ++ ":" ++ v ∈ inletPort := by decide +kernel
    intro p hp v hv
    rw [(C50_inlet_interface gas d s).2]
    exact List.mem_append_left _ (List.mem_append_left _ (h p hp v hv))
  outs := by
    have h : ∀ d s, ∀ p ∈ ["Fl_O"], ∀ v ∈ portVars, p ++ ":" ++ v ∈ (inlet gas0 d s).wiring.outs := by decide +kernel
    have e : (inlet gas d s).wiring = (inlet gas0 d s).wiring := by cases d <;> cases s <;> rfl
    rw [e]; exact h d s
  seen := by
    intro V V' h
    have k : ∀ n ∈ inletPort ++ ["flow_in.Fl_I:FAR", "ram_recovery"], V.num n = V'.num n ∧ V.vec n = V'.vec n :=
      fun n hn => h n (Or.inl (((C50_inlet_interface gas d s).2 n).mpr (List.mem_append_left _ hn)))
    refine ⟨rfl, ?_, fun _ => trivial⟩
    simp only [inletAccount, (k "Fl_I:stat:W" (by decide)).1, (k "Fl_I:tot:T" (by decide)).1,
      (k "Fl_I:tot:P" (by decide)).1, (k "ram_recovery" (by decide)).1, (k "Fl_I:tot:composition" (by decide)).2]
  states := by
    intro V hV p hp
    obtain ⟨-, -, h3, h4, -⟩ := C50_inlet gas d s V hV
    obtain rfl := List.mem_singleton.mp hp
    rw [← h3] at h4
    exact h4
  mass := by
    intro V hV _
    obtain ⟨-, -, -, -, h5, -⟩ := C50_inlet gas d s V hV
    simp [Account.MassBalance, inletAccount, Env.W, h5]
  energy := by
    intro V hV _ hi
    obtain ⟨h1, h2, -, h4, h5, -⟩ := C50_inlet gas d s V hV
    have hi := (hi "Fl_I" (List.mem_singleton.mpr rfl)).h
    have ho := h4.h
    simp only [inletAccount, Env.at, String.reduceAppend] at hi ho
    simp only [Account.EnergyBalance, inletAccount, Env.H, String.reduceAppend, List.map_cons, List.map_nil,
      List.sum_cons, List.sum_nil, h5, hi, ho, h1, h2]
    ring

/-- **C57 (duct).** -/
theorem C57_duct (gas : (ℕ → ℝ) → TPGas) (d s : Bool) (x : ℝ) (m : Bool) :
    (ductAccount gas).Holds (duct gas d s x m) where
  insNodup := List.nodup_singleton _
  outsNodup := List.nodup_singleton _
  ins := by
    have h : ∀ p ∈ ["Fl_I"], ∀ v ∈ portVars, p ++ ":" ++ v ∈ inletPort := by decide +kernel
    intro p hp v hv
    rw [(C50_duct_interface gas d s x m).2]
    exact List.mem_append_left _ (List.mem_append_left _ (h p hp v hv))
  outs := by
    have h : ∀ d s m, ∀ p ∈ ["Fl_O"], ∀ v ∈ portVars, p ++ ":" ++ v ∈ (duct gas0 d s 0 m).wiring.outs := by
      decide +kernel
    have e : (duct gas d s x m).wiring = (duct gas0 d s 0 m).wiring := by cases d <;> cases s <;> cases m <;> rfl
    rw [e]; exact h d s m
  seen := by
    intro V V' h
    have k : ∀ n, n ∈ inletPort ++ ["flow_in.Fl_I:FAR"] ++ ductInputs d s m → V.num n = V'.num n :=
      fun n hn => (h n (Or.inl (((C50_duct_interface gas d s x m).2 n).mpr hn))).1
    refine ⟨rfl, k "Q_dot" ?_, fun hok => ?_⟩
    · refine List.mem_append_right _ ?_
      simp [ductInputs]
    · have := k "Fl_I:stat:W" (List.mem_append_left _ (by decide))
      simp only [ductAccount] at hok ⊢
      rwa [← this]
  states := by
    intro V hV p hp
    obtain ⟨-, -, h3, h4, -⟩ := C50_duct gas d s x m V hV
    obtain rfl := List.mem_singleton.mp hp
    rw [← h3] at h4
    exact h4
  mass := by
    intro V hV _
    obtain ⟨-, -, -, -, h5, -⟩ := C50_duct gas d s x m V hV
    simp [Account.MassBalance, ductAccount, Env.W, h5]
  energy := by
    intro V hV hok _
    obtain ⟨-, h2, -⟩ := C50_duct gas d s x m V hV
    have := h2 hok
    simpa [Account.EnergyBalance, ductAccount, Env.H] using this

/-- **C57 (splitter).** -/
theorem C57_splitter (gas : (ℕ → ℝ) → TPGas) (d s : Bool) : (splitterAccount gas).Holds (splitter gas d s) where
  insNodup := List.nodup_singleton _
  outsNodup := by simp [splitterAccount]
  ins := by
    have h : ∀ p ∈ ["Fl_I"], ∀ v ∈ portVars, p ++ ":" ++ v ∈ flowVarNames "Fl_I" := by decide +kernel
    intro p hp v hv
    rw [(C50_splitter_interface gas d s).2]
    exact List.mem_append_left _ (List.mem_append_left _ (h p hp v hv))
  outs := by
    have h : ∀ d s, ∀ p ∈ ["Fl_O1", "Fl_O2"], ∀ v ∈ portVars, p ++ ":" ++ v ∈ (splitter gas0 d s).wiring.outs := by
      decide +kernel
    have e : (splitter gas d s).wiring = (splitter gas0 d s).wiring := by cases d <;> cases s <;> rfl
    rw [e]; exact h d s
  seen := fun _ _ _ => ⟨rfl, rfl, fun _ => trivial⟩
  states := by
    intro V hV p hp
    obtain ⟨-, -, ⟨-, -, c1, s1⟩, ⟨-, -, c2, s2⟩, -⟩ := C50_splitter gas d s V hV
    rw [← c1] at s1; rw [← c2] at s2
    have : p = "Fl_O1" ∨ p = "Fl_O2" := by simpa [splitterAccount] using hp
    rcases this with rfl | rfl
    · exact s1
    · exact s2
  mass := by
    intro V hV _
    obtain ⟨h1, -⟩ := C50_splitter gas d s V hV
    simp [Account.MassBalance, splitterAccount, Env.W, h1]
  energy := by
    intro V hV _ hi
    obtain ⟨h1, -, ⟨t1, p1, -, s1⟩, ⟨t2, p2, -, s2⟩, -⟩ := C50_splitter gas d s V hV
    have hi := (hi "Fl_I" (List.mem_singleton.mpr rfl)).h
    have o1 := s1.h
    have o2 := s2.h
    simp only [splitterAccount, Env.at, String.reduceAppend] at hi o1 o2
    rw [t1, p1, ← hi] at o1
    rw [t2, p2, ← hi] at o2
    simp only [Account.EnergyBalance, splitterAccount, Env.H, String.reduceAppend, List.map_cons, List.map_nil,
      List.sum_cons, List.sum_nil, o1, o2, ← h1]
    ring

/-! ## Bleed extraction -/

private theorem bleed_out_names (gas : (ℕ → ℝ) → TPGas) {bs : List String} (d s : Bool) {b : String} (hb : b ∈ bs) :
    ∀ v ∈ portVars, b ++ ":" ++ v ∈ (bleedOut gas bs d s).wiring.outs := by
  have hf : (extractFlow gas b).toDecl ∈ (bleedOut gas bs d s).wiring.subs := by
    have : extractFlow gas b ∈ (bleedOut gas bs d s).subs := by
      simp only [bleedOut, List.mem_append, List.mem_map]
      exact Or.inl (Or.inr ⟨b, hb, rfl⟩)
    exact List.mem_map_of_mem this
  have ho : (extractFlow gas b).outs.map (extractFlow gas b).outName
      = (ownSpecs .total_TP "_flow" ":tot").map (bname b) := by
    have e : b ++ ":tot:" = b ++ (":tot" ++ ":") := rfl
    unfold extractFlow
    rw [e]
    exact thermo_own gas .total_TP rfl b "_flow" ":tot" (by decide) _
  intro v hv
  by_cases hw : v = "stat:W"
  · subst hw
    have hc : (bleedCalcsSub bs).toDecl ∈ (bleedOut gas bs d s).wiring.subs := by
      have : bleedCalcsSub bs ∈ (bleedOut gas bs d s).subs := by simp [bleedOut]
      exact List.mem_map_of_mem this
    refine List.mem_flatMap.mpr ⟨_, hc, List.mem_map.mpr ⟨b ++ ":stat:W", ?_, ?_⟩⟩
    · simp only [bleedCalcsSub, List.mem_append, List.mem_flatMap, List.mem_map]
      simp [hb]
    · have : promoted (bleedCalcsSub bs).promO (b ++ ":stat:W") = some (b ++ ":stat:W") := by
        refine promoted_fits ⟨.pre (b ++ ":"), ?_, ?_⟩ ?_
        · simp only [bleedCalcsSub, List.mem_append, List.mem_map]
          exact Or.inr ⟨b, hb, rfl⟩
        · have : b ++ ":stat:W" = b ++ ":" ++ "stat:W" := by rw [String.append_assoc]; rfl
          rw [this]; exact pre_fits _ _
        · intro p hp
          simp only [bleedCalcsSub, List.mem_append, List.mem_singleton, List.mem_map] at hp
          rcases hp with rfl | ⟨b', -, rfl⟩
          · exact exact_var_ne (ne_plain b (by decide) (by decide)).symm
          · rfl
      simp only [Decl.outName, this, Option.getD_some]
      rw [String.append_assoc]; rfl
  · refine List.mem_flatMap.mpr ⟨_, hf, ?_⟩
    rw [ho]
    have hq : ∀ v ∈ portVars, v ≠ "stat:W" → ("", ":" ++ v) ∈ ownSpecs .total_TP "_flow" ":tot" := by decide +kernel
    refine List.mem_map.mpr ⟨("", ":" ++ v), hq v hv hw, ?_⟩
    rw [bname_nil, String.append_assoc]

private theorem bleed_out_main (gas : (ℕ → ℝ) → TPGas) {bs : List String} (d s : Bool) :
    ∀ v ∈ portVars, "Fl_O" ++ ":" ++ v ∈ (bleedOut gas bs d s).wiring.outs := by
  have h : ∀ d s, ∀ v ∈ portVars,
      "Fl_O" ++ ":" ++ v ∈ ((bleedOut gas0 [] d s).wiring.subs.drop 2).flatMap fun t => t.outs.map t.outName := by
    decide +kernel
  intro v hv
  obtain ⟨t, ht, hm⟩ := List.mem_flatMap.mp (h d s v hv)
  refine List.mem_flatMap.mpr ⟨t, ?_, hm⟩
  have hs : (bleedOut gas bs d s).wiring.subs
      = (([flowIn "flow_in" "Fl_I" [.pre "Fl_I:tot:", .pre "Fl_I:stat:"] [.pre "Fl_I:tot:", .pre "Fl_I:stat:"]]
      ++ [bleedCalcsSub bs] ++ bs.map (extractFlow gas)).map Sub.toDecl) ++ (bleedOut gas0 [] d s).wiring.subs.drop 2 := by
    cases d <;> cases s <;> simp only [Group.wiring, bleedOut, List.map_append] <;> rfl
  rw [hs]
  exact List.mem_append_right _ ht

/-- **C57 (bleed extraction).** -/
theorem C57_bleed_out (gas : (ℕ → ℝ) → TPGas) {bs : List String} (hb : BleedNames bleedTails bleedOutReserved bs)
    (hne : bs ≠ []) (d s : Bool) : (bleedOutAccount gas bs).Holds (bleedOut gas bs d s) where
  insNodup := List.nodup_singleton _
  outsNodup := by
    refine List.nodup_cons.mpr ⟨fun h => ?_, hb.nodup⟩
    exact hb.fresh _ h "" (by decide) (by decide)
  ins := by
    have h : ∀ p ∈ ["Fl_I"], ∀ v ∈ portVars, p ++ ":" ++ v ∈ inletPort := by decide +kernel
    intro p hp v hv
    rw [(C53_interface gas hb hne d s).2]
    exact Or.inl (List.mem_append_left _ (List.mem_append_left _ (h p hp v hv)))
  outs := by
    intro p hp
    rcases List.mem_cons.mp hp with rfl | hp
    · exact bleed_out_main gas d s
    · exact bleed_out_names gas d s hp
  seen := fun _ _ _ => ⟨rfl, rfl, fun _ => trivial⟩
  states := by
    intro V hV p hp
    obtain ⟨h1, -, -, -, h2, h3, -⟩ := C53_bleed_out gas hb d s V hV
    rcases List.mem_cons.mp hp with rfl | hp
    · rw [← h2] at h3; exact h3
    · obtain ⟨-, -, -, c, st⟩ := h1 p hp
      rw [← c] at st
      have e : p ++ ":tot" ++ ":" ++ "composition" = p ++ ":tot:composition" := by
        rw [String.append_assoc, String.append_assoc]; rfl
      rw [e] at st
      exact st
  mass := by
    intro V hV _
    obtain ⟨-, h, -⟩ := C53_bleed_out gas hb d s V hV
    simp only [Account.MassBalance, bleedOutAccount, List.map_cons, List.sum_cons, List.map_nil, List.sum_nil,
      add_zero]
    exact h
  energy := by
    intro V hV _ hi
    obtain ⟨-, -, -, -, -, -, h, -⟩ := C53_bleed_out gas hb d s V hV
    have h := (h (hi "Fl_I" (List.mem_singleton.mpr rfl))).1
    simp only [Account.EnergyBalance, bleedOutAccount, List.map_cons, List.sum_cons, List.map_nil, List.sum_nil,
      add_zero]
    have e : ∀ b : String, V.at (b ++ ":tot") "h" = V.num (b ++ ":tot:h") := fun b => by
      simp only [Env.at]; rw [String.append_assoc, String.append_assoc]; rfl
    simp only [e] at h
    exact h

/-! ## Nozzle -/

/-- **C57 (nozzle).** -/
theorem C57_nozzle (gas : (ℕ → ℝ) → TPGas) (k : Noz.NozzType) (l : Noz.Loss) :
    (nozzleAccount gas).Holds (nozzle gas k l) where
  insNodup := List.nodup_singleton _
  outsNodup := List.nodup_singleton _
  ins := by
    have h : ∀ p ∈ ["Fl_I"], ∀ v ∈ portVars, p ++ ":" ++ v ∈ flowVarNames "Fl_I" := by decide +kernel
    intro p hp v hv
    rw [(C52_interface gas k l).2]
    exact List.mem_append_left _ (h p hp v hv)
  outs := by
    have h : ∀ l ∈ losses, ∀ p ∈ ["Fl_O"], ∀ v ∈ portVars, p ++ ":" ++ v ∈ (nozzle gas0 .CV l).wiring.outs := by
      decide +kernel
    have e : (nozzle gas k l).wiring = (nozzle gas0 .CV l).wiring := by cases k <;> cases l <;> rfl
    rw [e]; exact h l (by cases l <;> decide)
  seen := fun _ _ _ => ⟨rfl, rfl, fun _ => trivial⟩
  states := by
    intro V hV p hp
    obtain ⟨-, -, -, -, -, c, st, -⟩ := C52_pressure gas k l V hV
    obtain rfl := List.mem_singleton.mp hp
    rw [← c] at st
    exact st
  mass := by
    intro V hV _
    obtain ⟨-, -, -, -, h, -⟩ := C52_exit gas k l V hV
    simp [Account.MassBalance, nozzleAccount, Env.W, h]
  energy := by
    intro V hV _ _
    obtain ⟨-, -, -, -, h, -⟩ := C52_exit gas k l V hV
    obtain ⟨-, -, -, -, h', -⟩ := C52_pressure gas k l V hV
    simp [Account.EnergyBalance, nozzleAccount, Env.H, h, h']

/-! ## Compressor and turbine -/

private theorem at_tot (V : Env) (b : String) : V.at (b ++ ":tot") "h" = V.num (b ++ ":tot:h") := by
  simp only [Env.at]; rw [String.append_assoc, String.append_assoc]; rfl

/-- **C57 (compressor).** -/
theorem C57_compressor (gas : (ℕ → ℝ) → TPGas) (m : Map.CMap) {bs : List String}
    (hb : BleedNames compressorTails compressorReserved bs) (d s : Bool) :
    (compressorAccount gas bs).Holds (compressor gas m bs d s) where
  insNodup := List.nodup_singleton _
  outsNodup := by
    refine List.nodup_cons.mpr ⟨fun h => ?_, hb.nodup⟩
    exact hb.fresh _ h "" (by decide) (by decide)
  ins := by
    have h : ∀ p ∈ ["Fl_I"], ∀ v ∈ portVars, p ++ ":" ++ v ∈ flowVarNames "Fl_I" := by decide +kernel
    intro p hp v hv
    rw [(C55_interface gas m hb d s).2]
    exact Or.inl (List.mem_append_left _ (h p hp v hv))
  outs := by
    intro p hp v hv
    rw [(CompNames.ext gas m d s).outs.mem_iff, List.mem_append]
    rcases List.mem_cons.mp hp with rfl | hp
    · have h : ∀ d s, ∀ v ∈ portVars, "Fl_O" ++ ":" ++ v ∈ (CompNames.w₀ d s).outs := by decide +kernel
      exact Or.inl (h d s v hv)
    · have h : ∀ v ∈ portVars, ("", ":" ++ v) ∈ CompNames.per.outs := by decide +kernel
      refine Or.inr (List.mem_flatMap.mpr ⟨p, hp, List.mem_map.mpr ⟨_, h v hv, ?_⟩⟩)
      rw [bname_nil, String.append_assoc]
  seen := by
    intro V V' h
    have k : ∀ d s, "power" ∈ (CompNames.w₀ d s).outs := by decide +kernel
    have := (h "power" (Or.inr (by
      rw [(CompNames.ext gas m d s).outs.mem_iff, List.mem_append]; exact Or.inl (k d s)))).1
    exact ⟨rfl, by simp only [compressorAccount, this], fun _ => trivial⟩
  states := by
    intro V hV p hp
    obtain ⟨h, -⟩ := C55_compressor gas m hb d s V hV
    rcases List.mem_cons.mp hp with rfl | hp
    · have st := h.state
      rw [← h.composition] at st; exact st
    · have st := (h.bleeds p hp).state
      have e : p ++ ":tot" ++ ":" ++ "composition" = p ++ ":tot:composition" := by
        rw [String.append_assoc, String.append_assoc]; rfl
      rw [← (h.bleeds p hp).composition, e] at st
      exact st
  mass := by
    intro V hV _
    obtain ⟨h, -⟩ := C55_compressor gas m hb d s V hV
    simp only [Account.MassBalance, compressorAccount, List.map_cons, List.sum_cons, List.map_nil, List.sum_nil,
      add_zero]
    exact h.mass
  energy := by
    intro V hV _ _
    obtain ⟨h, -⟩ := C55_compressor gas m hb d s V hV
    have he := h.energy
    simp only [at_tot] at he
    simp only [Account.EnergyBalance, compressorAccount, List.map_cons, List.sum_cons, List.map_nil, List.sum_nil,
      add_zero, Env.H, String.reduceAppend, he]
    have : ∀ x : ℝ, -(1.4148532 * x) / 1.4148532 = -x := fun x => by field_simp
    rw [this, show V.H = fun b => V.num (b ++ ":stat:W") * V.num (b ++ ":tot:h") from rfl]
    ring

/-- **C57 (turbine).** -/
theorem C57_turbine (gas : (ℕ → ℝ) → TPGas) (gb gI : String → (ℕ → ℝ) → TPGas) (m : Map.TMap) (a : BleedAdder)
    {bs : List String} (hb : BleedNames turbineTails turbineReserved bs) (d s : Bool) :
    (turbineAccount gas gI bs).Holds (turbine gas gb m a bs d s) where
  insNodup := by
    refine List.nodup_cons.mpr ⟨fun h => ?_, hb.nodup⟩
    exact hb.fresh _ h "" (by decide) (by decide)
  outsNodup := List.nodup_singleton _
  ins := by
    intro p hp v hv
    rw [(C56_interface gas gb m a hb d s).2]
    rcases List.mem_cons.mp hp with rfl | hp
    · have h : ∀ v ∈ portVars, "Fl_I" ++ ":" ++ v ∈ flowVarNames "Fl_I" := by decide +kernel
      exact Or.inl (List.mem_append_left _ (h v hv))
    · refine Or.inr ⟨p, hp, List.mem_append_left _ ?_⟩
      have h : ∀ v ∈ portVars, v ∈ ["tot:h", "tot:T", "tot:P", "tot:rho", "tot:gamma", "tot:Cp", "tot:Cv", "tot:S",
          "tot:R", "tot:composition", "stat:h", "stat:T", "stat:P", "stat:rho", "stat:gamma", "stat:Cp", "stat:Cv",
          "stat:S", "stat:R", "stat:composition", "stat:V", "stat:Vsonic", "stat:MN", "stat:area", "stat:Wc", "stat:W",
          "FAR"] := by decide
      exact List.mem_map.mpr ⟨v, h v hv, rfl⟩
  outs := by
    intro p hp v hv
    obtain rfl := List.mem_singleton.mp hp
    rw [(TurbNames.ext hb.plain gas gb m a d s).outs.mem_iff, List.mem_append]
    have h : ∀ d s, ∀ v ∈ portVars, "Fl_O" ++ ":" ++ v ∈ (TurbNames.w₀ d s).outs := by decide +kernel
    exact Or.inl (h d s v hv)
  seen := by
    intro V V' h
    have k : ∀ d s, "power" ∈ (TurbNames.w₀ d s).outs ∧ "Fl_O:stat:W" ∈ (TurbNames.w₀ d s).outs := by decide +kernel
    have e := fun n (hn : n ∈ (TurbNames.w₀ d s).outs) => (h n (Or.inr (by
      rw [(TurbNames.ext hb.plain gas gb m a d s).outs.mem_iff, List.mem_append]; exact Or.inl hn))).1
    refine ⟨rfl, by simp only [turbineAccount, e _ (k d s).1], fun hok => ?_⟩
    simp only [turbineAccount] at hok ⊢
    rwa [← e _ (k d s).2]
  states := by
    intro V hV p hp
    obtain ⟨h, -, -⟩ := C56_turbine gas gb m a hb d s V hV
    obtain rfl := List.mem_singleton.mp hp
    simpa only [Account.IsState, turbineAccount, if_true, String.reduceAppend] using h.state
  mass := by
    intro V hV _
    obtain ⟨h, -, -⟩ := C56_turbine gas gb m a hb d s V hV
    simp only [Account.MassBalance, turbineAccount, List.map_cons, List.sum_cons, List.map_nil, List.sum_nil,
      add_zero]
    exact h.mass
  energy := by
    intro V hV hok _
    obtain ⟨h, -, -⟩ := C56_turbine gas gb m a hb d s V hV
    have he := h.energy hok
    simp only [Account.EnergyBalance, turbineAccount, List.map_cons, List.sum_cons, List.map_nil, List.sum_nil,
      add_zero, Env.H, String.reduceAppend]
    have e := eq_sub_iff_add_eq.mp he
    rw [show V.H = fun b => V.num (b ++ ":stat:W") * V.num (b ++ ":tot:h") from rfl]
    field_simp
    linarith

/-! ## Combustor and mixer -/

section
variable (gas gI : (ℕ → ℝ) → TPGas) (a : Adder) (d s : Bool)

private theorem combustor_ins : ∀ p ∈ ["Fl_I"], ∀ v ∈ portVars,
    p ++ ":" ++ v ∈ (combustor gas a d s).wiring.externals := by
  have h : ∀ p ∈ ["Fl_I"], ∀ v ∈ portVars, p ++ ":" ++ v ∈ (flowVarNames "Fl_I").filter (· ≠ "Fl_I:FAR") := by
    decide +kernel
  intro p hp v hv
  rw [(C48_interface gas a d s).2]
  exact List.mem_append_left _ (List.mem_append_left _ (List.mem_append_left _ (h p hp v hv)))

private theorem combustor_outs : ∀ p ∈ ["Fl_O"], ∀ v ∈ portVars,
    p ++ ":" ++ v ∈ (combustor gas a d s).wiring.outs := by
  have h : ∀ d s, ∀ p ∈ ["Fl_O"], ∀ v ∈ portVars, p ++ ":" ++ v ∈ (combustor gas0 (.tab 1 0) d s).wiring.outs := by
    decide +kernel
  have e : (combustor gas a d s).wiring = (combustor gas0 (.tab 1 0) d s).wiring := by cases d <;> cases s <;> rfl
  rw [e]; exact h d s

private theorem combustor_seen (okC : (ℕ → ℝ) → Prop) (V V' : Env)
    (h : ∀ n, n ∈ (combustor gas a d s).wiring.externals ∨ n ∈ (combustor gas a d s).wiring.outs →
      V.num n = V'.num n ∧ V.vec n = V'.vec n) :
    (combustorAccount gas gI okC).mass V = (combustorAccount gas gI okC).mass V'
    ∧ (combustorAccount gas gI okC).heat V = (combustorAccount gas gI okC).heat V'
    ∧ ((combustorAccount gas gI okC).ok V → (combustorAccount gas gI okC).ok V') := by
  have k : ∀ d s, "Wfuel" ∈ (combustor gas0 (.tab 1 0) d s).wiring.outs := by decide +kernel
  have e : (combustor gas a d s).wiring = (combustor gas0 (.tab 1 0) d s).wiring := by cases d <;> cases s <;> rfl
  have h1 := (h "Wfuel" (Or.inr (by rw [e]; exact k d s))).1
  have h2 := (h "Fl_I:stat:W" (Or.inl (combustor_ins gas a d s "Fl_I" (by decide) "stat:W" (by decide)))).1
  have h3 := (h "Fl_I:tot:composition"
    (Or.inl (combustor_ins gas a d s "Fl_I" (by decide) "tot:composition" (by decide)))).2
  have h4 := (h "mix_fuel.mix:h" (Or.inl (((C48_interface gas a d s).2 _).mpr (by simp)))).1
  simp only [combustorAccount, h1, h2, h3, h4, imp_self, and_self]

/-- **C57 (combustor, CEA).** -/
theorem C57_combustor_cea (data : ThermoData) (infl : PyDict ℝ) (hin : infl.keys.Nodup) (fuel : String) (f : PyDict ℝ)
    (hf : data.reactants.get? fuel = some f) (hfk : f.keys.Nodup) (hfm : formulaMass f data.wtOf ≠ 0)
    (S : ReactantAdd) (hS : reactantSetup data (some infl) ["mix"] [fuel] = .ok S)
    (hwt : ∀ e ∈ S.mixed.elements, data.wtOf e ≠ 0) :
    (combustorAccount gas gI fun x => totalMass S.inflow.elements data.wtOf (fun k => x k) ≠ 0).Holds
      (combustor gas (.cea S) d s) where
  insNodup := List.nodup_singleton _
  outsNodup := List.nodup_singleton _
  ins := combustor_ins gas _ d s
  outs := combustor_outs gas _ d s
  seen := combustor_seen gas gI _ d s _
  states := by
    intro V hV p hp
    obtain ⟨-, h, -⟩ := C48_outlet gas _ d s V hV
    obtain rfl := List.mem_singleton.mp hp
    simpa only [Account.IsState, combustorAccount, if_true, String.reduceAppend] using h
  mass := by
    rintro V hV ⟨k1, -, k3⟩
    obtain ⟨-, h, -⟩ := C48_cea gas d s V data infl hin fuel f hf hfk hfm S hS hwt k1 k3 hV
    simp [Account.MassBalance, combustorAccount, Env.W, h]
  energy := by
    rintro V hV ⟨k1, -, k3⟩ _
    obtain ⟨-, -, -, -, h⟩ := C48_cea gas d s V data infl hin fuel f hf hfk hfm S hS hwt k1 k3 hV
    simpa [Account.EnergyBalance, combustorAccount, Env.H] using h

/-- **C57 (combustor, tabular).** -/
theorem C57_combustor_tab (n : ℕ) (idx : Fin n) :
    (combustorAccount gas gI fun x => 1 + ∑ i : Fin n, x i ≠ 0).Holds (combustor gas (.tab n idx) d s) where
  insNodup := List.nodup_singleton _
  outsNodup := List.nodup_singleton _
  ins := combustor_ins gas _ d s
  outs := combustor_outs gas _ d s
  seen := combustor_seen gas gI _ d s _
  states := by
    intro V hV p hp
    obtain ⟨-, h, -⟩ := C48_outlet gas _ d s V hV
    obtain rfl := List.mem_singleton.mp hp
    simpa only [Account.IsState, combustorAccount, if_true, String.reduceAppend] using h
  mass := by
    rintro V hV ⟨k1, k2, k3⟩
    obtain ⟨-, h, -⟩ := C48_tab gas d s V n idx k1 k2 k3 hV
    simp [Account.MassBalance, combustorAccount, Env.W, h]
  energy := by
    rintro V hV ⟨k1, k2, k3⟩ _
    obtain ⟨-, -, -, -, h⟩ := C48_tab gas d s V n idx k1 k2 k3 hV
    simpa [Account.EnergyBalance, combustorAccount, Env.H] using h

end

section
variable (gas : (ℕ → ℝ) → TPGas) (gI : String → (ℕ → ℝ) → TPGas) (a : FlowAdder) (f d : Bool)

private theorem mixer_ins : ∀ p ∈ ["Fl_I1", "Fl_I2"], ∀ v ∈ portVars,
    p ++ ":" ++ v ∈ (mixer gas a f d).wiring.externals := by
  have h : ∀ p ∈ ["Fl_I1", "Fl_I2"], ∀ v ∈ portVars, p ++ ":" ++ v ∈ flowVarNames "Fl_I1" ++ flowVarNames "Fl_I2" := by
    decide +kernel
  intro p hp v hv
  rw [(C51_interface gas a f d).2]
  exact List.mem_append_left _ (h p hp v hv)

private theorem mixer_outs : ∀ p ∈ ["Fl_O"], ∀ v ∈ portVars, p ++ ":" ++ v ∈ (mixer gas a f d).wiring.outs := by
  have h : ∀ f d, ∀ p ∈ ["Fl_O"], ∀ v ∈ portVars, p ++ ":" ++ v ∈ (mixer gas0 (.tab 1) f d).wiring.outs := by
    decide +kernel
  have e : (mixer gas a f d).wiring = (mixer gas0 (.tab 1) f d).wiring := by cases f <;> cases d <;> rfl
  rw [e]; exact h f d

private theorem mixer_seen (okC : ℝ → (ℕ → ℝ) → ℝ → (ℕ → ℝ) → Prop) (V V' : Env)
    (h : ∀ n, n ∈ (mixer gas a f d).wiring.externals ∨ n ∈ (mixer gas a f d).wiring.outs →
      V.num n = V'.num n ∧ V.vec n = V'.vec n) :
    (mixerAccount gas gI okC).mass V = (mixerAccount gas gI okC).mass V'
    ∧ (mixerAccount gas gI okC).heat V = (mixerAccount gas gI okC).heat V'
    ∧ ((mixerAccount gas gI okC).ok V → (mixerAccount gas gI okC).ok V') := by
  have k := fun p hp v hv => h (p ++ ":" ++ v) (Or.inl (mixer_ins gas a f d p hp v hv))
  have h1 := (k "Fl_I1" (by decide) "stat:W" (by decide)).1
  have h2 := (k "Fl_I2" (by decide) "stat:W" (by decide)).1
  have h3 := (k "Fl_I1" (by decide) "tot:composition" (by decide)).2
  have h4 := (k "Fl_I2" (by decide) "tot:composition" (by decide)).2
  simp only [String.reduceAppend] at h1 h2 h3 h4
  simp only [mixerAccount, h1, h2, h3, h4, imp_self, and_self]

private theorem mixer_states (okC : ℝ → (ℕ → ℝ) → ℝ → (ℕ → ℝ) → Prop) (V : Env) (hV : (mixer gas a f d).Converged V) :
    ∀ p ∈ ["Fl_O"], (mixerAccount gas gI okC).IsState V p := by
  intro p hp
  obtain ⟨h, -⟩ := C51_outlet gas a f d V hV
  obtain rfl := List.mem_singleton.mp hp
  simpa only [Account.IsState, mixerAccount, if_true, String.reduceAppend] using h

/-- **C57 (mixer, CEA).** -/
theorem C57_mixer_cea (data : ThermoData) (f1 f2 : PyDict ℝ) (hin : f1.keys.Nodup) (p1 p2 pm : Properties)
    (h1 : mkProperties data (some f1) = .ok p1) (h2 : mkProperties data (some f2) = .ok p2)
    (hm : mkProperties data (some (mixedFlows f1 [f2])) = .ok pm) (hwt : ∀ e ∈ pm.elements, data.wtOf e ≠ 0) :
    (mixerAccount gas gI fun _ x _ y => totalMass p1.elements data.wtOf (fun k => x k) ≠ 0
      ∧ totalMass p2.elements data.wtOf (fun k => y k) ≠ 0).Holds (mixer gas (.cea p1 pm p2) f d) where
  insNodup := by simp [mixerAccount]
  outsNodup := List.nodup_singleton _
  ins := mixer_ins gas _ f d
  outs := mixer_outs gas _ f d
  seen := mixer_seen gas gI _ f d _
  states := mixer_states gas gI _ f d _
  mass := by
    rintro V hV ⟨⟨k1, k2⟩, k3⟩
    obtain ⟨h, -⟩ := C51_cea gas f d V data f1 f2 hin p1 p2 pm h1 h2 hm hwt k1 k2 k3 hV
    simp [Account.MassBalance, mixerAccount, Env.W, h]
  energy := by
    rintro V hV ⟨⟨k1, k2⟩, k3⟩ _
    obtain ⟨-, -, -, h⟩ := C51_cea gas f d V data f1 f2 hin p1 p2 pm h1 h2 hm hwt k1 k2 k3 hV
    simpa [Account.EnergyBalance, mixerAccount, Env.H] using h

/-- **C57 (mixer, tabular).** -/
theorem C57_mixer_tab (n : ℕ) :
    (mixerAccount gas gI fun W x W' y => 1 + ∑ i : Fin n, x i ≠ 0 ∧ 1 + ∑ i : Fin n, y i ≠ 0
      ∧ airMass W (fun k : Fin n => x k) + airMass W' (fun k : Fin n => y k) ≠ 0).Holds (mixer gas (.tab n) f d) where
  insNodup := by simp [mixerAccount]
  outsNodup := List.nodup_singleton _
  ins := mixer_ins gas _ f d
  outs := mixer_outs gas _ f d
  seen := mixer_seen gas gI _ f d _
  states := mixer_states gas gI _ f d _
  mass := by
    rintro V hV ⟨⟨k1, k2, k4⟩, k3⟩
    obtain ⟨h, -⟩ := C51_tab gas f d V n k1 k2 k4 k3 hV
    simp [Account.MassBalance, mixerAccount, Env.W, h]
  energy := by
    rintro V hV ⟨⟨k1, k2, k4⟩, k3⟩ _
    obtain ⟨-, -, -, h⟩ := C51_tab gas f d V n k1 k2 k4 k3 hV
    simpa [Account.EnergyBalance, mixerAccount, Env.H] using h

end

end PyCycle.OM
