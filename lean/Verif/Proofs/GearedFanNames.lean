import Verif.Model.GearedFan
import Verif.Proofs.TurbofanNames
import Verif.Proofs.CoolingNames

/-! # Names of the geared turbofan -/

namespace PyCycle.OM
namespace N3

theorem hpcNames : BleedNames compressorTails compressorReserved ["bld_inlet", "bld_exit", "cust"] := by
  constructor <;> decide +kernel
theorem bld25Names : BleedNames bleedTails bleedOutReserved ["sbv"] := by
  constructor <;> decide +kernel
theorem bld3Names : BleedNames bleedTails bleedOutReserved ["bld_inlet", "bld_exit"] := by
  constructor <;> decide +kernel
theorem turbNames : BleedNames turbineTails turbineReserved ["bld_inlet", "bld_exit"] := by
  constructor <;> decide +kernel

end N3

/-- Whether a group is accepted does not depend on the order of its connections. -/
theorem Wiring.accepted_perm {w w' : Wiring} (hs : w.subs = w'.subs) (hc : w.conns.Perm w'.conns) (h : w.Accepted) :
    w'.Accepted := by
  obtain ⟨s, c⟩ := w
  obtain ⟨s', c'⟩ := w'
  obtain rfl : s = s' := hs
  obtain ⟨⟨h1, h2, h3, h4⟩, h5⟩ := h
  exact ⟨⟨h1, h2, ((hc.map _).nodup_iff).mp h3, fun x hx => h4 x (hc.mem_iff.mpr hx)⟩, h5⟩

namespace N3

/-! ## Ports and variables -/

/-- A compressor that also shows its polytropic efficiency and, off design, its R-line. -/
def compIface (d : Bool) (bs : List String) : Iface :=
  { Ifaces.comp bs with outs := ["trq", "power", "eff_poly"] ++ if d then [] else ["map.RlineMap"]
                        ins := "Nmech" :: if d then ["PR", "eff"] else [] }

theorem compIface_of (gas : (ℕ → ℝ) → TPGas) (name : String) (pI pO : List Prom) (m : Map.CMap) {bs : List String}
    (hb : BleedNames compressorTails compressorReserved bs) (d : Bool) :
    (compIface d bs).Of ((compressor gas m bs d true).asSub name pI pO) := by
  have hx := C55_interface gas m hb d true
  have ho : ∀ n ∈ (CompNames.w₀ d true).outs, n ∈ (compressor gas m bs d true).wiring.outs := fun n hn => by
    rw [(CompNames.ext gas m d true).outs.mem_iff]; exact List.mem_append_left _ hn
  refine .element hx.1.1.2.1 ?_ ?_ ?_ ?_ ?_
  · have h : ∀ d, ∀ p ∈ ["Fl_O"], ∀ v ∈ linkOutVars, p ++ ":" ++ v ∈ (CompNames.w₀ d true).outs := by decide +kernel
    exact fun p hp v hv => ho _ (h d p hp v hv)
  · exact fun p hp => (C57_compressor gas m hb d true).outs p (List.mem_cons_of_mem _ hp)
  · intro p hp v hv; rw [hx.2]; exact Or.inl (List.mem_append_left _ (Ifaces.port' p hp v hv))
  · have h : ∀ d, ∀ v ∈ (compIface d []).outs, v ∈ (CompNames.w₀ d true).outs := by decide +kernel
    exact fun v hv => ho _ (h d v hv)
  · intro v hv; rw [hx.2]
    cases d <;> simp [compIface] at hv
    · subst hv; exact Or.inl (by simp [compressorInputs])
    · rcases hv with rfl | rfl | rfl <;> exact Or.inl (by simp [compressorInputs])

/-- A turbine that also shows its polytropic efficiency. -/
def turbIface (d : Bool) (bs : List String) : Iface :=
  { Ifaces.turb d bs with outs := ["trq", "power", "eff_poly"], ins := "Nmech" :: if d then ["PR", "eff"] else [] }

theorem turbIface_of (gas : (ℕ → ℝ) → TPGas) (name : String) (pI pO : List Prom) (gb : String → (ℕ → ℝ) → TPGas)
    (m : Map.TMap) (a : BleedAdder) {bs : List String} (hb : BleedNames turbineTails turbineReserved bs) (d : Bool) :
    (turbIface d bs).Of ((turbine gas gb m a bs d true).asSub name pI pO) := by
  have hx := C56_interface gas gb m a hb d true
  have ho : ∀ n ∈ (TurbNames.w₀ d true).outs, n ∈ (turbine gas gb m a bs d true).wiring.outs := fun n hn => by
    rw [(TurbNames.ext hb.plain gas gb m a d true).outs.mem_iff]; exact List.mem_append_left _ hn
  refine .element hx.1.1.2.1 ?_ (by simp [turbIface, Ifaces.turb]) ?_ ?_ ?_
  · have h : ∀ d, ∀ p ∈ ["Fl_O"], ∀ v ∈ linkOutVars, p ++ ":" ++ v ∈ (TurbNames.w₀ d true).outs := by decide +kernel
    exact fun p hp v hv => ho _ (h d p hp v hv)
  · intro p hp v hv; rw [hx.2]
    rcases List.mem_cons.mp hp with rfl | hp
    · exact Or.inl (List.mem_append_left _ (Ifaces.port_any _ v hv))
    · exact Or.inr ⟨p, hp, List.mem_append_left _ (Ifaces.port_any _ v hv)⟩
  · have h : ∀ d, ∀ v ∈ ["trq", "power", "eff_poly"], v ∈ (TurbNames.w₀ d true).outs := by decide +kernel
    exact fun v hv => ho _ (h d v hv)
  · intro v hv; rw [hx.2]
    cases d <;> simp [turbIface] at hv
    · subst hv; exact Or.inl (by simp [turbineInputs])
    · rcases hv with rfl | rfl | rfl <;> exact Or.inl (by simp [turbineInputs])

/-- A nozzle that also shows its ideal velocity. -/
def nozzIface : Iface := { Ifaces.nozz with outs := ["Fg", "Throat:stat:area", "ideal_flow.V"] }

theorem nozzIface_of (gas : (ℕ → ℝ) → TPGas) (name : String) (pI pO : List Prom) (k : Noz.NozzType) (l : Noz.Loss) :
    nozzIface.Of ((nozzle gas k l).asSub name pI pO) := by
  have hx := C52_interface gas k l
  refine .element hx.1.1.2.1 (by simp [nozzIface, Ifaces.nozz]) (by simp [nozzIface, Ifaces.nozz]) ?_ ?_ ?_
  · intro p hp v hv; rw [hx.2]; exact List.mem_append_left _ (Ifaces.port' p hp v hv)
  · have e : (nozzle gas k l).wiring.outs = (nozzle C49.gas0 k l).wiring.outs := by cases k <;> cases l <;> rfl
    have h : ∀ v ∈ ["Fg", "Throat:stat:area", "ideal_flow.V"], v ∈ (nozzle C49.gas0 .CV l).wiring.outs := by
      cases l <;> decide +kernel
    have e' : (nozzle C49.gas0 k l).wiring.outs = (nozzle C49.gas0 .CV l).wiring.outs := by cases k <;> cases l <;> rfl
    rw [e, e']; exact h
  · intro v hv; rw [hx.2]; obtain rfl := List.mem_singleton.mp hv; cases l <;> simp [nozInputs]

/-- The extraction behind the compressor, whose fractions may be found by the balance. -/
def bld3Iface : Iface :=
  { Ifaces.bleedOut ["bld_inlet", "bld_exit"] with
    outs := ["bld_inlet", "bld_exit"].flatMap fun b => portVars.map fun v => b ++ ":" ++ v
    ins := ["bld_inlet:frac_W", "bld_exit:frac_W"] }

theorem bld3Iface_of (gas : (ℕ → ℝ) → TPGas) (name : String) (pI pO : List Prom) (d : Bool) :
    bld3Iface.Of ((bleedOut gas ["bld_inlet", "bld_exit"] d true).asSub name pI pO) := by
  have h := Ifaces.bleedOut_of gas name pI pO bld3Names (by simp) d
  have hx := C53_interface gas bld3Names (by simp) d true
  refine .element hx.1.1.2.1 h.outlets h.bleeds (fun p hp v hv => (h.inlets p hp v hv).1) ?_ ?_
  · intro v hv
    obtain ⟨b, hb, hv⟩ := List.mem_flatMap.mp hv
    obtain ⟨w, hw, rfl⟩ := List.mem_map.mp hv
    exact h.bleeds b hb w hw
  · intro v hv; rw [hx.2]
    simp only [bld3Iface, List.mem_cons, List.not_mem_nil, or_false] at hv
    rcases hv with rfl | rfl
    · exact Or.inr ⟨"bld_inlet", by simp, rfl⟩
    · exact Or.inr ⟨"bld_exit", by simp, rfl⟩

/-- The cooling element. -/
def coolIface : Iface :=
  { inlets := ["Fl_cool", "Fl_turb_I", "Fl_turb_O"], ins := ["turb_pwr"]
    outs := ["row_0.W_cool", "row_1.W_cool", "row_2.W_cool", "row_3.W_cool"] }

theorem coolIface_of (gas : (ℕ → ℝ) → TPGas) (a : FlowAdder) (name : String) (pI pO : List Prom) :
    coolIface.Of ((turbineCooling gas a coolOpt true).asSub name pI pO) := by
  have h0 : coolOpt.n_stages ≠ 0 := by decide
  have hx := Cooling.accepted gas a true h0
  have ext : ∀ s ∈ (Cooling.core gas a coolOpt).subs, ∀ v ∈ s.ins, ∀ n, s.inName v = n → '.' ∉ n.toList → n ≠ "x_factor" →
      n ∈ (turbineCooling gas a coolOpt true).wiring.externals := by
    intro s hs v hv n e hp hx'
    rw [Wiring.mem_externals hx.1, Cooling.ins_eq gas a true h0, Cooling.outs_eq gas a true h0]
    refine ⟨?_, ?_, fun h => hp (Cooling.target_dot gas a h)⟩
    · exact List.mem_flatMap.mpr ⟨_, List.mem_map_of_mem hs, List.mem_map.mpr ⟨v, hv, e⟩⟩
    · simp only [if_true, List.mem_append, List.mem_singleton, not_or]
      exact ⟨hx', fun h => hp (Cooling.core_outs_dot gas a h)⟩
  have port : ∀ (k : ℕ) (s : Sub), Cooling.ports[k]? = some s → s ∈ (Cooling.core gas a coolOpt).subs :=
    fun k s h => List.mem_append_left _ (List.mem_of_getElem? h)
  refine .element hx.1.2.1 (by simp [coolIface]) (by simp [coolIface]) ?_ ?_ ?_
  · have k : ∀ q ∈ ["Fl_cool", "Fl_turb_I", "Fl_turb_O"], ∀ v ∈ linkInVars, '.' ∉ (q ++ ":" ++ v).toList
        ∧ q ++ ":" ++ v ≠ "x_factor" := by decide +kernel
    have k0 : ∀ v ∈ linkInVars, (Cooling.ports[2]).inName ("Fl_cool" ++ ":" ++ v) = "Fl_cool" ++ ":" ++ v
        ∧ "Fl_cool" ++ ":" ++ v ∈ (Cooling.ports[2]).ins := by decide +kernel
    have k1 : ∀ v ∈ linkInVars, (Cooling.ports[0]).inName ("Fl_turb_I" ++ ":" ++ v) = "Fl_turb_I" ++ ":" ++ v
        ∧ "Fl_turb_I" ++ ":" ++ v ∈ (Cooling.ports[0]).ins := by decide +kernel
    have k2 : ∀ v ∈ linkInVars, (Cooling.ports[1]).inName ("Fl_turb_O" ++ ":" ++ v) = "Fl_turb_O" ++ ":" ++ v
        ∧ "Fl_turb_O" ++ ":" ++ v ∈ (Cooling.ports[1]).ins := by decide +kernel
    intro q hq v hv
    obtain ⟨e1, e2⟩ := k q hq v hv
    simp only [coolIface, List.mem_cons, List.not_mem_nil, or_false] at hq
    rcases hq with rfl | rfl | rfl
    · exact ext _ (port 2 _ rfl) _ (k0 v hv).2 _ (k0 v hv).1 e1 e2
    · exact ext _ (port 0 _ rfl) _ (k1 v hv).2 _ (k1 v hv).1 e1 e2
    · exact ext _ (port 1 _ rfl) _ (k2 v hv).2 _ (k2 v hv).1 e1 e2
  · have k : ∀ i < 4, rowName i ++ "." ++ "W_cool" ∈ (turbineCooling gas a coolOpt true).wiring.outs := by
      intro i hi
      rw [Cooling.outs_eq gas a true h0]
      refine List.mem_append_right _ (List.mem_flatMap.mpr ⟨_, List.mem_map_of_mem
        ((Cooling.mem_core gas a).mpr (Or.inr ⟨i, hi, rfl⟩)), List.mem_map.mpr ⟨"W_cool", ?_, ?_⟩⟩)
      · show "W_cool" ∈ (Cooling.rowSub gas a coolOpt i).outs
        rw [Cooling.rowSub_outs]; decide
      · exact outName_plain rfl _
    intro v hv
    simp only [coolIface, List.mem_cons, List.not_mem_nil, or_false] at hv
    rcases hv with rfl | rfl | rfl | rfl
    exacts [k 0 (by decide), k 1 (by decide), k 2 (by decide), k 3 (by decide)]
  · intro v hv
    obtain rfl := List.mem_singleton.mp hv
    refine ext _ ((Cooling.mem_core gas a).mpr (Or.inr ⟨0, by decide, rfl⟩)) "turb_pwr" ?_ _ ?_ (by decide) (by decide)
    · rw [Cooling.rowSub_ins]; decide
    · have e : promoted (rowProms ++ firstProms) "turb_pwr" = some "turb_pwr" := by decide +kernel
      simp only [Decl.inName, Cooling.rowSub_promI, if_true, e, Option.getD_some]

/-- A component, as it is. -/
def whole (s : Sub) : Iface := { outs := s.outs, ins := s.ins }

/-! ## The engine -/

/-- The parts of a mode beside those of every mode. -/
def modeParts : N3Mode → List Part
  | .design => [⟨"hpc_CS", [], { outs := ["CS"], ins := ["Win", "Tout", "Pout"] }⟩,
      ⟨"hpc_EtaBalance", [], { outs := ["eta_a"], ins := ["CS", "eta_p"] }⟩,
      ⟨"fan_dia", [], { outs := ["FanDia"], ins := ["area", "hub_tip"] }⟩,
      ⟨"opr_calc", [], { outs := ["OPR_simple"], ins := ["FPR", "LPCPR", "HPCPR"] }⟩]
  | .off => []
  | .cooled => [⟨"hpt_cooling", [], coolIface⟩, ⟨"hpt_chargable", [], { outs := ["W_cool"], ins := ["W_1", "W_2", "W_3"] }⟩,
      ⟨"hpt_power_unit", [], { outs := ["Btu/s"], ins := ["hp"] }⟩]

def parts (m : N3Mode) : List Part :=
  [⟨"fc", [], Ifaces.fc⟩, ⟨"inlet", [], Ifaces.inlet⟩, ⟨"fan", [.as "Nmech" "Fan_Nmech"], compIface m.isDesign []⟩,
   ⟨"splitter", [], Ifaces.splitter⟩, ⟨"duct2", [], Ifaces.duct⟩,
   ⟨"lpc", [.as "Nmech" "LP_Nmech"], compIface m.isDesign []⟩, ⟨"bld25", [], Ifaces.bleedOut ["sbv"]⟩,
   ⟨"duct25", [], Ifaces.duct⟩,
   ⟨"hpc", [.as "Nmech" "HP_Nmech"], compIface m.isDesign ["bld_inlet", "bld_exit", "cust"]⟩,
   ⟨"bld3", [], bld3Iface⟩, ⟨"burner", [], Ifaces.burner⟩,
   ⟨"hpt", [.as "Nmech" "HP_Nmech"], turbIface m.isDesign ["bld_inlet", "bld_exit"]⟩, ⟨"duct45", [], Ifaces.duct⟩,
   ⟨"lpt", [.as "Nmech" "LP_Nmech"], turbIface m.isDesign ["bld_inlet", "bld_exit"]⟩, ⟨"duct5", [], Ifaces.duct⟩,
   ⟨"core_nozz", [], nozzIface⟩, ⟨"byp_bld", [], Ifaces.bleedOut ["bypBld"]⟩, ⟨"duct17", [], Ifaces.duct⟩,
   ⟨"byp_nozz", [], nozzIface⟩,
   ⟨"fan_shaft", [.as "Nmech" "Fan_Nmech"], { outs := (shaftSub 2 []).outs, ins := (shaftSub 2 []).ins }⟩,
   ⟨"gearbox", [.as "N_in" "LP_Nmech", .as "N_out" "Fan_Nmech"],
     { outs := (gearboxSub m.isDesign []).outs, ins := (gearboxSub m.isDesign []).ins }⟩,
   ⟨"lp_shaft", [.as "Nmech" "LP_Nmech"], { outs := (shaftSub 3 []).outs, ins := (shaftSub 3 []).ins }⟩,
   ⟨"hp_shaft", [.as "Nmech" "HP_Nmech"], { outs := (shaftSub 2 []).outs, ins := (shaftSub 2 []).ins }⟩,
   ⟨"perf", [], { outs := (performanceSub 2 1).outs, ins := (performanceSub 2 1).ins }⟩,
   ⟨"ext_ratio", [], { outs := extRatioSub.outs, ins := extRatioSub.ins }⟩,
   ⟨"balance", [], { outs := (bals m).map Bal.out, ins := (bals m).flatMap Bal.ins }⟩] ++ modeParts m

/-- The links of the cooling element, in the mode that has one. -/
def modeLinks : N3Mode → List Link
  | .cooled => coolLinks
  | _ => []

/-- The connections of a mode that are not those of a link. -/
def ownConns : N3Mode → List (String × String)
  | .design => designConns
  | .off => offConns
  | .cooled => offConns ++ coolConns

def skel (m : N3Mode) : Skel := ⟨parts m, flows ++ modeLinks m, plainConns ++ ownConns m⟩

theorem skel_design : (skel .design).check = true := by decide +kernel
theorem skel_off : (skel .off).check = true := by decide +kernel
theorem skel_cooled : (skel .cooled).check = true := by decide +kernel

theorem skel_ok (m : N3Mode) : (skel m).Ok := by
  apply Skel.ok_of_check
  cases m
  · exact skel_design
  · exact skel_off
  · exact skel_cooled

variable (p : N3Parts) (m : N3Mode)

theorem modeParts_of : List.Forall₂ (fun s p => Part.Of p s) (modeSubs p m) (modeParts m) := by
  cases m
  · have h1 : Iface.Of _ coreSizeSub := Iface.Of.comp (s := coreSizeSub) (by simp [coreSizeSub]) (by simp [coreSizeSub])
    have h2 : Iface.Of _ etaBalanceSub := Iface.Of.comp (s := etaBalanceSub) (by simp [etaBalanceSub]) (by simp [etaBalanceSub])
    have h3 : Iface.Of _ fanDiaSub := Iface.Of.comp (s := fanDiaSub) (by simp [fanDiaSub]) (by simp [fanDiaSub])
    have h4 : Iface.Of _ oprCalcSub := Iface.Of.comp (s := oprCalcSub) (by simp [oprCalcSub]) (by simp [oprCalcSub])
    exact .cons ⟨rfl, rfl, rfl, h1⟩ <| .cons ⟨rfl, rfl, rfl, h2⟩ <| .cons ⟨rfl, rfl, rfl, h3⟩ <|
      .cons ⟨rfl, rfl, rfl, h4⟩ .nil
  · exact .nil
  · have h : Iface.Of _ chargeableSub := Iface.Of.comp (s := chargeableSub) (by simp [chargeableSub]) (by simp [chargeableSub])
    have h' : Iface.Of _ (powerUnitSub p.hpUnit) :=
      Iface.Of.comp (s := powerUnitSub p.hpUnit) (by simp [powerUnitSub]) (by simp [powerUnitSub])
    exact .cons ⟨rfl, rfl, rfl, coolIface_of ..⟩ <| .cons ⟨rfl, rfl, rfl, h⟩ <| .cons ⟨rfl, rfl, rfl, h'⟩ .nil

theorem parts_of : List.Forall₂ (fun s p => Part.Of p s) (n3 p m).group.subs (parts m) := by
  have hbal : Iface.Of { outs := (bals m).map Bal.out, ins := (bals m).flatMap Bal.ins } (balances (bals m) []) := by
    refine Iface.Of.comp (s := balances (bals m) []) ?_ ?_ <;> cases m <;> decide +kernel
  have hgear : Iface.Of { outs := (gearboxSub m.isDesign []).outs, ins := (gearboxSub m.isDesign []).ins }
      (gearboxSub m.isDesign [.as "N_in" "LP_Nmech", .as "N_out" "Fan_Nmech"]) := by
    refine Iface.Of.comp (s := gearboxSub m.isDesign [.as "N_in" "LP_Nmech", .as "N_out" "Fan_Nmech"]) ?_ ?_ <;> cases m <;> decide +kernel
  have hext : Iface.Of { outs := extRatioSub.outs, ins := extRatioSub.ins } extRatioSub :=
    Iface.Of.comp (by simp [extRatioSub]) (by simp [extRatioSub])
  have hm := modeParts_of p m
  simp only [Cycle.group, n3, elements, List.map_cons, List.map_nil, List.cons_append, List.nil_append, parts]
  refine .cons ⟨rfl, rfl, rfl, Ifaces.fc_of ..⟩ <| .cons ⟨rfl, rfl, rfl, Ifaces.inlet_of ..⟩ <|
    .cons ⟨rfl, rfl, rfl, compIface_of (hb := Turbojet.noComp) ..⟩ <| .cons ⟨rfl, rfl, rfl, Ifaces.splitter_of ..⟩ <|
    .cons ⟨rfl, rfl, rfl, Ifaces.duct_of ..⟩ <| .cons ⟨rfl, rfl, rfl, compIface_of (hb := Turbojet.noComp) ..⟩ <|
    .cons ⟨rfl, rfl, rfl, Ifaces.bleedOut_of (hb := bld25Names) (hne := by simp) ..⟩ <|
    .cons ⟨rfl, rfl, rfl, Ifaces.duct_of ..⟩ <| .cons ⟨rfl, rfl, rfl, compIface_of (hb := hpcNames) ..⟩ <|
    .cons ⟨rfl, rfl, rfl, bld3Iface_of ..⟩ <|
    .cons ⟨rfl, rfl, rfl, Ifaces.burner_of ..⟩ <| .cons ⟨rfl, rfl, rfl, turbIface_of (hb := turbNames) ..⟩ <|
    .cons ⟨rfl, rfl, rfl, Ifaces.duct_of ..⟩ <| .cons ⟨rfl, rfl, rfl, turbIface_of (hb := turbNames) ..⟩ <|
    .cons ⟨rfl, rfl, rfl, Ifaces.duct_of ..⟩ <| .cons ⟨rfl, rfl, rfl, nozzIface_of ..⟩ <|
    .cons ⟨rfl, rfl, rfl, Ifaces.bleedOut_of (hb := HBTF.bypNames) (hne := by simp) ..⟩ <|
    .cons ⟨rfl, rfl, rfl, Ifaces.duct_of ..⟩ <| .cons ⟨rfl, rfl, rfl, nozzIface_of ..⟩ <|
    .cons ⟨rfl, rfl, rfl, Ifaces.shaft_of (hn := by decide +kernel) ..⟩ <| .cons ⟨rfl, rfl, rfl, hgear⟩ <|
    .cons ⟨rfl, rfl, rfl, Ifaces.shaft_of (hn := by decide +kernel) ..⟩ <|
    .cons ⟨rfl, rfl, rfl, Ifaces.shaft_of (hn := by decide +kernel) ..⟩ <|
    .cons ⟨rfl, rfl, rfl, Ifaces.perf_of (h := by decide +kernel) ..⟩ <| .cons ⟨rfl, rfl, rfl, hext⟩ <|
    .cons ⟨rfl, rfl, rfl, hbal⟩ hm

omit p in
theorem conns_perm : ((flows ++ modeLinks m).flatMap Link.conns ++ (plainConns ++ ownConns m)).Perm
    (flows.flatMap Link.conns ++ (plainConns ++ modeConns m)) := by
  rw [List.flatMap_append, List.append_assoc]
  refine List.Perm.append_left _ ?_
  cases m
  · simp only [modeLinks, ownConns, modeConns, List.flatMap_nil, List.nil_append]; exact List.Perm.refl _
  · simp only [modeLinks, ownConns, modeConns, List.flatMap_nil, List.nil_append]; exact List.Perm.refl _
  · simp only [modeLinks, ownConns, modeConns]
    refine List.perm_append_comm.trans ?_
    simp only [List.append_assoc]; exact List.Perm.refl _

theorem accepted : (n3 p m).group.wiring.Accepted := by
  have e : (n3 p m).group.conns = flows.flatMap Link.conns ++ (plainConns ++ modeConns m) := rfl
  have hp := conns_perm m
  rw [← e] at hp
  have hs := parts_of p m
  generalize (n3 p m).group = g at hp hs
  have hk := skel_ok m
  generalize hA : flows ++ modeLinks m = A at hp
  generalize hB : plainConns ++ ownConns m = B at hp
  have h := Group.accepted_of (g := ⟨g.subs, A.flatMap Link.conns ++ B⟩) (k := ⟨parts m, A, B⟩)
    (by rw [← hA, ← hB]; exact hk) hs rfl
  exact Wiring.accepted_perm (w := (⟨g.subs, A.flatMap Link.conns ++ B⟩ : Group).wiring) (w' := g.wiring) rfl hp h

/-! ## Components depend on their variables only -/

theorem gearbox_local (d : Bool) (pI : List Prom) : (gearboxSub d pI).Local := by
  intro i i' o o' hi ho e r
  have : gearVal d i o = gearVal d i' o' := by
    funext v
    cases d <;> cases v <;> simp only [gearVal, if_true, if_false, Bool.false_eq_true] <;>
      first | exact (hi _ (by simp [gearboxSub])).1 | exact (ho _ (by simp [gearboxSub])).1
  rw [← this]; exact e r

theorem extRatio_local : extRatioSub.Local := by
  intro i i' o o' hi ho e
  simp only [extRatioSub] at e ⊢
  rw [← (ho "ER" (by simp [extRatioSub])).1, ← (hi "core_V_ideal" (by simp [extRatioSub])).1,
    ← (hi "core_Cv" (by simp [extRatioSub])).1, ← (hi "byp_V_ideal" (by simp [extRatioSub])).1,
    ← (hi "byp_Cv" (by simp [extRatioSub])).1]
  exact e

theorem coreSize_local : coreSizeSub.Local := by
  intro i i' o o' hi ho e
  simp only [coreSizeSub] at e ⊢
  rw [← (ho "CS" (by simp [coreSizeSub])).1, ← (hi "Win" (by simp [coreSizeSub])).1,
    ← (hi "Tout" (by simp [coreSizeSub])).1, ← (hi "Pout" (by simp [coreSizeSub])).1]
  exact e

theorem etaBalance_local : etaBalanceSub.Local := by
  intro i i' o o' hi ho e
  simp only [etaBalanceSub] at e ⊢
  rw [← (ho "eta_a" (by simp [etaBalanceSub])).1, ← (hi "CS" (by simp [etaBalanceSub])).1,
    ← (hi "eta_p" (by simp [etaBalanceSub])).1]
  exact e

theorem fanDia_local : fanDiaSub.Local := by
  intro i i' o o' hi ho e
  simp only [fanDiaSub] at e ⊢
  rw [← (ho "FanDia" (by simp [fanDiaSub])).1, ← (hi "area" (by simp [fanDiaSub])).1,
    ← (hi "hub_tip" (by simp [fanDiaSub])).1]
  exact e

theorem oprCalc_local : oprCalcSub.Local := by
  intro i i' o o' hi ho e
  simp only [oprCalcSub] at e ⊢
  rw [← (ho "OPR_simple" (by simp [oprCalcSub])).1, ← (hi "FPR" (by simp [oprCalcSub])).1,
    ← (hi "LPCPR" (by simp [oprCalcSub])).1, ← (hi "HPCPR" (by simp [oprCalcSub])).1]
  exact e

theorem chargeable_local : chargeableSub.Local := by
  intro i i' o o' hi ho e
  simp only [chargeableSub] at e ⊢
  rw [← (ho "W_cool" (by simp [chargeableSub])).1, ← (hi "W_1" (by simp [chargeableSub])).1,
    ← (hi "W_2" (by simp [chargeableSub])).1, ← (hi "W_3" (by simp [chargeableSub])).1]
  exact e

theorem powerUnit_local (k : ℝ) : (powerUnitSub k).Local := by
  intro i i' o o' hi ho e
  simp only [powerUnitSub] at e ⊢
  rw [← (ho "Btu/s" (by simp [powerUnitSub])).1, ← (hi "hp" (by simp [powerUnitSub])).1]
  exact e

end N3
end PyCycle.OM
