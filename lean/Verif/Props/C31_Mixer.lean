import Verif.Model.Mixer
import Verif.Lemmas.HasD
import Verif.Lemmas.PyDict
import Verif.Props.C10_C11_CeaMixing

/-! # C31: mixer -/

namespace PyCycle.Mix

/-- Impulse function (stream thrust) of a station. -/
def Stn.impulse (s : Stn) : ℝ := s.P * s.area + s.W * s.V

/-- **C31 (conservation).** In a converged mixer — design or off-design, either designed stream —
whose `flow_add` conserves mass and enthalpy (C11, C12): mass flow adds, the enthalpy flow adds, and
the outgoing impulse is the impulse of the designed stream (at its recomputed state) plus that of
the other stream. -/
theorem C31_conservation (design : Bool) (k : Fin 2) (flowW flowH cA aI : ℝ) (s : MixState)
    (h : Converged design k flowW flowH cA aI s)
    (hW : flowW = (s.inlet 0).W + (s.inlet 1).W)
    (hH : flowW * flowH = (s.inlet 0).W * (s.inlet 0).ht + (s.inlet 1).W * (s.inlet 1).ht) :
    s.out.W = (s.inlet 0).W + (s.inlet 1).W
    ∧ s.out.W * s.out.ht = (s.inlet 0).W * (s.inlet 0).ht + (s.inlet 1).W * (s.inlet 1).ht
    ∧ s.out.impulse = s.recalc.impulse + (s.inlet (1 - k)).impulse
    ∧ s.ER = (s.inlet 0).Pt / (s.inlet 1).Pt := by
  refine ⟨by rw [h.outW, hW], by rw [h.outW, h.outHt, hH], ?_, h.er⟩
  have hb := h.balance
  simp only [impulse, mixImpulse, MixState.seen] at hb
  fin_cases k
  · simp [Function.update] at hb
    simpa [Stn.impulse] using hb
  · simp [Function.update] at hb
    simp only [Stn.impulse]
    rw [hb]
    simp
    ring

/-- **C31 (design).** At design both streams meet at the same static pressure and the outgoing area
is the sum of the areas; hence the momentum balance of a constant-area mixer:
`(P_out - P) A = W₁V₁ + W₂V₂ - W_out V_out`. -/
theorem C31_design (k : Fin 2) (flowW flowH cA aI : ℝ) (s : MixState)
    (h : Converged true k flowW flowH cA aI s) :
    s.recalc.P = (s.inlet (1 - k)).P
    ∧ s.out.area = s.recalc.area + (s.inlet (1 - k)).area
    ∧ (s.out.P - s.recalc.P) * s.out.area
      = s.recalc.W * s.recalc.V + (s.inlet (1 - k)).W * (s.inlet (1 - k)).V - s.out.W * s.out.V := by
  have hP := h.calcP rfl
  have hA : s.out.area = s.recalc.area + (s.inlet (1 - k)).area := by
    rw [h.outArea, h.areaEq, if_pos rfl]
    fin_cases k <;> simp [areaSum, MixState.seen, Function.update, add_comm]
  have hb := h.balance
  refine ⟨hP, hA, ?_⟩
  have hi : s.out.P * s.out.area + s.out.W * s.out.V
      = (s.recalc.P * s.recalc.area + s.recalc.W * s.recalc.V)
        + ((s.inlet (1 - k)).P * (s.inlet (1 - k)).area
          + (s.inlet (1 - k)).W * (s.inlet (1 - k)).V) := by
    simp only [impulse, mixImpulse, MixState.seen] at hb
    fin_cases k
    · simp [Function.update] at hb; simpa using hb
    · simp [Function.update] at hb; rw [hb]; simp; ring
  rw [← hP] at hi
  have : s.out.P * s.out.area - s.recalc.P * s.out.area
      = s.out.P * s.out.area - s.recalc.P * (s.recalc.area + (s.inlet (1 - k)).area) := by rw [hA]
  linarith

/-- **C31 (CEA).** The mass and enthalpy hypotheses of `C31_conservation` hold for the CEA
`flow_add` of the mixer. -/
theorem C31_cea (data : ThermoData) (f1 f2 : PyDict ℝ) (h1 : f1.keys.Nodup)
    (p1 p2 pmix : Properties) (hp1 : mkProperties data (some f1) = .ok p1)
    (hp2 : mkProperties data (some f2) = .ok p2)
    (hpm : mkProperties data (some (mixedFlows f1 [f2])) = .ok pmix)
    (hwt : ∀ e ∈ pmix.elements, data.wtOf e ≠ 0)
    (c1 : Fin p1.elements.length → ℝ) (c2 : Fin p2.elements.length → ℝ)
    (hc1 : totalMass p1.elements data.wtOf c1 ≠ 0) (hc2 : totalMass p2.elements data.wtOf c2 ≠ 0)
    (design : Bool) (k : Fin 2) (cA aI : ℝ) (s : MixState)
    (hW : (s.inlet 0).W + (s.inlet 1).W ≠ 0)
    (h : Converged design k
      (flowCompute p1 pmix (s.inlet 0).W (s.inlet 0).ht c1 [⟨p2, (s.inlet 1).W, (s.inlet 1).ht, c2⟩]).W
      (flowCompute p1 pmix (s.inlet 0).W (s.inlet 0).ht c1 [⟨p2, (s.inlet 1).W, (s.inlet 1).ht, c2⟩]).h
      cA aI s) :
    s.out.W = (s.inlet 0).W + (s.inlet 1).W
    ∧ s.out.W * s.out.ht = (s.inlet 0).W * (s.inlet 0).ht + (s.inlet 1).W * (s.inlet 1).ht
    ∧ s.out.impulse = s.recalc.impulse + (s.inlet (1 - k)).impulse := by
  have hc := C11_flow_conservation data f1 h1 [f2] p1 pmix hp1 hpm
    [⟨p2, (s.inlet 1).W, (s.inlet 1).ht, c2⟩] (List.Forall₂.cons hp2 List.Forall₂.nil) hwt
    (s.inlet 0).W (s.inlet 0).ht c1 hc1 (by simpa using hc2) (by simpa using hW)
  have := C31_conservation design k _ _ cA aI s h (by simpa using hc.mass)
    (by simpa using hc.enthalpy)
  exact ⟨this.1, this.2.1, this.2.2.1⟩

/-- **C31 (partials).** -/
theorem C31_partials (x : I → ℝ) (y : II → ℝ) (z : Fin 2 → ℝ) :
    ExactPartials (fun x (_ : Unit) => mixImpulse x) (fun x _ => mixImpulseJ x) x
    ∧ ExactPartials (fun x (_ : Unit) => impulse x) (fun x _ => impulseJ x) y
    ∧ ExactPartials (fun x (_ : Unit) => areaSum x) (fun _ _ _ => 1) z := by
  refine ⟨?_, ?_, ?_⟩
  · intro _ i
    cases i <;> rename_i k <;> fin_cases k <;> simp [mixImpulse, mixImpulseJ, Function.update] <;>
      hd (skip) (ring1)
  · intro _ i
    cases i <;> simp only [impulse, impulseJ, Function.update_of_ne, Function.update_self, ne_eq,
      reduceCtorEq, not_false_eq_true] <;> hd (skip) (ring1)
  · intro _ i
    fin_cases i <;> simp [areaSum, Function.update] <;> hd (skip) (ring1)

/-! ## Composition wiring -/

/-- A composition vector is meaningful at its consumer when both sides list the same elements. -/
def CompConn.Consistent (c : CompConn) : Prop := c.producer = c.consumer

private theorem sortedKeys_eq_iff {d e : PyDict ℝ} (hd : d.keys.Nodup) (he : e.keys.Nodup) :
    d.sortedKeys = e.sortedKeys ↔ ∀ k, k ∈ d.keys ↔ k ∈ e.keys := by
  constructor
  · intro h k
    rw [← PyDict.mem_sortedKeys, ← PyDict.mem_sortedKeys, h]
  · intro h
    have hp : d.keys.Perm e.keys := (List.perm_ext_iff_of_nodup hd he).mpr h
    have hp' : d.sortedKeys.Perm e.sortedKeys :=
      (PyDict.sortedKeys_perm d).trans (hp.trans (PyDict.sortedKeys_perm e).symm)
    exact hp'.eq_of_pairwise' (List.pairwise_insertionSort _ _) (List.pairwise_insertionSort _ _)

/-- **C31 (composition).** All composition connections of the mixer are consistent exactly when the
second stream has no element the first lacks and — if the second stream is the designed one — the
two have the same elements. So the property (all elements of both streams are covered) is false:
see `C31_refuted`. -/
theorem C31_composition (k : Fin 2) (f1 f2 : PyDict ℝ) (h1 : f1.keys.Nodup) (h2 : f2.keys.Nodup) :
    (∀ c ∈ compConns k f1 f2, c.Consistent) ↔
      (∀ e ∈ f2.keys, e ∈ f1.keys) ∧ (k = 1 → ∀ e ∈ f1.keys, e ∈ f2.keys) := by
  have hm : (mixedFlows f1 [f2]).sortedKeys = f1.sortedKeys ↔ ∀ e ∈ f2.keys, e ∈ f1.keys := by
    show (f1.update f2).sortedKeys = f1.sortedKeys ↔ _
    rw [sortedKeys_eq_iff (PyDict.nodup_update h1 f2) h1]
    simp only [PyDict.mem_keys_update]
    constructor
    · intro h e he; exact (h e).mp (Or.inr he)
    · intro h e; exact ⟨fun hh => hh.elim id (h e), Or.inl⟩
  have hk := sortedKeys_eq_iff h2 h1
  fin_cases k
  · simp [compConns, CompConn.Consistent, hm]
  · simp only [compConns, CompConn.Consistent]
    simp [hm, hk]
    constructor
    · rintro ⟨h, h'⟩; exact ⟨h', fun e he => (h e).mpr he⟩
    · rintro ⟨h, h'⟩; exact ⟨fun e => ⟨h e, h' e⟩, h⟩

/-- **C31 is false for the outlet composition**: with air in the first stream and combustion
products (which also contain hydrogen) in the second, the outlet's composition connection is
inconsistent, for either designed stream — although the same two streams in the other order are
fine. -/
theorem C31_refuted :
    ∃ air burnt : PyDict ℝ, air.keys.Nodup ∧ burnt.keys.Nodup
      ∧ (∀ k, ¬ ∀ c ∈ compConns k air burnt, c.Consistent)
      ∧ (∀ c ∈ compConns 0 burnt air, c.Consistent) := by
  refine ⟨[("Ar", 3.23319258e-04), ("C", 1.10132241e-05), ("N", 5.39157736e-02), ("O", 1.44860147e-02)],
    [("Ar", 1), ("C", 1), ("H", 1), ("N", 1), ("O", 1)], by simp [PyDict.keys], by simp [PyDict.keys], ?_, ?_⟩
  · intro k h
    have := ((C31_composition k _ _ (by simp [PyDict.keys]) (by simp [PyDict.keys])).mp h).1 "H"
      (by simp [PyDict.keys])
    simp [PyDict.keys] at this
  · rw [C31_composition 0 _ _ (by simp [PyDict.keys]) (by simp [PyDict.keys])]
    simp [PyDict.keys]

/-- Non-vacuity of `Converged`: two equal streams mixing into one of twice the area. -/
example : ∃ s : MixState, Converged true 0 2 1 0 0 s ∧ (s.inlet 0).W + (s.inlet 1).W = 2 := by
  refine ⟨{ inlet := fun _ => ⟨1, 1, 1, 1, 0.5, 1, 2⟩, recalc := ⟨1, 1, 1, 1, 0.5, 1, 2⟩, area := 2
            out := ⟨2, 1, 1, 2, 0.5, 1, 2⟩, ER := 1 }, ?_, by norm_num⟩
  constructor <;> simp [areaSum, MixState.seen, impulse, mixImpulse, Function.update] <;> norm_num

end PyCycle.Mix
