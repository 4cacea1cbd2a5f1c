import Verif.Model.Nozzle
import Verif.Lemmas.HasD

/-! # C33: nozzle -/

namespace PyCycle.Noz

/-- **C33 (options).** Exactly the three nozzle types and the two loss models are accepted. -/
theorem C33_options (s : String) :
    (nozzOf s = none ↔ s ≠ "CV" ∧ s ≠ "CD" ∧ s ≠ "CD_CV")
    ∧ (lossOf s = none ↔ s ≠ "Cfg" ∧ s ≠ "Cv")
    ∧ (nozzOf s = some .CV ↔ s = "CV") ∧ (nozzOf s = some .CD ↔ s = "CD")
    ∧ (nozzOf s = some .CD_CV ↔ s = "CD_CV")
    ∧ (lossOf s = some .Cfg ↔ s = "Cfg") ∧ (lossOf s = some .Cv ↔ s = "Cv") := by
  unfold nozzOf lossOf
  by_cases h1 : s = "CV"
  · subst h1; decide
  by_cases h2 : s = "CD"
  · subst h2; decide
  by_cases h3 : s = "CD_CV"
  · subst h3; decide
  by_cases h4 : s = "Cfg"
  · subst h4; decide
  by_cases h5 : s = "Cv"
  · subst h5; decide
  simp [h1, h2, h3, h4, h5]

/-- The reported static station: twelve properties and the entropy. -/
structure Reported where
  prop : Pr → ℝ
  S : ℝ

/-- The throat reported by the selector. -/
noncomputable def throat (k : NozzType) (x : MI → ℝ) : Reported :=
  ⟨fun p => mux k x (.throat p), mux k x .throatS⟩

/-- The exit reported by the selector. -/
noncomputable def exit (k : NozzType) (x : MI → ℝ) : Reported :=
  ⟨fun p => mux k x (.out p), mux k x .outS⟩

/-- The sonic candidate. -/
def sonic (x : MI → ℝ) : Reported := ⟨fun p => x (.mn p), x .S⟩

/-- The fully expanded candidate. -/
def expanded (x : MI → ℝ) : Reported := ⟨fun p => x (.ps p), x .S⟩

/-- **C33 (selection).** With back pressure below the sonic static pressure a CV nozzle reports the
sonic state at throat and exit, otherwise the expanded state at both; a CD nozzle always reports a
sonic throat and an expanded exit; a CD_CV nozzle switches its throat like a CV and always reports an
expanded exit. At equality the flow counts as not choked. -/
theorem C33_selection (x : MI → ℝ) :
    (x .Ps_calc < x (.mn .P) →
      throat .CV x = sonic x ∧ exit .CV x = sonic x ∧ throat .CD_CV x = sonic x)
    ∧ (x (.mn .P) ≤ x .Ps_calc →
      throat .CV x = expanded x ∧ exit .CV x = expanded x ∧ throat .CD_CV x = expanded x)
    ∧ throat .CD x = sonic x ∧ exit .CD x = expanded x ∧ exit .CD_CV x = expanded x := by
  refine ⟨fun h => ?_, fun h => ?_, rfl, rfl, rfl⟩
  · simp [throat, exit, sonic, mux, pick, h]
  · simp [throat, exit, expanded, mux, pick, not_lt.mpr h]

/-- **C33 (partials).** Exact for every nozzle type and loss model; the selector away from its
switching point (for CD at every point), the pressures at non-zero pressure ratio. -/
theorem C33_partials (k : NozzType) (l : Loss) (x : MI → ℝ) (y : PI → ℝ) (z : FI → ℝ)
    (hx : k = .CD ∨ x .Ps_calc ≠ x (.mn .P)) (hy : y .PR ≠ 0) :
    ExactPartials (mux k) (muxJ k) x ∧ ExactPartials press pressJ y
    ∧ ExactPartials (perf l) (perfJ l) z := by
  have hg : g_c ≠ 0 := by norm_num [g_c]
  refine ⟨?_, ?_, ?_⟩
  · have hpick : k ≠ .CD → ∀ (i : MI) (p : Pr),
        HasDerivAt (fun t => pick (Function.update x i t) p)
          (if x .Ps_calc < x (.mn .P) then (if i = .mn p then 1 else 0)
            else (if i = .ps p then 1 else 0)) (x i) := by
      intro hk i p
      have hne : x .Ps_calc ≠ x (.mn .P) := hx.resolve_left hk
      have hcoord : ∀ j : MI, HasDerivAt (fun t => Function.update x i t j)
          (if i = j then 1 else 0) (x i) := by
        intro j
        by_cases hij : i = j
        · subst hij; simpa using hasDerivAt_id' (x i)
        · simp only [Function.update_of_ne (Ne.symm hij), hij, if_false]
          exact hasDerivAt_const _ _
      have c1 := (hcoord .Ps_calc).continuousAt
      have c2 := (hcoord (.mn .P)).continuousAt
      rcases lt_or_gt_of_ne hne with h | h
      · have hev : ∀ᶠ t in nhds (x i), Function.update x i t .Ps_calc
            < Function.update x i t (.mn .P) :=
          c1.eventually_lt c2 (by simpa using h)
        rw [if_pos h]
        refine (hcoord (.mn p)).congr_of_eventuallyEq ?_
        filter_upwards [hev] with t ht
        simp only [pick, if_pos ht]
      · have hev : ∀ᶠ t in nhds (x i), Function.update x i t (.mn .P)
            < Function.update x i t .Ps_calc :=
          c2.eventually_lt c1 (by simpa using h)
        rw [if_neg (not_lt.mpr h.le)]
        refine (hcoord (.ps p)).congr_of_eventuallyEq ?_
        filter_upwards [hev] with t ht
        simp only [pick, if_neg (not_lt.mpr ht.le)]
    have hcoord : ∀ i j : MI, HasDerivAt (fun t => Function.update x i t j)
          (if i = j then 1 else 0) (x i) := by
      intro i j
      by_cases hij : i = j
      · subst hij; simpa using hasDerivAt_id' (x i)
      · simp only [Function.update_of_ne (Ne.symm hij), hij, if_false]
        exact hasDerivAt_const _ _
    intro o i
    cases o with
    | choked => cases i <;> exact hasDerivAt_const _ _
    | throatS =>
      refine (hcoord i .S).congr_deriv ?_
      cases i <;> simp [muxJ]
    | outS =>
      refine (hcoord i .S).congr_deriv ?_
      cases i <;> simp [muxJ]
    | throat p =>
      cases k
      · refine (hpick (by simp) i p).congr_deriv ?_
        cases i <;> simp [muxJ, eq_comm] <;> split <;> simp_all
      · refine (hcoord i (.mn p)).congr_deriv ?_
        cases i <;> simp [muxJ, eq_comm]
      · refine (hpick (by simp) i p).congr_deriv ?_
        cases i <;> simp [muxJ, eq_comm] <;> split <;> simp_all
    | out p =>
      cases k
      · refine (hpick (by simp) i p).congr_deriv ?_
        cases i <;> simp [muxJ, eq_comm] <;> split <;> simp_all
      · refine (hcoord i (.ps p)).congr_deriv ?_
        cases i <;> simp [muxJ, eq_comm]
      · refine (hcoord i (.ps p)).congr_deriv ?_
        cases i <;> simp [muxJ, eq_comm]
  · intro o i
    cases o <;> cases i <;> simp only [press, pressJ, Function.update_of_ne, Function.update_self,
      ne_eq, reduceCtorEq, not_false_eq_true] <;> hd (exact hy) (fring)
  · intro o i
    cases l <;> cases o <;> cases i <;> simp only [perf, perfJ, Function.update_of_ne,
      Function.update_self, ne_eq, reduceCtorEq, not_false_eq_true] <;> hd (exact hg) (fring)

/-- **C33 is false for the `choked` output**: it is 1 in every state, for every nozzle type. -/
theorem C33_refuted_choked :
    ¬ ∃ k, ∀ x, mux k x .choked = 1 ↔ x .Ps_calc < x (.mn .P) := by
  rintro ⟨k, h⟩
  exact absurd ((h fun | .Ps_calc => 1 | _ => 0).mp rfl) (by norm_num)

/-! ## The group -/

/-- **C33 (pressure ratio).** For positive throat total and exhaust pressures the pressure-ratio
balance has exactly one solution, the total-to-exhaust ratio, and it is admissible iff that ratio is at
least 1.000001: a nozzle whose throat total pressure is not above the exhaust pressure cannot
converge. -/
theorem C33_pressure_ratio (n : NozIn) (hPt : 0 < n.Pt) (hd : n.dPqP < 1)
    (hPs : 0 < n.Ps_exhaust) :
    (∀ PR, n.Converged PR ↔ 1.000001 ≤ PR ∧ PR = n.Pt * (1 - n.dPqP) / n.Ps_exhaust)
    ∧ ((∃ PR, n.Converged PR) ↔ 1.000001 * n.Ps_exhaust ≤ n.Pt * (1 - n.dPqP)) := by
  have key : ∀ PR, n.Converged PR ↔ 1.000001 ≤ PR ∧ PR = n.Pt * (1 - n.dPqP) / n.Ps_exhaust := by
    intro PR
    unfold NozIn.Converged prLower prResid NozIn.Ps_calc press NozIn.pressIn
    constructor
    · rintro ⟨h1, h2⟩
      have hPR : (0 : ℝ) < PR := lt_of_lt_of_le (by norm_num) h1
      refine ⟨h1, ?_⟩
      simp only at h2
      field_simp at h2 ⊢
      linarith
    · rintro ⟨h1, h2⟩
      have hPR : (0 : ℝ) < PR := lt_of_lt_of_le (by norm_num) h1
      refine ⟨h1, ?_⟩
      simp only
      rw [eq_div_iff hPs.ne'] at h2
      field_simp
      linarith
  refine ⟨key, ?_⟩
  rw [← le_div_iff₀ hPs]
  constructor
  · rintro ⟨PR, h⟩
    obtain ⟨h1, h2⟩ := (key PR).mp h
    rwa [h2] at h1
  · intro h
    exact ⟨_, (key _).mpr ⟨h, rfl⟩⟩

/-- **C33 (choking).** In a converged CV nozzle: if the exhaust pressure is below the static pressure
of the sonic solution, throat and exit are at Mach 1 and at that sonic pressure; otherwise both are
at the exhaust pressure. CD and CD_CV nozzles always exhaust at the exhaust pressure. The outgoing
mass flow is the incoming one in every case. -/
theorem C33_choking (n : NozIn) (th : Therm) (PR : ℝ) (h : n.Converged PR) :
    let Psonic := th.statMN n.ht (th.totS n.ht (n.Pt * (1 - n.dPqP))) n.W 1 .P
    let x := n.muxIn th PR
    (n.Ps_exhaust < Psonic → mux .CV x (.out .MN) = 1 ∧ mux .CV x (.throat .MN) = 1
      ∧ mux .CV x (.out .P) = Psonic ∧ mux .CD_CV x (.throat .MN) = 1)
    ∧ (Psonic ≤ n.Ps_exhaust → mux .CV x (.out .P) = n.Ps_exhaust
      ∧ mux .CV x (.throat .P) = n.Ps_exhaust ∧ mux .CD_CV x (.throat .P) = n.Ps_exhaust)
    ∧ mux .CD x (.out .P) = n.Ps_exhaust ∧ mux .CD_CV x (.out .P) = n.Ps_exhaust
    ∧ mux .CD x (.throat .MN) = 1
    ∧ (∀ k, mux k x (.out .W) = n.W ∧ mux k x (.throat .W) = n.W) := by
  intro Psonic x
  have hPs : n.Ps_calc PR = n.Ps_exhaust := by
    have := h.2; unfold prResid at this; linarith
  have e1 : x .Ps_calc = n.Ps_exhaust := hPs
  have e2 : x (.mn .P) = Psonic := rfl
  have e3 : x (.ps .P) = n.Ps_exhaust := hPs
  have e4 : x (.mn .MN) = 1 := rfl
  refine ⟨fun hl => ?_, fun hl => ?_, e3, e3, e4, fun k => ?_⟩
  · have : x .Ps_calc < x (.mn .P) := by rw [e1, e2]; exact hl
    have hp : pick x = fun p => x (.mn p) := by simp only [pick, if_pos this]
    exact ⟨by simp only [mux, hp, e4], by simp only [mux, hp, e4], by simp only [mux, hp, e2],
      by simp only [mux, hp, e4]⟩
  · have : ¬ x .Ps_calc < x (.mn .P) := by rw [e1, e2]; exact not_lt.mpr hl
    have hp : pick x = fun p => x (.ps p) := by simp only [pick, if_neg this]
    exact ⟨by simp only [mux, hp, e3], by simp only [mux, hp, e3], by simp only [mux, hp, e3]⟩
  · have ew : pick x .W = n.W := by
      unfold pick; split <;> rfl
    cases k <;> exact ⟨by first | exact ew | rfl, by first | exact ew | rfl⟩

/-- **C33 (thrust).** Gross thrust of a converged nozzle. With the gross-thrust coefficient it is that
coefficient times the ideal thrust. With the velocity coefficient it is the momentum of the reported
exit stream times the coefficient plus the pressure thrust; the pressure thrust vanishes for CD and
CD_CV and for an unchoked CV, and for a choked CV it is (sonic pressure − exhaust pressure) × area. -/
theorem C33_thrust (n : NozIn) (th : Therm) (PR : ℝ) (h : n.Converged PR) (k : NozzType) :
    let Psonic := th.statMN n.ht (th.totS n.ht (n.Pt * (1 - n.dPqP))) n.W 1 .P
    let out := fun p => mux k (n.muxIn th PR) (.out p)
    let Vid := th.statPs n.ht n.S n.W n.Ps_exhaust .V
    perf .Cfg (n.perfIn th k PR) .Fg = n.Cfg * (n.W * Vid / 32.174)
    ∧ (∀ l, perf l (n.perfIn th k PR) .Fg_ideal = n.W * Vid / 32.174)
    ∧ ((k = .CV → Psonic ≤ n.Ps_exhaust) →
        perf .Cv (n.perfIn th k PR) .Fg = n.Cv * (n.W * out .V / 32.174))
    ∧ (k = .CV → n.Ps_exhaust < Psonic →
        perf .Cv (n.perfIn th k PR) .Fg
          = n.Cv * (n.W * out .V / 32.174) + (Psonic - n.Ps_exhaust) * out .area) := by
  intro Psonic out Vid
  have hPs : n.Ps_calc PR = n.Ps_exhaust := by
    have := h.2; unfold prResid at this; linarith
  have hVid : n.perfIn th k PR .V_ideal = Vid := by
    show th.statPs n.ht n.S n.W (n.Ps_calc PR) .V = _
    rw [hPs]
  have hsel := C33_choking n th PR h
  have hfg : perf .Cv (n.perfIn th k PR) .Fg
      = n.Cv * (n.W * out .V / 32.174) + (out .P - n.Ps_exhaust) * out .area := by
    show n.W / g_c * out .V * n.Cv * 1 * 1 + (out .P - n.Ps_calc PR) * out .area = _
    rw [hPs, g_c]; ring
  refine ⟨?_, fun l => ?_, fun hk => ?_, fun hk hl => ?_⟩
  · show n.W / g_c * n.perfIn th k PR .V_ideal * n.Cfg = _
    rw [hVid, g_c]; ring
  · show n.W / g_c * n.perfIn th k PR .V_ideal = _
    rw [hVid, g_c]; ring
  · have : out .P = n.Ps_exhaust := by
      cases k
      · exact (hsel.2.1 (hk rfl)).1
      · exact hsel.2.2.1
      · exact hsel.2.2.2.1
    rw [hfg, this]; ring
  · subst hk
    have : out .P = Psonic := (hsel.1 hl).2.2.1
    rw [hfg, this]

/-- **C33 (ideal nozzle).** A nozzle without pressure loss and with unit coefficients whose exit is
fully expanded (CD, CD_CV, or unchoked CV) delivers exactly the ideal gross thrust, provided the
inflow entropy is the one its thermodynamics assigns to its enthalpy and pressure. -/
theorem C33_ideal (n : NozIn) (th : Therm) (PR : ℝ) (h : n.Converged PR) (k : NozzType)
    (hk : k = .CV → th.statMN n.ht (th.totS n.ht (n.Pt * (1 - n.dPqP))) n.W 1 .P ≤ n.Ps_exhaust)
    (hloss : n.dPqP = 0) (hS : n.S = th.totS n.ht n.Pt) (hcv : n.Cv = 1) (hcfg : n.Cfg = 1) :
    perf .Cv (n.perfIn th k PR) .Fg = perf .Cv (n.perfIn th k PR) .Fg_ideal
    ∧ perf .Cfg (n.perfIn th k PR) .Fg = perf .Cfg (n.perfIn th k PR) .Fg_ideal := by
  obtain ⟨h1, h2, h3, -⟩ := C33_thrust n th PR h k
  have hPs : n.Ps_calc PR = n.Ps_exhaust := by
    have := h.2; unfold prResid at this; linarith
  refine ⟨?_, by rw [h1, h2, hcfg, one_mul]⟩
  rw [h3 hk, h2, hcv, one_mul]
  have hPt : n.Pt_th PR = n.Pt := by simp [NozIn.Pt_th, press, NozIn.pressIn, hloss]
  have hV : mux k (n.muxIn th PR) (.out .V) = th.statPs n.ht n.S n.W n.Ps_exhaust .V := by
    have e : n.muxIn th PR (.ps .V) = th.statPs n.ht n.S n.W n.Ps_exhaust .V := by
      show th.statPs n.ht (th.totS n.ht (n.Pt_th PR)) n.W (n.Ps_calc PR) .V = _
      rw [hPt, hPs, hS]
    cases k
    · have hn : ¬ n.muxIn th PR .Ps_calc < n.muxIn th PR (.mn .P) := by
        show ¬ n.Ps_calc PR < th.statMN n.ht (th.totS n.ht (n.Pt * (1 - n.dPqP))) n.W 1 .P
        rw [hPs]; exact not_lt.mpr (hk rfl)
      simp only [mux, pick, if_neg hn]; exact e
    · exact e
    · exact e
  simp only [hV]

/-- Both a choked and an unchoked converged nozzle exist. -/
example : ∃ (n : NozIn) (th : Therm) (PR : ℝ), n.Converged PR ∧ 0 < n.Pt ∧ n.dPqP < 1
    ∧ 0 < n.Ps_exhaust
    ∧ n.Ps_exhaust < th.statMN n.ht (th.totS n.ht (n.Pt * (1 - n.dPqP))) n.W 1 .P := by
  refine ⟨⟨100, 500, 40, 1.6, 14, 0, 1, 1⟩, ⟨fun _ _ => 1.6, fun _ _ _ _ _ => 21, fun _ _ _ _ _ => 14⟩,
    40 / 14, ⟨?_, ?_⟩, ?_, ?_, ?_, ?_⟩ <;>
  norm_num [prLower, prResid, NozIn.Ps_calc, press, NozIn.pressIn]

example : ∃ (n : NozIn) (th : Therm) (PR : ℝ), n.Converged PR
    ∧ th.statMN n.ht (th.totS n.ht (n.Pt * (1 - n.dPqP))) n.W 1 .P ≤ n.Ps_exhaust
    ∧ n.dPqP = 0 ∧ n.S = th.totS n.ht n.Pt ∧ n.Cv = 1 ∧ n.Cfg = 1 := by
  refine ⟨⟨100, 500, 20, 1.6, 14, 0, 1, 1⟩, ⟨fun _ _ => 1.6, fun _ _ _ _ _ => 11, fun _ _ _ _ _ => 14⟩,
    20 / 14, ⟨?_, ?_⟩, ?_, rfl, rfl, rfl, rfl⟩ <;>
  norm_num [prLower, prResid, NozIn.Ps_calc, press, NozIn.pressIn]

end PyCycle.Noz
