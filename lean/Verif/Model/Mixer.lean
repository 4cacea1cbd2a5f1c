import Verif.Model.CeaThermoAdd

/-! # `Mixer` (pycycle/elements/mixer.py)

The group is modelled by the equations of its explicit components and by what its connections and
balances force at convergence. The `Thermo` groups enter through the quantities they pass on
(see C24 for what a converged `Thermo` group guarantees). -/

namespace PyCycle.Mix

/-- Inputs of `MixImpulse` (mixer.py:19-28), indexed by the stream. -/
inductive I | W (k : Fin 2) | P (k : Fin 2) | V (k : Fin 2) | area (k : Fin 2)
  deriving DecidableEq

/-- `MixImpulse.compute` (mixer.py:40-43). -/
noncomputable def mixImpulse (x : I → ℝ) : ℝ :=
  (x (.P 0) * x (.area 0) + x (.W 0) * x (.V 0)) + (x (.P 1) * x (.area 1) + x (.W 1) * x (.V 1))

/-- `MixImpulse.compute_partials` (mixer.py:46-56). -/
noncomputable def mixImpulseJ (x : I → ℝ) : I → ℝ
  | .P k => x (.area k)
  | .area k => x (.P k)
  | .W k => x (.V k)
  | .V k => x (.W k)

/-- Inputs of `Impulse` (mixer.py:78-81). -/
inductive II | P | area | V | W
  deriving DecidableEq
/-- `Impulse.compute` (mixer.py:87-88). -/
noncomputable def impulse (x : II → ℝ) : ℝ := x .P * x .area + x .W * x .V
/-- `Impulse.compute_partials` (mixer.py:91-96). -/
noncomputable def impulseJ (x : II → ℝ) : II → ℝ
  | .P => x .area | .area => x .P | .V => x .W | .W => x .V

/-- `AreaSum.compute` (mixer.py:70-72). -/
noncomputable def areaSum (x : Fin 2 → ℝ) : ℝ := x 0 + x 1

/-- A flow station as far as the mixer uses it: static `W`, `P`, `V`, `area`, static enthalpy `hs`,
total enthalpy `ht`, total pressure. -/
structure Stn where
  W : ℝ
  P : ℝ
  V : ℝ
  area : ℝ
  hs : ℝ
  ht : ℝ
  Pt : ℝ

/-- Values of a mixer: the two incoming stations, the recomputed static state of the designed
stream, the group variable `area`, and the outgoing station. -/
structure MixState where
  inlet : Fin 2 → Stn
  recalc : Stn
  area : ℝ
  out : Stn
  ER : ℝ

/-- The two stations seen by `impulse_mix` (mixer.py:251-260): the designed stream `k` is replaced
by its recomputed station. -/
def MixState.seen (s : MixState) (k : Fin 2) : Fin 2 → Stn :=
  Function.update s.inlet k s.recalc

/-- The equations of a converged mixer. `k` is the designed stream (0 for option value 1), `flowW`
and `flowH` are `flow_add.Wout` and `flow_add.mass_avg_h`, `calcArea` the off-design input
`Fl_Ik_stat_calc.area`, `areaIn` the off-design input `area`. -/
structure Converged (design : Bool) (k : Fin 2) (flowW flowH calcArea areaIn : ℝ) (s : MixState) :
    Prop where
  /-- `W` of the recomputed station (mixer.py:197, 211, 226, 237). -/
  calcW : s.recalc.W = (s.inlet k).W
  /-- its total enthalpy (same lines) -/
  calcHt : s.recalc.ht = (s.inlet k).ht
  /-- design: static pressure of the other stream (mixer.py:197, 211). -/
  calcP : design = true → s.recalc.P = (s.inlet (1 - k)).P
  /-- off-design: area given (mixer.py:219-239, mode `static_A`). -/
  calcA : design = false → s.recalc.area = calcArea
  /-- design: `area_calc` with the recomputed area for the designed stream (200-202, 214-216);
  off-design: `area` is an input (291). -/
  areaEq : s.area = if design then areaSum (fun j => ((s.seen k) j).area) else areaIn
  /-- `out_stat` in mode `static_A` (287-297). -/
  outArea : s.out.area = s.area
  outW : s.out.W = flowW
  outHt : s.out.ht = flowH
  /-- the `P_tot` balance (299-309). -/
  balance : impulse (fun | .P => s.out.P | .area => s.out.area | .V => s.out.V | .W => s.out.W)
    = mixImpulse (fun | .P j => (s.seen k j).P | .area j => (s.seen k j).area
                      | .W j => (s.seen k j).W | .V j => (s.seen k j).V)
  /-- `extraction_ratio` (241-244). -/
  er : s.ER = (s.inlet 0).Pt / (s.inlet 1).Pt

/-! ## Composition wiring -/

/-- A connection of composition vectors: the element lists of producer and consumer. -/
structure CompConn where
  producer : List String
  consumer : List String

/-- All composition connections of a mixer (mixer.py:169-239, 246-248, 278-292); a `Thermo` or
`ThermoAdd` built for a composition dictionary has a vector over its sorted keys
(species_data.py:36-37). Line 173 sets `flow2_composition` to the data of `Fl_I1`, and lines 280 and
289 use `flow1_composition` for the outlet. -/
def compConns (designedStream : Fin 2) (f1 f2 : PyDict ℝ) : List CompConn :=
  let flow2 := f1                                                  -- line 173
  (if designedStream = 0 then [⟨f1.sortedKeys, f1.sortedKeys⟩]      -- 191-198, 220-228
   else [⟨f2.sortedKeys, flow2.sortedKeys⟩])                        -- 205-212, 231-239
  ++ [⟨f1.sortedKeys, f1.sortedKeys⟩, ⟨f2.sortedKeys, f2.sortedKeys⟩,  -- flow_add inputs
      ⟨(mixedFlows f1 [f2]).sortedKeys, f1.sortedKeys⟩,            -- out_tot
      ⟨(mixedFlows f1 [f2]).sortedKeys, f1.sortedKeys⟩]            -- out_stat

end PyCycle.Mix
