# Formal model of pyCycle in Lean 4 — design

The plan below was written before the proofs and has been extended as the model
grew. Statuses and exact theorem names are in MANIFEST.json; what was found false
of the code is listed under "Disagreements".

## Approach

* The Python control logic (flow-graph walk, multi-point bookkeeping, caches,
  composition dictionaries, option push-down) is modelled as total functions on
  lists/structures with exceptions as values.
* The numeric components (`compute`, `compute_partials`, `apply_nonlinear`,
  `linearize`) are modelled as real-valued functions, one Lean definition per
  Python method, loops as folds. Floating point is idealised to the reals; where
  the Python would divide by zero the theorem carries the exact guard.
* "Declared partial is exact" is always stated with Mathlib's `HasDerivAt` on the
  modelled `compute`, so the statement does not mention any helper.
* Layout: `Verif/Model/*` (model, every definition cites file:lines),
  `Verif/Spec/*` (independent specifications), `Verif/Lemmas/*` (helpers),
  `Verif/Props/*` (property theorems and, beside each, non-vacuity examples).

## Per-property plan

| id | what is modelled | how it is proved |
|----|------------------|------------------|
| C01 | `Cycle.setup` work-list over a finite digraph, with the log of element setups | invariant on (queue, visited, log) + a path-count weight for termination; visited = accessible part of the predecessor relation |
| C02 | same + per-element port functions and port dictionaries | invariant: delivered data solves the data-flow equations; uniqueness by well-founded induction |
| C03 | same | concrete witness graph with a loop (negation) + loop-free `_partial` |
| C04 | list of `connect` calls issued by `pyc_connect_flow` | membership characterisation for arbitrary names |
| C05 | name derivation on segment lists | witness for collision; injectivity on one-level paths |
| C06,C07 | MPCycle as a state machine, `configure` as a call trace | induction over histories |
| C08 | `DeprecatedDict` as state machine | induction over reads |
| C09 | association-list dictionaries with Python update semantics | induction over reactants / flows |
| C10,C11 | `ThermoAdd.compute` (CEA) on vectors over `Fin n` with the mapping matrix | algebra over finite sums |
| C12,C13 | `ThermoAdd.compute` (TABULAR) | algebra; witness of disagreement with CEA |
| C14 | `build_coeff_table` with its cache as a state machine | invariant: cached row = fresh row off the knots; witness at a knot |
| C15 | `H0,S0,Cp0,*_applyJ` | `HasDerivAt` |
| C16 | product filter, aij, b0 | list reasoning |
| C17,C18 | `ChemEq.apply_nonlinear`, `_calc_dRdy`, `_calc_dRdx` | algebra / `HasDerivAt`; witness away from convergence |
| C19 | `PropsRHS` + `PropsCalcs` Cp | implicit differentiation, uniqueness from non-singularity |
| C20 | `PropsCalcs.compute`, `compute_partials` | algebra / `HasDerivAt` |
| C21,C22,C23 | `PsCalc`, `PsResid` incl. guess cache | algebra / `HasDerivAt` / state machine |
| C24 | `Thermo.setup` promotion tables | case analysis over the finite mode table |
| C25–C37 | the calc components of each element | algebra / `HasDerivAt` / induction over ports, bleeds, rows |
| C38,C42 | data tables, as rationals; the Akima rule between the entries | `decide +kernel`/`norm_num` over the whole table; algebra: lines and parabolas are reproduced exactly |
| C39,C40 | `Element.copy_flow`, option push-down | list reasoning |
| C41 | example efficiency component, Akima interpolation of its table | `HasDerivAt`, interval arithmetic on rationals |
| C43 | `ChemEq` with its mutable attributes, as a state machine | comparison of two histories; witnesses |
| C44 | all species tables of the three data modules as exact rationals | kernel evaluation of polynomial certificates for the heat capacity on each interval, rational bounds for the logarithms at the knots, then real analysis for all temperatures |
| C45 | all map tables as exact rationals, piecewise-linear interpolation | the tables are checked by the kernel in full, the consequences for all real points of the grid by convexity |
| C46 | `ChemEq` residuals, `PropsCalcs` | Gibbs' inequality (log-sum), compactness of the feasible set for existence, intermediate value theorem in temperature |
| C47 | compressor, turbine, duct, inlet over solved gas states | dual prices (element potentials) as supporting hyperplane of the Gibbs energy |
| C48,C49 | `setup` of combustor, flow start, flight conditions, ambient and CFD start as lists of subsystems, promotions and connections | connection resolution is computed by the kernel for every option setting; converged states are those where every subsystem's equations hold on the connected values |
| C50,C51,C52 | the same for inlet, duct, splitter, mixer and nozzle | the same; the formulas are in the units the code uses (lbm/s, Btu/lbm, ft/s, lbf with `g_c` = 32.174; psi and ft² as the component declares them), without unit conversion |
| C53 | `setup` of bleed extraction for an arbitrary list of bleed names | the wiring with bleeds is the kernel-evaluated wiring without them plus a fixed pattern per bleed (`Extends`); names built from bleed names are shown distinct by their first segments |
| C54 | `setup` of the two map groups, maps as arbitrary functions | kernel-evaluated wiring, algebra |
| C55 | `Compressor.setup` for an arbitrary list of bleed names, the map group nested as a subsystem | as C53; the map group's equation is that it has a converged state agreeing on its interface |
| C56 | `Turbine.setup` for an arbitrary list of bleed names, each bleed with its own gas, CEA or tabular mixing | as C55; element balance from C11, C12 |
| C57 | a cycle: named element groups, `pyc_connect_flow` links, other subsystems and connections; an account (ports, outside mass and energy) per element | each element's account from C48–C56; summation over the links of an arbitrary graph |
| C58 | `Turbojet.setup` of `example_cycles/simple_turbojet.py` in both modes: six elements, shaft, performance, balance, their links, connections and promotions | each element's theorem (C48–C56) read through the cycle's connections; C57 for mass and energy |
| C59 | `default_des_od_conns` of the eight elements with a design mode, `MPCycle.configure`'s connections for `MPTurbojet`; the element groups of C48–C56 in both modes | the design state, overridden at the passed names, satisfies every off-design equation: subsystems of both modes read and write the same values (locality), the outlet solver satisfies its area equation, a map point satisfies the scaled equations (C36); the engine by gluing the redesigned elements |
| C60 | `HBTF.setup` of `example_cycles/high_bypass_turbofan.py` in its three modes: eighteen elements, two shafts, performance, balance with multipliers, links, connections and promotions | as C58, through the engine kit (`Proofs/EngineKit`, `Ifaces`, `EngineLaws`): acceptance from a checked skeleton of names, laws of each element read at its links; C57 for energy; `Verif/Bench` solves each kind of element at given stations, and `C60_Example` assembles from them a solved engine in every mode |
| C61 | `MixedFlowTurbofan.setup` of `example_cycles/mixedflow_turbofan.py` as a design point and off design: twenty elements with mixer, afterburner and rated nozzle, two shafts, performance with two fuels, six balances, links and connections | as C60, through the engine kit; the mixer's laws from C51 read at its links; refutation: `Proofs/ShaftAlter` changes a shaft's extraction and losses in any solved cycle that does not use what they determine |
| C62 | `SingleSpoolTurboshaft.setup` of `example_cycles/single_spool_turboshaft.py` as a design point and off design: seven elements, two shafts, performance with delivered power, balances with renamed targets, links and connections | as C60, through the engine kit; `C62_Example`: a solved engine in both modes |
| C63 | `Propulsor.setup` of `example_cycles/electric_propulsor.py` and `WetPropulsor.setup` of `wet_propulsor.py`, both modes: four elements, performance, balances, the speed component, links and connections | as C60, through the engine kit; `C63_Example`: a solved propulsor in both modes |
| C64 | `Row.setup` and `TurbineCooling.setup` of `cooling.py` for any number of stages: promotions, the chain of connections, `CoolingCalcs`, flow adder and mixed state of each row | names of rows are distinct for every index, wiring accepted by a generic argument over the range; each row's equations read through the chain; sums by induction on the rows; `C64_Example`: a solved one-stage turbine |
| C65 | `ABTurbojet.setup` in both modes: elements, promotions, links, balances | as C61; `ABTJ.Books` for both burners; off design the shaft balance ignores losses and extraction, refuted as in C61; `C65_Example`: a solved engine |
| C66 | `N3.setup` of the N+3 example as design point, off design and with cooling sized: elements, promotions, links, gearbox, auxiliary components, balances | as C60, with `C25` for the gearbox, `C64` for the cooling element; pressure-ratio target and gearbox loss refuted; a solved off-design engine with a lossy gearbox (Props/C66_Example) |
| C67 | `MultiSpoolTurboshaft.setup` of `example_cycles/multi_spool_turboshaft.py` as a design point and off design: eighteen elements, three shafts, performance, balances, links and connections | as C60 and C62; `C67_Example`: a solved engine in both modes |
| C68 | `FlowStart.setup` and `FlightConditions.setup` with a reactant under any of the names the examples give its ratio; `WetTurbojet.setup` of `example_cycles/wet_simple_turbojet.py` as a design point and off design | as C49 and C62; atoms by C10 in the free stream and in the burner and C11 in the turbine, the element lists matched through `setup`; `C68_Example`: an engine in oxygen, water and methane solved in both modes with the equilibrium model's mixing components (`Bench/Cea`) |
| C69 | `MPCycle` as an OpenMDAO group of points (`Multi`), and the `setup` of the multipoint classes of `example_cycles` (points, cycle parameters, connections), the names of off-design points open | acceptance as in C57; a point of a solved problem is a solved cycle (transfer through its own promotions); the interface of each engine (what it gives, what it leaves free) is computed once from its parts and the connection lists checked against it by kernel evaluation of closed lists; areas off design by C48–C56, throats by the balances of C58–C68; the two ducts left out are shown to be free inputs; `C69_Example`: a solved multipoint turboshaft |
| C70 | `MPN3.setup` (four named points, cycle parameters, connections, cooling fractions, `T4_ratio`), alone and with the balances of `N3_MDP.py`, `N3_MDP_Opt.py`, `N3_MDP_verif.py` (`mpN3`) | as C69, with the points named and rolling take-off in the mode of C66 that sizes its cooling; values at the points read through renaming promotions (`Flies`); cooling shares from the bleed laws and the shared fraction; the MDP clauses from the balances and the connections; that `RTO_T4` alone is tied to nothing by changing it in a given solved state |

## What is modelled

| module (`Verif/Model`) | code |
|---|---|
| FlowGraph, ElementBase | `mp_cycle.py` `Cycle.setup`, `_create_flow_graph`, `pyc_connect_flow`, option push-down; `element_base.py` |
| ConnectFlow | `mp_cycle.py` `pyc_connect_flow`, `flow_in.py` |
| MPCycle | `mp_cycle.py` `MPCycle` |
| PyDict | Python `dict` as association list (insertion order, overwrite in place) |
| SpeciesSetup, CoeffTable | `species_data.py` `Properties.__init__`, `build_coeff_table` with its cache, `H0/S0/Cp0` and `*_applyJ` |
| ThermoDataTables, ThermoDataReal | `thermo_data/janaf.py`, `wet_air.py`, `co2_co_o2.py` (generated by tools/thermo_data.py) |
| ChemEq | `chem_eq.py`, `props_rhs.py`, `props_calcs.py` |
| StaticPs | `static_ps_calc.py`, `static_ps_resid.py` |
| ThermoGroup | `thermo.py` `Thermo.setup` wiring of the six modes, `unit_comps.py` |
| ThermoAddPorts, CeaThermoAdd, TabThermoAdd | `cea/thermo_add.py`, `tabular/thermo_add.py` |
| Gearbox, Shaft, Performance, SplitBleed, Inlet, Duct, Mixer, Cooling, Nozzle, Compressor, Turbine | the `compute`/`compute_partials` of every component in the file of that name, and the wiring of the group where a property needs it |
| OMGroup | OpenMDAO group semantics: promotion patterns and aliases, connections, which input reads which output, what a converged group is (no units, no solver settings, no input defaults) |
| ElementWiring | `setup` of `flow_start.py`, `ambient.py`, `flight_conditions.py`, `cfd_start.py`, `inlet.py`, `duct.py`, `combustor.py`, `splitter.py`, `mixer.py`, `nozzle.py` |
| CoolingGroup | `setup` of `cooling.py` `Row` and `TurbineCooling`, any number of stages |
| BleedWiring | `setup` of `bleed_out.py`, `compressor_map.py`, `turbine_map.py`, `compressor.py`, `turbine.py`, for any list of bleed names |
| CycleGroup, Turbojet, Turbofan, MixedFlow, Turboshaft, Propulsor, Afterburner, GearedFan, MultiSpool, WetTurbojet, DesOdConns | `Cycle` as a group with its links (`mp_cycle.py`), `example_cycles/simple_turbojet.py` (`Turbojet.setup`, the connections of `MPTurbojet`), `example_cycles/high_bypass_turbofan.py` (`HBTF.setup`), `example_cycles/mixedflow_turbofan.py` (`MixedFlowTurbofan.setup`), `example_cycles/single_spool_turboshaft.py` (`SingleSpoolTurboshaft.setup`), `example_cycles/electric_propulsor.py` and `wet_propulsor.py` (`Propulsor.setup`, `WetPropulsor.setup`), `example_cycles/afterburning_turbojet.py` (`ABTurbojet.setup`), `example_cycles/N+3ref/N3ref.py` (`N3.setup`), `example_cycles/multi_spool_turboshaft.py` (`MultiSpoolTurboshaft.setup`), `example_cycles/wet_simple_turbojet.py` (`WetTurbojet.setup`), `default_des_od_conns` of every element |
| MultiPoint, MultiExamples | `mp_cycle.py` `MPCycle` as a group; the `setup` of the multipoint classes of `example_cycles` other than `MPN3` |
| MultiGeared | `N3ref.py` `MPN3`; the balances and connections added in `N3_MDP.py`, `N3_MDP_Opt.py`, `N3_MDP_verif.py` (not their solvers, design variables, constraints and initial values) |
| Maps, MapInterp, MapTables | `compressor_map.py`, `turbine_map.py`, all of `maps/` (generated by tools/map_data.py) |
| Atmosphere, AtmTable, Akima | `US1976.py`, `ambient.py` |
| SmallCore | `example_cycles/N+3ref/small_core_eff_balance.py` |

## What is not modelled

* OpenMDAO itself beyond the promotion and connection semantics of Model/OMGroup:
  convergence of its solvers, unit conversion (except the factors that appear in the
  code or in declared units where a property mentions them).
* Floating point: numbers are reals (data tables: the exact rationals of the decimal
  literals). Where the Python would divide by zero the theorem has the guard.
* numpy/networkx/scipy internals. The two interpolations used are modelled from
  their documented behaviour: scipy `Akima1DInterpolator` (Model/Akima) and OpenMDAO
  structured `slinear` (Model/MapInterp); networkx by its node and edge lists.
* Plotting and the `viewers` text output; the example cycles as whole
  engines, except `simple_turbojet.py`, `high_bypass_turbofan.py`,
  `mixedflow_turbofan.py`, `single_spool_turboshaft.py`, `electric_propulsor.py`,
  `wet_propulsor.py`, `afterburning_turbojet.py`, `multi_spool_turboshaft.py`,
  `wet_simple_turbojet.py` and
  `N+3ref/N3ref.py` (class `N3`), with their multipoint classes.

## Trusted base

* Lean's kernel. Every theorem depends on at most the axioms `propext`,
  `Classical.choice` and `Quot.sound` (vcheck replays all modules); no axiom is added,
  nothing rests on compiled code. `decide +kernel` is used for finite tables only, and
  there over the whole table, evaluated by the kernel. The tactic `krfl`
  (`Verif/Lemmas/KernelRfl`) proves `a = b` by `Eq.refl a` and leaves the comparison to
  the kernel. `Verif/Lemmas/NameCode` lets the kernel compare names as numbers; every
  shortcut in it is proved equal to the model's own definition.
* The reading of the Python source into `Verif/Model` (each definition cites its
  lines), and the generators of the two data modules, which copy the literals.
* The specifications in `Verif/Spec` and the theorem statements as renderings of the
  English properties.

## Disagreements between code and property found while proving

* C03 a flow loop is silently left out of the setup order. C05 distinct nested paths
  can give the same flow-port name. C07 a string given as skip list skips substrings.
* C09 the tabular mixer's element list is not the union of its inputs; C13 the two
  methods mean different things by the same ratio.
* C14 the coefficient row at an interval boundary depends on the previous call;
  C18 derivatives exact only at convergence; C20 entropy derivative of trace species;
  C43 residuals depend on evaluation history, linearizing first can fail.
* C22 the derivative at zero Mach number is wrong, zero area is treated as Mach 5.
* C24 a static station reports the default composition. C31, C35 the composition
  leaving a mixer / turbine is the first stream's when wired as in the code.
* C25 a gearbox efficiency below one can create power; C26 kink at zero torque.
* C27 TSFC derivative is wrong. C29 recovery jumps at Mach 5. C30 default off-design
  connections. C32 energy of a cooled row, stage counting, port order, jump in the
  effectiveness. C33 the choked flag is constantly 1.
* C64 a cooled turbine loses energy in every cooled rotor.
* C36 stall margins are unscaled, unit pressure ratio. C37 derivatives use values cached
  by the last evaluation.
* C38 one table entry is out of order, undershoot at the tropopause, density ignores
  the temperature offset, a wrong density derivative at one corner. C41 jump at the
  branch switch, level-2 gain, overshoot.
* C42 carbon's weight in the JANAF set is not that used for the carbon species.
* C45 HPT_map is flat, hpt1269's default lies on a plateau, LPC_map's top line is
  reversed, three maps contain a zero-efficiency entry, constant-flow stall balance
  has no solution near the top speed.
* C46 a declared element with zero abundance, or too much carbon, leaves the
  equilibrium equations without a solution.
* C49 a reactant without an explicit composition fails at setup with the CEA method.
* C53 bleed extraction without bleeds (its default) is refused at setup.
* C57 an outlet linked to two inlets is accepted and doubles the flow.
* C59 a duct with a loss map does not pass its scaled loss to off design; with
  `statics=False` the default connections name variables that do not exist.
* C47 an inlet holds total temperature, so in a reacting gas it does not conserve enthalpy.
* C61 the mixed-flow turbofan balances its shafts before losses and extraction; the 250 hp
  it extracts cost nothing.
* C65 so does the afterburning turbojet off design (but not at its design point).
* C66 the N+3 example drives the product of the three machines' pressure ratios to its overall-pressure-ratio target; the overall pressure ratio it reports contains the losses of two ducts and falls short of it. A gearbox efficiency below one makes the low-pressure turbine deliver less than fan and booster take, and the engine as a whole emits more energy than it takes in.
* C69 `MPMultiSpool` passes no area to `duct6` and `MPMixedFlowTurbofan` none to
  `inlet_duct`: off design these ducts have the default area of an unconnected input.
* C70 `MPN3` ties `RTO_T4` to nothing at rolling take-off: as `N3_SPD.py` uses it, it is any
  number of the user's; only the balances of the MDP scripts make it the burner's exit temperature there.

## Testing the theorems

`tools/mutate.py` edits one definition of the model in a scratch copy, rebuilds, and
records in seeded/LOG.jsonl which theorems fail; `tools/automutate.py` produces edits
(operators, constants, swapped branches, dropped terms). Survivors led to the tightened
theorems named in the log.

The modules C48–C57 import one another in a chain so that their kernel evaluations (a few
GB each) are not built at the same time.
