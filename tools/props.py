#!/usr/bin/env python3
"""Source of properties.jsonl (run: python3 tools/props.py > properties.jsonl)."""
import json
P = []
def p(title, statement, quantifier, why, anchors):
    P.append(dict(id=f"C{len(P)+1:02d}", title=title, statement=statement, quantifier=quantifier,
                  why_tests_cant=why, anchors=anchors))

MP="pycycle/mp_cycle.py"
p("Flow-port setup terminates and visits each element once, upstream first",
  "Calling setup() on a Cycle always finishes, whatever flow connections were declared; every element's output-port setup runs at most once, never before the output ports of everything that flows into it have been set up and delivered, and it runs (exactly once) for every element that does not lie on or downstream of a flow loop.",
  "every finite set of elements and every finite directed graph of pyc_connect_flow links, in every declaration order, including cyclic and disconnected ones",
  "the work-list re-queues already visited nodes, so termination and exactly-once need an argument over all graphs; tests use a handful of engine layouts",
  [f"{MP}:Cycle.setup", f"{MP}:Cycle.pyc_connect_flow"])
p("Flow data delivered to an input port is the data of the connected output port",
  "When setup() succeeds on a loop-free network, each connected input port holds exactly the configuration data produced by the element it is connected from, computed from that element's own final inputs; this result is the only solution of the network's data-flow equations, so it does not depend on the order in which elements and connections were declared.",
  "every loop-free flow network, every per-element port function, every declaration order",
  "order independence quantifies over all permutations of declarations of unboundedly many elements",
  [f"{MP}:Cycle.setup","pycycle/element_base.py:Element"])
p("No element is silently left unconfigured",
  "If setup() returns without an error, every element had its output ports set up. (False of the code: elements on or after a flow loop are skipped without any diagnostic; proved as a refutation plus the loop-free case.)",
  "every flow network",
  "the failure is silent; no assertion fires in any existing test",
  [f"{MP}:Cycle.setup"])
p("pyc_connect_flow connects exactly the requested variable groups",
  "A pyc_connect_flow call always connects total composition to both total and static composition of the target, connects each further total/static/mass-flow variable iff its flag is on, always between same-named variables, and never connects the same target variable twice in one call; FlowIn declares every target it uses.",
  "every source/target port pair and every combination of the three flags",
  "a finite table but the port names are arbitrary; a missed variable is an unconnected input that silently uses a default",
  [f"{MP}:Cycle.pyc_connect_flow","pycycle/flow_in.py:FlowIn.setup"])
p("Port path resolves to its element",
  "The element name derived from a dotted port path identifies the element: two different elements never resolve to the same flow-graph node. (True for one-level paths; false for nested paths because separators are dropped; refuted with a witness.)",
  "every pair of port paths",
  "collisions occur only for particular nested names",
  [f"{MP}:Cycle.pyc_connect_flow"])
p("Multi-point bookkeeping invariant",
  "After any history of pyc_add_cycle_param / pyc_add_pnt / pyc_connect_des_od / pyc_use_default_des_od_conns calls, accepted or rejected, there is at most one design point, cycle parameters have unique names with the first value given, off-design points appear in call order, design-to-off-design connections exist only if a design point and an off-design point exist, and a rejected call changes nothing.",
  "every finite history of API calls",
  "quantifies over unbounded call histories including rejected calls",
  [f"{MP}:MPCycle"])
p("MPCycle.configure issues exactly the requested connections",
  "configure() promotes every cycle parameter on every point, and connects, for every requested (src,target) pair and every off-design point, the design point's src to that point's target, plus each non-skipped element's default pairs; nothing else; every connection runs from the design point to an off-design point.",
  "every reachable MPCycle state, any number of points, parameters, pairs and elements",
  "quantifies over all reachable states",
  [f"{MP}:MPCycle.configure"])
p("Deprecated composition aliases behave as the dictionary",
  "Reading a deprecated composition constant any number of times returns the same values as the underlying dictionary, and warns exactly once, on the first read.",
  "every sequence of reads",
  "history property of a mutable flag",
  ["pycycle/constants.py:DeprecatedDict"])
p("Adding reactants or flows yields the union of elements and mutates nothing",
  "The flow-port data computed for a mix is keyed by exactly the elements of the inflow, of the reactants and of the mixed flows, and neither the inflow's data nor any mixed flow's data nor the species data is changed.",
  "every inflow composition, every list of reactants, every list of mixed-in flows",
  "aliasing / mutation bugs only appear on later uses of the shared dict",
  ["pycycle/thermo/cea/thermo_add.py:ThermoAdd.output_port_data"])
p("Fuel/water injection conserves mass element by element (CEA)",
  "In reactant mode, the mass of every chemical element leaving equals the mass entering in the air stream plus the mass injected with the reactants, the total outflow is the inflow plus all injected flows, and the reported composition is normalised to unit mass.",
  "every inflow composition and flow rate, any number of reactants, every ratio",
  "real-valued identity over all inputs and any number of reactants",
  ["pycycle/thermo/cea/thermo_add.py:ThermoAdd.compute"])
p("Mixing flow streams conserves mass and enthalpy (CEA)",
  "In flow mode, mass of every element and total mass leaving equal the sums over all streams, and outflow mass times outflow enthalpy equals the sum of stream mass times stream enthalpy.",
  "every inflow, any number of mixed streams with any subset of elements",
  "real-valued identity over all inputs and any number of streams",
  ["pycycle/thermo/cea/thermo_add.py:ThermoAdd.compute"])
p("Tabular mixing conserves air and additive mass",
  "With tabular thermo, air mass and each additive's mass are conserved by injection and by stream mixing, and enthalpy is mass-averaged.",
  "every composition vector, flow rate and number of streams",
  "real-valued identity",
  ["pycycle/thermo/tabular/thermo_add.py:ThermoAdd"])
p("FAR means the same for both thermo methods",
  "For the same inflow and the same mix ratio, both thermo methods inject the same fuel flow. (True for clean air; false when fuel is already present: CEA scales total flow, TABULAR only the air part.)",
  "every inflow composition and ratio",
  "differs only for vitiated inflow, such as reheat",
  ["pycycle/thermo/cea/thermo_add.py:ThermoAdd.compute","pycycle/thermo/tabular/thermo_add.py:ThermoAdd.compute"])
SD="pycycle/thermo/cea/species_data.py"
p("Species properties do not depend on evaluation history",
  "Evaluating H0, S0, Cp0 at a temperature gives the same answer whatever temperatures were evaluated before. (True for every T that is not a table knot; false at a knot, where the cached table may come from either side; refuted with a witness.)",
  "every finite history of temperature evaluations",
  "cache behaviour over unbounded histories",
  [f"{SD}:Properties.build_coeff_table", f"{SD}:Properties.H0"])
p("Polynomial properties are mutually consistent",
  "For every species and every T>0 inside a table interval: d(T*H0)/dT = Cp0, dS0/dT = Cp0/T, and the derivative methods H0_applyJ/S0_applyJ/Cp0_applyJ return the exact derivatives of H0, S0, Cp0.",
  "every coefficient row and every positive temperature",
  "continuum of temperatures and arbitrary coefficients",
  [f"{SD}:Properties.H0", f"{SD}:Properties.H0_applyJ", f"{SD}:Properties.Cp0_applyJ"])
p("Product selection is exactly the species formed from available elements",
  "Properties lists a data-set product iff every element of it is in the requested composition; unknown elements or a missing composition are rejected; the element vector is normalised to unit mass; the stoichiometry matrix entry is the species' atom count.",
  "every data set and every composition",
  "quantifies over all compositions",
  [f"{SD}:Properties.__init__"])
CE="pycycle/thermo/cea/chem_eq.py"
p("A converged equilibrium conserves elements and equalises chemical potentials",
  "If all residuals of the equilibrium solve vanish with positive concentrations, then element abundances equal the inflow composition, total moles are the sum of species moles and each non-trace species' chemical potential is the stoichiometric combination of element potentials.",
  "every species set, composition, temperature and pressure, every solver state",
  "statement about all roots of a nonlinear system, including the trace-species switch's history",
  [f"{CE}:ChemEq.apply_nonlinear"])
p("Equilibrium Jacobian is exact at convergence",
  "The analytic derivatives used by Newton and by total derivatives equal the true partials of the residuals whenever the chemical-potential residuals vanish. (False away from convergence because the smoothing weight is treated as constant; refuted with a witness.)",
  "every species set and every state with positive concentrations",
  "derivative identity over a continuum in any dimension",
  [f"{CE}:ChemEq._calc_dRdy", f"{CE}:ChemEq._calc_dRdx"])
p("Reacting heat capacity is the derivative of enthalpy along equilibrium",
  "The auxiliary linear systems for T and P sensitivity are symmetric, and the Cp computed from their solution equals dh/dT at constant pressure along any differentiable family of equilibria, provided the system is non-singular.",
  "every differentiable equilibrium family, any number of species and elements",
  "implicit-function statement; a test can only finite-difference samples",
  ["pycycle/thermo/cea/props_rhs.py:PropsRHS","pycycle/thermo/cea/props_calcs.py:PropsCalcs.compute"])
p("Thermodynamic outputs obey ideal-gas relations and have exact partials",
  "rho*R*T equals P in consistent units; h, S, gamma, Cp, Cv, rho satisfy their definitions; the declared partial derivatives are the exact derivatives of the computed outputs.",
  "every species set and positive state",
  "continuum of states, any dimension",
  ["pycycle/thermo/cea/props_calcs.py:PropsCalcs"])
p("Static-from-pressure calculation is energy consistent with exact partials",
  "Whenever total enthalpy is at least static enthalpy, V^2/2 is the enthalpy drop, MN*Vsonic = V, rho*V*area = W, and declared partials are the true derivatives where the drop is non-zero.",
  "every positive state",
  "continuum of inputs",
  ["pycycle/thermo/static_ps_calc.py:PsCalc"])
p("Static area mode and Mach mode agree",
  "The static solve given a Mach number and the static solve given the area that results have the same solution set for static pressure, and the residual derivatives are exact at a consistent state.",
  "every positive state",
  "continuum of inputs and the zero-Mach/infinite-area edge cases",
  ["pycycle/thermo/static_ps_resid.py:PsResid"])
p("Static pressure guess is applied deterministically",
  "In Mach mode the initial guess is applied on the first call only; in area mode exactly when the supplied guess moved by more than the tolerance since it was last applied; otherwise the current solution is kept.",
  "every sequence of solver calls",
  "history of a cached guess",
  ["pycycle/thermo/static_ps_resid.py:PsResid.guess_nonlinear"])
p("Every thermo mode is square",
  "For each of the supported modes the Thermo group exposes exactly the inputs the mode name promises and solves for exactly the remaining state; the implicit balance has one unknown and one equation.",
  "all modes and both methods",
  "structural, finite; silent mis-promotion yields a default-valued input",
  ["pycycle/thermo/thermo.py:Thermo.setup"])
p("Gearbox transmits power with efficiency and has exact partials",
  "In design mode the input torque balances the output torque through the computed ratio so that input power = -eff... output power in magnitude; in off-design mode a zero residual enforces N_out = ratio*N_in; declared partials are exact.",
  "every input with non-zero speed",
  "continuum of inputs",
  ["pycycle/elements/gearbox.py:Gearbox"])
p("Shaft power balance",
  "Net torque is zero iff turbine torque less fractional loss equals compressor torque plus power extraction divided by speed; reported powers are torque times speed in consistent units; adding ports in any order gives the same balance; partials are exact away from zero torque.",
  "any number of torque ports, every input with non-zero speed",
  "unbounded number of ports, sign-dependent split",
  ["pycycle/elements/shaft.py:Shaft"])
p("Engine performance bookkeeping",
  "Gross thrust is the sum over nozzles, net thrust subtracts ram drag, OPR is the pressure ratio, and reported fuel-specific numbers are consistent; declared partials are exact. (TSFC partials omit the 1e-10 offset, so exactness is refuted for TSFC.)",
  "any number of nozzles and burners",
  "unbounded number of ports; tiny derivative error invisible to tolerance-based checks",
  ["pycycle/elements/performance.py:PerformanceCalcs"])
p("Splitting and bleeding conserve mass",
  "Splitter: W1+W2=W and W2=BPR*W1. Bleed-out: the outflow plus all bleeds equals the inflow, each bleed is its fraction; partials are exact.",
  "every flow, bypass ratio != -1, any number of bleeds",
  "unbounded number of bleeds",
  ["pycycle/elements/splitter.py:BPRcalc","pycycle/elements/bleed_out.py:BleedCalcs"])
p("Inlet ram recovery schedule",
  "Recovery equals base below Mach 1, is non-increasing on each branch, stays within (0, base]; total pressure out = recovery * total pressure in; ram drag = W*V/g_c. (At Mach 5 the schedule jumps independent of the base recovery; refuted continuity.)",
  "every Mach number and base recovery",
  "piecewise continuum",
  ["pycycle/elements/inlet.py:MilSpecRecovery","pycycle/elements/inlet.py:Calcs"])
p("Duct loss design/off-design round trip and energy balance",
  "A duct sized at design with a loss exponent reproduces the design loss when run off-design at the design Mach number; total pressure out is (1-loss) times in; heat added per unit flow raises total enthalpy exactly.",
  "every positive Mach number, loss, exponent",
  "continuum of inputs",
  ["pycycle/elements/duct.py"])
p("Mixer conserves mass, momentum and energy",
  "At a converged mixer the outgoing impulse equals the sum of incoming impulses; areas add; enthalpy mass-averages; the outlet composition data covers all elements of both streams. (The last clause is false: stream 2 is described by stream 1's elements.)",
  "every pair of streams",
  "quantifies over all stream element sets",
  ["pycycle/elements/mixer.py"])
p("Turbine cooling row bookkeeping",
  "Coolant is conserved: each row's outflow is its inflow plus its coolant, total coolant is the sum over rows; the cooling fraction partials are exact; rows are assigned to stages in pairs and energy is balanced. (Stage mapping and enthalpy balance clauses are false of the code.)",
  "any number of stages/rows, every positive state",
  "unbounded number of rows",
  ["pycycle/elements/cooling.py"])
p("Nozzle choking selection and thrust",
  "A CV nozzle reports sonic throat conditions iff the ideally expanded throat static pressure is below the sonic static pressure, and fully expanded conditions otherwise; CD always has a sonic throat and expanded exit; CD_CV switches only the throat; gross thrust follows the selected loss model; unknown loss model or nozzle type is rejected.",
  "every pair of candidate states and every type string",
  "branch boundary and all inputs",
  ["pycycle/elements/nozzle.py"])
p("Compressor mass, energy and power balance with bleeds",
  "Outflow = inflow - all bleeds; each bleed's enthalpy/pressure lies at its fraction between inlet and outlet; shaft power equals the enthalpy flux difference including bleeds; torque*speed = power; partials are exact.",
  "any number of bleeds, every input",
  "unbounded number of bleeds",
  ["pycycle/elements/compressor.py"])
p("Turbine mass, energy and power balance with cooling",
  "Outflow = inflow + all coolant; enthalpy drop is efficiency times ideal drop; coolant enters at its fractional pressure; power equals the enthalpy flux difference; torque*speed = power; partials are exact.",
  "any number of bleeds, every input",
  "unbounded number of bleeds",
  ["pycycle/elements/turbine.py"])
p("Map scaling round trip",
  "Scaling factors found at design applied to the same unscaled map point reproduce the design pressure ratio, efficiency, corrected flow and speed exactly, for compressor and turbine; so an off-design run at the design point has zero residual.",
  "every design point and map point with non-degenerate map values",
  "continuum of inputs",
  ["pycycle/elements/compressor_map.py","pycycle/elements/turbine_map.py"])
p("Corrected flow/speed and polytropic efficiency",
  "Corrected parameters equal their definitions and are invariant under the corresponding physical scaling; polytropic efficiency is 1 for isentropic compression/expansion, below 1 iff entropy rises; partials exact.",
  "every positive state",
  "continuum of inputs",
  ["pycycle/elements/compressor.py:CorrectedInputsCalc","pycycle/elements/turbine.py:eff_poly_calc"])
p("Standard atmosphere is monotone",
  "Ambient static pressure strictly decreases with altitude over the whole tabulated range, the interpolation passes through the table, temperature stays within the neighbouring table values, density obeys the gas law, and all reported derivatives are exact. (False in parts: one pressure entry is larger than its predecessor, the spline undershoots at the tropopause, density ignores the temperature offset, and the density derivative is wrong at one corner.)",
  "all table rows",
  "a typo in a long data table",
  ["pycycle/elements/US1976.py"])
p("Element copy_flow / init_output_flow deliver exactly one port datum",
  "copy_flow stores under the output port exactly the data of the named input port or of the given mixer; an unknown input name or wrong kind of source is an error that stores nothing; other ports are untouched.",
  "every element state and every call sequence",
  "histories of calls",
  ["pycycle/element_base.py:Element"])
p("Cycle-level options reach every child",
  "After setup, every child that understands an option design/thermo_method/thermo_data has the cycle's value for it, other options and children are unchanged.",
  "every set of children with any options",
  "unbounded number of children",
  ["pycycle/mp_cycle.py:Cycle.setup"])
p("Small-core efficiency schedule",
  "The example efficiency penalty is added exactly per tech level, is continuous and monotone in the core size, and its declared derivative equals the derivative of the schedule. (False in parts: the schedule jumps where the branch switches, the small-core gain of level 2 is not the documented one, and the fit overshoots.)",
  "every core size",
  "piecewise continuum",
  ["example_cycles/N+3ref/small_core_eff_balance.py"])
p("Molar masses are consistent with element weights",
  "Each product's molar mass in the data set equals the sum of its atoms' weights. (False for carbon species with the JANAF data because of the carbon weight; refuted, with the bound on the discrepancy.)",
  "all data-set products",
  "typo in data; effect below test tolerances",
  ["pycycle/thermo/cea/thermo_data/janaf.py"])
p("Equilibrium residuals do not depend on evaluation history",
  "Evaluating the chemical-equilibrium residuals (and then linearizing) at a given point gives the same result whatever points were evaluated before, and never fails. (False: after a nearly converged evaluation the rows of trace species are zeroed from then on, and linearizing after a first, already converged, evaluation reads an attribute that was never set.)",
  "every sequence of evaluations, every species set",
  "depends on solver history, which a unit test never replays",
  ["pycycle/thermo/cea/chem_eq.py:ChemEq.apply_nonlinear","pycycle/thermo/cea/chem_eq.py:ChemEq.linearize"])
p("Built-in thermodynamic fits are continuous and thermodynamically admissible",
  "Every species fit shipped with the package is well formed; where two temperature intervals meet, the heat capacity, enthalpy and entropy of the two agree within 1e-6 (3e-5 for the CO2 set) in units of the gas constant; heat capacity is above 2.49 on every interval for every temperature; so enthalpy and entropy increase with temperature up to that tolerance, and results after any two call histories agree within it.",
  "every species of every data set, every real temperature of its range, every call history",
  "a continuum of temperatures and arbitrary call histories",
  ["pycycle/thermo/cea/thermo_data/janaf.py","pycycle/thermo/cea/thermo_data/co2_co_o2.py","pycycle/thermo/cea/thermo_data/wet_air.py","pycycle/thermo/cea/species_data.py:Properties"])
p("Built-in component maps are usable and determine the operating point",
  "Every shipped compressor and turbine map is well formed; wherever it can be read the flow is positive, pressure ratio at least one and efficiency in range; compressor flow increases strictly with speed and does not decrease from stall towards choke, turbine flow does not decrease with pressure ratio; so for given corrected speed and flow the off-design map equations have at most one solution up to a constant-flow stretch, running off-design at the design inputs returns the design point, the constant-flow stall speed is unique, and stall margins are non-negative. (False in parts: HPT_map's flow does not depend on pressure ratio at its default vane position; hpt1269's default point lies on a flat stretch; the 1.15 speed line of LPC_map is reversed, giving negative stall margins; three maps contain a zero-efficiency, unit-pressure-ratio entry; choked stretches make the compressor line and delivered pressure ratio non-unique; the constant-flow stall balance has no solution near the top speed.)",
  "every shipped map, every real point inside its grid, every scaling and every incoming speed and flow",
  "a continuum of map points and scalings; tests read maps at one or two points",
  ["pycycle/maps","pycycle/elements/compressor_map.py:CompressorMap","pycycle/elements/turbine_map.py:TurbineMap"])
p("A solved gas state is determined by its inputs",
  "At given positive temperature, pressure and element abundances the equilibrium equations have at most one solution with positive amounts, the one of least Gibbs energy; one exists exactly when the abundances can be made up of positive amounts of all species, which for the shipped data means every element present and carbon below oxygen (plus half the hydrogen with the JANAF set). Enthalpy and entropy increase strictly with temperature within a fit interval, so the enthalpy-pressure and entropy-pressure modes have at most one solution there, and one whenever the target lies between the values at two solved temperatures; raising pressure does not increase moles and raises density. (False: with a declared element whose abundance is zero there is no solution.)",
  "every gas, every composition, temperature, pressure, target, and every solver history with trace removal inactive or the same species removed",
  "existence and uniqueness of solutions of a nonlinear system over a continuum; a test sees one convergence",
  ["pycycle/thermo/cea/chem_eq.py:ChemEq","pycycle/thermo/cea/props_calcs.py:PropsCalcs","pycycle/thermo/cea/species_data.py:Properties","pycycle/thermo/thermo.py:Thermo"])
p("Elements obey the second law",
  "With solved gas states: a compressor with efficiency at most one (below one) does not decrease (increases) entropy and needs positive work, its polytropic efficiency lies in (0,1]; a turbine with efficiency in [0,1] and cooling bleeds injected above exit pressure does not destroy entropy, each bleed with its own composition; a duct with non-negative loss and heat never decreases entropy; an inlet, which holds total temperature, lowers the Gibbs energy exactly when its recovery is below one, and if the gas cannot react conserves enthalpy and raises entropy exactly then; adiabatic mixing at no higher pressure never decreases total entropy. (False: in a reacting gas an adiabatic inlet does not conserve total enthalpy.)",
  "every gas, every element state, any number of bleeds, any stream compositions",
  "needs the thermodynamic inequality for every gas mixture",
  ["pycycle/elements/compressor.py:Compressor","pycycle/elements/turbine.py:Turbine","pycycle/elements/duct.py:Duct","pycycle/elements/inlet.py:Inlet","pycycle/thermo/cea/chem_eq.py:ChemEq"])
p("A converged combustor conserves mass, elements and energy through its wiring",
  "The combustor built for any option setting accepts all its connections, its unconnected inputs are exactly the documented ones, and at every converged state the outlet carries air plus fuel mass, the total pressure reduced by the loss, the enthalpy and composition of the mixture as one consistent total state, and, when a static outlet is asked for, a static state with the same flow and entropy.",
  "every option setting, gas, method and converged state of the whole group",
  "ranges over all converged states of a group of components, i.e. over every solver outcome",
  ["pycycle/elements/combustor.py:Combustor.setup","pycycle/thermo/thermo.py:Thermo"])
p("Sources deliver the station they are asked for",
  "A flow start, flight conditions or CFD start accepts its connections for every option setting, has exactly the documented unconnected inputs, and at every converged state its outlet is the consistent station for the requested pressure and temperature (or ambient altitude, Mach number and temperature offset; or CFD static pressure, velocity, area), Mach number and flow, with the requested composition and reactant mixed in at the requested ratio. (False: with the CEA method, a reactant and no explicit composition, setup fails.)",
  "every option setting, gas, method, reactant and converged state",
  "ranges over all converged states of a group of components",
  ["pycycle/elements/flow_start.py:FlowStart","pycycle/elements/flight_conditions.py:FlightConditions","pycycle/elements/ambient.py:Ambient","pycycle/elements/cfd_start.py:CFDStart"])
p("A converged inlet, duct or splitter delivers the station it computes",
  "For every option setting the inlet, duct and splitter accept their connections and have exactly the documented unconnected inputs; at every converged state each outlet is a consistent station of the incoming gas: the inlet keeps flow, composition and total temperature and multiplies total pressure by the recovery; the duct keeps flow and composition, multiplies total pressure by one minus the loss (with Mach scaling, the scaled loss times the Mach number to the given power, at design and off design) and adds the heat to the enthalpy flow; the splitter hands composition, total temperature and total pressure to both outlets, whose flows add up to the inlet's in the ratio BPR. The static outlet has the requested Mach number at design and the given area off design.",
  "every option setting, gas and converged state of the whole group",
  "ranges over all converged states of a group of components",
  ["pycycle/elements/inlet.py:Inlet.setup","pycycle/elements/duct.py:Duct.setup","pycycle/elements/splitter.py:Splitter.setup"])
p("A converged mixer conserves mass, enthalpy, composition and momentum",
  "For every option setting the mixer accepts its connections and has exactly the documented unconnected inputs; at every converged state the designated stream's static state is recomputed at its own flow, totals and composition, with the other stream's static pressure at design and its own given area off design; the outlet carries the sum of the flows, the mass-averaged enthalpy and the mixed composition, its area at design is the sum of the two, its impulse is the sum of the impulses, and the extraction ratio is the ratio of total pressures.",
  "every option setting, gas, method and converged state",
  "ranges over all converged states of a group of components",
  ["pycycle/elements/mixer.py:Mixer.setup","pycycle/elements/mix_impulse.py:MixImpulse"])
p("A converged nozzle expands to the exhaust pressure or chokes",
  "For every nozzle type and loss coefficient the nozzle accepts its connections and has exactly the documented unconnected inputs; at every converged state the total pressure after the loss is PR times the exhaust pressure with PR at least 1.000001, exit and throat are the sonic or the fully expanded state of the incoming gas at its enthalpy and flow as the type and the pressures require, a convergent nozzle is either sonic above the exhaust pressure or exactly expanded, and the thrust is the coefficient times the ideal thrust of the loss-free expansion, or exit momentum times the coefficients plus the pressure force.",
  "every nozzle type, loss coefficient, gas and converged state",
  "ranges over all converged states of a group of components",
  ["pycycle/elements/nozzle.py:Nozzle.setup"])
p("A converged bleed extraction splits the stream for any bleeds",
  "For any non-empty list of bleed names that do not clash with the element's own names, bleed extraction accepts its connections and has exactly the inlet station, a fraction per bleed and the outlet's Mach number or area as unconnected inputs; at every converged state each bleed takes its fraction of the incoming flow, the outlet and the bleeds add up to the incoming flow, all have the incoming total temperature, pressure and composition, together they carry the incoming enthalpy and entropy flows, and the static outlet passes what the bleeds leave. (False: without bleeds, the default, setup is refused; clashing names are refused.)",
  "every list of bleed names, option setting, gas and converged state",
  "any number and naming of bleeds, and all converged states of a group",
  ["pycycle/elements/bleed_out.py:BleedOut.setup","pycycle/elements/bleed_out.py:BleedCalcs"])
p("A converged map group runs at a point of its map, and reproduces its design point",
  "The compressor and turbine map groups accept their connections at design and off design with exactly the documented inputs; at every converged state speed, flow, efficiency and pressure-ratio excess are the scalars times the map's values at the converged map point; stall margins compare the running point with the map's stall line at constant speed and at constant flow; and a converged design state, read with the scalars it found, is a converged off-design state.",
  "every map, both modes, every converged state",
  "ranges over all converged states of a group with an implicit balance",
  ["pycycle/elements/compressor_map.py:CompressorMap","pycycle/elements/turbine_map.py:TurbineMap"])
p("A converged compressor compresses along its map, for any bleeds",
  "For any list of distinct bleed names (possibly empty) that do not clash with the element's own names, and every option setting, the compressor accepts its connections and has exactly the inlet station, speed, map point and pressure ratio and efficiency (design) or scalars (off design), outlet Mach number or area, and three fractions per bleed as unconnected inputs; at every converged state the outlet total pressure is PR times the inlet's, the isentropic enthalpy rise to it is the efficiency times the actual one, each bleed takes its fraction of the flow at its fractions of the pressure and enthalpy rise, outlet and bleeds add up to the inlet flow, the power is minus the enthalpy flow added, torque times speed is the power, and speed, flow, PR and efficiency are the scalars times the map's values at the converged map point. (False for clashing names.)",
  "every list of bleed names, option setting, gas, map and converged state",
  "any number and naming of bleeds, and all converged states of a group with nested groups",
  ["pycycle/elements/compressor.py:Compressor.setup","pycycle/elements/compressor_map.py:CompressorMap"])
p("A converged turbine expands along its map, for any cooling bleeds",
  "For any list of distinct bleed names (possibly empty) that do not clash with the element's own names, and every option setting, the turbine accepts its connections and has exactly the inlet station, speed, map point, pressure ratio and efficiency (design) or scalars (off design), outlet Mach number or area, and per bleed its station and pressure fraction as inputs to supply, apart from unused inputs of its mixing component; at every converged state the outlet total pressure is the inlet's divided by PR, the main stream and each bleed (entering at its own enthalpy, at its fraction of the pressure drop, as its own gas) deliver the efficiency times the enthalpy drop of an isentropic expansion to the outlet pressure, outlet flow is the sum of all flows, the outlet enthalpy flow is that of the streams less the power, the outlet holds every element the streams bring, torque times speed is the power, and speed, flow, PR and efficiency are the scalars times the map's values at the converged map point. (False for clashing names.)",
  "every list of bleed names, option setting, gas of each stream, map, thermo method and converged state",
  "any number and naming of bleeds, and all converged states of a group with nested groups",
  ["pycycle/elements/turbine.py:Turbine.setup","pycycle/elements/turbine_map.py:TurbineMap"])
p("A converged cycle conserves mass and energy, however its elements are joined",
  "For every cycle whose links go from outlets to inlets of its elements, at every converged state: the mass leaving through outlets that hand their flow to no element equals the mass entering through inlets that are fed by none plus the fuel and started flows, and the energy (mass flow times total enthalpy) leaving equals that entering plus fuel enthalpy, heat added in ducts and shaft work; if an outlet is linked to several inlets, the difference is exactly the repeated flow. Flow starts, flight conditions, inlets, ducts, splitters, bleed extraction, compressors, combustors, turbines, mixers and nozzles keep such accounts in every option setting; every port sees a state of its gas. (False without the correction: linking one outlet to two inlets is accepted and creates mass; an inlet with losses creates energy in a gas whose enthalpy depends on pressure.)",
  "every cycle graph (any number of elements, branches, bleeds, loops), gas, option setting and converged state",
  "ranges over all cycles a user can build and all converged states of nested groups",
  ["pycycle/mp_cycle.py:Cycle.pyc_connect_flow","pycycle/mp_cycle.py:Cycle.setup","pycycle/elements/*.py:setup"])
p("A solved turbojet flies, burns, balances and thrusts as asked",
  "The single-spool turbojet of the examples is accepted in both modes, and every converged state of it can be read with each input equal to the output it is connected to. In such a state: the nozzle discharges against the standard atmosphere's pressure at the given altitude; the nozzle's total pressure is the free stream's times ram recovery, compressor pressure ratio and burner loss, divided by the turbine pressure ratio, times nozzle loss; net thrust is nozzle momentum and pressure thrust less the momentum of the captured air, and equals the target; the burner exit temperature (design) or the throat area (off design) equals its target; compressor and turbine power balance on the shaft with the losses and the extracted power, up to the conversion factor; what leaves the nozzle is air plus fuel in mass, and air and fuel enthalpy less shaft work in energy; without shaft losses and with full recovery all that energy is in the jet.",
  "every gas, map, fuel, mode and converged state of the engine",
  "ranges over all converged states of nine nested groups and components",
  ["example_cycles/simple_turbojet.py:Turbojet","pycycle/mp_cycle.py:Cycle","pycycle/elements/shaft.py:Shaft","pycycle/elements/performance.py:Performance"])
p("A design point is an off-design point",
  "For the inlet, combustor, duct, splitter, mixer, bleed extraction, compressor and turbine (any bleeds), every converged design state whose outlet gas is moving is a converged off-design state, with the same value of every input and output of the element, once the values that default_des_od_conns connects are passed on; and these values, the element's own design inputs and starting guesses are all that the off-design element needs. For the example turbojet, every solved design point is in the same way a solved off-design point, with the areas and map scalars that MPTurbojet passes on, its own throat area, thrust and speed. (False for a duct with a loss map: the scaled loss is not among the default connections. False with statics=False: the default connections name an area that neither end has.)",
  "every gas, map, option setting, list of bleed names and converged state",
  "ranges over all converged states of nested groups in two modes",
  ["pycycle/elements/*.py:default_des_od_conns","pycycle/mp_cycle.py:MPCycle.configure","example_cycles/simple_turbojet.py:MPTurbojet"])
p("A solved high-bypass turbofan divides, burns, balances and thrusts as asked",
  "The two-spool high-bypass turbofan of the examples is accepted as a design point and off design in both throttle modes, and every converged state of it can be read with each input equal to the output it is connected to. In such a state: both nozzles discharge against the standard atmosphere's pressure at the given altitude; along the core and along the bypass the total pressure is the free stream's times the recovery, compression ratios and loss factors, divided by the turbine pressure ratios, and the overall pressure ratio is that of the compression; net thrust is the momentum and pressure thrust of both nozzles less the momentum of all the captured air; thrust or throttle setting, turbine inlet temperature, throat areas meet their targets and every quantity a balance determines reaches the element that uses it; on each spool the powers balance with loss and extraction, up to the conversion factor; the splitter divides the air by the bypass ratio, each bleed takes its fraction of the flow at its place and the cooling air comes back in the turbines; what leaves through nozzles and bleeds is air plus fuel in mass, and air and fuel enthalpy plus heat less shaft work in energy; without shaft losses, heat and with full recovery all that energy is in the jets and bleeds.",
  "every gas, set of maps, fuel, way of adding bleed air, mode and converged state of the engine",
  "ranges over all converged states of twenty-two nested groups and components in three modes",
  ["example_cycles/high_bypass_turbofan.py:HBTF","pycycle/mp_cycle.py:Cycle","pycycle/elements/shaft.py:Shaft","pycycle/elements/performance.py:Performance"])
p("A solved mixed-flow turbofan mixes, afterburns, balances and thrusts as asked",
  "The mixed-flow turbofan with afterburner of the examples is accepted as a design point and off design, and every converged state of it can be read with each input equal to the output it is connected to. In such a state: the nozzle discharges against the standard atmosphere's pressure at the given altitude; the total pressures at both entries of the mixer and at the nozzle are products of recovery, compression ratios, loss factors and turbine pressure ratios; the two streams meet at equal static pressure and their impulses add up; net thrust is the nozzle's rated ideal momentum less the momentum of the captured air, and fuel consumption counts both burners; thrust or throat area, extraction ratio and both temperatures meet their targets; the splitter, bleeds and returned cooling air divide and collect the flow; what leaves through the nozzle is air and the fuel of both burners in mass, and their enthalpies plus heat less shaft work in energy. On each spool the powers balance with loss and extraction. (The last is false of the example: its balances compare the powers before losses and extraction, so power extraction, which the example sets to 250 hp, and shaft losses change nothing in the cycle.)",
  "every gas, set of maps, pair of fuels, way of adding bleed air and of mixing, mode and converged state of the engine",
  "ranges over all converged states of twenty-four nested groups and components in two modes",
  ["example_cycles/mixedflow_turbofan.py:MixedFlowTurbofan","pycycle/elements/mixer.py:Mixer","pycycle/mp_cycle.py:Cycle","pycycle/elements/shaft.py:Shaft","pycycle/elements/performance.py:Performance"])
p("A solved turboshaft delivers the power asked for, and balances",
  "The turboshaft with a free power turbine of the examples is accepted as a design point and off design, and every converged state of it can be read with each input equal to the output it is connected to. In such a state: the nozzle discharges against the standard atmosphere's pressure at the given altitude; the nozzle's total pressure is the free stream's times ram recovery, compressor pressure ratio and burner loss, divided by both turbine pressure ratios, times nozzle loss; net thrust is the nozzle's momentum and pressure thrust less the momentum of the captured air; fuel consumption is fuel per hour and delivered shaft horsepower; the delivered power equals its target in both modes, nozzle pressure ratio and burner exit temperature (design) or the throat area (off design) theirs, and every quantity a balance determines reaches the element that uses it; on the gas generator shaft the powers balance with loss and extraction, and the power turbine's, less loss and extraction, is the delivered power, up to the conversion factor; what leaves the nozzle is air plus fuel in mass, and air and fuel enthalpy less shaft work in energy; without losses and with full recovery the energy of air and fuel is that of the jet and the delivered work.",
  "every gas, set of maps, fuel, mode and converged state of the engine",
  "ranges over all converged states of eleven nested groups and components in two modes",
  ["example_cycles/single_spool_turboshaft.py:SingleSpoolTurboshaft","pycycle/mp_cycle.py:Cycle","pycycle/elements/shaft.py:Shaft","pycycle/elements/performance.py:Performance"])
p("A solved electric propulsor takes the power and gives the thrust asked for",
  "The electric propulsor of the examples, dry or with water in the free stream, is accepted as a design point and off design, and every converged state of it can be read with each input equal to the output it is connected to. In such a state: the nozzle discharges against the standard atmosphere's pressure at the given altitude; the nozzle's total pressure is the free stream's times ram recovery, fan pressure ratio and nozzle loss, and the overall pressure ratio is the fan's; net thrust is the nozzle's momentum and pressure thrust less the momentum of the captured air; the power of the fan equals its target in both modes, the throat area its target off design, and the flow and speed the balances determine reach the elements that use them; the fan does the isentropic work between its pressures divided by its efficiency; all the captured flow leaves through the nozzle, and its total enthalpy is that of the free stream plus the fan's power, up to the inlet's change of enthalpy with pressure at fixed temperature (none for an ideal gas).",
  "every gas, fan map, water content, mode and converged state of the propulsor",
  "ranges over all converged states of nested groups and components in two modes",
  ["example_cycles/electric_propulsor.py:Propulsor","example_cycles/wet_propulsor.py:WetPropulsor","pycycle/mp_cycle.py:Cycle","pycycle/elements/performance.py:Performance"])
p("A cooled turbine of any number of stages mixes its rows' coolant in, row by row",
  "For every number of stages from one up, the turbine cooling element is accepted with all its rows, and in every converged state of it: each row cools the stream the row before it delivers, the first row the turbine's inlet flow; a row whose gas is colder than the metal may be takes no coolant, a hotter one the amount of the cooling correlation; the flow never decreases along the rows, what leaves the last is the inlet flow and all the coolant, and the same holds of the air and each additive (tabular) or of each chemical element (CEA); every row's outlet is a state of the mixed gas at the pressure of its stage; the enthalpy leaving the last row is that of inlet flow and coolant less the turbine's power. (The last is false: the work of each cooled rotor is divided by the flow entering it and taken from the larger flow leaving it, so work times coolant over primary flow is lost once more.)",
  "every gas, way of mixing, number of stages, option setting and converged state",
  "ranges over all converged states of a chain of nested groups of any length",
  ["pycycle/elements/cooling.py:TurbineCooling","pycycle/elements/cooling.py:Row","pycycle/elements/cooling.py:CoolingCalcs"])
p("A solved afterburning turbojet is the engine its parts describe, and balances",
  "The turbojet with afterburner of the examples is accepted as a design point and off design, and every converged state of it can be read with each input equal to the output it is connected to. In such a state: the nozzle discharges against the standard atmosphere's pressure at the given altitude; its total pressure is the free stream's times ram recovery, compressor pressure ratio and the loss factors of duct, both burners and nozzle, divided by the turbine's pressure ratio; net thrust is the nozzle's momentum and pressure thrust less the momentum of the captured air, and specific fuel consumption counts both burners; the burner exit temperature meets its target in both modes, thrust (design) or the compressor's R-line (off design) too, and every quantity a balance determines reaches the element that uses it; the compressor gives up its bleed fractions and the turbine takes all of them back; what leaves through the nozzle is air and the fuel of both burners in mass, and their enthalpies plus heat less shaft work in energy, the fuel being the fuel-air ratio times the air (tabular) or the whole flow (CEA) of the stream it is added to; in both modes the turbine pays for compressor, shaft loss and power extraction. (The last is false off design: the balance compares the powers before loss and extraction.)",
  "every gas, pair of maps, pair of fuels, way of adding bleed air, mode and converged state of the engine",
  "ranges over all converged states of eleven nested groups and components in two modes",
  ["example_cycles/afterburning_turbojet.py:ABTurbojet","pycycle/mp_cycle.py:Cycle","pycycle/elements/combustor.py:Combustor","pycycle/elements/shaft.py:Shaft","pycycle/elements/performance.py:Performance"])
p("A solved geared turbofan is the engine its parts describe, balances, and sizes its cooling",
  "The geared turbofan of the N+3 reference example is accepted as a design point, off design, and off design with the cooling of its high-pressure turbine sized, and every converged state of it can be read with each input equal to the output it is connected to. In such a state: both nozzles discharge against the standard atmosphere's pressure at the given altitude; along the core and along the bypass the total pressure is the free stream's times recovery, compression ratios and loss factors, divided by the turbine pressure ratios, and every duct's loss goes with the square of the Mach number of the stream entering it; net thrust is the momentum and pressure thrust of both nozzles less the momentum of the captured air; at the design point turbine inlet temperature, the polytropic efficiencies and the overall pressure ratio are the targets, the high-pressure compressor's efficiency is that of its core size, and the fan's annulus is the inlet's exit area; off design thrust, throat area and the fan's operating line are the targets; the fan turns at the gear ratio times the speed of the low spool, and power balances on all three shafts, the gearbox costing what it loses; all air and fuel leave through nozzles and bleeds, and the energy they bring; with cooling sized, each bleed of the high-pressure turbine is what the cooling model asks for, none for a vane cold enough.",
  "every gas, set of maps, fuel, way of adding bleed air and coolant, mode and converged state of the engine",
  "ranges over all converged states of up to twenty-nine nested groups and components in three modes",
  ["example_cycles/N+3ref/N3ref.py:N3","pycycle/elements/gearbox.py:Gearbox","example_cycles/N+3ref/small_core_eff_balance.py:SmallCoreEffBalance","pycycle/elements/cooling.py:TurbineCooling","pycycle/mp_cycle.py:Cycle"])
p("A solved turboshaft with two gas generator spools delivers the power asked for, and balances",
  "The three-spool turboshaft of the examples is accepted as a design point and off design, and every converged state of it can be read with each input equal to the output it is connected to. In such a state: the nozzle discharges against the standard atmosphere's pressure at the given altitude; the total pressure at the burner is the free stream's times ram recovery, the three compression ratios and the loss factors of ducts and burner, at the nozzle that divided by the three turbine pressure ratios, times the losses on the way, and the overall pressure ratio is that of the compressors and the duct between them; net thrust is the nozzle's momentum and pressure thrust less the momentum of the captured air; fuel consumption is fuel per hour and horsepower of the power turbine; nozzle pressure ratio and burner exit temperature (design) or shaft power and throat area (off design) meet their targets and every quantity a balance determines reaches the element that uses it; on both gas generator spools the powers balance with loss and extraction, and the power turbine's, less loss and extraction, is the delivered power, up to the conversion factor; each bleed takes its fraction of the flow at its place and comes back in its turbine; what leaves the nozzle is air plus fuel in mass, and air and fuel enthalpy plus heat less shaft work in energy; without losses and heat and with full recovery the energy of air and fuel is that of the jet and the delivered work.",
  "every gas, set of maps, fuel, way of adding bleed air, mode and converged state of the engine",
  "ranges over all converged states of twenty-three nested groups and components in two modes",
  ["example_cycles/multi_spool_turboshaft.py:MultiSpoolTurboshaft","pycycle/elements/bleed_out.py:BleedOut","pycycle/mp_cycle.py:Cycle","pycycle/elements/shaft.py:Shaft","pycycle/elements/performance.py:Performance"])
p("Humid air is the mixture asked for, and a solved turbojet in it is the engine its parts describe, atom by atom",
  "Flight conditions with a reactant are accepted under the default name of the mixing ratio and under the one the examples give it, and in every converged state static pressure and temperature are those of the atmosphere, the flow, air and water together, is the given one at the given Mach number, and a unit of mass is 1/(1+WAR) dry air and WAR/(1+WAR) water. The turbojet in humid air of the examples is accepted as a design point and off design, and every converged state of it can be read with each input equal to the output it is connected to. In such a state: the nozzle discharges against the standard atmosphere's pressure at the given altitude and its total pressure is the free stream's times recovery, pressure ratios and loss factors; net thrust is the nozzle's momentum and pressure thrust less the momentum of the captured humid air; thrust and burner exit temperature (design) or thrust and throat area (off design) meet their targets and every quantity a balance determines reaches the element that uses it; the turbine pays for compressor, shaft loss and extraction in both modes; what leaves the nozzle is humid air plus fuel in mass, their enthalpies less shaft work in energy, and, with chemical equilibrium, of every chemical element exactly what came with the dry air, the water and the fuel.",
  "every gas, pair of maps, way of mixing in water and fuel, mode and converged state; every chemical element, reactant data set and water-air ratio",
  "ranges over all converged states of nine nested groups and components in two modes and over all thermodynamic data sets",
  ["example_cycles/wet_simple_turbojet.py:WetTurbojet","pycycle/elements/flight_conditions.py:FlightConditions","pycycle/elements/flow_start.py:FlowStart","pycycle/thermo/cea/thermo_add.py:ThermoAdd","pycycle/mp_cycle.py:Cycle"])
p("Off-design points of the multipoint examples fly the engine that was designed",
  "A multipoint problem whose calls make sense (different point names, passed outputs and inputs that exist, nothing fed twice) is accepted, whatever the cycles at its points; in every converged state of it each point is a converged state of its own cycle, every quantity connected from design to off design has the design point's value at every off-design point, every cycle parameter has one value at all points, and conversely converged states of the points that agree on these are a converged state of the problem; what the calls of a multipoint class lead to in configure is exactly these connections and promotions. Each multipoint example (turbojet dry and wet, afterburning turbojet, propulsor, single- and multi-spool turboshaft, mixed-flow and high-bypass turbofan) makes sense whatever its off-design points are called, and in every converged state of it each off-design point has the areas behind all its elements, the throat areas of its fixed nozzles and the map scalars of all its compressors and turbines of the design point; part power of the high-bypass turbofan is the given part of its full-power thrust. (False of duct6 of the multi-spool turboshaft and inlet_duct of the mixed-flow turbofan, whose areas off design are inputs nothing sets.)",
  "every multipoint class and history of its calls, every gas, map and fuel, any number and names of off-design points, every converged state",
  "ranges over all converged states of coupled points, each of up to twenty-three nested groups and components, and over any number of off-design points",
  ["pycycle/mp_cycle.py:MPCycle","example_cycles/simple_turbojet.py:MPTurbojet","example_cycles/wet_simple_turbojet.py:MPWetTurbojet","example_cycles/afterburning_turbojet.py:MPABTurbojet","example_cycles/electric_propulsor.py:MPpropulsor","example_cycles/single_spool_turboshaft.py:MPSingleSpool","example_cycles/multi_spool_turboshaft.py:MPMultiSpool","example_cycles/mixedflow_turbofan.py:MPMixedFlowTurbofan","example_cycles/high_bypass_turbofan.py:MPhbtf"])
p("The geared turbofan flies four points as one engine, cooled as rolling take-off demands",
  "The N+3 multipoint problem (top of climb, rolling take-off, sea-level static, cruise), alone and with the balances of the single- and multi-design-point scripts, is accepted, and every converged state of it can be read with each input equal to the output it is connected to. In such a state: each point is a converged engine of its mode, top of climb a design, rolling take-off one that sizes its cooling; each off-design point has the designed engine's map scalars, gear ratio, duct losses and core nozzle throat, and with statics passed every element's exit area; at every point the share of the compressor's air that cools the vane, and the share that cools the other rows, is the one found at rolling take-off, where the bleeds are what the cooling correlation asks for; fan and booster have the design pressure ratios given for the whole problem and with the compressor multiply to the target; the burner exit temperature at top of climb is the given ratio times RTO_T4; with the multi-design-point balances RTO_T4 is the burner exit temperature at rolling take-off, thrust at cruise and at sea level the given multiples of those at top of climb and rolling take-off, and with the ratio scripts' balances the jet velocity ratio stands to its target as they say. (Without those balances RTO_T4 is tied to nothing at rolling take-off.)",
  "every gas, set of maps, fuel, way of adding bleed air and coolant, each of the three problems, statics passed or not, every converged state",
  "ranges over all converged states of four coupled engines of up to twenty-nine nested groups and components each",
  ["example_cycles/N+3ref/N3ref.py:MPN3","example_cycles/N+3ref/N3_SPD.py","example_cycles/N+3ref/N3_MDP.py","example_cycles/N+3ref/N3_MDP_Opt.py","example_cycles/N+3ref/N3_MDP_verif.py","pycycle/mp_cycle.py:MPCycle"])
for q in P: print(json.dumps(q))
