{
 "C03": {
  "status": "partial",
  "note": "The property as stated is false of the code (a flow loop is silently left out): C03_refuted. Proved instead: no omission in loop-free models, and the omitted elements are exactly those fed by a loop."
 },
 "C05": {
  "status": "partial",
  "note": "False for nested paths whose first segments coincide (C05_refuted); proved for one-level port paths."
 },
 "C07": {
  "status": "proved",
  "note": "Full for list arguments; a string passed as skip list is refuted in C07_skip_string_refuted."
 },
 "C09": {
  "status": "partial",
  "note": "CEA: full. For the tabular method the element list is not the union: C09_tabular_refuted."
 },
 "C13": {
  "status": "partial",
  "note": "False of the code (C13_refuted); C13_far_ratio_partial gives the exact relation between the two meanings."
 },
 "C14": {
  "status": "partial",
  "note": "False at a temperature equal to a range boundary (C14_refuted); proved off the boundaries."
 },
 "C18": {
  "status": "proved",
  "note": "Exact at convergence as stated; also shown not to be exact elsewhere."
 },
 "C20": {
  "status": "proved",
  "note": "Partials exact for all declared pairs with no trace species; C20_refuted_trace_entropy shows the excluded case."
 },
 "C22": {
  "status": "proved",
  "note": "Both modes characterised by the static relations; derivatives exact at consistent states; the zero-Mach branch is refuted separately."
 },
 "C24": {
  "status": "proved",
  "note": "All six modes; the composition reported by a static station is shown to be the default (C24_refuted_static_composition)."
 },
 "C43": {
  "status": "partial",
  "note": "False of the code (C43_refuted_residual, C43_linearize_attribute_error); proved that only trace species can differ."
 },
 "C25": {
  "status": "proved",
  "note": "Torque balance proved in both modes; C25_refuted_loss shows an efficiency below one does not always mean lost power."
 },
 "C26": {
  "status": "proved",
  "note": "Balances proved for every port count; the kink at zero torque and the unit round trip are refuted separately."
 },
 "C27": {
  "status": "partial",
  "note": "Outputs proved; the declared TSFC partials are wrong (C27_refuted_tsfc_partials), the others exact: C27_partials_partial."
 },
 "C29": {
  "status": "partial",
  "note": "Monotone and bounded on each Mach band; across Mach 5 refuted."
 },
 "C30": {
  "status": "proved",
  "note": "Calculations proved; the default connections of the off-design duct are refuted."
 },
 "C31": {
  "status": "partial",
  "note": "Conservation proved; the outlet composition wiring is wrong when the second stream has an element the first lacks (C31_refuted), characterised exactly in C31_composition."
 },
 "C32": {
  "status": "partial",
  "note": "Mass, work and combining proved; the row energy balance, stage counting, port order and continuity as stated fail (C32_refuted_*); C32_energy_partial gives the exact balance."
 },
 "C33": {
  "status": "proved",
  "note": "Selection, partials, thrust and choking proved; the choked output is shown to be constantly 1 (C33_refuted_choked)."
 },
 "C35": {
  "status": "proved",
  "note": "Balances and partials proved; the outlet composition is shown to differ from the mixed composition in general (C35_refuted_composition)."
 },
 "C36": {
  "status": "proved",
  "note": "Map scaling and the design-point fixed point proved; C36_refuted_unit_PR and C36_refuted_stall_scaled record two places where the scaled map is not what a user expects."
 },
 "C37": {
  "status": "proved",
  "note": "Definitions, similarity, partials and efficiencies proved; C37_refuted_stale: derivatives read values cached by the last evaluation."
 },
 "C38": {
  "status": "partial",
  "note": "Monotone pressure is false at one table entry (C38_refuted) and proved elsewhere (C38_pressure_partial); undershoot and one density derivative refuted. The interpolation between table entries is the Akima rule (C38_akima_slopes), which reproduces straight lines and parabolas exactly (C38_akima_line, C38_akima_parabola)."
 },
 "C41": {
  "status": "partial",
  "note": "Gains and derivatives proved per branch; continuity at the switch, the level-2 small-core gain and monotonicity are refuted."
 },
 "C42": {
  "status": "partial",
  "note": "False for carbon species (C42_refuted); exact for carbon-free species and with a bound otherwise."
 },
 "C44": {
  "status": "proved",
  "note": ""
 },
 "C45": {
  "status": "partial",
  "note": "Well-formedness, bounds, monotonicity, uniqueness up to flat stretches, solvability of the stall balance and design-point recovery proved for all maps they hold for; the rest is refuted (C45_refuted_*)."
 },
 "C46": {
  "status": "proved",
  "note": "Uniqueness, minimum, existence (exact criterion, also for the shipped data), monotonicity and pressure response proved; temperature statements are within one fit interval; C46_refuted_absent_element records the case without solution."
 },
 "C47": {
  "status": "proved",
  "note": "Temperatures within one fit interval (Warm), trace removal inactive. C47_refuted_inlet records that an inlet, which holds total temperature, does not conserve enthalpy in a reacting gas."
 },
 "C48": {
  "status": "proved",
  "note": "Group level: components' own equations come from C10, C11, C30; converged is the group model of Model/OMGroup (no units, no solver settings)."
 },
 "C49": {
  "status": "proved",
  "note": "C49_refuted_default_with_reactant: reactant without explicit composition fails at setup with the CEA method."
 },
 "C50": {
  "status": "proved",
  "note": "Group level; energy and continuity of the static outlet under the guards of C24."
 },
 "C51": {
  "status": "proved",
  "note": "Group level; momentum balance is the converged balance equation of the model (no solver)."
 },
 "C52": {
  "status": "proved",
  "note": "Group level; energy and continuity of the internal stations under the guards of C24."
 },
 "C53": {
  "status": "proved",
  "note": "Any list of bleed names satisfying Spec/BleedNames; C53_refuted_no_bleeds and C53_refuted_names show the conditions are needed."
 },
 "C54": {
  "status": "proved",
  "note": "Maps are arbitrary functions here; C45 gives the shipped tables."
 },
 "C55": {
  "status": "proved",
  "note": "Any list of bleed names satisfying Spec/BleedNames; C55_refuted_names shows the conditions are needed. The efficiency law needs a non-zero efficiency, the map law a usable design point."
 },
 "C56": {
  "status": "proved",
  "note": "Any list of bleed names satisfying Spec/BleedNames (C56_refuted_names: needed), each bleed with its own gas; CEA and tabular mixing. The energy law needs a non-zero outlet flow. That the outlet solver is built for the inlet's elements only is C35_refuted_composition."
 },
 "C57": {
  "status": "proved",
  "note": "Cycles are lists of elements, links and further connections (Model/CycleGroup); each element's account (Spec/Accounts) is proved to hold for every option setting. C57_mass_any and C57_energy_any have no assumption on how often an outlet is linked; C57_refuted_two_inlets shows the repeated flow is real. The inlet's account says how much energy it creates. Balances that need a non-zero flow (duct, combustor, turbine, mixer) say so in ok."
 },
 "C58": {
  "status": "proved",
  "note": "Solved = converged and every input holds its source's value (Spec/Solved); C58_complete completes any converged state to a solved one with the same outputs. C58Example.solved is a solved engine in both modes, with thrust, and C58Example.guards shows that it meets all guards. The shaft's conversion factor is that of C26_refuted_round_trip. Solver settings and bounds are not modelled (they can only prevent convergence)."
 },
 "C59": {
  "status": "partial",
  "note": "Redesign and Supplied are in Spec/OffDesign. The property is false for a duct with a loss map (C59_duct_refuted_supplied: s_dPqP, duct.py:157-160) and with statics=False (C59_statics_refuted); everything else is proved, the duct with a loss map by also passing s_dPqP (C59_duct_map, C59_duct_map_supplied). Compressor and turbine need a usable map point (C36). Props/C59_Example applies every theorem to a converged state, C59_turbojet to the solved engine of C58."
 },
 "C60": {
  "status": "proved",
  "note": "HBTF.InFlight collects the positivity of flows and bleed fractions. The multiplier of the shaft balances is an input with default -1 (mult_val); the shaft theorems say so. The shaft's conversion factor is that of C26_refuted_round_trip. Solver settings and bounds are not modelled (they can only prevent convergence). Props/C60_Example: a solved engine in all three modes with fuel, bleeds and choked nozzles meets every guard (C60Example.solved, .applies). Model/Turbofan cites the lines of HBTF.setup."
 },
 "C61": {
  "status": "partial",
  "note": "Partial because one clause is false of the code: the shaft balances of the example compare pwr_in with pwr_out, not the net power, so losses and extraction are ignored. C61_shafts_partial proves what is balanced (the machines' own powers), C61_shafts_net that the shaft reports a net power of minus extraction and losses, and C61_refuted_extraction that from every solved engine one gets a solved engine for any extraction and losses that differs in nothing but the shafts' report. All other clauses are proved. MFTF.Books says that both burners and the mixer keep books under their guards (shown for tabular and equilibrium thermodynamics in C61_tab and C61_cea); MFTF.InFlight collects the positivity of flows and bleed fractions. Props/C61_Example: a solved engine in both modes with fuel in both burners, bleeds and a choked nozzle meets every guard (C61Example.solved, .applies)."
 },
 "C62": {
  "status": "proved",
  "note": "As for C60: the shaft's conversion factor is that of C26_refuted_round_trip; solver settings and bounds are not modelled. Props/C62_Example: a solved engine in both modes, with fuel, a choked nozzle and delivered power, meets every guard (C62Example.solved, .applies)."
 },
 "C63": {
  "status": "proved",
  "note": "As for C60; the speed component (IndepVarComp) may hold any value; the wet propulsor's water-ratio input keeps its default name. Props/C63_Example: a solved propulsor in both modes meets every guard (C63Example.solved, .applies)."
 },
 "C64": {
  "status": "partial",
  "note": "Everything but the energy balance is proved as stated (C64_rows, C64_mass, C64_flows, C64_tab, C64_cea); the energy balance is false of the code (C64_refuted_energy) and C64_energy_partial is the exact relation, with the term that is lost. The lengths of composition vectors are not modelled; the CEA theorem is for a coolant that brings no new chemical elements. Props/C64_Example: a solved one-stage turbine meets the guards and violates the balance."
 },
 "C65": {
  "status": "partial",
  "note": "Partial because one clause is false of the code: off design the shaft balance compares pwr_in with pwr_out, so losses and extraction are ignored (at design it uses the net power: C65_shaft_design). C65_shaft_off_partial proves what is balanced and what the shaft then reports, C65_refuted_extraction that from every solved off-design engine one gets a solved one for any extraction and losses that differs in nothing but the shaft's report. All other clauses are proved. ABTJ.Books says that both burners keep books under their guards (shown for tabular and equilibrium thermodynamics in C65_tab and C65_cea). Props/C65_Example: a solved engine in both modes with fuel in both burners, bleeds and a choked nozzle meets every guard (C65Example.solved, .applies)."
 },
 "C66": {
  "status": "partial",
  "note": "Partial because two clauses are false of the code: the overall pressure ratio that is driven to the target is the product of the machines' pressure ratios without the ducts' losses (C66_opr, C66_refuted_opr), and a gearbox with losses takes less from the low spool than it gives the fan (C66_low_spool, C66_refuted_gear_loss), so that more energy leaves than air and fuel bring (C66_jet, C66_refuted_energy); with an ideal gearbox and no duct loss both hold. All other clauses are proved. N3.InFlight collects the positivity of flows and bleed fractions. The unit conversion of the turbine's power on its way to the cooling element is a component of its own. A design point with cooling sized is refused by OpenMDAO (set_order) and not modelled. Props/C66_Example solves the engine off design with every bleed flowing and a gearbox of efficiency 0.80."
 },
 "C68": {
  "status": "proved",
  "note": "Guards: the flow fc.W the free stream is computed with and 1+WAR are not zero, the dry composition has mass, captured air is positive and fuel not negative (WTJ.InFlight). WTJ.Cea says how setup made the mixing components: dry air, then water, then fuel. Props/C68_Example: an engine in oxygen, water and methane, solved in both modes, meets every hypothesis and C68_atoms gives its carbon and hydrogen."
 },
 "C69": {
  "status": "partial",
  "note": "False of two examples, each in one size: MPMultiSpool passes no area to duct6 and MPMixedFlowTurbofan none to inlet_duct. C69_multi_spool_duct6 and C69_mixed_flow_inlet_duct prove that off design that area is an input of the whole problem which nothing feeds; the theorems with suffix _partial cover all other sizes of the two. Everything else is proved in full. Multi.Sound is proved of every example for any number of off-design points with any names that are different and valid. Props/C69_Example: the names the examples use meet the hypotheses, and a multipoint turboshaft is solved. Values of set_input_defaults are not modelled, nor is MPN3."
 },
 "C70": {
  "status": "proved",
  "note": "All clauses are proved of all converged states. C70_refuted_rto proves the parenthesis: in MPN3 alone RTO_T4 can be changed in any solved state, with TR to match. Rolling take-off is the mode of C66 with cooling sized; the other off-design points are the mode that Props/C66_Example solves. No solved state of the whole four-point problem is exhibited: for design mode and sized cooling the theorems rest on C66's hypothesis Solved without an example. Order of points, solvers, design variables, constraints and values of set_input_defaults are not modelled."
 }
}