{
 "claims": [
  {
   "property": "C01",
   "status": "proved",
   "theorems": [
    "PyCycle.C01_setup_terminates",
    "PyCycle.C01_setup_once",
    "PyCycle.C01_upstream_first"
   ],
   "note": ""
  },
  {
   "property": "C02",
   "status": "proved",
   "theorems": [
    "PyCycle.C02_setup_delivers",
    "PyCycle.C02_setup_iff_solvable",
    "PyCycle.C02_order_independent",
    "PyCycle.C02_undeclared_element_is_error"
   ],
   "note": ""
  },
  {
   "property": "C03",
   "status": "partial",
   "theorems": [
    "PyCycle.C03_refuted",
    "PyCycle.C03_no_omission_partial",
    "PyCycle.C03_omitted_iff_loop"
   ],
   "note": "The property as stated is false of the code (a flow loop is silently left out): C03_refuted. Proved instead: no omission in loop-free models, and the omitted elements are exactly those fed by a loop."
  },
  {
   "property": "C04",
   "status": "proved",
   "theorems": [
    "PyCycle.C04_connections",
    "PyCycle.C04_targets_once",
    "PyCycle.C04_flowIn_coverage"
   ],
   "note": ""
  },
  {
   "property": "C05",
   "status": "partial",
   "theorems": [
    "PyCycle.C05_refuted",
    "PyCycle.C05_one_level_partial"
   ],
   "note": "False for nested paths whose first segments coincide (C05_refuted); proved for one-level port paths."
  },
  {
   "property": "C06",
   "status": "proved",
   "theorems": [
    "PyCycle.MP.C06_rejected_unchanged",
    "PyCycle.MP.C06_state_is_accepted_history",
    "PyCycle.MP.C06_acceptance"
   ],
   "note": ""
  },
  {
   "property": "C07",
   "status": "proved",
   "theorems": [
    "PyCycle.MP.C07_configure_fails_iff",
    "PyCycle.MP.C07_connections",
    "PyCycle.MP.C07_parameters",
    "PyCycle.MP.C07_skip_list",
    "PyCycle.MP.C07_skip_string_refuted"
   ],
   "note": "Full for list arguments; a string passed as skip list is refuted in C07_skip_string_refuted."
  },
  {
   "property": "C08",
   "status": "proved",
   "theorems": [
    "PyCycle.C08_reads"
   ],
   "note": ""
  },
  {
   "property": "C09",
   "status": "partial",
   "theorems": [
    "PyCycle.C09_union_and_no_mutation",
    "PyCycle.C09_unknown_reactant_rejected",
    "PyCycle.C09_tabular_refuted"
   ],
   "note": "CEA: full. For the tabular method the element list is not the union: C09_tabular_refuted."
  },
  {
   "property": "C10",
   "status": "proved",
   "theorems": [
    "PyCycle.C10_reactant_conservation"
   ],
   "note": ""
  },
  {
   "property": "C11",
   "status": "proved",
   "theorems": [
    "PyCycle.C11_flow_conservation"
   ],
   "note": ""
  },
  {
   "property": "C12",
   "status": "proved",
   "theorems": [
    "PyCycle.C12_spec_adds_up",
    "PyCycle.C12_tab_injection",
    "PyCycle.C12_tab_mixing"
   ],
   "note": ""
  },
  {
   "property": "C13",
   "status": "partial",
   "theorems": [
    "PyCycle.C13_refuted",
    "PyCycle.C13_far_ratio_partial"
   ],
   "note": "False of the code (C13_refuted); C13_far_ratio_partial gives the exact relation between the two meanings."
  },
  {
   "property": "C14",
   "status": "partial",
   "theorems": [
    "PyCycle.C14_value_from_serving_interval",
    "PyCycle.C14_history_independent_partial",
    "PyCycle.C14_refuted"
   ],
   "note": "False at a temperature equal to a range boundary (C14_refuted); proved off the boundaries."
  },
  {
   "property": "C15",
   "status": "proved",
   "theorems": [
    "PyCycle.C15_H0_applyJ",
    "PyCycle.C15_S0_applyJ",
    "PyCycle.C15_Cp0_applyJ",
    "PyCycle.C15_enthalpy",
    "PyCycle.C15_entropy"
   ],
   "note": ""
  },
  {
   "property": "C16",
   "status": "proved",
   "theorems": [
    "PyCycle.C16_acceptance",
    "PyCycle.C16_selection",
    "PyCycle.C16_normalised"
   ],
   "note": ""
  },
  {
   "property": "C17",
   "status": "proved",
   "theorems": [
    "PyCycle.C17_converged",
    "PyCycle.C17_iff_equilibrium",
    "PyCycle.C17_nonpositive_pressure_accepted"
   ],
   "note": ""
  },
  {
   "property": "C18",
   "status": "proved",
   "theorems": [
    "PyCycle.C18_exact_at_convergence",
    "PyCycle.C18_refuted_away_from_convergence"
   ],
   "note": "Exact at convergence as stated; also shown not to be exact elsewhere."
  },
  {
   "property": "C19",
   "status": "proved",
   "theorems": [
    "PyCycle.C19_lhs_symmetric",
    "PyCycle.C19_enthalpy",
    "PyCycle.C19_Cp",
    "PyCycle.C19_entropy",
    "PyCycle.C19_volume",
    "PyCycle.C19_gamma_isentropic",
    "PyCycle.C19_Cv",
    "PyCycle.C19_outputs_are_mixture"
   ],
   "note": ""
  },
  {
   "property": "C20",
   "status": "proved",
   "theorems": [
    "PyCycle.C20_ideal_gas",
    "PyCycle.C20_gamma_mayer",
    "PyCycle.C20_frozen",
    "PyCycle.C20_Cp_ge_Cv",
    "PyCycle.C20_partials₁",
    "PyCycle.C20_partials₂",
    "PyCycle.C20_undeclared",
    "PyCycle.C20_rhs_partials",
    "PyCycle.C20_refuted_trace_entropy"
   ],
   "note": "Partials exact for all declared pairs with no trace species; C20_refuted_trace_entropy shows the excluded case."
  },
  {
   "property": "C21",
   "status": "proved",
   "theorems": [
    "PyCycle.C21_consistent",
    "PyCycle.C21_inverted_range",
    "PyCycle.C21_partials"
   ],
   "note": ""
  },
  {
   "property": "C22",
   "status": "proved",
   "theorems": [
    "PyCycle.C22_mach_mode",
    "PyCycle.C22_area_mode",
    "PyCycle.C22_modes_agree",
    "PyCycle.C22_zero_mach",
    "PyCycle.C22_zero_area_is_mach_5",
    "PyCycle.C22_mach_partials",
    "PyCycle.C22_refuted_zero_mach_partial",
    "PyCycle.C22_area_partials",
    "PyCycle.C22_refuted_area_partial_inconsistent"
   ],
   "note": "Both modes characterised by the static relations; derivatives exact at consistent states; the zero-Mach branch is refuted separately."
  },
  {
   "property": "C23",
   "status": "proved",
   "theorems": [
    "PyCycle.C23_mach_first_only",
    "PyCycle.C23_area_when_moved",
    "PyCycle.C23_guess_positive",
    "PyCycle.C23_area_guess_ignores_area",
    "PyCycle.C23_area_guess_root",
    "PyCycle.C23_mach_never_reapplied"
   ],
   "note": ""
  },
  {
   "property": "C24",
   "status": "proved",
   "theorems": [
    "PyCycle.TG.C24_interface",
    "PyCycle.TG.C24_one_producer",
    "PyCycle.TG.C24_dangling",
    "PyCycle.TG.C24_consistent",
    "PyCycle.TG.C24_honours",
    "PyCycle.TG.C24_static",
    "PyCycle.TG.C24_every_mode",
    "PyCycle.TG.C24_refuted_static_composition",
    "PyCycle.TG.C24_total_composition",
    "PyCycle.TG.C24_complete"
   ],
   "note": "All six modes; the composition reported by a static station is shown to be the default (C24_refuted_static_composition)."
  },
  {
   "property": "C25",
   "status": "proved",
   "theorems": [
    "PyCycle.Gear.C25_design",
    "PyCycle.Gear.C25_offdesign",
    "PyCycle.Gear.C25_round_trip",
    "PyCycle.Gear.C25_solve_keeps",
    "PyCycle.Gear.C25_partials",
    "PyCycle.Gear.C25_refuted_loss"
   ],
   "note": "Torque balance proved in both modes; C25_refuted_loss shows an efficiency below one does not always mean lost power."
  },
  {
   "property": "C26",
   "status": "proved",
   "theorems": [
    "PyCycle.Shaft.C26_ports",
    "PyCycle.Shaft.C26_balance",
    "PyCycle.Shaft.C26_powers",
    "PyCycle.Shaft.C26_order",
    "PyCycle.Shaft.C26_partials",
    "PyCycle.Shaft.C26_refuted_zero_torque",
    "PyCycle.Shaft.C26_refuted_round_trip"
   ],
   "note": "Balances proved for every port count; the kink at zero torque and the unit round trip are refuted separately."
  },
  {
   "property": "C27",
   "status": "partial",
   "theorems": [
    "PyCycle.Perf.C27_declared",
    "PyCycle.Perf.C27_outputs",
    "PyCycle.Perf.C27_refuted_tsfc_value",
    "PyCycle.Perf.C27_partials_partial",
    "PyCycle.Perf.C27_refuted_tsfc_partials",
    "PyCycle.Perf.C27_tsfc_thrust_error"
   ],
   "note": "Outputs proved; the declared TSFC partials are wrong (C27_refuted_tsfc_partials), the others exact: C27_partials_partial."
  },
  {
   "property": "C28",
   "status": "proved",
   "theorems": [
    "PyCycle.Split.C28_splitter",
    "PyCycle.Split.C28_splitter_nonneg",
    "PyCycle.Split.C28_splitter_partials",
    "PyCycle.Bleed.C28_bleeds",
    "PyCycle.Bleed.C28_bleeds_nonneg",
    "PyCycle.Bleed.C28_bleed_partials"
   ],
   "note": ""
  },
  {
   "property": "C29",
   "status": "partial",
   "theorems": [
    "PyCycle.Inlet.C29_bounds",
    "PyCycle.Inlet.C29_antitone",
    "PyCycle.Inlet.C29_refuted_across_mach5",
    "PyCycle.Inlet.C29_refuted_hypersonic_bound",
    "PyCycle.Inlet.C29_partials",
    "PyCycle.Inlet.C29_calcs"
   ],
   "note": "Monotone and bounded on each Mach band; across Mach 5 refuted."
  },
  {
   "property": "C30",
   "status": "proved",
   "theorems": [
    "PyCycle.Duct.C30_round_trip",
    "PyCycle.Duct.C30_no_exponent",
    "PyCycle.Duct.C30_outlet",
    "PyCycle.Duct.C30_partials",
    "PyCycle.Duct.C30_refuted_default_connections"
   ],
   "note": "Calculations proved; the default connections of the off-design duct are refuted."
  },
  {
   "property": "C31",
   "status": "partial",
   "theorems": [
    "PyCycle.Mix.C31_conservation",
    "PyCycle.Mix.C31_design",
    "PyCycle.Mix.C31_cea",
    "PyCycle.Mix.C31_partials",
    "PyCycle.Mix.C31_composition",
    "PyCycle.Mix.C31_refuted"
   ],
   "note": "Conservation proved; the outlet composition wiring is wrong when the second stream has an element the first lacks (C31_refuted), characterised exactly in C31_composition."
  },
  {
   "property": "C32",
   "status": "partial",
   "theorems": [
    "PyCycle.Cool.C32_combine",
    "PyCycle.Cool.C32_coolant",
    "PyCycle.Cool.C32_amount",
    "PyCycle.Cool.C32_hotter",
    "PyCycle.Cool.C32_partials",
    "PyCycle.Cool.C32_mass",
    "PyCycle.Cool.C32_work",
    "PyCycle.Cool.C32_energy",
    "PyCycle.Cool.C32_energy_partial",
    "PyCycle.Cool.C32_refuted_energy",
    "PyCycle.Cool.C32_refuted_continuity",
    "PyCycle.Cool.C32_stage",
    "PyCycle.Cool.C32_refuted_stage",
    "PyCycle.Cool.C32_refuted_ports"
   ],
   "note": "Mass, work and combining proved; the row energy balance, stage counting, port order and continuity as stated fail (C32_refuted_*); C32_energy_partial gives the exact balance."
  },
  {
   "property": "C33",
   "status": "proved",
   "theorems": [
    "PyCycle.Noz.C33_options",
    "PyCycle.Noz.C33_selection",
    "PyCycle.Noz.C33_partials",
    "PyCycle.Noz.C33_refuted_choked",
    "PyCycle.Noz.C33_pressure_ratio",
    "PyCycle.Noz.C33_choking",
    "PyCycle.Noz.C33_thrust",
    "PyCycle.Noz.C33_ideal"
   ],
   "note": "Selection, partials, thrust and choking proved; the choked output is shown to be constantly 1 (C33_refuted_choked)."
  },
  {
   "property": "C34",
   "status": "proved",
   "theorems": [
    "PyCycle.Comp.C34_mass",
    "PyCycle.Comp.C34_energy",
    "PyCycle.Comp.C34_torque",
    "PyCycle.Comp.C34_bleed",
    "PyCycle.Comp.C34_power_sign",
    "PyCycle.Comp.C34_bleed_partials",
    "PyCycle.Comp.C34_partials",
    "PyCycle.Comp.C34_no_bleeds",
    "PyCycle.Comp.C34_group"
   ],
   "note": ""
  },
  {
   "property": "C35",
   "status": "proved",
   "theorems": [
    "PyCycle.Turb.C35_mass",
    "PyCycle.Turb.C35_energy",
    "PyCycle.Turb.C35_efficiency",
    "PyCycle.Turb.C35_bleed_pressure",
    "PyCycle.Turb.C35_torque",
    "PyCycle.Turb.C35_power_partials",
    "PyCycle.Turb.C35_partials",
    "PyCycle.Turb.C35_group",
    "PyCycle.Turb.C35_composition",
    "PyCycle.Turb.C35_refuted_composition"
   ],
   "note": "Balances and partials proved; the outlet composition is shown to differ from the mixed composition in general (C35_refuted_composition)."
  },
  {
   "property": "C36",
   "status": "proved",
   "theorems": [
    "PyCycle.Map.C36_components",
    "PyCycle.Map.C36_compressor",
    "PyCycle.Map.C36_turbine",
    "PyCycle.Map.C36_turbine_bounds",
    "PyCycle.Map.C36_refuted_unit_PR",
    "PyCycle.Map.C36_order",
    "PyCycle.Map.C36_partials",
    "PyCycle.Map.C36_stall",
    "PyCycle.Map.C36_stall_partials",
    "PyCycle.Map.C36_refuted_stall_scaled"
   ],
   "note": "Map scaling and the design-point fixed point proved; C36_refuted_unit_PR and C36_refuted_stall_scaled record two places where the scaled map is not what a user expects."
  },
  {
   "property": "C37",
   "status": "proved",
   "theorems": [
    "PyCycle.Comp.C37_compressor_def",
    "PyCycle.Comp.C37_compressor_similar",
    "PyCycle.Comp.C37_compressor_partials",
    "PyCycle.Comp.C37_refuted_stale",
    "PyCycle.Comp.C37_compressor_poly",
    "PyCycle.Comp.C37_compressor_poly_partials",
    "PyCycle.Comp.C37_compressor_isentropic",
    "PyCycle.Comp.C37_compressor_irreversible",
    "PyCycle.Turb.C37_turbine_def",
    "PyCycle.Turb.C37_turbine_similar",
    "PyCycle.Turb.C37_turbine_partials",
    "PyCycle.Turb.C37_turbine_poly",
    "PyCycle.Turb.C37_turbine_poly_partials",
    "PyCycle.Turb.C37_turbine_isentropic",
    "PyCycle.Turb.C37_turbine_irreversible"
   ],
   "note": "Definitions, similarity, partials and efficiencies proved; C37_refuted_stale: derivatives read values cached by the last evaluation."
  },
  {
   "property": "C38",
   "status": "partial",
   "theorems": [
    "PyCycle.C38_akima_slopes",
    "PyCycle.C38_akima_line",
    "PyCycle.C38_akima_parabola",
    "PyCycle.Atm.C38_domain",
    "PyCycle.Atm.C38_table",
    "PyCycle.Atm.C38_partials",
    "PyCycle.Atm.C38_refuted_drho",
    "PyCycle.Atm.C38_density",
    "PyCycle.Atm.C38_refuted",
    "PyCycle.Atm.C38_pressure_partial",
    "PyCycle.Atm.C38_temperature",
    "PyCycle.Atm.C38_refuted_undershoot",
    "PyCycle.Atm.C38_gas_law",
    "PyCycle.Atm.C38_ambient"
   ],
   "note": "Monotone pressure is false at one table entry (C38_refuted) and proved elsewhere (C38_pressure_partial); undershoot and one density derivative refuted. The interpolation between table entries is the Akima rule (C38_akima_slopes), which reproduces straight lines and parabolas exactly (C38_akima_line, C38_akima_parabola)."
  },
  {
   "property": "C39",
   "status": "proved",
   "theorems": [
    "PyCycle.C39_copy_flow_port",
    "PyCycle.C39_copy_flow_other",
    "PyCycle.C39_init_output_flow",
    "PyCycle.C39_compressor_ports"
   ],
   "note": ""
  },
  {
   "property": "C40",
   "status": "proved",
   "theorems": [
    "PyCycle.C40_options_reach_children"
   ],
   "note": ""
  },
  {
   "property": "C41",
   "status": "partial",
   "theorems": [
    "PyCycle.SmallCore.C41_large_gain",
    "PyCycle.SmallCore.C41_small_gain",
    "PyCycle.SmallCore.C41_refuted_small_gain",
    "PyCycle.SmallCore.C41_derivative",
    "PyCycle.SmallCore.C41_refuted_switch",
    "PyCycle.SmallCore.C41_large_monotone",
    "PyCycle.SmallCore.C41_refuted_overshoot",
    "PyCycle.SmallCore.C41_unknown"
   ],
   "note": "Gains and derivatives proved per branch; continuity at the switch, the level-2 small-core gain and monotonicity are refuted."
  },
  {
   "property": "C42",
   "status": "partial",
   "theorems": [
    "PyCycle.Data.C42_well_formed",
    "PyCycle.Data.C42_refuted",
    "PyCycle.Data.C42_molar_mass_partial",
    "PyCycle.Data.C42_carbon_free",
    "PyCycle.Data.C42_mixture",
    "PyCycle.Data.C42_reactants"
   ],
   "note": "False for carbon species (C42_refuted); exact for carbon-free species and with a bound otherwise."
  },
  {
   "property": "C43",
   "status": "partial",
   "theorems": [
    "PyCycle.C43_history_independent_partial",
    "PyCycle.C43_only_trace_species_differ",
    "PyCycle.C43_refuted_residual",
    "PyCycle.C43_linearize_attribute_error"
   ],
   "note": "False of the code (C43_refuted_residual, C43_linearize_attribute_error); proved that only trace species can differ."
  },
  {
   "property": "C44",
   "status": "proved",
   "theorems": [
    "PyCycle.C44_well_formed",
    "PyCycle.C44_knot",
    "PyCycle.C44_history",
    "PyCycle.C44_heat_capacity",
    "PyCycle.C44_increasing",
    "PyCycle.C44_separated"
   ],
   "note": ""
  },
  {
   "property": "C45",
   "status": "partial",
   "theorems": [
    "PyCycle.MapData.C45_well_formed",
    "PyCycle.MapData.C45_default_in_range",
    "PyCycle.MapData.C45_bounds",
    "PyCycle.MapData.C45_bounds_strict",
    "PyCycle.MapData.C45_refuted_strict",
    "PyCycle.MapData.C45_speed_flow",
    "PyCycle.MapData.C45_flow_line",
    "PyCycle.MapData.C45_solutions",
    "PyCycle.MapData.C45_stall_balance",
    "PyCycle.MapData.C45_refuted_stall_balance",
    "PyCycle.MapData.C45_design_compressor",
    "PyCycle.MapData.C45_design_turbine",
    "PyCycle.MapData.C45_turbine_flow",
    "PyCycle.MapData.C45_refuted_HPT",
    "PyCycle.MapData.C45_refuted_hpt1269",
    "PyCycle.MapData.C45_refuted_unique",
    "PyCycle.MapData.C45_refuted_LPC_top",
    "PyCycle.MapData.C45_HPC_margin"
   ],
   "note": "Well-formedness, bounds, monotonicity, uniqueness up to flat stretches, solvability of the stall balance and design-point recovery proved for all maps they hold for; the rest is refuted (C45_refuted_*)."
  },
  {
   "property": "C46",
   "status": "proved",
   "theorems": [
    "PyCycle.C46_minimum",
    "PyCycle.C46_unique_TP",
    "PyCycle.C46_increasing",
    "PyCycle.C46_unique_hP_SP",
    "PyCycle.C46_pressure",
    "PyCycle.C46_exists_TP",
    "PyCycle.C46_exists_hP_SP",
    "PyCycle.C46_refuted_absent_element",
    "PyCycle.C46_shipped",
    "PyCycle.Data.C46_shipped_species",
    "PyCycle.Data.C46_shipped_exists"
   ],
   "note": "Uniqueness, minimum, existence (exact criterion, also for the shipped data), monotonicity and pressure response proved; temperature statements are within one fit interval; C46_refuted_absent_element records the case without solution."
  },
  {
   "property": "C47",
   "status": "proved",
   "theorems": [
    "PyCycle.C47_mixing",
    "PyCycle.C47_entropy",
    "PyCycle.C47_isentropic",
    "PyCycle.C47_solved",
    "PyCycle.C47_fewer_elements",
    "PyCycle.C47_compressor",
    "PyCycle.C47_eff_poly",
    "PyCycle.C47_turbine",
    "PyCycle.C47_duct",
    "PyCycle.C47_inlet",
    "PyCycle.C47_refuted_inlet"
   ],
   "note": "Temperatures within one fit interval (Warm), trace removal inactive. C47_refuted_inlet records that an inlet, which holds total temperature, does not conserve enthalpy in a reacting gas."
  },
  {
   "property": "C48",
   "status": "proved",
   "theorems": [
    "PyCycle.OM.C48_interface",
    "PyCycle.OM.C48_outlet",
    "PyCycle.OM.C48_static",
    "PyCycle.OM.C48_cea",
    "PyCycle.OM.C48_tab"
   ],
   "note": "Group level: components' own equations come from C10, C11, C30; converged is the group model of Model/OMGroup (no units, no solver settings)."
  },
  {
   "property": "C49",
   "status": "proved",
   "theorems": [
    "PyCycle.OM.C49_interface",
    "PyCycle.OM.C49_flow_start",
    "PyCycle.OM.C49_reactant_cea",
    "PyCycle.OM.C49_reactant_tab",
    "PyCycle.OM.C49_refuted_default_with_reactant",
    "PyCycle.OM.C49_flight_interface",
    "PyCycle.OM.C49_flight",
    "PyCycle.OM.C49_cfd_interface",
    "PyCycle.OM.C49_cfd"
   ],
   "note": "C49_refuted_default_with_reactant: reactant without explicit composition fails at setup with the CEA method."
  },
  {
   "property": "C50",
   "status": "proved",
   "theorems": [
    "PyCycle.OM.C50_inlet_interface",
    "PyCycle.OM.C50_inlet",
    "PyCycle.OM.C50_duct_interface",
    "PyCycle.OM.C50_duct",
    "PyCycle.OM.C50_splitter_interface",
    "PyCycle.OM.C50_splitter"
   ],
   "note": "Group level; energy and continuity of the static outlet under the guards of C24."
  },
  {
   "property": "C51",
   "status": "proved",
   "theorems": [
    "PyCycle.OM.C51_interface",
    "PyCycle.OM.C51_recomputed",
    "PyCycle.OM.C51_momentum",
    "PyCycle.OM.C51_outlet",
    "PyCycle.OM.C51_cea",
    "PyCycle.OM.C51_tab"
   ],
   "note": "Group level; momentum balance is the converged balance equation of the model (no solver)."
  },
  {
   "property": "C52",
   "status": "proved",
   "theorems": [
    "PyCycle.OM.C52_interface",
    "PyCycle.OM.C52_pressure",
    "PyCycle.OM.C52_stations",
    "PyCycle.OM.C52_exit",
    "PyCycle.OM.C52_choking",
    "PyCycle.OM.C52_thrust"
   ],
   "note": "Group level; energy and continuity of the internal stations under the guards of C24."
  },
  {
   "property": "C53",
   "status": "proved",
   "theorems": [
    "PyCycle.OM.C53_interface",
    "PyCycle.OM.C53_refuted_no_bleeds",
    "PyCycle.OM.C53_refuted_names",
    "PyCycle.OM.C53_bleed_out"
   ],
   "note": "Any list of bleed names satisfying Spec/BleedNames; C53_refuted_no_bleeds and C53_refuted_names show the conditions are needed."
  },
  {
   "property": "C54",
   "status": "proved",
   "theorems": [
    "PyCycle.OM.C54_compressor_interface",
    "PyCycle.OM.C54_compressor_map",
    "PyCycle.OM.C54_stall",
    "PyCycle.OM.C54_compressor_design_point",
    "PyCycle.OM.C54_turbine_interface",
    "PyCycle.OM.C54_turbine_map",
    "PyCycle.OM.C54_turbine_design_point"
   ],
   "note": "Maps are arbitrary functions here; C45 gives the shipped tables."
  },
  {
   "property": "C55",
   "status": "proved",
   "theorems": [
    "PyCycle.OM.C55_interface",
    "PyCycle.OM.C55_refuted_names",
    "PyCycle.OM.C55_compressor",
    "PyCycle.OM.C55_map"
   ],
   "note": "Any list of bleed names satisfying Spec/BleedNames; C55_refuted_names shows the conditions are needed. The efficiency law needs a non-zero efficiency, the map law a usable design point."
  },
  {
   "property": "C56",
   "status": "proved",
   "theorems": [
    "PyCycle.OM.C56_interface",
    "PyCycle.OM.C56_refuted_names",
    "PyCycle.OM.C56_turbine",
    "PyCycle.OM.C56_map",
    "PyCycle.OM.C56_cea",
    "PyCycle.OM.C56_tab"
   ],
   "note": "Any list of bleed names satisfying Spec/BleedNames (C56_refuted_names: needed), each bleed with its own gas; CEA and tabular mixing. The energy law needs a non-zero outlet flow. That the outlet solver is built for the inlet's elements only is C35_refuted_composition."
  },
  {
   "property": "C57",
   "status": "proved",
   "theorems": [
    "PyCycle.OM.C57_flow_start",
    "PyCycle.OM.C57_flight",
    "PyCycle.OM.C57_inlet",
    "PyCycle.OM.C57_duct",
    "PyCycle.OM.C57_splitter",
    "PyCycle.OM.C57_bleed_out",
    "PyCycle.OM.C57_nozzle",
    "PyCycle.OM.C57_compressor",
    "PyCycle.OM.C57_turbine",
    "PyCycle.OM.C57_combustor_cea",
    "PyCycle.OM.C57_combustor_tab",
    "PyCycle.OM.C57_mixer_cea",
    "PyCycle.OM.C57_mixer_tab",
    "PyCycle.OM.C57_refuted_two_inlets",
    "PyCycle.OM.Cycle.C57_mass_any",
    "PyCycle.OM.Cycle.C57_mass",
    "PyCycle.OM.Cycle.C57_states",
    "PyCycle.OM.Cycle.C57_energy_any",
    "PyCycle.OM.Cycle.C57_energy"
   ],
   "note": "Cycles are lists of elements, links and further connections (Model/CycleGroup); each element's account (Spec/Accounts) is proved to hold for every option setting. C57_mass_any and C57_energy_any have no assumption on how often an outlet is linked; C57_refuted_two_inlets shows the repeated flow is real. The inlet's account says how much energy it creates. Balances that need a non-zero flow (duct, combustor, turbine, mixer) say so in ok."
  },
  {
   "property": "C58",
   "status": "proved",
   "theorems": [
    "PyCycle.OM.C58_interface",
    "PyCycle.OM.C58_flight",
    "PyCycle.OM.C58_pressure",
    "PyCycle.OM.C58_thrust",
    "PyCycle.OM.C58_targets",
    "PyCycle.OM.C58_shaft",
    "PyCycle.OM.C58_network",
    "PyCycle.OM.C58_mass",
    "PyCycle.OM.C58_energy",
    "PyCycle.OM.C58_jet",
    "PyCycle.OM.C58_tab",
    "PyCycle.OM.C58_cea",
    "PyCycle.OM.C58_complete"
   ],
   "note": "Solved = converged and every input holds its source's value (Spec/Solved); C58_complete completes any converged state to a solved one with the same outputs. C58Example.solved is a solved engine in both modes, with thrust, and C58Example.guards shows that it meets all guards. The shaft's conversion factor is that of C26_refuted_round_trip. Solver settings and bounds are not modelled (they can only prevent convergence)."
  },
  {
   "property": "C59",
   "status": "partial",
   "theorems": [
    "PyCycle.OM.C59_bleed_out",
    "PyCycle.OM.C59_bleed_out_supplied",
    "PyCycle.OM.C59_compressor",
    "PyCycle.OM.C59_compressor_supplied",
    "PyCycle.OM.C59_turbine",
    "PyCycle.OM.C59_turbine_supplied",
    "PyCycle.OM.C59_statics_refuted",
    "PyCycle.OM.C59_mixer",
    "PyCycle.OM.C59_mixer_supplied",
    "PyCycle.OM.C59_inlet",
    "PyCycle.OM.C59_inlet_supplied",
    "PyCycle.OM.C59_combustor",
    "PyCycle.OM.C59_combustor_supplied",
    "PyCycle.OM.C59_duct",
    "PyCycle.OM.C59_duct_map",
    "PyCycle.OM.C59_duct_supplied",
    "PyCycle.OM.C59_duct_map_supplied",
    "PyCycle.OM.C59_duct_refuted_supplied",
    "PyCycle.OM.C59_splitter",
    "PyCycle.OM.C59_splitter_supplied",
    "PyCycle.OM.C59_turbojet"
   ],
   "note": "Redesign and Supplied are in Spec/OffDesign. The property is false for a duct with a loss map (C59_duct_refuted_supplied: s_dPqP, duct.py:157-160) and with statics=False (C59_statics_refuted); everything else is proved, the duct with a loss map by also passing s_dPqP (C59_duct_map, C59_duct_map_supplied). Compressor and turbine need a usable map point (C36). Props/C59_Example applies every theorem to a converged state, C59_turbojet to the solved engine of C58."
  },
  {
   "property": "C60",
   "status": "proved",
   "theorems": [
    "PyCycle.OM.C60_network",
    "PyCycle.OM.C60_flows",
    "PyCycle.OM.C60_flowing",
    "PyCycle.OM.C60_mass",
    "PyCycle.OM.C60_energy",
    "PyCycle.OM.C60_jet",
    "PyCycle.OM.C60_tab",
    "PyCycle.OM.C60_cea",
    "PyCycle.OM.C60_interface",
    "PyCycle.OM.C60_complete",
    "PyCycle.OM.C60_flight",
    "PyCycle.OM.C60_pressure",
    "PyCycle.OM.C60_thrust",
    "PyCycle.OM.C60_targets",
    "PyCycle.OM.C60_shafts"
   ],
   "note": "HBTF.InFlight collects the positivity of flows and bleed fractions. The multiplier of the shaft balances is an input with default -1 (mult_val); the shaft theorems say so. The shaft's conversion factor is that of C26_refuted_round_trip. Solver settings and bounds are not modelled (they can only prevent convergence). Props/C60_Example: a solved engine in all three modes with fuel, bleeds and choked nozzles meets every guard (C60Example.solved, .applies). Model/Turbofan cites the lines of HBTF.setup."
  },
  {
   "property": "C61",
   "status": "partial",
   "theorems": [
    "PyCycle.OM.C61_network",
    "PyCycle.OM.C61_flows",
    "PyCycle.OM.C61_mass",
    "PyCycle.OM.C61_energy",
    "PyCycle.OM.C61_jet",
    "PyCycle.OM.C61_tab",
    "PyCycle.OM.C61_cea",
    "PyCycle.OM.C61_interface",
    "PyCycle.OM.C61_complete",
    "PyCycle.OM.C61_flight",
    "PyCycle.OM.C61_pressure",
    "PyCycle.OM.C61_mixing",
    "PyCycle.OM.C61_thrust",
    "PyCycle.OM.C61_targets",
    "PyCycle.OM.C61_shafts_partial",
    "PyCycle.OM.C61_shafts_net",
    "PyCycle.OM.C61_refuted_extraction"
   ],
   "note": "Partial because one clause is false of the code: the shaft balances of the example compare pwr_in with pwr_out, not the net power, so losses and extraction are ignored. C61_shafts_partial proves what is balanced (the machines' own powers), C61_shafts_net that the shaft reports a net power of minus extraction and losses, and C61_refuted_extraction that from every solved engine one gets a solved engine for any extraction and losses that differs in nothing but the shafts' report. All other clauses are proved. MFTF.Books says that both burners and the mixer keep books under their guards (shown for tabular and equilibrium thermodynamics in C61_tab and C61_cea); MFTF.InFlight collects the positivity of flows and bleed fractions. Props/C61_Example: a solved engine in both modes with fuel in both burners, bleeds and a choked nozzle meets every guard (C61Example.solved, .applies)."
  },
  {
   "property": "C62",
   "status": "proved",
   "theorems": [
    "PyCycle.OM.C62_interface",
    "PyCycle.OM.C62_complete",
    "PyCycle.OM.C62_flight",
    "PyCycle.OM.C62_pressure",
    "PyCycle.OM.C62_thrust",
    "PyCycle.OM.C62_targets",
    "PyCycle.OM.C62_shafts",
    "PyCycle.OM.C62_network",
    "PyCycle.OM.C62_mass",
    "PyCycle.OM.C62_energy",
    "PyCycle.OM.C62_delivered",
    "PyCycle.OM.C62_tab",
    "PyCycle.OM.C62_cea"
   ],
   "note": "As for C60: the shaft's conversion factor is that of C26_refuted_round_trip; solver settings and bounds are not modelled. Props/C62_Example: a solved engine in both modes, with fuel, a choked nozzle and delivered power, meets every guard (C62Example.solved, .applies)."
  },
  {
   "property": "C63",
   "status": "proved",
   "theorems": [
    "PyCycle.OM.C63_interface",
    "PyCycle.OM.C63_complete",
    "PyCycle.OM.C63_flight",
    "PyCycle.OM.C63_pressure",
    "PyCycle.OM.C63_thrust",
    "PyCycle.OM.C63_targets",
    "PyCycle.OM.C63_fan",
    "PyCycle.OM.C63_network",
    "PyCycle.OM.C63_mass",
    "PyCycle.OM.C63_energy"
   ],
   "note": "As for C60; the speed component (IndepVarComp) may hold any value; the wet propulsor's water-ratio input keeps its default name. Props/C63_Example: a solved propulsor in both modes meets every guard (C63Example.solved, .applies)."
  },
  {
   "property": "C64",
   "status": "partial",
   "theorems": [
    "PyCycle.OM.C64_interface",
    "PyCycle.OM.C64_rows",
    "PyCycle.OM.C64_mass",
    "PyCycle.OM.C64_energy_partial",
    "PyCycle.OM.C64_flows",
    "PyCycle.OM.C64_refuted_energy",
    "PyCycle.OM.C64_tab",
    "PyCycle.OM.C64_cea"
   ],
   "note": "Everything but the energy balance is proved as stated (C64_rows, C64_mass, C64_flows, C64_tab, C64_cea); the energy balance is false of the code (C64_refuted_energy) and C64_energy_partial is the exact relation, with the term that is lost. The lengths of composition vectors are not modelled; the CEA theorem is for a coolant that brings no new chemical elements. Props/C64_Example: a solved one-stage turbine meets the guards and violates the balance."
  },
  {
   "property": "C65",
   "status": "partial",
   "theorems": [
    "PyCycle.OM.C65_interface",
    "PyCycle.OM.C65_complete",
    "PyCycle.OM.C65_flight",
    "PyCycle.OM.C65_pressure",
    "PyCycle.OM.C65_thrust",
    "PyCycle.OM.C65_targets",
    "PyCycle.OM.C65_shaft_design",
    "PyCycle.OM.C65_shaft_off_partial",
    "PyCycle.OM.C65_refuted_extraction",
    "PyCycle.OM.C65_network",
    "PyCycle.OM.C65_flows",
    "PyCycle.OM.C65_mass",
    "PyCycle.OM.C65_energy",
    "PyCycle.OM.C65_tab",
    "PyCycle.OM.C65_cea"
   ],
   "note": "Partial because one clause is false of the code: off design the shaft balance compares pwr_in with pwr_out, so losses and extraction are ignored (at design it uses the net power: C65_shaft_design). C65_shaft_off_partial proves what is balanced and what the shaft then reports, C65_refuted_extraction that from every solved off-design engine one gets a solved one for any extraction and losses that differs in nothing but the shaft's report. All other clauses are proved. ABTJ.Books says that both burners keep books under their guards (shown for tabular and equilibrium thermodynamics in C65_tab and C65_cea). Props/C65_Example: a solved engine in both modes with fuel in both burners, bleeds and a choked nozzle meets every guard (C65Example.solved, .applies)."
  },
  {
   "property": "C66",
   "status": "partial",
   "theorems": [
    "PyCycle.OM.C66_network",
    "PyCycle.OM.C66_flows",
    "PyCycle.OM.C66_flowing",
    "PyCycle.OM.C66_mass",
    "PyCycle.OM.C66_energy",
    "PyCycle.OM.C66_jet",
    "PyCycle.OM.C66_refuted_energy",
    "PyCycle.OM.C66_tab",
    "PyCycle.OM.C66_cea",
    "PyCycle.OM.C66_interface",
    "PyCycle.OM.C66_complete",
    "PyCycle.OM.C66_flight",
    "PyCycle.OM.C66_pressure",
    "PyCycle.OM.C66_ducts",
    "PyCycle.OM.C66_thrust",
    "PyCycle.OM.C66_design",
    "PyCycle.OM.C66_core_size",
    "PyCycle.OM.C66_opr",
    "PyCycle.OM.C66_refuted_opr",
    "PyCycle.OM.C66_fan_diameter",
    "PyCycle.OM.C66_off",
    "PyCycle.OM.C66_gear",
    "PyCycle.OM.C66_shafts",
    "PyCycle.OM.C66_low_spool",
    "PyCycle.OM.C66_refuted_gear_loss",
    "PyCycle.OM.C66_cooling",
    "PyCycle.OM.C66_vane"
   ],
   "note": "Partial because two clauses are false of the code: the overall pressure ratio that is driven to the target is the product of the machines' pressure ratios without the ducts' losses (C66_opr, C66_refuted_opr), and a gearbox with losses takes less from the low spool than it gives the fan (C66_low_spool, C66_refuted_gear_loss), so that more energy leaves than air and fuel bring (C66_jet, C66_refuted_energy); with an ideal gearbox and no duct loss both hold. All other clauses are proved. N3.InFlight collects the positivity of flows and bleed fractions. The unit conversion of the turbine's power on its way to the cooling element is a component of its own. A design point with cooling sized is refused by OpenMDAO (set_order) and not modelled. Props/C66_Example solves the engine off design with every bleed flowing and a gearbox of efficiency 0.80."
  },
  {
   "property": "C67",
   "status": "proved",
   "theorems": [
    "PyCycle.OM.C67_network",
    "PyCycle.OM.C67_flows",
    "PyCycle.OM.C67_flowing",
    "PyCycle.OM.C67_mass",
    "PyCycle.OM.C67_energy",
    "PyCycle.OM.C67_delivered",
    "PyCycle.OM.C67_tab",
    "PyCycle.OM.C67_cea",
    "PyCycle.OM.C67_interface",
    "PyCycle.OM.C67_complete",
    "PyCycle.OM.C67_flight",
    "PyCycle.OM.C67_pressure",
    "PyCycle.OM.C67_thrust",
    "PyCycle.OM.C67_targets",
    "PyCycle.OM.C67_shafts"
   ],
   "note": ""
  },
  {
   "property": "C68",
   "status": "proved",
   "theorems": [
    "PyCycle.OM.C68_interface",
    "PyCycle.OM.C68_flight",
    "PyCycle.OM.C68_humid_cea",
    "PyCycle.OM.C68_humid_tab",
    "PyCycle.OM.C68_account",
    "PyCycle.OM.C68_engine_interface",
    "PyCycle.OM.C68_complete",
    "PyCycle.OM.C68_engine_flight",
    "PyCycle.OM.C68_pressure",
    "PyCycle.OM.C68_thrust",
    "PyCycle.OM.C68_targets",
    "PyCycle.OM.C68_shaft",
    "PyCycle.OM.C68_network",
    "PyCycle.OM.C68_mass",
    "PyCycle.OM.C68_energy",
    "PyCycle.OM.C68_atoms"
   ],
   "note": "Guards: the flow fc.W the free stream is computed with and 1+WAR are not zero, the dry composition has mass, captured air is positive and fuel not negative (WTJ.InFlight). WTJ.Cea says how setup made the mixing components: dry air, then water, then fuel. Props/C68_Example: an engine in oxygen, water and methane, solved in both modes, meets every hypothesis and C68_atoms gives its carbon and hydrogen."
  },
  {
   "property": "C69",
   "status": "partial",
   "theorems": [
    "PyCycle.OM.C69_turbojet",
    "PyCycle.OM.C69_wet_turbojet",
    "PyCycle.OM.C69_afterburner",
    "PyCycle.OM.C69_propulsor",
    "PyCycle.OM.C69_turboshaft",
    "PyCycle.OM.C69_multi_spool_partial",
    "PyCycle.OM.C69_mixed_flow_partial",
    "PyCycle.OM.C69_hbtf",
    "PyCycle.OM.C69_multi_spool_duct6",
    "PyCycle.OM.C69_mixed_flow_inlet_duct",
    "PyCycle.OM.C69_interface",
    "PyCycle.OM.C69_points",
    "PyCycle.OM.C69_passed",
    "PyCycle.OM.C69_together",
    "PyCycle.OM.C69_configure"
   ],
   "note": "False of two examples, each in one size: MPMultiSpool passes no area to duct6 and MPMixedFlowTurbofan none to inlet_duct. C69_multi_spool_duct6 and C69_mixed_flow_inlet_duct prove that off design that area is an input of the whole problem which nothing feeds; the theorems with suffix _partial cover all other sizes of the two. Everything else is proved in full. Multi.Sound is proved of every example for any number of off-design points with any names that are different and valid. Props/C69_Example: the names the examples use meet the hypotheses, and a multipoint turboshaft is solved. Values of set_input_defaults are not modelled, nor is MPN3."
  },
  {
   "property": "C70",
   "status": "proved",
   "theorems": [
    "PyCycle.OM.C70_interface",
    "PyCycle.OM.C70_complete",
    "PyCycle.OM.C70_points",
    "PyCycle.OM.C70_engine",
    "PyCycle.OM.C70_sizes",
    "PyCycle.OM.C70_cooling",
    "PyCycle.OM.C70_demand",
    "PyCycle.OM.C70_temperature",
    "PyCycle.OM.C70_pressure",
    "PyCycle.OM.C70_mdp",
    "PyCycle.OM.C70_jets",
    "PyCycle.OM.C70_refuted_rto"
   ],
   "note": "All clauses are proved of all converged states. C70_refuted_rto proves the parenthesis: in MPN3 alone RTO_T4 can be changed in any solved state, with TR to match. Rolling take-off is the mode of C66 with cooling sized; the other off-design points are the mode that Props/C66_Example solves. No solved state of the whole four-point problem is exhibited: for design mode and sized cooling the theorems rest on C66's hypothesis Solved without an example. Order of points, solvers, design variables, constraints and values of set_input_defaults are not modelled."
  }
 ]
}