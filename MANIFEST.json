{
 "claims": [
  {
   "property": "C01",
   "status": "proved",
   "theorems": [
    "Verif.Integrals.C01_simpson_exact_quadratic",
    "Verif.Integrals.C01_simpson_exact_cubic_even",
    "Verif.Integrals.C01_simpson_final_cubic",
    "Verif.Integrals.C01_simpson_cubic_odd_defect"
   ],
   "note": "Polynomial rates with arbitrary coefficients, every odd node count; the cubic defect at odd nodes is given exactly."
  },
  {
   "property": "C02",
   "status": "partial",
   "theorems": [
    "Verif.Integrals.C02_bdf3_nonsingular",
    "Verif.Integrals.C02_bdf3_exact_cubic",
    "Verif.Integrals.C02_bdf3_ignores_first_rate",
    "Verif.Integrals.C02_bdf3_three_nodes",
    "Verif.Integrals.C02_allBdf_exact_linear",
    "Verif.Integrals.C02_allBdf_not_exact_quadratic"
   ],
   "note": "Holds for every admissible node count from 5; with 3 nodes construction of the 4-entry starting rows fails, and all_bdf is not exact for quadratics (both proved)."
  },
  {
   "property": "C03",
   "status": "proved",
   "theorems": [
    "Verif.Integrals.C03_first_node",
    "Verif.Integrals.C03_affine",
    "Verif.Integrals.C03_shift_and_time_scale",
    "Verif.Integrals.C03_time_modes_agree"
   ],
   "note": ""
  },
  {
   "property": "C04",
   "status": "proved",
   "theorems": [
    "Verif.Integrals.C04_continuous",
    "Verif.Integrals.C04_restart",
    "Verif.Integrals.C04_initial",
    "Verif.Integrals.C04_uncounted_constant",
    "Verif.Integrals.C04_uncounted_no_influence",
    "Verif.Integrals.C04_causal",
    "Verif.Integrals.C04_counted_iff"
   ],
   "note": ""
  },
  {
   "property": "C05",
   "status": "proved",
   "theorems": [
    "Verif.Integrals.C05_partial_rate",
    "Verif.Integrals.C05_partial_dt",
    "Verif.Integrals.C05_partial_initial",
    "Verif.Integrals.C05_integrator_time"
   ],
   "note": ""
  },
  {
   "property": "C06",
   "status": "partial",
   "theorems": [
    "Verif.Integrals.C06_declared_rows",
    "Verif.Integrals.C06_dt_duration_fit",
    "Verif.Integrals.C06_bounds_fits_iff",
    "Verif.Integrals.C06_bounds_mismatch",
    "Verif.Integrals.C06_final_declared",
    "Verif.Integrals.C06_old_integrator_mismatch"
   ],
   "note": "Holds for dt and duration; false for bounds whenever the set of stored entries differs from the declared one (witness proved), and for OldIntegrator."
  },
  {
   "property": "C07",
   "status": "partial",
   "theorems": [
    "Verif.Integrals.C07_bdf3_late_nodes_partial",
    "Verif.Integrals.C07_bdf3_final_ge",
    "Verif.Integrals.C07_bdf3_decrease",
    "Verif.Integrals.C07_simpson_even_monotone_partial",
    "Verif.Integrals.C07_simpson_final_ge",
    "Verif.Integrals.C07_simpson_decrease"
   ],
   "note": "Proved at even Simpson nodes, for both final values and for BDF3 nodes from 3 on; false at odd Simpson nodes and BDF3 node 1 (witnesses)."
  },
  {
   "property": "C08",
   "status": "proved",
   "theorems": [
    "Verif.AddIntegrand.C08_both_units_rejected",
    "Verif.AddIntegrand.C08_rate_units",
    "Verif.AddIntegrand.C08_registered",
    "Verif.AddIntegrand.C08_sequence",
    "Verif.AddIntegrand.C08_even_nodes_rejected",
    "Verif.AddIntegrand.C08_time_setup",
    "Verif.AddIntegrand.C08_accepts_iff",
    "Verif.AddIntegrand.C08_registered_units"
   ],
   "note": ""
  },
  {
   "property": "C09",
   "status": "proved",
   "theorems": [
    "Verif.Derivatives.C09_order4_exact",
    "Verif.Derivatives.C09_order2_exact",
    "Verif.Derivatives.C09_order2_cubic_defect"
   ],
   "note": "Polynomial data with arbitrary coefficients; the order-2 cubic defect is given exactly."
  },
  {
   "property": "C10",
   "status": "proved",
   "theorems": [
    "Verif.Derivatives.C10_segment_independent",
    "Verif.Derivatives.C10_linear",
    "Verif.Derivatives.C10_partial_q",
    "Verif.Derivatives.C10_partial_dt",
    "Verif.Derivatives.C10_coordinates_in_range",
    "Verif.Derivatives.C10_validation",
    "Verif.Derivatives.C10_rejects"
   ],
   "note": ""
  },
  {
   "property": "C11",
   "status": "proved",
   "theorems": [
    "Verif.Derivatives.C11_round_trip"
   ],
   "note": "Multi-segment; both integration methods."
  },
  {
   "property": "C12",
   "status": "proved",
   "theorems": [
    "Verif.VectorComps.C12_compute",
    "Verif.VectorComps.C12_default_sum",
    "Verif.VectorComps.C12_accepts_iff",
    "Verif.VectorComps.C12_incompatible_rejected"
   ],
   "note": ""
  },
  {
   "property": "C13",
   "status": "partial",
   "theorems": [
    "Verif.VectorComps.C13_jacobian_partial",
    "Verif.VectorComps.C13_broadcast_wrong"
   ],
   "note": "Proved for inputs with more than one row or length 1; false for (1, length>1) inputs (C13_broadcast_wrong)."
  },
  {
   "property": "C14",
   "status": "partial",
   "theorems": [
    "Verif.VectorComps.C14_units_lost",
    "Verif.VectorComps.C14_repeat_partial"
   ],
   "note": "The second setup keeps sizes and partials; it loses units and descriptions (C14_units_lost)."
  },
  {
   "property": "C15",
   "status": "partial",
   "theorems": [
    "Verif.VectorComps.C15_compute",
    "Verif.VectorComps.C15_partials_partial",
    "Verif.VectorComps.C15_broadcast_wrong"
   ],
   "note": "Value proved in full; derivatives proved except for (1, length>1) inputs, where they are wrong (C15_broadcast_wrong)."
  },
  {
   "property": "C16",
   "status": "partial",
   "theorems": [
    "Verif.VectorComps.C16_units_partial",
    "Verif.VectorComps.C16_no_units",
    "Verif.VectorComps.C16_malformed"
   ],
   "note": "Proved when the first input has a unit or none has; otherwise the registered string is not a unit string (C16_malformed)."
  },
  {
   "property": "C17",
   "status": "proved",
   "theorems": [
    "Verif.Utils.C17_size_mismatch",
    "Verif.Utils.C17_split_concat",
    "Verif.Utils.C17_concat_split",
    "Verif.Utils.C17_entry",
    "Verif.Utils.C17_concat_jacobian",
    "Verif.Utils.C17_split_jacobian"
   ],
   "note": "Both round trips and both Jacobians."
  },
  {
   "property": "C18",
   "status": "partial",
   "theorems": [
    "Verif.Utils.C18_max",
    "Verif.Utils.C18_min",
    "Verif.Utils.C18_max_partials_partial",
    "Verif.Utils.C18_min_partials_partial",
    "Verif.Utils.C18_tie"
   ],
   "note": "Values proved in full; the partials are the derivatives when the extremum is attained once; at a tie the output has no derivative (C18_tie)."
  },
  {
   "property": "C19",
   "status": "proved",
   "theorems": [
    "Verif.Utils.C19_select",
    "Verif.Utils.C19_out_of_range",
    "Verif.Utils.C19_needs_input",
    "Verif.Utils.C19_partials"
   ],
   "note": "The out-of-range case raises (the docstring promises a warning and zero)."
  },
  {
   "property": "C20",
   "status": "proved",
   "theorems": [
    "Verif.Utils.C20_values",
    "Verif.Utils.C20_monotone",
    "Verif.Utils.C20_partials",
    "Verif.Utils.C20_single"
   ],
   "note": ""
  },
  {
   "property": "C21",
   "status": "proved",
   "theorems": [
    "Verif.Mission.C21_value",
    "Verif.Mission.C21_no_collision",
    "Verif.Mission.C21_names",
    "Verif.Mission.C21_sum"
   ],
   "note": "The user's own subsystem names must avoid the automatic ones. C21_value follows each call to the value that its component publishes."
  },
  {
   "property": "C22",
   "status": "partial",
   "theorems": [
    "Verif.Mission.C22_product",
    "Verif.Mission.C22_units_partial",
    "Verif.Mission.C22_ignored",
    "Verif.Mission.C22_witness",
    "Verif.Mission.C22_value"
   ],
   "note": "promote_mult ignores the requested input unit (C22_ignored, C22_witness); the partial theorem covers the case that it equals the output unit. C22_product: apart from the units each call publishes the factor times (or divided by) the variable named in it."
  },
  {
   "property": "C23",
   "status": "proved",
   "theorems": [
    "Verif.Mission.C23_tags",
    "Verif.Mission.C23_order_dependent",
    "Verif.Mission.C23_exactly_once",
    "Verif.Mission.C23_missing_name"
   ],
   "note": "Tag order is immaterial when no kind of tag occurs twice; order dependence otherwise is proved (C23_order_dependent)."
  },
  {
   "property": "C24",
   "status": "partial",
   "theorems": [
    "Verif.Mission.C24_all",
    "Verif.Mission.C24_all_continuous",
    "Verif.Mission.C24_skip",
    "Verif.Mission.C24_continuity_partial",
    "Verif.Mission.C24_link_succeeds",
    "Verif.Mission.C24_final_only_fails",
    "Verif.Mission.C24_zero_start_fails",
    "Verif.Mission.C24_rejects",
    "Verif.Mission.C24_chain",
    "Verif.Mission.C24_wrong_start"
   ],
   "note": "Proved when both phases use the same start name; linking fails for final_only and zero_start states, and differing start names give a wrong link (all proved). C24_all and C24_all_continuous: any list of links."
  },
  {
   "property": "C25",
   "status": "proved",
   "theorems": [
    "Verif.Phases.C25_zero_iff",
    "Verif.Phases.C25_equal_not_enough",
    "Verif.Phases.C25_partials"
   ],
   "note": "The exact zero set; the docstring's first alternative alone is not sufficient (C25_equal_not_enough). Partials off the switching surfaces."
  },
  {
   "property": "C26",
   "status": "proved",
   "theorems": [
    "Verif.Phases.C26_triangle",
    "Verif.Phases.C26_fallback",
    "Verif.Phases.C26_fallback_sign",
    "Verif.Phases.C26_partials"
   ],
   "note": "Fallback case stated exactly; it loses the sign of the vertical speed (C26_fallback_sign)."
  },
  {
   "property": "C27",
   "status": "partial",
   "theorems": [
    "Verif.Phases.C27_horizontal",
    "Verif.Phases.C27_horizontal_mono",
    "Verif.Phases.C27_horizontal_partials",
    "Verif.Phases.C27_vertical_bounds",
    "Verif.Phases.C27_vertical_newton",
    "Verif.Phases.C27_vertical_partials_partial",
    "Verif.Phases.C27_clipped_wrong"
   ],
   "note": "Equations and bounds proved in full; the partials of the vertical acceleration are wrong when clipping is active (C27_clipped_wrong)."
  },
  {
   "property": "C28",
   "status": "proved",
   "theorems": [
    "Verif.Phases.C28_balance",
    "Verif.Phases.C28_unique",
    "Verif.Phases.C28_partials"
   ],
   "note": ""
  },
  {
   "property": "C29",
   "status": "proved",
   "theorems": [
    "Verif.Phases.C29_height_le",
    "Verif.Phases.C29_on_circle",
    "Verif.Phases.C29_continuous_switch",
    "Verif.Phases.C29_total",
    "Verif.Phases.C29_transition_partials",
    "Verif.Phases.C29_climb_partials",
    "Verif.Phases.C29_option_ignored",
    "Verif.Phases.C29_height_mismatch"
   ],
   "note": "The phase's h_obstacle option is unused and the two obstacle heights differ (C29_option_ignored, C29_height_mismatch)."
  },
  {
   "property": "C30",
   "status": "proved",
   "theorems": [
    "Verif.Phases.C30_value",
    "Verif.Phases.C30_involution",
    "Verif.Phases.C30_jacobian"
   ],
   "note": ""
  },
  {
   "property": "C31",
   "status": "proved",
   "theorems": [
    "Verif.Phases.C31_mission_range",
    "Verif.Phases.C31_reserve_range",
    "Verif.Phases.C31_altitudes",
    "Verif.Phases.C31_constant_rate",
    "Verif.Phases.C31_loiter",
    "Verif.Phases.C31_basic_start",
    "Verif.Phases.C31_continuous",
    "Verif.Phases.C31_reserve_start_ignored"
   ],
   "note": "Take-off altitude is ignored as start of climb and reserve climb in MissionWithReserve (C31_reserve_start_ignored)."
  },
  {
   "property": "C32",
   "status": "proved",
   "theorems": [
    "Verif.Atmos.C32_temperature",
    "Verif.Atmos.C32_increment",
    "Verif.Atmos.C32_pressure"
   ],
   "note": "Real arithmetic; the linear solve for the blending cubics is modelled as the matrix inverse and its determinant is shown nonzero. Below 288.16/0.0065 m, as quantified."
  },
  {
   "property": "C33",
   "status": "proved",
   "theorems": [
    "Verif.Atmos.C33_one_mask",
    "Verif.Atmos.C33_masks_sum",
    "Verif.Atmos.C33_value"
   ],
   "note": ""
  },
  {
   "property": "C34",
   "status": "partial",
   "theorems": [
    "Verif.Atmos.C34_not_current",
    "Verif.Atmos.C34_pressure_not_current",
    "Verif.Atmos.C34_before_compute",
    "Verif.Atmos.C34_current_partial",
    "Verif.Atmos.C34_same_partial"
   ],
   "note": "The full property is false (C34_not_current, C34_pressure_not_current): compute_partials uses the masks stored by the last compute. Proved when the last compute had altitudes in the same layers."
  },
  {
   "property": "C35",
   "status": "proved",
   "theorems": [
    "Verif.Atmos.C35_pressure_positive_decreasing",
    "Verif.Atmos.C35_nan",
    "Verif.Atmos.C35_stratosphere_selected",
    "Verif.Atmos.C35_temperature"
   ],
   "note": "Temperature is non-increasing and at least 216.65 K plus the increment; it is positive whenever the increment exceeds -216.65 K."
  },
  {
   "property": "C36",
   "status": "proved",
   "theorems": [
    "Verif.Atmos.C36_tas_eas_tas",
    "Verif.Atmos.C36_dynamic_pressure",
    "Verif.Atmos.C36_mach",
    "Verif.Atmos.C36_gas_law",
    "Verif.Atmos.C36_compressible",
    "Verif.Atmos.C36_density_partials",
    "Verif.Atmos.C36_dynamic_pressure_partials",
    "Verif.Atmos.C36_mach_partials",
    "Verif.Atmos.C36_sound_derivative",
    "Verif.Atmos.C36_tas_partials",
    "Verif.Atmos.C36_eas_partials"
   ],
   "note": "Speed of sound, true airspeed, dynamic pressure and Mach with exact derivatives."
  },
  {
   "property": "C37",
   "status": "proved",
   "theorems": [
    "Verif.Propulsion.C37_default_splitter",
    "Verif.Propulsion.C37_conservation",
    "Verif.Propulsion.C37_fraction",
    "Verif.Propulsion.C37_fixed",
    "Verif.Propulsion.C37_bounds",
    "Verif.Propulsion.C37_margin",
    "Verif.Propulsion.C37_rules",
    "Verif.Propulsion.C37_partials",
    "Verif.Propulsion.C37_switch_kink"
   ],
   "note": "Both rules; the fixed rule has no derivative at the switching point (proved), so exactness is stated off it."
  },
  {
   "property": "C38",
   "status": "proved",
   "theorems": [
    "Verif.Propulsion.C38_motor_conservation",
    "Verif.Propulsion.C38_generator_conservation",
    "Verif.Propulsion.C38_margin",
    "Verif.Propulsion.C38_nonneg",
    "Verif.Propulsion.C38_motor_partials",
    "Verif.Propulsion.C38_generator_partials"
   ],
   "note": "Conservation, margins, all partials."
  },
  {
   "property": "C39",
   "status": "proved",
   "theorems": [
    "Verif.Propulsion.C39_turboshaft",
    "Verif.Propulsion.C39_weight_cost",
    "Verif.Propulsion.C39_nonneg",
    "Verif.Propulsion.C39_partials"
   ],
   "note": "Power, fuel, weight, cost, all partials."
  },
  {
   "property": "C40",
   "status": "partial",
   "theorems": [
    "Verif.Propulsion.C40_efficiency",
    "Verif.Propulsion.C40_static",
    "Verif.Propulsion.C40_blend",
    "Verif.Propulsion.C40_continuous",
    "Verif.Propulsion.C40_thrust_partials",
    "Verif.Propulsion.C40_map_partials",
    "Verif.Propulsion.C40_advance_partials",
    "Verif.Propulsion.C40_kink",
    "Verif.Propulsion.C40_coef_partials",
    "Verif.Propulsion.C40_zero_airspeed_nan",
    "Verif.Propulsion.C40_weight_partials"
   ],
   "note": "Efficiency relation for any propeller map, static thrust, blending bounds, continuity, all partials. False part: the advance ratio partial is 0/0 at zero airspeed although the derivative exists (C40_zero_airspeed_nan); no derivative exists at J = 0.1 (C40_kink). The interpolated map tables are arbitrary functions."
  },
  {
   "property": "C41",
   "status": "partial",
   "theorems": [
    "Verif.Propulsion.C41_four_only_partial",
    "Verif.Propulsion.C41_four_map_partial",
    "Verif.Propulsion.C41_three_raises"
   ],
   "note": "False for 3 blades: always raises (C41_three_raises); proved that exactly 4 is accepted."
  },
  {
   "property": "C42",
   "status": "proved",
   "theorems": [
    "Verif.Propulsion.C42_machines",
    "Verif.Propulsion.C42_no_power_no_thrust",
    "Verif.Propulsion.C42_turboprop_engine_out",
    "Verif.Propulsion.C42_turboprop_totals",
    "Verif.Propulsion.C42_hybrid_engine_out"
   ],
   "note": "Turboprop and series hybrid, any propeller map."
  },
  {
   "property": "C43",
   "status": "proved",
   "theorems": [
    "Verif.Propulsion.C43_balance",
    "Verif.Propulsion.C43_single",
    "Verif.Propulsion.C43_energy",
    "Verif.Propulsion.C43_unique",
    "Verif.Propulsion.C43_extremes"
   ],
   "note": "Given a zero balance residual; also uniqueness of the solution and the whole-system energy balance. Covers the twin, single, thermal and refrigerated systems."
  },
  {
   "property": "C44",
   "status": "proved",
   "theorems": [
    "Verif.Propulsion.C44_ratings",
    "Verif.Propulsion.C44_linear",
    "Verif.Propulsion.C44_identity",
    "Verif.Propulsion.C44_tsfc"
   ],
   "note": "Any engine deck."
  },
  {
   "property": "C45",
   "status": "proved",
   "theorems": [
    "Verif.Propulsion.C45_battery",
    "Verif.Propulsion.C45_partials",
    "Verif.Propulsion.C45_soc_energy",
    "Verif.Propulsion.C45_soc_exact",
    "Verif.Propulsion.C45_soc_nodes",
    "Verif.Propulsion.C45_soc_decreasing"
   ],
   "note": "SimpleBattery and SOCBattery, using the integrator theorems."
  },
  {
   "property": "C46",
   "status": "proved",
   "theorems": [
    "Verif.Hydrogen.C46_volume",
    "Verif.Hydrogen.C46_mass",
    "Verif.Hydrogen.C46_fill_range",
    "Verif.Hydrogen.C46_partials",
    "Verif.Hydrogen.C46_history_exact",
    "Verif.Hydrogen.C46_total",
    "Verif.Hydrogen.C46_mass_decreasing",
    "Verif.Hydrogen.C46_phase_link"
   ],
   "note": "Volume as an integral of cross sections, mass and fill bookkeeping, partials, histories through the integrator."
  },
  {
   "property": "C47",
   "status": "partial",
   "theorems": [
    "Verif.Hydrogen.C47_area",
    "Verif.Hydrogen.C47_hoop_stress",
    "Verif.Hydrogen.C47_vessel_partials",
    "Verif.Hydrogen.C47_both_modes",
    "Verif.Hydrogen.C47_critical_pressure",
    "Verif.Hydrogen.C47_vacuum_partials",
    "Verif.Hydrogen.C47_sphere_partials",
    "Verif.Hydrogen.C47_short_cylinder",
    "Verif.Hydrogen.C47_short_cylinder_exists",
    "Verif.Hydrogen.C47_tie",
    "Verif.Hydrogen.C47_mli_partials",
    "Verif.Hydrogen.C47_total",
    "Verif.Hydrogen.C47_monotone"
   ],
   "note": "Proved for cylinder lengths of at least 1e-6 m and for spheres. False for shorter cylinders governed by cylinder buckling, where the code reports zero partials (C47_short_cylinder, with existing inputs); at ties no derivative exists (C47_tie)."
  },
  {
   "property": "C48",
   "status": "proved",
   "theorems": [
    "Verif.Thermal.C48_perfect",
    "Verif.Thermal.C48_perfect_partials",
    "Verif.Thermal.C48_mass",
    "Verif.Thermal.C48_mass_partials",
    "Verif.Thermal.C48_plate",
    "Verif.Thermal.C48_plate_conductance",
    "Verif.Thermal.C48_quasi_steady",
    "Verif.Thermal.C48_jacket",
    "Verif.Thermal.C48_jacket_partials",
    "Verif.Thermal.C48_bandolier",
    "Verif.Thermal.C48_core_profile",
    "Verif.Thermal.C48_reservoir",
    "Verif.Thermal.C48_reservoir_equilibrium"
   ],
   "note": "All nodewise balances for all real inputs with nonzero flow/mass; includes quasi-steady closure and the reservoir fixed point under the integrator."
  },
  {
   "property": "C49",
   "status": "proved",
   "theorems": [
    "Verif.Thermal.C49_plate",
    "Verif.Thermal.C49_plate_monotone",
    "Verif.Thermal.C49_jacket",
    "Verif.Thermal.C49_bandolier"
   ],
   "note": "Cold plate, motor jacket and battery bandolier for all nonnegative conductances."
  },
  {
   "property": "C50",
   "status": "proved",
   "theorems": [
    "Verif.Thermal.C50_split_domain",
    "Verif.Thermal.C50_split_mass",
    "Verif.Thermal.C50_split_partials",
    "Verif.Thermal.C50_combine",
    "Verif.Thermal.C50_combine_between",
    "Verif.Thermal.C50_combine_symm",
    "Verif.Thermal.C50_combine_partials",
    "Verif.Thermal.C50_split_combine"
   ],
   "note": "Elementwise on arrays of any length; exception behaviour included."
  },
  {
   "property": "C51",
   "status": "partial",
   "theorems": [
    "Verif.Thermal.C51_balance",
    "Verif.Thermal.C51_pump_partials",
    "Verif.Thermal.C51_weight",
    "Verif.Thermal.C51_selector",
    "Verif.Thermal.C51_selector_partials",
    "Verif.Thermal.C51_chiller_energy",
    "Verif.Thermal.C51_soft_min",
    "Verif.Thermal.C51_cop_range",
    "Verif.Thermal.C51_below_carnot_partial",
    "Verif.Thermal.C51_not_below_carnot",
    "Verif.Thermal.C51_exceeds_ceiling",
    "Verif.Thermal.C51_cop_limit",
    "Verif.Thermal.C51_chiller_direction"
   ],
   "note": "Balance, selector and positivity proved; the ceiling and Carnot bounds are false in general (negations proved), a Carnot bound for efficiency factors at most 0.4 is proved."
  },
  {
   "property": "C52",
   "status": "partial",
   "theorems": [
    "Verif.Thermal.C52_wick_conductivity_ignored",
    "Verif.Thermal.C52_wick_resistance_wrong",
    "Verif.Thermal.C52_documented_partial",
    "Verif.Thermal.C52_monotone_partial",
    "Verif.Thermal.C52_vapor"
   ],
   "note": "False for the wick conductivity option, which the code ignores (negation proved); monotone in the remaining options."
  },
  {
   "property": "C53",
   "status": "partial",
   "theorems": [
    "Verif.HX.C53_cold_fouling_ignored",
    "Verif.HX.C53_documented_iff",
    "Verif.HX.C53_witness",
    "Verif.HX.C53_smaller",
    "Verif.HX.C53_partials_iff",
    "Verif.HX.C53_clean_partial"
   ],
   "note": "False: the cold fouling resistance is overwritten by the hot one (negation and exact characterisation proved). Holds for zero fouling."
  },
  {
   "property": "C54",
   "status": "proved",
   "theorems": [
    "Verif.HX.C54_eff_range",
    "Verif.HX.C54_eff_partials",
    "Verif.HX.C54_eff_monotone",
    "Verif.HX.C54_capacities",
    "Verif.HX.C54_ntu_partials",
    "Verif.HX.C54_outlet_energy",
    "Verif.HX.C54_second_law",
    "Verif.HX.C54_equal_inlets",
    "Verif.HX.C54_group"
   ],
   "note": "Stated for the NTU component, the outlet temperatures and the whole group; partials away from equal capacity rates (kink of the minimum)."
  },
  {
   "property": "C55",
   "status": "proved",
   "theorems": [
    "Verif.HX.C55_manglik_bergles",
    "Verif.HX.C55_turbulent_constants",
    "Verif.HX.C55_similar",
    "Verif.HX.C55_fin_area",
    "Verif.HX.C55_shape",
    "Verif.HX.C55_packing",
    "Verif.HX.C55_hydraulic_diameter",
    "Verif.HX.C55_sides_differ",
    "Verif.HX.C55_positive",
    "Verif.HX.C55_ratios",
    "Verif.HX.C55_fin_efficiency",
    "Verif.HX.C55_fin_partials",
    "Verif.HX.C55_fin_data_partials",
    "Verif.HX.C55_reynolds_check",
    "Verif.HX.C55_film_partials",
    "Verif.HX.C55_pressure_drop",
    "Verif.HX.C55_film"
   ],
   "note": "Cold wetted area includes fin edges, hot one does not: both exact relations proved. Fin efficiency, ratios, positivity, partials of all correlations, Reynolds check."
  },
  {
   "property": "C56",
   "status": "proved",
   "theorems": [
    "Verif.Ducts.C56_round_trip",
    "Verif.Ducts.C56_partials",
    "Verif.Ducts.C56_choked",
    "Verif.Ducts.C56_critical",
    "Verif.Ducts.C56_unchoked",
    "Verif.Ducts.C56_exit_inverse",
    "Verif.Ducts.C56_continuous",
    "Verif.Ducts.C56_invalid"
   ],
   "note": "All gamma > 1 and all Mach numbers; pressure ratios above 1 give NaN (proved), nonpositive ones raise."
  },
  {
   "property": "C57",
   "status": "partial",
   "theorems": [
    "Verif.Ducts.C57_positive_partial",
    "Verif.Ducts.C57_negative_wrong",
    "Verif.Ducts.C57_zero_jump"
   ],
   "note": "Exact for positive temperatures; false for T < 0 (partial nonzero, output constant) and T = 0 (jump): negations proved."
  },
  {
   "property": "C58",
   "status": "proved",
   "theorems": [
    "Verif.Ducts.C58_heat",
    "Verif.Ducts.C58_raises",
    "Verif.Ducts.C58_heat_partials",
    "Verif.Ducts.C58_other_partials",
    "Verif.Ducts.C58_bernoulli",
    "Verif.Ducts.C58_duct_drag_sign",
    "Verif.Ducts.C58_clipped",
    "Verif.Ducts.C58_force"
   ],
   "note": "All real inputs subject to nonzero denominators; clipping behaviour of the incompressible duct included."
  },
  {
   "property": "C59",
   "status": "proved",
   "theorems": [
    "Verif.Thermal.C59_hose_pressure",
    "Verif.Thermal.C59_pump",
    "Verif.Thermal.C59_pump_loss",
    "Verif.Thermal.C59_pump_partials",
    "Verif.Thermal.C59_hose_defined",
    "Verif.Thermal.C59_hose_scaling",
    "Verif.Thermal.C59_hose_positive_increasing",
    "Verif.Thermal.C59_hose_zero_flow",
    "Verif.Thermal.C59_hose_weight",
    "Verif.Thermal.C59_hose_partials"
   ],
   "note": "Pressure drop for nonzero flow; at zero flow the code yields NaN although the limit is 0 (both proved)."
  },
  {
   "property": "C60",
   "status": "proved",
   "theorems": [
    "Verif.Aero.C60_stall",
    "Verif.Aero.C60_below_stall",
    "Verif.Aero.C60_stall_partials",
    "Verif.Aero.C60_drag",
    "Verif.Aero.C60_best_glide",
    "Verif.Aero.C60_drag_partials"
   ],
   "note": "Lift equals weight at the returned stall speed, drag and its partials, best glide."
  },
  {
   "property": "C61",
   "status": "proved",
   "theorems": [
    "Verif.Aero.C61_form_partials",
    "Verif.Aero.C61_signs",
    "Verif.Aero.C61_reynolds_partials",
    "Verif.Aero.C61_turb_inexact",
    "Verif.Aero.C61_turb_accuracy",
    "Verif.Aero.C61_reported_factor",
    "Verif.Aero.C61_limits",
    "Verif.Aero.C61_takeoff",
    "Verif.Aero.C61_surfaces",
    "Verif.Aero.C61_reference_area",
    "Verif.Aero.C61_buildup",
    "Verif.Aero.C61_similarity",
    "Verif.Aero.C61_nacelle"
   ],
   "note": "Form factor, flap and skin friction partials exact; the rounded constant makes the turbulent Reynolds partial inexact (C61_turb_inexact), by a relative 3e-6 at most (C61_turb_accuracy)."
  },
  {
   "property": "C62",
   "status": "partial",
   "theorems": [
    "Verif.Aero.C62_clean_partials",
    "Verif.Aero.C62_flap_partials",
    "Verif.Aero.C62_monotone",
    "Verif.Aero.C62_zero_deflection",
    "Verif.Aero.C62_clean_partial",
    "Verif.Aero.C62_deflection_peak"
   ],
   "note": "Partials and monotonicity proved. Zero deflection returning the clean value is false for FlapCLmax (C62_zero_deflection); C62_clean_partial covers the cases where it holds."
  },
  {
   "property": "C63",
   "status": "partial",
   "theorems": [
    "Verif.Aero.C63_quadrature",
    "Verif.Aero.C63_average_bounds",
    "Verif.Aero.C63_onset",
    "Verif.Aero.C63_smooth",
    "Verif.Aero.C63_normalisation",
    "Verif.Aero.C63_normalisation_partial",
    "Verif.Aero.C63_drag_divergence"
   ],
   "note": "Onset, smoothness and averaging proved. Independence of the normalisation area is false: the ratio is inverted (C63_normalisation); C63_normalisation_partial covers the cases where it holds."
  },
  {
   "property": "C64",
   "status": "proved",
   "theorems": [
    "Verif.Mesh.C64_planform",
    "Verif.Mesh.C64_partials"
   ],
   "note": "Area, span, taper, sweep at every station and all partials, any mesh size."
  },
  {
   "property": "C65",
   "status": "proved",
   "theorems": [
    "Verif.Mesh.C65_area",
    "Verif.Mesh.C65_partials",
    "Verif.Mesh.C65_unscaled_partials",
    "Verif.Mesh.C65_cache",
    "Verif.Mesh.C65_setup",
    "Verif.Mesh.C65_setup_value"
   ],
   "note": "Area of the scaled and unscaled mesh, all partials, cache transparency for any call history, setup errors."
  },
  {
   "property": "C66",
   "status": "proved",
   "theorems": [
    "Verif.Mesh.C66_spacing",
    "Verif.Mesh.C66_interp",
    "Verif.Mesh.C66_toverc",
    "Verif.Mesh.C66_interp_partials",
    "Verif.Mesh.C66_toverc_partials",
    "Verif.Mesh.C66_zero_panels"
   ],
   "note": "Spacing, interpolation, sparse partials, nonzero counts for any number of regions with positive panel counts; a region without panels is not rejected and breaks the interpolation (C66_zero_panels)."
  },
  {
   "property": "C67",
   "status": "partial",
   "theorems": [
    "Verif.Training.C67_fresh_partial",
    "Verif.Training.C67_partials_fresh_partial",
    "Verif.Training.C67_repeat",
    "Verif.Training.C67_surf_options",
    "Verif.Training.C67_failure_stale",
    "Verif.Training.C67_failure_previous",
    "Verif.Training.C67_grid_shared",
    "Verif.Training.C67_first_run",
    "Verif.Training.C67_grid_sizes",
    "Verif.Training.C67_marks"
   ],
   "note": "Proved for histories without failed training runs over instances that share a training grid. False otherwise: C67_failure_stale, C67_failure_previous (cache key written before the run that may raise), C67_grid_shared (grids are class attributes)."
  },
  {
   "property": "C68",
   "status": "proved",
   "theorems": [
    "Verif.Training.C68_grid_order",
    "Verif.Training.C68_exactly_once",
    "Verif.Training.C68_weight"
   ],
   "note": "Any grid, any completion order of the workers; every grid point exactly once; wing weight from the first point."
  },
  {
   "property": "C69",
   "status": "proved",
   "theorems": [
    "Verif.Geometry.C69_span_aspect",
    "Verif.Geometry.C69_partials",
    "Verif.Geometry.C69_panel_integrals",
    "Verif.Geometry.C69_sections_integrals",
    "Verif.Geometry.C69_trapezoid",
    "Verif.Geometry.C69_mac_bounds",
    "Verif.Geometry.C69_mac_partials"
   ],
   "note": "Span/aspect ratio inverses, MAC integrals, section formulas."
  },
  {
   "property": "C70",
   "status": "proved",
   "theorems": [
    "Verif.Geometry.C70_refine",
    "Verif.Geometry.C70_refine_sweep",
    "Verif.Geometry.C70_sweep_bounds",
    "Verif.Geometry.C70_panel_sweep",
    "Verif.Geometry.C70_sweep_sign",
    "Verif.Geometry.C70_area_split"
   ],
   "note": "Refinement invariance, bounds, splitting of areas."
  },
  {
   "property": "C71",
   "status": "proved",
   "theorems": [
    "Verif.Geometry.C71_tail",
    "Verif.Geometry.C71_partials"
   ],
   "note": "Volume coefficients and partials."
  },
  {
   "property": "C72",
   "status": "proved",
   "theorems": [
    "Verif.Weights.C72_scalar_sums",
    "Verif.Weights.C72_avionics",
    "Verif.Weights.C72_fuel_volume",
    "Verif.Weights.C72_wing_partials",
    "Verif.Weights.C72_empennage_partials",
    "Verif.Weights.C72_fuselage_partials",
    "Verif.Weights.C72_nacelle_partials",
    "Verif.Weights.C72_gear_partials",
    "Verif.Weights.C72_fuelsystem_partials",
    "Verif.Weights.C72_equipment_partials",
    "Verif.Weights.C72_single_total",
    "Verif.Weights.C72_twin_total",
    "Verif.Weights.C72_wiring",
    "Verif.Weights.C72_total_mono",
    "Verif.Weights.C72_gear_length_unit"
   ],
   "note": "All partials of all turboprop components (for the stated positive inputs), OEW of both groups as the weighted sum, and OEW strictly increasing in MTOW."
  },
  {
   "property": "C73",
   "status": "proved",
   "theorems": [
    "Verif.Weights.C73_scalar_sums",
    "Verif.Weights.C73_cabin_volume",
    "Verif.Weights.C73_scaling",
    "Verif.Weights.C73_propulsion",
    "Verif.Weights.C73_systems",
    "Verif.Weights.C73_ttail",
    "Verif.Weights.C73_wing_partials",
    "Verif.Weights.C73_hstab_const_partials",
    "Verif.Weights.C73_hstab_partials",
    "Verif.Weights.C73_vstab_partials",
    "Verif.Weights.C73_kws_partials",
    "Verif.Weights.C73_fuselage_partials",
    "Verif.Weights.C73_main_gear_partials",
    "Verif.Weights.C73_nose_gear_partials",
    "Verif.Weights.C73_engine_partials",
    "Verif.Weights.C73_furnishing_partials",
    "Verif.Weights.C73_equipment_partials",
    "Verif.Weights.C73_bwb_partials",
    "Verif.Weights.C73_jet_total",
    "Verif.Weights.C73_bwb_total",
    "Verif.Weights.C73_components_mono",
    "Verif.Weights.C73_total_mono",
    "Verif.Weights.C73_gear_mono"
   ],
   "note": "All partials of all jet and BWB components, OEW of both groups as the weighted sum, component weights and OEW strictly increasing in MTOW, gear weights in MLW."
  },
  {
   "property": "C74",
   "status": "proved",
   "theorems": [
    "Verif.Geometry.C74_sum",
    "Verif.Geometry.C74_no_batteries",
    "Verif.Geometry.C74_partials"
   ],
   "note": "Total is the sum of parts, constant partials, no-battery case."
  },
  {
   "property": "C75",
   "status": "proved",
   "theorems": [
    "Verif.Mission.C75_states_found",
    "Verif.Mission.C75_duration"
   ],
   "note": ""
  },
  {
   "property": "C76",
   "status": "proved",
   "theorems": [
    "Verif.Phases.C76_balance",
    "Verif.Phases.C76_nan_iff",
    "Verif.Phases.C76_partials"
   ],
   "note": ""
  },
  {
   "property": "C77",
   "status": "proved",
   "theorems": [
    "Verif.Phases.C77_backward_is_forward"
   ],
   "note": ""
  },
  {
   "property": "C78",
   "status": "proved",
   "theorems": [
    "Verif.Utils.C78_copies",
    "Verif.Utils.C78_last_wins"
   ],
   "note": ""
  },
  {
   "property": "C79",
   "status": "partial",
   "theorems": [
    "Verif.Propulsion.C79_series_hybrid_unusable"
   ],
   "note": "False: SeriesHybridElectricPropulsionSystem promotes fltcond_* which matches nothing; the pattern fltcond|* of the other systems matches."
  },
  {
   "property": "C80",
   "status": "partial",
   "theorems": [
    "Verif.Thermal.C80_hoop_stress",
    "Verif.Thermal.C80_not_allowable_stress",
    "Verif.Thermal.C80_weight_partials",
    "Verif.Thermal.C80_weight_thin",
    "Verif.Thermal.C80_qmax_pos",
    "Verif.Thermal.C80_warning",
    "Verif.Thermal.C80_vapor_drop",
    "Verif.Thermal.C80_flooding_limit"
   ],
   "note": "Hoop stress claim false by a factor of two (negation proved); the weight, limit, warning and vapor drop parts are proved."
  },
  {
   "property": "C81",
   "status": "proved",
   "theorems": [
    "Verif.Ducts.C81_station_unique",
    "Verif.Ducts.C81_station_exists",
    "Verif.Ducts.C81_station",
    "Verif.Ducts.C81_nozzle",
    "Verif.Ducts.C81_nozzle_exists",
    "Verif.Ducts.C81_force_sign"
   ],
   "note": "Converged states are hypotheses (existence proved for nozzles without loss factor); the default convergence_hack offset of the exit pressure is outside the force statement."
  },
  {
   "property": "C82",
   "status": "proved",
   "theorems": [
    "Verif.Aero.C82_ks_bounds",
    "Verif.Aero.C82_conservative",
    "Verif.Aero.C82_single",
    "Verif.Aero.C82_unique"
   ],
   "note": "KSComp and BalanceComp formulas are OpenMDAO and trusted; the vortex lattice solution is an arbitrary function of the angle of attack; convergence is the hypothesis that the balance residual is zero."
  },
  {
   "property": "C83",
   "status": "proved",
   "theorems": [
    "Verif.DataDict.C83_split_injective",
    "Verif.DataDict.C83_split_join",
    "Verif.DataDict.C83_success_iff",
    "Verif.DataDict.C83_failure_iff",
    "Verif.DataDict.C83_calls",
    "Verif.DataDict.C83_dymos"
   ],
   "note": "Unit and name checks made by OpenMDAO's add_output are outside the model. kwargs are ignored by the code."
  },
  {
   "property": "C84",
   "status": "proved",
   "theorems": [
    "Verif.Aero.C84_total",
    "Verif.Aero.C84_takeoff",
    "Verif.Aero.C84_reference_area",
    "Verif.Aero.C84_geometry_derivative"
   ],
   "note": "Proved on the product and sum components as wired; friction and flap sub-models are those of C60-C62."
  },
  {
   "property": "C85",
   "status": "proved",
   "theorems": [
    "Verif.Decks.C85_cfm_rows",
    "Verif.Decks.C85_cfm_distinct",
    "Verif.Decks.C85_n3_rows",
    "Verif.Decks.C85_hybrid_rows",
    "Verif.Decks.C85_hybrid_distinct",
    "Verif.Decks.C85_hybrid_thrust",
    "Verif.Decks.C85_columns"
   ],
   "note": "The npy tables are arbitrary functions of the indices; the kriging surrogates are not modelled."
  },
  {
   "property": "C86",
   "status": "proved",
   "theorems": [
    "Verif.Decks.C86_valid",
    "Verif.Decks.C86_scaled_valid",
    "Verif.Decks.C86_range",
    "Verif.Decks.C86_highpower_static",
    "Verif.Decks.C86_static_maps",
    "Verif.Decks.C86_const_partials"
   ],
   "note": "Interpolation between table points is OpenMDAO/SciPy and not modelled."
  },
  {
   "property": "C87",
   "status": "partial",
   "theorems": [
    "Verif.Decks.C87_reference",
    "Verif.Decks.C87_cp_scaled_partial",
    "Verif.Decks.C87_J_not_scaled",
    "Verif.Decks.C87_design_options_ignored",
    "Verif.Decks.C87_maps",
    "Verif.Propulsion.C87_constant_propeller"
   ],
   "note": "False as stated. Proved: cp scaling is exact (C87_cp_scaled_partial) and the default reproduces the Raymer map; negations: only the upper end of the J grid is scaled, so the design advance ratio is met only for design_J = 2.2 (C87_J_not_scaled), and SimplePropeller never reads design_cp and design_J (C87_design_options_ignored)."
  },
  {
   "property": "C88",
   "status": "partial",
   "theorems": [
    "Verif.DragPolar.C88_section",
    "Verif.DragPolar.C88_trapezoidal_iff",
    "Verif.DragPolar.C88_tip_strip",
    "Verif.DragPolar.C88_uniform_would_be_linear",
    "Verif.DragPolar.C88_not_linear"
   ],
   "note": "False for the default trapezoidal geometry: true exactly for uniform thickness or at most two strips (C88_trapezoidal_iff, C88_not_linear). Proved for the section geometry (C88_section); C88_uniform_would_be_linear shows cos_spacing=False repairs it."
  },
  {
   "property": "C89",
   "status": "proved",
   "theorems": [
    "Verif.DragPolar.C89_sizes",
    "Verif.DragPolar.C89_vlm",
    "Verif.DragPolar.C89_vlm_at_training_point",
    "Verif.DragPolar.C89_exact",
    "Verif.DragPolar.C89_exact_weight",
    "Verif.DragPolar.C89_aerostruct",
    "Verif.DragPolar.C89_same_nonwing",
    "Verif.DragPolar.C89_surrogate_agrees_with_exact"
   ],
   "note": "OpenAeroStruct and MetaModelStructuredComp are arbitrary functions; that the surrogate reproduces its data and is affine in it are hypotheses where used. BalanceComp's residual formula is trusted."
  },
  {
   "property": "C90",
   "status": "partial",
   "theorems": [
    "Verif.DragPolar.C90_unset_nonwing_partial",
    "Verif.DragPolar.C90_exact_default_adds_one",
    "Verif.DragPolar.C90_defaults_differ",
    "Verif.DragPolar.C90_setup_arrays_partial",
    "Verif.DragPolar.C90_list_grid_fails"
   ],
   "note": "False as stated: AerostructDragPolarExact defaults CD_nonwing to 1 (C90_exact_default_adds_one) and lists fail in setup (C90_list_grid_fails). The remaining parts are the _partial theorems."
  },
  {
   "property": "C91",
   "status": "partial",
   "theorems": [
    "Verif.DragPolar.C91_point",
    "Verif.DragPolar.C91_viscosity_positive",
    "Verif.DragPolar.C91_viscosity_accurate",
    "Verif.DragPolar.C91_skin_friction_viscosity",
    "Verif.DragPolar.C91_viscosities_disagree",
    "Verif.DragPolar.C91_not_consistent",
    "Verif.DragPolar.C91_airfoil"
   ],
   "note": "All parts proved except agreement of the viscosity models, which is false: skin friction uses Sutherland constant 100.4 K instead of 110.4 K (C91_skin_friction_viscosity, C91_viscosities_disagree, C91_not_consistent)."
  },
  {
   "property": "C92",
   "status": "proved",
   "theorems": [
    "Verif.Aircraft.C92_weight",
    "Verif.Aircraft.C92_total",
    "Verif.Aircraft.C92_histories",
    "Verif.Aircraft.C92_continuous",
    "Verif.Aircraft.C92_monotone",
    "Verif.Aircraft.C92_odd_node_false",
    "Verif.Aircraft.C92_exact",
    "Verif.Aircraft.C92_sizing",
    "Verif.Aircraft.C92_margin",
    "Verif.Aircraft.C92_sums",
    "Verif.Aircraft.C92_n3",
    "Verif.Aircraft.C92_engines",
    "Verif.Aircraft.C92_phase_choice",
    "Verif.Aircraft.C92_objective",
    "Verif.Aircraft.C92_fault",
    "Verif.Aircraft.C92_stack"
   ],
   "note": "Sums and histories over an arbitrary list of phases with the Simpson (or BDF3) integrator model. C92_odd_node_false shows why monotonicity is claimed at even nodes only. Connections between phases are taken from C24 and mission_groups.py:382-446."
  },
  {
   "property": "C93",
   "status": "proved",
   "theorems": [
    "Verif.Breguet.C93_forces",
    "Verif.Breguet.C93_decay",
    "Verif.Breguet.C93_breguet",
    "Verif.Breguet.C93_exists",
    "Verif.Breguet.C93_limit"
   ],
   "note": "Converged state as hypothesis (throttle balance and weight loop); C93_exists shows it can be met for every even number of intervals. Exact real arithmetic."
  },
  {
   "property": "C94",
   "status": "partial",
   "theorems": [
    "Verif.ElectricThermal.C94_single_source",
    "Verif.ElectricThermal.C94_area_reaches_partial",
    "Verif.ElectricThermal.C94_area_ignored",
    "Verif.ElectricThermal.C94_loop_wiring",
    "Verif.ElectricThermal.C94_loops_closed",
    "Verif.ElectricThermal.C94_power_wiring",
    "Verif.ElectricThermal.C94_all_electric",
    "Verif.ElectricThermal.C94_rating",
    "Verif.ElectricThermal.C94_hybrid_power",
    "Verif.ElectricThermal.C94_first_law",
    "Verif.ElectricThermal.C94_first_law_refrigerated",
    "Verif.ElectricThermal.C94_steady",
    "Verif.ElectricThermal.C94_steady_above_air",
    "Verif.ElectricThermal.C94_steady_converged",
    "Verif.ElectricThermal.C94_exists"
   ],
   "note": "All parts proved except that every design variable reaches its component: the nozzle area of the refrigerated hybrid is connected to nothing (C94_area_ignored). C94_rating records that full throttle gives 0.97 of the documented shaft power rating."
  },
  {
   "property": "C95",
   "status": "proved",
   "theorems": [
    "Verif.Atmos.C95_density_decreasing",
    "Verif.Atmos.C95_cold_limit",
    "Verif.Atmos.C95_modes",
    "Verif.Atmos.C95_dynamic_pressure",
    "Verif.Atmos.C95_climb",
    "Verif.Atmos.C95_true_exceeds"
   ],
   "note": "All parts proved over the whole altitude range of the model. C95_cold_limit shows that a bound on the temperature increment is needed (200 K below standard the density grows from 9 to 10 km)."
  },
  {
   "property": "C96",
   "status": "proved",
   "theorems": [
    "Verif.Ducts.C96_energy",
    "Verif.Ducts.C96_pressure",
    "Verif.Ducts.C96_mass",
    "Verif.Ducts.C96_flow_unique",
    "Verif.Ducts.C96_state_unique",
    "Verif.Ducts.C96_exists",
    "Verif.Ducts.C96_cfg",
    "Verif.Ducts.C96_default_exists",
    "Verif.Ducts.C96_exchanger",
    "Verif.Ducts.C96_specific_heats",
    "Verif.Ducts.C96_exchanger_exists"
   ],
   "note": "Converged states are solutions of all component equations; existence is by construction, not convergence of OpenMDAO's Newton solver. C96_specific_heats records that exchanger and duct use different specific heats."
  },
  {
   "property": "C97",
   "status": "partial",
   "theorems": [
    "Verif.Ducts.C97_neutral_partial",
    "Verif.Ducts.C97_hack_thrust",
    "Verif.Ducts.C97_parked"
   ],
   "note": "True without convergence_hack (C97_neutral_partial). False at the default -20/-40 Pa: C97_hack_thrust (thrust in every subsonic condition) and C97_parked (flow and thrust at rest)."
  },
  {
   "property": "C98",
   "status": "proved",
   "theorems": [
    "Verif.Integrals.C98_bdf3_error",
    "Verif.Integrals.C98_simpson_error_c3",
    "Verif.Integrals.C98_simpson_error",
    "Verif.Integrals.C98_stable",
    "Verif.Integrals.C98_converges"
   ],
   "note": "Bounds hold for every node count accepted by the method. Constants are not claimed sharp except 1/180 for Simpson interval ends."
  },
  {
   "property": "C99",
   "status": "proved",
   "theorems": [
    "Verif.Derivatives.C99_order4_error",
    "Verif.Derivatives.C99_order2_error",
    "Verif.Derivatives.C99_order4_noise"
   ],
   "note": "Orders 2 and 4 as implemented, all rows including the one-sided ones."
  },
  {
   "property": "C100",
   "status": "proved",
   "theorems": [
    "Verif.Thermal.C100_comp_wellposed",
    "Verif.Thermal.C100_motor_wellposed",
    "Verif.Thermal.C100_battery_wellposed",
    "Verif.Thermal.C100_reservoir_wellposed",
    "Verif.Thermal.C100_comp_quasi",
    "Verif.Thermal.C100_motor_quasi",
    "Verif.Thermal.C100_battery_quasi",
    "Verif.Thermal.C100_comp_settles",
    "Verif.Thermal.C100_motor_settles",
    "Verif.Thermal.C100_battery_settles",
    "Verif.Thermal.C100_reservoir_settles",
    "Verif.Thermal.C100_comp_steady",
    "Verif.Thermal.C100_motor_steady",
    "Verif.Thermal.C100_battery_steady"
   ],
   "note": "Existence and uniqueness by linear algebra on each Simpson interval (nonnegative decay rates); settling through the (2,2) Pade approximant."
  },
  {
   "property": "C101",
   "status": "partial",
   "theorems": [
    "Verif.Thermal.C101_comp_partial",
    "Verif.Thermal.C101_motor_partial",
    "Verif.Thermal.C101_battery_partial",
    "Verif.Thermal.C101_reservoir_partial",
    "Verif.Thermal.C101_motor_undershoot",
    "Verif.Thermal.C101_reservoir_undershoot",
    "Verif.Thermal.C101_reservoir_witness",
    "Verif.Thermal.C101_motor_witness"
   ],
   "note": "Proved for steps with lambda h <= sqrt 6. False for every longer step: the middle node of each Simpson interval then lies beyond the quasi-steady temperature (C101_motor_undershoot, C101_reservoir_undershoot, witnesses C101_reservoir_witness and C101_motor_witness)."
  },
  {
   "property": "C102",
   "status": "proved",
   "theorems": [
    "Verif.Bfl.C102_ground_roll",
    "Verif.Bfl.C102_speeds",
    "Verif.Bfl.C102_ranges",
    "Verif.Bfl.C102_balanced",
    "Verif.Bfl.C102_configuration",
    "Verif.Bfl.C102_forces",
    "Verif.Bfl.C102_uniform",
    "Verif.Bfl.C102_duration",
    "Verif.Bfl.C102_rotation",
    "Verif.Bfl.C102_rotation_motion",
    "Verif.Bfl.C102_segment",
    "Verif.Bfl.C102_twin",
    "Verif.Bfl.C102_rotation_speeds",
    "Verif.Bfl.C102_reachable",
    "Verif.Bfl.C102_simplified_path"
   ],
   "note": "The aircraft model is an arbitrary function; convergence is the vanishing of all integrator, balance and V1 residuals. C102_reachable constructs converged take-offs for every design, V1, altitude and temperature."
  },
  {
   "property": "C103",
   "status": "partial",
   "theorems": [
    "Verif.Bfl.C103_climbout",
    "Verif.Bfl.C103_climb_gradient",
    "Verif.Bfl.C103_simplified",
    "Verif.Bfl.C103_rotation_speed",
    "Verif.Bfl.C103_rotation_speed_partial",
    "Verif.Bfl.C103_rotation_warm",
    "Verif.Bfl.C103_rotation_stall",
    "Verif.Bfl.C103_rotation_below_stall",
    "Verif.Bfl.C103_speed_jump",
    "Verif.Bfl.C103_liftoff_iff",
    "Verif.Bfl.C103_liftoff_partial",
    "Verif.Bfl.C103_liftoff_hot",
    "Verif.Bfl.C103_liftoff_witness"
   ],
   "note": "Holds for the phases that take equivalent airspeed (climb-out, simplified rotation). The ground roll balances the true airspeed against the equivalent rotation speed: proved only for air of standard density (C103_rotation_speed_partial, C103_liftoff_partial); negations C103_rotation_warm, C103_rotation_below_stall, C103_liftoff_hot with converged witnesses."
  },
  {
   "property": "C104",
   "status": "proved",
   "theorems": [
    "Verif.HybridTwin.C104_split",
    "Verif.HybridTwin.C104_totals",
    "Verif.HybridTwin.C104_energy",
    "Verif.HybridTwin.C104_no_fuel",
    "Verif.HybridTwin.C104_no_charge",
    "Verif.HybridTwin.C104_mission",
    "Verif.HybridTwin.C104_climb_weight",
    "Verif.HybridTwin.C104_exchange",
    "Verif.HybridTwin.C104_reachable",
    "Verif.HybridTwin.C104_target",
    "Verif.HybridTwin.C104_thrust",
    "Verif.HybridTwin.C104_battery"
   ],
   "note": "The aircraft model at the level of power sources; throttles, flight conditions, durations arbitrary. Drag, thrust balance and durations of the phases are other properties (C76-C79, C102)."
  },
  {
   "property": "C105",
   "status": "partial",
   "theorems": [
    "Verif.PointAnalysis.C105_accepted",
    "Verif.PointAnalysis.C105_point",
    "Verif.PointAnalysis.C105_history",
    "Verif.PointAnalysis.C105_final_only",
    "Verif.PointAnalysis.C105_zero_start",
    "Verif.PointAnalysis.C105_point_mission",
    "Verif.PointAnalysis.C105_mission_shift",
    "Verif.PointAnalysis.C105_old_agrees_partial",
    "Verif.PointAnalysis.C105_old_zero_start_fails",
    "Verif.PointAnalysis.C105_old_segments_fail",
    "Verif.PointAnalysis.C105_old_history"
   ],
   "note": "Integrator proved for all node counts; OldIntegrator agrees on one segment (C105_old_agrees_partial) except with one node and zero_start, where it raises TypeError (C105_old_zero_start_fails); with one node and named segments it always raises KeyError (C105_old_segments_fail)."
  },
  {
   "property": "C106",
   "status": "proved",
   "theorems": [
    "Verif.Vectorized.C106_nodes",
    "Verif.Vectorized.C106_jacobian",
    "Verif.Vectorized.C106_entry",
    "Verif.Vectorized.C106_misfit",
    "Verif.Vectorized.C106_lift",
    "Verif.Vectorized.C106_polar",
    "Verif.Vectorized.C106_selector",
    "Verif.Vectorized.C106_pump",
    "Verif.Vectorized.C106_heat",
    "Verif.Vectorized.C106_outlet",
    "Verif.Vectorized.C106_combine"
   ],
   "note": "Generic theorem about declared rows and columns (C106_jacobian) instantiated for lift, drag polar, selector, pump, heat exchanger outlet, heat transfer and manifold components; the scalar derivatives are proved there too."
  },
  {
   "property": "C107",
   "status": "proved",
   "theorems": [
    "Verif.Turboprop.C107_flow",
    "Verif.Turboprop.C107_fuel",
    "Verif.Turboprop.C107_weight_continuous",
    "Verif.Turboprop.C107_takeoff_fuel",
    "Verif.Turboprop.C107_stop_weight",
    "Verif.Turboprop.C107_twin",
    "Verif.Turboprop.C107_climb_gradient",
    "Verif.Turboprop.C107_single",
    "Verif.Turboprop.C107_electric_weight",
    "Verif.Turboprop.C107_electric_charge",
    "Verif.Turboprop.C107_electric_takeoff",
    "Verif.Turboprop.C107_king_air_empty",
    "Verif.Turboprop.C107_thrust_power",
    "Verif.Turboprop.C107_electric_thrust",
    "Verif.Turboprop.C107_electric_battery",
    "Verif.Turboprop.C107_linkable"
   ],
   "note": "All clauses for arbitrary propeller maps; the cooling system of the electric single is C94. Recorded in DESIGN.md: the climb-out phases use the cruise drag coefficient although the rotation ending at the same speed uses the take-off one (C107_climb_gradient), the single-engine airplanes continue an 'engine-out' take-off with full thrust (C107_single), and the King Air's empty weight contains the nacelle of one engine (C107_king_air_empty)."
  },
  {
   "property": "C108",
   "status": "partial",
   "theorems": [
    "Verif.WingSizing.C108_weight",
    "Verif.WingSizing.C108_exchange",
    "Verif.WingSizing.C108_fuel",
    "Verif.WingSizing.C108_raymer",
    "Verif.WingSizing.C108_maneuver_partial",
    "Verif.WingSizing.C108_maneuver_ignores_original",
    "Verif.WingSizing.C108_maneuver_monotone"
   ],
   "note": "The full claim is false of the code: the manoeuvre point's orig_W_wing is neither promoted nor connected, so it keeps the default estimate (C108_maneuver_ignores_original); C108_maneuver_partial bounds the error when the default is kept (rounding 2.20462 lb/kg). OpenAeroStruct's analysis is an arbitrary function."
  },
  {
   "property": "C109",
   "status": "proved",
   "theorems": [
    "Verif.Derivatives.C109_units",
    "Verif.Derivatives.C109_setup",
    "Verif.Derivatives.C109_sizes",
    "Verif.Derivatives.C109_exact",
    "Verif.Derivatives.C109_jacobian"
   ],
   "note": "Whole statement; unit strings are read with the relation Denotes of Props/AddIntegrand."
  },
  {
   "property": "C110",
   "status": "proved",
   "theorems": [
    "Verif.Units.C110_perfectHeatTransfer",
    "Verif.Units.C110_thermalMass",
    "Verif.Units.C110_coldPlate",
    "Verif.Units.C110_reservoir",
    "Verif.Units.C110_coolingJacket",
    "Verif.Units.C110_bandolier",
    "Verif.Units.C110_flowCombine",
    "Verif.Units.C110_linearSelector",
    "Verif.Units.C110_heatPump",
    "Verif.Units.C110_heatPumpWeight",
    "Verif.Units.C110_heatPipeWeight",
    "Verif.Units.C110_heatPipeResistance",
    "Verif.Units.C110_vaporTempDrop",
    "Verif.Units.C110_qMaxHeatPipe",
    "Verif.Units.C110_pump",
    "Verif.Units.C110_hose",
    "Verif.Units.C110_finGeometry",
    "Verif.Units.C110_reynoldsDh",
    "Verif.Units.C110_nusseltColburn",
    "Verif.Units.C110_convection",
    "Verif.Units.C110_finEfficiency",
    "Verif.Units.C110_uaOverall",
    "Verif.Units.C110_ntuMethod",
    "Verif.Units.C110_heatTransfer",
    "Verif.Units.C110_outletTemperatures",
    "Verif.Units.C110_pressureDrop",
    "Verif.Units.C110_explicitDuct",
    "Verif.Units.C110_ductTemperature",
    "Verif.Units.C110_ductTotalTemperature",
    "Verif.Units.C110_ductPressure",
    "Verif.Units.C110_ductTotalPressure",
    "Verif.Units.C110_ductDensity",
    "Verif.Units.C110_ductSpeedOfSound",
    "Verif.Units.C110_ductMachFromSpeed",
    "Verif.Units.C110_heatAddition",
    "Verif.Units.C110_massFlow",
    "Verif.Units.C110_netForce",
    "Verif.Units.C110_nozzleLoss",
    "Verif.Units.C110_motor",
    "Verif.Units.C110_generator",
    "Verif.Units.C110_turboshaft",
    "Verif.Units.C110_splitFraction",
    "Verif.Units.C110_splitFixed",
    "Verif.Units.C110_propCoefficients_rest",
    "Verif.Units.C110_tipSpeed_unit",
    "Verif.Units.C110_propCoefficients_negation",
    "Verif.Units.C110_thrustCalc",
    "Verif.Units.C110_battery",
    "Verif.Units.C110_hydrogenMass",
    "Verif.Units.C110_pressureVessel",
    "Verif.Units.C110_vacuumWall",
    "Verif.Units.C110_insulation",
    "Verif.Units.C110_polarDrag",
    "Verif.Units.C110_lift",
    "Verif.Units.C110_stallSpeed",
    "Verif.Units.C110_density",
    "Verif.Units.C110_dynamicPressure",
    "Verif.Units.C110_machNumber",
    "Verif.Units.C110_speedOfSound",
    "Verif.Units.C110_trueAirspeed",
    "Verif.Units.C110_equivalentAirspeed",
    "Verif.Units.C110_cylinderArea",
    "Verif.Units.C110_wingMAC",
    "Verif.Units.C110_wingSpan",
    "Verif.Units.C110_wingAspect",
    "Verif.Units.C110_hstab",
    "Verif.Units.C110_vstab",
    "Verif.Units.C110_climbAngle",
    "Verif.Units.C110_groundspeeds",
    "Verif.Units.C110_horizontalAcceleration",
    "Verif.Units.C110_verticalAcceleration",
    "Verif.Units.C110_steadyCL",
    "Verif.Units.C110_takeoffTransition",
    "Verif.Units.C110_takeoffClimb"
   ],
   "note": "71 of 72 components proved (three on the domain where their clipping literals are unused); PropCoefficients fails for prop_Vtip (negation proved), its other outputs are proved"
  },
  {
   "property": "C111",
   "status": "proved",
   "theorems": [
    "Verif.Units.C111_perfectHeatTransfer",
    "Verif.Units.C111_thermalMass",
    "Verif.Units.C111_coldPlate",
    "Verif.Units.C111_reservoir",
    "Verif.Units.C111_coolingJacket",
    "Verif.Units.C111_bandolier",
    "Verif.Units.C111_flowCombine",
    "Verif.Units.C111_linearSelector",
    "Verif.Units.C111_heatPump",
    "Verif.Units.C111_heatPumpWeight",
    "Verif.Units.C111_heatPipeWeight",
    "Verif.Units.C111_heatPipeResistance",
    "Verif.Units.C111_vaporTempDrop",
    "Verif.Units.C111_qMaxHeatPipe",
    "Verif.Units.C111_pump",
    "Verif.Units.C111_hose",
    "Verif.Units.C111_finGeometry",
    "Verif.Units.C111_reynoldsDh",
    "Verif.Units.C111_nusseltColburn",
    "Verif.Units.C111_convection",
    "Verif.Units.C111_finEfficiency",
    "Verif.Units.C111_uaOverall",
    "Verif.Units.C111_ntuMethod",
    "Verif.Units.C111_heatTransfer",
    "Verif.Units.C111_outletTemperatures",
    "Verif.Units.C111_pressureDrop",
    "Verif.Units.C111_explicitDuct",
    "Verif.Units.C111_ductTemperature",
    "Verif.Units.C111_ductTotalTemperature",
    "Verif.Units.C111_ductPressure",
    "Verif.Units.C111_ductTotalPressure",
    "Verif.Units.C111_ductDensity",
    "Verif.Units.C111_ductSpeedOfSound",
    "Verif.Units.C111_ductMachFromSpeed",
    "Verif.Units.C111_heatAddition",
    "Verif.Units.C111_massFlow",
    "Verif.Units.C111_netForce",
    "Verif.Units.C111_nozzleLoss",
    "Verif.Units.C111_motor",
    "Verif.Units.C111_generator",
    "Verif.Units.C111_turboshaft",
    "Verif.Units.C111_splitFraction",
    "Verif.Units.C111_splitFixed",
    "Verif.Units.C111_propCoefficients",
    "Verif.Units.C111_thrustCalc",
    "Verif.Units.C111_battery",
    "Verif.Units.C111_hydrogenMass",
    "Verif.Units.C111_pressureVessel",
    "Verif.Units.C111_vacuumWall",
    "Verif.Units.C111_insulation",
    "Verif.Units.C111_polarDrag",
    "Verif.Units.C111_lift",
    "Verif.Units.C111_stallSpeed",
    "Verif.Units.C111_density",
    "Verif.Units.C111_dynamicPressure",
    "Verif.Units.C111_machNumber",
    "Verif.Units.C111_speedOfSound",
    "Verif.Units.C111_trueAirspeed",
    "Verif.Units.C111_equivalentAirspeed",
    "Verif.Units.C111_cylinderArea",
    "Verif.Units.C111_wingMAC",
    "Verif.Units.C111_wingSpan",
    "Verif.Units.C111_wingAspect",
    "Verif.Units.C111_hstab",
    "Verif.Units.C111_vstab",
    "Verif.Units.C111_climbAngle",
    "Verif.Units.C111_groundspeeds",
    "Verif.Units.C111_horizontalAcceleration",
    "Verif.Units.C111_verticalAcceleration",
    "Verif.Units.C111_steadyCL",
    "Verif.Units.C111_takeoffTransition",
    "Verif.Units.C111_takeoffClimb",
    "Verif.Units.C111_flapCLmax",
    "Verif.Units.C111_skinFriction",
    "Verif.Units.C111_pressureComp",
    "Verif.Units.C111_temperatureComp",
    "Verif.Units.C111_flowSplit",
    "Verif.Units.C111_masslessBalance",
    "Verif.Units.C111_flowMatcher",
    "Verif.Units.C111_machDuct",
    "Verif.Units.C111_exitRatio",
    "Verif.Units.C111_crossFlow",
    "Verif.Units.C111_finData",
    "Verif.Units.C111_engineSystems",
    "Verif.Units.C111_furnishing",
    "Verif.Units.C111_equipment",
    "Verif.Units.C111_propellerWeight",
    "Verif.Units.C111_copExplicit",
    "Verif.Units.C111_exitMachComp",
    "Verif.Units.C111_constantEfficiency",
    "Verif.Units.C111_operatingCost"
   ],
   "note": ""
  },
  {
   "property": "C112",
   "status": "proved",
   "theorems": [
    "Verif.Concat.C112_setup",
    "Verif.Concat.C112_shared_part",
    "Verif.Concat.C112_init",
    "Verif.Concat.C112_add_relation",
    "Verif.Concat.C112_concat",
    "Verif.Concat.C112_split",
    "Verif.Concat.C112_round_trip",
    "Verif.Concat.C112_concat_jacobian",
    "Verif.Concat.C112_split_jacobian"
   ],
   "note": "Names, sizes and contents of any number of relations; the constructor and add_relation are modelled with the kinds of arguments (string, iterable, none, other)."
  },
  {
   "property": "C113",
   "status": "proved",
   "theorems": [
    "Verif.Equations.C113_airplanes",
    "Verif.Equations.C113_weights",
    "Verif.Equations.C113_products"
   ],
   "note": "21 equations of the examples, weights and aerodynamics."
  },
  {
   "property": "C114",
   "status": "proved",
   "theorems": [
    "Verif.Wiring.C114_inlet_setup",
    "Verif.Wiring.C114_inlet",
    "Verif.Wiring.C114_station_setup",
    "Verif.Wiring.C114_station",
    "Verif.Wiring.C114_nozzle_setup",
    "Verif.Wiring.C114_nozzle",
    "Verif.Wiring.C114_duct_setup",
    "Verif.Wiring.C114_duct",
    "Verif.Wiring.C114_duct_exists",
    "Verif.Wiring.C114_hx_setup",
    "Verif.Wiring.C114_hx",
    "Verif.Wiring.C114_ductHx_setup",
    "Verif.Wiring.C114_ductHx",
    "Verif.Wiring.C114_allElectric_setup",
    "Verif.Wiring.C114_allElectricC_setup",
    "Verif.Wiring.C114_passiveHybrid_setup",
    "Verif.Wiring.C114_refrigeratedHybrid_setup",
    "Verif.Wiring.C114_electric_ins",
    "Verif.Wiring.C114_refrigerated_ins",
    "Verif.Wiring.C114_allElectric",
    "Verif.Wiring.C114_allElectricC",
    "Verif.Wiring.C114_allElectricC_duct",
    "Verif.Wiring.C114_passiveHybrid",
    "Verif.Wiring.C114_refrigeratedHybrid",
    "Verif.Wiring.C114_twinHybrid_setup",
    "Verif.Wiring.C114_twinHybrid",
    "Verif.Wiring.C114_seriesHybrid_setup",
    "Verif.Wiring.C114_seriesHybrid_open",
    "Verif.Wiring.C114_singleHybrid_setup",
    "Verif.Wiring.C114_singleHybrid",
    "Verif.Wiring.C114_atmosphere_setup",
    "Verif.Wiring.C114_atmosphere_tas",
    "Verif.Wiring.C114_atmosphere_eas",
    "Verif.Wiring.C114_propeller_setup",
    "Verif.Wiring.C114_propeller",
    "Verif.Wiring.C114_turboprop_setup",
    "Verif.Wiring.C114_turboprop",
    "Verif.Wiring.C114_twinTurboprop_setup",
    "Verif.Wiring.C114_twinTurboprop",
    "Verif.Wiring.C114_socBattery_setup",
    "Verif.Wiring.C114_socBattery",
    "Verif.Wiring.C114_liquidCooled_setup",
    "Verif.Wiring.C114_liquidCooled",
    "Verif.Wiring.C114_liquidCooled_integrator",
    "Verif.Wiring.C114_liquidCooledSteady",
    "Verif.Wiring.C114_reservoir_setup",
    "Verif.Wiring.C114_reservoir",
    "Verif.Wiring.C114_chiller_setup",
    "Verif.Wiring.C114_chiller",
    "Verif.Wiring.C114_cooledMotor_setup",
    "Verif.Wiring.C114_cooledMotor",
    "Verif.Wiring.C114_cooledBattery_setup",
    "Verif.Wiring.C114_cooledBattery",
    "Verif.Wiring.C114_heatPipe_setup",
    "Verif.Wiring.C114_qMaxPipe",
    "Verif.Wiring.C114_heatPipe",
    "Verif.Wiring.C114_tank_setup",
    "Verif.Wiring.C114_vacuumTank",
    "Verif.Wiring.C114_tank"
   ],
   "note": "All groups of thermal, atmospherics, propulsion and energy_storage except `RubberizedTurbofan`. Promotion, implicit and explicit connections, input defaults and unit conversion are modelled; solver settings, initial guesses, execution order and ambiguous default *values* of inputs promoted to one name are not."
  },
  {
   "property": "C115",
   "status": "proved",
   "theorems": [
    "Verif.Wiring.C115_ground_v0v1",
    "Verif.Wiring.C115_ground_v1vr",
    "Verif.Wiring.C115_ground_v1v0",
    "Verif.Wiring.C115_rotation",
    "Verif.Wiring.C115_simplified",
    "Verif.Wiring.C115_climb_angle",
    "Verif.Wiring.C115_steady",
    "Verif.Wiring.C115_ground_exists",
    "Verif.Wiring.C115_setup",
    "Verif.Wiring.C115_inputs",
    "Verif.Wiring.C115_setup_limits"
   ],
   "note": "The aircraft model is an arbitrary function with the interface documented in phases.py; outputs of IndepVarComp keep the values they are created with. What OpenMDAO does with promotion, connections and units is the trusted model of C114."
  },
  {
   "property": "C116",
   "status": "proved",
   "theorems": [
    "Verif.Wiring.C116_mission",
    "Verif.Wiring.C116_takeoff",
    "Verif.Wiring.C116_ground_roll",
    "Verif.Wiring.C116_setup",
    "Verif.Wiring.C116_faces",
    "Verif.Wiring.C116_linked",
    "Verif.Wiring.C116_open",
    "Verif.Wiring.C116_unused",
    "Verif.Wiring.C116_reachable"
   ],
   "note": "group definitions are read from profiles.py with the phases as interfaces (C116_faces checks them against the phases of C115); link_phases is the model of C24"
  },
  {
   "property": "C117",
   "status": "proved",
   "theorems": [
    "Verif.Wiring.C117_turboprop_setup",
    "Verif.Wiring.C117_single",
    "Verif.Wiring.C117_twin",
    "Verif.Wiring.C117_turboprop_solution",
    "Verif.Wiring.C117_single_mono",
    "Verif.Wiring.C117_twin_mono",
    "Verif.Wiring.C117_jet_setup",
    "Verif.Wiring.C117_jet",
    "Verif.Wiring.C117_bwb",
    "Verif.Wiring.C117_jet_solution",
    "Verif.Wiring.C117_jet_unique",
    "Verif.Wiring.C117_jet_mono",
    "Verif.Wiring.C117_bwb_mono"
   ],
   "note": "What OpenMDAO does with promotion, connections and units is the trusted model of C114. The turboprop groups leave all component options at their defaults, as the code does. The monotonicity needs positive inputs and sweeps below 90 degrees (C72, C73)."
  },
  {
   "property": "C118",
   "status": "proved",
   "theorems": [
    "Verif.Wiring.C118_setup",
    "Verif.Wiring.C118_jet_drag",
    "Verif.Wiring.C118_jet_outputs",
    "Verif.Wiring.C118_jet_solution",
    "Verif.Wiring.C118_bwb_drag",
    "Verif.Wiring.C118_bwb_solution",
    "Verif.Wiring.C118_turbofan"
   ],
   "note": "C118_setup evaluates the setup of every configuration; C118_jet_drag, C118_bwb_drag and C118_turbofan say that the converged states are exactly those of the formulas (Model/Aero.lean, Model/CriticalSection.lean, Model/Propulsion.lean); C118_jet_outputs and the solution theorems say that the equations fix every output and always have a solution. The engine decks are arbitrary functions; the default values of the original ratings are hypotheses of C118_turbofan."
  },
  {
   "property": "C119",
   "status": "proved",
   "theorems": [
    "Verif.Wiring.C119_caravan_setup",
    "Verif.Wiring.C119_kingAir_setup",
    "Verif.Wiring.C119_tbm_setup",
    "Verif.Wiring.C119_caravan",
    "Verif.Wiring.C119_kingAir",
    "Verif.Wiring.C119_kingAir_empty",
    "Verif.Wiring.C119_tbm"
   ],
   "note": "Model/WiringAirplanes.lean. The setup theorems evaluate the setup of the model in every phase with the example's dictionary of design variables; C119_caravan, C119_kingAir and C119_tbm relate the converged states to the model of C107 and to the empty weight of C117. Values set by the run scripts (set_val) are inputs. Examples beside C120 show such states."
  },
  {
   "property": "C120",
   "status": "proved",
   "theorems": [
    "Verif.Wiring.C120_caravan",
    "Verif.Wiring.C120_kingAir",
    "Verif.Wiring.C120_tbm",
    "Verif.Wiring.C120_groups"
   ],
   "note": "Proof/Feedforward.lean proves, for any group whose connections go forward in some order of its subsystems, that solvable subsystems give exactly one state; Proof/FeedComponents.lean checks the order and the components. Surrogates are arbitrary functions of their inputs."
  },
  {
   "property": "C121",
   "status": "partial",
   "theorems": [
    "Verif.Wiring.C121_run_once_partial",
    "Verif.Wiring.C121_twin_lags",
    "Verif.Wiring.C121_twin_false",
    "Verif.Wiring.C121_twin_twice"
   ],
   "note": "Model/RunOnce.lean models one pass; a nested group is taken as converged when it is run. C121_twin_false refutes the claim for the twin turboprop, C121_twin_lags says what a run gives there, C121_twin_twice that two runs suffice."
  },
  {
   "property": "C122",
   "status": "proved",
   "theorems": [
    "Verif.Wiring.C122_trajectory",
    "Verif.Wiring.C122_level",
    "Verif.Wiring.C122_cruise_time",
    "Verif.Wiring.C122_minimal_throttle",
    "Verif.Wiring.C122_minimal"
   ],
   "note": "Props/Trajectory, Trajectory2, Tutorial, Tutorial2. C122_trajectory (ordinary flights), C122_level (level cruise), C122_cruise_time (when the cruise time is nonnegative), C122_minimal_throttle, C122_minimal (existence and uniqueness). The solver bounds on throttle and duration are not part of the relation."
  },
  {
   "property": "C123",
   "status": "proved",
   "theorems": [
    "Verif.Wiring.C123_phase",
    "Verif.Wiring.C123_fuel"
   ],
   "note": "Props/FuelBurn. C123_phase (equations of a phase), C123_fuel (existence, positivity, uniqueness of the mission). That a converged state has nonzero weights is a hypothesis of uniqueness: the code divides by the weight."
  },
  {
   "property": "C124",
   "status": "proved",
   "theorems": [
    "Verif.Wiring.C124_b738_setup",
    "Verif.Wiring.C124_hybridTwin_setup",
    "Verif.Wiring.C124_b738",
    "Verif.Wiring.C124_b738_exists",
    "Verif.Wiring.C124_b738_lighter",
    "Verif.Wiring.C124_electric",
    "Verif.Wiring.C124_hybridTwin",
    "Verif.Wiring.C124_hybridTwin_sources",
    "Verif.Wiring.C124_sizing_setup",
    "Verif.Wiring.C124_sizing"
   ],
   "note": "Props/WiringAirplanes2. C124_b738(_setup,_exists,_lighter), C124_hybridTwin(_setup,_sources), C124_electric, C124_sizing(_setup). The inner propulsion groups and weights are used through C114 and C117, the hybrid model through C104, the electric one through C107. Hypotheses on defaults of open inputs are the values written in the code."
  },
  {
   "property": "C125",
   "status": "proved",
   "theorems": [
    "Verif.Wiring.C125_sized_setup",
    "Verif.Wiring.C125_designed",
    "Verif.Wiring.C125_faces",
    "Verif.Wiring.C125_links",
    "Verif.Wiring.C125_b738",
    "Verif.Wiring.C125_caravan",
    "Verif.Wiring.C125_kingAir",
    "Verif.Wiring.C125_tbm",
    "Verif.Wiring.C125_hybrid",
    "Verif.Wiring.C125_electric",
    "Verif.Wiring.C125_sized",
    "Verif.Wiring.C125_b738_exists",
    "Verif.Wiring.C125_designed_exists"
   ],
   "note": "The mission is a family of phase states joined by the connections that link_phases makes (computed from the model of mission_groups.py); the promotion of the take-off weight into the phases, the default 0 of the first initial value and the connection of the durations are hypotheses. Existence is proved for the 737 over the whole mission and for the outer group of the sized airplane."
  },
  {
   "property": "C126",
   "status": "proved",
   "theorems": [
    "Verif.Wiring.C126_passive",
    "Verif.Wiring.C126_active",
    "Verif.Wiring.C126_passive_setup",
    "Verif.Wiring.C126_active_setup",
    "Verif.Wiring.C126_links",
    "Verif.Wiring.C126_outer",
    "Verif.Wiring.C126_passive_mission",
    "Verif.Wiring.C126_active_mission",
    "Verif.Wiring.C126_hybrid_mission",
    "Verif.Wiring.C126_refrigerator_weightless"
   ],
   "note": "phase, mission and outer group of the thermally managed hybrid twins; converged states are hypotheses, no fouling of the heat exchanger; negation: the refrigerated twin's empty weight leaves out the refrigerator"
  },
  {
   "property": "C127",
   "status": "proved",
   "theorems": [
    "Verif.Wiring.C127_fault",
    "Verif.Wiring.C127_battery",
    "Verif.Wiring.C127_phase",
    "Verif.Wiring.C127_links",
    "Verif.Wiring.C127_mission",
    "Verif.Wiring.C127_stack"
   ],
   "note": "Proved for all missions, phases, numbers of nodes and converged states of the model; the durations of the integrators are connected by PhaseGroup.configure and are a hypothesis, the inputs the ducts leave open have their declared values (N3Open). C127_stack is the negation: one frontal area for two exchangers."
  },
  {
   "property": "C128",
   "status": "proved",
   "theorems": [
    "Verif.Label.C128_identity",
    "Verif.Label.C128_reuse",
    "Verif.Label.C128_stale"
   ],
   "note": "the object as a state machine over the caller's lists; OpenMDAO's refusal of rows beyond the size of the variable is modelled as a check; C128_stale is the negation for lists reused with another size"
  },
  {
   "property": "C129",
   "status": "proved",
   "theorems": [
    "Verif.SectionIdx.C129_area",
    "Verif.SectionIdx.C129_split",
    "Verif.SectionIdx.C129_area_mac",
    "Verif.SectionIdx.C129_mac",
    "Verif.SectionIdx.C129_unchecked"
   ],
   "note": "raw arrays with Python's slice rules for integer indices of any sign; C129_unchecked is the negation of 'negative indices not accepted'"
  },
  {
   "property": "C130",
   "status": "proved",
   "theorems": [
    "Verif.SurfOptions.C130_check",
    "Verif.SurfOptions.C130_equal",
    "Verif.SurfOptions.C130_history",
    "Verif.SurfOptions.C130_broadcast"
   ],
   "note": "dictionaries of numbers and one dimensional arrays; C130_broadcast is the negation of \"differently valued surf_options are refused with the documented error\""
  },
  {
   "property": "C131",
   "status": "partial",
   "theorems": [
    "Verif.PrintedWeights.C131_same_partial",
    "Verif.PrintedWeights.C131_hybrid",
    "Verif.PrintedWeights.C131_never",
    "Verif.PrintedWeights.C131_turboprop"
   ],
   "note": "false as stated: C131_hybrid and C131_never are the negation for every airplane; C131_same_partial is the balance with one factor in all phases"
  },
  {
   "property": "C132",
   "status": "proved",
   "theorems": [
    "Verif.Wiring.C132_setup",
    "Verif.Wiring.C132_unread",
    "Verif.Wiring.C132_vlm",
    "Verif.Wiring.C132_exists",
    "Verif.Wiring.C132_polar_reads"
   ],
   "note": "Holds for all the aircraft's values but the thickness ratio and the temperature increment, for which the dependence is refuted (C132_unread). C132_exists: a converged state for every flight whose lift the surrogate can give. The training data and the interpolation are arbitrary functions; the arrays of twist and thickness count as one value each."
  },
  {
   "property": "C133",
   "status": "proved",
   "theorems": [
    "Verif.Plots.C133_between",
    "Verif.Plots.C133_uniform",
    "Verif.Plots.C133_twice",
    "Verif.Plots.C133_everywhere",
    "Verif.Plots.C133_wings",
    "Verif.Plots.C133_refused",
    "Verif.Plots.C133_trapezoidal"
   ],
   "note": "The averaging, mirroring and refusals are proved; that the value of a panel is its force per area is refuted for every wing with streamwise panels (C133_twice, C133_everywhere), which the trapezoidal meshes are (C133_trapezoidal). Area is the shoelace formula of the planform. The picture matplotlib makes of the arrays is not modelled."
  },
  {
   "property": "C134",
   "status": "proved",
   "theorems": [
    "Verif.Plots.C134_whole"
   ],
   "note": "The arrays given to matplotlib; the picture is not modelled."
  },
  {
   "property": "C135",
   "status": "proved",
   "theorems": [
    "Verif.Plots.C135_pages",
    "Verif.Plots.C135_places",
    "Verif.Plots.C135_fails"
   ],
   "note": "Where the variables are drawn and which files are written; that subplots with one row or column returns no two dimensional array and that Axes.set takes no positional argument is taken from matplotlib."
  },
  {
   "property": "C136",
   "status": "partial",
   "theorems": [
    "Verif.DeckPlots.C136_cfm_sfc",
    "Verif.DeckPlots.C136_cfm_swapped",
    "Verif.DeckPlots.C136_cfm_iff",
    "Verif.DeckPlots.C136_cfm_points",
    "Verif.DeckPlots.C136_cfm_false",
    "Verif.DeckPlots.C136_n3",
    "Verif.DeckPlots.C136_hybrid"
   ],
   "note": "False for CFM56: the figure titled Thrust shows the fuel flow and the figure titled Fuel Flow the thrust (C136_cfm_swapped, negation C136_cfm_false; C136_cfm_iff says for which decks the claim holds). Proved for the first figure of CFM56 and for all figures of N3 and N3Hybrid, for arbitrary decks. The trained surrogates and matplotlib are not modelled."
  },
  {
   "property": "C137",
   "status": "proved",
   "theorems": [
    "Verif.DeckPlots.C137_mach",
    "Verif.DeckPlots.C137_throttle",
    "Verif.DeckPlots.C137_title"
   ],
   "note": "Convergence of the balance at the point is a hypothesis, for arbitrary decks and an arbitrary solver. C137_title is a pair of decks for which the figure titled M=0.8 differs from the ratio at Mach 0.8. The bounds of the throttle are not modelled."
  },
  {
   "property": "C138",
   "status": "proved",
   "theorems": [
    "Verif.PlotTrajectory.C138_iff",
    "Verif.PlotTrajectory.C138_points",
    "Verif.PlotTrajectory.C138_shifted"
   ],
   "note": "C138_iff is the exact condition and the exact figures; C138_points the points. C138_shifted shows that the condition on the phases is needed: only the total numbers of values are compared. Exceptions of prob.get_val are one kind; the marker is not modelled."
  },
  {
   "property": "C139",
   "status": "partial",
   "theorems": [
    "Verif.SweepScript.C139_thermal_nologs",
    "Verif.SweepScript.C139_hybrid_iff",
    "Verif.SweepScript.C139_hybrid_stops",
    "Verif.SweepScript.C139_completes",
    "Verif.SweepScript.C139_fresh",
    "Verif.SweepScript.C139_warm",
    "Verif.SweepScript.C139_early",
    "Verif.SweepScript.C139_resume_fails",
    "Verif.SweepScript.C139_resume_witness"
   ],
   "note": "Proved for the thermal examples: without log files (C139_thermal_nologs), and with log files if no exception comes before the driver opens its file and a skipped case of range 300 has its successor of 50 more energy and range 700 (C139_completes, C139_fresh, C139_warm). False otherwise, negations proved: HybridTwin.py ends with a NameError at the first failure (C139_hybrid_iff, C139_hybrid_stops), a continued sweep of the thermal examples ends with an exception at its first new case (C139_resume_fails, C139_resume_witness), an early exception ends every script with log files (C139_early)."
  }
 ]
}