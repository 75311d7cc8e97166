{
 "claims": [
  {
   "property": "C01",
   "status": "partial",
   "theorems": [
    "RDy.C01_toSeconds_factor",
    "RDy.C01_fromSeconds_factor",
    "RDy.C01_roundtrip_from_to",
    "RDy.C01_roundtrip_to_from",
    "RDy.C01_convert_route_independent",
    "RDy.C01_convert_self",
    "RDy.C01_convert_strictMono",
    "RDy.C01_convert_sub",
    "RDy.C01_unset_unit_is_error_code",
    "RDy.C01_unset_roundtrip_violated"
   ],
   "note": "The code as modelled does not meet the full statement: C01_unset_roundtrip_violated"
  },
  {
   "property": "C02",
   "status": "partial",
   "theorems": [
    "RDy.C02_get_after_set",
    "RDy.C02_get_after_set_same_unit",
    "RDy.C02_set_get",
    "RDy.C02_last_set_wins",
    "RDy.C02_set_positive_partial",
    "RDy.C02_nonpositive_accepted_violated"
   ],
   "note": "The code as modelled does not meet the full statement: C02_nonpositive_accepted_violated; Proved under the conditions named in the comments of: C02_set_positive_partial"
  },
  {
   "property": "C03",
   "status": "partial",
   "theorems": [
    "RDy.C03_advance_exact",
    "RDy.C03_run_frame",
    "RDy.C03_run_fixed",
    "RDy.C03_run_adaptive",
    "RDy.C03_finished_iff",
    "RDy.C03_driver_terminates_adaptive",
    "RDy.C03_driver_terminates_fixed_partial",
    "RDy.C03_step_limit_never_finishes_violated",
    "RDy.C03_stop_not_multiple_of_dt_violated"
   ],
   "note": "The code as modelled does not meet the full statement: C03_step_limit_never_finishes_violated, C03_stop_not_multiple_of_dt_violated; Proved under the conditions named in the comments of: C03_driver_terminates_fixed_partial"
  },
  {
   "property": "C04",
   "status": "partial",
   "theorems": [
    "RDy.C04_adapt_pos",
    "RDy.C04_adapt_growth",
    "RDy.C04_adapt_direction",
    "RDy.C04_adapt_target_partial",
    "RDy.C04_history_bounds",
    "RDy.C04_shortened_last_step_violated",
    "RDy.C04_interval_bound_violated"
   ],
   "note": "The code as modelled does not meet the full statement: C04_shortened_last_step_violated, C04_interval_bound_violated; Proved under the conditions named in the comments of: C04_adapt_target_partial"
  },
  {
   "property": "C05",
   "status": "partial",
   "theorems": [
    "RDy.C05_indexed_injective",
    "RDy.C05_indexed_defined",
    "RDy.C05_indexed_same_length",
    "RDy.C05_indexed_order",
    "RDy.C05_order_beyond_max_violated",
    "RDy.C05_stamp_distinct_partial",
    "RDy.C05_stamp_collision_violated",
    "RDy.C05_stamp_month_partial",
    "RDy.C05_stamp_december_violated"
   ],
   "note": "The code as modelled does not meet the full statement: C05_order_beyond_max_violated, C05_stamp_collision_violated, C05_stamp_december_violated; Proved under the conditions named in the comments of: C05_stamp_distinct_partial, C05_stamp_month_partial"
  },
  {
   "property": "C06",
   "status": "partial",
   "theorems": [
    "RDy.C06_batching",
    "RDy.C06_batch_size_bound",
    "RDy.C06_unbatched",
    "RDy.C06_time_interval_only_violated",
    "RDy.C06_log_monitor_violated",
    "RDy.C06_mixed_intervals_overwrite_violated",
    "RDy.C06_no_division_by_zero_partial",
    "RDy.C06_index_within_max"
   ],
   "note": "The code as modelled does not meet the full statement: C06_time_interval_only_violated, C06_log_monitor_violated, C06_mixed_intervals_overwrite_violated; Proved under the conditions named in the comments of: C06_no_division_by_zero_partial"
  },
  {
   "property": "C07",
   "status": "partial",
   "theorems": [
    "RDy.C07_single_simulation_partial",
    "RDy.C07_all_callers_get_first",
    "RDy.C07_second_simulation_violated",
    "RDy.C07_checkpoint_members_violated",
    "RDy.C07_member_dirs_distinct"
   ],
   "note": "The code as modelled does not meet the full statement: C07_second_simulation_violated, C07_checkpoint_members_violated; Proved under the conditions named in the comments of: C07_single_simulation_partial"
  },
  {
   "property": "C08",
   "status": "partial",
   "theorems": [
    "RDy.C08_init_idempotent",
    "RDy.C08_initialized_spec",
    "RDy.C08_each_once_partial",
    "RDy.C08_second_cycle_violated",
    "RDy.C08_reinit_courant_violated"
   ],
   "note": "The code as modelled does not meet the full statement: C08_second_cycle_violated, C08_reinit_courant_violated; Proved under the conditions named in the comments of: C08_each_once_partial"
  },
  {
   "property": "C09",
   "status": "proved",
   "theorems": [
    "RDy.C09_finalizers_reverse_order",
    "RDy.C09_user_functions"
   ],
   "note": ""
  },
  {
   "property": "C10",
   "status": "partial",
   "theorems": [
    "RDy.C10_check_never_fires_violated",
    "RDy.C10_two_given_partial",
    "RDy.C10_internal_step_partial",
    "RDy.C10_internal_step_violated",
    "RDy.C10_adaptive_first_step_partial",
    "RDy.C10_adaptive_first_step_violated",
    "RDy.C10_dt_option",
    "RDy.C10_three_given_violated",
    "RDy.C10_one_given_violated",
    "RDy.C10_adaptive_without_stop_violated"
   ],
   "note": "The code as modelled does not meet the full statement: C10_check_never_fires_violated, C10_internal_step_violated, C10_adaptive_first_step_violated, C10_three_given_violated, C10_one_given_violated, C10_adaptive_without_stop_violated; Proved under the conditions named in the comments of: C10_two_given_partial, C10_internal_step_partial, C10_adaptive_first_step_partial"
  },
  {
   "property": "C11",
   "status": "partial",
   "theorems": [
    "RDy.C11_specified",
    "RDy.C11_accepted_partial",
    "RDy.C11_output_multiple",
    "RDy.C11_output_multiple_example",
    "RDy.C11_exceeds_stop_violated"
   ],
   "note": "The code as modelled does not meet the full statement: C11_exceeds_stop_violated; Proved under the conditions named in the comments of: C11_accepted_partial"
  },
  {
   "property": "C12",
   "status": "partial",
   "theorems": [
    "RDy.C12_idempotent",
    "RDy.C12_given_survives_partial",
    "RDy.C12_defaults",
    "RDy.C12_explicit_zero_violated"
   ],
   "note": "The code as modelled does not meet the full statement: C12_explicit_zero_violated; Proved under the conditions named in the comments of: C12_given_survives_partial"
  },
  {
   "property": "C13",
   "status": "partial",
   "theorems": [
    "RDy.C13_unit_abbreviation",
    "RDy.C13_spatial",
    "RDy.C13_time_unit_violated",
    "RDy.C13_solver_violated",
    "RDy.C13_methods_partial"
   ],
   "note": "The code as modelled does not meet the full statement: C13_time_unit_violated, C13_solver_violated; Proved under the conditions named in the comments of: C13_methods_partial"
  },
  {
   "property": "C14",
   "status": "partial",
   "theorems": [
    "RDy.C14_blocks",
    "RDy.C14_rank_order",
    "RDy.C14_default_names_distinct",
    "RDy.C14_name_clash_violated"
   ],
   "note": "The code as modelled does not meet the full statement: C14_name_clash_violated"
  },
  {
   "property": "C15",
   "status": "partial",
   "theorems": [
    "RDy.C15_names_preserved",
    "RDy.C15_override",
    "RDy.C15_idempotent",
    "RDy.C15_sections_partial",
    "RDy.C15_temperature_violated"
   ],
   "note": "The code as modelled does not meet the full statement: C15_temperature_violated; Proved under the conditions named in the comments of: C15_sections_partial"
  },
  {
   "property": "C16",
   "status": "proved",
   "theorems": [
    "RDy.C16_numbering",
    "RDy.C16_permutation",
    "RDy.C16_getters"
   ],
   "note": ""
  },
  {
   "property": "C17",
   "status": "proved",
   "theorems": [
    "RDy.C17_unit_orthogonal",
    "RDy.C17_direction",
    "RDy.C17_vertex_order",
    "RDy.C17_cell_order",
    "RDy.C17_degenerate",
    "RDy.C17_edge_classes"
   ],
   "note": ""
  },
  {
   "property": "C18",
   "status": "proved",
   "theorems": [
    "RDy.C18_triangle_plane",
    "RDy.C18_triangle_interpolates",
    "RDy.C18_vertex_order",
    "RDy.C18_degenerate",
    "RDy.C18_quad_plane",
    "RDy.C18_quad_between"
   ],
   "note": ""
  },
  {
   "property": "C19",
   "status": "proved",
   "theorems": [
    "RDy.C19_round_trip",
    "RDy.C19_injective",
    "RDy.C19_rejects"
   ],
   "note": ""
  },
  {
   "property": "C20",
   "status": "partial",
   "theorems": [
    "RDy.C20_partition_partial",
    "RDy.C20_contents_partial",
    "RDy.C20_index",
    "RDy.C20_missing_is_error",
    "RDy.C20_partition_violated"
   ],
   "note": "The code as modelled does not meet the full statement: C20_partition_violated; Proved under the conditions named in the comments of: C20_partition_partial, C20_contents_partial"
  },
  {
   "property": "C21",
   "status": "partial",
   "theorems": [
    "RDy.C21_fresh_id_partial",
    "RDy.C21_fresh_id_violated"
   ],
   "note": "The code as modelled does not meet the full statement: C21_fresh_id_violated; Proved under the conditions named in the comments of: C21_fresh_id_partial"
  },
  {
   "property": "C22",
   "status": "partial",
   "theorems": [
    "RDy.C22_unspecified_reflects",
    "RDy.C22_twice_is_error",
    "RDy.C22_specified",
    "RDy.C22_tracers_partial",
    "RDy.C22_unknown_tracer_violated",
    "RDy.C22_all"
   ],
   "note": "The code as modelled does not meet the full statement: C22_unknown_tracer_violated; Proved under the conditions named in the comments of: C22_tracers_partial"
  },
  {
   "property": "C23",
   "status": "partial",
   "theorems": [
    "RDy.C23_unassigned_is_error",
    "RDy.C23_material_partial",
    "RDy.C23_two_materials_violated",
    "RDy.C23_two_materials_witness_violated",
    "RDy.C23_file_violated",
    "RDy.C23_file_one_region_partial"
   ],
   "note": "The code as modelled does not meet the full statement: C23_two_materials_violated, C23_two_materials_witness_violated, C23_file_violated; Proved under the conditions named in the comments of: C23_material_partial, C23_file_one_region_partial"
  },
  {
   "property": "C24",
   "status": "partial",
   "theorems": [
    "RDy.C24_initial_flow_partial",
    "RDy.C24_shared_file_violated",
    "RDy.C24_shared_file_and_expr_violated",
    "RDy.C24_first_specification"
   ],
   "note": "The code as modelled does not meet the full statement: C24_shared_file_violated, C24_shared_file_and_expr_violated; Proved under the conditions named in the comments of: C24_initial_flow_partial"
  },
  {
   "property": "C25",
   "status": "partial",
   "theorems": [
    "RDy.C25_slots",
    "RDy.C25_initial_tracers_partial",
    "RDy.C25_salinity_expr_violated",
    "RDy.C25_temperature_expr_violated",
    "RDy.C25_inactive_violated",
    "RDy.C25_scatter"
   ],
   "note": "The code as modelled does not meet the full statement: C25_salinity_expr_violated, C25_temperature_expr_violated, C25_inactive_violated; Proved under the conditions named in the comments of: C25_initial_tracers_partial"
  },
  {
   "property": "C26",
   "status": "partial",
   "theorems": [
    "RDy.C26_regional",
    "RDy.C26_homogeneous",
    "RDy.C26_domain",
    "RDy.C26_read_back",
    "RDy.C26_unknown_id",
    "RDy.C26_class_unchecked_violated",
    "RDy.C26_history",
    "RDy.C26_init_partial",
    "RDy.C26_init_violated",
    "RDy.C26_manning",
    "RDy.C26_manning_errors"
   ],
   "note": "The code as modelled does not meet the full statement: C26_class_unchecked_violated, C26_init_violated; Proved under the conditions named in the comments of: C26_init_partial"
  },
  {
   "property": "C27",
   "status": "partial",
   "theorems": [
    "RDy.C27_layout",
    "RDy.C27_set_partial",
    "RDy.C27_errors",
    "RDy.C27_temperature_violated",
    "RDy.C27_auto_violated",
    "RDy.C27_init_flow",
    "RDy.C27_init_tracers_violated"
   ],
   "note": "The code as modelled does not meet the full statement: C27_temperature_violated, C27_auto_violated, C27_init_tracers_violated; Proved under the conditions named in the comments of: C27_set_partial"
  },
  {
   "property": "C28",
   "status": "partial",
   "theorems": [
    "RDy.C28_getters_partial",
    "RDy.C28_tracers_violated",
    "RDy.C28_unchecked_size_violated",
    "RDy.C28_natural_ids"
   ],
   "note": "The code as modelled does not meet the full statement: C28_tracers_violated, C28_unchecked_size_violated; Proved under the conditions named in the comments of: C28_getters_partial"
  },
  {
   "property": "C29",
   "status": "partial",
   "theorems": [
    "RDy.C29_round_trip_partial",
    "RDy.C29_reinitialize",
    "RDy.C29_nproc_violated",
    "RDy.C29_name_violated",
    "RDy.C29_refined_same_mesh",
    "RDy.C29_refined_violated",
    "RDy.C29_unknown_extension"
   ],
   "note": "The code as modelled does not meet the full statement: C29_nproc_violated, C29_name_violated, C29_refined_violated; Proved under the conditions named in the comments of: C29_round_trip_partial"
  },
  {
   "property": "C30",
   "status": "proved",
   "theorems": [
    "RDy.C30_due",
    "RDy.C30_files",
    "RDy.C30_complete",
    "RDy.C30_checkpoint_names_injective"
   ],
   "note": ""
  },
  {
   "property": "C31",
   "status": "partial",
   "theorems": [
    "RDy.C31_single_advance_partial",
    "RDy.C31_ceed_partial",
    "RDy.C31_ceed_violated",
    "RDy.C31_total",
    "RDy.C31_records_once",
    "RDy.C31_split_violated",
    "RDy.C31_split_ceed_violated",
    "RDy.C31_runge_kutta_violated",
    "RDy.C31_observations_only_violated",
    "RDy.C31_defined",
    "RDy.C31_tracers_violated"
   ],
   "note": "The code as modelled does not meet the full statement: C31_ceed_violated, C31_split_violated, C31_split_ceed_violated, C31_runge_kutta_violated, C31_observations_only_violated, C31_tracers_violated; Proved under the conditions named in the comments of: C31_single_advance_partial, C31_ceed_partial"
  },
  {
   "property": "C32",
   "status": "partial",
   "theorems": [
    "RDy.C32_lines",
    "RDy.C32_position_partial",
    "RDy.C32_position_violated"
   ],
   "note": "The code as modelled does not meet the full statement: C32_position_violated; Proved under the conditions named in the comments of: C32_position_partial"
  },
  {
   "property": "C33",
   "status": "partial",
   "theorems": [
    "RDy.C33_single_advance_partial",
    "RDy.C33_split_violated",
    "RDy.C33_always_twice_violated",
    "RDy.C33_written",
    "RDy.C33_sites_partial",
    "RDy.C33_sites_violated"
   ],
   "note": "The code as modelled does not meet the full statement: C33_split_violated, C33_always_twice_violated, C33_sites_violated; Proved under the conditions named in the comments of: C33_single_advance_partial, C33_sites_partial"
  },
  {
   "property": "C34",
   "status": "partial",
   "theorems": [
    "RDy.C34_mean_partial",
    "RDy.C34_constant",
    "RDy.C34_due",
    "RDy.C34_windows_partition",
    "RDy.C34_short_step_violated"
   ],
   "note": "The code as modelled does not meet the full statement: C34_short_step_violated; Proved under the conditions named in the comments of: C34_mean_partial"
  },
  {
   "property": "C35",
   "status": "partial",
   "theorems": [
    "RDy.C35_local",
    "RDy.C35_reduction",
    "RDy.C35_idempotent",
    "RDy.C35_global",
    "RDy.C35_tie_violated",
    "RDy.C35_tracer_edge_violated",
    "RDy.C35_tracer_number_partial",
    "RDy.C35_ceed_number_partial",
    "RDy.C35_ceed_edge_violated"
   ],
   "note": "The code as modelled does not meet the full statement: C35_tie_violated, C35_tracer_edge_violated, C35_ceed_edge_violated; Proved under the conditions named in the comments of: C35_tracer_number_partial, C35_ceed_number_partial"
  },
  {
   "property": "C36",
   "status": "proved",
   "theorems": [
    "RDy.C36_consistent"
   ],
   "note": ""
  },
  {
   "property": "C37",
   "status": "proved",
   "theorems": [
    "RDy.C37_antisymmetric",
    "RDy.C37_used_antisymmetric"
   ],
   "note": ""
  },
  {
   "property": "C38",
   "status": "proved",
   "theorems": [
    "RDy.C38_mirror",
    "RDy.C38_reflecting"
   ],
   "note": ""
  },
  {
   "property": "C39",
   "status": "partial",
   "theorems": [
    "RDy.C39_rhs_defined",
    "RDy.C39_roe_defined",
    "RDy.C39_interior_defined",
    "RDy.C39_boundary_defined",
    "RDy.C39_accumulated_dry_violated",
    "RDy.C39_accumulated_outflow_violated",
    "RDy.C39_negative_depth_violated",
    "RDy.C39_tracer_defined"
   ],
   "note": "The code as modelled does not meet the full statement: C39_accumulated_dry_violated, C39_accumulated_outflow_violated, C39_negative_depth_violated"
  },
  {
   "property": "C40",
   "status": "proved",
   "theorems": [
    "RDy.C40_dominate"
   ],
   "note": ""
  },
  {
   "property": "C41",
   "status": "proved",
   "theorems": [
    "RDy.C41_serial",
    "RDy.C41_parallel",
    "RDy.C41_parallel_hr",
    "RDy.C41_second_order"
   ],
   "note": ""
  },
  {
   "property": "C42",
   "status": "partial",
   "theorems": [
    "RDy.C42_volume_balance",
    "RDy.C42_thin_film_violated",
    "RDy.C42_accumulated_partial"
   ],
   "note": "The code as modelled does not meet the full statement: C42_thin_film_violated; Proved under the conditions named in the comments of: C42_accumulated_partial"
  },
  {
   "property": "C43",
   "status": "partial",
   "theorems": [
    "RDy.C43_rest_zero",
    "RDy.C43_stays",
    "RDy.C43_film_violated"
   ],
   "note": "The code as modelled does not meet the full statement: C43_film_violated"
  },
  {
   "property": "C44",
   "status": "proved",
   "theorems": [
    "RDy.C44_factor",
    "RDy.C44_dry",
    "RDy.C44_step"
   ],
   "note": ""
  },
  {
   "property": "C45",
   "status": "partial",
   "theorems": [
    "RDy.C45_implicit",
    "RDy.C45_below_threshold_partial",
    "RDy.C45_large_threshold_violated",
    "RDy.C45_zero_threshold_violated"
   ],
   "note": "The code as modelled does not meet the full statement: C45_large_threshold_violated, C45_zero_threshold_violated; Proved under the conditions named in the comments of: C45_below_threshold_partial"
  },
  {
   "property": "C46",
   "status": "partial",
   "theorems": [
    "RDy.C46_flux",
    "RDy.C46_divergence",
    "RDy.C46_stays",
    "RDy.C46_film_violated"
   ],
   "note": "The code as modelled does not meet the full statement: C46_film_violated"
  },
  {
   "property": "C47",
   "status": "proved",
   "theorems": [
    "RDy.C47_donor",
    "RDy.C47_antisymmetric"
   ],
   "note": ""
  },
  {
   "property": "C48",
   "status": "partial",
   "theorems": [
    "RDy.C48_interior",
    "RDy.C48_reflecting",
    "RDy.C48_outflow_partial",
    "RDy.C48_threshold_violated",
    "RDy.C48_outflow_dry_violated",
    "RDy.C48_outflow_anuga_violated",
    "RDy.C48_hr_partial",
    "RDy.C48_hr_anuga_violated",
    "RDy.C48_hr_step_violated",
    "RDy.C48_friction",
    "RDy.C48_friction_anuga_violated",
    "RDy.C48_tracer_partial",
    "RDy.C48_tracer_front_violated",
    "RDy.C48_tracer_dry_right_violated",
    "RDy.C48_rhs_partial"
   ],
   "note": "The code as modelled does not meet the full statement: C48_threshold_violated, C48_outflow_dry_violated, C48_outflow_anuga_violated, C48_hr_anuga_violated, C48_hr_step_violated, C48_friction_anuga_violated, C48_tracer_front_violated, C48_tracer_dry_right_violated; Proved under the conditions named in the comments of: C48_outflow_partial, C48_hr_partial, C48_tracer_partial, C48_rhs_partial"
  },
  {
   "property": "C49",
   "status": "proved",
   "theorems": [
    "RDy.C49_minmod",
    "RDy.C49_vanleer",
    "RDy.C49_no_new_extrema",
    "RDy.C49_equal",
    "RDy.C49_depths",
    "RDy.C49_orientation",
    "RDy.C49_ordered",
    "RDy.C49_vanleer_crosses",
    "RDy.C49_none_overshoots",
    "RDy.C49_second_order",
    "RDy.C49_edge",
    "RDy.C49_uniform"
   ],
   "note": ""
  },
  {
   "property": "C50",
   "status": "partial",
   "theorems": [
    "RDy.C50_least_squares",
    "RDy.C50_exact_partial",
    "RDy.C50_spanning_partial",
    "RDy.C50_constant",
    "RDy.C50_degenerate",
    "RDy.C50_spanning_violated"
   ],
   "note": "The code as modelled does not meet the full statement: C50_spanning_violated; Proved under the conditions named in the comments of: C50_exact_partial, C50_spanning_partial"
  },
  {
   "property": "C51",
   "status": "partial",
   "theorems": [
    "RDy.C51_reproduces_partial",
    "RDy.C51_two_vertices_partial",
    "RDy.C51_two_vertices_violated",
    "RDy.C51_recovers_partial",
    "RDy.C51_above",
    "RDy.C51_monotone",
    "RDy.C51_sort",
    "RDy.C51_vertex",
    "RDy.C51_flat_partial",
    "RDy.C51_dhv",
    "RDy.C51_quad_violated"
   ],
   "note": "The code as modelled does not meet the full statement: C51_two_vertices_violated, C51_quad_violated; Proved under the conditions named in the comments of: C51_reproduces_partial, C51_two_vertices_partial, C51_recovers_partial, C51_flat_partial"
  },
  {
   "property": "C52",
   "status": "partial",
   "theorems": [
    "RDy.C52_bracket",
    "RDy.C52_interpolation_between",
    "RDy.C52_after",
    "RDy.C52_active",
    "RDy.C52_before_violated",
    "RDy.C52_empty_violated",
    "RDy.C52_in_bounds"
   ],
   "note": "The code as modelled does not meet the full statement: C52_before_violated, C52_empty_violated"
  },
  {
   "property": "C53",
   "status": "partial",
   "theorems": [
    "RDy.C53_covering_partial",
    "RDy.C53_never_ahead",
    "RDy.C53_two_hour_violated",
    "RDy.C53_restart_violated"
   ],
   "note": "The code as modelled does not meet the full statement: C53_two_hour_violated, C53_restart_violated; Proved under the conditions named in the comments of: C53_covering_partial"
  },
  {
   "property": "C54",
   "status": "partial",
   "theorems": [
    "RDy.C54_unstructured",
    "RDy.C54_raster_near_partial",
    "RDy.C54_raster_partial",
    "RDy.C54_raster_pixel",
    "RDy.C54_raster_violated"
   ],
   "note": "The code as modelled does not meet the full statement: C54_raster_violated; Proved under the conditions named in the comments of: C54_raster_near_partial, C54_raster_partial"
  },
  {
   "property": "C55",
   "status": "partial",
   "theorems": [
    "RDy.C55_rain",
    "RDy.C55_rain_active",
    "RDy.C55_boundary",
    "RDy.C55_multi_partial",
    "RDy.C55_multi_violated",
    "RDy.C55_multi_interpolation_violated"
   ],
   "note": "The code as modelled does not meet the full statement: C55_multi_violated, C55_multi_interpolation_violated; Proved under the conditions named in the comments of: C55_multi_partial"
  },
  {
   "property": "C56",
   "status": "partial",
   "theorems": [
    "RDy.C56_map",
    "RDy.C56_capacity",
    "RDy.C56_long_names_violated",
    "RDy.C56_sequence",
    "RDy.C56_fields_reach_parts",
    "RDy.C56_late_part_violated"
   ],
   "note": "The code as modelled does not meet the full statement: C56_long_names_violated, C56_late_part_violated"
  },
  {
   "property": "C57",
   "status": "partial",
   "theorems": [
    "RDy.C57_map",
    "RDy.C57_parent",
    "RDy.C57_no_cells_violated",
    "RDy.C57_region_cells_partial",
    "RDy.C57_partition_partial",
    "RDy.C57_ghosts_violated",
    "RDy.C57_region_owned"
   ],
   "note": "The code as modelled does not meet the full statement: C57_no_cells_violated, C57_ghosts_violated; Proved under the conditions named in the comments of: C57_region_cells_partial, C57_partition_partial"
  },
  {
   "property": "C58",
   "status": "proved",
   "theorems": [
    "RDy.C58_prolongation",
    "RDy.C58_round_trip",
    "RDy.C58_volume",
    "RDy.C58_restriction_unweighted",
    "RDy.C58_chain",
    "RDy.C58_ancestor"
   ],
   "note": ""
  },
  {
   "property": "C59",
   "status": "partial",
   "theorems": [
    "RDy.C59_ceed_follows_last_request",
    "RDy.C59_first_finalize_frees_all",
    "RDy.C59_second_cycle_leak_violated"
   ],
   "note": "The code as modelled does not meet the full statement: C59_second_cycle_leak_violated"
  },
  {
   "property": "C60",
   "status": "proved",
   "theorems": [
    "RDy.C60_translate",
    "RDy.C60_triangle",
    "RDy.C60_quad",
    "RDy.C60_rotate",
    "RDy.C60_rectangle"
   ],
   "note": ""
  },
  {
   "property": "C61",
   "status": "proved",
   "theorems": [
    "RDy.C61_supercritical_left",
    "RDy.C61_supercritical_right"
   ],
   "note": ""
  },
  {
   "property": "C62",
   "status": "partial",
   "theorems": [
    "RDy.C62_wave_speed_partial",
    "RDy.C62_wave_speed_violated"
   ],
   "note": "The code as modelled does not meet the full statement: C62_wave_speed_violated; Proved under the conditions named in the comments of: C62_wave_speed_partial"
  },
  {
   "property": "C63",
   "status": "proved",
   "theorems": [
    "RDy.C63_outflow"
   ],
   "note": ""
  },
  {
   "property": "C64",
   "status": "partial",
   "theorems": [
    "RDy.C64_step",
    "RDy.C64_stays",
    "RDy.C64_roe_violated"
   ],
   "note": "The code as modelled does not meet the full statement: C64_roe_violated"
  },
  {
   "property": "C65",
   "status": "proved",
   "theorems": [
    "RDy.C65_balance",
    "RDy.C65_closed"
   ],
   "note": ""
  },
  {
   "property": "C66",
   "status": "partial",
   "theorems": [
    "RDy.C66_exchange",
    "RDy.C66_negative_violated",
    "RDy.C66_dry_source_violated",
    "RDy.C66_backends_partial"
   ],
   "note": "The code as modelled does not meet the full statement: C66_negative_violated, C66_dry_source_violated; Proved under the conditions named in the comments of: C66_backends_partial"
  },
  {
   "property": "C67",
   "status": "partial",
   "theorems": [
    "RDy.C67_serial_partial",
    "RDy.C67_parallel_violated"
   ],
   "note": "The code as modelled does not meet the full statement: C67_parallel_violated; Proved under the conditions named in the comments of: C67_serial_partial"
  },
  {
   "property": "C68",
   "status": "partial",
   "theorems": [
    "RDy.C68_petsc",
    "RDy.C68_ceed_partial",
    "RDy.C68_ceed_violated"
   ],
   "note": "The code as modelled does not meet the full statement: C68_ceed_violated; Proved under the conditions named in the comments of: C68_ceed_partial"
  },
  {
   "property": "C69",
   "status": "partial",
   "theorems": [
    "RDy.C69_sediment_partial",
    "RDy.C69_backend_violated"
   ],
   "note": "The code as modelled does not meet the full statement: C69_backend_violated; Proved under the conditions named in the comments of: C69_sediment_partial"
  },
  {
   "property": "C70",
   "status": "partial",
   "theorems": [
    "RDy.C70_flat_partial",
    "RDy.C70_uneven_violated"
   ],
   "note": "The code as modelled does not meet the full statement: C70_uneven_violated; Proved under the conditions named in the comments of: C70_flat_partial"
  },
  {
   "property": "C71",
   "status": "partial",
   "theorems": [
    "RDy.C71_single_partial",
    "RDy.C71_no_region_violated",
    "RDy.C71_other_regions",
    "RDy.C71_multi_violated",
    "RDy.C71_multi_partial"
   ],
   "note": "The code as modelled does not meet the full statement: C71_no_region_violated, C71_multi_violated; Proved under the conditions named in the comments of: C71_single_partial, C71_multi_partial"
  },
  {
   "property": "C72",
   "status": "proved",
   "theorems": [
    "RDy.C72_match",
    "RDy.C72_single"
   ],
   "note": ""
  },
  {
   "property": "C73",
   "status": "partial",
   "theorems": [
    "RDy.C73_cell",
    "RDy.C73_independent",
    "RDy.C73_defined",
    "RDy.C73_run",
    "RDy.C73_ceed_partial",
    "RDy.C73_ceed_independent_partial",
    "RDy.C73_owned_first_iff",
    "RDy.C73_ceed_numbering_violated"
   ],
   "note": "The code as modelled does not meet the full statement: C73_ceed_numbering_violated; Proved under the conditions named in the comments of: C73_ceed_partial, C73_ceed_independent_partial"
  },
  {
   "property": "C74",
   "status": "partial",
   "theorems": [
    "RDy.C74_dry_cell",
    "RDy.C74_rest_partial",
    "RDy.C74_courant_violated"
   ],
   "note": "The code as modelled does not meet the full statement: C74_courant_violated; Proved under the conditions named in the comments of: C74_rest_partial"
  },
  {
   "property": "C75",
   "status": "partial",
   "theorems": [
    "RDy.C75_dirichlet",
    "RDy.C75_errors",
    "RDy.C75_petsc_fluxes",
    "RDy.C75_ceed_fluxes_partial",
    "RDy.C75_ceed_fluxes_violated"
   ],
   "note": "The code as modelled does not meet the full statement: C75_ceed_fluxes_violated; Proved under the conditions named in the comments of: C75_ceed_fluxes_partial"
  },
  {
   "property": "C76",
   "status": "partial",
   "theorems": [
    "RDy.C76_roe",
    "RDy.C76_rhs",
    "RDy.C76_ceed",
    "RDy.C76_datum",
    "RDy.C76_normal",
    "RDy.C76_slopes",
    "RDy.C76_gradient",
    "RDy.C76_second_order_partial",
    "RDy.C76_second_order_violated"
   ],
   "note": "The code as modelled does not meet the full statement: C76_second_order_violated; Proved under the conditions named in the comments of: C76_second_order_partial"
  },
  {
   "property": "C77",
   "status": "proved",
   "theorems": [
    "RDy.C77_uniform_flow",
    "RDy.C77_downhill",
    "RDy.C77_manning",
    "RDy.C77_manning_xq"
   ],
   "note": ""
  },
  {
   "property": "C78",
   "status": "partial",
   "theorems": [
    "RDy.C78_interior_inputs",
    "RDy.C78_interior_outputs_partial",
    "RDy.C78_hr_violated",
    "RDy.C78_boundary_flow",
    "RDy.C78_boundary_inputs_partial",
    "RDy.C78_dirichlet_violated",
    "RDy.C78_boundary_outputs_partial",
    "RDy.C78_reflecting_flux_violated",
    "RDy.C78_dry_courant_violated",
    "RDy.C78_source",
    "RDy.C78_eta_partial"
   ],
   "note": "The code as modelled does not meet the full statement: C78_hr_violated, C78_dirichlet_violated, C78_reflecting_flux_violated, C78_dry_courant_violated; Proved under the conditions named in the comments of: C78_interior_outputs_partial, C78_boundary_inputs_partial, C78_boundary_outputs_partial, C78_eta_partial"
  },
  {
   "property": "C79",
   "status": "partial",
   "theorems": [
    "RDy.C79_time_step_partial",
    "RDy.C79_sum_partial",
    "RDy.C79_number_partial",
    "RDy.C79_boundary_only_partial",
    "RDy.C79_violated",
    "RDy.C79_accumulates_violated"
   ],
   "note": "The code as modelled does not meet the full statement: C79_violated, C79_accumulates_violated; Proved under the conditions named in the comments of: C79_time_step_partial, C79_sum_partial, C79_number_partial, C79_boundary_only_partial"
  },
  {
   "property": "C80",
   "status": "partial",
   "theorems": [
    "RDy.C80_arrays_partial",
    "RDy.C80_sediment_only",
    "RDy.C80_violated"
   ],
   "note": "The code as modelled does not meet the full statement: C80_violated; Proved under the conditions named in the comments of: C80_arrays_partial"
  },
  {
   "property": "C81",
   "status": "partial",
   "theorems": [
    "RDy.C81_accepted",
    "RDy.C81_written",
    "RDy.C81_only",
    "RDy.C81_metadata",
    "RDy.C81_computed",
    "RDy.C81_default",
    "RDy.C81_salinity_violated"
   ],
   "note": "The code as modelled does not meet the full statement: C81_salinity_violated"
  },
  {
   "property": "C82",
   "status": "partial",
   "theorems": [
    "RDy.C82_formula_partial",
    "RDy.C82_regularised_violated",
    "RDy.C82_backends_partial",
    "RDy.C82_backends_violated",
    "RDy.C82_last_stage",
    "RDy.C82_lag",
    "RDy.C82_steady_partial",
    "RDy.C82_violated",
    "RDy.C82_tracer_hr_violated"
   ],
   "note": "The code as modelled does not meet the full statement: C82_regularised_violated, C82_backends_violated, C82_violated, C82_tracer_hr_violated; Proved under the conditions named in the comments of: C82_formula_partial, C82_backends_partial, C82_steady_partial"
  },
  {
   "property": "C83",
   "status": "partial",
   "theorems": [
    "RDy.C83_defined",
    "RDy.C83_uniform",
    "RDy.C83_stays",
    "RDy.C83_balance",
    "RDy.C83_bounds",
    "RDy.C83_bounds_stay",
    "RDy.C83_rest_tracers",
    "RDy.C83_rest_flow",
    "RDy.C83_sources",
    "RDy.C83_obstacle",
    "RDy.C83_ceed_partial",
    "RDy.C83_waterfall_violated",
    "RDy.C83_solver_violated"
   ],
   "note": "The code as modelled does not meet the full statement: C83_waterfall_violated, C83_solver_violated; Proved under the conditions named in the comments of: C83_ceed_partial"
  },
  {
   "property": "C84",
   "status": "partial",
   "theorems": [
    "RDy.C84_passive",
    "RDy.C84_partial",
    "RDy.C84_hr_interior",
    "RDy.C84_anuga_violated"
   ],
   "note": "The code as modelled does not meet the full statement: C84_anuga_violated; Proved under the conditions named in the comments of: C84_partial"
  },
  {
   "property": "C85",
   "status": "partial",
   "theorems": [
    "RDy.C85_owned_gradients",
    "RDy.C85_gradients",
    "RDy.C85_states",
    "RDy.C85_interior",
    "RDy.C85_defined",
    "RDy.C85_ceed_partial",
    "RDy.C85_rhs",
    "RDy.C85_run",
    "RDy.C85_volume",
    "RDy.C85_first_order",
    "RDy.C85_strip",
    "RDy.C85_backends_partial",
    "RDy.C85_degenerate_partial",
    "RDy.C85_step_defined",
    "RDy.C85_warning_violated",
    "RDy.C85_ceed_numbering_violated"
   ],
   "note": "The code as modelled does not meet the full statement: C85_warning_violated, C85_ceed_numbering_violated; Proved under the conditions named in the comments of: C85_ceed_partial, C85_backends_partial, C85_degenerate_partial"
  },
  {
   "property": "C86",
   "status": "partial",
   "theorems": [
    "RDy.C86_next_hour",
    "RDy.C86_files",
    "RDy.C86_name",
    "RDy.C86_covering_partial",
    "RDy.C86_names_distinct",
    "RDy.C86_invalid_start_violated",
    "RDy.C86_summer_time_partial",
    "RDy.C86_summer_time_violated",
    "RDy.C86_stamp_partial",
    "RDy.C86_stamp_violated",
    "RDy.C86_stamps_distinct"
   ],
   "note": "The code as modelled does not meet the full statement: C86_invalid_start_violated, C86_summer_time_violated, C86_stamp_violated; Proved under the conditions named in the comments of: C86_covering_partial, C86_summer_time_partial, C86_stamp_partial"
  },
  {
   "property": "C87",
   "status": "partial",
   "theorems": [
    "RDy.C87_rain_partial",
    "RDy.C87_boundary_partial",
    "RDy.C87_ignored_violated",
    "RDy.C87_truncated_violated",
    "RDy.C87_map_files_partial",
    "RDy.C87_map_files_violated",
    "RDy.C87_boundary_map_violated"
   ],
   "note": "The code as modelled does not meet the full statement: C87_ignored_violated, C87_truncated_violated, C87_map_files_violated, C87_boundary_map_violated; Proved under the conditions named in the comments of: C87_rain_partial, C87_boundary_partial, C87_map_files_partial"
  },
  {
   "property": "C88",
   "status": "partial",
   "theorems": [
    "RDy.C88_accept",
    "RDy.C88_unstructured_partial",
    "RDy.C88_first_file",
    "RDy.C88_mesh_dimension",
    "RDy.C88_mesh_points_violated",
    "RDy.C88_later_file_violated",
    "RDy.C88_stride_violated",
    "RDy.C88_raster_header",
    "RDy.C88_raster_partial",
    "RDy.C88_raster_short_violated",
    "RDy.C88_map_round_trip",
    "RDy.C88_map_size",
    "RDy.C88_read_map_violated"
   ],
   "note": "The code as modelled does not meet the full statement: C88_mesh_points_violated, C88_later_file_violated, C88_stride_violated, C88_raster_short_violated, C88_read_map_violated; Proved under the conditions named in the comments of: C88_unstructured_partial, C88_raster_partial"
  },
  {
   "property": "C89",
   "status": "partial",
   "theorems": [
    "RDy.C89_substitute",
    "RDy.C89_every_text",
    "RDy.C89_unchanged",
    "RDy.C89_total",
    "RDy.C89_two_patterns_violated",
    "RDy.C89_prefix_partial",
    "RDy.C89_prefix_violated",
    "RDy.C89_directory_partial",
    "RDy.C89_directory_violated"
   ],
   "note": "The code as modelled does not meet the full statement: C89_two_patterns_violated, C89_prefix_violated, C89_directory_violated; Proved under the conditions named in the comments of: C89_prefix_partial, C89_directory_partial"
  },
  {
   "property": "C90",
   "status": "partial",
   "theorems": [
    "RDy.C90_user_wins",
    "RDy.C90_configured",
    "RDy.C90_format",
    "RDy.C90_checkpoint",
    "RDy.C90_cgns_partial",
    "RDy.C90_cgns_violated",
    "RDy.C90_second_run_partial",
    "RDy.C90_second_run_violated"
   ],
   "note": "The code as modelled does not meet the full statement: C90_cgns_violated, C90_second_run_violated; Proved under the conditions named in the comments of: C90_cgns_partial, C90_second_run_partial"
  },
  {
   "property": "C91",
   "status": "proved",
   "theorems": [
    "RDy.C91_flow",
    "RDy.C91_sediment",
    "RDy.C91_friction",
    "RDy.C91_operator",
    "RDy.C91_shipped"
   ],
   "note": ""
  },
  {
   "property": "C92",
   "status": "partial",
   "theorems": [
    "RDy.C92_sources_partial",
    "RDy.C92_region_violated",
    "RDy.C92_several_regions",
    "RDy.C92_solution",
    "RDy.C92_norms",
    "RDy.C92_norms_zero",
    "RDy.C92_rate",
    "RDy.C92_verdict",
    "RDy.C92_exact_violated",
    "RDy.C92_salinity_violated",
    "RDy.C92_times_partial",
    "RDy.C92_times_unit_violated",
    "RDy.C92_times_steps_violated",
    "RDy.C92_times_option_violated"
   ],
   "note": "The code as modelled does not meet the full statement: C92_region_violated, C92_exact_violated, C92_salinity_violated, C92_times_unit_violated, C92_times_steps_violated, C92_times_option_violated; Proved under the conditions named in the comments of: C92_sources_partial, C92_times_partial"
  },
  {
   "property": "C93",
   "status": "partial",
   "theorems": [
    "RDy.C93_fresh_partial",
    "RDy.C93_message_violated",
    "RDy.C93_restart_partial",
    "RDy.C93_restart_series_violated",
    "RDy.C93_refine_violated",
    "RDy.C93_read_violated",
    "RDy.C93_refine_partial",
    "RDy.C93_after_end_violated",
    "RDy.C93_reinitialize_partial",
    "RDy.C93_reinitialize_violated",
    "RDy.C93_refine_first_violated"
   ],
   "note": "The code as modelled does not meet the full statement: C93_message_violated, C93_restart_series_violated, C93_refine_violated, C93_read_violated, C93_after_end_violated, C93_reinitialize_violated, C93_refine_first_violated; Proved under the conditions named in the comments of: C93_fresh_partial, C93_restart_partial, C93_refine_partial, C93_reinitialize_partial"
  },
  {
   "property": "C94",
   "status": "partial",
   "theorems": [
    "RDy.C94_clock_partial",
    "RDy.C94_clock_violated",
    "RDy.C94_marked",
    "RDy.C94_unmarked_violated",
    "RDy.C94_unmarked_partial",
    "RDy.C94_marks_violated",
    "RDy.C94_marks_partial",
    "RDy.C94_values_partial",
    "RDy.C94_values_violated",
    "RDy.C94_rain_violated",
    "RDy.C94_elevation_violated"
   ],
   "note": "The code as modelled does not meet the full statement: C94_clock_violated, C94_unmarked_violated, C94_marks_violated, C94_values_violated, C94_rain_violated, C94_elevation_violated; Proved under the conditions named in the comments of: C94_clock_partial, C94_unmarked_partial, C94_marks_partial, C94_values_partial"
  },
  {
   "property": "C95",
   "status": "partial",
   "theorems": [
    "RDy.C95_context",
    "RDy.C95_map_before_refinement_violated",
    "RDy.C95_context_partial",
    "RDy.C95_not_setup",
    "RDy.C95_sediment_violated",
    "RDy.C95_salinity_violated",
    "RDy.C95_marks_violated",
    "RDy.C95_operator_partial",
    "RDy.C95_operator_violated",
    "RDy.C95_output",
    "RDy.C95_output_partial",
    "RDy.C95_viewers_violated",
    "RDy.C95_observations_violated",
    "RDy.C95_forcing",
    "RDy.C95_forcing_partial",
    "RDy.C95_map_violated"
   ],
   "note": "The code as modelled does not meet the full statement: C95_map_before_refinement_violated, C95_sediment_violated, C95_salinity_violated, C95_marks_violated, C95_operator_violated, C95_viewers_violated, C95_observations_violated, C95_map_violated; Proved under the conditions named in the comments of: C95_context_partial, C95_operator_partial, C95_output_partial, C95_forcing_partial"
  },
  {
   "property": "C96",
   "status": "partial",
   "theorems": [
    "RDy.C96_cells",
    "RDy.C96_vertices",
    "RDy.C96_edges",
    "RDy.C96_agreement",
    "RDy.C96_nonmanifold_violated",
    "RDy.C96_vertex_numbers_partial",
    "RDy.C96_empty_violated",
    "RDy.C96_roots_violated",
    "RDy.C96_refined_numbers",
    "RDy.C96_coordinates",
    "RDy.C96_natural",
    "RDy.C96_numbers_violated"
   ],
   "note": "The code as modelled does not meet the full statement: C96_nonmanifold_violated, C96_empty_violated, C96_roots_violated, C96_numbers_violated; Proved under the conditions named in the comments of: C96_vertex_numbers_partial"
  },
  {
   "property": "C97",
   "status": "partial",
   "theorems": [
    "RDy.C97_clock",
    "RDy.C97_continue_partial",
    "RDy.C97_rain_memoryless",
    "RDy.C97_through_file",
    "RDy.C97_on_disk",
    "RDy.C97_last_checkpoint_violated",
    "RDy.C97_overshoot_violated",
    "RDy.C97_any_step_partial",
    "RDy.C97_forcing_shift_violated",
    "RDy.C97_hourly_violated",
    "RDy.C97_mean_violated"
   ],
   "note": "The code as modelled does not meet the full statement: C97_last_checkpoint_violated, C97_overshoot_violated, C97_forcing_shift_violated, C97_hourly_violated, C97_mean_violated; Proved under the conditions named in the comments of: C97_continue_partial, C97_any_step_partial"
  },
  {
   "property": "C98",
   "status": "partial",
   "theorems": [
    "RDy.C98_options_partial",
    "RDy.C98_options_violated",
    "RDy.C98_files",
    "RDy.C98_marked",
    "RDy.C98_time_partial",
    "RDy.C98_time_violated",
    "RDy.C98_refinement_ends",
    "RDy.C98_box",
    "RDy.C98_box_violated"
   ],
   "note": "The code as modelled does not meet the full statement: C98_options_violated, C98_time_violated, C98_box_violated; Proved under the conditions named in the comments of: C98_options_partial, C98_time_partial"
  },
  {
   "property": "C99",
   "status": "partial",
   "theorems": [
    "RDy.C99_text",
    "RDy.C99_text_violated",
    "RDy.C99_faithful_partial",
    "RDy.C99_version_violated",
    "RDy.C99_convergence_violated",
    "RDy.C99_boundaries",
    "RDy.C99_time_units",
    "RDy.C99_build_configuration_violated",
    "RDy.C99_restarted_partial",
    "RDy.C99_restarted_violated",
    "RDy.C99_init"
   ],
   "note": "The code as modelled does not meet the full statement: C99_text_violated, C99_version_violated, C99_convergence_violated, C99_build_configuration_violated, C99_restarted_violated; Proved under the conditions named in the comments of: C99_faithful_partial, C99_restarted_partial"
  },
  {
   "property": "C100",
   "status": "partial",
   "theorems": [
    "RDy.C100_bathymetry_partial",
    "RDy.C100_bathymetry_violated",
    "RDy.C100_boundaries",
    "RDy.C100_before_step_partial",
    "RDy.C100_salinity_violated",
    "RDy.C100_roughness_partial",
    "RDy.C100_roughness_violated",
    "RDy.C100_error_time_partial",
    "RDy.C100_error_time_violated",
    "RDy.C100_levels_partial",
    "RDy.C100_levels_violated",
    "RDy.C100_study",
    "RDy.C100_after_study_violated",
    "RDy.C100_two_runs_violated"
   ],
   "note": "The code as modelled does not meet the full statement: C100_bathymetry_violated, C100_salinity_violated, C100_roughness_violated, C100_error_time_violated, C100_levels_violated, C100_after_study_violated, C100_two_runs_violated; Proved under the conditions named in the comments of: C100_bathymetry_partial, C100_before_step_partial, C100_roughness_partial, C100_error_time_partial, C100_levels_partial"
  },
  {
   "property": "C101",
   "status": "partial",
   "theorems": [
    "RDy.C101_off",
    "RDy.C101_same_partial",
    "RDy.C101_fixed_step",
    "RDy.C101_steps_violated",
    "RDy.C101_fluxes_violated"
   ],
   "note": "The code as modelled does not meet the full statement: C101_steps_violated, C101_fluxes_violated; Proved under the conditions named in the comments of: C101_same_partial"
  },
  {
   "property": "C102",
   "status": "partial",
   "theorems": [
    "RDy.C102_regions",
    "RDy.C102_absent_region_violated",
    "RDy.C102_initial_conditions_partial",
    "RDy.C102_unknown_tracer_violated",
    "RDy.C102_temperature_type_violated",
    "RDy.C102_sources_partial",
    "RDy.C102_ignored_source_violated",
    "RDy.C102_values_partial",
    "RDy.C102_value_violated",
    "RDy.C102_boundary_file_violated",
    "RDy.C102_runoff_violated",
    "RDy.C102_malformed_violated"
   ],
   "note": "The code as modelled does not meet the full statement: C102_absent_region_violated, C102_unknown_tracer_violated, C102_temperature_type_violated, C102_ignored_source_violated, C102_value_violated, C102_boundary_file_violated, C102_runoff_violated, C102_malformed_violated; Proved under the conditions named in the comments of: C102_initial_conditions_partial, C102_sources_partial, C102_values_partial"
  },
  {
   "property": "C103",
   "status": "partial",
   "theorems": [
    "RDy.C103_options",
    "RDy.C103_boundary_options",
    "RDy.C103_options_violated",
    "RDy.C103_rain_option_violated",
    "RDy.C103_lookup",
    "RDy.C103_raster_values",
    "RDy.C103_unstructured_values",
    "RDy.C103_raster_map_partial",
    "RDy.C103_far_cell_violated",
    "RDy.C103_unstructured_map",
    "RDy.C103_map_read_partial",
    "RDy.C103_map_read_violated",
    "RDy.C103_map_file_violated",
    "RDy.C103_next_hour_partial",
    "RDy.C103_files_partial",
    "RDy.C103_leap_day_violated",
    "RDy.C103_time_unit_violated",
    "RDy.C103_same_run_partial",
    "RDy.C103_stopped_violated",
    "RDy.C103_open_unstructured",
    "RDy.C103_homogeneous_rain",
    "RDy.C103_homogeneous_boundary",
    "RDy.C103_next_values",
    "RDy.C103_no_cells"
   ],
   "note": "The code as modelled does not meet the full statement: C103_options_violated, C103_rain_option_violated, C103_far_cell_violated, C103_map_read_violated, C103_map_file_violated, C103_leap_day_violated, C103_time_unit_violated, C103_stopped_violated; Proved under the conditions named in the comments of: C103_raster_map_partial, C103_map_read_partial, C103_next_hour_partial, C103_files_partial, C103_same_run_partial"
  },
  {
   "property": "C104",
   "status": "partial",
   "theorems": [
    "RDy.C104_flux_partial",
    "RDy.C104_reflecting",
    "RDy.C104_friction",
    "RDy.C104_rhs_partial",
    "RDy.C104_run_partial",
    "RDy.C104_balance",
    "RDy.C104_closed",
    "RDy.C104_uniform_partial",
    "RDy.C104_uniform_violated",
    "RDy.C104_dry_boundary_violated",
    "RDy.C104_salinity_violated"
   ],
   "note": "The code as modelled does not meet the full statement: C104_uniform_violated, C104_dry_boundary_violated, C104_salinity_violated; Proved under the conditions named in the comments of: C104_flux_partial, C104_rhs_partial, C104_run_partial, C104_uniform_partial"
  },
  {
   "property": "C105",
   "status": "partial",
   "theorems": [
    "RDy.C105_refs_partial",
    "RDy.C105_restart_partial",
    "RDy.C105_no_grid_violated",
    "RDy.C105_mixed_violated",
    "RDy.C105_stamp_violated",
    "RDy.C105_time",
    "RDy.C105_time_distinct_partial",
    "RDy.C105_time_violated"
   ],
   "note": "The code as modelled does not meet the full statement: C105_no_grid_violated, C105_mixed_violated, C105_stamp_violated, C105_time_violated; Proved under the conditions named in the comments of: C105_refs_partial, C105_restart_partial, C105_time_distinct_partial"
  },
  {
   "property": "C106",
   "status": "partial",
   "theorems": [
    "RDy.C106_mesh_order",
    "RDy.C106_distribution",
    "RDy.C106_refined_partial",
    "RDy.C106_refined_violated",
    "RDy.C106_geometry_partial",
    "RDy.C106_area_violated",
    "RDy.C106_elevation_violated"
   ],
   "note": "The code as modelled does not meet the full statement: C106_refined_violated, C106_area_violated, C106_elevation_violated; Proved under the conditions named in the comments of: C106_refined_partial, C106_geometry_partial"
  },
  {
   "property": "C107",
   "status": "partial",
   "theorems": [
    "RDy.C107_cell_partial",
    "RDy.C107_independent_partial",
    "RDy.C107_defined_partial",
    "RDy.C107_run_partial",
    "RDy.C107_roughness_violated",
    "RDy.C107_ceed_partial",
    "RDy.C107_ceed_rhs_partial",
    "RDy.C107_ceed_independent_partial",
    "RDy.C107_ceed_violated"
   ],
   "note": "The code as modelled does not meet the full statement: C107_roughness_violated, C107_ceed_violated; Proved under the conditions named in the comments of: C107_cell_partial, C107_independent_partial, C107_defined_partial, C107_run_partial, C107_ceed_partial, C107_ceed_rhs_partial, C107_ceed_independent_partial"
  },
  {
   "property": "C108",
   "status": "proved",
   "theorems": [
    "RDy.C108_create",
    "RDy.C108_results",
    "RDy.C108_history",
    "RDy.C108_boundary_fluxes",
    "RDy.C108_nan",
    "RDy.C108_tracer_create",
    "RDy.C108_tracer_results",
    "RDy.C108_tracer_history",
    "RDy.C108_tracer_boundary_fluxes",
    "RDy.C108_tracer_room"
   ],
   "note": ""
  },
  {
   "property": "C109",
   "status": "proved",
   "theorems": [
    "RDy.C109_counts",
    "RDy.C109_create",
    "RDy.C109_results",
    "RDy.C109_whole_mesh",
    "RDy.C109_history"
   ],
   "note": ""
  },
  {
   "property": "C110",
   "status": "partial",
   "theorems": [
    "RDy.C110_defined",
    "RDy.C110_divergence",
    "RDy.C110_flux_partial",
    "RDy.C110_courant_partial",
    "RDy.C110_series_partial",
    "RDy.C110_one_step_partial",
    "RDy.C110_flux_violated",
    "RDy.C110_series_violated",
    "RDy.C110_rows_violated"
   ],
   "note": "The code as modelled does not meet the full statement: C110_flux_violated, C110_series_violated, C110_rows_violated; Proved under the conditions named in the comments of: C110_flux_partial, C110_courant_partial, C110_series_partial, C110_one_step_partial"
  },
  {
   "property": "C111",
   "status": "partial",
   "theorems": [
    "RDy.C111_numbering",
    "RDy.C111_defined",
    "RDy.C111_cells",
    "RDy.C111_covered",
    "RDy.C111_no_history",
    "RDy.C111_rhs",
    "RDy.C111_backends_partial",
    "RDy.C111_processes_partial"
   ],
   "note": "Proved under the conditions named in the comments of: C111_backends_partial, C111_processes_partial"
  },
  {
   "property": "C112",
   "status": "proved",
   "theorems": [
    "RDy.C112_create",
    "RDy.C112_results",
    "RDy.C112_history",
    "RDy.C112_output",
    "RDy.C112_rest"
   ],
   "note": ""
  },
  {
   "property": "C113",
   "status": "partial",
   "theorems": [
    "RDy.C113_defined",
    "RDy.C113_divergence",
    "RDy.C113_rhs",
    "RDy.C113_rest",
    "RDy.C113_courant_partial",
    "RDy.C113_courant_violated",
    "RDy.C113_no_waves"
   ],
   "note": "The code as modelled does not meet the full statement: C113_courant_violated; Proved under the conditions named in the comments of: C113_courant_partial"
  },
  {
   "property": "C114",
   "status": "partial",
   "theorems": [
    "RDy.C114_defined",
    "RDy.C114_divergence",
    "RDy.C114_numbers",
    "RDy.C114_whole_mesh_partial",
    "RDy.C114_courant_violated"
   ],
   "note": "The code as modelled does not meet the full statement: C114_courant_violated; Proved under the conditions named in the comments of: C114_whole_mesh_partial"
  },
  {
   "property": "C115",
   "status": "partial",
   "theorems": [
    "RDy.C115_accepted",
    "RDy.C115_file",
    "RDy.C115_kept",
    "RDy.C115_count",
    "RDy.C115_processes_partial",
    "RDy.C115_numbering_violated"
   ],
   "note": "The code as modelled does not meet the full statement: C115_numbering_violated; Proved under the conditions named in the comments of: C115_processes_partial"
  },
  {
   "property": "C116",
   "status": "partial",
   "theorems": [
    "RDy.C116_defined_partial",
    "RDy.C116_divergence",
    "RDy.C116_flux_partial",
    "RDy.C116_speed",
    "RDy.C116_courant_partial",
    "RDy.C116_dry_violated",
    "RDy.C116_wall_flux_violated",
    "RDy.C116_many_tracers_violated"
   ],
   "note": "The code as modelled does not meet the full statement: C116_dry_violated, C116_wall_flux_violated, C116_many_tracers_violated; Proved under the conditions named in the comments of: C116_defined_partial, C116_flux_partial, C116_courant_partial"
  },
  {
   "property": "C117",
   "status": "partial",
   "theorems": [
    "RDy.C117_defined_partial",
    "RDy.C117_cells",
    "RDy.C117_no_history",
    "RDy.C117_rhs",
    "RDy.C117_backends_partial",
    "RDy.C117_many_tracers_violated",
    "RDy.C117_imex_violated",
    "RDy.C117_salinity_violated"
   ],
   "note": "The code as modelled does not meet the full statement: C117_many_tracers_violated, C117_imex_violated, C117_salinity_violated; Proved under the conditions named in the comments of: C117_defined_partial, C117_backends_partial"
  },
  {
   "property": "C118",
   "status": "proved",
   "theorems": [
    "RDy.C118_vectors",
    "RDy.C118_ceed",
    "RDy.C118_tracers",
    "RDy.C118_petsc",
    "RDy.C118_defined",
    "RDy.C118_errors"
   ],
   "note": ""
  },
  {
   "property": "C119",
   "status": "partial",
   "theorems": [
    "RDy.C119_ceed",
    "RDy.C119_tracers",
    "RDy.C119_petsc",
    "RDy.C119_petsc_tracers",
    "RDy.C119_setters",
    "RDy.C119_flow_setter",
    "RDy.C119_petsc_setters",
    "RDy.C119_petsc_flow_setter",
    "RDy.C119_ignored",
    "RDy.C119_wall_violated"
   ],
   "note": "The code as modelled does not meet the full statement: C119_wall_violated"
  },
  {
   "property": "C120",
   "status": "partial",
   "theorems": [
    "RDy.C120_ceed_accepts",
    "RDy.C120_petsc_accepts",
    "RDy.C120_ceed_partial",
    "RDy.C120_petsc_partial",
    "RDy.C120_backends_partial",
    "RDy.C120_petsc_salinity",
    "RDy.C120_kernels",
    "RDy.C120_upwind_violated",
    "RDy.C120_salinity_bs2002_violated",
    "RDy.C120_elevation_violated",
    "RDy.C120_sediment_elevation_violated",
    "RDy.C120_no_boundary_violated"
   ],
   "note": "The code as modelled does not meet the full statement: C120_upwind_violated, C120_salinity_bs2002_violated, C120_elevation_violated, C120_sediment_elevation_violated, C120_no_boundary_violated; Proved under the conditions named in the comments of: C120_ceed_partial, C120_petsc_partial, C120_backends_partial"
  },
  {
   "property": "C121",
   "status": "partial",
   "theorems": [
    "RDy.C121_create",
    "RDy.C121_results_partial",
    "RDy.C121_history",
    "RDy.C121_output",
    "RDy.C121_output_violated",
    "RDy.C121_rest",
    "RDy.C121_undefined_violated",
    "RDy.C121_beds_violated"
   ],
   "note": "The code as modelled does not meet the full statement: C121_output_violated, C121_undefined_violated, C121_beds_violated; Proved under the conditions named in the comments of: C121_results_partial"
  },
  {
   "property": "C122",
   "status": "partial",
   "theorems": [
    "RDy.C122_undefined_iff",
    "RDy.C122_seen",
    "RDy.C122_defined_partial",
    "RDy.C122_one_backend_partial",
    "RDy.C122_switch_violated"
   ],
   "note": "The code as modelled does not meet the full statement: C122_switch_violated; Proved under the conditions named in the comments of: C122_defined_partial, C122_one_backend_partial"
  },
  {
   "property": "C123",
   "status": "partial",
   "theorems": [
    "RDy.C123_member_path",
    "RDy.C123_path_round_trip",
    "RDy.C123_ensemble_output_partial",
    "RDy.C123_single_output_partial",
    "RDy.C123_exists",
    "RDy.C123_order",
    "RDy.C123_checkpoints_partial",
    "RDy.C123_refused",
    "RDy.C123_common_file",
    "RDy.C123_file_violated",
    "RDy.C123_race_violated"
   ],
   "note": "The code as modelled does not meet the full statement: C123_file_violated, C123_race_violated; Proved under the conditions named in the comments of: C123_ensemble_output_partial, C123_single_output_partial, C123_checkpoints_partial"
  },
  {
   "property": "C124",
   "status": "proved",
   "theorems": [
    "RDy.C124_flux",
    "RDy.C124_rhs",
    "RDy.C124_scalars",
    "RDy.C124_datum",
    "RDy.C124_flux_ceed",
    "RDy.C124_ceed",
    "RDy.C124_datum_ceed"
   ],
   "note": ""
  },
  {
   "property": "C125",
   "status": "partial",
   "theorems": [
    "RDy.C125_boundaries",
    "RDy.C125_division",
    "RDy.C125_defined",
    "RDy.C125_starts_iff_partial",
    "RDy.C125_too_many_processes_violated",
    "RDy.C125_stray_violated"
   ],
   "note": "The code as modelled does not meet the full statement: C125_too_many_processes_violated, C125_stray_violated; Proved under the conditions named in the comments of: C125_starts_iff_partial"
  },
  {
   "property": "C126",
   "status": "proved",
   "theorems": [
    "RDy.C126_defined",
    "RDy.C126_extremes",
    "RDy.C126_median",
    "RDy.C126_order",
    "RDy.C126_ratio",
    "RDy.C126_balanced",
    "RDy.C126_started"
   ],
   "note": ""
  },
  {
   "property": "C127",
   "status": "partial",
   "theorems": [
    "RDy.C127_accepted_iff",
    "RDy.C127_parsers",
    "RDy.C127_texts",
    "RDy.C127_materials_partial",
    "RDy.C127_single",
    "RDy.C127_base_checked",
    "RDy.C127_member_unchecked_violated",
    "RDy.C127_member_height_violated"
   ],
   "note": "The code as modelled does not meet the full statement: C127_member_unchecked_violated, C127_member_height_violated; Proved under the conditions named in the comments of: C127_materials_partial"
  },
  {
   "property": "C128",
   "status": "partial",
   "theorems": [
    "RDy.C128_accepted_iff",
    "RDy.C128_right_boundary",
    "RDy.C128_runs_iff",
    "RDy.C128_one_process_partial",
    "RDy.C128_unstructured",
    "RDy.C128_numbering_violated"
   ],
   "note": "The code as modelled does not meet the full statement: C128_numbering_violated; Proved under the conditions named in the comments of: C128_one_process_partial"
  }
 ]
}