{
 "claims": [
  {
   "property": "C01",
   "status": "proved",
   "theorems": [
    "MarEx.Props.C01_time_gaps_filled_exactly",
    "MarEx.Props.C01_no_filling_at_record_ends",
    "MarEx.Props.C01_zero_is_identity"
   ],
   "note": ""
  },
  {
   "property": "C02",
   "status": "proved",
   "theorems": [
    "MarEx.Props.C02_idempotent",
    "MarEx.Props.C02_monotone_extensive",
    "MarEx.Props.C02_monotone_in_Tfill"
   ],
   "note": ""
  },
  {
   "property": "C03",
   "status": "proved",
   "theorems": [
    "MarEx.Props.C03_dilation_is_hop_ball",
    "MarEx.Props.C03_table_accepted",
    "MarEx.Props.C03_powers_compose"
   ],
   "note": ""
  },
  {
   "property": "C04",
   "status": "proved",
   "theorems": [
    "MarEx.Props.C04_monotone",
    "MarEx.Props.C04_radius_zero",
    "MarEx.Props.C04_closing_extensive",
    "MarEx.Props.C04_opening_antiextensive",
    "MarEx.Props.C04_open_close_characterisation",
    "MarEx.Props.C04_idempotent_without_land"
   ],
   "note": ""
  },
  {
   "property": "C05",
   "status": "partial",
   "theorems": [
    "MarEx.Props.C05_rotation_invariance_fails",
    "MarEx.Props.C05_rotation_invariance_partial"
   ],
   "note": "C05_rotation_invariance_partial: Missing: the `2R` columns on each side of the cut. The code does not have the full property (C05_rotation_invariance_fails): on a global 12 × 12 grid without land, with `R_fill = 1`, a plus-shaped object centred on column 5 keeps its eastern arm, but rotated so that it is centred on the last column it loses that arm: the padding of `2R` columns is too narrow for a closing followed by an opening."
  },
  {
   "property": "C06",
   "status": "proved",
   "theorems": [
    "MarEx.Props.C06_never_marks_masked",
    "MarEx.Props.C06_radius_zero",
    "MarEx.Props.C06_monotone",
    "MarEx.Props.C06_invents_nothing"
   ],
   "note": ""
  },
  {
   "property": "C07",
   "status": "partial",
   "theorems": [
    "MarEx.Props.C07_keeps_exactly_large_fails",
    "MarEx.Props.C07_keeps_exactly_large_partial",
    "MarEx.Props.C07_first_object_always_lost_fails"
   ],
   "note": "The code does not have the full property (C07_keeps_exactly_large_fails): with `area_filter_absolute = 1` a record holding one object of two cells is emptied. The code does not have the full property (C07_first_object_always_lost_fails): for every record and every criterion: whenever filtering succeeds, the record's first object loses all its cells, however large it is."
  },
  {
   "property": "C08",
   "status": "proved",
   "theorems": [
    "MarEx.Props.C08_keeps_exactly_larger",
    "MarEx.Props.C08_threshold"
   ],
   "note": ""
  },
  {
   "property": "C09",
   "status": "proved",
   "theorems": [
    "MarEx.Props.C09_exactly_one_criterion"
   ],
   "note": ""
  },
  {
   "property": "C10",
   "status": "proved",
   "theorems": [
    "MarEx.Props.C10_same_object_iff_connected",
    "MarEx.Props.C10_background_zero",
    "MarEx.Props.C10_contract_satisfiable"
   ],
   "note": ""
  },
  {
   "property": "C11",
   "status": "proved",
   "theorems": [
    "MarEx.Props.C11_ids_never_repeat",
    "MarEx.Props.C11_step_order_kept",
    "MarEx.Props.C11_object_field_characterised",
    "MarEx.Props.C11_ids_contiguous"
   ],
   "note": ""
  },
  {
   "property": "C12",
   "status": "proved",
   "theorems": [
    "MarEx.Props.C12_overlap_slice_exact",
    "MarEx.Props.C12_overlap_list_exact"
   ],
   "note": ""
  },
  {
   "property": "C13",
   "status": "proved",
   "theorems": [
    "MarEx.Props.C13_final_links",
    "MarEx.Props.C13_link_iff_threshold",
    "MarEx.Props.C13_zero_area",
    "MarEx.Props.C13_monotone_in_threshold",
    "MarEx.Props.C13_symmetric"
   ],
   "note": ""
  },
  {
   "property": "C14",
   "status": "proved",
   "theorems": [
    "MarEx.Props.C14_consolidation_renames"
   ],
   "note": ""
  },
  {
   "property": "C15",
   "status": "proved",
   "theorems": [
    "MarEx.Props.C15_partition_only_relabels"
   ],
   "note": ""
  },
  {
   "property": "C16",
   "status": "proved",
   "theorems": [
    "MarEx.Props.C16_nearest_centroid"
   ],
   "note": ""
  },
  {
   "property": "C17",
   "status": "partial",
   "theorems": [
    "MarEx.Props.C17_nearest_cell_partial",
    "MarEx.Props.C17_far_cells_by_centroid",
    "MarEx.Props.C17_fails",
    "MarEx.Props.C17_seam_fails"
   ],
   "note": "C17_nearest_cell_partial: Missing: cells whose nearest parent cell is farther than one bucket size but within `R` (`C17_fails`), and periodic grids whose width is not a multiple of the bucket size (`C17_seam_fails`). The code does not have the full property (C17_fails): a row of 60 cells, child cell 20, parent 1 owns cell 39 (distance 19), parent 2 owns cell 9 (distance 11). Both are within the search radius 40, but the child cell is given to parent 1. The code does not have the full property (C17_seam_fails): at the seam of a periodic grid whose width (62) is not a multiple of the bucket size (10): child cell 2, parent 1 owns cell 13 (distance 11), parent 2 owns cell 57 (distance 7 across the seam); the child cell is given to parent 1."
  },
  {
   "property": "C18",
   "status": "proved",
   "theorems": [
    "MarEx.Props.C18_nearest_image",
    "MarEx.Props.C18_plain",
    "MarEx.Props.C18_metric_facts"
   ],
   "note": ""
  },
  {
   "property": "C19",
   "status": "partial",
   "theorems": [
    "MarEx.Props.C19_chunking_irrelevant_partial",
    "MarEx.Props.C19_fails"
   ],
   "note": "C19_chunking_irrelevant_partial: Missing: one-step chunks after the first (`C19_fails`). The code does not have the full property (C19_fails): for one-step chunks: object 1 splits into 2 and 3; in one chunk of two steps they are consolidated, in two chunks of one step they are not."
  },
  {
   "property": "C20",
   "status": "proved",
   "theorems": [
    "MarEx.Props.C20_new_ids_are_fresh"
   ],
   "note": ""
  },
  {
   "property": "C21",
   "status": "proved",
   "theorems": [
    "MarEx.Props.C21_mesh_split_merge_keeps_support",
    "MarEx.Props.C21_mesh_tracking_keeps_support",
    "MarEx.Props.C21_tracking_keeps_support",
    "MarEx.Props.C21_split_merge_keeps_support"
   ],
   "note": ""
  },
  {
   "property": "C22",
   "status": "proved",
   "theorems": [
    "MarEx.Props.C22_tracked_events",
    "MarEx.Props.C22_events_are_linked_groups"
   ],
   "note": ""
  },
  {
   "property": "C23",
   "status": "proved",
   "theorems": [
    "MarEx.Props.C23_presence_and_times"
   ],
   "note": ""
  },
  {
   "property": "C24",
   "status": "proved",
   "theorems": [
    "MarEx.Props.C24_areas"
   ],
   "note": ""
  },
  {
   "property": "C25",
   "status": "partial",
   "theorems": [
    "MarEx.Props.C25_rotates_partial",
    "MarEx.Props.C25_coarse_grid_fails",
    "MarEx.Props.C25_inner_object_fails",
    "MarEx.Props.C25_pieces_fails"
   ],
   "note": "C25_rotates_partial: Missing: objects on coarse grids and objects crossing the seam without cells near it (`C25_coarse_grid_fails`, `C25_inner_object_fails`, `C25_pieces_fails`). The code does not have the full property (C25_coarse_grid_fails): on every grid with 4 to 100 columns: an object of two neighbouring cells in the middle of the grid, at columns `nx / 2` and `nx / 2 + 1`, gets a centroid near column 0, on the opposite side of the globe. The code does not have the full property (C25_inner_object_fails): for every object that does not cross the seam, has cells within 100 columns of both edges of the grid and cells in both halves: its centroid is not the mean of its columns, not even up to whole turns. On grids of at most 396 columns (1° and coarser) there are such objects of at most half the grid, on grids of fewer than 200 columns every object across the middle is one. The code does not have the full property (C25_pieces_fails): for every event across the seam with no cell within 100 columns of it on one of its sides (an event made of separate pieces): its centroid is not where it is, not even up to whole turns."
  },
  {
   "property": "C26",
   "status": "partial",
   "theorems": [
    "MarEx.Props.C26_minus_one_iff_no_merge_partial",
    "MarEx.Props.C26_only_own_id_fails",
    "MarEx.Props.C26_siblings_fails"
   ],
   "note": "C26_minus_one_iff_no_merge_partial: Missing: that the listed IDs are those of the merging partners (`C26_siblings_fails`). The code does not have the full property (C26_only_own_id_fails): whatever the merges, every entry of the ledger of an event is -1 or the ID of the event itself, so no merging partner is ever listed. The code does not have the full property (C26_siblings_fails): on a run of the whole tracker: events 1 and 2 merge at step 1, and the ledger of event 1 is [1, 1], that of event 2 [2, 2]."
  },
  {
   "property": "C27",
   "status": "proved",
   "theorems": [
    "MarEx.Props.C27_merge_records"
   ],
   "note": ""
  },
  {
   "property": "C28",
   "status": "partial",
   "theorems": [
    "MarEx.Props.C28_ids_unique_partial",
    "MarEx.Props.C28_ids_collide_fails"
   ],
   "note": "C28_ids_unique_partial: Missing: the distance is not always enough (`C28_ids_collide_fails`). The code does not have the full property (C28_ids_collide_fails): with a time chunk of 2 the four-parent merge at step 1 needs three new IDs but only two are reserved per step, so the third one is also given out at step 2. In the result ID 10 labels a piece of object 5 at step 1 (the continuation of object 4) and a piece of object 7 at step 2 (the continuation of object 6), so an ID occurs at two steps, for two different objects."
  },
  {
   "property": "C29",
   "status": "proved",
   "theorems": [
    "MarEx.Props.C29_load_after_save",
    "MarEx.Props.C29_last_completed_save_wins"
   ],
   "note": ""
  },
  {
   "property": "C30",
   "status": "proved",
   "theorems": [
    "MarEx.Props.C30_accepts_iff",
    "MarEx.Props.C30_constructed_state",
    "MarEx.Props.C30_settings_in_force",
    "MarEx.Props.C30_regional_tracker"
   ],
   "note": ""
  },
  {
   "property": "C31",
   "status": "partial",
   "theorems": [
    "MarEx.Props.C31_full_circle_recognised_partial",
    "MarEx.Props.C31_coarse_global_grid_fails",
    "MarEx.Props.C31_narrow_degrees_taken_for_radians_fails",
    "MarEx.Props.C31_centroid_range_partial",
    "MarEx.Props.C31_centroid_range_radians_partial",
    "MarEx.Props.C31_straddling_grid_fails"
   ],
   "note": "The code does not have the full property (C31_coarse_global_grid_fails): for coarse global grids: with fewer than 360 columns (spacing above one degree) a full circle is rejected. The code does not have the full property (C31_narrow_degrees_taken_for_radians_fails): on ambiguous ranges: longitudes in degrees spanning about 6.28 degrees are silently taken for radians. The code does not have the full property (C31_straddling_grid_fails): for grids that straddle zero, such as -0.5° to 359°: a centroid at a western longitude lies outside the range of the input's longitudes."
  },
  {
   "property": "C32",
   "status": "proved",
   "theorems": [
    "MarEx.Props.C32_rolling_climatology",
    "MarEx.Props.C32_no_influence_from_target_year"
   ],
   "note": ""
  },
  {
   "property": "C33",
   "status": "partial",
   "theorems": [
    "MarEx.Props.C33_smoothing_uses_target_year_fails",
    "MarEx.Props.C33_smoothed_baseline_partial"
   ],
   "note": "C33_smoothed_baseline_partial: Missing: independence from the first half window of year `y` itself.) The code does not have the full property (C33_smoothing_uses_target_year_fails): for every smoothing width of three days or more: changing one sample of the target year (its first day) changes the smoothed baseline of that same year."
  },
  {
   "property": "C34",
   "status": "proved",
   "theorems": [
    "MarEx.Props.C34_short_record_rejected",
    "MarEx.Props.C34_trimmed_years"
   ],
   "note": ""
  },
  {
   "property": "C35",
   "status": "proved",
   "theorems": [
    "MarEx.Props.C35_fixed_baseline"
   ],
   "note": ""
  },
  {
   "property": "C36",
   "status": "proved",
   "theorems": [
    "MarEx.Props.C36_least_squares_residual",
    "MarEx.Props.C36_component_invariance",
    "MarEx.Props.C36_force_zero_mean"
   ],
   "note": ""
  },
  {
   "property": "C37",
   "status": "proved",
   "theorems": [
    "MarEx.Props.C37_extreme_iff_hobday",
    "MarEx.Props.C37_extreme_iff_constant",
    "MarEx.Props.C37_raising_thresholds"
   ],
   "note": ""
  },
  {
   "property": "C38",
   "status": "proved",
   "theorems": [
    "MarEx.Props.C38_hobday_monotone_bounded"
   ],
   "note": ""
  },
  {
   "property": "C39",
   "status": "partial",
   "theorems": [
    "MarEx.Props.C39_hobday_partial",
    "MarEx.Props.C39_hobday_one_bin_fails",
    "MarEx.Props.C39_constant_partial",
    "MarEx.Props.C39_constant_fails"
   ],
   "note": "C39_hobday_partial: Missing from the full statement: \"within one bin\", which is false, see below. C39_constant_partial: Missing: ranks that fall among the anomalies below minus one bin, where the claim is false, see below. The code does not have the full property (C39_hobday_one_bin_fails): as stated: whatever the precision and the binned range, nine anomalies of zero and one of 3.9 bins give, at the 90th percentile, a threshold of 2.5 bins, more than one bin from every value of the sample (and from every value between the two, in the linear-interpolation sense, closer to the lower one). The code does not have the full property (C39_constant_fails): for one threshold per cell: when the percentile falls among anomalies below minus one bin and all larger anomalies are in the last bin, the threshold is half of `max_anomaly` (minus one bin), however many bins that is, although the sample at the percentile is minus two bins."
  },
  {
   "property": "C40",
   "status": "proved",
   "theorems": [
    "MarEx.Props.C40_windowed_histogram",
    "MarEx.Props.C40_window_days"
   ],
   "note": ""
  },
  {
   "property": "C41",
   "status": "proved",
   "theorems": [
    "MarEx.Props.C41_hobday_floor",
    "MarEx.Props.C41_constant_floor"
   ],
   "note": ""
  },
  {
   "property": "C42",
   "status": "proved",
   "theorems": [
    "MarEx.Props.C42_exact_value",
    "MarEx.Props.C42_within_year"
   ],
   "note": ""
  },
  {
   "property": "C43",
   "status": "proved",
   "theorems": [
    "MarEx.Props.C43_validation_iff"
   ],
   "note": ""
  },
  {
   "property": "C44",
   "status": "proved",
   "theorems": [
    "MarEx.Props.C44_infer_iff"
   ],
   "note": ""
  },
  {
   "property": "C45",
   "status": "proved",
   "theorems": [
    "MarEx.Props.C45_configuration_error_iff"
   ],
   "note": ""
  },
  {
   "property": "C46",
   "status": "proved",
   "theorems": [
    "MarEx.Props.C46_repaired_chunks",
    "MarEx.Props.C46_storable_chunks_kept"
   ],
   "note": ""
  },
  {
   "property": "C47",
   "status": "partial",
   "theorems": [
    "MarEx.Props.C47_status_partial",
    "MarEx.Props.C47_status_fails",
    "MarEx.Props.C47_unknown_missing_partial",
    "MarEx.Props.C47_always_available_fails",
    "MarEx.Props.C47_profile_partial"
   ],
   "note": "C47_status_partial: Missing: the table says that every package is available, see `C47_status_fails`. C47_unknown_missing_partial: Missing: any relation to what is installed. C47_profile_partial: Missing: the checks report every known package as available. The code does not have the full property (C47_status_fails): for what is printed and warned about, in every environment: each package is listed as available, the profile as full, no suggestion is printed, and there is no warning on import or from `warn_missing_dependency`, whether jax is installed or not. The code does not have the full property (C47_always_available_fails): in every environment: each known package is reported as available even if it is not installed, requiring it never raises, no package is ever listed as missing, and the installation profile is always \"full\"."
  },
  {
   "property": "C48",
   "status": "partial",
   "theorems": [
    "MarEx.Props.C48_last_call_wins_partial",
    "MarEx.Props.C48_get_logger_resets_fails"
   ],
   "note": "C48_last_call_wins_partial: Missing: histories in which the package logger is fetched by `get_logger()` for the first time after that call. The code does not have the full property (C48_get_logger_resets_fails): for every history without `get_logger()`: the first `get_logger()` after it throws the chosen mode and level away and goes back to the settings of the environment."
  },
  {
   "property": "C49",
   "status": "proved",
   "theorems": [
    "MarEx.Props.C49_wrap_exception"
   ],
   "note": ""
  },
  {
   "property": "C50",
   "status": "partial",
   "theorems": [
    "MarEx.Props.C50_fitting_request_partial",
    "MarEx.Props.C50_not_reduced_fails",
    "MarEx.Props.C50_reduced_request_partial"
   ],
   "note": "C50_fitting_request_partial: Missing: requests that do not fit. C50_reduced_request_partial: Missing: requests for more threads than there are physical cores. The code does not have the full property (C50_not_reduced_fails): on every machine (logical cores at least as many as physical ones): a request for more threads than the machine has is started unreduced."
  },
  {
   "property": "C51",
   "status": "proved",
   "theorems": [
    "MarEx.Props.C51_time_of_present_id"
   ],
   "note": ""
  },
  {
   "property": "C52",
   "status": "proved",
   "theorems": [
    "MarEx.Props.C52_symmetric_limits",
    "MarEx.Props.C52_rejected_iff",
    "MarEx.Props.C52_type_persists",
    "MarEx.Props.C52_call_replaces_all"
   ],
   "note": ""
  },
  {
   "property": "C53",
   "status": "partial",
   "theorems": [
    "MarEx.Props.C53_filling_invents_nothing_fails",
    "MarEx.Props.C53_filling_invents_nothing_partial"
   ],
   "note": "C53_filling_invents_nothing_partial: Missing: `T_fill > 0` with `R_fill ≥ 2`, where it fails. The code does not have the full property (C53_filling_invents_nothing_fails): for the two filling stages together.** Cell 0 is the only ocean cell, next to three land cells. The input has no extreme cell at all; with `R_fill = 2`, `T_fill = 2` cell 0 is extreme at every step after the filling stages: the first stage leaves land marked, and the second one dilates the land marks into the ocean."
  },
  {
   "property": "C54",
   "status": "proved",
   "theorems": [
    "MarEx.Props.C54_regional_edges_not_joined"
   ],
   "note": ""
  },
  {
   "property": "C55",
   "status": "partial",
   "theorems": [
    "MarEx.Props.C55_degrees_untouched_partial",
    "MarEx.Props.C55_radians_overwritten_fails",
    "MarEx.Props.C55_repeated_construction_fails"
   ],
   "note": "The code does not have the full property (C55_radians_overwritten_fails): in radians: whatever else happens, the caller's longitudes and latitudes are overwritten by their values in degrees. The code does not have the full property (C55_repeated_construction_fails): for histories: after `k` trackers built with `coordinate_units='radians'` from one array, its longitudes are the originals multiplied `k` times by 180/π."
  },
  {
   "property": "C56",
   "status": "partial",
   "theorems": [
    "MarEx.Props.C56_fewest_hops_fails",
    "MarEx.Props.C56_at_most_three_times_partial",
    "MarEx.Props.C56_connected_cells_partial",
    "MarEx.Props.C56_beyond_search",
    "MarEx.Props.C56_gap_fails"
   ],
   "note": "C56_at_most_three_times_partial: Missing: the assigned parent is the one with the fewest hops (`C56_fewest_hops_fails`). C56_connected_cells_partial: Missing: the parent is the one with the fewest hops (`C56_fewest_hops_fails`). The code does not have the full property (C56_fewest_hops_fails): cells 0–1–2–3 and 5–4–3 are two paths of a mesh; parent 0 owns cell 0, three hops from cell 3, and parent 1 owns cell 5, two hops from cell 3; cell 3 is given to parent 0. The code does not have the full property (C56_gap_fails): when there is a gap: if every child cell that no parent overlaps is four or more hops away from every parent, the search stops after its first round and every such cell goes to the great-circle choice `far`, however many hops that parent is away."
  },
  {
   "property": "C57",
   "status": "proved",
   "theorems": [
    "MarEx.Props.C57_table_exact_after_split_merge"
   ],
   "note": ""
  },
  {
   "property": "C58",
   "status": "proved",
   "theorems": [
    "MarEx.Props.C58_in_range",
    "MarEx.Props.C58_rotates",
    "MarEx.Props.C58_single_cell",
    "MarEx.Props.C58_direction"
   ],
   "note": ""
  },
  {
   "property": "C59",
   "status": "partial",
   "theorems": [
    "MarEx.Props.C59_remainder_one_fails",
    "MarEx.Props.C59_result_depends_on_chunks_fails",
    "MarEx.Props.C59_no_merges_partial"
   ],
   "note": "C59_no_merges_partial: Missing: records with merges, for which both parts of C59 fail, see above. The code does not have the full property (C59_remainder_one_fails): on every record: if the number of time steps leaves a remainder of 1 when divided by the chunk length (or the chunk length is 1), and the record contains at least one merge, tracking on a mesh raises an error, whatever the data. The code does not have the full property (C59_result_depends_on_chunks_fails): for the results too: the record gives different objects with chunks of 2 and of 4 steps (object 7 is split along a different boundary and into different IDs)."
  },
  {
   "property": "C60",
   "status": "proved",
   "theorems": [
    "MarEx.Props.C60_ends_converged"
   ],
   "note": ""
  },
  {
   "property": "C61",
   "status": "proved",
   "theorems": [
    "MarEx.Props.C61_mode_selection",
    "MarEx.Props.C61_load_repeatable",
    "MarEx.Props.C61_no_checkpoint_no_files"
   ],
   "note": ""
  },
  {
   "property": "C62",
   "status": "proved",
   "theorems": [
    "MarEx.Props.C62_fraction_in_range",
    "MarEx.Props.C62_mesh_fraction"
   ],
   "note": ""
  },
  {
   "property": "C63",
   "status": "proved",
   "theorems": [
    "MarEx.Props.C63_grid_objects_are_components",
    "MarEx.Props.C63_grid_ids_unique"
   ],
   "note": ""
  },
  {
   "property": "C64",
   "status": "proved",
   "theorems": [
    "MarEx.Props.C64_no_merging_events"
   ],
   "note": ""
  },
  {
   "property": "C65",
   "status": "proved",
   "theorems": [
    "MarEx.Props.C65_grid_run",
    "MarEx.Props.C65_mesh_run"
   ],
   "note": ""
  },
  {
   "property": "C66",
   "status": "partial",
   "theorems": [
    "MarEx.Props.C66_cell_area_partial",
    "MarEx.Props.C66_areas_sum_to_sphere_partial",
    "MarEx.Props.C66_pole_rows_have_no_area_fails",
    "MarEx.Props.C66_area_positive_partial"
   ],
   "note": "The code does not have the full property (C66_pole_rows_have_no_area_fails): at the poles: a row centred on a pole (as on grids from 90° to -90°) gets area zero for every resolution."
  },
  {
   "property": "C67",
   "status": "proved",
   "theorems": [
    "MarEx.Props.C67_orders_accepted_iff"
   ],
   "note": ""
  },
  {
   "property": "C68",
   "status": "proved",
   "theorems": [
    "MarEx.Props.C68_standardisation_window",
    "MarEx.Props.C68_standardised_anomalies"
   ],
   "note": ""
  },
  {
   "property": "C69",
   "status": "partial",
   "theorems": [
    "MarEx.Props.C69_hobday_data_monotone_partial",
    "MarEx.Props.C69_hobday_beyond_range_fails",
    "MarEx.Props.C69_constant_beyond_range_fails",
    "MarEx.Props.C69_constant_within_range_fails"
   ],
   "note": "C69_hobday_data_monotone_partial: Missing: anomalies beyond `max_anomaly`, where the claim is false, see below. The code does not have the full property (C69_hobday_beyond_range_fails): (day-of-year thresholds): if all anomalies reach one bin beyond `max_anomaly` there is no threshold on any day and nothing is extreme, at any percentile: anomalies beyond the binned range are not counted at all. The code does not have the full property (C69_constant_beyond_range_fails): (one threshold per cell): if all anomalies exceed `max_anomaly` by more than a bin the threshold is one bin, the smallest possible, and every time step is extreme. The code does not have the full property (C69_constant_within_range_fails): (one threshold per cell) even inside the binned range: raising a single anomaly from minus two bins to minus half a bin can lower the threshold from about half of `max_anomaly` to one bin."
  },
  {
   "property": "C70",
   "status": "proved",
   "theorems": [
    "MarEx.Props.C70_local_influence",
    "MarEx.Props.C70_window_cells"
   ],
   "note": ""
  },
  {
   "property": "C71",
   "status": "partial",
   "theorems": [
    "MarEx.Props.C71_zero_anomaly_partial",
    "MarEx.Props.C71_exact_constant_fails"
   ],
   "note": "C71_zero_anomaly_partial: Missing: the exact method, where the claim is false, see below. The code does not have the full property (C71_exact_constant_fails): with the exact method: a cell with any constant anomaly (zero included) is extreme at every time step, for both definitions, every percentile and every window."
  },
  {
   "property": "C72",
   "status": "partial",
   "theorems": [
    "MarEx.Props.C72_hobday_missing_partial",
    "MarEx.Props.C72_missing_removes_all_fails"
   ],
   "note": "C72_hobday_missing_partial: Missing: the first step. The code does not have the full property (C72_missing_removes_all_fails): one missing anomaly at the first step (day-of-year thresholds) or at any step (one threshold per cell) removes every extreme of the cell, whatever the rest of the record."
  },
  {
   "property": "C73",
   "status": "partial",
   "theorems": [
    "MarEx.Props.C73_recorded_window_partial",
    "MarEx.Props.C73_default_window_not_recorded_fails",
    "MarEx.Props.C73_steps_tell_the_call"
   ],
   "note": "C73_recorded_window_partial: Missing: the default window on grids. The code does not have the full property (C73_default_window_not_recorded_fails): for the default: on every grid, with every accepted parameter set that leaves the spatial window to its default, thresholds are pooled over 5×5 cells and the metadata say that no spatial neighbours were used."
  },
  {
   "property": "C74",
   "status": "partial",
   "theorems": [
    "MarEx.Props.C74_extremes_in_mask_partial",
    "MarEx.Props.C74_exact_fails",
    "MarEx.Props.C74_shifting_fails"
   ],
   "note": "C74_extremes_in_mask_partial: Missing: the fixed baseline with the exact method and the shifting baseline, where the claim is false, see below. The code does not have the full property (C74_exact_fails): for the exact method: for every value and every percentile, a cell outside the ocean mask has an extreme. The code does not have the full property (C74_shifting_fails): for the shifting baseline even with the approximate method: the mask is taken before the first years are cut off, the thresholds after."
  },
  {
   "property": "C75",
   "status": "partial",
   "theorems": [
    "MarEx.Props.C75_percentile_range_partial",
    "MarEx.Props.C75_above_100_fails"
   ],
   "note": "C75_percentile_range_partial: Missing: percentiles above 100 with the approximate method. The code does not have the full property (C75_above_100_fails): with the approximate method every percentile above 100 is accepted, on every data set."
  },
  {
   "property": "C76",
   "status": "partial",
   "theorems": [
    "MarEx.Props.C76_anomaly_exists_partial",
    "MarEx.Props.C76_day_366_fails",
    "MarEx.Props.C76_one_year_window_fails"
   ],
   "note": "C76_anomaly_exists_partial: Missing from the documented behaviour (\"the first `W` years are removed\", so that all later steps of a complete record have anomalies): the two cases below. The code does not have the full property (C76_day_366_fails): for days that the years before do not have: with a window of up to three years, the last day of a leap year (day 366) has no anomaly even in complete data. The code does not have the full property (C76_one_year_window_fails): for a one-year window: if the second year starts on the day of year on which the record starts (a record of whole years does), its first step has no anomaly, and so, with the approximate method, no cell has any extreme at any time."
  },
  {
   "property": "C77",
   "status": "partial",
   "theorems": [
    "MarEx.Props.C77_switches_partial",
    "MarEx.Props.C77_unset_switch_fails"
   ],
   "note": "The code does not have the full property (C77_unset_switch_fails): with one switch given, the other is taken from the environment, not from the mode in force: a user who selected verbose mode and calls a function with `quiet=False` is put back into normal mode."
  },
  {
   "property": "C78",
   "status": "proved",
   "theorems": [
    "MarEx.Props.C78_text_shows_all",
    "MarEx.Props.C78_text_lines",
    "MarEx.Props.C78_codes_distinguish",
    "MarEx.Props.C78_codes_published",
    "MarEx.Props.C78_additions_stored"
   ],
   "note": ""
  },
  {
   "property": "C79",
   "status": "partial",
   "theorems": [
    "MarEx.Props.C79_context_of_exception",
    "MarEx.Props.C79_context_untouched_partial",
    "MarEx.Props.C79_context_changed_fails"
   ],
   "note": "The code does not have the full property (C79_context_changed_fails): whenever the extra information brings a new key, the dict the caller passed as `context` is changed."
  },
  {
   "property": "C80",
   "status": "partial",
   "theorems": [
    "MarEx.Props.C80_wraps_global_partial",
    "MarEx.Props.C80_closed_grid_fails",
    "MarEx.Props.C80_single_column_fails",
    "MarEx.Props.C80_descending_fails"
   ],
   "note": "C80_wraps_global_partial: Missing: see the `_fails` theorems. The code does not have the full property (C80_closed_grid_fails): for grids that contain both ends (0° and 360°): the longitude 360° after the first is already there and is added a second time. The code does not have the full property (C80_single_column_fails): for data with a single longitude: the plot raises an IndexError. The code does not have the full property (C80_descending_fails): for decreasing longitudes: global data are never wrapped."
  },
  {
   "property": "C81",
   "status": "partial",
   "theorems": [
    "MarEx.Props.C81_panels_partial",
    "MarEx.Props.C81_one_step_fails"
   ],
   "note": "C81_panels_partial: Missing: one step. The code does not have the full property (C81_one_step_fails): for one step, whatever `col_wrap`: the call raises."
  },
  {
   "property": "C82",
   "status": "partial",
   "theorems": [
    "MarEx.Props.C82_distinct_colours_partial",
    "MarEx.Props.C82_refused_fails"
   ],
   "note": "C82_distinct_colours_partial: Missing: no objects, fewer colours than objects. The code does not have the full property (C82_refused_fails): for an ID field without objects (the colour norm of zero bins is refused), and for a colour map with fewer colours than there are objects (for example any standard map of 256 colours with 257 objects)."
  },
  {
   "property": "C83",
   "status": "partial",
   "theorems": [
    "MarEx.Props.C83_fresh_partial",
    "MarEx.Props.C83_stale_fails"
   ],
   "note": "The code does not have the full property (C83_stale_fails): a grid file rewritten after it was used once is not read again: the plot shows the old grid."
  },
  {
   "property": "C84",
   "status": "partial",
   "theorems": [
    "MarEx.Props.C84_limits_of_data_partial",
    "MarEx.Props.C84_sampled_fails"
   ],
   "note": "C84_limits_of_data_partial: Missing: the values at the other steps, so C84 holds for records of one step only. The code does not have the full property (C84_sampled_fails): the automatic limits do not depend on the steps between every tenth step at all; two records that agree on the steps 0, 10, 20, … get the same limits, however different their other values."
  },
  {
   "property": "C85",
   "status": "partial",
   "theorems": [
    "MarEx.Props.C85_split_among_exactly_the_parents",
    "MarEx.Props.C85_too_many_parents_fails",
    "MarEx.Props.C85_table_sizes_fails",
    "MarEx.Props.C85_succeeds_within_limits_partial",
    "MarEx.Props.C85_step_records_exact",
    "MarEx.Props.C85_more_than_20_merges_fails",
    "MarEx.Props.C85_more_than_20_handed_on_fails",
    "MarEx.Props.C85_cells_follow_parents_partial",
    "MarEx.Props.C85_exact_tie_fails",
    "MarEx.Props.C85_piece_still_merged_fails"
   ],
   "note": "C85_succeeds_within_limits_partial: Missing: larger merges (`C85_too_many_parents_fails`, `C85_table_sizes_fails`). The code does not have the full property (C85_too_many_parents_fails): for large merges: processing stops with \"too many parent objects\" exactly when ten objects with enough overlap are followed, in the order of the IDs, by one more object that shares a cell with the child — even if that one does not overlap enough. The code does not have the full property (C85_table_sizes_fails): at the sizes of the fixed tables: with at least two parents, processing raises if the step has 20 merges already, or if the step would have more than 255 new objects. The code does not have the full property (C85_more_than_20_merges_fails): for a step with many merges: if more than 20 of the queued objects have two or more parents, processing the step raises. The code does not have the full property (C85_more_than_20_handed_on_fails): at the end of a chunk: the objects of the next step that the last step of a chunk made ambiguous are handed to the next chunk in a table of 20. Up to 20 distinct ones are handed on, each once; with more the run raises. The code does not have the full property (C85_exact_tie_fails): at an exact tie: objects 1 and 2 merge into 3, which is split into 3 and 5; object 4 of the next step overlaps each of the two pieces by exactly the threshold (1 cell of 2). It is not looked at again, so in the result object 4 still has the two parents 3 and 5. The code does not have the full property (C85_piece_still_merged_fails): for the pieces: object 4 (cells 0–3) has the parents 1 and 2; object 3 (three cells) shares one cell with it, less than half. After the split the piece 4 has two cells, one of them on object 3, which is now half of the piece. Pieces are not looked at again, so in the result object 4 still has the two parents 1 and 3."
  },
  {
   "property": "C86",
   "status": "proved",
   "theorems": [
    "MarEx.Props.C86_exact_days",
    "MarEx.Props.C86_exact_constant",
    "MarEx.Props.C86_constant_thresholds",
    "MarEx.Props.C86_exact_thresholds"
   ],
   "note": ""
  },
  {
   "property": "C87",
   "status": "partial",
   "theorems": [
    "MarEx.Props.C87_open_close_partial",
    "MarEx.Props.C87_edge_fails",
    "MarEx.Props.C87_window_partial"
   ],
   "note": "C87_open_close_partial: Missing: the `2R` rows and columns next to the edges, where it is false (`C05_rotation_invariance_fails`, `C87_edge_fails`). C87_window_partial: Missing for C87: the window should reach `4R` cells (`C87_edge_fails`). The code does not have the full property (C87_edge_fails): next to the edges: on a global 12 × 12 grid a plus of five cells centred on the last column is its own closing and opening by a disc of radius one, but hole filling removes its cell in the first column."
  },
  {
   "property": "C88",
   "status": "proved",
   "theorems": [
    "MarEx.Props.C88_day_means_zero",
    "MarEx.Props.C88_removed",
    "MarEx.Props.C88_trend_invariance",
    "MarEx.Props.C88_force_zero_mean"
   ],
   "note": ""
  },
  {
   "property": "C89",
   "status": "proved",
   "theorems": [
    "MarEx.Props.C89_mask_is_complete_series"
   ],
   "note": ""
  },
  {
   "property": "C90",
   "status": "proved",
   "theorems": [
    "MarEx.Props.C90_accepted_methods",
    "MarEx.Props.C90_unknown_rejected",
    "MarEx.Props.C90_parameters_used",
    "MarEx.Props.C90_cycle_fitted"
   ],
   "note": ""
  },
  {
   "property": "C91",
   "status": "proved",
   "theorems": [
    "MarEx.Props.C91_steps_of_output"
   ],
   "note": ""
  },
  {
   "property": "C92",
   "status": "proved",
   "theorems": [
    "MarEx.Props.C92_event_count_grid",
    "MarEx.Props.C92_event_count_mesh",
    "MarEx.Props.C92_event_coordinate",
    "MarEx.Props.C92_tracked_count"
   ],
   "note": ""
  },
  {
   "property": "C93",
   "status": "partial",
   "theorems": [
    "MarEx.Props.C93_dataset_rows_partial",
    "MarEx.Props.C93_many_parents_fails"
   ],
   "note": "C93_dataset_rows_partial: Missing: merges of more than 127 objects. The code does not have the full property (C93_many_parents_fails): for merges of more than 127 objects: an 8-bit count cannot hold their number, so the dataset is not built or its row gives another number."
  },
  {
   "property": "C94",
   "status": "proved",
   "theorems": [
    "MarEx.Props.C94_precedence",
    "MarEx.Props.C94_default_values"
   ],
   "note": ""
  },
  {
   "property": "C95",
   "status": "proved",
   "theorems": [
    "MarEx.Props.C95_request",
    "MarEx.Props.C95_memory_checked"
   ],
   "note": ""
  },
  {
   "property": "C96",
   "status": "proved",
   "theorems": [
    "MarEx.Props.C96_reported_port",
    "MarEx.Props.C96_usual_link"
   ],
   "note": ""
  },
  {
   "property": "C97",
   "status": "partial",
   "theorems": [
    "MarEx.Props.C97_timing_transparent_partial",
    "MarEx.Props.C97_zero_duration_fails",
    "MarEx.Props.C97_decorated_call_partial",
    "MarEx.Props.C97_unshowable_argument_fails",
    "MarEx.Props.C97_memory_partial",
    "MarEx.Props.C97_memory_unreadable_fails"
   ],
   "note": "C97_timing_transparent_partial: Missing: verbose mode on a clock that does not advance, where the property fails (`C97_zero_duration_fails`). C97_decorated_call_partial: Missing: arguments that cannot be shown (`C97_unshowable_argument_fails`). C97_memory_partial: Missing: see `C97_memory_unreadable_fails`. The code does not have the full property (C97_zero_duration_fails): in verbose mode, a computation that succeeds within the resolution of the clock is turned into a failure: the closing line divides by the time taken. The code does not have the full property (C97_unshowable_argument_fails): if one of the logged arguments cannot be shown, the decorated function is never entered and the caller gets the exception of the showing, whatever the function would have returned. The code does not have the full property (C97_memory_unreadable_fails): when the memory of the process cannot be read (on some systems psutil is not permitted to), in every mode: a step that logs it is not run at all, or its result is lost."
  },
  {
   "property": "C98",
   "status": "proved",
   "theorems": [
    "MarEx.Props.C98_messages_once",
    "MarEx.Props.C98_after_switch"
   ],
   "note": ""
  },
  {
   "property": "C99",
   "status": "proved",
   "theorems": [
    "MarEx.Props.C99_grid_events_without_gaps"
   ],
   "note": ""
  },
  {
   "property": "C100",
   "status": "proved",
   "theorems": [
    "MarEx.Props.C100_accepts_iff",
    "MarEx.Props.C100_error_lists_missing",
    "MarEx.Props.C100_plotter"
   ],
   "note": ""
  },
  {
   "property": "C101",
   "status": "proved",
   "theorems": [
    "MarEx.Props.C101_returned_movie",
    "MarEx.Props.C101_movie",
    "MarEx.Props.C101_failing_frame",
    "MarEx.Props.C101_grid_movie",
    "MarEx.Props.C101_frames_set_up_iff",
    "MarEx.Props.C101_no_ffmpeg",
    "MarEx.Props.C101_returned_path",
    "MarEx.Props.C101_even_size"
   ],
   "note": ""
  },
  {
   "property": "C102",
   "status": "partial",
   "theorems": [
    "MarEx.Props.C102_frame_is_panel_partial",
    "MarEx.Props.C102_global_seam_fails",
    "MarEx.Props.C102_projection_fails",
    "MarEx.Props.C102_names_fails",
    "MarEx.Props.C102_mesh_frames_fails",
    "MarEx.Props.C102_mesh_one_step_fails"
   ],
   "note": "C102_frame_is_panel_partial: Missing: data all around the globe, other projections, other names (see the `_fails` theorems). The code does not have the full property (C102_global_seam_fails): around the globe: where a panel has the extra column that closes the globe, the frame of the same step has not. The code does not have the full property (C102_projection_fails): for projections: a frame is drawn under the Robinson projection whatever the configuration says. The code does not have the full property (C102_names_fails): for other names: on data without coordinates called \"lat\" and \"lon\" no frame can be made, although single plots with the right mapping work. The code does not have the full property (C102_mesh_frames_fails): for a mesh with a triangulation only: single plots work, but no frame can be made; and without any grid file a movie without colour bar is made of empty maps, where a single plot would raise. The code does not have the full property (C102_mesh_one_step_fails): for a single step of a mesh that still has its time dimension: it cannot be plotted with either file (on a regular grid such a step is plotted)."
  },
  {
   "property": "C103",
   "status": "proved",
   "theorems": [
    "MarEx.Props.C103_single_plot",
    "MarEx.Props.C103_single_plot_made_iff",
    "MarEx.Props.C103_panels_share_scale",
    "MarEx.Props.C103_panels_made_iff",
    "MarEx.Props.C103_frames_share_scale",
    "MarEx.Props.C103_id_scale"
   ],
   "note": ""
  },
  {
   "property": "C104",
   "status": "proved",
   "theorems": [
    "MarEx.Props.C104_markers",
    "MarEx.Props.C104_marker_count"
   ],
   "note": ""
  },
  {
   "property": "C105",
   "status": "proved",
   "theorems": [
    "MarEx.Props.C105_plot_pure"
   ],
   "note": ""
  },
  {
   "property": "C106",
   "status": "partial",
   "theorems": [
    "MarEx.Props.C106_user_settings_replaced_fails",
    "MarEx.Props.C106_rejected_call_configures_fails"
   ],
   "note": "The code does not have the full property (C106_user_settings_replaced_fails): the two functions that start a cluster configure dask with the defaults of the package and no settings of the caller. Whatever the user had set before (`dask.config.set`, a configuration file), starting a local cluster replaces it for every setting in the table of defaults – also when the call then fails. The code does not have the full property (C106_rejected_call_configures_fails): `start_distributed_cluster` checks the memory of the nodes after it has configured dask: a call that is rejected starts nothing, and yet leaves every default of the package in the configuration."
  },
  {
   "property": "C107",
   "status": "partial",
   "theorems": [
    "MarEx.Props.C107_nodes_reported_fails",
    "MarEx.Props.C107_missing_jobqueue_fails",
    "MarEx.Props.C107_switches_ignored_fails"
   ],
   "note": "The code does not have the full property (C107_nodes_reported_fails): the number of nodes that the call reports is too small whenever the workers do not fill the nodes: with `perNode` workers to a job, the reported number of jobs does not hold the workers asked for. The code does not have the full property (C107_missing_jobqueue_fails): without the package `dask_jobqueue` the call is meant to stop with an ImportError naming it. It never does: the dependency is always reported as available, dask is configured, and the call ends in a TypeError. The code does not have the full property (C107_switches_ignored_fails): the switches `verbose` and `quiet` of `start_distributed_cluster` have no effect."
  },
  {
   "property": "C108",
   "status": "partial",
   "theorems": [
    "MarEx.Props.C108_unnamed_port_leaks_fails"
   ],
   "note": "The code does not have the full property (C108_unnamed_port_leaks_fails): when the dashboard link names no port (a proxied dashboard such as `https://hub/user/x/proxy/8787/status`), starting a local cluster raises after the workers were started: the cluster runs and the caller has no client to close it with."
  },
  {
   "property": "C109",
   "status": "partial",
   "theorems": [
    "MarEx.Props.C109_log_file_dropped_fails"
   ],
   "note": "The code does not have the full property (C109_log_file_dropped_fails): a log file asked for by the user is given up as soon as a package function is called with `verbose` or `quiet`, or the mode is switched: after that no message of any level reaches any file, unless MAREX_LOG_FILE is set."
  },
  {
   "property": "C110",
   "status": "partial",
   "theorems": [
    "MarEx.Props.C110_mesh_events_without_gaps_partial",
    "MarEx.Props.C110_mesh_gap_fails"
   ],
   "note": "C110_mesh_events_without_gaps_partial: Missing: records whose new object IDs repeat in time (`C28_ids_collide_fails`), for which one event can be made of objects that never overlap. The code does not have the full property (C110_mesh_gap_fails): (and C22 with it) on meshes: the merge of eight objects at step 1 takes seven new IDs, two are reserved per step, and the last one is given out again at step 4. The last event found then lies at cell 14 at steps 0 and 1, is absent at step 2 and lies at cell 2 at steps 3 and 4."
  },
  {
   "property": "C111",
   "status": "partial",
   "theorems": [
    "MarEx.Props.C111_mesh_tracked_events_partial"
   ],
   "note": "C111_mesh_tracked_events_partial: Missing: that the IDs are always unique in time, which is false (`C28_ids_collide_fails`)."
  },
  {
   "property": "C112",
   "status": "partial",
   "theorems": [
    "MarEx.Props.C112_mesh_parents_exist",
    "MarEx.Props.C112_mesh_merge_records",
    "MarEx.Props.C112_mesh_stale_parent_fails"
   ],
   "note": "The code does not have the full property (C112_mesh_stale_parent_fails): Meshes: a record can name a parent that does not touch the child in the final field. In the example the record of step 2 says that object 7 merged from 5 and 6, but in the final field (see `C28_ids_collide_fails`) object 5 is at cells 0–1 and object 7 at cells 6–7."
  },
  {
   "property": "C113",
   "status": "partial",
   "theorems": [
    "MarEx.Props.C113_mesh_centroid_partition_raises_fails"
   ],
   "note": "The code does not have the full property (C113_mesh_centroid_partition_raises_fails): on meshes: writing the labels back raises an error (one label per mesh cell is assigned to the object's cells only) exactly when the merged object does not cover the whole mesh, so that no object of practical size is partitioned. If it covers the mesh, every cell gets the child ID of its closest parent."
  },
  {
   "property": "C114",
   "status": "partial",
   "theorems": [
    "MarEx.Props.C114_mesh_ignores_allow_merging_fails",
    "MarEx.Props.C114_mesh_touching_cells_two_events_fails"
   ],
   "note": "The code does not have the full property (C114_mesh_ignores_allow_merging_fails): on meshes: `allow_merging` is ignored there, the run with merging switched off is the run with merging. The code does not have the full property (C114_mesh_touching_cells_two_events_fails): on meshes, in terms of events: with `allow_merging=False` two touching cells of consecutive steps (cell 10 at step 1 and cell 11 at step 2, neighbours of each other and both extreme in the preprocessed field) carry different event IDs."
  },
  {
   "property": "C115",
   "status": "partial",
   "theorems": [
    "MarEx.Props.C115_regional_wrap_fails"
   ],
   "note": "The code does not have the full property (C115_regional_wrap_fails): on regional grids: the westernmost column takes part of its samples from the easternmost one. Whatever the width of the region and the precision, the first column's 70th percentile depends on the anomaly of the last column."
  },
  {
   "property": "C116",
   "status": "partial",
   "theorems": [
    "MarEx.Props.C116_approximate_days_partial",
    "MarEx.Props.C116_approximate_constant_partial",
    "MarEx.Props.C116_missed_extreme_fails"
   ],
   "note": "C116_approximate_days_partial: Missing: agreement to one bin (`C39_hobday_one_bin_fails`), samples at or beyond `max_anomaly`, percentile 100 and windows of one day or more than two years. C116_approximate_constant_partial: Missing: cells with other values, where `t` can be far off (`C39_constant_fails`). The code does not have the full property (C116_missed_extreme_fails): for the default method, by any number of bins: of nine anomalies of a day, eight zero and one of `K` bins, the 95th percentile is 0.6 `K` bins, yet the step with `K` bins is not extreme: its value is 0.4 `K` bins above the percentile and below the histogram's threshold. With the default precision of 0.01 and range of 5, `K = 499` gives an anomaly of 4.99 that is not extreme although the percentile is 2.994."
  },
  {
   "property": "C117",
   "status": "partial",
   "theorems": [
    "MarEx.Props.C117_constant_monotone_bounded_partial",
    "MarEx.Props.C117_decimal_percentiles",
    "MarEx.Props.C117_other_percentiles_fails"
   ],
   "note": "C117_constant_monotone_bounded_partial: Missing from the full statement: percentiles that sit exactly 10⁻¹⁰ above a cumulative fraction, where the code's comparisons `>=` and `<` disagree. The code does not have the full property (C117_other_percentiles_fails): for other percentiles: six samples lie below the histogram and four in its last bin. At the 60th percentile the threshold is 3/2; at a percentile less than 10⁻⁸ above, which is exactly 10⁻¹⁰ (of a whole) above the fraction of the first bin, it is 1."
  },
  {
   "property": "C118",
   "status": "partial",
   "theorems": [
    "MarEx.Props.C118_mesh_shortcut_fails",
    "MarEx.Props.C118_panels_names_fails"
   ],
   "note": "The code does not have the full property (C118_mesh_shortcut_fails): for the shortcuts `single_plot`, `multi_plot` and `animate` of the accessor, which pass no mappings: on data without a dimension \"lat\", so on every mesh, they raise, whatever the grid settings say. The code does not have the full property (C118_panels_names_fails): for `multi_plot` with names of one's own: it makes a second plotter with the default names, so it raises on all data without dimensions called \"lat\" and \"lon\", although the plotter it is called on is fine."
  },
  {
   "property": "C119",
   "status": "partial",
   "theorems": [
    "MarEx.Props.C119_named_map_fails"
   ],
   "note": "The code does not have the full property (C119_named_map_fails): for plots of IDs with a colour map given by name, which `PlotConfig` allows: they raise."
  },
  {
   "property": "C120",
   "status": "partial",
   "theorems": [
    "MarEx.Props.C120_attributes_partial",
    "MarEx.Props.C120_input_overrides_fails",
    "MarEx.Props.C120_mesh_merges_unreported_fails"
   ],
   "note": "C120_attributes_partial: Missing: input attributes of these names. The code does not have the full property (C120_input_overrides_fails): for inputs that carry an attribute of a name used in the report, such as the output of an earlier run: whatever the run did, the value reported under that name is the input's. The code does not have the full property (C120_mesh_merges_unreported_fails): on meshes with merging switched off: merges are carried out all the same (`C114_mesh_ignores_allow_merging_fails`), and none of the four merge attributes is reported."
  },
  {
   "property": "C121",
   "status": "partial",
   "theorems": [
    "MarEx.Props.C121_second_run_fails"
   ],
   "note": "The code does not have the full property (C121_second_run_fails): a tracker can be run only once. After any run that did not load (with whatever result), every further run that does not load raises `AttributeError`, because the input was deleted by the first."
  },
  {
   "property": "C122",
   "status": "partial",
   "theorems": [
    "MarEx.Props.C122_negative_gap_accepted_fails"
   ],
   "note": "The code does not have the full property (C122_negative_gap_accepted_fails): for the range of the gap length: a negative even `T_fill` is accepted in every supported configuration."
  },
  {
   "property": "C123",
   "status": "partial",
   "theorems": [
    "MarEx.Props.C123_rejections_partial",
    "MarEx.Props.C123_key_error_fails"
   ],
   "note": "The code does not have the full property (C123_key_error_fails): in one corner: a mapping with neither x nor y and no coordinates (a plain time series) raises KeyError instead of the documented DataValidationError, for every data set."
  },
  {
   "property": "C124",
   "status": "partial",
   "theorems": [
    "MarEx.Props.C124_fraction_partial",
    "MarEx.Props.C124_one_object_fails",
    "MarEx.Props.C124_mesh_equal_objects_fails",
    "MarEx.Props.C124_nothing_kept_raises_fails",
    "MarEx.Props.C124_fraction_of_kept_fails",
    "MarEx.Props.C124_all_at_threshold_fails"
   ],
   "note": "C124_fraction_partial: Missing: equality with the kept share (`C124_fraction_of_kept_fails`, `C124_all_at_threshold_fails`) and records of which nothing is kept (`C124_nothing_kept_raises_fails`, `C124_one_object_fails`). The code does not have the full property (C124_one_object_fails): for every record of a structured grid that has a single object after filling: the object is lost and the statistics raise a division by zero, whatever its size and whatever the criterion. The code does not have the full property (C124_mesh_equal_objects_fails): on meshes for every record whose objects of more than 50 cells all have the same size, whatever the quartile: none is kept and the statistics raise a division by zero. The code does not have the full property (C124_nothing_kept_raises_fails): when nothing survives the filter: the statistics raise `ZeroDivisionError`, so the tracker ends with an unrelated error instead of an empty result. The code does not have the full property (C124_fraction_of_kept_fails): at the threshold: a record with objects of 4 cells each and `area_filter_absolute = 4`: the grid filter keeps two of the three objects, but the reported accepted area fraction is 0. The code does not have the full property (C124_all_at_threshold_fails): for every record whose largest objects have exactly the threshold area: the grid filter keeps objects at the threshold (C07), but the reported accepted area fraction is 0."
  },
  {
   "property": "C125",
   "status": "partial",
   "theorems": [
    "MarEx.Props.C125_one_day_window_fails"
   ],
   "note": "The code does not have the full property (C125_one_day_window_fails): for a window of one day (odd, so accepted by the argument checks): the computation raises for every data set."
  },
  {
   "property": "C126",
   "status": "partial",
   "theorems": [
    "MarEx.Props.C126_gap_years_fails"
   ],
   "note": "The code does not have the full property (C126_gap_years_fails): for records with missing years: whatever the window `W`, a record holding only its first year and the year `W` years later gets a \"`W`-year\" baseline made of a single sample, although the documentation promises a missing value when there is not enough history."
  },
  {
   "property": "C127",
   "status": "partial",
   "theorems": [
    "MarEx.Props.C127_reported_count_quartile",
    "MarEx.Props.C127_reported_count_absolute_partial",
    "MarEx.Props.C127_reported_count_absolute_fails"
   ],
   "note": "C127_reported_count_absolute_partial: Missing: thresholds below 5, where `C127_reported_count_absolute_fails`. The code does not have the full property (C127_reported_count_absolute_fails): for small absolute thresholds: whenever the filter keeps an object of at most 5 cells, fewer objects are reported than are kept."
  },
  {
   "property": "C128",
   "status": "partial",
   "theorems": [
    "MarEx.Props.C128_converged_at_limit_fails",
    "MarEx.Props.C128_exact_limit_fails"
   ],
   "note": "The code does not have the full property (C128_converged_at_limit_fails): at the limit for every record: if all merges are resolved after exactly `max_iteration` iterations, tracking still reports that they are not. The code does not have the full property (C128_exact_limit_fails): at the limit: the example converges after exactly two iterations (with `max_iteration = 3` it succeeds), but with `max_iteration = 2` it is reported as not converged."
  },
  {
   "property": "C129",
   "status": "partial",
   "theorems": [
    "MarEx.Props.C129_no_leap_year_fails",
    "MarEx.Props.C129_needs_all_days_fails"
   ],
   "note": "The code does not have the full property (C129_no_leap_year_fails): for records without a leap year: with only 365 days of year present the result still has 366 entries, and day 1 appears twice. The code does not have the full property (C129_needs_all_days_fails): for every record of at least 16 different days of year that does not contain all 366 of them, in particular for every record without a leap year: the standard deviations contain a day twice and the standardisation raises."
  },
  {
   "property": "C130",
   "status": "partial",
   "theorems": [
    "MarEx.Props.C130_one_child_per_parent_partial",
    "MarEx.Props.C130_shared_child_fails"
   ],
   "note": "C130_one_child_per_parent_partial: Missing: children with several linked parents, which remain when the merge loop hits its iteration limit (`C130_shared_child_fails`). The code does not have the full property (C130_shared_child_fails): in general: parents 1 (children 3, 4) and 2 (children 4, 5) share the child 4. After consolidation parent 2 still overlaps two IDs, 3 and 5."
  },
  {
   "property": "C131",
   "status": "partial",
   "theorems": [
    "MarEx.Props.C131_first_save_crash_partial",
    "MarEx.Props.C131_crash_errors",
    "MarEx.Props.C131_crash_mixes_checkpoints_fails",
    "MarEx.Props.C131_crash_half_field_fails",
    "MarEx.Props.C131_failed_run_mixes_checkpoints_fails",
    "MarEx.Props.C131_concurrent_saves_fails",
    "MarEx.Props.C131_structured_grid_fails",
    "MarEx.Props.C131_any_checkpoint_loads_fails"
   ],
   "note": "C131_first_save_crash_partial: Missing: directories with an earlier checkpoint (`C131_crash_mixes_checkpoints_fails`). The code does not have the full property (C131_crash_mixes_checkpoints_fails): after a crash over an earlier checkpoint, whatever the two checkpoints are: a save of `(g, t)` that dies after the field was written and before the statistics file was opened leaves a directory from which `load` returns, without any error, the new field with the old statistics. The code does not have the full property (C131_crash_half_field_fails): in the middle of writing the field, whatever the two checkpoints are and wherever the crash comes: a save of `(g, t)` over a checkpoint `(f, s)` that dies after `j` chunks leaves a directory from which `load` returns, without any error, the chunks written so far, the fill value for every other chunk, and the old statistics. The code does not have the full property (C131_failed_run_mixes_checkpoints_fails): without any crash: a saving run whose statistics raise (nothing survives the area filter: see `C62_nothing_kept_raises`) has already replaced the field of the earlier checkpoint. The code does not have the full property (C131_concurrent_saves_fails): for two trackers that share a directory and save at the same time: some interleaving of two complete saves leaves the field of the second with the statistics of the first, whatever the two results are. The code does not have the full property (C131_structured_grid_fails): on structured grids: with any `checkpoint` argument that selects saving or loading, `run_preprocess` raises `AttributeError` (the tracker has no `scratch_dir`), for every input and every directory; nothing is ever written. The code does not have the full property (C131_any_checkpoint_loads_fails): a loading tracker never looks at its own data or parameters: trackers with different inputs, mask or parameters (different `field`, `stats`, `m`) all return the stored pair. Stated as a failure of \"a checkpoint is only used for the input it was made from\"."
  },
  {
   "property": "C132",
   "status": "partial",
   "theorems": [
    "MarEx.Props.C132_latitude_edges_not_joined_fails",
    "MarEx.Props.C132_latitude_edges_not_joined_partial"
   ],
   "note": "C132_latitude_edges_not_joined_partial: Missing: the `4R` rows next to the edges. The code does not have the full property (C132_latitude_edges_not_joined_fails): in global mode: on a 12 × 12 grid with `R_fill = 1` two fields that differ only in row 11 (the northern edge) give different results in row 0 (the southern edge), because latitude is padded with `mode=\"wrap\"` too."
  },
  {
   "property": "C133",
   "status": "partial",
   "theorems": [
    "MarEx.Props.C133_limits_ordered_partial",
    "MarEx.Props.C133_zero_percentile_fails"
   ],
   "note": "C133_limits_ordered_partial: Missing: a lower percentile of 0. The code does not have the full property (C133_zero_percentile_fails): with a lower percentile of 0 for every data set of negative values: the limits are upside down."
  },
  {
   "property": "C134",
   "status": "partial",
   "theorems": [
    "MarEx.Props.C134_table_built_partial",
    "MarEx.Props.C134_columns_fails",
    "MarEx.Props.C134_long_record_fails"
   ],
   "note": "The code does not have the full property (C134_columns_fails): the table has `int(max_objects / n_time * 100)` columns, and building it raises whenever some step has more distinct values (0 included) than that. The code does not have the full property (C134_long_record_fails): for every long record: with more than 100 steps for each of its `max_objects` IDs (0 included) the table has no column at all, and building it raises whatever the steps contain."
  },
  {
   "property": "C135",
   "status": "partial",
   "theorems": [
    "MarEx.Props.C135_doubled_extension_fails",
    "MarEx.Props.C135_temp_left_fails"
   ],
   "note": "The code does not have the full property (C135_doubled_extension_fails): without a name the extension is doubled, and so it is if the name has it already. The code does not have the full property (C135_temp_left_fails): whenever the call raises after its first steps — the configuration is refused, a frame cannot be made, there is no step, or ffmpeg fails — the directory of temporary files stays, with the frames made so far."
  },
  {
   "property": "C136",
   "status": "partial",
   "theorems": [
    "MarEx.Props.C136_ids_change_data_fails",
    "MarEx.Props.C136_reseeds_fails"
   ],
   "note": "The code does not have the full property (C136_ids_change_data_fails): for plots of IDs: afterwards the plotter holds no zero or negative value any more, so that a later plot of values by the same plotter lacks them. The code does not have the full property (C136_reseeds_fails): for the random generator: a plot of IDs without a colour table of the user puts numpy's global generator into the state reached from the seed 42 by drawing three numbers for each number up to the largest ID, whatever it was before: random numbers the user draws afterwards are the same in every run."
  },
  {
   "property": "C137",
   "status": "partial",
   "theorems": [
    "MarEx.Props.C137_other_data_fails"
   ],
   "note": "The code does not have the full property (C137_other_data_fails): for other data, for example anomalies with the objects drawn on top: the markers depend on the plotted values only, not on the objects; where no value happens to equal an ID there is no marker."
  },
  {
   "property": "C138",
   "status": "partial",
   "theorems": [
    "MarEx.Props.C138_increasing_in_days_partial",
    "MarEx.Props.C138_same_day_collides_fails"
   ],
   "note": "C138_increasing_in_days_partial: Missing: times of the same day.) The code does not have the full property (C138_same_day_collides_fails): for sub-daily data: all times of one day get the same decimal year."
  },
  {
   "property": "C139",
   "status": "partial",
   "theorems": [
    "MarEx.Props.C139_dataset_unchanged_partial",
    "MarEx.Props.C139_dataarray_unchanged_partial",
    "MarEx.Props.C139_dataarray_irregular_fails",
    "MarEx.Props.C139_chunk_error_fails",
    "MarEx.Props.C139_cleanup_fails"
   ],
   "note": "C139_dataset_unchanged_partial: Missing: such failures, `cleanup=True`, DataArrays (see the `_fails` theorems). The code does not have the full property (C139_dataarray_irregular_fails): for every DataArray whose chunks along time cannot be stored as they are (for example monthly chunks): the repair is never applied to a DataArray, the error is swallowed and the caller receives None instead of their data. The code does not have the full property (C139_chunk_error_fails): for every error of the disk whose text mentions chunks (for example a failed write of a chunk file): the data is lost to the caller, although the handler for other errors would have handed it back. The code does not have the full property (C139_cleanup_fails): with `cleanup=True` whenever the checkpoint itself succeeds: the store behind the lazily loaded result is deleted before the result is returned."
  },
  {
   "property": "C140",
   "status": "partial",
   "theorems": [
    "MarEx.Props.C140_seasonal_cycle_fails",
    "MarEx.Props.C140_trend_left_fails"
   ],
   "note": "The code does not have the full property (C140_seasonal_cycle_fails): for the seasonal cycle: a series that depends on the day of year only, and correlates with time, does not have zero anomalies. Part of the cycle is removed as a trend, and the two steps of one day of year keep that difference. The code does not have the full property (C140_trend_left_fails): for the trend: the anomalies of such a series have a linear trend again, opposite to the one that was removed."
  },
  {
   "property": "C141",
   "status": "partial",
   "theorems": [
    "MarEx.Props.C141_exact_span_returns_nothing_fails",
    "MarEx.Props.C141_longer_span_partial"
   ],
   "note": "The code does not have the full property (C141_exact_span_returns_nothing_fails): on the boundary: a record of exactly `W` calendar years passes the length check and leaves an empty data set instead of the documented error."
  },
  {
   "property": "C142",
   "status": "partial",
   "theorems": [
    "MarEx.Props.C142_added_later_fails"
   ],
   "note": "The code does not have the full property (C142_added_later_fails): suggestions and context added afterwards do not change the text of any exception; a suggestion longer than the text is not shown."
  },
  {
   "property": "C143",
   "status": "proved",
   "theorems": [
    "MarEx.Props.C143_remapping_fresh"
   ],
   "note": ""
  },
  {
   "property": "C144",
   "status": "proved",
   "theorems": [
    "MarEx.Props.C144_single_fill_invents_nothing"
   ],
   "note": ""
  },
  {
   "property": "C145",
   "status": "proved",
   "theorems": [
    "MarEx.Props.C145_threshold",
    "MarEx.Props.C145_reported_count"
   ],
   "note": ""
  },
  {
   "property": "C146",
   "status": "proved",
   "theorems": [
    "MarEx.Props.C146_in_range",
    "MarEx.Props.C146_row",
    "MarEx.Props.C146_inner_column",
    "MarEx.Props.C146_longitude"
   ],
   "note": ""
  },
  {
   "property": "C147",
   "status": "proved",
   "theorems": [
    "MarEx.Props.C147_units_and_originals",
    "MarEx.Props.C147_pi_accurate"
   ],
   "note": ""
  },
  {
   "property": "C148",
   "status": "proved",
   "theorems": [
    "MarEx.Props.C148_local_cluster_started"
   ],
   "note": ""
  },
  {
   "property": "C149",
   "status": "proved",
   "theorems": [
    "MarEx.Props.C149_parameter_text_bounded",
    "MarEx.Props.C149_parameter_text",
    "MarEx.Props.C149_progress_lines",
    "MarEx.Props.C149_progress_bar"
   ],
   "note": ""
  },
  {
   "property": "C150",
   "status": "partial",
   "theorems": [
    "MarEx.Props.C150_progress_silent_fails"
   ],
   "note": "The code does not have the full property (C150_progress_silent_fails): \"log every `frequency` percent\" is not what happens: for every number of steps that has no divisor in common with 100, no step but the last is logged, whatever the frequency."
  },
  {
   "property": "C151",
   "status": "proved",
   "theorems": [
    "MarEx.Props.C151_mesh_nearest_cells",
    "MarEx.Props.C151_mesh_frame_made_iff"
   ],
   "note": ""
  },
  {
   "property": "C152",
   "status": "proved",
   "theorems": [
    "MarEx.Props.C152_store_is_transparent"
   ],
   "note": ""
  },
  {
   "property": "C153",
   "status": "partial",
   "theorems": [
    "MarEx.Props.C153_loss_before_update_partial",
    "MarEx.Props.C153_loss_after_update_fails"
   ],
   "note": "The code does not have the full property (C153_loss_after_update_fails): in the example the first iteration splits object 5 among its four parents and object 7 among two. If the results of the parallel step are lost after the store has been updated — a worker dies —, the scheduler computes them again from the updated store, in which the objects are already split, and no merge is recorded at all."
  },
  {
   "property": "C154",
   "status": "partial",
   "theorems": [
    "MarEx.Props.C154_one_after_another_partial",
    "MarEx.Props.C154_concurrent_trackers_fails"
   ],
   "note": "The code does not have the full property (C154_concurrent_trackers_fails): let a tracker run on any record, and let another tracker with the same `temp_dir` and a record without objects write its field before the first iteration of this one. Whenever this tracker returns, it returns a record without a single object and without a merge, and raises nothing."
  },
  {
   "property": "C155",
   "status": "partial",
   "theorems": [
    "MarEx.Props.C155_table_in_memory_fails",
    "MarEx.Props.C155_table_in_chunks_partial"
   ],
   "note": "C155_table_in_chunks_partial: Missing: tables held in memory, for which it is false (`C155_table_in_memory_fails`). The code does not have the full property (C155_table_in_memory_fails): take any supported mesh configuration and hold its neighbour table in memory instead of in dask chunks. The constructor raises `AttributeError`."
  },
  {
   "property": "C156",
   "status": "partial",
   "theorems": [
    "MarEx.Props.C156_single_chunks_run_partial",
    "MarEx.Props.C156_chunked_table_fails",
    "MarEx.Props.C156_chunked_areas_fails",
    "MarEx.Props.C156_table_of_other_size_fails"
   ],
   "note": "C156_single_chunks_run_partial: Missing: other layouts, for which it is false (`C156_chunked_table_fails`, `C156_chunked_areas_fails`, `C156_table_of_other_size_fails`). The code does not have the full property (C156_chunked_table_fails): for the neighbour table: a table with several chunks along a dimension is accepted by the constructor, which warns that it is \"rechunking to single chunk\"; the tracker keeps the table as it is, and every `run()` raises `ValueError`. The code does not have the full property (C156_chunked_areas_fails): for the areas: cell areas with several chunks are accepted with the same warning, kept as they are, and every `run()` on a record of more than one step raises `ValueError`. The code does not have the full property (C156_table_of_other_size_fails): for the size of the table: in every supported mesh configuration the constructor also accepts a table for any other number of cells that its entries fit in, and every `run()` then raises `ValueError`."
  },
  {
   "property": "C157",
   "status": "partial",
   "theorems": [
    "MarEx.Props.C157_single_step_fails",
    "MarEx.Props.C157_without_merges_partial"
   ],
   "note": "C157_without_merges_partial: Missing: records of one step, and records with merges, which can raise (C59, C85, C134). The code does not have the full property (C157_single_step_fails): on a mesh of more than one cell, a record of a single step that passes the preprocessing is never tracked: `run()` raises `IndexError`, whatever the data and the settings."
  },
  {
   "property": "C158",
   "status": "partial",
   "theorems": [
    "MarEx.Props.C158_grid_time_coordinate_partial",
    "MarEx.Props.C158_mesh_time_coordinate_partial",
    "MarEx.Props.C158_mesh_own_name_fails"
   ],
   "note": "C158_mesh_time_coordinate_partial: Missing: every other name (`C158_mesh_own_name_fails`). The code does not have the full property (C158_mesh_own_name_fails): on meshes: for every configuration that the constructor accepts, with a time coordinate that is not named after the time dimension, `run()` raises `KeyError`."
  },
  {
   "property": "C159",
   "status": "partial",
   "theorems": [
    "MarEx.Props.C159_merges_returned_partial",
    "MarEx.Props.C159_no_merges_returned_fails"
   ],
   "note": "C159_merges_returned_partial: Missing: trackers without `allow_merging` (`C159_no_merges_returned_fails`). The code does not have the full property (C159_no_merges_returned_fails): without `allow_merging`: the merges that were asked for are not returned, whatever they are; a caller that unpacks two datasets fails. (On meshes merges happen without `allow_merging` too, see C120.)."
  },
  {
   "property": "C160",
   "status": "partial",
   "theorems": [
    "MarEx.Props.C160_errors_shown_partial",
    "MarEx.Props.C160_debug_shows_all_partial",
    "MarEx.Props.C160_earlier_tracker_hides_fails",
    "MarEx.Props.C160_level_one_hides_warnings_fails",
    "MarEx.Props.C160_hidden_errors_partial"
   ],
   "note": "The code does not have the full property (C160_earlier_tracker_hides_fails): once a tracker with a debug level below 2 was constructed in the process, a tracker with any debug level hides every message of the scheduler below the level of errors, whatever the logger was set to and whatever came between. The code does not have the full property (C160_level_one_hides_warnings_fails): debug level 1, meant to hide only the messages about `run_spec`, hides every warning."
  },
  {
   "property": "C161",
   "status": "proved",
   "theorems": [
    "MarEx.Props.C161_events_do_not_depend_on_the_unit",
    "MarEx.Props.C161_areas_scale",
    "MarEx.Props.C161_centroids_do_not_depend_on_the_unit"
   ],
   "note": ""
  },
  {
   "property": "C162",
   "status": "proved",
   "theorems": [
    "MarEx.Props.C162_zero_point",
    "MarEx.Props.C162_detrending_removes_constants"
   ],
   "note": ""
  },
  {
   "property": "C163",
   "status": "partial",
   "theorems": [
    "MarEx.Props.C163_unit_exact_partial",
    "MarEx.Props.C163_unit_approximate_fails",
    "MarEx.Props.C163_detrending_scales"
   ],
   "note": "C163_unit_exact_partial: Missing: the approximate percentiles, for which it is false. The code does not have the full property (C163_unit_approximate_fails): for the approximate percentiles: whatever the data and the (positive) precision, in a coarse enough unit the same data have no extreme anywhere, whatever the percentile."
  },
  {
   "property": "C164",
   "status": "partial",
   "theorems": [
    "MarEx.Props.C164_before_merges_partial",
    "MarEx.Props.C164_group_partial",
    "MarEx.Props.C164_merging_partial",
    "MarEx.Props.C164_objects_partial",
    "MarEx.Props.C164_events_partial",
    "MarEx.Props.C164_area_filter_fails",
    "MarEx.Props.C164_merging_tie_fails"
   ],
   "note": "C164_before_merges_partial: Missing: events that reach the first merge or come later (`C164_merging_tie_fails`), and the preprocessing (`C05_rotation_invariance_fails`, `C164_area_filter_fails`). C164_group_partial: Missing: groups with merges (`C164_merging_tie_fails`), and the preprocessing (`C05_rotation_invariance_fails`, `C164_area_filter_fails`). C164_merging_partial: Missing: records with merges (`C164_merging_tie_fails`), and the preprocessing (`C05_rotation_invariance_fails`, `C164_area_filter_fails`). C164_events_partial: Missing: the preprocessing, which depends on the cut (see `C05_rotation_invariance_fails` and `C164_area_filter_fails`), and events with merging, which depend on it too (`C164_merging_tie_fails`). The code does not have the full property (C164_area_filter_fails): for whole runs even without hole filling: on a record that looks the same from both sides of the globe, the run keeps the objects of one side (cell 2 at both steps) and drops one of the other (cell 0 at the first step): the area filter loses the first object, and which one is first depends on where the map is cut. The code does not have the full property (C164_merging_tie_fails): for events with merging: the middle cell of the merged object is equally near to both parents and is given to the one with the smaller ID, and which one that is depends on where the map is cut. On the first map the middle cell belongs to the event of cell 0, on the second to that of cell 2."
  },
  {
   "property": "C165",
   "status": "proved",
   "theorems": [
    "MarEx.Props.C165_no_merging_time_reversal"
   ],
   "note": ""
  },
  {
   "property": "C166",
   "status": "proved",
   "theorems": [
    "MarEx.Props.C166_grid_links_exact"
   ],
   "note": ""
  },
  {
   "property": "C167",
   "status": "partial",
   "theorems": [
    "MarEx.Props.C167_mesh_areas_partial",
    "MarEx.Props.C167_remaining_cells_ignored_fails",
    "MarEx.Props.C167_large_objects_fails",
    "MarEx.Props.C167_equal_cells_bounded_fails"
   ],
   "note": "C167_mesh_areas_partial: Missing: larger objects, see below. The code does not have the full property (C167_remaining_cells_ignored_fails): for large objects: once the sum has reached `2 ^ 25` times the area of each remaining cell, the remaining cells, however many, add nothing. The code does not have the full property (C167_large_objects_fails): on a mesh whose cells all have the area `2 ^ j`, an object of any number of cells beyond `2 ^ 24` is given the area of `2 ^ 24` cells. The code does not have the full property (C167_equal_cells_bounded_fails): for every cell area: whatever the area `a` of the (equal) cells, no object is ever given `2 ^ 26` times that area, however many cells it has."
  },
  {
   "property": "C168",
   "status": "partial",
   "theorems": [
    "MarEx.Props.C168_same_bin_partial",
    "MarEx.Props.C168_82nd_percentile_fails"
   ],
   "note": "C168_same_bin_partial: Missing: the other percentiles, see below. The code does not have the full property (C168_82nd_percentile_fails): with 123 of 150 samples in the lowest bin and 27 in the highest, however many bins lie between, the 82nd percentile is the centre of the last but one bin, but because 0.82 · 150 is rounded to a number below 123 the code returns the centre of the lowest bin."
  },
  {
   "property": "C169",
   "status": "proved",
   "theorems": [
    "MarEx.Props.C169_fraction_at_most_one",
    "MarEx.Props.C169_contained_objects_linked",
    "MarEx.Props.C169_weightless_objects_not_linked",
    "MarEx.Props.C169_links_away_from_threshold"
   ],
   "note": ""
  },
  {
   "property": "C170",
   "status": "partial",
   "theorems": [
    "MarEx.Props.C170_same_coordinates_partial",
    "MarEx.Props.C170_extra_coordinate_fails",
    "MarEx.Props.C170_lost_coordinate_fails"
   ],
   "note": "C170_same_coordinates_partial: Missing: runs with merging and records with both coordinates (see the `_fails` theorems). The code does not have the full property (C170_extra_coordinate_fails): with merging: a record whose time coordinate has a name of its own, and whose time dimension has no coordinate, comes back with a second one, under the name of the dimension. The code does not have the full property (C170_lost_coordinate_fails): for records with two coordinates along time: the one named after the dimension is lost, without merging altogether, with merging in favour of the values of the other one."
  },
  {
   "property": "C171",
   "status": "partial",
   "theorems": [
    "MarEx.Props.C171_grid_workflow_partial",
    "MarEx.Props.C171_first_cluster_lost_fails",
    "MarEx.Props.C171_mesh_workflow"
   ],
   "note": "C171_grid_workflow_partial: Missing: that cluster. The code does not have the full property (C171_first_cluster_lost_fails): for every record on a structured grid: with an absolute area of at most one cell every extreme ocean cell should belong to an event, but whenever the workflow succeeds there is one that does not."
  },
  {
   "property": "C172",
   "status": "proved",
   "theorems": [
    "MarEx.Props.C172_events_near_extremes"
   ],
   "note": ""
  },
  {
   "property": "C173",
   "status": "partial",
   "theorems": [
    "MarEx.Props.C173_accepted_names_partial",
    "MarEx.Props.C173_stage_partial",
    "MarEx.Props.C173_mesh_without_y_fails",
    "MarEx.Props.C173_time_series_fails"
   ],
   "note": "C173_accepted_names_partial: Missing: the other accepted names. C173_stage_partial: Missing: C173 asks that none of the later stops occur. The code does not have the full property (C173_mesh_without_y_fails): for every mesh whose names are accepted without a coordinate for y, with every method: the KeyError comes when everything has been computed. The code does not have the full property (C173_time_series_fails): for a single series: names of a time series are accepted if coordinates are given, whatever the method, and the code has branches for such data, but no call finishes."
  },
  {
   "property": "C174",
   "status": "partial",
   "theorems": [
    "MarEx.Props.C174_exact_constant_partial",
    "MarEx.Props.C174_small_mesh_fails",
    "MarEx.Props.C174_workflow_small_mesh_fails"
   ],
   "note": "C174_exact_constant_partial: Missing: smaller meshes. The code does not have the full property (C174_small_mesh_fails): on every mesh of fewer than 4445 cells: the chunk length along the cells comes out as 0, and dask divides by it. The code does not have the full property (C174_workflow_small_mesh_fails): for the whole workflow: with exact constant percentiles no record on a mesh of fewer than 4445 cells gets as far as tracking."
  },
  {
   "property": "C175",
   "status": "partial",
   "theorems": [
    "MarEx.Props.C175_time_chunk_partial",
    "MarEx.Props.C175_thresholds_partial",
    "MarEx.Props.C175_space_ignored_fails"
   ],
   "note": "C175_time_chunk_partial: Missing: entries for the other dimensions, see below. C175_thresholds_partial: Missing: the spatial dimensions, see below. The code does not have the full property (C175_space_ignored_fails): for the other dimensions: whatever chunk length is asked for along x and y, they are put into one chunk each."
  },
  {
   "property": "C176",
   "status": "partial",
   "theorems": [
    "MarEx.Props.C176_warning_true_partial",
    "MarEx.Props.C176_exact_silent_fails"
   ],
   "note": "C176_warning_true_partial: Missing: that it warns whenever this is so, see below. The code does not have the full property (C176_exact_silent_fails): for exact percentiles on every grid: the default spatial window of 5 by 5 cells is counted although no cells are pooled, so there is no warning with up to 25 times too few samples: at the 95th percentile and with windows of 11 days, for records of 4 to 90 years."
  },
  {
   "property": "C177",
   "status": "partial",
   "theorems": [
    "MarEx.Props.C177_single_partial",
    "MarEx.Props.C177_several_fails"
   ],
   "note": "C177_single_partial: Missing: several packages (`C177_several_fails`). The code does not have the full property (C177_several_fails): for several packages: the one command advised for any two or more missing packages does not install those outside the extra `full` and the requirements of marEx. That is so for psutil, which marEx tracks, and for every name marEx does not know, which are the names `require_dependencies` reports in practice (`C47_unknown_missing_partial`)."
  },
  {
   "property": "C178",
   "status": "partial",
   "theorems": [
    "MarEx.Props.C178_documented_variables_partial",
    "MarEx.Props.C178_without_merging",
    "MarEx.Props.C178_one_step_fails",
    "MarEx.Props.C178_component_order_fails"
   ],
   "note": "C178_documented_variables_partial: Missing: gridded records of one step. The code does not have the full property (C178_one_step_fails): for every gridded record of one step tracked with merging: beside the documented variables the events have a ninth, `centroid-2`. The code does not have the full property (C178_component_order_fails): for the order of the components: the documentation gives the centroid as (x, y), but the first component of an event in a single cell of a grid is the latitude of the cell and the second its longitude."
  },
  {
   "property": "C179",
   "status": "partial",
   "theorems": [
    "MarEx.Props.C179_counts_partial",
    "MarEx.Props.C179_counts_fails"
   ],
   "note": "C179_counts_partial: Missing: finer precisions. The code does not have the full property (C179_counts_fails): with 65536 bins: every missing value and every anomaly at or above the last edge is counted in the lowest bin, which holds the most negative anomalies."
  },
  {
   "property": "C180",
   "status": "partial",
   "theorems": [
    "MarEx.Props.C180_threshold_partial",
    "MarEx.Props.C180_edges",
    "MarEx.Props.C180_below_max_anomaly_fails"
   ],
   "note": "C180_threshold_partial: Missing: samples closer to `max_anomaly` (`C180_below_max_anomaly_fails`) and other percentiles (`C168_82nd_percentile_fails`). The code does not have the full property (C180_below_max_anomaly_fails): near `max_anomaly`: with the default precision 0.01 and the default maximum 5 the last edge is the float32 number before 5. Anomalies of that size are below `max_anomaly` and yet not counted: where all anomalies are so large, there is no threshold on any day."
  },
  {
   "property": "C181",
   "status": "proved",
   "theorems": [
    "MarEx.Props.C181_standardised_extremes",
    "MarEx.Props.C181_no_other_failure"
   ],
   "note": ""
  },
  {
   "property": "C182",
   "status": "partial",
   "theorems": [
    "MarEx.Props.C182_grid",
    "MarEx.Props.C182_mesh_partial",
    "MarEx.Props.C182_small_objects_fails"
   ],
   "note": "C182_mesh_partial: Missing: the error of the filter says that there are no objects also for records whose objects are all small (`C182_small_objects_fails`). The code does not have the full property (C182_small_objects_fails): on meshes for every record whose objects all have at most 50 cells (5 with `area_filter_absolute`): it is refused as a record without objects."
  },
  {
   "property": "C183",
   "status": "proved",
   "theorems": [
    "MarEx.Props.C183_nested",
    "MarEx.Props.C183_preprocess"
   ],
   "note": ""
  },
  {
   "property": "C184",
   "status": "partial",
   "theorems": [
    "MarEx.Props.C184_grid_without_filling_partial",
    "MarEx.Props.C184_mesh_without_filling_partial",
    "MarEx.Props.C184_mesh_filling_fails",
    "MarEx.Props.C184_grid_filling_fails",
    "MarEx.Props.C184_area_fraction_fails"
   ],
   "note": "C184_grid_without_filling_partial: Missing: `R_fill ≥ 1`. C184_mesh_without_filling_partial: Missing: `R_fill ≥ 1`. The code does not have the full property (C184_mesh_filling_fails): for every `R_fill ≥ 1` on meshes: wherever every ocean cell has a cell outside the mask within `R_fill` hops, marks on the cells outside the mask, and nowhere else, make every ocean cell extreme after hole filling, while a record without marks stays empty. The code does not have the full property (C184_grid_filling_fails): for every `R_fill ≥ 1` on grids: on every map, global or regional, on which every cell has a cell outside the mask within distance `R_fill`, marks on the cells outside the mask, and nowhere else, make every ocean cell at least `2 R_fill` from the edges extreme after hole filling, while a record without marks stays empty. The code does not have the full property (C184_area_fraction_fails): for the statistics even without filling: the objects are those of the mask, but every mark outside the mask counts in `preprocessed_area_fraction`. Of two records with the same objects the one with more marks reports the larger fraction."
  },
  {
   "property": "C185",
   "status": "proved",
   "theorems": [
    "MarEx.Props.C185_appended_data",
    "MarEx.Props.C185_preprocess",
    "MarEx.Props.C185_wide_window",
    "MarEx.Props.C185_fixed_baseline_moves"
   ],
   "note": ""
  },
  {
   "property": "C186",
   "status": "proved",
   "theorems": [
    "MarEx.Props.C186_start_longitude",
    "MarEx.Props.C186_longitude_order",
    "MarEx.Props.C186_latitude_order",
    "MarEx.Props.C186_mesh_numbering"
   ],
   "note": ""
  },
  {
   "property": "C187",
   "status": "partial",
   "theorems": [
    "MarEx.Props.C187_mesh_absolute",
    "MarEx.Props.C187_grid_absolute_partial",
    "MarEx.Props.C187_grid_stricter_filter",
    "MarEx.Props.C187_mesh_stricter_filter",
    "MarEx.Props.C187_first_T_fill_fails",
    "MarEx.Props.C187_first_object_fails",
    "MarEx.Props.C187_quartile_fails"
   ],
   "note": "C187_grid_absolute_partial: Missing: the steps up to the second run's first event, where the lost first object (C07) may be a larger one (`C187_first_object_fails`), and `T_fill` from 0 to a positive number with `R_fill` above 1 (`C187_first_T_fill_fails`). The code does not have the full property (C187_first_T_fill_fails): on structured grids for `T_fill` from 0 to any positive even number: filling time gaps also fills holes a second time, with half the radius, and that opening removes cells that the first one kept. On the channels, every ocean cell extreme for one step, a run with `T_fill = 0` finds an event, and with any positive `T_fill` it is refused: nothing is left of the data. The code does not have the full property (C187_first_object_fails): on structured grids: with `area_filter_absolute = 1`, cell 3 belongs to an event; with more extreme cells, which join it to the first object of the record, it does not, and there is no event left. The code does not have the full property (C187_quartile_fails): with the default `area_filter_quartile = 0.5`: larger extremes appearing later in the record raise the threshold of the whole record, and the event cell of the second step, which nothing has changed around, is an event cell no more."
  },
  {
   "property": "C188",
   "status": "partial",
   "theorems": [
    "MarEx.Props.C188_mesh_workflow",
    "MarEx.Props.C188_grid_workflow_partial",
    "MarEx.Props.C188_lower_percentile_fails"
   ],
   "note": "C188_grid_workflow_partial: Missing: the steps up to that first event, where the lost first object (C07) may be a larger one with the smaller percentile. The code does not have the full property (C188_lower_percentile_fails): on structured grids: cell 2 belongs to an event of the first year at the 75th percentile, but not at the 60th, where the warm cell joins it to the first object of the record."
  },
  {
   "property": "C189",
   "status": "partial",
   "theorems": [
    "MarEx.Props.C189_pieces_partial",
    "MarEx.Props.C189_mesh_cells",
    "MarEx.Props.C189_piece_accepted",
    "MarEx.Props.C189_edge_fails"
   ],
   "note": "C189_pieces_partial: Missing: those cells, see below. The code does not have the full property (C189_edge_fails): at the edges of a piece: in a strip of any number of cells in which only the last but one has a positive anomaly, leaving out the last one changes the threshold of the first, far away from the cut, because its window is closed around the piece."
  },
  {
   "property": "C190",
   "status": "partial",
   "theorems": [
    "MarEx.Props.C190_objects_partial",
    "MarEx.Props.C190_empty_steps_partial",
    "MarEx.Props.C190_mesh_partial",
    "MarEx.Props.C190_one_step_chunk_fails",
    "MarEx.Props.C190_table_partial",
    "MarEx.Props.C190_run_table_partial"
   ],
   "note": "C190_objects_partial: Missing: chunks of one step (`C19_fails`). C190_empty_steps_partial: Missing: chunks of one step (`C19_fails`). C190_mesh_partial: Missing: records with merges, where the result depends on the chunks (`C59_result_depends_on_chunks_fails`), and `T_fill > 0` beside land, where empty steps can get extremes (`C53_filling_invents_nothing_fails`). C190_table_partial: Missing: chunks of one step (`C190_one_step_chunk_fails`). C190_run_table_partial: Missing: chunks of one step (`C190_one_step_chunk_fails`). The code does not have the full property (C190_one_step_chunk_fails): with a chunk of one step: both records are cut into chunks of two steps. One empty step more in front leaves a last chunk of one step, whose objects are not consolidated."
  },
  {
   "property": "C191",
   "status": "partial",
   "theorems": [
    "MarEx.Props.C191_preprocessing",
    "MarEx.Props.C191_events_partial",
    "MarEx.Props.C191_merges_fails"
   ],
   "note": "C191_events_partial: Missing: records with merges, see below. The code does not have the full property (C191_merges_fails): with merges: numbered from its other end the line and the record are the same, so the run is; but the cell in the middle, as far from the one object as from the other, goes with the lower numbers."
  },
  {
   "property": "C192",
   "status": "partial",
   "theorems": [
    "MarEx.Props.C192_before_merges_partial",
    "MarEx.Props.C192_group_partial",
    "MarEx.Props.C192_grid_partial",
    "MarEx.Props.C192_links_fails",
    "MarEx.Props.C192_mesh_partial"
   ],
   "note": "C192_before_merges_partial: Missing: events that reach the first merge or come later (`C192_links_fails`). C192_group_partial: Missing: groups with merges (`C192_links_fails`). C192_grid_partial: Missing: records with merges, where the objects after the merge differ, see below. The code does not have the full property (C192_links_fails): with merges: the documentation says that the choice \"does NOT affect which objects are linked\", but the object on cell 5 after the merge continues the event of cell 0 with `nn_partitioning=True` and the event of cell 7 without it."
  },
  {
   "property": "C193",
   "status": "partial",
   "theorems": [
    "MarEx.Props.C193_mesh_partial",
    "MarEx.Props.C193_grid_partial",
    "MarEx.Props.C193_mesh_merge_fails",
    "MarEx.Props.C193_grid_split_fails"
   ],
   "note": "C193_mesh_partial: Missing: records with merges, see below. The code does not have the full property (C193_mesh_merge_fails): on a mesh with merges: at 1/2 the object of the second step continues the one on cells 0–5 as a whole; at 1/4 it is a merge, and its cell 8 goes with the other object. The code does not have the full property (C193_grid_split_fails): on a grid, even without any merge: at 1/2 the object on cell 3 is followed by the one on cells 0–3; at 1/3 it is first united with its sibling on cells 5–8, and the union, of which the next object covers one cell in five, is followed by none."
  },
  {
   "property": "C194",
   "status": "partial",
   "theorems": [
    "MarEx.Props.C194_pieces_partial",
    "MarEx.Props.C194_limit_fails",
    "MarEx.Props.C194_united_fails"
   ],
   "note": "C194_pieces_partial: Missing: steps with ten merges (`C194_limit_fails`), and that united pieces do not continue two objects together (`C194_united_fails`). The code does not have the full property (C194_limit_fails): at a step with ten merges: at each of the ten rounds one piece covers enough of both objects, and both become one event. The code does not have the full property (C194_united_fails): even without any recorded merge: both objects of the last step continue the first object, neither the second; united as siblings they continue the second one too, and both objects become one event."
  },
  {
   "property": "C195",
   "status": "partial",
   "theorems": [
    "MarEx.Props.C195_directory_exists",
    "MarEx.Props.C195_readable_iff_partial",
    "MarEx.Props.C195_lost_with_client_fails"
   ],
   "note": "C195_readable_iff_partial: Missing: the directory may go while the session lasts (`C195_lost_with_client_fails`). The code does not have the full property (C195_lost_with_client_fails): data checkpointed while a local cluster runs do not outlive its client. For every session in which a cluster was started successfully, whatever was done between the start and the checkpoint that leaves dask's temporary directory alone, and whatever is done after the checkpoint: once the client is given up, the data cannot be computed."
  },
  {
   "property": "C196",
   "status": "partial",
   "theorems": [
    "MarEx.Props.C196_frames_have_a_place_partial",
    "MarEx.Props.C196_no_movie_after_client_fails",
    "MarEx.Props.C196_no_movie_after_failed_start_fails",
    "MarEx.Props.C196_configure_iff_partial"
   ],
   "note": "C196_frames_have_a_place_partial: Missing: sessions in which the directory was removed or a start failed (`C196_no_movie_after_client_fails`, `C196_no_movie_after_failed_start_fails`). C196_configure_iff_partial: Missing: that last case, in which the property is false. The code does not have the full property (C196_no_movie_after_client_fails): once the client of the last cluster is given up, `animate` raises: dask is still configured with the directory that went away with the client, and `animate`, unlike `checkpoint_to_zarr`, does not check that it exists. For every session and everything done before and after that leaves the setting alone. The code does not have the full property (C196_no_movie_after_failed_start_fails): the same after a start that failed (for example `start_local_cluster(n_workers=0)`, or a dashboard link without a port): dask keeps the name of a directory that is removed with the failed call, and `animate` raises from then on, also if it worked before."
  },
  {
   "property": "C197",
   "status": "partial",
   "theorems": [
    "MarEx.Props.C197_one_setting_partial",
    "MarEx.Props.C197_setting_stays_fails",
    "MarEx.Props.C197_order_matters_fails"
   ],
   "note": "C197_one_setting_partial: Missing: that setting (`C197_setting_stays_fails`). The code does not have the full property (C197_setting_stays_fails): the setting is not restored. Whatever it was before, the user's own value or the `False` with which the package configures its clusters, it is `True` after an accepted call and stays so until somebody sets it again. The code does not have the full property (C197_order_matters_fails): so the configuration of a session depends on the order of two calls: a local cluster started after `preprocess_data` has the setting off, one started before it has it on."
  },
  {
   "property": "C198",
   "status": "partial",
   "theorems": [
    "MarEx.Props.C198_no_event_crosses",
    "MarEx.Props.C198_middle_part_partial",
    "MarEx.Props.C198_first_part_fails",
    "MarEx.Props.C198_quartile_fails",
    "MarEx.Props.C198_ledger_partial",
    "MarEx.Props.C198_middle_part_merging_partial",
    "MarEx.Props.C198_mesh_preprocessing_partial",
    "MarEx.Props.C198_mesh_parts_partial"
   ],
   "note": "C198_middle_part_partial: Missing: the first part of a record, which loses its first object (`C198_first_part_fails`), the quartile criterion (`C198_quartile_fails`), and the events with merging, for which see `C198_middle_part_merging_partial`. C198_ledger_partial: Missing: as in `C198_middle_part_merging_partial`; that the entries are those of the merging partners (`C26_siblings_fails`). C198_middle_part_merging_partial: Missing: as in `C198_middle_part_partial`, the first part of a record and the quartile criterion; chunks of one step (`C190_one_step_chunk_fails`). C198_mesh_preprocessing_partial: Missing: the quartile criterion, whose threshold is that of the whole record, parts that are refused alone because their objects are all small (`C182_small_objects_fails`) and `T_fill > 0` beside land (`C53_filling_invents_nothing_fails`). C198_mesh_parts_partial: Missing: as for the preprocessing above, and records with merges, where IDs can be given twice (`C110_mesh_gap_fails`: one event before and after an empty step). The code does not have the full property (C198_first_part_fails): grids: a part tracked by itself loses its first object, which it keeps as a later part of a record. For every two accepted parts, every gap longer than `T_fill`, and an area threshold that every object meets: some cell is extreme in the combined run and not in the run of the part alone. The code does not have the full property (C198_quartile_fails): with the default `area_filter_quartile = 0.5` the threshold is that of the whole record: the event of a middle part is there or not according to what comes after the gap."
  },
  {
   "property": "C199",
   "status": "partial",
   "theorems": [
    "MarEx.Props.C199_far_away_partial",
    "MarEx.Props.C199_quartile_fails",
    "MarEx.Props.C199_merges_partial",
    "MarEx.Props.C199_ledger_partial",
    "MarEx.Props.C199_far_away_merging_partial",
    "MarEx.Props.C199_mesh_far_away_partial",
    "MarEx.Props.C199_overlap_fails"
   ],
   "note": "C199_far_away_partial: Missing: `area_filter_quartile` (`C199_quartile_fails`), events that begin before both runs have had another one (the first object of a record is dropped, C07), `allow_merging = True` (`C199_overlap_fails`; `C199_far_away_merging_partial`) and meshes (`C199_mesh_far_away_partial`). C199_merges_partial: Missing: as in `C199_far_away_merging_partial`. C199_ledger_partial: Missing: as in `C199_far_away_merging_partial`; that the entries are those of the merging partners (`C26_siblings_fails`). C199_far_away_merging_partial: Missing: single events that share cells with others (`C199_overlap_fails`), `area_filter_quartile` (`C199_quartile_fails`), groups that begin before both runs have had another object (C07), and meshes (`C199_mesh_far_away_partial`). C199_mesh_far_away_partial: Missing: runs with merges, where IDs can be given twice (`C205_merges_fails`), and `area_filter_quartile` (`C199_quartile_fails`). The code does not have the full property (C199_quartile_fails): with the default `area_filter_quartile = 0.5` the threshold is that of the whole map: extremes three columns away (`R_fill` 0), after which nothing within two cells of the event has changed at any step, take an event away. The code does not have the full property (C199_overlap_fails): with `allow_merging = True`: whether an object continues an event depends on its size, and so on cells far from the event. The event of cells 0–4 at step 3 is unchanged within `6 R_fill + ⌈a⌉ + 1 = 2` cells of all its cells, at all steps; it lasts one step in the first run, and goes on at step 4 in the second."
  },
  {
   "property": "C200",
   "status": "partial",
   "theorems": [
    "MarEx.Props.C200_others_untouched_partial",
    "MarEx.Props.C200_errors_stay_partial",
    "MarEx.Props.C200_hidden_in_verbose_fails",
    "MarEx.Props.C200_not_given_back_fails"
   ],
   "note": "C200_others_untouched_partial: Missing: those nine are changed for good, see `C200_not_given_back_fails`. C200_errors_stay_partial: Missing: less serious messages, see `C200_hidden_in_verbose_fails`. The code does not have the full property (C200_hidden_in_verbose_fails): for the nine loggers, whatever the application has set: one call of a package function with `verbose` (or `quiet`) given, in verbose mode just as in quiet mode, hides everything less serious than an error. The code does not have the full property (C200_not_given_back_fails): for the nine loggers: once they have been quietened, no later call of marEx gives them back, not even `configure_logging(disable_external_loggers=False)`."
  },
  {
   "property": "C201",
   "status": "partial",
   "theorems": [
    "MarEx.Props.C201_known_level_partial",
    "MarEx.Props.C201_unknown_name_fails"
   ],
   "note": "C201_known_level_partial: Missing: any other name, see `C201_unknown_name_fails`. The code does not have the full property (C201_unknown_name_fails): every other name, given as the level or in the environment, is neither in force nor refused: the level is silently INFO (given as `level`, also in quiet and in verbose mode). The only texts that are refused are two that happen to name something else in the standard library."
  },
  {
   "property": "C202",
   "status": "partial",
   "theorems": [
    "MarEx.Props.C202_never_raises",
    "MarEx.Props.C202_array_partial",
    "MarEx.Props.C202_dataset_fails"
   ],
   "note": "C202_array_partial: Missing: datasets, see `C202_dataset_fails`. The code does not have the full property (C202_dataset_fails): for every dataset: it has chunks but no shape, so all that is logged is that the information could not be logged."
  },
  {
   "property": "C203",
   "status": "partial",
   "theorems": [
    "MarEx.Props.C203_bar_partial",
    "MarEx.Props.C203_completed_fails"
   ],
   "note": "C203_bar_partial: Missing: the report is made whatever happened, see `C203_completed_fails`. The code does not have the full property (C203_completed_fails): without a bar, a block that ended with an exception is reported as completed, whatever the exception."
  },
  {
   "property": "C204",
   "status": "proved",
   "theorems": [
    "MarEx.Props.C204_merges",
    "MarEx.Props.C204_ledger",
    "MarEx.Props.C204_group_tracked_alone",
    "MarEx.Props.C204_group_tracked_alone_without_merging",
    "MarEx.Props.C204_table"
   ],
   "note": ""
  },
  {
   "property": "C205",
   "status": "partial",
   "theorems": [
    "MarEx.Props.C205_mesh_group_alone_partial",
    "MarEx.Props.C205_merges_fails"
   ],
   "note": "C205_mesh_group_alone_partial: Missing: records with merges (`C205_merges_fails`). The code does not have the full property (C205_merges_fails): with merges: the merge of eight objects at step 1 takes seven new IDs, two are reserved per step, and the last one is given out again at step 4. The objects of steps 3 and 4, which an empty step separates from the others, are then one event with cell 14 of step 0; tracked alone they are not."
  },
  {
   "property": "C206",
   "status": "partial",
   "theorems": [
    "MarEx.Props.C206_over_merging_partial",
    "MarEx.Props.C206_never_separated_merging_partial",
    "MarEx.Props.C206_over_without_merging",
    "MarEx.Props.C206_never_separated_without_merging",
    "MarEx.Props.C206_over_mesh_partial",
    "MarEx.Props.C206_run_merging_partial",
    "MarEx.Props.C206_run_without_merging_partial",
    "MarEx.Props.C206_run_mesh_partial",
    "MarEx.Props.C206_one_step_chunk_fails",
    "MarEx.Props.C206_mesh_merges_fails",
    "MarEx.Props.C206_quartile_fails",
    "MarEx.Props.C206_table_partial"
   ],
   "note": "C206_over_merging_partial: Missing: chunks of one step (`C206_one_step_chunk_fails`). C206_never_separated_merging_partial: Missing: chunks of one step (`C206_one_step_chunk_fails`). C206_over_mesh_partial: Missing: records with merges (`C206_mesh_merges_fails`). C206_run_merging_partial: Missing: chunks of one step (`C206_one_step_chunk_fails`), and the quartile criterion (`C206_quartile_fails`). C206_run_without_merging_partial: Missing: the quartile criterion (`C206_quartile_fails`). C206_run_mesh_partial: Missing: runs with merges (`C206_mesh_merges_fails`) and the quartile criterion (`C206_quartile_fails`). C206_table_partial: Missing: chunks of one step (`C206_one_step_chunk_fails`). The code does not have the full property (C206_one_step_chunk_fails): with chunks of one step the events of a record already over depend on the chunks: cells 0–1 and 3 of step 1, which follow one object of step 0, are one object for the next step when step 1 shares its chunk with step 0, and the object of step 2 does not follow it; alone, cell 3 is followed. The code does not have the full property (C206_mesh_merges_fails): on meshes with merges: eight objects have merged and are gone after step 1; when two more merge at step 4, one of them gets the ID of a past event, which from then on has cells at step 3 as well. The code does not have the full property (C206_quartile_fails): with the default `area_filter_quartile = 0.5`, three steps added at the end of a record take an event away that had been over for two steps."
  },
  {
   "property": "C207",
   "status": "partial",
   "theorems": [
    "MarEx.Props.C207_before_merges_partial",
    "MarEx.Props.C207_group_partial",
    "MarEx.Props.C207_events",
    "MarEx.Props.C207_run_partial",
    "MarEx.Props.C207_area_filter_fails",
    "MarEx.Props.C207_merging_tie_fails",
    "MarEx.Props.C207_merging_partial",
    "MarEx.Props.C207_run_merging_partial"
   ],
   "note": "C207_before_merges_partial: Missing: events that reach the first merge or come later (`C207_merging_tie_fails`). C207_group_partial: Missing: groups with merges (`C207_merging_tie_fails`). C207_run_partial: Missing: records whose first extremes form several objects, of which the area filter drops the first (`C207_area_filter_fails`). C207_merging_partial: Missing: records with merges (`C207_merging_tie_fails`). C207_run_merging_partial: Missing: records with merges (`C207_merging_tie_fails`), and records whose first extremes form several objects (`C207_area_filter_fails`). The code does not have the full property (C207_area_filter_fails): of two single cells at the first step the area filter drops the one that comes first on the map. The code does not have the full property (C207_merging_tie_fails): with merging the middle cell of the merged object, at equal distance from both, goes to the event that comes first on the map."
  },
  {
   "property": "C208",
   "status": "partial",
   "theorems": [
    "MarEx.Props.C208_events_without_merging",
    "MarEx.Props.C208_events_merging_partial",
    "MarEx.Props.C208_run_partial",
    "MarEx.Props.C208_mesh_preprocessing",
    "MarEx.Props.C208_mesh_run_partial",
    "MarEx.Props.C208_area_filter_fails",
    "MarEx.Props.C208_merging_tie_fails",
    "MarEx.Props.C208_mesh_merging_tie_fails"
   ],
   "note": "C208_events_merging_partial: Missing: records with merges (`C208_merging_tie_fails`). C208_run_partial: Missing: records with merges (`C208_merging_tie_fails`), and records whose first extremes form several objects, of which the filter drops the one numbered first (`C208_area_filter_fails`). C208_mesh_run_partial: Missing: records with merges (`C208_mesh_merging_tie_fails`). The code does not have the full property (C208_area_filter_fails): for the area filter on structured grids: of two single cells at the first step it drops the one that is numbered first. The code does not have the full property (C208_merging_tie_fails): for merges on structured grids: the middle cell of the merged object is equally near to both parents and goes with the one numbered first. The code does not have the full property (C208_mesh_merging_tie_fails): for merges on meshes, in the same way."
  },
  {
   "property": "C209",
   "status": "proved",
   "theorems": [
    "MarEx.Props.C209_grid_tables",
    "MarEx.Props.C209_orientation",
    "MarEx.Props.C209_labels",
    "MarEx.Props.C209_mesh_tables",
    "MarEx.Props.C209_mesh_numbering"
   ],
   "note": ""
  },
  {
   "property": "C210",
   "status": "proved",
   "theorems": [
    "MarEx.Props.C210_mesh_found_again",
    "MarEx.Props.C210_mesh_same_area",
    "MarEx.Props.C210_mesh_quartile",
    "MarEx.Props.C210_mesh_without_events"
   ],
   "note": ""
  },
  {
   "property": "C211",
   "status": "partial",
   "theorems": [
    "MarEx.Props.C211_grid_partial",
    "MarEx.Props.C211_grid_without_merging_partial",
    "MarEx.Props.C211_grid_first_object_fails"
   ],
   "note": "C211_grid_partial: Missing: that object, which is always lost (`C211_grid_first_object_fails`), and the events that meet it. C211_grid_without_merging_partial: Missing: the first object and the events that meet it. The code does not have the full property (C211_grid_first_object_fails): for every run on a structured grid that found an event: running again on `ID_field > 0` without filling, with an absolute area of at most one cell, always loses a cell that belonged to an event."
  },
  {
   "property": "C212",
   "status": "proved",
   "theorems": [
    "MarEx.Props.C212_grid_rows",
    "MarEx.Props.C212_mesh_rows"
   ],
   "note": ""
  },
  {
   "property": "C213",
   "status": "proved",
   "theorems": [
    "MarEx.Props.C213_present",
    "MarEx.Props.C213_between",
    "MarEx.Props.C213_weighted_mean",
    "MarEx.Props.C213_on_the_map",
    "MarEx.Props.C213_away_from_the_seam",
    "MarEx.Props.C213_area_unit",
    "MarEx.Props.C213_orientation",
    "MarEx.Props.C213_grid_same",
    "MarEx.Props.C213_mesh_present",
    "MarEx.Props.C213_mesh_same",
    "MarEx.Props.C213_mesh_numbering",
    "MarEx.Props.C213_mesh_direction",
    "MarEx.Props.C213_mesh_area_unit",
    "MarEx.Props.C213_mirrored_run",
    "MarEx.Props.C213_renumbered_run"
   ],
   "note": ""
  },
  {
   "property": "C214",
   "status": "partial",
   "theorems": [
    "MarEx.Props.C214_reported_partial",
    "MarEx.Props.C214_columns_partial",
    "MarEx.Props.C214_run_partial",
    "MarEx.Props.C214_one_step_chunk_fails",
    "MarEx.Props.C214_ledger_partial"
   ],
   "note": "C214_reported_partial: Missing: chunks of one step (`C214_one_step_chunk_fails`). C214_columns_partial: Missing: chunks of one step (`C214_one_step_chunk_fails`). C214_run_partial: Missing: chunks of one step (`C214_one_step_chunk_fails`), and the quartile criterion (`C206_quartile_fails`). C214_ledger_partial: Missing: chunks of one step (`C214_one_step_chunk_fails`); that the entries are those of the merging partners (`C26_siblings_fails`). The code does not have the full property (C214_one_step_chunk_fails): with chunks of one step the reported merges depend on the chunks: cells 0–1 and 3 of step 1, which follow one object of step 0, are one object when step 1 shares its chunk with step 0, and nothing merges at step 2; alone they are two objects, and they merge."
  },
  {
   "property": "C215",
   "status": "proved",
   "theorems": [
    "MarEx.Props.C215_objects",
    "MarEx.Props.C215_run"
   ],
   "note": ""
  }
 ]
}