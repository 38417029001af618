{
 "claims": [
  {
   "property": "C01",
   "status": "proved",
   "theorems": [
    "LGAR.C01_global_balance",
    "LGAR.C01_printed"
   ],
   "note": ""
  },
  {
   "property": "C02",
   "status": "partial",
   "theorems": [
    "LGAR.C02_cumulative",
    "LGAR.C02_groundwater_uninitialised"
   ],
   "note": "all cumulative volumes are the sums of the per-step ones, except ground-water flux, whose total starts uninitialised (proved)"
  },
  {
   "property": "C03",
   "status": "proved",
   "theorems": [
    "LGAR.C03_partition"
   ],
   "note": ""
  },
  {
   "property": "C04",
   "status": "partial",
   "theorems": [
    "LGAR.C04_pond_bounded_partial",
    "LGAR.C04_tie_fails",
    "LGAR.C04_tie_fails_insert",
    "LGAR.C04_step",
    "LGAR.C04_run_partial",
    "LGAR.C04_run_zero"
   ],
   "note": "holds for runs without the exact tie (C04_run_partial) and unconditionally with the default maximum 0 (C04_run_zero); C04_step says exactly what happens in one sub-timestep; counterexamples at the tie: C04_tie_fails, C04_tie_fails_insert"
  },
  {
   "property": "C05",
   "status": "proved",
   "theorems": [
    "LGAR.C05_free_space"
   ],
   "note": ""
  },
  {
   "property": "C06",
   "status": "proved",
   "theorems": [
    "LGAR.C06_storage_is_water"
   ],
   "note": ""
  },
  {
   "property": "C07",
   "status": "proved",
   "theorems": [
    "LGAR.C07_merge_conserves"
   ],
   "note": ""
  },
  {
   "property": "C08",
   "status": "partial",
   "theorems": [
    "LGAR.C08_cross_conserves",
    "LGAR.C08_oversaturated_loses_water",
    "LGAR.C08_fallback_loses_water",
    "LGAR.C08_cross_conserves_physical"
   ],
   "note": "conserved under the stated conditions; loss in the fallback and oversaturated cases proved"
  },
  {
   "property": "C09",
   "status": "proved",
   "theorems": [
    "LGAR.C09_bottom_flux"
   ],
   "note": ""
  },
  {
   "property": "C10",
   "status": "proved",
   "theorems": [
    "LGAR.C10_create",
    "LGAR.C10_create_merging"
   ],
   "note": ""
  },
  {
   "property": "C11",
   "status": "partial",
   "theorems": [
    "LGAR.C11_repair_books_gain",
    "LGAR.C11_booked_bounds_change",
    "LGAR.C11_lower_layer_fails"
   ],
   "note": "the lower-layer case fails (proved counterexample)"
  },
  {
   "property": "C12",
   "status": "partial",
   "theorems": [
    "LGAR.C12_detector",
    "LGAR.C12_repair_partial",
    "LGAR.C12_one_pass_fails"
   ],
   "note": "detector exact; one repair pass does not always suffice (proved counterexample)"
  },
  {
   "property": "C13",
   "status": "proved",
   "theorems": [
    "LGAR.C13_numbering"
   ],
   "note": ""
  },
  {
   "property": "C14",
   "status": "proved",
   "theorems": [
    "LGAR.C14_bottom_depth",
    "LGAR.C14_bottom_front",
    "LGAR.C14_bottom_depth_single_layer"
   ],
   "note": "existence, layer, flag and rest of the deepest front: all runs, any arithmetic (C14_bottom_front); depth = column depth: all runs in exact arithmetic, layers of positive thickness, no condition on coincidences (C14_bottom_depth)"
  },
  {
   "property": "C15",
   "status": "partial",
   "theorems": [
    "LGAR.C15_anchored_partial",
    "LGAR.C15_every_layer",
    "LGAR.C15_merge",
    "LGAR.C15_repair",
    "LGAR.C15_cross_layer",
    "LGAR.C15_cross_stray_fails",
    "LGAR.C15_cross_domain",
    "LGAR.C15_run_partial",
    "LGAR.C15_run_single_layer"
   ],
   "note": "full structure: merge, repair, bottom crossing, front creation; layer crossing needs that no non-bottom front sits on a layer bottom (counterexample proved), so whole runs: single-layer columns unconditionally, multi-layer under that condition. In every run, coincidences included: C15_anchored_partial (flagged fronts at their layer bottom, a flagged front of the same layer below every other front, a front of the next layer below) and C15_every_layer"
  },
  {
   "property": "C16",
   "status": "partial",
   "theorems": [
    "LGAR.C16_passes_safe",
    "LGAR.C16_cross_layer_safe",
    "LGAR.C16_run_partial",
    "LGAR.C16_run_single_layer",
    "LGAR.C16_speed_safe",
    "LGAR.C16_run_fails"
   ],
   "note": "Pass by pass (merge, domain crossing, repair, detection, storage, layer crossing, speed) for every well-formed column; whole Updates in runs from Initialize for single-layer columns and tie-free runs. With a tie the statement is false (C16_run_fails): an ordinary run reads outside the array of layer soils."
  },
  {
   "property": "C17",
   "status": "partial",
   "theorems": [
    "LGAR.C17_run_partial",
    "LGAR.C17_fails"
   ],
   "note": "False in general: a kernel-evaluated run reads a freed front (C17_fails). C17_run_partial gives the condition under which no freed front is used."
  },
  {
   "property": "C18",
   "status": "partial",
   "theorems": [
    "LGAR.C18_heap_find",
    "LGAR.C18_heap_delete",
    "LGAR.C18_heap_delete_absent",
    "LGAR.C18_heap_insertFirst",
    "LGAR.C18_heap_reverse",
    "LGAR.C18_heap_length",
    "LGAR.C18_heap_copy",
    "LGAR.C18_snapshot_kept",
    "LGAR.C18_heap_refines",
    "LGAR.C18_find",
    "LGAR.C18_find_old",
    "LGAR.C18_delete",
    "LGAR.C18_delete_absent",
    "LGAR.C18_delete_numbered",
    "LGAR.C18_insertFirst",
    "LGAR.C18_insertAt_partial",
    "LGAR.C18_insertAt_middle_fails",
    "LGAR.C18_copy",
    "LGAR.C18_reverse",
    "LGAR.C18_length",
    "LGAR.C18_insertAtDepth",
    "LGAR.C18_insertAtDepth_head_lost"
   ],
   "note": "insertion by number works only at the end; in the middle the code does not terminate (proved) The C18_heap_* theorems are about nodes linked by pointers in memory; C18_snapshot_kept and C18_heap_refines about whole histories."
  },
  {
   "property": "C19",
   "status": "partial",
   "theorems": [
    "LGAR.C19_sorted",
    "LGAR.C19_keeps_partial",
    "LGAR.C19_keeps_all_data_fails"
   ],
   "note": "sorted; psi, K, dzdt and the bottom flag do not travel with the front (proved counterexample)"
  },
  {
   "property": "C20",
   "status": "proved",
   "theorems": [
    "LGAR.C20_bounded",
    "LGAR.C20_saturated",
    "LGAR.C20_strict"
   ],
   "note": ""
  },
  {
   "property": "C21",
   "status": "partial",
   "theorems": [
    "LGAR.C21_head_roundtrip",
    "LGAR.C21_saturation_roundtrip",
    "LGAR.C21_se_roundtrip",
    "LGAR.C21_tiny_head_lost"
   ],
   "note": "exact inverse except heads in (0,1e-10), which are sent to 0 (proved)"
  },
  {
   "property": "C22",
   "status": "proved",
   "theorems": [
    "LGAR.C22_bounded",
    "LGAR.C22_ends",
    "LGAR.C22_strict"
   ],
   "note": ""
  },
  {
   "property": "C23",
   "status": "partial",
   "theorems": [
    "LGAR.C23_closed_form",
    "LGAR.C23_numeric_bounds",
    "LGAR.C23_closed_form_saturated",
    "LGAR.C23_numeric_overestimates"
   ],
   "note": "closed form in [0,H_c]; numeric form in [0, 11 (h_i-h_f)]; near saturation it exceeds 9 times the exact integral (proved)"
  },
  {
   "property": "C24",
   "status": "proved",
   "theorems": [
    "LGAR.C24_terminates"
   ],
   "note": ""
  },
  {
   "property": "C25",
   "status": "proved",
   "theorems": [
    "LGAR.C25_bounded",
    "LGAR.C25_curve",
    "LGAR.C25_antitone"
   ],
   "note": ""
  },
  {
   "property": "C26",
   "status": "partial",
   "theorems": [
    "LGAR.C26_upper_partial",
    "LGAR.C26_run_upper_partial",
    "LGAR.C26_limit_fails",
    "LGAR.C26_negative",
    "LGAR.C26_single_layer_partial"
   ],
   "note": "upper bound proved when the correction converges; false when it stops at its limit (C26_limit_fails) and lower bound false (C26_negative: dry-over-wet repair booked as negative ET); witnesses are at function and state level; C26_single_layer_partial: in all runs over one layer ET stays within [0, PET] (lower bound up to 2e-10 cm per sub-timestep), with a condition only on sub-timesteps that start with a single front"
  },
  {
   "property": "C27",
   "status": "partial",
   "theorems": [
    "LGAR.C27_bounds",
    "LGAR.C27_layer_mean",
    "LGAR.C27_safe_partial",
    "LGAR.C27_reads_outside",
    "LGAR.C27_warm"
   ],
   "note": "bounds, exact layer mean and warm case proved; reads behind the temperature array when the cells do not reach below the second-last layer (proved counterexample)"
  },
  {
   "property": "C28",
   "status": "proved",
   "theorems": [
    "LGAR.C28_frame",
    "LGAR.C28_speed_range"
   ],
   "note": ""
  },
  {
   "property": "C29",
   "status": "partial",
   "theorems": [
    "LGAR.C29_infiltration",
    "LGAR.C29_speed_two_layers_partial",
    "LGAR.C29_speed_equal_thickness_partial",
    "LGAR.C29_speed_computed",
    "LGAR.C29_speed_three_layers_fails"
   ],
   "note": "infiltration sum correct; speed denominator correct for two layers or equal thickness, wrong for three layers (proved)"
  },
  {
   "property": "C30",
   "status": "proved",
   "theorems": [
    "LGAR.C30_within_layer",
    "LGAR.C30_positive",
    "LGAR.C30_law",
    "LGAR.C30_defined"
   ],
   "note": ""
  },
  {
   "property": "C31",
   "status": "proved",
   "theorems": [
    "LGAR.C31_convolution",
    "LGAR.C31_run"
   ],
   "note": ""
  },
  {
   "property": "C32",
   "status": "proved",
   "theorems": [
    "LGAR.C32_conserves",
    "LGAR.C32_drains",
    "LGAR.C32_run"
   ],
   "note": ""
  },
  {
   "property": "C33",
   "status": "partial",
   "theorems": [
    "LGAR.C33_sum",
    "LGAR.C33_initialize_partial",
    "LGAR.C33_none_left"
   ],
   "note": "ordinates sum to one if the resampling keeps at least one; forcing resolution above one hour keeps none and the first Update is undefined (proved)"
  },
  {
   "property": "C34",
   "status": "partial",
   "theorems": [
    "LGAR.C34_advance",
    "LGAR.C34_time_step_partial",
    "LGAR.C34_run_partial",
    "LGAR.C34_stuck",
    "LGAR.C34_fails"
   ],
   "note": "holds iff the sub-timestep divides the forcing interval; counterexamples for other steps proved"
  },
  {
   "property": "C35",
   "status": "proved",
   "theorems": [
    "LGAR.C35_adaptive_bounds",
    "LGAR.C35_decision"
   ],
   "note": ""
  },
  {
   "property": "C36",
   "status": "proved",
   "theorems": [
    "LGAR.C36_end_time"
   ],
   "note": ""
  },
  {
   "property": "C37",
   "status": "proved",
   "theorems": [
    "LGAR.C37_refuses",
    "LGAR.C37_asserts",
    "LGAR.C37_unset"
   ],
   "note": ""
  },
  {
   "property": "C38",
   "status": "partial",
   "theorems": [
    "LGAR.C38_pass_through",
    "LGAR.C38_never_initialised",
    "LGAR.C38_initialize_ub",
    "LGAR.C38_volume_fails",
    "LGAR.C38_balance_zero"
   ],
   "note": "Update passes the rain through; but Initialize always reads outside the soil array for such types, and the rate instead of the depth is booked (proved)"
  },
  {
   "property": "C39",
   "status": "partial",
   "theorems": [
    "LGAR.C39_reaches_partial",
    "LGAR.C39_fails"
   ],
   "note": "UpdateUntil makes one Update; reaches the target exactly when one forcing interval is enough; counterexample proved"
  },
  {
   "property": "C40",
   "status": "proved",
   "theorems": [
    "LGAR.C40_once",
    "LGAR.C40_never_again",
    "LGAR.C40_booked"
   ],
   "note": ""
  },
  {
   "property": "C41",
   "status": "partial",
   "theorems": [
    "LGAR.C41_own_values_partial",
    "LGAR.C41_run_partial",
    "LGAR.C41_stale",
    "LGAR.C41_shared_fails",
    "LGAR.C41_shared_aborts"
   ],
   "note": "proved when no two layers share a soil type; otherwise the last layer's values win or the mass balance check aborts (both proved); derived Brooks-Corey values stay stale (proved)"
  },
  {
   "property": "C42",
   "status": "proved",
   "theorems": [
    "LGAR.C42_round_trip",
    "LGAR.C42_others",
    "LGAR.C42_inputs",
    "LGAR.C42_size_fails"
   ],
   "note": "round trip and non-interference for all names; setting the number of fronts changes the size of two other variables (proved)"
  },
  {
   "property": "C43",
   "status": "partial",
   "theorems": [
    "LGAR.C43_types",
    "LGAR.C43_resolves",
    "LGAR.C43_shape_fails"
   ],
   "note": "types, sizes and storage proved for every advertised name in every history; GetGridShape writes the wrong entry for grid 3 and none for 0, 1, 4 (proved)"
  },
  {
   "property": "C44",
   "status": "partial",
   "theorems": [
    "LGAR.C44_rejected",
    "LGAR.C44_metadata_partial",
    "LGAR.C44_phantoms"
   ],
   "note": "access always throws; metadata wrong for two names (proved)"
  },
  {
   "property": "C45",
   "status": "partial",
   "theorems": [
    "LGAR.C45_returned",
    "LGAR.C45_fails"
   ],
   "note": "property fails: exact returned values proved (layer tops, in cm), counterexample proved"
  },
  {
   "property": "C46",
   "status": "proved",
   "theorems": [
    "LGAR.C46_mirror",
    "LGAR.C46_mirror_run"
   ],
   "note": ""
  },
  {
   "property": "C47",
   "status": "partial",
   "theorems": [
    "LGAR.C47_refused",
    "LGAR.C47_throws_partial",
    "LGAR.C47_thickness_ub",
    "LGAR.C47_soil_z_ub"
   ],
   "note": "proved for all required keys except layer_thickness and soil_z (with soil freeze-thaw): these give undefined behaviour when missing (proved)"
  },
  {
   "property": "C48",
   "status": "partial",
   "theorems": [
    "LGAR.C48_unknown_unit",
    "LGAR.C48_wrong_values",
    "LGAR.C48_endtime_unknown",
    "LGAR.C48_hours_partial",
    "LGAR.C48_endtime_partial"
   ],
   "note": "proved for the documented units; unknown units are taken as hours (counterexamples proved)"
  },
  {
   "property": "C49",
   "status": "proved",
   "theorems": [
    "LGAR.C49_order",
    "LGAR.C49_last_line"
   ],
   "note": ""
  },
  {
   "property": "C50",
   "status": "proved",
   "theorems": [
    "LGAR.C50_vector",
    "LGAR.C50_trailing_comma"
   ],
   "note": ""
  },
  {
   "property": "C51",
   "status": "proved",
   "theorems": [
    "LGAR.C51_running_sums",
    "LGAR.C51_bottoms"
   ],
   "note": ""
  },
  {
   "property": "C52",
   "status": "partial",
   "theorems": [
    "LGAR.C52_stored",
    "LGAR.C52_flag_partial",
    "LGAR.C52_above_15_fails",
    "LGAR.C52_bushland_fails"
   ],
   "note": "proved up to 15 types; types above 15 never initialise (proved)"
  },
  {
   "property": "C53",
   "status": "partial",
   "theorems": [
    "LGAR.C53_right_line_partial",
    "LGAR.C53_uninitialised",
    "LGAR.C53_blank_in_name_fails"
   ],
   "note": "proved for names without blanks; blank in a name gives the previous soil's parameters, short files leave uninitialised memory (both proved); what a line means is C81"
  },
  {
   "property": "C54",
   "status": "proved",
   "theorems": [
    "LGAR.C54_initial",
    "LGAR.C54_real"
   ],
   "note": ""
  },
  {
   "property": "C55",
   "status": "proved",
   "theorems": [
    "LGAR.C55_free_drainage",
    "LGAR.C55_number_is_layer"
   ],
   "note": ""
  },
  {
   "property": "C56",
   "status": "proved",
   "theorems": [
    "LGAR.C56_run",
    "LGAR.C56_move",
    "LGAR.C56_run_single_layer"
   ],
   "note": "one move from any state within bounds (C56_move), and all runs, coincidences included (C56_run); meaningful soils, layers of positive thickness, with calibration also different soil types per layer (otherwise C41)"
  },
  {
   "property": "C57",
   "status": "partial",
   "theorems": [
    "LGAR.C57_steps",
    "LGAR.C57_refuses",
    "LGAR.C57_rows_partial",
    "LGAR.C57_no_newline_fails",
    "LGAR.C57_missing_cell_fails",
    "LGAR.C57_short_accepted",
    "LGAR.C57_no_overrun"
   ],
   "note": "one Update per row proved for complete files ending with a newline; without the newline the last row is used twice and a missing cell shifts the later PET values (both proved)"
  },
  {
   "property": "C58",
   "status": "proved",
   "theorems": [
    "LGAR.C58_released",
    "LGAR.C58_no_dangling",
    "LGAR.C58_live_count",
    "LGAR.C58_finalize_twice"
   ],
   "note": "Pointer-level model of the list functions and of the two owners (state->head, state->state_previous), for every allocator returning unused addresses and every sequence of the list operations Initialize and Update perform. Histories that run through; a dangling local pointer inside Update (C17_fails) is another matter. C58_finalize_twice: a second Finalize releases released nodes."
  },
  {
   "property": "C59",
   "status": "partial",
   "theorems": [
    "LGAR.C59_terminates",
    "LGAR.C59_outcome",
    "LGAR.C59_never_positive",
    "LGAR.C59_limit",
    "LGAR.C59_fails",
    "LGAR.C59_single_layer_partial"
   ],
   "note": "termination and exact outcome of the correction proved; non-negativity is false: its percolation is 0 or minus twice the excess (C59_never_positive, counterexample C59_fails); C108 says when the limit is not reached; C59_single_layer_partial: percolation reported by an Update is non-negative in all runs over one layer, with a condition only on sub-timesteps that start with a single front"
  },
  {
   "property": "C60",
   "status": "proved",
   "theorems": [
    "LGAR.C60_get",
    "LGAR.C60_set",
    "LGAR.C60_beyond_grid"
   ],
   "note": "arrays of doubles (24 of the 25 variables)"
  },
  {
   "property": "C61",
   "status": "proved",
   "theorems": [
    "LGAR.C61_surface_balance"
   ],
   "note": ""
  },
  {
   "property": "C62",
   "status": "partial",
   "theorems": [
    "LGAR.C62_forcing_taken_partial",
    "LGAR.C62_rain_lost"
   ],
   "note": "holds when the sub-timestep divides the forcing interval; a third of the rain is lost in the proved counterexample"
  },
  {
   "property": "C63",
   "status": "proved",
   "theorems": [
    "LGAR.C63_update",
    "LGAR.C63_run",
    "LGAR.C63_program",
    "LGAR.C63_reading"
   ],
   "note": ""
  },
  {
   "property": "C64",
   "status": "partial",
   "theorems": [
    "LGAR.C64_single_layer_partial",
    "LGAR.C64_fails"
   ],
   "note": "False in general (C64_fails): an ordinary run over two layers of a soil with n = 2 is stopped by the check. Proved for one-layer columns, all runs, when the moisture search of a lone front ends at its target (C64_single_layer_partial)."
  },
  {
   "property": "C65",
   "status": "partial",
   "theorems": [
    "LGAR.C65_bottom_fails",
    "LGAR.C65_single_layer_partial",
    "LGAR.C65_order_fails",
    "LGAR.C65_column_fails"
   ],
   "note": "Depth order is false even for one layer (C65_order_fails) and the bound by the column is false for several layers (C65_column_fails). For one layer all runs keep fronts within the column, wetter above, moving down; only a saturated first front may lie deeper, and a run in rounded arithmetic shows that it does (C65_bottom_fails)."
  },
  {
   "property": "C66",
   "status": "partial",
   "theorems": [
    "LGAR.C66_account",
    "LGAR.C66_released_partial",
    "LGAR.C66_needed",
    "LGAR.C66_second_use_fails",
    "LGAR.C66_initialize_twice_fails",
    "LGAR.C66_finalize_twice_fails",
    "LGAR.C66_finalize_first_fails",
    "LGAR.C66_soil_z_fails"
   ],
   "note": "True for one use with a file that has each allocating key once and soil_z only when coupled (C66_released_partial); these conditions are necessary (C66_needed). C66_account gives the exact number of blocks lost for any files and any number of uses. False for a second use, for Initialize twice, for Finalize twice or first. Not modelled: what a call of Initialize that throws leaves behind."
  },
  {
   "property": "C67",
   "status": "partial",
   "theorems": [
    "LGAR.C67_stable_partial",
    "LGAR.C67_fails"
   ],
   "note": "True for all names but two; false for soil_moisture_wetting_fronts and soil_depth_wetting_fronts, whose memory every Update releases (C67_fails)."
  },
  {
   "property": "C68",
   "status": "partial",
   "theorems": [
    "LGAR.C68_move_partial",
    "LGAR.C68_new_front",
    "LGAR.C68_update_partial",
    "LGAR.C68_single_layer_partial",
    "LGAR.C68_saturated_fails",
    "LGAR.C68_bottom_fails",
    "LGAR.C68_frozen_fails"
   ],
   "note": "True after every movement and after every Update whose last sub-timestep creates no front, for all fronts but the deepest whose head exceeds 1 cm (C68_move_partial, C68_update_partial); for one unfrozen layer after every Update (C68_single_layer_partial). False for fronts that become saturated (C68_saturated_fails), for the deepest front (C68_bottom_fails) and for new fronts in frozen soil (C68_frozen_fails, C68_new_front)."
  },
  {
   "property": "C69",
   "status": "proved",
   "theorems": [
    "LGAR.C69_step",
    "LGAR.C69_created",
    "LGAR.C69_update",
    "LGAR.C69_run"
   ],
   "note": ""
  },
  {
   "property": "C70",
   "status": "proved",
   "theorems": [
    "LGAR.C70_surface",
    "LGAR.C70_balance",
    "LGAR.C70_bound_exists",
    "LGAR.C70_not_exact"
   ],
   "note": ""
  },
  {
   "property": "C71",
   "status": "proved",
   "theorems": [
    "LGAR.C71_storage",
    "LGAR.C71_run"
   ],
   "note": ""
  },
  {
   "property": "C72",
   "status": "proved",
   "theorems": [
    "LGAR.C72_times",
    "LGAR.C72_count",
    "LGAR.C72_steps",
    "LGAR.C72_guard_needed"
   ],
   "note": ""
  },
  {
   "property": "C73",
   "status": "proved",
   "theorems": [
    "LGAR.C73_clock",
    "LGAR.C73_updates"
   ],
   "note": ""
  },
  {
   "property": "C74",
   "status": "proved",
   "theorems": [
    "LGAR.C74_routing"
   ],
   "note": ""
  },
  {
   "property": "C75",
   "status": "proved",
   "theorems": [
    "LGAR.C75_split",
    "LGAR.C75_join",
    "LGAR.C75_initialize",
    "LGAR.C75_totals",
    "LGAR.C75_count",
    "LGAR.C75_adaptive_fails"
   ],
   "note": "Both directions law-free (C75_split, C75_join), start states (C75_initialize), number of sub-timesteps (C75_count), exact totals (C75_totals). The property asks for a fixed sub-timestep; with adaptive_timestep it is false (C75_adaptive_fails)."
  },
  {
   "property": "C76",
   "status": "proved",
   "theorems": [
    "LGAR.C76_rest",
    "LGAR.C76_negative_pond_fails"
   ],
   "note": "Exact real arithmetic. The ponding depth of the file is clipped at 0 and the times are asserted positive, so these are no hypotheses; a negative ponding depth set through the BMI breaks the property (C76_negative_pond_fails)."
  },
  {
   "property": "C77",
   "status": "proved",
   "theorems": [
    "LGAR.C77_initialize",
    "LGAR.C77_run",
    "LGAR.C77_outputs",
    "LGAR.C77_groundwater_total_fails",
    "LGAR.C77_short_line_fails",
    "LGAR.C77_small_n_fails"
   ],
   "note": "The three C77_*_fails theorems show what goes wrong beyond the hypotheses: ground-water total, short line, n <= 1."
  },
  {
   "property": "C78",
   "status": "proved",
   "theorems": [
    "LGAR.C78_run",
    "LGAR.C78_outputs",
    "LGAR.C78_sharing_fails"
   ],
   "note": "C78_sharing_fails: with calibration, one shared number instead of two equal soils makes the mass-balance check stop the run."
  },
  {
   "property": "C79",
   "status": "partial",
   "theorems": [
    "LGAR.C79_step_partial",
    "LGAR.C79_standing_partial",
    "LGAR.C79_standing_runoff_drops",
    "LGAR.C79_tie_fails"
   ],
   "note": "Proved for whole sub-timesteps away from the exact coincidence 'water left = maximum' (there the code assigns nothing; C79_tie_fails shows that more rain then infiltrates nothing). C79_standing_runoff_drops: more standing water can lower the runoff, so the claim for standing water is about infiltration only."
  },
  {
   "property": "C80",
   "status": "partial",
   "theorems": [
    "LGAR.C80_drive",
    "LGAR.C80_capacity",
    "LGAR.C80_surface_partial",
    "LGAR.C80_dry_depth",
    "LGAR.C80_speed",
    "LGAR.C80_own_layer_ignored",
    "LGAR.C80_own_layer_fails"
   ],
   "note": "Monotonicity is proved for the drive, the capacity, the surface split (away from the tie of C04), the depth of new fronts and the speeds. The last sentence fails: lgar_insert_water multiplies the conductivity of the front's layer by the factor of the top front's layer, so the factor of the layer that holds the front is ignored (C80_own_layer_ignored for all columns, C80_own_layer_fails for a concrete one)."
  },
  {
   "property": "C81",
   "status": "partial",
   "theorems": [
    "LGAR.C81_lines",
    "LGAR.C81_says_partial",
    "LGAR.C81_blank_name_repeats",
    "LGAR.C81_blank_name_first",
    "LGAR.C81_long_header_shifts",
    "LGAR.C81_shipped_fails",
    "LGAR.C81_shipped_differs"
   ],
   "note": "Proved for one-word names and lines of at most 254 characters. For names of several words the soil silently gets the parameters of the soil before it (C81_blank_name_repeats), and this happens in the shipped file for soil types 7 and 11 (C81_shipped_fails); an overlong header shifts all soils by one (C81_long_header_shifts)."
  },
  {
   "property": "C82",
   "status": "proved",
   "theorems": [
    "LGAR.C82_closes",
    "LGAR.C82_closes_alone"
   ],
   "note": "Exact arithmetic. The ponded water and the calibration change are not columns; C82_closes_alone is the case without ponding and calibration, where the table and the initial storage close alone. The printed decimals are C84."
  },
  {
   "property": "C83",
   "status": "partial",
   "theorems": [
    "LGAR.C83_one_step_partial",
    "LGAR.C83_bounded",
    "LGAR.C83_fails"
   ],
   "note": "Holds when the Update makes one sub-timestep (C83_one_step_partial). The code reports only the error of the last sub-timestep: C83_fails is a run with two sub-timesteps that gains more than 1e-9 cm and reports exactly 0. C83_bounded: the reported number is at most 1e-6 m."
  },
  {
   "property": "C84",
   "status": "proved",
   "theorems": [
    "LGAR.C84_table",
    "LGAR.C84_layers",
    "LGAR.C84_written",
    "LGAR.C84_closes"
   ],
   "note": "printf is a class (LawfulPrint): digits, sign and point, right to half of the last decimal. It is implemented exactly (round half to even) and the law proved for the real numbers and the grid; that the C library does the same for doubles is assumed. nan and inf are not covered."
  },
  {
   "property": "C85",
   "status": "partial",
   "theorems": [
    "LGAR.C85_green_ampt_partial",
    "LGAR.C85_bounds",
    "LGAR.C85_homogeneous",
    "LGAR.C85_deeper",
    "LGAR.C85_frost_fails"
   ],
   "note": "for all columns, with the conductivity at the front as the code has it; the frost of the front's own layer is not used (C85_frost_fails); complete without frost differences"
  },
  {
   "property": "C86",
   "status": "partial",
   "theorems": [
    "LGAR.C86_limit",
    "LGAR.C86_closed",
    "LGAR.C86_later_partial",
    "LGAR.C86_fails"
   ],
   "note": "refuted: the limit by free pore space comes after the allowance and is zero for a saturated column (C86_closed for all inputs, C86_fails a run); C86_later_partial: water that ET took in earlier steps can be replaced"
  },
  {
   "property": "C87",
   "status": "proved",
   "theorems": [
    "LGAR.C87_bottom",
    "LGAR.C87_anchored",
    "LGAR.C87_every_layer"
   ],
   "note": "law-free but for three laws of comparison; the deepest bottom must be a finite number; example run in 53-bit arithmetic"
  },
  {
   "property": "C88",
   "status": "proved",
   "theorems": [
    "LGAR.C88_range",
    "LGAR.C88_shipped",
    "LGAR.C88_saturation_fails"
   ],
   "note": "`C88_range` holds in every correctly rounded arithmetic without overflow (class `Correct`, instance: 53-bit arithmetic `Dbl` with proved monotone rounding); pow and sqrt enter with signs and position relative to 1 only. `C88_shipped`: every soil read from the shipped tables meets the condition in 53 bits. `C88_saturation_fails`: the exact bound theta <= theta_e of C56 is false in 53-bit arithmetic, and a saturated layer may lie below theta_e."
  },
  {
   "property": "C89",
   "status": "partial",
   "theorems": [
    "LGAR.C89_found",
    "LGAR.C89_solver",
    "LGAR.C89_too_dry_fails"
   ],
   "note": "Exact real arithmetic, start water taken at the start head. `C89_solver`: the function returns a finite number, the result is the moisture at a head >= 0, no slab is off by more than the stack, and the stack is within 1e-12 unless the search gave up. Booking after giving up is right on the wet side and has the wrong sign on the dry side: `C89_too_dry_fails` (a dry coarse sand is to take 0.1 cm, stays dry, and the ET demand falls by 0.1 cm). `C89_found`: where the slopes of the water content over a range of heads around the solution (ten first steps to each side, `Gentle`) differ by at most the factor 90 and are not extreme, the search succeeds: within 1e-12 cm and the ET demand unchanged."
  },
  {
   "property": "C90",
   "status": "proved",
   "theorems": [
    "LGAR.C90_run",
    "LGAR.C90_pond",
    "LGAR.C90_zero",
    "LGAR.C90_demand"
   ],
   "note": "For every instance of `Correct` (53-bit arithmetic is one, no overflow). Ordinates and ponding maxima are assumed not negative; the code does not check either. The ponding bound has the exception of C04 (`SampleDbl.tie_check`: it exists in 53-bit arithmetic as well)."
  },
  {
   "property": "C91",
   "status": "partial",
   "theorems": [
    "LGAR.C91_single_layer_cap",
    "LGAR.C91_profile",
    "LGAR.C91_run_partial",
    "LGAR.C91_single_layer_partial",
    "LGAR.C91_losses"
   ],
   "note": "C91_profile: exact arithmetic, any profile. C91_single_layer_cap: all runs over one layer, with and without fronts below the bottom; upper bound up to 2e-10 cm per sub-timestep (tolerance of the mass correction), for columns with at most 49 cm of water between residual and saturated moisture. C91_run_partial / C91_single_layer_partial: run states; multi-layer columns ask for the stacked, ordered profile (which runs can break, see C65). C91_losses: the budget of a run."
  },
  {
   "property": "C92",
   "status": "proved",
   "theorems": [
    "LGAR.C92_resume",
    "LGAR.C92_checkpoint",
    "LGAR.C92_giuh"
   ],
   "note": "Any arithmetic. C92_resume: any two objects that agree, any inputs. C92_checkpoint: books set back, queue emptied, previous fronts dropped. C92_giuh: two configurations that differ only in the ordinates. Hypothesis Routable (at least one ordinate, queue one longer) holds after every Initialize with a non-empty resampled ordinate list; with none the convolution itself is undefined behaviour (C29)."
  },
  {
   "property": "C93",
   "status": "proved",
   "theorems": [
    "LGAR.C93_vector",
    "LGAR.C93_vector_refused",
    "LGAR.C93_table",
    "LGAR.C93_table_granted",
    "LGAR.C93_empty_exits",
    "LGAR.C93_negative_rows_fails"
   ],
   "note": "Reading through pointers is specified independently (peek, peek2). Negative sizes are not rejected (C93_negative_rows_fails: -1 rows give an array without rows and no message), and the exit for empty sizes reports success."
  },
  {
   "property": "C94",
   "status": "proved",
   "theorems": [
    "LGAR.C94_moisture",
    "LGAR.C94_nothing_to_merge",
    "LGAR.C94_finds_all",
    "LGAR.C94_between",
    "LGAR.C94_cross_finds_all",
    "LGAR.C94_nothing_to_cross",
    "LGAR.C94_bottom"
   ],
   "note": "C94_moisture, C94_finds_all, C94_nothing_to_merge in any arithmetic; the others in exact arithmetic. A pass that merges may leave or make another overtaken pair (C65_order_fails)."
  },
  {
   "property": "C95",
   "status": "proved",
   "theorems": [
    "LGAR.C95_first_layer",
    "LGAR.C95_second_layer",
    "LGAR.C95_no_step",
    "LGAR.C95_deeper_slower",
    "LGAR.C95_ponding_faster"
   ],
   "note": "C95_first_layer, C95_second_layer, C95_no_step: exact arithmetic, any list. C95_deeper_slower, C95_ponding_faster: real numbers, first layer. From the third layer on the code pairs thicknesses and conductivities of different layers (C29_speed_three_layers_fails), so there the series formula is false and not claimed."
  },
  {
   "property": "C96",
   "status": "partial",
   "theorems": [
    "LGAR.C96_update_forgets",
    "LGAR.C96_write",
    "LGAR.C96_histories_partial",
    "LGAR.C96_count",
    "LGAR.C96_count_high",
    "LGAR.C96_count_zero",
    "LGAR.C96_depths_fails",
    "LGAR.C96_count_fails"
   ],
   "note": "Proved for 13 of the 15 output variables, all histories (C96_histories_partial; C96_update_forgets: the next Update is the same and overwrites them all). soil_num_wetting_fronts: harmless without calibration (C96_count); with it a larger number dereferences NULL (C96_count_high, C96_count_fails) and 0 drops the calibration (C96_count_zero). soil_depth_layers: the write goes into the geometry (C96_depths_fails)."
  },
  {
   "property": "C97",
   "status": "partial",
   "theorems": [
    "LGAR.C97_safe_partial",
    "LGAR.C97_config",
    "LGAR.C97_initialize_partial",
    "LGAR.C97_name25_fails",
    "LGAR.C97_name30_fails",
    "LGAR.C97_no_types_fails",
    "LGAR.C97_few_types_fails",
    "LGAR.C97_negative_type_fails"
   ],
   "note": "Proved for all configurations that name their layers, give each a soil type between 0 and max_valid_soil_types >= 1, list soil_z when sft_coupled is set, and whose soil file has names shorter than 25 characters in the lines read; reading the configuration itself goes wrong only at an endtime with an unknown unit. False in general: names of 25 or at least 30 characters, max_valid_soil_types=0, fewer soil types than layers, a negative soil type."
  },
  {
   "property": "C98",
   "status": "partial",
   "theorems": [
    "LGAR.C98_soil_types",
    "LGAR.C98_run",
    "LGAR.C98_in_range_partial",
    "LGAR.C98_interval_fails"
   ],
   "note": "Proved while the number of Updates times the number of configured time steps per forcing interval (and plus the number of layers) stays below 2^31, in exact arithmetic. False in general: a time step of a microsecond makes the number of sub-timesteps exceed an int. Ints local to one Update are not covered."
  },
  {
   "property": "C99",
   "status": "proved",
   "theorems": [
    "LGAR.C99_movement",
    "LGAR.C99_update",
    "LGAR.C99_account",
    "LGAR.C99_run",
    "LGAR.C99_layers"
   ],
   "note": "In exact arithmetic. The correction of the mass balance never adds to the recharge, crossing the domain boundary deletes a front, and only the onset of a shower makes one; counted over the run."
  },
  {
   "property": "C100",
   "status": "proved",
   "theorems": [
    "LGAR.C100_clock",
    "LGAR.C100_standalone",
    "LGAR.C100_standalone_run",
    "LGAR.C100_endtime",
    "LGAR.C100_shift"
   ],
   "note": "Relational: both runs end with the same error or with states that differ only in the clock. Non-vacuity: a run where the other end time stops the stand-alone model half-way through the first Update."
  },
  {
   "property": "C101",
   "status": "proved",
   "theorems": [
    "LGAR.C101_same",
    "LGAR.C101_exact"
   ],
   "note": "The hypothesis on the soil types is needed: type 0 or a type beyond the lines of the file is uninitialised memory, whose vg_m calibration recomputes. Non-vacuity: a calibrated run of two layers; with other values in the arrays the same run books storage."
  },
  {
   "property": "C102",
   "status": "proved",
   "theorems": [
    "LGAR.C102_antiderivative",
    "LGAR.C102_mualem",
    "LGAR.C102_brooks_corey"
   ],
   "note": "For every antiderivative (one is exhibited). The numeric form of the drive is not the integral: C23_numeric_overestimates. C30_law in the same file: the depth of a new front solves the Green-Ampt balance."
  },
  {
   "property": "C103",
   "status": "proved",
   "theorems": [
    "LGAR.C103_dry",
    "LGAR.C103_recession"
   ],
   "note": "C103_dry for one Update, C103_recession over runs."
  },
  {
   "property": "C104",
   "status": "partial",
   "theorems": [
    "LGAR.C104_storage",
    "LGAR.C104_speed",
    "LGAR.C104_cross",
    "LGAR.C104_move",
    "LGAR.C104_move_found"
   ],
   "note": "C104_storage, C104_speed, C104_cross, and C104_move (in Props/Carry) up to the tolerance of the search, C104_move_found (in Props/Found) without the search giving up; for the potential rate C85_homogeneous. Not the whole Update: the movement in layer 2 and deeper searches to 1e-12 cm where layer 1 divides, so equality of whole runs is false and closeness over runs is not shown; and a new front is not made deeper than the first layer (C30), which a boundary changes."
  },
  {
   "property": "C105",
   "status": "partial",
   "theorems": [
    "LGAR.C105_inner",
    "LGAR.C105_deepest",
    "LGAR.C105_top",
    "LGAR.C105_inner_found",
    "LGAR.C105_deepest_found"
   ],
   "note": "C105_top (first layer), C105_inner (layer 2 and deeper), C105_deepest. The movement returns in all cases. Where the search of C89 gives up the water is off by more than 1e-12 cm and what happens to the ET demand is stated (SearchEnd); that this happens is C89_too_dry_fails. C105_inner_found and C105_deepest_found exclude it where the water content changes steadily with the head (`Gentle`)."
  },
  {
   "property": "C106",
   "status": "proved",
   "theorems": [
    "LGAR.C106_dries",
    "LGAR.C106_from_start"
   ],
   "note": "C106_dries (any state between Updates), C106_from_start (after Initialize). Real numbers. The range of heads is a hypothesis (`Mild`: van Genuchten n bounded by N, (hi/lo)^N <= 90, slope of the water content between 1e-13 and 10 cm/cm up to that factor; `Room`: the potential ET fits). Outside it the search may give up (C89_too_dry_fails) and the mass check may stop the program (C64)."
  },
  {
   "property": "C107",
   "status": "proved",
   "theorems": [
    "LGAR.C107_own_calls",
    "LGAR.C107_others_kept",
    "LGAR.C107_separate",
    "LGAR.C107_no_dangling",
    "LGAR.C107_released",
    "LGAR.C107_initialize_again"
   ],
   "note": "Objects share one memory with an arbitrary allocator; invariant over all interleavings with a frame condition for every list program. The limit (Initialize without Finalize leaks) is a theorem of its own, C107_initialize_again."
  },
  {
   "property": "C108",
   "status": "proved",
   "theorems": [
    "LGAR.C108_closes",
    "LGAR.C108_surplus"
   ],
   "note": "Exact arithmetic; C108_closes is the positive result, C108_surplus shows that the bound on the surplus is needed."
  },
  {
   "property": "C109",
   "status": "partial",
   "theorems": [
    "LGAR.C109_step",
    "LGAR.C109_single_layer_partial",
    "LGAR.C109_fails"
   ],
   "note": "C109_step holds for any layered column; C109_fails refutes the claim for an over-full column, built by hand (not shown to be reached by a run). C109_single_layer_partial bounds the infiltration of all runs of one-layer columns from below by -2e-10 cm per sub-timestep so far and sub-timestep of the Update. Missing: runs of several layers."
  }
 ]
}
