{"claims": [
 {"property": "C01", "status": "proved", "theorems": ["Verif.C01_fresh_ids", "Verif.C01_ids_accounted"], "note": ""},
 {"property": "C02", "status": "proved", "theorems": ["Verif.C02_never_again"], "note": "Assumes the queue manager's detailers do not change target ids."},
 {"property": "C03", "status": "proved", "theorems": ["Verif.C03_order", "Verif.C03_sound_complete", "Verif.C03_not_consuming", "Verif.C03_repeatable", "Verif.C03_core_not_consuming"], "note": "C03_order excludes times within the comparison tolerance of an expiry time (see C04); C03_sound_complete has no such restriction."},
 {"property": "C04", "status": "partial", "theorems": ["Verif.C04_unexpired_partial", "Verif.C04_core_partial", "Verif.C04_at_most_one_day", "Verif.C04_violated"], "note": "The code violates the property (witness proved): a queued expiry time within 1e-9 (relative) of now makes the test round to days."},
 {"property": "C05", "status": "partial", "theorems": ["Verif.C05_current_time_partial", "Verif.C05_mjd_ignored", "Verif.C05_violated"], "note": "The code ignores the mjd argument; witness proved."},
 {"property": "C06", "status": "proved", "theorems": ["Verif.C06_unmasked", "Verif.C06_core_unmasked", "Verif.C06_all_masked", "Verif.C06_scalar_not_a_mask"], "note": "A scalar -inf is not treated as a mask by the code."},
 {"property": "C07", "status": "proved", "theorems": ["Verif.C07_tier_priority"], "note": ""},
 {"property": "C08", "status": "proved", "theorems": ["Verif.C08_best_survey"], "note": ""},
 {"property": "C09", "status": "proved", "theorems": ["Verif.C09_none", "Verif.C09_infeasible_gives_none"], "note": ""},
 {"property": "C10", "status": "proved", "theorems": ["Verif.C10_refines", "Verif.C10_aligned", "Verif.C10_check"], "note": ""},
 {"property": "C11", "status": "proved", "theorems": ["Verif.C11_flush_iff_new", "Verif.C11_seen_never_flushes", "Verif.C11_option_off"], "note": ""},
 {"property": "C12", "status": "proved", "theorems": ["Verif.C12_scheduled"], "note": ""},
 {"property": "C13", "status": "proved", "theorems": ["Verif.C13_bulk_eq_each", "Verif.C13_empty_batch_raises"], "note": "Non-empty batches; the empty batch raises in the code (C13_empty_batch_raises)."},
 {"property": "C14", "status": "proved", "theorems": ["Verif.C14_fill", "Verif.C14_backfill"], "note": ""},
 {"property": "C15", "status": "proved", "theorems": ["Verif.C15_le_of_le", "Verif.C15_lt_sound", "Verif.C15_trichotomy", "Verif.C15_exact_when_far", "Verif.C15_swap", "Verif.C15_ne"], "note": ""},
 {"property": "C16", "status": "partial", "theorems": ["Verif.C16_elementwise_partial", "Verif.C16_le_complete", "Verif.C16_not_elementwise", "Verif.C16_violated"], "note": "The code violates the property; the negation is proved with a witness."},
 {"property": "C17", "status": "proved", "theorems": ["Verif.C17_log_exact", "Verif.C17_no_index_error", "Verif.C17_zero_size_raises"], "note": "exact for every buffer configuration whenever the run returns; sizes of 0 raise IndexError instead (witness)"},
 {"property": "C18", "status": "partial", "theorems": ["Verif.C18_visit_limit_partial", "Verif.C18_violated"], "note": "holds for limits of at least 1; a limit of 0 is ignored (witness)"},
 {"property": "C19", "status": "proved", "theorems": ["Verif.C19_time_forward"], "note": ""},
 {"property": "C20", "status": "proved", "theorems": ["Verif.C20_gives_up"], "note": ""},
 {"property": "C21", "status": "proved", "theorems": ["Verif.C21_visits_in_order"], "note": "for any kinematics with non-negative slew and visit times; clock only put forward by the caller"},
 {"property": "C22", "status": "proved", "theorems": ["Verif.C22_visit_ends_open", "Verif.C22_overlapping_downtimes"], "note": "for ordered, non-overlapping downtimes as in the quantifier; a user-supplied overlapping table is not merged and breaks it (witness)"},
 {"property": "C23", "status": "partial", "theorems": ["Verif.C23_no_downtime_partial", "Verif.C23_violated"], "note": "holds when downtimes are longer than slew plus visit; only the end of a visit is checked, so short downtimes are overlooked (witness)"},
 {"property": "C24", "status": "proved", "theorems": ["Verif.C24_jump_forward", "Verif.C24_search_ends", "Verif.C24_clouds_end", "Verif.C24_endless_violated"], "note": "includes that the search ends, with clear skies or if some night to come is open throughout; without a clear time among those tried it does not end (C24_endless_violated)"},
 {"property": "C25", "status": "partial", "theorems": ["Verif.C25_same_closed_times_partial", "Verif.C25_ends", "Verif.C25_no_error_partial", "Verif.C25_violated"], "note": "exact whenever merging returns, and it returns whenever some moment separates the downtimes; it raises when fewer than two remain (witness)"},
 {"property": "C26", "status": "partial", "theorems": ["Verif.C26_ordered_partial", "Verif.C26_first_year_partial", "Verif.C26_violated"], "note": "holds for UnscheduledDowntimeData; fails for UnscheduledDowntimeMoreY1Data, the default one, whose first-year events may fall inside regular downtimes (witness)"},
 {"property": "C27", "status": "partial", "theorems": ["Verif.C27_recorded_within_limits", "Verif.C27_lands_on_target", "Verif.C27_restricted_range", "Verif.C27_turned_within_limits_partial", "Verif.C27_violated"], "note": "the recorded cumulative azimuth stays within the limits and slews land on target; the azimuth turned while tracking is not counted, so the true cable wrap may leave the limits (witness)"},
 {"property": "C28", "status": "proved", "theorems": ["Verif.C28_unchanged", "Verif.C28_possible_iff"], "note": "an impossible slew changes nothing; with a characterisation of which slews are possible"},
 {"property": "C29", "status": "partial", "theorems": ["Verif.C29_band_mounted_partial", "Verif.C29_mount_restores", "Verif.C29_violated"], "note": "holds from the first band change or mount on; a telescope may start with, or be reset to, a band that is not mounted (witness)"},
 {"property": "C30", "status": "proved", "theorems": ["Verif.C30_one_profile", "Verif.C30_elementwise", "Verif.C30_shortest_move", "Verif.C30_shortest_acc", "Verif.C30_time_laws"], "note": "over the reals; the time is that of a constant-jerk plan within all limits and the least among symmetric ones"},
 {"property": "C31", "status": "proved", "theorems": ["Verif.C31_route_is_permutation"], "note": "for at least one town and any hull routine that returns a non-empty part of its points (an empty set of towns raises)"},
 {"property": "C32", "status": "partial", "theorems": ["Verif.C32_never_longer_partial", "Verif.C32_three_opt", "Verif.C32_violated"], "note": "a route is never longer after optimisation and at most niter improvements are made for niter of at least 1; niter=0 does not stop (witness)"},
 {"property": "C33", "status": "partial", "theorems": ["Verif.C33_note_in_night", "Verif.C33_count_partial", "Verif.C33_per_pixel_partial", "Verif.C33_night_partial", "Verif.C33_season_partial", "Verif.C33_count_per_night_violated", "Verif.C33_count_bands_violated", "Verif.C33_seeing_limit_violated", "Verif.C33_seeing_map_violated", "Verif.C33_per_pixel_bands_violated", "Verif.C33_night_bands_violated", "Verif.C33_season_pixel_zero_violated", "Verif.C33_season_border_violated"], "note": "five features; agreement for single-letter bands and seeing clear of the limit; witnesses where the two paths differ"},
 {"property": "C34", "status": "partial", "theorems": ["Verif.C34_last_observation", "Verif.C34_last_mjd", "Verif.C34_last_observed_partial", "Verif.C34_last_n_times_partial", "Verif.C34_matching_partial", "Verif.C34_last_observed_bands_violated", "Verif.C34_last_n_after_history_violated", "Verif.C34_last_n_zero_violated", "Verif.C34_matching_radius_violated"], "note": "two features agree always; three with the stated exceptions (witnesses)"},
 {"property": "C35", "status": "partial", "theorems": ["Verif.C35_pairs_partial", "Verif.C35_bulk_partial", "Verif.C35_bulk_violated", "Verif.C35_limit_gap_violated", "Verif.C35_not_reset"], "note": "single visits count exactly the pairs of the night when no gap is at a limit; bulk loading of several nights uses the wrong visits (witness)"},
 {"property": "C36", "status": "proved", "theorems": ["Verif.C36_offered", "Verif.C36_first", "Verif.C36_sorted", "Verif.C36_westward"], "note": "at a time not asked about before; asking again at the same time repeats the answer (see C37)"},
 {"property": "C37", "status": "partial", "theorems": ["Verif.C37_not_again_partial", "Verif.C37_violated", "Verif.C37_ignored_violated", "Verif.C37_stale_violated"], "note": "holds at times not asked about before the report; answers are remembered per time (witness), notes containing an ignored text are never marked (witness), stale answer after a rough call (witness)"},
 {"property": "C38", "status": "partial", "theorems": ["Verif.C38_unique", "Verif.C38_tagged_partial", "Verif.C38_violated", "Verif.C38_long_violated"], "note": "notes always differ; numbers are not reused when indices are added; without adding them they can be (witness); long notes make set_script raise (witness)"},
 {"property": "C39", "status": "partial", "theorems": ["Verif.C39_band_sort_partial", "Verif.C39_lost_violated", "Verif.C39_doubled_violated", "Verif.C39_roll", "Verif.C39_close_alt_partial", "Verif.C39_close_alt_violated"], "note": "rolling proved; sorting by band for one-letter bands all in an order without repetition, otherwise visits are lost or doubled (witnesses); closest visit away from the limit of the altitude band (witness at it). ChunkByHADetailer: see C81"},
 {"property": "C40", "status": "proved", "theorems": ["Verif.C40_pairs"], "note": "numbers of exposures per visit not modelled"},
 {"property": "C41", "status": "partial", "theorems": ["Verif.C41_longest_partial", "Verif.C41_kept_partial", "Verif.C41_violated"], "note": "longest prefix when no running time is within the rounding tolerance of the limit; whatever fits is kept in any case; at the limit more is kept (witness)"},
 {"property": "C42", "status": "partial", "theorems": ["Verif.C42_simple_partial", "Verif.C42_groups_partial", "Verif.C42_violated", "Verif.C42_witness"], "note": "up to the tolerance of comparisons at the limit; above the last boundary the scheduler raises (witness)"},
 {"property": "C43", "status": "proved", "theorems": ["Verif.C43_window"], "note": "the window is open at both ends"},
 {"property": "C44", "status": "partial", "theorems": ["Verif.C44_seeing", "Verif.C44_cloud_partial", "Verif.C44_first_violated", "Verif.C44_witness", "Verif.C44_end_violated"], "note": "seeing fully proved, for the table repeated without end; clouds between the first and last sample up to rounding; at or before the first sample the last one's value is returned (witness), and tables that start before time zero may raise (witness). Tables shorter than a year not modelled"},
 {"property": "C45", "status": "partial", "theorems": ["Verif.C45_store_partial", "Verif.C45_closest", "Verif.C45_empty_violated", "Verif.C45_growth_violated", "Verif.C45_growth_witness", "Verif.C45_late_violated"], "note": "look-up proved for every store with maps; size and contents if maps are added in order of time; otherwise additions raise and the store grows without limit, or newer maps are dropped before older ones (witnesses)"},
 {"property": "C46", "status": "partial", "theorems": ["Verif.C46_wrap_partial", "Verif.C46_violated", "Verif.C46_smallest_angle"], "note": "wrap_ra_dec keeps the direction for dec within [-5\u03c0/2, 3\u03c0/2]; outside it can leave dec out of range (witness)"},
 {"property": "C47", "status": "proved", "theorems": ["Verif.C47_inverse", "Verif.C47_slew"], "note": "all three camera conventions"},
 {"property": "C48", "status": "proved", "theorems": ["Verif.C48_roundtrip", "Verif.C48_file", "Verif.C48_delete_past", "Verif.C48_units", "Verif.C48_note_violated", "Verif.C48_no_note_raises", "Verif.C48_old_files", "Verif.C48_rows_added"], "note": "every stored column, for data frames and for files with any number of appended arrays, in exact arithmetic; the column note is not stored and reads back as uninitialised memory"},
 {"property": "C49", "status": "partial", "theorems": ["Verif.C49_season_number_partial", "Verif.C49_advances", "Verif.C49_sky_season", "Verif.C49_offset", "Verif.C49_fractional_cap"], "note": "integer season numbers; with floor=False one entry near the cap makes another entry below the cap come out as -1 (witness)"},
 {"property": "C50", "status": "partial", "theorems": ["Verif.C50_time_values", "Verif.C50_current_partial", "Verif.C50_shadow_partial", "Verif.C50_airmass_available_partial", "Verif.C50_depth_available_partial", "Verif.C50_simulator", "Verif.C50_simulator_airmass", "Verif.C50_simulator_airmass_violated", "Verif.C50_wind_violated", "Verif.C50_sun_violated", "Verif.C50_shadow_violated", "Verif.C50_depth_violated", "Verif.C50_airmass_violated", "Verif.C50_set_attrs", "Verif.C50_seeing_shared"], "note": "proved without hypotheses for values that depend on the time and sidereal time only; for the others proved when inputs without a setter do not change after use; violated otherwise, in particular for the airmass in every simulation (witnesses)"},
 {"property": "C51", "status": "partial", "theorems": ["Verif.C51_infeasible", "Verif.C51_never_selected", "Verif.C51_pointings_violated"], "note": "for base, Markov, greedy, blob, pairs, field and deep drilling surveys; PointingsSurvey ignores feasibility (witness)"},
 {"property": "C52", "status": "partial", "theorems": ["Verif.C52_never_twice_partial", "Verif.C52_pending_partial", "Verif.C52_core_told", "Verif.C52_ahead_told", "Verif.C52_nothing_raises", "Verif.C52_flush_empty", "Verif.C52_mask_violated", "Verif.C52_flush_violated", "Verif.C52_refill_violated", "Verif.C52_queue_doubled_violated", "Verif.C52_time"], "note": "proved for all in-order histories without flush when the queue has no masks and its visits do not expire; violated with masks, after a flush and after expiry (witnesses)"},
 {"property": "C53", "status": "partial", "theorems": ["Verif.C53_crash_partial", "Verif.C53_update_partial", "Verif.C53_interrupted_partial", "Verif.C53_force_repairs", "Verif.C53_fresh_sound", "Verif.C53_prefix", "Verif.C53_finishes_partial", "Verif.C53_unreadable", "Verif.C53_default_skips", "Verif.C53_range_ignored", "Verif.C53_force_violated", "Verif.C53_missing_violated", "Verif.C53_downgrade_violated", "Verif.C53_torn_violated", "Verif.C53_cleaned"], "note": "proved for every crash point of runs without force when everything recorded as current was complete at the start; violated with force, with a recorded directory missing, after a downgrade and when the version file is cut (witnesses)"},
 {"property": "C54", "status": "partial", "theorems": ["Verif.C54_line", "Verif.C54_line_monotone", "Verif.C54_slopes", "Verif.C54_slopes_monotone", "Verif.C54_whole_monotone", "Verif.C54_growth", "Verif.C54_before", "Verif.C54_slopes_before", "Verif.C54_cycles_partial", "Verif.C54_after_partial", "Verif.C54_total_partial", "Verif.C54_whole_violated", "Verif.C54_no_start_violated"], "note": "never decreasing: proved. Uniform at the end of each cycle if the survey starts with a season without rolling; otherwise the first slice to roll is behind for ever (witness). Rises given as whole numbers lose the growth within a season (witness)"},
 {"property": "C55", "status": "partial", "theorems": ["Verif.C55_last_night_partial", "Verif.C55_last_night_violated", "Verif.C55_bands_partial", "Verif.C55_no_bands_violated", "Verif.C55_windows", "Verif.C55_pattern_partial", "Verif.C55_empty_pattern_violated", "Verif.C55_limits", "Verif.C55_airmass_partial", "Verif.C55_airmass_violated", "Verif.C55_not_twilight", "Verif.C55_time_to_twilight", "Verif.C55_close_partial", "Verif.C55_close_violated", "Verif.C55_after_evening_partial", "Verif.C55_after_evening_violated", "Verif.C55_end_of_night_partial", "Verif.C55_end_of_night_violated", "Verif.C55_time_in_twilight", "Verif.C55_scheduled_partial", "Verif.C55_scheduled_violated", "Verif.C55_once_partial", "Verif.C55_once_violated", "Verif.C55_delay", "Verif.C55_soft_delay_partial", "Verif.C55_soft_delay_violated", "Verif.C55_fraction", "Verif.C55_hour_angle_partial", "Verif.C55_hour_angle_violated", "Verif.C55_ahead_partial", "Verif.C55_ahead_start_violated", "Verif.C55_jump_unit_violated", "Verif.C55_moonset_violated", "Verif.C55_moonrise_violated", "Verif.C55_note"], "note": "exact windows with their ends; the code departs from its documentation in the cases of the witnesses"},
 {"property": "C56", "status": "partial", "theorems": ["Verif.C56_at_least_one", "Verif.C56_roomy", "Verif.C56_one_kind_partial", "Verif.C56_longest_partial", "Verif.C56_default_partial", "Verif.C56_violated_change", "Verif.C56_violated_tie", "Verif.C56_violated_twilight"], "note": "the band change is not counted when a block is stretched, and with several kinds of deadline the later one can win (witnesses)"},
 {"property": "C57", "status": "partial", "theorems": ["Verif.C57_within", "Verif.C57_per_night", "Verif.C57_per_call", "Verif.C57_raises", "Verif.C57_small_partial", "Verif.C57_small_max_partial", "Verif.C57_small_violated"], "note": "random angles are always within the limits, but raise after too many calls in a night (witness); sequential rotations are for small steps, large ones go below the lower limit (witness)"},
 {"property": "C58", "status": "partial", "theorems": ["Verif.C58_azimuth_partial", "Verif.C58_azimuth_violated", "Verif.C58_declination", "Verif.C58_maps", "Verif.C58_hour_angle_range", "Verif.C58_hour_angle_partial", "Verif.C58_hour_angle_violated", "Verif.C58_reverse", "Verif.C58_reward_rising", "Verif.C58_azimuth_distance", "Verif.C58_rising_partial", "Verif.C58_rising_violated"], "note": "ranges over zero of azimuth and hour angle hide the whole sky, and the rising test does not wrap its hour angle (witnesses); azimuths clear of the comparison tolerance"},
 {"property": "C59", "status": "partial", "theorems": ["Verif.C59_history_partial", "Verif.C59_simulation", "Verif.C59_nonempty_queue_partial", "Verif.C59_violated"], "note": "Missing: an array of several visits reported while the queue is empty, which the code does not pass on; witness proved. Simulations report visits one by one and miss nothing."},
 {"property": "C60", "status": "proved", "theorems": ["Verif.C60_surveys_hear_everything", "Verif.C60_latest_conditions"], "note": ""},
 {"property": "C61", "status": "proved", "theorems": ["Verif.C61_note"], "note": ""},
 {"property": "C62", "status": "proved", "theorems": ["Verif.C62_simulation_ends", "Verif.C62_observatory_progress"], "note": "the second theorem: the modelled observatory meets the hypothesis of the first"},
 {"property": "C63", "status": "proved", "theorems": ["Verif.C63_conditions_fresh"], "note": ""},
 {"property": "C64", "status": "proved", "theorems": ["Verif.C64_bands_mounted"], "note": ""},
 {"property": "C65", "status": "proved", "theorems": ["Verif.C65_new_night"], "note": "for every telescope model"},
 {"property": "C66", "status": "proved", "theorems": ["Verif.C66_slew_covers_all", "Verif.C66_repeat_costs_overhead", "Verif.C21_telescope_times", "Verif.C66_dome", "Verif.C66_left_over"], "note": "the last theorem: the telescope model meets the assumption made in C21-C24"},
 {"property": "C67", "status": "partial", "theorems": ["Verif.C67_resolved_partial", "Verif.C67_raises_only_on_ties", "Verif.C67_raises", "Verif.C67_not_nearest", "Verif.C67_chosen_partial"], "note": "the result is reachable and equivalent; but equally near choices raise, and the current rotator angle is evaluated at the wrong position, so the move is not always the smallest (witnesses)"},
 {"property": "C68", "status": "partial", "theorems": ["Verif.C68_closed_loop_partial", "Verif.C68_violated"], "note": "closed loop delay holds; the open loop delay divides by the slope instead of multiplying (witness)"},
 {"property": "C69", "status": "proved", "theorems": ["Verif.C69_cheapest_insertion"], "note": ""},
 {"property": "C70", "status": "partial", "theorems": ["Verif.C70_note_in_night", "Verif.C70_count", "Verif.C70_night", "Verif.C70_per_pixel_partial", "Verif.C70_note_violated"], "note": "NObservations tests the note the wrong way round (witness)"},
 {"property": "C71", "status": "partial", "theorems": ["Verif.C71_exposures_partial", "Verif.C71_alternating_partial", "Verif.C71_violated", "Verif.C71_withheld_violated"], "note": "band changes are counted where the band stays the same (witnesses both ways); exposures always end before twilight"},
 {"property": "C72", "status": "partial", "theorems": ["Verif.C72_all_announced_partial", "Verif.C72_array_partial", "Verif.C72_violated", "Verif.C72_extended_violated"], "note": "outstanding visits are always announced; completed ones may be too (witnesses)"},
 {"property": "C73", "status": "partial", "theorems": ["Verif.C73_repeats_partial", "Verif.C73_violated"], "note": "complete repeats of a prefix; more than fit are planned (witness: 990 s in 120 s)"},
 {"property": "C74", "status": "partial", "theorems": ["Verif.C74_flush_by", "Verif.C74_violated", "Verif.C74_witness"], "note": "FlushBy proved; FlushForSched never changes anything"},
 {"property": "C75", "status": "proved", "theorems": ["Verif.C75_tracking"], "note": "for configured texts of at most 60 characters; spaces in the reason become underscores"},
 {"property": "C76", "status": "partial", "theorems": ["Verif.C76_random_band", "Verif.C76_substitute", "Verif.C76_violated"], "note": "random band proved; the replacement band may not be mounted (witness)"},
 {"property": "C77", "status": "partial", "theorems": ["Verif.C77_numbered_partial", "Verif.C77_violated"], "note": "for notes of at most 40 characters; the number is cut off long notes (witness)"},
 {"property": "C78", "status": "partial", "theorems": ["Verif.C78_split_partial", "Verif.C78_repeated_violated", "Verif.C78_history_violated", "Verif.C78_history_witness"], "note": "places proved for detailers which keep the number of visits; a single visit left is repeated (witness) and completed visits reach neither detailer"},
 {"property": "C79", "status": "partial", "theorems": ["Verif.C79_exposure_partial", "Verif.C79_violated"], "note": "for limits in whole seconds (witness otherwise); the wanted time is arbitrary"},
 {"property": "C80", "status": "proved", "theorems": ["Verif.C80_rotator"], "note": "parallactic angle arbitrary"},
 {"property": "C81", "status": "partial", "theorems": ["Verif.C81_chunks_partial", "Verif.C81_raises", "Verif.C81_violated", "Verif.C81_bins_violated", "Verif.C81_hour_angle"], "note": "visits in bands not configured are lost, no visit above the limit raises, and chunks hold equal numbers of visits instead of bins of hour angle (witnesses); the route within a chunk is any permutation (see C31)"},
 {"property": "C82", "status": "partial", "theorems": ["Verif.C82_alternates_partial", "Verif.C82_violated", "Verif.C82_witness"], "note": "unless the set that would be chosen is mounted already, as after a restart: then it stays on all dark nights"},
 {"property": "C83", "status": "partial", "theorems": ["Verif.C83_swaps_partial", "Verif.C83_violated", "Verif.C83_empty_violated"], "note": "from the first swap on; before it, and for an empty schedule, the scheduler raises"},
 {"property": "C84", "status": "partial", "theorems": ["Verif.C84_visible_partial", "Verif.C84_raises", "Verif.C84_late_violated", "Verif.C84_late_witness"], "note": "visibility test proved; raises if no pixel is above the limit; an alert not visible when first seen never empties the queue later (witness)"},
 {"property": "C85", "status": "partial", "theorems": ["Verif.C85_update_partial", "Verif.C85_plan_partial", "Verif.C85_once_partial", "Verif.C85_untyped_violated", "Verif.C85_early_violated", "Verif.C85_outside_violated", "Verif.C85_nothing_configured"], "note": "when nothing raises; alerts without type, not yet started (with updated start) or without centre outside the survey's footprint raise (witnesses). Detailers for new events: see C238; tilings arbitrary"},
 {"property": "C86", "status": "partial", "theorems": ["Verif.C86_night_partial", "Verif.C86_before_violated", "Verif.C86_first_night", "Verif.C86_evening_partial", "Verif.C86_zone_violated"], "note": "from the first sunset on; dates on a computer not ahead of UTC (witness otherwise)"},
 {"property": "C87", "status": "proved", "theorems": ["Verif.C87_inverse", "Verif.C87_monotone", "Verif.C87_system", "Verif.C87_airmass"], "note": "real numbers; one band"},
 {"property": "C88", "status": "proved", "theorems": ["Verif.C88_monotone", "Verif.C88_split"], "note": "real numbers; one band; extinction and read noise not negative"},
 {"property": "C89", "status": "partial", "theorems": ["Verif.C89_answer_partial", "Verif.C89_norm_violated", "Verif.C89_set_violated", "Verif.C89_raise_violated"], "note": "for a time other than that of the last request, or the same request again; otherwise stale answers (witnesses)"},
 {"property": "C90", "status": "partial", "theorems": ["Verif.C90_slices", "Verif.C90_sizes", "Verif.C90_members_partial", "Verif.C90_total_partial", "Verif.C90_edge_violated", "Verif.C90_small_violated"], "note": "pixels on the dividing meridians count twice, and a slice without pixels raises (witnesses). Which pixels are north of the galactic equator is arbitrary"},
 {"property": "C91", "status": "partial", "theorems": ["Verif.C91_loaded", "Verif.C91_never_violated", "Verif.C91_end_violated"], "note": "a band never loaded raises; bands always loaded go beyond one after the survey (witnesses)"},
 {"property": "C92", "status": "partial", "theorems": ["Verif.C92_after", "Verif.C92_night_partial", "Verif.C92_night_violated", "Verif.C92_product", "Verif.C92_area", "Verif.C92_member_violated"], "note": "counts of the last night hold until the first visit of the new one, and members of an area check are not told of visits (witnesses)"},
 {"property": "C93", "status": "partial", "theorems": ["Verif.C93_exact", "Verif.C93_tolerant_partial", "Verif.C93_cloud_partial", "Verif.C93_cloud_violated"], "note": "clouds at the limit are hidden by the mask and accepted by the feasibility function (witness); values clear of the comparison tolerance"},
 {"property": "C94", "status": "partial", "theorems": ["Verif.C94_blob_partial", "Verif.C94_blob_enough_partial", "Verif.C94_greedy_violated", "Verif.C94_pairs_violated", "Verif.C94_pairs_partial", "Verif.C94_whole_partial", "Verif.C94_times", "Verif.C94_masks", "Verif.C94_blob_unfit_partial", "Verif.C94_masks_sizes"], "note": "holds for blob surveys with separations away from the radius; pairs compare square degrees with steradians; greedy surveys raise"},
 {"property": "C95", "status": "proved", "theorems": ["Verif.C95_weighted_sum", "Verif.C95_masked"], "note": "exact arithmetic; smoothing is any function that keeps masked pixels masked"},
 {"property": "C96", "status": "partial", "theorems": ["Verif.C96_field_mean", "Verif.C96_minus_infinity_violated"], "note": "minus infinity can become plus infinity"},
 {"property": "C97", "status": "proved", "theorems": ["Verif.C97_greedy"], "note": ""},
 {"property": "C98", "status": "proved", "theorems": ["Verif.C98_grow", "Verif.C98_no_error"], "note": "neighbour relation abstract and symmetric"},
 {"property": "C99", "status": "partial", "theorems": ["Verif.C99_fields", "Verif.C99_simple_best", "Verif.C99_best_first", "Verif.C99_first_pass", "Verif.C99_passes", "Verif.C99_radius_violated", "Verif.C99_third_band"], "note": "later passes are not limited to the radius"},
 {"property": "C100", "status": "partial", "theorems": ["Verif.C100_field_sequence", "Verif.C100_field_mounted", "Verif.C100_ddf_mounted", "Verif.C100_ddf_flush", "Verif.C100_field_flush_partial", "Verif.C100_field_flush_violated", "Verif.C100_ddf_sequence_partial", "Verif.C100_ddf_order_violated", "Verif.C100_ddf_length_violated"], "note": "wrong conversion to days in field surveys; order of deep drilling bands lost"},
 {"property": "C101", "status": "partial", "theorems": ["Verif.C101_counts", "Verif.C101_counts_array", "Verif.C101_tracking_violated", "Verif.C101_unique_notes", "Verif.C101_limits_partial", "Verif.C101_hour_angle_partial", "Verif.C101_hour_angle_violated", "Verif.C101_stale", "Verif.C101_gap_violated", "Verif.C101_balance_values", "Verif.C101_balance_violated", "Verif.C51_pointings_violated", "Verif.C101_all_masked", "Verif.C101_boost", "Verif.C101_no_boost"], "note": "limits hold for a fresh reward with values clear of them; several parts violated (witnesses)"},
 {"property": "C102", "status": "partial", "theorems": ["Verif.C102_scheduled", "Verif.C102_not_too_high", "Verif.C102_low_enough", "Verif.C102_least_shift", "Verif.C102_gap_partial", "Verif.C102_gap_violated", "Verif.C102_zenith_violated", "Verif.C102_endless", "Verif.C102_short_gap_ignored", "Verif.C102_short_gap_violated", "Verif.C102_kept", "Verif.C102_cleared", "Verif.C102_restart_violated", "Verif.C102_reward", "Verif.C102_script_first"], "note": "which visits, times and the least shift are proved; range, altitude after the scheduled time, end of night and restart are violated (witnesses)"},
 {"property": "C103", "status": "proved", "theorems": ["Verif.C103_fresh", "Verif.C103_asking", "Verif.C103_base", "Verif.C103_limited", "Verif.C103_no_pixels"], "note": "for every class whose computation is the same after updating its features to the conditions; the base class caches for the time of the conditions"},
 {"property": "C104", "status": "partial", "theorems": ["Verif.C104_fast_partial", "Verif.C104_rounding_violated", "Verif.C104_gap", "Verif.C104_penalty_violated"], "note": "a pixel at the gap makes the comparison of the whole map coarse; the penalty of VisitGap is never used"},
 {"property": "C105", "status": "partial", "theorems": ["Verif.C105_repeat_partial", "Verif.C105_rounding_violated"], "note": "a pixel at an end of the gap makes the comparison of the whole map coarse"},
 {"property": "C106", "status": "partial", "theorems": ["Verif.C106_windows_partial", "Verif.C106_unvisited_violated", "Verif.C106_trapezoid", "Verif.C106_smooth", "Verif.C106_enhanced"], "note": "the reward raises as long as one pixel of the area was not visited"},
 {"property": "C107", "status": "partial", "theorems": ["Verif.C107_strict_partial", "Verif.C107_strict_alone_partial", "Verif.C107_note_violated", "Verif.C107_change", "Verif.C107_share_partial", "Verif.C107_share_order_partial"], "note": "the free text of a visit reported by itself has to be its whole note"},
 {"property": "C108", "status": "proved", "theorems": ["Verif.C108_slew", "Verif.C108_order"], "note": "for maps of more than one pixel"},
 {"property": "C109", "status": "partial", "theorems": ["Verif.C109_year_partial", "Verif.C109_after", "Verif.C109_behind_partial", "Verif.C109_good_seeing", "Verif.C109_season_partial", "Verif.C109_rounding_violated"], "note": "values at the tolerance of a comparison make the comparison of the whole map coarse (witness); band names of several letters are left out"},
 {"property": "C110", "status": "proved", "theorems": ["Verif.C110_value", "Verif.C110_order", "Verif.C110_balance"], "note": "for any normalised footprint and counts of visits"},
 {"property": "C111", "status": "partial", "theorems": ["Verif.C111_balance", "Verif.C111_boost_violated", "Verif.C111_sequence", "Verif.C111_zero"], "note": "no boost before the whole reference number of visits"},
 {"property": "C112", "status": "partial", "theorems": ["Verif.C112_near_sun_partial", "Verif.C112_rounding_violated"], "note": "values at the tolerance of a comparison make the comparison of the whole map coarse (witness)"},
 {"property": "C113", "status": "partial", "theorems": ["Verif.C113_safe", "Verif.C113_exact_partial", "Verif.C113_two_ranges_violated", "Verif.C113_leak_violated", "Verif.C113_rounding_violated", "Verif.C113_times_partial", "Verif.C113_step_violated", "Verif.C113_pad", "Verif.C113_all_around_partial", "Verif.C113_nothing_masked_violated", "Verif.C113_limited", "Verif.C113_cache_partial", "Verif.C113_stale_violated"], "note": "several open azimuth ranges, or one and limits of the survey, are mixed up; the cache ignores changed limits; padding raises when nothing is masked"},
 {"property": "C114", "status": "partial", "theorems": ["Verif.C114_fresh_ids", "Verif.C114_fast_slow", "Verif.C114_next_id_partial", "Verif.C114_told_partial", "Verif.C114_observatory", "Verif.C114_order_violated", "Verif.C114_bands_violated", "Verif.C114_warm_told", "Verif.C114_warm_order"], "note": "tables in another order than the run, or with no visit up to the one asked for, raise; without a band scheduler the band in use may not be mounted"},
 {"property": "C115", "status": "partial", "theorems": ["Verif.C115_interpolated_partial", "Verif.C115_gap", "Verif.C115_any_history_partial", "Verif.C115_load", "Verif.C115_ends", "Verif.C115_end_of_load_violated", "Verif.C115_last_map_violated", "Verif.C115_masked_violated", "Verif.C115_extrapolated_partial", "Verif.C115_extrapolate_violated", "Verif.C115_bad_value_violated", "Verif.C115_memory"], "note": "the last map loaded is dropped, so the last interval in memory is not interpolated; masked pixels are averaged; extrapolation looks up the wrong pixel unless the masked ones come first"},
 {"property": "C116", "status": "proved", "theorems": ["Verif.C116_between", "Verif.C116_outside"], "note": "for samples at rising positions"},
 {"property": "C117", "status": "proved", "theorems": ["Verif.C117_seen", "Verif.C117_separation", "Verif.C117_up"], "note": "real arithmetic"},
 {"property": "C118", "status": "proved", "theorems": ["Verif.C118_direction", "Verif.C118_range", "Verif.C118_there_and_back", "Verif.C118_back_and_there"], "note": "real arithmetic; the azimuth and the right ascension are not determined at the zenith and the poles"},
 {"property": "C119", "status": "partial", "theorems": ["Verif.C119_lmst", "Verif.C119_range_partial", "Verif.C119_range_any", "Verif.C119_east_violated", "Verif.C119_day", "Verif.C119_epoch"], "note": "east of Greenwich the sidereal time can be 24 hours or more"},
 {"property": "C120", "status": "proved", "theorems": ["Verif.C120_zenith", "Verif.C120_formulas"], "note": "not at the celestial poles"},
 {"property": "C121", "status": "proved", "theorems": ["Verif.C121_angle", "Verif.C121_symm", "Verif.C121_zero", "Verif.C121_triangle"], "note": "real arithmetic"},
 {"property": "C122", "status": "proved", "theorems": ["Verif.C122_radius", "Verif.C122_direction", "Verif.C122_round", "Verif.C122_turns"], "note": "real arithmetic; scaled integer trees are not covered"},
 {"property": "C123", "status": "partial", "theorems": ["Verif.C123_bearing", "Verif.C123_dest", "Verif.C123_arrive", "Verif.C123_round", "Verif.C123_far_as_asked", "Verif.C123_line_partial", "Verif.C123_far_violated"], "note": "the distance to an arc is wrong for points more than 90 degrees from its first end; bearings of destinations are not from the poles"},
 {"property": "C124", "status": "partial", "theorems": ["Verif.C124_plane", "Verif.C124_sky", "Verif.C124_there_and_back", "Verif.C124_back_and_there", "Verif.C124_distance", "Verif.C124_rotate", "Verif.C124_opposite_violated"], "note": "opposite positions on the sky are projected to the same point"},
 {"property": "C125", "status": "partial", "theorems": ["Verif.C125_sound", "Verif.C125_complete", "Verif.C125_radius_partial", "Verif.C125_opposite_violated"], "note": "objects on the opposite side of the sky are reported as seen"},
 {"property": "C126", "status": "partial", "theorems": ["Verif.C126_within", "Verif.C126_one_per_night", "Verif.C126_each_partial", "Verif.C126_restored_partial", "Verif.C126_seeds", "Verif.C126_new_night_violated"], "note": "with an offset per visit, calls of a night before its first report go on counting from the night before; right ascensions are not brought back to one turn"},
 {"property": "C127", "status": "partial", "theorems": ["Verif.C127_within", "Verif.C127_one_per_night", "Verif.C127_foreign", "Verif.C127_new_night_violated"], "note": "with an offset per visit, calls of a night before its first report go on counting from the night before"},
 {"property": "C128", "status": "partial", "theorems": ["Verif.C128_frame", "Verif.C128_expand", "Verif.C128_empty_violated"], "note": "an empty list raises"},
 {"property": "C129", "status": "proved", "theorems": ["Verif.C129_grid", "Verif.C129_cover", "Verif.C129_parallactic"], "note": "real arithmetic"},
 {"property": "C130", "status": "partial", "theorems": ["Verif.C130_allowed", "Verif.C130_returns", "Verif.C130_near_partial", "Verif.C130_exact", "Verif.C130_near_violated", "Verif.C130_lost_violated"], "note": "a free allowed cell of a rise is passed over once a cell before it is masked or used; rises of more than one and a count in the first cell are lost"},
 {"property": "C131", "status": "partial", "theorems": ["Verif.C131_goal", "Verif.C131_value", "Verif.C131_rising_partial", "Verif.C131_total", "Verif.C131_alone", "Verif.C131_rising_violated", "Verif.C131_one_night_violated", "Verif.C131_boost"], "note": "over seasons without any rate the number falls to zero; a single night with a rate gives no number; a partial season on its own gets the whole number"},
 {"property": "C132", "status": "partial", "theorems": ["Verif.C132_clear", "Verif.C132_best", "Verif.C132_nights", "Verif.C132_count_partial", "Verif.C132_no_error_partial", "Verif.C132_offseason_violated", "Verif.C132_pushed_violated", "Verif.C132_lost_violated"], "note": "times out of season are used by the low rate and when nights are masked; sequences are lost; a season without rate between others and boosts are not covered by the theorem on errors"},
 {"property": "C133", "status": "partial", "theorems": ["Verif.C133_visits_partial", "Verif.C133_count_partial", "Verif.C133_limits", "Verif.C133_whole", "Verif.C133_returns_partial", "Verif.C133_moon_violated", "Verif.C133_empty_violated", "Verif.C133_odd_violated", "Verif.C133_early_violated", "Verif.C133_parity"], "note": "the distance from the moon is not set for the first field of a pair; odd numbers for a pair are made even; nothing to schedule raises; early and late sequences ignore the season length"},
 {"property": "C134", "status": "proved", "theorems": ["Verif.C134_level", "Verif.C134_child", "Verif.C134_trixel", "Verif.C134_number", "Verif.C134_all"], "note": ""},
 {"property": "C135", "status": "partial", "theorems": ["Verif.C135_cover", "Verif.C135_disjoint", "Verif.C135_find_partial", "Verif.C135_fast", "Verif.C135_same_partial", "Verif.C135_level_one_violated", "Verif.C135_fast_violated"], "note": "level 1 never ends for a single position; on the planes between octants arrays of more than 100 positions get other numbers than single positions"},
 {"property": "C136", "status": "partial", "theorems": ["Verif.C136_full_partial", "Verif.C136_outside_partial", "Verif.C136_some", "Verif.C136_all", "Verif.C136_only_partial", "Verif.C136_level_one_violated", "Verif.C136_full_violated", "Verif.C136_base_violated"], "note": "regions of more than a half of the sphere can have triangles that are not full taken as full; the largest triangles can be missed; level 1 gives level 2"},
 {"property": "C137", "status": "partial", "theorems": ["Verif.C137_merge", "Verif.C137_unique", "Verif.C137_order", "Verif.C137_join_partial", "Verif.C137_empty_violated"], "note": "joining with an empty set raises"},
 {"property": "C138", "status": "partial", "theorems": ["Verif.C138_around", "Verif.C138_through", "Verif.C138_meet", "Verif.C138_meet_all_partial", "Verif.C138_parallel_violated"], "note": "no point is returned for planes that are nearly parallel; two points closer than 2e-10 are returned as one"},
 {"property": "C139", "status": "partial", "theorems": ["Verif.C139_first", "Verif.C139_no_hole", "Verif.C139_returns_partial", "Verif.C139_coarse_violated"], "note": "no map is returned when no pixel has its centre in the Magellanic Clouds"},
 {"property": "C140", "status": "partial", "theorems": ["Verif.C140_visits", "Verif.C140_labels", "Verif.C140_bands", "Verif.C140_none_violated"], "note": "without any weight the numbers are nan"},
 {"property": "C141", "status": "proved", "theorems": ["Verif.C141_highest", "Verif.C141_reached"], "note": ""},
 {"property": "C142", "status": "partial", "theorems": ["Verif.C142_fov", "Verif.C142_array_partial", "Verif.C142_single_violated", "Verif.C142_grow", "Verif.C142_grows_partial", "Verif.C142_empty_violated", "Verif.C142_refused"], "note": "an array of one position gives a list of pixels and not a list of lists; an empty mask raises an exception"},
 {"property": "C143", "status": "proved", "theorems": ["Verif.C143_stat", "Verif.C143_order", "Verif.C143_map"], "note": ""},
 {"property": "C144", "status": "partial", "theorems": ["Verif.C144_number", "Verif.C144_total", "Verif.C144_area", "Verif.C144_mean_partial", "Verif.C144_coarse_violated"], "note": "a pixel larger than those of the map fills only one of them"},
 {"property": "C145", "status": "partial", "theorems": ["Verif.C145_times", "Verif.C145_all_partial", "Verif.C145_last_violated"], "note": "the last passage is always left out"},
 {"property": "C146", "status": "partial", "theorems": ["Verif.C146_rows", "Verif.C146_event_partial", "Verif.C146_none_violated"], "note": "a night without an event has the time zero, and so has the first of all nights"},
 {"property": "C147", "status": "partial", "theorems": ["Verif.C147_rigid", "Verif.C147_nearest", "Verif.C147_night_partial", "Verif.C147_call_partial", "Verif.C147_never", "Verif.C147_end_violated"], "note": "after the last prepared turn (night 7305 by default) an exception is raised; the fields of night -1 depend on earlier nights"},
 {"property": "C148", "status": "partial", "theorems": ["Verif.C148_surveys", "Verif.C148_distinct_partial", "Verif.C148_same_violated", "Verif.C148_basis_partial", "Verif.C148_base", "Verif.C148_twice_violated"], "note": "a name ending in a number can equal the label of another survey; a survey that is not in a list raises an exception; a basis function used twice has one label"},
 {"property": "C149", "status": "partial", "theorems": ["Verif.C149_rows", "Verif.C149_shrinks", "Verif.C149_core", "Verif.C149_empty", "Verif.C149_empty_violated", "Verif.C149_chosen"], "note": "when no survey has basis functions the table raises an exception, and so does a scheduler that keeps its rewards; the shrinking area is shown for surveys without a wanted area or smoothing"},
 {"property": "C150", "status": "proved", "theorems": ["Verif.C150_ignored", "Verif.C150_survey", "Verif.C150_notes", "Verif.C150_empty_text"], "note": "for each part that replays, as shown for features in C33"},
 {"property": "C151", "status": "partial", "theorems": ["Verif.C151_region_partial", "Verif.C151_replaced_partial", "Verif.C151_ddf_partial", "Verif.C151_long_violated"], "note": "Labels that fit the 60 characters of the column; longer texts are cut."},
 {"property": "C152", "status": "partial", "theorems": ["Verif.C152_zero_partial", "Verif.C152_zero_violated", "Verif.C152_camera", "Verif.C152_parallactic", "Verif.C152_parallactic_usual", "Verif.C152_quarter_partial", "Verif.C152_quarter_violated"], "note": "Zero rotation and quarter turns hold for the right parallactic angle; the code asks for it with radians for degrees and, for quarter turns, converts the result twice."},
 {"property": "C153", "status": "partial", "theorems": ["Verif.C153_start_partial", "Verif.C153_counted", "Verif.C153_radius_violated"], "note": "Only for the radius of 3.5 degrees, which is built in whatever is asked for."},
 {"property": "C154", "status": "partial", "theorems": ["Verif.C154_filter", "Verif.C154_nexp", "Verif.C154_tag_partial", "Verif.C154_tag_violated", "Verif.C154_alert"], "note": "The mark of visits near a place is cut where the note leaves no room."},
 {"property": "C155", "status": "partial", "theorems": ["Verif.C155_depth", "Verif.C155_masked_partial", "Verif.C155_corner_violated"], "note": "Pixels with eight neighbours; at those with seven the last pixel of the map is used for the missing one. "},
 {"property": "C156", "status": "proved", "theorems": ["Verif.C156_best", "Verif.C156_never"], "note": "For exposures of at most the 30 seconds of the dark sky depth."},
 {"property": "C157", "status": "partial", "theorems": ["Verif.C157_mask", "Verif.C157_pressure_partial", "Verif.C157_unmasked_violated", "Verif.C157_azimuth"], "note": "The softer form never masks although documented to."},
 {"property": "C158", "status": "proved", "theorems": ["Verif.C158_planets"], "note": "Up to the grid on which positions are rounded."},
 {"property": "C159", "status": "partial", "theorems": ["Verif.C159_altitude_partial", "Verif.C159_south_violated"], "note": "Only north of the site."},
 {"property": "C160", "status": "partial", "theorems": ["Verif.C160_retry_partial", "Verif.C160_first", "Verif.C160_endless_violated"], "note": "Where answers that are no success are errors; others repeat the request without end."},
 {"property": "C161", "status": "proved", "theorems": ["Verif.C161_nights", "Verif.C161_columns"], "note": "SQL is modelled by the predicate of its WHERE clause, dates by the calendar."},
 {"property": "C162", "status": "partial", "theorems": ["Verif.C162_middle_partial", "Verif.C162_north_violated", "Verif.C162_midpoint", "Verif.C162_ids_partial", "Verif.C162_ids_violated", "Verif.C162_band"], "note": "Azimuths to both sides of the north, and nights of ten thousand visits, are excepted."},
 {"property": "C163", "status": "proved", "theorems": ["Verif.C163_airmass", "Verif.C163_depth", "Verif.C163_sky"], "note": "Over the real numbers."},
 {"property": "C164", "status": "partial", "theorems": ["Verif.C164_night_partial", "Verif.C164_early_violated"], "note": "Independence of other visits holds without visits from before the survey."},
 {"property": "C165", "status": "partial", "theorems": ["Verif.C165_slew_partial", "Verif.C165_order_violated"], "note": "For rows returned in order of time, which the query does not ask for."},
 {"property": "C166", "status": "partial", "theorems": ["Verif.C166_patch_partial", "Verif.C166_turn_violated", "Verif.C166_sphere"], "note": "Right ascensions of a patch may be above a full turn."},
 {"property": "C167", "status": "partial", "theorems": ["Verif.C167_guess_partial", "Verif.C167_evening_violated", "Verif.C167_linear", "Verif.C167_refined", "Verif.C167_warning_violated", "Verif.C167_sidereal"], "note": "The first guess for a body fixed among the stars, and what the end of the refinement means; documented words for the direction and the warning do not work."},
 {"property": "C168", "status": "partial", "theorems": ["Verif.C168_rotation_partial", "Verif.C168_parallel_violated"], "note": "For unit vectors that are neither the same nor opposite."},
 {"property": "C169", "status": "partial", "theorems": ["Verif.C169_masks_partial", "Verif.C169_repeats", "Verif.C169_others_partial", "Verif.C169_short_violated", "Verif.C169_greedy_violated", "Verif.C169_grid_violated", "Verif.C169_simple_partial", "Verif.C169_simple_violated"], "note": "Single visits ignore the caller's dictionary, short pairs the caller's longer shadow, and dictionaries without a resolution get the default one. The shadow of simple pairs does not grow with the block."},
 {"property": "C170", "status": "partial", "theorems": ["Verif.C170_grid_partial", "Verif.C170_survey_violated"], "note": "For dictionaries naming the resolution."},
 {"property": "C171", "status": "partial", "theorems": ["Verif.C171_ceiling_partial", "Verif.C171_pairs_violated"], "note": "Pairs take the ceiling only from the dictionary."},
 {"property": "C172", "status": "partial", "theorems": ["Verif.C172_weights", "Verif.C172_simple", "Verif.C172_simple_each", "Verif.C172_near_sun", "Verif.C172_repeat_partial", "Verif.C172_repeat_violated"], "note": "The penalty for repeats of simple pairs is lost in two bands."},
 {"property": "C173", "status": "partial", "theorems": ["Verif.C173_names", "Verif.C173_singles", "Verif.C173_near_sun_violated", "Verif.C173_long_partial", "Verif.C173_long_violated", "Verif.C173_u_partial", "Verif.C173_u_violated"], "note": "Several pairs before a long gap share the first reason; pairs in u ignore the number of exposures; visits near the sun have one name in all bands."},
 {"property": "C174", "status": "partial", "theorems": ["Verif.C174_list_partial", "Verif.C174_list_violated"], "note": "Without keeping clear of twilight."},
 {"property": "C175", "status": "proved", "theorems": ["Verif.C175_roman"], "note": ""},
 {"property": "C176", "status": "partial", "theorems": ["Verif.C176_usual_partial", "Verif.C176_date_violated", "Verif.C176_shift_violated", "Verif.C176_grid_violated"], "note": "Only for the default date and resolution."},
 {"property": "C177", "status": "proved", "theorems": ["Verif.C177_nights"], "note": ""},
 {"property": "C178", "status": "partial", "theorems": ["Verif.C178_table_partial", "Verif.C178_stale_violated"], "note": "When only the two files with a checksum and the arguments change."},
 {"property": "C179", "status": "partial", "theorems": ["Verif.C179_sunset_partial", "Verif.C179_first_violated"], "note": "From the first sunset of the almanac on."},
 {"property": "C180", "status": "partial", "theorems": ["Verif.C180_row", "Verif.C180_area", "Verif.C180_order", "Verif.C180_period_partial", "Verif.C180_period_violated"], "note": "Mergers are made in their own period."},
 {"property": "C181", "status": "partial", "theorems": ["Verif.C181_sso_partial", "Verif.C181_neutrino_violated"], "note": "For solar system alerts; the number of neutrino alerts is fixed."},
 {"property": "C182", "status": "proved", "theorems": ["Verif.C182_taken"], "note": ""},
 {"property": "C183", "status": "proved", "theorems": ["Verif.C183_visits", "Verif.C183_ends"], "note": "For nights and downtimes in order and a telescope whose times are not negative (C21_telescope_times shows that of the modelled one)."},
 {"property": "C184", "status": "proved", "theorems": ["Verif.C184_once"], "note": "For detailers and observatories that keep target ids."},
 {"property": "C185", "status": "partial", "theorems": ["Verif.C185_fresh_partial", "Verif.C185_stale_violated"], "note": "With new conditions before every visit, up to the rounding of C04."},
 {"property": "C186", "status": "proved", "theorems": ["Verif.C186_reachable"], "note": ""},
 {"property": "C187", "status": "proved", "theorems": ["Verif.C187_factorial", "Verif.C187_history"], "note": "Orders and factorials asked for are whole numbers."},
 {"property": "C188", "status": "partial", "theorems": ["Verif.C188_refused", "Verif.C188_definition_partial", "Verif.C188_negative", "Verif.C188_sign_violated", "Verif.C188_rim", "Verif.C188_outside_partial", "Verif.C188_outside_violated", "Verif.C188_array_partial", "Verif.C188_array_violated"], "note": "Exact arithmetic. The sign for negative angular orders is not that of the definition; polynomials that vanish keep their value outside the disc; arrays have no value on the rim."},
 {"property": "C189", "status": "partial", "theorems": ["Verif.C189_orthogonal", "Verif.C189_norm_partial", "Verif.C189_norm_violated"], "note": "Orthogonality for all orders; norms when the orders are both even or both odd: the other polynomials vanish and their norms do not."},
 {"property": "C190", "status": "proved", "theorems": ["Verif.C190_cartesian", "Verif.C190_array"], "note": "Arrays inside the disc; see C188 for its rim."},
 {"property": "C191", "status": "proved", "theorems": ["Verif.C191_limits", "Verif.C191_percent", "Verif.C191_cap"], "note": "Percentages above zero. The other settings of telescope and camera are the same for both."},
 {"property": "C192", "status": "proved", "theorems": ["Verif.C192_no_detour", "Verif.C192_change", "Verif.C192_slew"], "note": "Single targets."},
 {"property": "C193", "status": "partial", "theorems": ["Verif.C193_current", "Verif.C193_report_partial", "Verif.C193_last_violated", "Verif.C193_end_violated", "Verif.C193_tables"], "note": "While a scheduled downtime is still to come; the end said is the last end of the downtimes that cover the time. After the start of the last scheduled downtime the call raises; another downtime may cover the end said."},
 {"property": "C194", "status": "proved", "theorems": ["Verif.C194_date", "Verif.C194_order"], "note": "Days of the Modified Julian Date from 0 on, years of at most four digits."},
 {"property": "C195", "status": "partial", "theorems": ["Verif.C195_covers_partial", "Verif.C195_fields", "Verif.C195_gap_violated", "Verif.C195_twice_violated"], "note": "Covered for an overlap of at least an eighth of the side and sides up to 11 degrees. Without overlap there are gaps, since n fields make n-1 steps; the first and last field of a stripe are the same."},
 {"property": "C196", "status": "partial", "theorems": ["Verif.C196_seen", "Verif.C196_visits", "Verif.C196_drift", "Verif.C196_reward", "Verif.C196_later_violated", "Verif.C196_detailer_violated"], "note": "At the time the visits are handed out, with a bound on the drift when made later. They stay queued for days and then point elsewhere; a survey without the converting detailer is not refused and its visits have no position."},
 {"property": "C197", "status": "partial", "theorems": ["Verif.C197_range", "Verif.C197_choice_partial", "Verif.C197_digits_violated", "Verif.C197_other_violated"], "note": "For names whose first day has the same number of digits and no other files of the kind: text order differs from number order otherwise, and any other file makes the set-up fail."},
 {"property": "C198", "status": "partial", "theorems": ["Verif.C198_once", "Verif.C198_surveys", "Verif.C198_next_night_violated"], "note": "The night is that of the latest visit; in a new night the surveys are held up until its first visit."},
 {"property": "C199", "status": "partial", "theorems": ["Verif.C199_square_partial", "Verif.C199_eighths_partial", "Verif.C199_turned_violated"], "note": "The field is turned the wrong way: right only for multiples of 45 degrees. Up to the rounding of the search tree, which is bounded."},
 {"property": "C200", "status": "proved", "theorems": ["Verif.C200_heard"], "note": ""},
 {"property": "C201", "status": "proved", "theorems": ["Verif.C201_table", "Verif.C201_range", "Verif.C201_near", "Verif.C201_between", "Verif.C201_planet"], "note": "Interpolation is a parameter assumed to pass through its samples and to answer between the first and last; linear interpolation is shown to."},
 {"property": "C202", "status": "partial", "theorems": ["Verif.C202_listed", "Verif.C202_done_partial", "Verif.C202_crash", "Verif.C202_force", "Verif.C202_cut_violated", "Verif.C202_error_page_violated", "Verif.C202_index_violated"], "note": "Violated: a file cut off by a crash and an error page are kept for good by later runs without force; some index pages raise or hide links (witnesses)."},
 {"property": "C203", "status": "partial", "theorems": ["Verif.C203_table_partial", "Verif.C203_exists", "Verif.C203_changes", "Verif.C203_before_violated", "Verif.C203_later_violated", "Verif.C203_visit_violated"], "note": "Proved right after the reward was computed for the same conditions; violated before the first reward, at a later time, and after a visit at the same time (witnesses)."},
 {"property": "C204", "status": "partial", "theorems": ["Verif.C204_constant", "Verif.C204_norm", "Verif.C204_norm_exists", "Verif.C204_ecliptic", "Verif.C204_cuts", "Verif.C204_combined_violated"], "note": "Violated: a constant footprint cannot be combined with others. Exact arithmetic."},
 {"property": "C205", "status": "partial", "theorems": ["Verif.C205_forgets_partial", "Verif.C205_values", "Verif.C205_extra_violated", "Verif.C205_no_filter_violated"], "note": "Proved for every attribute that is reset or set; extra attributes of earlier calls stay, and a missing filter raises (witnesses)."},
 {"property": "C206", "status": "proved", "theorems": ["Verif.C206_followed", "Verif.C206_count", "Verif.C206_last", "Verif.C206_pixels"], "note": "With the core scheduler. Counts need band names of one letter (the code tests with `in`), maps of counts a seeing off its limit."},
 {"property": "C207", "status": "partial", "theorems": ["Verif.C207_count", "Verif.C207_last", "Verif.C207_pixels", "Verif.C207_empty_violated"], "note": "For visits at different times, at least one, with the conditions of C33 and C206. A simulation without visits gives a table that raises (witness)."},
 {"property": "C208", "status": "proved", "theorems": ["Verif.C208_source", "Verif.C208_rule"], "note": "With the core scheduler, begun without queue and conditions, for columns that detailers of the queue and the observatory leave alone."},
 {"property": "C209", "status": "partial", "theorems": ["Verif.C209_pieces_partial", "Verif.C209_bands_violated", "Verif.C209_end_violated", "Verif.C209_reject_violated"], "note": "For observatories whose clock does not go back, no limit on visits, a band scheduler that leaves the mounted bands alone at the cut and a first piece that ends before the end of the whole. Fails for the band scheduler of uzy swaps, which mounts the other bands when a run begins within a night; for a first piece that stops exactly at the end; and for two visits in a row turned down with the cut between them, where one run gives up."},
 {"property": "C210", "status": "partial", "theorems": ["Verif.C210_same", "Verif.C210_rewards_partial", "Verif.C210_unkept_violated", "Verif.C210_novisits_violated", "Verif.C210_twice_violated"], "note": "With the core scheduler keeping its rewards, begun without queue, for visits of different times, at least one, and a counter that grows from fill to fill. Fails when the scheduler does not keep its rewards (raises at the end), without visits (tables not returned), and for a queue turned down as a whole (the table of its fill is lost)."},
 {"property": "C211", "status": "partial", "theorems": ["Verif.C211_script_partial", "Verif.C211_once_partial", "Verif.C211_ignored_violated"], "note": "For simulations begun without queue and conditions, other surveys that do not use the note, exposures that take time, detailers that neither multiply visits nor let them expire sooner, and notes the survey does not ignore. Fails for a note the survey ignores: such a visit is never marked and is made again and again."},
 {"property": "C212", "status": "partial", "theorems": ["Verif.C212_unmasked_partial", "Verif.C212_moon_partial", "Verif.C212_field_violated", "Verif.C212_later_violated"], "note": "For surveys whose detailers keep position, band and note, other surveys that do not use the notes, and simulations begun without queue and conditions. The place of the visit itself may be masked, as the field of an unmasked pixel may have its centre in a masked one, and by the time of the visit the pixel may have become masked: both have witnesses."},
 {"property": "C213", "status": "partial", "theorems": ["Verif.C213_prefix_partial", "Verif.C213_sizes_partial", "Verif.C213_size_violated", "Verif.C213_limit_violated"], "note": "For positive sizes and, where the limits of visits differ, positive limits. An array of size zero raises IndexError, and a limit of zero visits limits nothing: both have witnesses."},
 {"property": "C214", "status": "partial", "theorems": ["Verif.C214_same_partial", "Verif.C214_memory_violated", "Verif.C214_expiry_violated"], "note": "For surveys and detailers that remember nothing but the visits they are told of, detailers that give one visit for one, no queue masks and visits that do not expire. A survey that remembers being asked is asked in the same state each time by the wrapper, and the rest of a block generated after an expiry is forgotten: both have witnesses."},
 {"property": "C215", "status": "partial", "theorems": ["Verif.C215_added_partial", "Verif.C215_after", "Verif.C215_construct_violated", "Verif.C215_flush_violated", "Verif.C215_scale_violated", "Verif.C215_twice_violated"], "note": "Of the call, which no constructed object can make: the constructor names a feature that does not exist. The schedule does not scale with time, the copies keep an expiry time already used, and overlapping fields are served twice; each has a witness."},
 {"property": "C216", "status": "partial", "theorems": ["Verif.C216_sky_partial", "Verif.C216_depth_partial", "Verif.C216_south_violated", "Verif.C216_left_out_violated"], "note": "For bins whose pixels all culminate north of the zenith side the code gets right. The reflection of altitudes above 90 degrees subtracts 90 instead of subtracting from 180, so pixels on the other side are counted at a wrong altitude or left out; both have witnesses."},
 {"property": "C217", "status": "partial", "theorems": ["Verif.C217_rows_partial", "Verif.C217_instruments", "Verif.C217_repeated_violated", "Verif.C217_latiss_violated", "Verif.C217_latiss_partial"], "note": "For ids that are not repeated. A visit with two quick-look rows is in the merged table four times, and the LATISS depths look for one column and read another; both have witnesses."},
 {"property": "C218", "status": "partial", "theorems": ["Verif.C218_once_partial", "Verif.noteOf_unique", "Verif.C218_ignored_violated"], "note": "For visits whose note is shorter than 60 characters, is used by no other survey, and is not among those the survey ignores; an ignored note is a witness of the violation. A survey that has raised falls silent in the model."},
 {"property": "C219", "status": "proved", "theorems": ["Verif.C219_same_night", "Verif.C219_long_overhead"], "note": "Assumes that a slew with its visit, the overhead and the waiting step together are shorter than every day between nights (C219_long_overhead shows that this is needed) and that no call raised."},
 {"property": "C220", "status": "partial", "theorems": ["Verif.C220_feasible_partial", "Verif.C220_twilight_partial", "Verif.C220_later_violated"], "note": "The survey was feasible when the visit was asked for, in the same night; visits of a survey that avoids twilight never begin before the end of evening twilight. Visits of a block may be made after the survey has become infeasible, with a witness."},
 {"property": "C221", "status": "proved", "theorems": ["Verif.C221_blocks", "Verif.C221_order", "Verif.C221_masked"], "note": "The strict order holds for queues without masks and visits that do not expire; C221_masked shows a block made in another order because its first visit was hidden by a mask."},
 {"property": "C222", "status": "proved", "theorems": ["Verif.C222_no_time_lost", "Verif.C222_masked"], "note": "Surveys have heard of all visits made so far when they are asked. C222_masked shows that with masks of the queue time is lost although a survey of a later tier could observe."},
 {"property": "C223", "status": "proved", "theorems": ["Verif.C223_nights", "Verif.C223_onlyBefore", "Verif.C223_nightModulo", "Verif.C223_start_by_night", "Verif.C223_two_starts"], "note": "For greedy and blob surveys. C223_start_by_night shows that the start has to be by day, C223_two_starts that the night column is right only if scheduler and observatory were given the same start."},
 {"property": "C224", "status": "partial", "theorems": ["Verif.C224_window_partial", "Verif.C224_late_violated"], "note": "Missing: a visit may be begun after its expiry (C224_late_violated), because conditions are not renewed while another visit of the queue is good; C185_fresh_partial bounds the delay."},
 {"property": "C225", "status": "partial", "theorems": ["Verif.C225_ahead_partial", "Verif.C225_idle_violated", "Verif.C225_expiry_violated"], "note": "Missing: surveys that remember being asked (C214_memory_violated), visits that expire (C225_expiry_violated), masks, and detailers that change the number of visits. Where the plain simulation steps over a moment with nothing to observe, the one with the wrapper raises (C225_idle_violated). The telescope is asked to stay as it is when it is parked twice; the modelled one does (parks_telescope)."},
 {"property": "C226", "status": "proved", "theorems": ["Verif.C226_site", "Verif.C226_equal"], "note": ""},
 {"property": "C227", "status": "partial", "theorems": ["Verif.C227_lookup", "Verif.C227_compressed", "Verif.C227_set_partial", "Verif.C227_set_violated"], "note": "Lookup is proved in full. Setting is proved for names without blanks around them; a name with blanks can be set but is never found (C227_set_violated)."},
 {"property": "C228", "status": "partial", "theorems": ["Verif.C228_wrap_partial", "Verif.C228_wrap_violated", "Verif.C228_parallactic"], "note": "Missing: hour angles below -180 degrees are left as they are (C228_wrap_violated); the parallactic angle is not affected (C228_parallactic)."},
 {"property": "C229", "status": "proved", "theorems": ["Verif.C229_arrays", "Verif.C229_degrees"], "note": ""},
 {"property": "C230", "status": "partial", "theorems": ["Verif.C230_trixel", "Verif.C230_half_partial", "Verif.C230_symm_violated", "Verif.C230_points_violated", "Verif.C230_trans_violated"], "note": "Proved for trixels made from ids. Equality of half spaces is reflexive and symmetric but not transitive, and equal ones may differ by 2.9 arcseconds; equality of other trixels is not symmetric."},
 {"property": "C231", "status": "partial", "theorems": ["Verif.C231_versions", "Verif.C231_command_partial", "Verif.C231_given_violated", "Verif.C231_status_violated"], "note": "A dictionary that is given is not looked at (C231_given_violated), and the status of --versions is always 0 (C231_status_violated); the rest is proved."},
 {"property": "C232", "status": "partial", "theorems": ["Verif.C232_snapshots_partial", "Verif.C232_long_violated"], "note": "Proved if no visit, with its slew and the overhead after it, takes longer than park_after; with longer ones the call made for the snapshot parks the telescope and the visits differ (C232_long_violated)."},
 {"property": "C233", "status": "partial", "theorems": ["Verif.C233_named_partial", "Verif.C233_kept_partial", "Verif.C233_lost_violated"], "note": "Names are right if there is always something to observe, and nothing is lost if every call leads to a visit; while there is nothing to observe all snapshots get the same name (C233_lost_violated)."},
 {"property": "C234", "status": "partial", "theorems": ["Verif.C234_where_partial", "Verif.C234_band_partial", "Verif.C234_mounted", "Verif.C234_band_violated", "Verif.C234_where_violated"], "note": "The position is the one at the beginning of the last slew, and the band is taken before the telescope is parked; proved where these make no difference."},
 {"property": "C235", "status": "partial", "theorems": ["Verif.C235_parked_partial", "Verif.C235_long_violated"], "note": "The time is counted from the beginning of the slew, so visits longer than park_after are followed by parking (C235_long_violated)."},
 {"property": "C236", "status": "proved", "theorems": ["Verif.C236_slewtimes"], "note": ""},
 {"property": "C237", "status": "partial", "theorems": ["Verif.C237_columns_partial", "Verif.C237_airmass_violated"], "note": "Everything but the airmass is as claimed; the airmass, and seeing and depth with it, is that of the altitude at the beginning of the slew, while the altitude in the table is that at the beginning of the exposure (C237_airmass_violated). Formulas for seeing, sky, depth and coordinates are parameters."},
 {"property": "C238", "status": "partial", "theorems": ["Verif.C238_bands_partial", "Verif.C238_rest", "Verif.C238_note_violated", "Verif.C238_later_violated"], "note": "Bands proved when the distance is known and u and g are mounted as the alert comes in; all else is proved to be as without the detailers. Notes and exposures are those of the bands replaced (C238_note_violated), and the moon at the time of the alert decides for visits up to 39 days later (C238_later_violated)."},
 {"property": "C239", "status": "partial", "theorems": ["Verif.C239_safe_partial", "Verif.C239_place_partial", "Verif.C239_singles_violated"], "note": "For numbers not within the tolerance of a limit, and masks that can be computed. The pixel of the place itself is shown to keep the limits of altitude and azimuth (C239_place_partial), not those of moon, planets and wind (C212_field_violated). A visit may be later than the time looked ahead (C212_later_violated). Single visits ignore the caller's limits (C239_singles_violated)."},
 {"property": "C240", "status": "proved", "theorems": ["Verif.C240_turned", "Verif.C240_calls", "Verif.C240_passes", "Verif.C240_features", "Verif.C240_before_start_violated"], "note": "Nights are counted from a time by day before the first night: in a night with the number -1 fields that are to be turned every night are not turned (C240_before_start_violated)."},
 {"property": "C241", "status": "partial", "theorems": ["Verif.C241_visits_partial", "Verif.C241_later_violated"], "note": "That the survey is feasible when the visit begins does not hold: a sequence is worked off though the survey has become infeasible (C241_later_violated)."},
 {"property": "C242", "status": "partial", "theorems": ["Verif.C242_share_partial", "Verif.C242_share_violated"], "note": "Proved up to the visits of one sequence: the limit is only checked when a sequence is asked for (C242_share_violated). Surveys are assumed not to ignore visits."},
 {"property": "C243", "status": "proved", "theorems": ["Verif.C243_delay", "Verif.C243_within"], "note": "Within a sequence nothing waits (C243_within). Surveys are assumed not to ignore visits."},
 {"property": "C244", "status": "proved", "theorems": ["Verif.C244_third"], "note": "whole simulations with long gap surveys among others; the pair survey within is arbitrary; a survey whose scheduling raises offers nothing from then on (the code would stop)"},
 {"property": "C245", "status": "proved", "theorems": ["Verif.C245_alert"], "note": "whole simulations with surveys that follow alerts among others; pointings may be any function of the alert (random rotations); a survey that raises offers nothing from then on (the code would stop)"},
 {"property": "C246", "status": "proved", "theorems": ["Verif.C246_blocks", "Verif.C246_mates", "Verif.C246_pairs"], "note": "whole simulations; detailers of the queue and the observatory keep place, note and id of a visit (KeptRows); notes of up to 57 characters (longer ones lose their tag, C40); starts with an empty queue"},
 {"property": "C247", "status": "partial", "theorems": ["Verif.C247_times", "Verif.C247_rows_partial", "Verif.C247_error", "Verif.C247_planned", "Verif.C247_moon_violated"], "note": "fails for the Moon at times without an answer of the sky model: it is that of a time before (C247_moon_violated); planned times are never such (C247_planned). The sky model is not in this repository: any function of the time; a failed answer is taken to leave the one before in place"},
 {"property": "C248", "status": "partial", "theorems": ["Verif.C248_once_partial", "Verif.C248_numbers", "Verif.C248_no_more_partial", "Verif.C248_ignored_violated"], "note": "for notes below the full length of the column; fails for a script that is told to ignore its own visits (C248_ignored_violated); visits are not reported as an array during a simulation"},
 {"property": "C249", "status": "partial", "theorems": ["Verif.C249_history_partial", "Verif.C249_fast_partial", "Verif.C249_count_partial", "Verif.C249_block_violated"], "note": "at the time of the choice; the visits of a block are made later and do not know each other (C249_block_violated); times within the tolerance of the gap and names of bands of several letters are left out; features begin as given, before any visits"},
 {"property": "C250", "status": "partial", "theorems": ["Verif.C250_total", "Verif.C250_at_most", "Verif.C250_random_partial", "Verif.C250_survey_violated", "Verif.C250_first_year_violated"], "note": "for downtimes in order without overlap, which the random ones are; the first-year variant counts overlaps twice (C250_first_year_violated), and events are not cut at the end of the survey (C250_survey_violated)"},
 {"property": "C251", "status": "proved", "theorems": ["Verif.C251_idle", "Verif.C251_meanwhile", "Verif.C251_empty_violated"], "note": "tiers left without any survey have to be removed as well: an empty tier makes the scheduler raise; the general form is about surveys that are not feasible in the conditions of the simulation"},
 {"property": "C252", "status": "proved", "theorems": ["Verif.C252_order"], "note": "rewards changed survey by survey, not basis function by basis function; no tier may be empty"},
 {"property": "C253", "status": "proved", "theorems": ["Verif.C253_listing", "Verif.C253_tie"], "note": "no tier may be empty"},
 {"property": "C254", "status": "proved", "theorems": ["Verif.C254_tiers", "Verif.C254_near"], "note": "two tiers that follow each other; no tier may be empty"},
 {"property": "C255", "status": "partial", "theorems": ["Verif.C255_weights_partial", "Verif.C255_fixed_violated"], "note": "smoothing of maps has to be linear; rewards of other surveys have to go along with the weights, which those of deep drilling surveys do not"},
 {"property": "C256", "status": "proved", "theorems": ["Verif.C256_quiet"], "note": "whole simulations; alerts of other types may be announced; alerts without a type make the surveys raise and are excluded"},
 {"property": "C257", "status": "partial", "theorems": ["Verif.C257_resume_partial", "Verif.C257_count_partial", "Verif.C257_queue_violated"], "note": "for queues whose masks and detailers keep nothing of visits (violated otherwise: an empty queue does not pass the table on), surveys for which the sorted table is the same as one visit after the other (as proved for features in C33-C35), without flushing for alerts, visits at different times"},
 {"property": "C258", "status": "proved", "theorems": ["Verif.C258_numbers"], "note": "whole simulations; no class of the code other than the scheduler and its queue reads target_id"},
 {"property": "C259", "status": "partial", "theorems": ["Verif.C259_later_partial", "Verif.C259_nearest_violated"], "note": "for clouds and downtimes as functions of time, unless a call raises; violated for samples of the weather: the nearest one is taken, also from later"},
 {"property": "C260", "status": "partial", "theorems": ["Verif.C260_day_partial", "Verif.C260_clouds_violated"], "note": "for downtimes, unless a call raises; violated for clouds: cloudy times are passed over in steps of twenty minutes that go on through the day"},
 {"property": "C261", "status": "proved", "theorems": ["Verif.C261_ends", "Verif.C261_core", "Verif.C261_almanac_needed", "Verif.C261_reach_needed", "Verif.C261_tiers_needed", "Verif.C261_bands_needed"], "note": "C261_ends is for any scheduler that answers, C261_core for the core scheduler; the last four show that the assumptions are needed"},
 {"property": "C262", "status": "proved", "theorems": ["Verif.C262_at_most", "Verif.C262_at_least", "Verif.C262_core"], "note": "C262_core is for the core scheduler without masks in its queue and without expiry times, as in C222"},
 {"property": "C263", "status": "partial", "theorems": ["Verif.C263_origin_partial", "Verif.C263_core_partial", "Verif.C263_flush_violated", "Verif.C263_expiry_violated"], "note": "violated by the code at the time -1, which marks that nothing was flushed yet, and by the tolerance of the core scheduler for expiry times, which grows with the size of dates; proved for simulations later than -1 and schedulers that look at differences of times only; for the core scheduler itself with visits that do not expire"},
 {"property": "C264", "status": "proved", "theorems": ["Verif.C264_step", "Verif.C264_overhead", "Verif.C264_update", "Verif.C264_limit", "Verif.C264_step_needed"], "note": "for any objects with the methods that the loop calls; C264_step_needed shows that the step matters as soon as there is nothing to observe"},
 {"property": "C265", "status": "partial", "theorems": ["Verif.C265_numbers", "Verif.C265_again", "Verif.C265_integers_partial", "Verif.C265_around_zero_partial", "Verif.C265_fraction_violated"], "note": "proved for arrays of numbers; for arrays of integers with limits that are integers, and within limits on both sides of zero; violated for arrays of integers with other limits, which are cut off towards zero"},
 {"property": "C266", "status": "proved", "theorems": ["Verif.C266_angle", "Verif.C266_back"], "note": "in real numbers"},
 {"property": "C267", "status": "proved", "theorems": ["Verif.C267_copy", "Verif.C267_again", "Verif.C267_order", "Verif.C267_angle"], "note": "conversions to the type of a column are any function of the value, taken not to raise"}
]}
