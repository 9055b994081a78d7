{"id": "C01", "title": "Target ids are never reused", "statement": "Every visit the scheduler itself places in its queue gets a target_id that is different from, and larger than, every target_id it assigned before and every target_id it had been told about through add_observation / add_observations_array at that point.", "quantifier": "Every interleaving of request_observation, add_observation, add_observations_array, flush_queue, append_to_queue, mark_observation_completed and update_conditions, with any surveys, conditions and queue contents.", "why_tests_cant": "Uniqueness is a statement about all pairs of ids over an unbounded history; a test only sees a few short histories.", "anchors": ["rubin_scheduler/scheduler/schedulers/core_scheduler.py:CoreScheduler._fill_queue", "rubin_scheduler/scheduler/schedulers/core_scheduler.py:CoreScheduler.add_observation", "rubin_scheduler/scheduler/schedulers/core_scheduler.py:CoreScheduler.add_observations_array"]}
{"id": "C02", "title": "A completed visit is never requested again", "statement": "Once a visit has been reported through add_observation, add_observations_array or mark_observation_completed (and its id lies below the scheduler's counter), request_observation never returns a visit with that target_id again, as long as the user does not append it to the queue again or reset the counter.", "quantifier": "Every later history of scheduler calls, every survey behaviour, every conditions object.", "why_tests_cant": "Needs an argument over all continuations of a history, including flushes and refills.", "anchors": ["rubin_scheduler/scheduler/schedulers/core_scheduler.py:CoreScheduler.request_observation", "rubin_scheduler/scheduler/schedulers/queue_manager.py:BaseQueueManager.mark_observation_completed", "rubin_scheduler/scheduler/schedulers/queue_manager.py:BaseQueueManager.add_observations_array"]}
{"id": "C03", "title": "Requests answer in queue order and do not consume", "statement": "request_observation without whole_queue returns the first visit of the queue that is still needed, unexpired and unmasked; with whole_queue it returns all of those, in queue order; and it does not change which visits are still needed unless it had to refill, so asking again under the same conditions returns the same visit.", "quantifier": "Every queue content, completion pattern, mask and conditions.", "why_tests_cant": "The ordering and idempotence claim ranges over arbitrary queue contents and completion subsets.", "anchors": ["rubin_scheduler/scheduler/schedulers/queue_manager.py:BaseQueueManager.request_observation", "rubin_scheduler/scheduler/schedulers/queue_manager.py:BaseQueueManager.find_valid_observations_indx", "rubin_scheduler/scheduler/schedulers/core_scheduler.py:CoreScheduler.request_observation"]}
{"id": "C04", "title": "Expired visits are never requested", "statement": "A visit with a non-zero flush_by_mjd earlier than the time of the current conditions is never returned by request_observation.", "quantifier": "Every queue, every combination of flush_by_mjd values in the queue, every time.", "why_tests_cant": "Whether one visit is accepted depends on the values of all the other visits in the queue (array-wide rounding), a combination tests do not enumerate.", "anchors": ["rubin_scheduler/scheduler/schedulers/queue_manager.py:BaseQueueManager.find_valid_observations_indx", "rubin_scheduler/scheduler/utils/utils.py:IntRounded"]}
{"id": "C05", "title": "Expiry is judged at the time passed to request_observation", "statement": "If the caller passes mjd to request_observation, a visit whose flush_by_mjd has passed at that mjd is not returned.", "quantifier": "Every mjd argument and stale conditions time.", "why_tests_cant": "The gap is between the time argument and the last conditions update, which unit tests always keep equal.", "anchors": ["rubin_scheduler/scheduler/schedulers/core_scheduler.py:CoreScheduler.request_observation"]}
{"id": "C06", "title": "Masked targets are never requested", "statement": "If the queue manager's basis functions produce a sky map, no visit whose pixel is not finite in that map is returned; if every visit is masked the queue is discarded and refilled once, and None is returned if the refill is masked too.", "quantifier": "Every mask, pixelisation, queue and survey.", "why_tests_cant": "Quantifies over arbitrary masks and refill outcomes.", "anchors": ["rubin_scheduler/scheduler/schedulers/queue_manager.py:BaseQueueManager.find_valid_observations_indx", "rubin_scheduler/scheduler/schedulers/core_scheduler.py:CoreScheduler.request_observation"]}
{"id": "C07", "title": "Tier priority", "statement": "When the queue is filled, the visits come from the first tier (in configured order) in which some survey has a reward above -inf; lower tiers are not evaluated, and no survey of an earlier tier is feasible.", "quantifier": "Every list of tiers, every reward vector with nan, -inf and finite values.", "why_tests_cant": "Ranges over all tier structures and reward patterns including nan mixtures.", "anchors": ["rubin_scheduler/scheduler/schedulers/core_scheduler.py:CoreScheduler._fill_queue"]}
{"id": "C08", "title": "Best survey wins, ties by order", "statement": "Within the chosen tier, the survey that fills the queue has the largest non-nan reward of the tier and is the earliest such survey.", "quantifier": "Every reward vector, with ties and nan.", "why_tests_cant": "All tie patterns and nan placements.", "anchors": ["rubin_scheduler/scheduler/schedulers/core_scheduler.py:CoreScheduler._fill_queue"]}
{"id": "C09", "title": "None means nothing is feasible", "statement": "request_observation returns None only when the queue had nothing left that is valid and a refill attempt produced nothing valid: either no survey in any tier is feasible, or the winning survey produced no valid visit.", "quantifier": "Every scheduler state and survey behaviour.", "why_tests_cant": "A negative claim about the whole of the survey lists.", "anchors": ["rubin_scheduler/scheduler/schedulers/core_scheduler.py:CoreScheduler.request_observation", "rubin_scheduler/scheduler/schedulers/core_scheduler.py:CoreScheduler._fill_queue"]}
{"id": "C10", "title": "Queue bookkeeping stays aligned", "statement": "The list of still-needed flags always has exactly one flag per queued visit, return_active_queue returns exactly the queued visits not yet completed, in order, and appended visits go to the end.", "quantifier": "Every operation history.", "why_tests_cant": "Invariant over unbounded histories.", "anchors": ["rubin_scheduler/scheduler/schedulers/queue_manager.py:BaseQueueManager"]}
{"id": "C11", "title": "A new target of opportunity flushes the queue at most once", "statement": "Each alert id can cause the queue to be flushed only in the first update_conditions in which it appears; an update that shows only ids seen before never flushes the queue.", "quantifier": "Every sequence of alert lists given to update_conditions.", "why_tests_cant": "Depends on the whole history of alert ids.", "anchors": ["rubin_scheduler/scheduler/schedulers/core_scheduler.py:CoreScheduler.update_conditions"]}
{"id": "C12", "title": "Scheduled-observation times are sorted and in the future", "statement": "After update_conditions the conditions list the upcoming scheduled times of all surveys: sorted, none before now, and containing every time at or after now reported by any survey with its multiplicity.", "quantifier": "Every set of surveys and their scheduled times.", "why_tests_cant": "Permutation/completeness claim over arbitrary lists.", "anchors": ["rubin_scheduler/scheduler/schedulers/core_scheduler.py:CoreScheduler.update_conditions"]}
{"id": "C13", "title": "Bulk replay equals one-by-one replay for the queue and id counter", "statement": "Feeding a batch of completed visits with add_observations_array leaves the queue's pending set and the id counter in the same state as feeding them one at a time with add_observation.", "quantifier": "Every batch (any length, any order, duplicate ids) and every scheduler state.", "why_tests_cant": "Equality of two code paths over all batches.", "anchors": ["rubin_scheduler/scheduler/schedulers/core_scheduler.py:CoreScheduler.add_observations_array", "rubin_scheduler/scheduler/schedulers/core_scheduler.py:CoreScheduler.add_observation"]}
{"id": "C14", "title": "Filter and band back-fill", "statement": "Every queued visit generated by a survey has a filter name: visits that came without one get the mapping of their band, the others are unchanged; a recorded visit without band gets the filter name without its trailing digits/underscores.", "quantifier": "Every visit list and band-to-filter mapping.", "why_tests_cant": "Ranges over all strings and mappings.", "anchors": ["rubin_scheduler/scheduler/schedulers/core_scheduler.py:CoreScheduler._fill_queue", "rubin_scheduler/scheduler/schedulers/core_scheduler.py:CoreScheduler.add_observation", "rubin_scheduler/scheduler/utils/observation_array.py:backfill_filter_from_band"]}
{"id": "C15", "title": "Tolerant comparison is monotone and consistent for single values", "statement": "Comparing two single numbers with the tolerant comparison class gives <= whenever the left one is not larger, a strict < only if it really is smaller, exactly one of <, ==, > holds, and values further apart than the tolerance compare as exact numbers.", "quantifier": "All pairs of numbers and all scale/limit settings.", "why_tests_cant": "All pairs of reals, including half-integer boundaries.", "anchors": ["rubin_scheduler/scheduler/utils/utils.py:IntRounded"]}
{"id": "C16", "title": "Tolerant comparison of arrays is element-wise", "statement": "Comparing two arrays with the tolerant comparison gives for each element the result of comparing that element alone.", "quantifier": "All arrays of numbers.", "why_tests_cant": "The result of one element depends on the others; only a relational statement over all arrays shows it.", "anchors": ["rubin_scheduler/scheduler/utils/utils.py:IntRounded.check_limit"]}
{"id": "C17", "title": "Simulation log is exactly the completed visits", "statement": "sim_runner returns exactly the visits the observatory completed, in execution order, with none lost, duplicated or left as unused zero rows, whatever the initial and growth sizes of the result buffer.", "quantifier": "Every scheduler and observatory behaviour, every run length, every buffer size configuration.", "why_tests_cant": "Buffer growth and trimming over unbounded runs.", "anchors": ["rubin_scheduler/scheduler/sim_runner.py:sim_runner"]}
{"id": "C18", "title": "Visit limit", "statement": "With n_visit_limit=n, sim_runner returns at most n visits.", "quantifier": "Every n, every scheduler/observatory.", "why_tests_cant": "Boundary n=0 and unbounded n.", "anchors": ["rubin_scheduler/scheduler/sim_runner.py:sim_runner"]}
{"id": "C19", "title": "Simulated time only moves forward and stops at the end", "statement": "During a simulation the observatory clock never goes back, no visit is requested once the clock has passed the end time, and each skipped request advances the clock by exactly the step.", "quantifier": "Every scheduler and observatory satisfying the clock contract.", "why_tests_cant": "Unbounded executions.", "anchors": ["rubin_scheduler/scheduler/sim_runner.py:sim_runner"]}
{"id": "C20", "title": "Simulation gives up instead of looping on a rejected visit", "statement": "If the observatory rejects a visit without its clock advancing twice in a row, the simulation raises instead of looping; if the clock advanced it flushes and carries on.", "quantifier": "Every run and every rejection pattern.", "why_tests_cant": "Liveness-like claim over unbounded runs.", "anchors": ["rubin_scheduler/scheduler/sim_runner.py:sim_runner"]}
{"id": "C21", "title": "Recorded visits do not overlap", "statement": "For consecutive visits made by the simulated observatory, the later one starts no earlier than the end (start plus visit time) of the earlier one, and visit IDs are consecutive.", "quantifier": "Every sequence of observe calls, accepted or rejected, with any slew and visit times.", "why_tests_cant": "Induction over unbounded observation sequences.", "anchors": ["rubin_scheduler/scheduler/model_observatory/model_observatory.py:ModelObservatory.observe", "rubin_scheduler/scheduler/model_observatory/model_observatory.py:ModelObservatory.observation_add_data"]}
{"id": "C22", "title": "No visit ends in downtime, daylight or clouds", "statement": "A visit accepted by the simulated observatory ends at a time that is outside all downtimes, between the night limits and with clouds at or below the limit.", "quantifier": "All downtime tables (sorted, non-overlapping), almanacs and times.", "why_tests_cant": "Quantifies over all tables and times.", "anchors": ["rubin_scheduler/scheduler/model_observatory/model_observatory.py:ModelObservatory.check_mjd", "rubin_scheduler/scheduler/model_observatory/model_observatory.py:ModelObservatory.check_up"]}
{"id": "C23", "title": "No part of an accepted visit falls in a downtime", "statement": "No moment between the start and the end of an accepted visit lies in a downtime.", "quantifier": "All downtime tables and visits.", "why_tests_cant": "Short downtimes inside a visit.", "anchors": ["rubin_scheduler/scheduler/model_observatory/model_observatory.py:ModelObservatory.observe"]}
{"id": "C24", "title": "When closed, the observatory jumps forward to an open time", "statement": "When a time is rejected, the suggested time is strictly later than the rejected one, and is itself an acceptable time.", "quantifier": "All almanacs, downtime tables, cloud series and times for which the search ends.", "why_tests_cant": "Recursive search with unbounded depth.", "anchors": ["rubin_scheduler/scheduler/model_observatory/model_observatory.py:ModelObservatory.check_mjd"]}
{"id": "C25", "title": "Downtime merging keeps exactly the same closed times", "statement": "Merging scheduled and unscheduled downtimes gives a sorted list of non-overlapping intervals that covers exactly the times covered by the inputs.", "quantifier": "All lists of downtime intervals.", "why_tests_cant": "All overlap patterns of arbitrarily many intervals.", "anchors": ["rubin_scheduler/scheduler/model_observatory/model_observatory.py:ModelObservatory.__init__"]}
{"id": "C26", "title": "Unscheduled downtimes are ordered and disjoint for every random seed", "statement": "The generated unscheduled downtimes are chronological and never overlap, whatever the random numbers.", "quantifier": "All random streams, thresholds and survey lengths.", "why_tests_cant": "A seed-based test sees one stream.", "anchors": ["rubin_scheduler/site_models/unscheduled_downtime_data.py:UnscheduledDowntimeData.make_data"]}
{"id": "C27", "title": "Mount never exceeds its cumulative azimuth range", "statement": "With a full-circle azimuth range, after any sequence of slews the accumulated azimuth of the telescope stays within the configured limits, and each accepted slew ends at the requested azimuth modulo a full turn.", "quantifier": "All slew sequences and limits spanning at least a full turn.", "why_tests_cant": "Invariant over unbounded slew histories with modular arithmetic.", "anchors": ["rubin_scheduler/scheduler/model_observatory/kinem_model.py:KinemModel.slew_times", "rubin_scheduler/scheduler/model_observatory/kinem_model.py:KinemModel.observe"]}
{"id": "C28", "title": "A rejected slew leaves the telescope where it was", "statement": "If a slew is not possible (altitude, rotator or filter limits), asking to observe it leaves the telescope position, band and cable wrap unchanged.", "quantifier": "All telescope states and targets.", "why_tests_cant": "All reject reasons in all states.", "anchors": ["rubin_scheduler/scheduler/model_observatory/kinem_model.py:KinemModel.observe", "rubin_scheduler/scheduler/model_observatory/kinem_model.py:KinemModel.slew_times"]}
{"id": "C29", "title": "The current band is always a mounted band", "statement": "After any history of mounting, slewing, parking and observing, the band in the beam is one of the mounted bands.", "quantifier": "All operation histories.", "why_tests_cant": "Invariant over histories.", "anchors": ["rubin_scheduler/scheduler/model_observatory/kinem_model.py:KinemModel.mount_bands", "rubin_scheduler/scheduler/model_observatory/kinem_model.py:KinemModel.park", "rubin_scheduler/scheduler/model_observatory/kinem_model.py:KinemModel.observe"]}
{"id": "C30", "title": "Motion time is a sound function of distance", "statement": "The jerk-limited move time is defined for every distance and positive limits by exactly one motion profile, is zero for zero distance, never negative, never less than distance over maximum speed, and does not decrease when the distance grows (also across the switch between motion profiles).", "quantifier": "All non-negative distances and all positive speed, acceleration and jerk limits.", "why_tests_cant": "Real-valued inequality over all parameters, with case switches.", "anchors": ["rubin_scheduler/scheduler/model_observatory/jerk.py:jerk_time"]}
{"id": "C31", "title": "Route ordering is a permutation", "statement": "The visit-ordering solver returns each pointing exactly once, with and without optimisation.", "quantifier": "All sets of pointings, all distance matrices, all hull decompositions.", "why_tests_cant": "All n! orders and all instances.", "anchors": ["rubin_scheduler/scheduler/utils/tsp.py:tsp_convex", "rubin_scheduler/scheduler/utils/tsp.py:merge_hulls", "rubin_scheduler/scheduler/utils/tsp.py:three_opt"]}
{"id": "C32", "title": "Route optimisation never lengthens the route", "statement": "The optimised route is never longer than the route before optimisation, and the optimisation loop stops after at most niter improvements.", "quantifier": "All distance matrices and routes.", "why_tests_cant": "All instances.", "anchors": ["rubin_scheduler/scheduler/utils/tsp.py:three_opt", "rubin_scheduler/scheduler/utils/tsp.py:tsp_convex"]}
{"id": "C33", "title": "Bulk and single-visit history agree for counting features", "statement": "A feature that counts visits gives the same value whether the history was loaded in bulk or visit by visit.", "quantifier": "All histories, feature settings and pixel footprints.", "why_tests_cant": "Equality of two code paths for all histories.", "anchors": ["rubin_scheduler/scheduler/features/features.py:NObservations", "rubin_scheduler/scheduler/features/features.py:NObsCount", "rubin_scheduler/scheduler/features/features.py:NObsNight"]}
{"id": "C34", "title": "Bulk and single-visit history agree for last-visit features", "statement": "A feature that stores the latest visit (or its time) gives the same value whether the history was loaded in bulk or visit by visit.", "quantifier": "All chronological histories and settings.", "why_tests_cant": "Equality of two code paths for all histories.", "anchors": ["rubin_scheduler/scheduler/features/features.py:LastObservation", "rubin_scheduler/scheduler/features/features.py:LastObserved", "rubin_scheduler/scheduler/features/features.py:LastObservationMjd", "rubin_scheduler/scheduler/features/features.py:LastNObsTimes"]}
{"id": "C35", "title": "Pairs are counted only inside one night and gap window", "statement": "The pair counter of a sky position counts exactly the visits that follow an earlier visit of the same night within the configured gap; it is reset when the night changes; bulk and single loading agree.", "quantifier": "All chronological histories.", "why_tests_cant": "Relational property over histories.", "anchors": ["rubin_scheduler/scheduler/features/features.py:PairInNight"]}
{"id": "C36", "title": "Scripted visits are offered only inside their window", "statement": "A scripted survey only offers visits that are not yet observed, whose time window contains now, that satisfy altitude, hour-angle, sun and moon limits and whose band is mounted; it offers at most the configured number.", "quantifier": "All scripts, times and conditions.", "why_tests_cant": "All scripts and boundary times.", "anchors": ["rubin_scheduler/scheduler/surveys/scripted_surveys.py:ScriptedSurvey._check_list", "rubin_scheduler/scheduler/surveys/scripted_surveys.py:ScriptedSurvey._check_alts_ha"]}
{"id": "C37", "title": "A completed scripted visit is not offered again", "statement": "After a visit of the script has been reported as completed it is not offered again.", "quantifier": "All scripts and histories.", "why_tests_cant": "Histories, including calls within the same instant.", "anchors": ["rubin_scheduler/scheduler/surveys/scripted_surveys.py:ScriptedSurvey.add_observation", "rubin_scheduler/scheduler/surveys/scripted_surveys.py:ScriptedSurvey.generate_observations"]}
{"id": "C38", "title": "Scripted visits get unique ids", "statement": "Every entry of a script is tagged with a unique note, and ids are not reused after a script is replaced or cleared.", "quantifier": "All sequences of set_script / clear_script.", "why_tests_cant": "Sequences of script replacements.", "anchors": ["rubin_scheduler/scheduler/surveys/scripted_surveys.py:ScriptedSurvey.set_script", "rubin_scheduler/scheduler/surveys/scripted_surveys.py:ScriptedSurvey.clear_script"]}
{"id": "C39", "title": "Reordering detailers only reorder", "statement": "The detailers that sort or roll the visit list (by band, by altitude, by current band) return a permutation of the visits they were given, with the documented first element.", "quantifier": "All visit lists and conditions.", "why_tests_cant": "Permutation claim over all lists.", "anchors": ["rubin_scheduler/scheduler/detailers/detailer.py:BandSortDetailer", "rubin_scheduler/scheduler/detailers/detailer.py:RollBandMatchDetailer", "rubin_scheduler/scheduler/detailers/detailer.py:CloseAltDetailer"]}
{"id": "C40", "title": "Pair and repeat detailers produce complete pairs", "statement": "Taking visits as pairs returns every visit exactly twice, once per band of the pair, with the current band first if it is one of the two.", "quantifier": "All visit lists and conditions.", "why_tests_cant": "All lists.", "anchors": ["rubin_scheduler/scheduler/detailers/detailer.py:TakeAsPairsDetailer"]}
{"id": "C41", "title": "Pre-twilight truncation keeps exactly the prefix that fits", "statement": "Truncating before twilight keeps the longest prefix of the visits whose accumulated time fits in the time left.", "quantifier": "All visit lists and times.", "why_tests_cant": "All boundary sums.", "anchors": ["rubin_scheduler/scheduler/detailers/detailer.py:TruncatePreTwiDetailer"]}
{"id": "C42", "title": "Band choice follows the moon", "statement": "The band schedulers return exactly the band set configured for the current moon illumination bin, for every illumination, and the set is always one of the configured ones.", "quantifier": "All illumination values and bin configurations.", "why_tests_cant": "All real illumination values and boundaries.", "anchors": ["rubin_scheduler/scheduler/schedulers/filter_scheduler.py:SimpleBandSched", "rubin_scheduler/scheduler/schedulers/filter_scheduler.py:ComCamBandSched"]}
{"id": "C43", "title": "Targets of opportunity are active exactly in their window", "statement": "The alert server returns exactly the events whose window contains the time, in order.", "quantifier": "All event lists and times.", "why_tests_cant": "All events and boundary times.", "anchors": ["rubin_scheduler/scheduler/utils/too_objects.py:SimTargetooServer"]}
{"id": "C44", "title": "Nearest-sample weather lookup", "statement": "The cloud and seeing data return the value of the sample nearest in time.", "quantifier": "All sample tables and times.", "why_tests_cant": "All tables, including table ends.", "anchors": ["rubin_scheduler/site_models/cloud_data.py:CloudData.__call__", "rubin_scheduler/site_models/seeing_data.py:SeeingData.__call__"]}
{"id": "C45", "title": "Cloud map buffer is bounded and time-ordered", "statement": "The cloud-map store never holds more than the configured number of frames, keeps the newest ones, and a lookup returns the frame nearest in time within the limit or clear sky.", "quantifier": "All sequences of added frames.", "why_tests_cant": "Unbounded sequences of frames.", "anchors": ["rubin_scheduler/site_models/cloud_maps.py:CloudMap"]}
{"id": "C46", "title": "Angle wrapping", "statement": "Wrapping coordinates returns the same direction with longitude in [0, 2*pi) and latitude in [-pi/2, pi/2]; the smallest signed angle is within half a turn and congruent to the difference.", "quantifier": "All real angles.", "why_tests_cant": "All reals including multiples of the period.", "anchors": ["rubin_scheduler/scheduler/utils/utils.py:wrap_ra_dec", "rubin_scheduler/scheduler/utils/utils.py:smallest_signed_angle"]}
{"id": "C47", "title": "Camera rotation conversions are inverse", "statement": "Converting a rotator angle to a sky angle and back (and vice versa) returns the same angle modulo a full turn, in the documented range, for each camera. After a slew the rotator is at the angle asked for.", "quantifier": "All angles and parallactic angles.", "why_tests_cant": "All reals.", "anchors": ["rubin_scheduler/utils/rotskypos.py:RotationConverter", "rubin_scheduler/utils/rotskypos.py:RotationConverterComCam", "rubin_scheduler/utils/rotskypos.py:RotationConverterAuxtel"]}
{"id": "C48", "title": "Database schema conversion round-trips", "statement": "Writing visits to the output schema and reading them back gives the same visits for every stored column.", "quantifier": "All visit tables.", "why_tests_cant": "All values and columns.", "anchors": ["rubin_scheduler/scheduler/utils/utils.py:SchemaConverter"]}
{"id": "C49", "title": "Seasons advance with time", "statement": "The season number of a sky position never decreases with time, advances by one per year and is capped/floored as configured.", "quantifier": "All positions and times.", "why_tests_cant": "All reals.", "anchors": ["rubin_scheduler/scheduler/utils/utils.py:season_calc", "rubin_scheduler/utils/season_utils.py:calc_season"]}
{"id": "C50", "title": "Conditions never serve stale derived values", "statement": "After a new time (or other input) is set on the conditions, every derived quantity read afterwards is the one computed from the current inputs.", "quantifier": "All interleavings of setters and reads.", "why_tests_cant": "Cache coherence over histories.", "anchors": ["rubin_scheduler/scheduler/features/conditions.py:Conditions"]}
{"id": "C51", "title": "Feasibility: infeasible surveys get -inf", "statement": "A survey with any infeasible basis function has reward -inf and cannot be selected while any other survey of its tier is feasible.", "quantifier": "All surveys and basis function sets.", "why_tests_cant": "All combinations.", "anchors": ["rubin_scheduler/scheduler/surveys/base_survey.py:BaseSurvey.calc_reward_function", "rubin_scheduler/scheduler/surveys/base_survey.py:BaseMarkovSurvey.calc_reward_function"]}
{"id": "C52", "title": "Look-ahead wrapper does not repeat visits", "statement": "Requesting several visits ahead of completion never yields the same target twice, and confirming visits keeps the pending ones.", "quantifier": "All request/confirm interleavings in order.", "why_tests_cant": "Histories.", "anchors": ["rubin_scheduler/scheduler/schedulers/summit_wrapper.py:SummitWrapper"]}
{"id": "C53", "title": "Interrupted data download never leaves a directory marked current but incomplete", "statement": "If the data download stops at any point, a later update run brings every data directory to the complete current version.", "quantifier": "All crash points, all initial disk states and option settings.", "why_tests_cant": "All crash points.", "anchors": ["rubin_scheduler/data/scheduler_download_data.py:download_rubin_data"]}
{"id": "C54", "title": "Footprint grows monotonically", "statement": "The target number of visits of a sky position never decreases with time and the rolling slopes average to uniform coverage at the end of each cycle.", "quantifier": "All times, slopes, phases and slice numbers.", "why_tests_cant": "All reals and parameters.", "anchors": ["rubin_scheduler/scheduler/utils/footprints.py:StepLine", "rubin_scheduler/scheduler/utils/footprints.py:StepSlopes", "rubin_scheduler/scheduler/utils/footprints.py:make_rolling_footprints"]}
{"id": "C55", "title": "Night limits of modular feasibility functions", "statement": "Window, delay and modulo feasibility functions are feasible exactly in the documented window, including at the end points.", "quantifier": "All times, nights and settings.", "why_tests_cant": "All boundary values.", "anchors": ["rubin_scheduler/scheduler/basis_functions/feasibility_funcs.py"]}
{"id": "C56", "title": "Visit blocks fit the time available", "statement": "The number of visits in a block is at least one and, unless clipped to one, the block fits in the time available before the next deadline.", "quantifier": "All times, exposure settings and deadlines.", "why_tests_cant": "All reals.", "anchors": ["rubin_scheduler/scheduler/surveys/surveys.py:BlobSurvey._set_block_size"]}
{"id": "C57", "title": "Camera rotation dithers stay within limits", "statement": "Rotator dithers stay within the configured minimum and maximum rotator angles.", "quantifier": "All random streams and settings.", "why_tests_cant": "All random draws.", "anchors": ["rubin_scheduler/scheduler/detailers/dither_detailer.py:CameraRotDetailer", "rubin_scheduler/scheduler/detailers/dither_detailer.py:CameraSmallRotPerObservationListDetailer"]}
{"id": "C58", "title": "Modular sky masks select the documented side", "statement": "Azimuth/hour-angle/rising masks keep exactly the sky region on the documented side, also when the region crosses zero.", "quantifier": "All angles, limits and nights.", "why_tests_cant": "Wrap-around cases.", "anchors": ["rubin_scheduler/scheduler/basis_functions/basis_functions.py:AzModuloBasisFunction", "rubin_scheduler/scheduler/basis_functions/feasibility_funcs.py:RisingMoreBasisFunction", "rubin_scheduler/scheduler/basis_functions/mask_basis_funcs.py:HaMaskBasisFunction"]}
{"id": "C59", "title": "Queue-manager masks see the whole history", "statement": "The basis functions and detailers attached to the queue manager are told of every completed visit the scheduler is told of, whether the visits are fed one at a time or as a batch.", "quantifier": "Every batch and every scheduler state, including an empty queue.", "why_tests_cant": "The omission only shows for a batch fed while the queue is empty, which is the usual state when a scheduler is restored; it depends on the history.", "anchors": ["rubin_scheduler/scheduler/schedulers/queue_manager.py: BaseQueueManager.add_observations_array", "rubin_scheduler/scheduler/schedulers/core_scheduler.py: CoreScheduler.add_observations_array"]}
{"id": "C60", "title": "Every survey hears everything", "statement": "Every survey in every tier is told of every completed visit exactly once (with its band filled in; batches in time order) and of every conditions update exactly once, in order, and decisions use the conditions of the last update.", "quantifier": "Every history of scheduler calls and every tier structure.", "why_tests_cant": "A survey that misses a notification only misbehaves nights later and only for particular tier layouts and histories.", "anchors": ["rubin_scheduler/scheduler/schedulers/core_scheduler.py: CoreScheduler.add_observation", "rubin_scheduler/scheduler/schedulers/core_scheduler.py: CoreScheduler.add_observations_array", "rubin_scheduler/scheduler/schedulers/core_scheduler.py: CoreScheduler.update_conditions"]}
{"id": "C61", "title": "Handed-out visits carry their note", "statement": "request_observation never returns an empty array; every visit it returns has note equal to scheduler_note, and apart from that column is exactly what the queue manager selected.", "quantifier": "Every scheduler state, survey and queue manager.", "why_tests_cant": "Must hold on both the direct and the refill path for every queue.", "anchors": ["rubin_scheduler/scheduler/schedulers/core_scheduler.py: CoreScheduler.request_observation"]}
{"id": "C62", "title": "A simulation ends", "statement": "If the skip step is positive and every observation attempt either takes at least some minimum time or is rejected, sim_runner stops after a number of loop passes bounded by the simulated duration.", "quantifier": "Every scheduler, observatory, duration and step; every pattern of visits, rejections and skips.", "why_tests_cant": "A test stops one finite scenario; it cannot show that no scenario loops forever.", "anchors": ["rubin_scheduler/scheduler/sim_runner.py: sim_runner"]}
{"id": "C63", "title": "Requests use current conditions", "statement": "Whenever the simulation asks the scheduler for a visit, the scheduler has just been given the observatory's conditions of that moment, or has just said its queue is usable at that moment.", "quantifier": "Every scheduler, observatory and history.", "why_tests_cant": "Whether conditions are stale depends on the history of skips, rejections and queue states.", "anchors": ["rubin_scheduler/scheduler/sim_runner.py: sim_runner"]}
{"id": "C64", "title": "Bands are mounted at the start and on every new night", "statement": "sim_runner mounts the bands wanted by the band scheduler before the first request, and again after each observation attempt that starts a new night before the next request.", "quantifier": "Every scheduler, observatory, band scheduler and history.", "why_tests_cant": "New nights start at arbitrary points of the run.", "anchors": ["rubin_scheduler/scheduler/sim_runner.py: sim_runner"]}
{"id": "C65", "title": "New nights are announced exactly when the night changes", "statement": "ModelObservatory.observe reports a new night exactly when the visit was not taken and the night number after the call differs from the one before; the night number is then larger, and the telescope is parked whenever a visit is given up because the clock had to jump.", "quantifier": "Every site (clouds, nights, downtimes), telescope and target.", "why_tests_cant": "Which calls cross a night boundary depends on the whole weather, almanac and downtime tables.", "anchors": ["rubin_scheduler/scheduler/model_observatory/model_observatory.py: ModelObservatory.observe, night"]}
{"id": "C66", "title": "A slew takes at least as long as each of its parts", "statement": "The slew time of an accepted visit is at least the readout/shutter time left from the last visit, the altitude, azimuth and dome motion times, the settle time if the mount moves, the rotator time when the band stays, the band change time when it changes (added to all motions unless changed while slewing), plus the closed-loop optics delay for large altitude changes. Repeating the current pointing costs exactly the left-over readout/shutter time.", "quantifier": "Every telescope configuration with non-negative times, every state, target and time.", "why_tests_cant": "The bound must hold for all combinations of positions and settings.", "anchors": ["rubin_scheduler/scheduler/model_observatory/kinem_model.py: KinemModel.slew_times, _uamSlewTime"]}
{"id": "C67", "title": "A wanted sky rotation is resolved to a reachable one", "statement": "When asked to resolve camera rotations, the observatory leaves the visit with a rotator angle inside the rotator limits that differs from the wanted one by whole quarter turns (not at all if the wanted one was reachable), chooses the smallest rotator move among those, and does not raise.", "quantifier": "Every telescope state, target, time and sky rotation; rotator limits on both sides of zero and more than a quarter turn apart.", "why_tests_cant": "The rotation depends continuously on position and time; a test cannot sweep all of them.", "anchors": ["rubin_scheduler/scheduler/model_observatory/model_observatory.py: ModelObservatory._update_rot_sky_pos"]}
{"id": "C68", "title": "Optics corrections take the documented time", "statement": "A slew that changes the altitude by X degrees includes an open-loop optics delay of ol_slope seconds per degree times X, and the closed-loop delay when X reaches the configured limit.", "quantifier": "Every configuration and slew.", "why_tests_cant": "A plausible but wrong duration passes any test that does not recompute it from the documented units.", "anchors": ["rubin_scheduler/scheduler/model_observatory/kinem_model.py: KinemModel.setup_optics, slew_times"]}
{"id": "C69", "title": "Inner towns join the tour where it stays shortest", "statement": "When hulls are merged, each inner town is put at the place of the tour so far where the closed tour becomes shortest, and the cyclic order of the towns already in the tour is kept.", "quantifier": "Every distance matrix, list of hulls and size.", "why_tests_cant": "Shortest among all places of a tour of any length.", "anchors": ["rubin_scheduler/scheduler/utils/tsp.py:merge_hulls"]}
{"id": "C70", "title": "Counting features count the visits their documentation names", "statement": "After any history, a counting feature equals the number of visits that match: in the band, with a scheduler note that is or contains the wanted one, with seeing better than the limit, covering the pixel, and for nightly counters taken in the night of the last visit.", "quantifier": "Every chronological history and setting.", "why_tests_cant": "The number must be right for all histories; which of two strings must contain the other is a detail tests with equal notes never see.", "anchors": ["rubin_scheduler/scheduler/features/features.py:NObservations", "rubin_scheduler/scheduler/features/features.py:NObsCount", "rubin_scheduler/scheduler/features/features.py:NObsNight", "rubin_scheduler/scheduler/features/features.py:NoteInNight"]}
{"id": "C71", "title": "Scripted visits that cannot end before twilight are withheld", "statement": "With the twilight check on, scripted visits are offered exactly when their exposures and the band changes between them can be completed before morning twilight.", "quantifier": "All scripts, settings and times.", "why_tests_cant": "All orders of bands in a script; a script of one band and one of alternating bands behave differently.", "anchors": ["rubin_scheduler/scheduler/surveys/scripted_surveys.py:ScriptedSurvey.generate_observations_rough"]}
{"id": "C72", "title": "Announced times are those of outstanding scripted visits", "statement": "The times of scheduled visits announced to the other surveys are exactly the times, from now on, of scripted visits not yet completed.", "quantifier": "All histories of scripts and reports.", "why_tests_cant": "Histories mixing single and bulk reports and script changes.", "anchors": ["rubin_scheduler/scheduler/surveys/scripted_surveys.py:ScriptedSurvey.add_observation", "rubin_scheduler/scheduler/surveys/scripted_surveys.py:ScriptedSurvey.add_observations_array", "rubin_scheduler/scheduler/surveys/scripted_surveys.py:ScriptedSurvey.set_script", "rubin_scheduler/scheduler/schedulers/core_scheduler.py:CoreScheduler"]}
{"id": "C73", "title": "Repeated twilight visits fit in the twilight", "statement": "Repeating visits in twilight plans complete repeats of the first visits, as many of them as can be taken the given number of times before twilight ends.", "quantifier": "All visit lists, times and numbers of repeats.", "why_tests_cant": "All sums of exposure and slew times.", "anchors": ["rubin_scheduler/scheduler/detailers/detailer.py:TwilightTripleDetailer"]}
{"id": "C74", "title": "Visits expire when configured", "statement": "Setting an expiry time makes every visit expire the configured number of minutes from now; making visits expire before scheduled ones brings every later expiry forward to before the next scheduled visit.", "quantifier": "All visit lists and times.", "why_tests_cant": "All combinations of expiry and scheduled times.", "anchors": ["rubin_scheduler/scheduler/detailers/detailer.py:FlushByDetailer", "rubin_scheduler/scheduler/detailers/detailer.py:FlushForSchedDetailer"]}
{"id": "C75", "title": "Tracking information is filled in but never overwritten", "statement": "Target name, science program and observation reason that are already set stay; missing ones are set to the configured values; no other column changes.", "quantifier": "All visit lists and settings.", "why_tests_cant": "All combinations of set and unset columns.", "anchors": ["rubin_scheduler/scheduler/detailers/detailer.py:TrackingInfoDetailer"]}
{"id": "C76", "title": "Detailers that choose a band choose a mounted one", "statement": "A nightly random band is the drawn band if mounted and otherwise the first mounted one in the fallback order; substituting a band that is not mounted yields visits in bands that can be used.", "quantifier": "All nights, draws and sets of mounted bands.", "why_tests_cant": "All sets of mounted bands.", "anchors": ["rubin_scheduler/scheduler/detailers/detailer.py:RandomBandDetailer", "rubin_scheduler/scheduler/detailers/detailer.py:BandSubstituteDetailer"]}
{"id": "C77", "title": "Numbered notes tell visits apart", "statement": "After numbering, all visits of a list have different notes, each the old note followed by a number.", "quantifier": "All visit lists.", "why_tests_cant": "All lengths of notes and lists.", "anchors": ["rubin_scheduler/scheduler/detailers/detailer.py:IndexNoteDetailer"]}
{"id": "C78", "title": "Splitting hands each visit to one detailer", "statement": "Combining two detailers gives, at the place of each visit whose note contains the text, the second detailer's answer, and elsewhere the first's, with both knowing the completed visits.", "quantifier": "All pairs of detailers, visit lists and histories.", "why_tests_cant": "All detailers, including those which drop visits or remember history.", "anchors": ["rubin_scheduler/scheduler/detailers/dither_detailer.py:SplitDetailer"]}
{"id": "C79", "title": "Varied exposure times stay within their limits", "statement": "Exposure times chosen for a target depth are whole seconds between the shortest and longest allowed, within half a second of the time wanted if that is allowed.", "quantifier": "All limits and depths.", "why_tests_cant": "All real limits and times.", "anchors": ["rubin_scheduler/scheduler/detailers/vary_exptime.py:VaryExptDetailer"]}
{"id": "C80", "title": "Updated sky angles keep the rotator within its limits", "statement": "The updated sky angle puts the rotator within its limits if the backup rotator angle is within them, and a sky angle that already does is kept.", "quantifier": "All cameras, angles and limits.", "why_tests_cant": "Continuum of angles with wrap-around.", "anchors": ["rubin_scheduler/scheduler/detailers/detailer.py:RotspUpdateDetailer"]}
{"id": "C81", "title": "Chunks follow the bands and go from west to east", "statement": "Chunking by hour angle keeps exactly the visits above the altitude limit in configured bands, each once; visits of a chunk share an hour-angle bin and a band's visits come together in it, chunks go from the highest hour angle to the lowest and each chunk's bands start with the band the last one ended in.", "quantifier": "All visit lists, settings and current bands.", "why_tests_cant": "All distributions of visits over bands and hour angles.", "anchors": ["rubin_scheduler/scheduler/detailers/detailer.py:ChunkByHADetailer"]}
{"id": "C82", "title": "Dark-time band swaps alternate", "statement": "With the u-z-y scheduler, bright time always mounts g r i z y, dark time one of the two sets with u, and successive dark-time choices alternate between them.", "quantifier": "All sequences of nights and illuminations.", "why_tests_cant": "Sequences of nights, including restarts.", "anchors": ["rubin_scheduler/scheduler/schedulers/filter_scheduler.py:BandSchedUzy"]}
{"id": "C83", "title": "Swaps on given dates are in force from their date", "statement": "The set of bands is that of the last swap at or before now, from the new schedule as soon as it starts and from the previous one before that; after the end date the backup scheduler decides.", "quantifier": "All schedules and times.", "why_tests_cant": "All schedules and times between swaps.", "anchors": ["rubin_scheduler/scheduler/schedulers/filter_scheduler.py:DateSwapBandScheduler"]}
{"id": "C84", "title": "Urgent alerts interrupt the queue as soon as they are visible", "statement": "A target of opportunity marked as urgent empties the queue when its centre, or part of its footprint if no centre is known, first is above its altitude limit; others never do.", "quantifier": "All alerts, sky positions and histories.", "why_tests_cant": "All footprints and orders of rising and alert.", "anchors": ["rubin_scheduler/scheduler/utils/too_objects.py:TargetoO.queue_should_flush", "rubin_scheduler/scheduler/schedulers/core_scheduler.py:CoreScheduler.update_conditions"]}
{"id": "C85", "title": "Each alert is followed once, as planned", "statement": "A survey following targets of opportunity plans, for each alert of its types, exactly once, visits at the configured times after the alert for all configured bands, repeats and positions; visits neither taken nor expired stay planned.", "quantifier": "All settings, alerts and histories.", "why_tests_cant": "Histories of alerts, updates and completed visits.", "anchors": ["rubin_scheduler/scheduler/surveys/too_scripted_surveys.py:ToOScriptedSurvey"]}
{"id": "C86", "title": "The almanac finds the night of a time or date", "statement": "The night given for a time is that whose sunset came last; the night given for a date is that which begins on the evening of the date; the first night of a survey has number 1.", "quantifier": "All times, dates and places.", "why_tests_cant": "All times, and all time zones of the computer.", "anchors": ["rubin_scheduler/site_models/almanac.py:Almanac"]}
{"id": "C87", "title": "Delivered image quality follows the physics", "statement": "Delivered image quality never improves with worse seeing, higher airmass or shorter wavelength, scales with airmass to the power 0.6, is never better than that of the system, and its two measures convert into each other without loss.", "quantifier": "All real values.", "why_tests_cant": "Continuum of values.", "anchors": ["rubin_scheduler/site_models/seeing_model.py:SeeingModel"]}
{"id": "C88", "title": "Depth follows the physics", "statement": "A visit is never shallower with a darker sky, sharper images, longer or more exposures, lower airmass or less cloud, and splitting its time into more exposures never makes it deeper.", "quantifier": "All real values and numbers of exposures.", "why_tests_cant": "Continuum of values.", "anchors": ["rubin_scheduler/utils/m5_flat_sed.py:m5_flat_sed", "rubin_scheduler/utils/m5_flat_sed.py:m5_scale"]}
{"id": "C89", "title": "Footprints answer for what is asked", "statement": "The answer of a footprint to a request depends only on its maps, the time and whether normalisation is asked for, not on earlier requests.", "quantifier": "All histories of requests and changes of maps.", "why_tests_cant": "Histories with repeated times.", "anchors": ["rubin_scheduler/scheduler/utils/footprints.py:Footprint.__call__", "rubin_scheduler/scheduler/utils/footprints.py:Footprints"]}
{"id": "C90", "title": "Rolling slices divide the sky", "statement": "Every pixel of the rolling area is in exactly one slice, the slices have equal size up to a few pixels, and the maps of all members add up to the map given.", "quantifier": "All sky maps, areas, numbers of slices and positions of the sun.", "why_tests_cant": "All areas and all positions of pixels relative to the dividing lines.", "anchors": ["rubin_scheduler/scheduler/utils/footprints.py:slice_quad_galactic_cut", "rubin_scheduler/scheduler/utils/footprints.py:make_rolling_footprints"]}
{"id": "C91", "title": "Bands not always loaded are wanted when loaded", "statement": "The fraction wanted in a band grows from zero before its first loaded night to one after its last, by equal steps on loaded nights only.", "quantifier": "All lists of nights and times.", "why_tests_cant": "All lists of nights.", "anchors": ["rubin_scheduler/scheduler/utils/footprints.py:PerFilterStep"]}
{"id": "C92", "title": "Masks from visit counts", "statement": "A mask that hides pixels after N visits (in total, or in a night) hides a pixel exactly from its Nth visit on, also as a member of a list of masks with an area check; the area check holds exactly when the pixels left cover the minimum area.", "quantifier": "All histories of visits and all lists of masks.", "why_tests_cant": "Histories; a new night without visits.", "anchors": ["rubin_scheduler/scheduler/basis_functions/mask_basis_funcs.py:MaskAfterNObsBasisFunction", "rubin_scheduler/scheduler/basis_functions/mask_basis_funcs.py:NInNightMaskBasisFunction", "rubin_scheduler/scheduler/basis_functions/mask_basis_funcs.py:AreaCheckMaskBasisFunction"]}
{"id": "C93", "title": "Masks with a limit", "statement": "Masks of wind, seeing, solar elongation, moon distance and clouds hide exactly the pixels beyond the limit, and the feasibility function with the same limit agrees.", "quantifier": "All maps and limits, including values at the limit.", "why_tests_cant": "All boundary values.", "anchors": ["rubin_scheduler/scheduler/basis_functions/mask_basis_funcs.py:SolarElongationMaskBasisFunction", "rubin_scheduler/scheduler/basis_functions/mask_basis_funcs.py:MoonAvoidanceBasisFunction", "rubin_scheduler/scheduler/basis_functions/mask_basis_funcs.py:BulkCloudBasisFunction"]}
{"id": "C94", "title": "Required area", "statement": "A survey with a required area has a reward other than minus infinity only if the unmasked pixels within the given radius of the maximum cover at least that area.", "quantifier": "All maps, radii and areas.", "why_tests_cant": "All maps of rewards.", "anchors": ["rubin_scheduler/scheduler/surveys/base_survey.py:BaseMarkovSurvey._check_feasibility", "rubin_scheduler/scheduler/surveys/surveys.py:BlobSurvey._check_feasibility", "rubin_scheduler/scheduler/surveys/surveys.py:BlobPairsSurvey._check_area"]}
{"id": "C95", "title": "Reward is the weighted sum, masks win", "statement": "Where all basis functions have ordinary values, the reward of a pixel is the weighted sum of their values; a pixel that any basis function masks is masked in the reward, whatever the weights and smoothing.", "quantifier": "All lists of basis functions, weights and maps, scalar values mixed with maps.", "why_tests_cant": "All combinations of scalar and map values.", "anchors": ["rubin_scheduler/scheduler/surveys/base_survey.py:BaseMarkovSurvey.calc_reward_function", "rubin_scheduler/scheduler/surveys/base_survey.py:BaseSurvey.calc_reward_function"]}
{"id": "C96", "title": "Reward of a single field", "statement": "The reward of a field survey is the mean of its basis functions at the field; a basis function of minus infinity there makes it minus infinity.", "quantifier": "All lists of basis functions.", "why_tests_cant": "Infinite values in any place.", "anchors": ["rubin_scheduler/scheduler/surveys/field_survey.py:FieldSurvey.calc_reward_function"]}
{"id": "C97", "title": "Greedy surveys take the best pixels", "statement": "A greedy survey visits exactly the fields of its best pixels, as many pixels as its block size; masked and infinite pixels are never used, no field is visited twice.", "quantifier": "All maps, tessellations and block sizes.", "why_tests_cant": "Ties and maps with few pixels.", "anchors": ["rubin_scheduler/scheduler/surveys/surveys.py:GreedySurvey.generate_observations_rough"]}
{"id": "C98", "title": "Growing a region", "statement": "A blob grows from the maximum: each next pixel touches the region so far and is the best that does; masked pixels never enter; growth stops only when nothing unmasked touches the region. It never fails on a sphere with an unmasked pixel.", "quantifier": "All maps and neighbour relations.", "why_tests_cant": "All shapes of masks, islands.", "anchors": ["rubin_scheduler/utils/healpy_utils.py:hp_grow_argsort", "rubin_scheduler/scheduler/surveys/surveys.py:BlobSurvey.generate_observations_rough"]}
{"id": "C99", "title": "Fields of a blob", "statement": "Each pass of a blob visits distinct fields, at most the block size and that many whenever enough fields have a reward, including one with the best pixel; all lie within the radius of the maximum; passes use the first and then the second band.", "quantifier": "All maps, tessellations, block sizes and numbers of passes.", "why_tests_cant": "All maps; interplay of mask and several passes.", "anchors": ["rubin_scheduler/scheduler/surveys/surveys.py:BlobSurvey.generate_observations_rough", "rubin_scheduler/scheduler/surveys/surveys.py:BlobSurvey.simple_order_sort"]}
{"id": "C100", "title": "Sequences of field and deep drilling surveys", "statement": "A field survey hands out, when feasible, its visits in mounted bands in the order asked for, each band as often as asked for, with the exposure asked for (a deep drilling survey with those in the current band first); they are dropped once the estimated duration of the sequence and the padding are over.", "quantifier": "All sequences, dictionaries of visits and exposures, sets of mounted bands and times.", "why_tests_cant": "All sequences.", "anchors": ["rubin_scheduler/scheduler/surveys/field_survey.py:FieldSurvey", "rubin_scheduler/scheduler/surveys/dd_surveys.py:DeepDrillingSurvey"]}
{"id": "C101", "title": "Surveys of a list of targets", "statement": "A survey of targets counts for each target the visits with its note and the time of the last, however they are added; the target it chooses has the largest reward and obeys all limits (minimum gap, hour angle, altitude, moon, wind); the balancing term never prefers what has more visits; by day it has no reward. The boost of a target is the number of visits in the running sequence of its key.", "quantifier": "All lists of targets, weights, limits and histories.", "why_tests_cant": "Histories and combinations of limits.", "anchors": ["rubin_scheduler/scheduler/surveys/pointings_survey.py:PointingsSurvey"]}
{"id": "C102", "title": "Third visits after a long gap", "statement": "After a completed pair of a blob, exactly the second visits of the latest night are scheduled again, all at the gap of that night within the gap range, not above the altitude limit while they may be taken and before the night ends; they are kept until the night changes, also over a restart from the visits so far.", "quantifier": "All histories, gaps, altitudes over time and restarts.", "why_tests_cant": "All histories and altitude curves, unbounded searches.", "anchors": ["rubin_scheduler/scheduler/surveys/long_gap_survey.py:LongGapSurvey"]}
{"id": "C103", "title": "Basis functions never answer from the past", "statement": "Whatever visits were reported and whatever was asked before, calling a basis function gives its value for all the visits reported so far and the conditions passed in, and -inf exactly when these are not feasible; a function limited to some pixels is feasible exactly when one of them has a reward.", "quantifier": "All sequences of reported visits and calls, all basis functions.", "why_tests_cant": "Stale caches show only for particular sequences of calls.", "anchors": ["rubin_scheduler/scheduler/basis_functions/basis_functions.py:BaseBasisFunction.__call__", "rubin_scheduler/scheduler/basis_functions/basis_functions.py:BaseBasisFunction.add_observation", "rubin_scheduler/scheduler/basis_functions/basis_functions.py:HealpixLimitedBasisFunctionMixin"]}
{"id": "C104", "title": "Fast revisits are avoided", "statement": "The avoidance map penalises exactly the pixels covered by a visit in the band less than the gap ago; the gap on a note holds a survey back exactly when every band asked for was visited under the note and one of them no longer ago than the gap, with the penalty asked for.", "quantifier": "All histories in order of time, gaps, bands, notes and times.", "why_tests_cant": "All histories, and values at the tolerance of a comparison over the whole map.", "anchors": ["rubin_scheduler/scheduler/basis_functions/basis_functions.py:AvoidFastRevisitsBasisFunction", "rubin_scheduler/scheduler/basis_functions/basis_functions.py:VisitGap"]}
{"id": "C105", "title": "Repeat visits are rewarded in their window", "statement": "A pixel is rewarded exactly when its latest visit in the band lies between the smallest and the largest gap ago and it has fewer pairs this night than asked for.", "quantifier": "All histories in order of time, gaps and times.", "why_tests_cant": "All histories, and values at the tolerance of a comparison over the whole map.", "anchors": ["rubin_scheduler/scheduler/basis_functions/basis_functions.py:VisitRepeatBasisFunction"]}
{"id": "C106", "title": "Cadence windows", "statement": "On the area asked for, pixels last visited within the suppression window get the one value, within the enhancement window the other, all others 0, at every stage of the survey; the smooth form changes with the given slope and stays between 0 and its amplitude.", "quantifier": "All histories, windows, areas and times.", "why_tests_cant": "Depends on every pixel's history, including none.", "anchors": ["rubin_scheduler/scheduler/basis_functions/basis_functions.py:CadenceEnhanceBasisFunction", "rubin_scheduler/scheduler/basis_functions/basis_functions.py:trapezoid"]}
{"id": "C107", "title": "Rewards for bands", "statement": "Staying in the band in use, or having none, is rewarded; a change is free exactly when the band is mounted and the moon rose or set, twilight began or ended, enough time passed, or the last visit's note includes the free text; a band with fewer visits is rewarded more.", "quantifier": "All last visits, conditions and histories.", "why_tests_cant": "All combinations of conditions and histories, and both ways a visit can be reported.", "anchors": ["rubin_scheduler/scheduler/basis_functions/basis_functions.py:StrictBandBasisFunction", "rubin_scheduler/scheduler/basis_functions/basis_functions.py:BandChangeBasisFunction", "rubin_scheduler/scheduler/basis_functions/basis_functions.py:BandDistBasisFunction"]}
{"id": "C108", "title": "Rewards for short slews", "statement": "A pixel is masked exactly when its slew time is not finite; else a shorter slew is rewarded more, between -1 and 0 up to the maximum time, and 0 when the band would change.", "quantifier": "All maps of slew times and bands.", "why_tests_cant": "All maps, with every kind of floating-point value.", "anchors": ["rubin_scheduler/scheduler/basis_functions/basis_functions.py:SlewtimeBasisFunction"]}
{"id": "C109", "title": "Coverage by year and season", "statement": "Until the last night asked for, exactly the pixels of the footprint with fewer than n visits in the past period get a reward, rising from 0 to 1 through their season; the seasonal rewards mark exactly the pixels of the footprint that lack visits this season while seeing and depth, or the time in the season, are as asked.", "quantifier": "All histories, footprints, positions of the sun and times.", "why_tests_cant": "All histories and angles modulo a turn.", "anchors": ["rubin_scheduler/scheduler/basis_functions/basis_functions.py:NObsPerYearBasisFunction", "rubin_scheduler/scheduler/basis_functions/basis_functions.py:NGoodSeeingBasisFunction", "rubin_scheduler/scheduler/basis_functions/basis_functions.py:SeasonCoverageBasisFunction"]}
{"id": "C110", "title": "The footprint reward is fair", "statement": "A pixel of the footprint is rewarded by the visits it should have by now, its share of all visits, less those it has; with equal shares fewer visits mean more reward; over all bands and pixels the rewards cancel; pixels out of the footprint get the value asked for.", "quantifier": "All footprints, counts of visits and bands.", "why_tests_cant": "All counts and footprints; a sum over all bands.", "anchors": ["rubin_scheduler/scheduler/basis_functions/rolling_funcs.py:FootprintBasisFunction"]}
{"id": "C111", "title": "Balance of surveys and sequences", "statement": "The reward of a survey in a group falls with its own visits and rises with those of the group, from the first on; the reward of a sequence is the number of visits since the last complete one.", "quantifier": "All counts of visits and reference numbers.", "why_tests_cant": "All counts.", "anchors": ["rubin_scheduler/scheduler/basis_functions/basis_functions.py:BalanceVisits", "rubin_scheduler/scheduler/basis_functions/basis_functions.py:RewardNObsSequence"]}
{"id": "C112", "title": "Low pixels near the sun", "statement": "Exactly the pixels with airmass between 1 and the maximum and less than 90 degrees in azimuth from the sun are rewarded, with their airmass over the maximum; all others get the penalty.", "quantifier": "All maps of airmass and azimuth.", "why_tests_cant": "All maps, including values that are not finite.", "anchors": ["rubin_scheduler/scheduler/basis_functions/basis_functions.py:NearSunHighAirmassBasisFunction"]}
{"id": "C113", "title": "The shadow mask keeps to the limits", "statement": "A pixel is left unmasked exactly when it lies within the altitude and azimuth limits of the survey, of the telescope and of the open sky now and at every time looked at up to the shadow time; with padding, exactly when no pixel close to it is masked; the mask is that of the limits in force; near sunrise and sunset only, if so asked.", "quantifier": "All limits, positions, shadow times, steps and pads; all sequences of changed limits.", "why_tests_cant": "All combinations of limits, wrapped azimuths and moving pixels; stale caches show only in sequences of calls.", "anchors": ["rubin_scheduler/scheduler/features/conditions.py:Conditions.alt_az_shadow_mask", "rubin_scheduler/scheduler/basis_functions/mask_basis_funcs.py:AltAzShadowTimeLimitedBasisFunction", "rubin_scheduler/utils/healpy_utils.py:_hp_grow_mask"]}
{"id": "C114", "title": "Restoring a scheduler", "statement": "Restoring from a table of visits up to a given visit tells every survey exactly those visits in the order of the run, in one go or one by one with the same result; no target id of theirs is given out again; the observatory has the clock, pointing, band and number after the last of them. Replaying a table does not depend on its order.", "quantifier": "All tables of visits, all visits to stop at, all states of the scheduler.", "why_tests_cant": "All tables and all surveys; equality of two ways to replay.", "anchors": ["rubin_scheduler/scheduler/utils/utils.py:restore_scheduler", "rubin_scheduler/scheduler/utils/utils.py:warm_start"]}
{"id": "C115", "title": "Sky brightness between stored maps", "statement": "At every time of a night the brightness of a pixel lies between those of the stored maps before and after, in proportion to the time passed, whatever was asked before; between nights it is that of the nearer map, in daytime a constant; masked pixels get the bad value or, if asked, that of the nearest unmasked pixel.", "quantifier": "All files of maps, all times and sequences of questions, all pixels.", "why_tests_cant": "Depends on what earlier questions left in memory.", "anchors": ["rubin_scheduler/skybrightness_pre/sky_model_pre.py:SkyModelPre.return_mags", "rubin_scheduler/skybrightness_pre/sky_model_pre.py:SkyModelPre._load_data"]}
{"id": "C116", "title": "Interpolated angles take the short way", "statement": "An angle interpolated between two samples is the first one turned towards the second along the shorter way, by the share of the way passed; outside the samples it is the nearest one; always between 0 and a full turn.", "quantifier": "All samples at rising positions, all positions asked for.", "why_tests_cant": "Angles wrap at a full turn, where tests sample a few.", "anchors": ["rubin_scheduler/skybrightness_pre/sky_model_pre.py:interp_angle", "rubin_scheduler/skybrightness_pre/sky_model_pre.py:short_angle_dist"]}
{"id": "C117", "title": "Altitudes and azimuths", "statement": "The fast altitude and azimuth of a position are those at which its direction is seen by an observer at that latitude and sidereal time: altitude above the horizon, azimuth from north through east. So separations between two targets are the same in both systems, and the altitude is 90 degrees less the distance to the zenith.", "quantifier": "All positions, latitudes, longitudes and times.", "why_tests_cant": "Quadrants, poles and clipping: a few sampled positions do not settle the formula.", "anchors": ["rubin_scheduler/utils/approx_coord_transforms.py:_approx_ra_dec2_alt_az"]}
{"id": "C118", "title": "From sky to horizon and back", "statement": "Turning a position into altitude and azimuth and back at the same time gives the position again, with a right ascension from 0 to less than a full turn; likewise the other way round.", "quantifier": "All positions, sites and times.", "why_tests_cant": "Each inverse picks a quadrant; all of them must match.", "anchors": ["rubin_scheduler/utils/approx_coord_transforms.py:_approx_ra_dec2_alt_az", "rubin_scheduler/utils/approx_coord_transforms.py:_approx_alt_az2_ra_dec"]}
{"id": "C119", "title": "Sidereal time", "statement": "Local mean sidereal time is Greenwich's plus the longitude, from 0 to less than 24 hours, at every longitude; it gains about four minutes a day on clock time.", "quantifier": "All dates and longitudes.", "why_tests_cant": "Range and wrap-around must hold for every date and site.", "anchors": ["rubin_scheduler/utils/coordinate_transformations.py:calc_lmst"]}
{"id": "C120", "title": "The parallactic angle points to the zenith", "statement": "The parallactic angle of a target is the angle on the sky, from north through east, at which the zenith lies from it, from 0 to less than a full turn; the formula by hour angle and the one by altitude and azimuth agree.", "quantifier": "All targets, sites and times.", "why_tests_cant": "Two formulas in different coordinates; signs and quadrants everywhere.", "anchors": ["rubin_scheduler/utils/approx_coord_transforms.py:_approx_altaz2pa", "rubin_scheduler/utils/coordinate_transformations.py:_alt_az_pa_from_ra_dec"]}
{"id": "C121", "title": "Angular separation is a distance", "statement": "The angular separation is the angle between the two directions, from 0 to 180 degrees; it is the same both ways, zero exactly for the same direction, and obeys the triangle inequality.", "quantifier": "All pairs and triples of positions.", "why_tests_cant": "The triangle inequality ranges over triples; precision of the formula hides in tests.", "anchors": ["rubin_scheduler/utils/coordinate_transformations.py:_angular_separation", "rubin_scheduler/utils/coordinate_transformations.py:haversine"]}
{"id": "C122", "title": "Searching pixels by chords", "statement": "The search radius used in the trees of unit vectors selects exactly what is within the given angle; vectors and positions go back and forth; rotating about an axis keeps lengths and angles, and turns add.", "quantifier": "All positions, radii and rotations.", "why_tests_cant": "A comparison of chords has to agree with one of angles for every pair.", "anchors": ["rubin_scheduler/utils/coordinate_transformations.py:xyz_angular_radius", "rubin_scheduler/utils/coordinate_transformations.py:_xyz_from_ra_dec", "rubin_scheduler/utils/coordinate_transformations.py:_ra_dec_from_xyz", "rubin_scheduler/utils/coordinate_transformations.py:rot_about_z"]}
{"id": "C123", "title": "Bearings, destinations and the distance to an arc", "statement": "The bearing from one position to another is the direction of the great circle that joins them; going a distance along a bearing arrives that far away and in that direction; going the separation along the bearing arrives at the other position; the distance to an arc is the smallest separation to one of its points.", "quantifier": "All positions, distances and bearings; all arcs and points.", "why_tests_cant": "Quadrants, ends of the arc and obtuse angles.", "anchors": ["rubin_scheduler/utils/bearing.py:bearing", "rubin_scheduler/utils/bearing.py:dest_latlon", "rubin_scheduler/utils/bearing.py:point_to_line_distance"]}
{"id": "C124", "title": "Projection around a pointing", "statement": "A position is projected to the point where its line of sight meets the plane touching the sky at the pointing; projecting and going back gives the position again; distances in the plane are tangents of the separation; different positions are projected to different points; rotating keeps distances and turns add.", "quantifier": "All pointings, positions and rotations.", "why_tests_cant": "Every side of the pointing, and both sides of the sky.", "anchors": ["rubin_scheduler/utils/projections.py:gnomonic_project_toxy", "rubin_scheduler/utils/projections.py:gnomonic_project_tosky", "rubin_scheduler/utils/camera_footprint.py:rotate", "rubin_scheduler/scheduler/utils/utils.py:gnomonic_project_toxy"]}
{"id": "C125", "title": "What the camera sees", "statement": "A position is reported as seen exactly when it falls, projected and turned with the camera, in a cell of the camera's map that is silicon and within the largest radius; so nothing further from the pointing than that (and half a cell) is.", "quantifier": "All camera maps, positions, pointings and rotations.", "why_tests_cant": "The answer for a whole sky of objects depends on every position.", "anchors": ["rubin_scheduler/utils/camera_footprint.py:LsstCameraFootprint"]}
{"id": "C126", "title": "Random offsets of visits", "statement": "Each visit is moved by no more than the largest offset asked for, and keeps everything else; with one offset per night all visits of a night share it, whatever was done before; with an offset per visit the k-th visit of a night gets the k-th offset of that night, which depends on nothing but the night. This needs the visits of the night to be counted from zero.", "quantifier": "All settings, random numbers, nights, lists of visits and histories of calls and reports.", "why_tests_cant": "The offset depends on the whole history of calls and reports.", "anchors": ["rubin_scheduler/scheduler/detailers/dither_detailer.py:DitherDetailer"]}
{"id": "C127", "title": "Offsets of a pair of fields", "statement": "The fields of a pair are moved along the line between them and across it by amounts within the ranges asked for, so no further than the sum of these; visits of one field are put at one place; with one offset per night this is a function of the night; a list with a visit of neither field is refused.", "quantifier": "All pairs of fields, ranges, random numbers, nights, lists of visits and histories.", "why_tests_cant": "As for C126, and on a sphere.", "anchors": ["rubin_scheduler/scheduler/detailers/dither_detailer.py:EuclidDitherDetailer"]}
{"id": "C128", "title": "Fixed offsets around each visit", "statement": "Each visit is replaced, in order, by one visit for every offset; each of them lies as seen from the visit exactly where the offset lies as seen from the origin of coordinates; the rotation asked for is changed by the rotation offset and everything else is kept. A list without visits stays empty.", "quantifier": "All offsets, visits and lists.", "why_tests_cant": "Positions near the poles and every list length.", "anchors": ["rubin_scheduler/scheduler/detailers/dither_detailer.py:DeltaCoordDitherDetailer"]}
{"id": "C129", "title": "Grid of offsets of a small camera", "statement": "The k-th visit since the band changed is moved by corner k mod 4 of a square plus step (k div 4) mod 5 of a pattern, turned against the rotation of the camera, so that in twenty visits each corner meets each step once; all visits share one rotation on the sky and are given the rotator angle that makes it.", "quantifier": "All lists of visits and bands, positions, times, square and pattern sizes.", "why_tests_cant": "Sequences of any length and bands in any order.", "anchors": ["rubin_scheduler/scheduler/detailers/dither_detailer.py:ComCamGridDitherDetailer"]}
{"id": "C130", "title": "Events follow a wanted cumulative count", "statement": "Given a wanted running count of events over cells, and a mask, events are put only into cells that are allowed, at most one in a cell when repeats are not wanted, as near as possible to where the rounded count rises, and as many in total as are wanted.", "quantifier": "All wanted counts (with cells that are not numbers), masks and settings.", "why_tests_cant": "The choice for a rise depends on all choices before it.", "anchors": ["rubin_scheduler/scheduler/example/lsst_ddf_presched.py:match_cumulative"]}
{"id": "C131", "title": "Wanted number of sequences over seasons", "statement": "The wanted running number of sequences never falls with time; in each season it rises, in proportion to the rate of each night, by the number asked for scaled by the length of the season relative to the longest; nights without a rate add nothing. Boosts multiply the numbers of the first three seasons.", "quantifier": "All rates, seasons, numbers asked for and boosts.", "why_tests_cant": "Any number of nights and seasons, also partial and empty ones.", "anchors": ["rubin_scheduler/scheduler/example/lsst_ddf_presched.py:ddf_slopes"]}
{"id": "C132", "title": "Times of deep drilling sequences", "statement": "Each planned time lies in the grid and within all limits from the start to the end of a sequence; it is the deepest such time of its night and nights are used at most once; no time lies in the part of a season that is not to be used; there are as many times as wanted, scaled down to the number of nights that can be used; a plan is always made.", "quantifier": "All grids of times, limits and settings.", "why_tests_cant": "Masks, seasons and the running count interact over the whole survey.", "anchors": ["rubin_scheduler/scheduler/example/lsst_ddf_presched.py:optimize_ddf_times"]}
{"id": "C133", "title": "Scheduled visits of deep drilling fields", "statement": "Each scheduled visit belongs to a row of the table and one of its planned times, with the position of its field and all limits as given; at each time and in each band there are as many visits as the rows ask for; sequences in u alone are planned when the moon is faint, in y alone when it is bright; an empty plan is an empty list. Rows for even and for odd nights never share a night.", "quantifier": "All tables of sequences, settings, fields and grids.", "why_tests_cant": "Every combination of rows and every history of planned times.", "anchors": ["rubin_scheduler/scheduler/example/lsst_ddf_presched.py:generate_ddf_scheduled_obs"]}
{"id": "C134", "title": "Numbers of the triangles of the mesh", "statement": "The numbers of level L are those from 8·4^(L-1) up to but not including 16·4^(L-1); each of them is the number of a triangle, whose own number and level are those, and whose four children have the next four numbers times four; other numbers are refused; the table of all triangles of a level has, for every number up to the level, the triangle of that number.", "quantifier": "All numbers and all levels.", "why_tests_cant": "Any depth of the mesh.", "anchors": ["rubin_scheduler/utils/htm_module.py:level_from_htmid", "rubin_scheduler/utils/htm_module.py:trixel_from_htmid", "rubin_scheduler/utils/htm_module.py:get_all_trixels", "rubin_scheduler/utils/htm_module.py:Trixel.get_child"]}
{"id": "C135", "title": "The triangle of a position", "statement": "Every position on the sky is in a triangle of each level, and triangles of a level overlap at their edges only; the number found for a position is that of a triangle of the level asked for which has the position; the same number is found for the position alone and in an array.", "quantifier": "All positions and levels.", "why_tests_cant": "Every position, also those on edges and corners, at any depth.", "anchors": ["rubin_scheduler/utils/htm_module.py:find_htmid", "rubin_scheduler/utils/htm_module.py:_find_htmid_slow", "rubin_scheduler/utils/htm_module.py:_find_htmid_fast"]}
{"id": "C136", "title": "The triangles of a region", "statement": "A triangle said to be in a half space has all its points there, one said to be outside has none there, and any other has points in and out; the ranges for a region at a level have exactly the triangles of the level that meet it.", "quantifier": "All half spaces, triangles and levels.", "why_tests_cant": "Every circle on the sphere against every triangle.", "anchors": ["rubin_scheduler/utils/htm_module.py:HalfSpace.contains_trixel", "rubin_scheduler/utils/htm_module.py:HalfSpace.find_all_trixels", "rubin_scheduler/utils/htm_module.py:HalfSpace.intersects_edge"]}
{"id": "C137", "title": "Ranges of numbers merged and intersected", "statement": "Merged ranges have the same numbers as the ranges given, rise, and have gaps between them, so the result depends on the numbers alone; the ranges of two sets joined have exactly the numbers in both.", "quantifier": "All lists of ranges.", "why_tests_cant": "Any number of ranges in any order, overlapping and touching.", "anchors": ["rubin_scheduler/utils/htm_module.py:HalfSpace.merge_trixel_bounds", "rubin_scheduler/utils/htm_module.py:HalfSpace.join_trixel_bound_sets"]}
{"id": "C138", "title": "Half spaces from positions and where their circles meet", "statement": "The half space of a position and a radius has exactly the positions nearer than the radius; that through two positions has both on its edge and the third inside; the points returned for two half spaces are exactly those on both circles.", "quantifier": "All positions, radii and half spaces.", "why_tests_cant": "All pairs of circles, also touching and nearly parallel ones.", "anchors": ["rubin_scheduler/utils/htm_module.py:half_space_from_ra_dec", "rubin_scheduler/utils/htm_module.py:half_space_from_points", "rubin_scheduler/utils/htm_module.py:intersect_half_spaces"]}
{"id": "C139", "title": "Each place of the sky gets the weights of one region", "statement": "A survey map has one row per pixel; a pixel has the label and the weights of the first region, in the order in which they are added, that it lies in, whatever regions overlap; a pixel in no region has no label and no weight; up to the northern limit no pixel is left out; and a map is returned for all weights and resolutions.", "quantifier": "All generators, settings, weights and pixels.", "why_tests_cant": "Every overlap of eight regions at every pixel of any map.", "anchors": ["rubin_scheduler/scheduler/utils/sky_area.py:SkyAreaGenerator.return_maps", "rubin_scheduler/scheduler/utils/sky_area.py:Phase3AreaMap.return_maps", "rubin_scheduler/scheduler/utils/sky_area.py:SkyAreaGeneratorGalplane", "rubin_scheduler/scheduler/utils/sky_area.py:EuclidOverlapFootprint"]}
{"id": "C140", "title": "Numbers of visits from a map", "statement": "The expected visits of a pixel in the bands add up to its total and are in proportion to its weights; over the sky they make up the number of visits given; the visits of the labels add up to that number, with each label counted once and its visits those of its pixels; the shares of the bands lie between 0 and 1 and add up to 1.", "quantifier": "All maps and numbers of visits.", "why_tests_cant": "Sums over maps of any size and with any labels.", "anchors": ["rubin_scheduler/scheduler/utils/sky_area.py:SkyAreaGenerator.estimate_visits", "rubin_scheduler/scheduler/utils/sky_area.py:SkyAreaGenerator.estimate_visits_per_label", "rubin_scheduler/scheduler/utils/sky_area.py:band_count_ratios"]}
{"id": "C141", "title": "What never rises is masked", "statement": "A pixel of the map of the whole sky is masked exactly when it is at no time as high as the limit of elevation.", "quantifier": "All declinations, latitudes, limits and times.", "why_tests_cant": "All times of all days.", "anchors": ["rubin_scheduler/scheduler/utils/sky_area.py:generate_all_sky"]}
{"id": "C142", "title": "Pixels in the field of view", "statement": "The pixels found for a pointing have their centres within the radius of the field of view, and every pixel with its centre within the radius is found, up to three steps of the grid to which positions are rounded; for an array of positions there is one list of pixels per position, in order; a mask grown by a radius holds the mask and the pixels within the radius of one of its pixels, up to the same steps.", "quantifier": "All positions, radii, resolutions and masks.", "why_tests_cant": "All positions on the sphere, with the rounding of three coordinates.", "anchors": ["rubin_scheduler/scheduler/utils/utils.py:HpInLsstFov", "rubin_scheduler/utils/healpy_utils.py:_hp_grow_mask", "rubin_scheduler/utils/tree_utils.py:_build_tree"]}
{"id": "C143", "title": "Maps of statistics of points", "statement": "A map of points has at a pixel the statistic of exactly the values of the points in it and the filling value where there are none, and the result does not depend on the order in which the points are given when the statistic does not.", "quantifier": "All lists of points and statistics.", "why_tests_cant": "All lists of points in all orders.", "anchors": ["rubin_scheduler/utils/binned_stats.py:int_binned_stat", "rubin_scheduler/utils/healpy_utils.py:_healbin", "rubin_scheduler/utils/healpy_utils.py:healbin"]}
{"id": "C144", "title": "Maps of several resolutions", "statement": "The number of a pixel tells its order and its place; turned into a map of one resolution, a map of several resolutions keeps the total where sums are wanted and gives the mean weighted with area where densities are.", "quantifier": "All maps of several resolutions.", "why_tests_cant": "All mixtures of resolutions.", "anchors": ["rubin_scheduler/utils/healpy_utils.py:moc2array"]}
{"id": "C145", "title": "Times at which a body passes an altitude", "statement": "Each time found lies between two samples with the altitude on opposite sides, on the line between them, in the direction asked for, and there is one time for each two such samples.", "quantifier": "All altitudes, times and goals.", "why_tests_cant": "All series of altitudes.", "anchors": ["rubin_scheduler/scheduler/model_observatory/generate_altitudes.py:alt_passing_interp", "rubin_scheduler/scheduler/model_observatory/generate_altitudes.py:lin_interp"]}
{"id": "C146", "title": "The table of nights", "statement": "The nights of the table are numbered 1, 2, 3 and so on and start with the sunsets from the given date on; an event of a night, as the rise of the moon, is after its sunset and not after the next one, and a night without such an event is told from one with it.", "quantifier": "All sunsets, events and dates.", "why_tests_cant": "All series of sunsets and events.", "anchors": ["rubin_scheduler/scheduler/model_observatory/generate_altitudes.py:generate_nights"]}
{"id": "C147", "title": "Turning of the tessellation", "statement": "Between nights, or calls, the fields of a survey are turned on the sky as a whole: separations between fields and their handedness stay and positions stay in range; the fields of a night depend on the night only, not on the nights before; each pixel belongs to a field that no other field is nearer to; this goes on for as long as the survey runs.", "quantifier": "All tessellations, turns, and histories of nights and calls.", "why_tests_cant": "All rotations of the sphere and all histories of nights.", "anchors": ["rubin_scheduler/scheduler/surveys/base_survey.py:BaseMarkovSurvey._spin_fields", "rubin_scheduler/scheduler/surveys/base_survey.py:BaseMarkovSurvey._hp2fieldsetup", "rubin_scheduler/scheduler/surveys/base_survey.py:BaseMarkovSurvey.generate_observations_rough", "rubin_scheduler/scheduler/surveys/too_scripted_surveys.py:ToOScriptedSurvey._new_event"]}
{"id": "C148", "title": "Labels in reports", "statement": "Each survey of a scheduler has a label that starts with its name, or its class when it has no name, and no two surveys have the same label; the same holds for the basis functions of a survey.", "quantifier": "All lists of surveys and basis functions with any names.", "why_tests_cant": "All lists of names, with repeats and names that look like numbered ones.", "anchors": ["rubin_scheduler/scheduler/schedulers/core_scheduler.py:CoreScheduler.survey_labels", "rubin_scheduler/scheduler/surveys/base_survey.py:BaseSurvey.bf_short_labels"]}
{"id": "C149", "title": "Tables of rewards", "statement": "The table of the rewards of a survey has a row for each basis function with its greatest reward and the area it leaves open over the region of the survey, and those of the survey with the basis functions so far, so that the last row describes the reward of the survey itself and the open area never grows; the table of a scheduler has these rows for every survey with its place, label and reward; the list of surveys marks exactly the chosen one.", "quantifier": "All lists of surveys, basis functions, regions and rewards.", "why_tests_cant": "All rewards, with masked and infinite values, and all lists of surveys.", "anchors": ["rubin_scheduler/scheduler/surveys/base_survey.py:BaseSurvey.make_reward_df", "rubin_scheduler/scheduler/surveys/base_survey.py:BaseSurvey._reward_to_scalars", "rubin_scheduler/scheduler/schedulers/core_scheduler.py:CoreScheduler.make_reward_df", "rubin_scheduler/scheduler/schedulers/core_scheduler.py:CoreScheduler.surveys_df"]}
{"id": "C150", "title": "Visits told to a survey", "statement": "A survey counts exactly the visits whose note contains none of the texts it ignores; told of many visits at once it ends as if told of them one by one, when this holds for its parts.", "quantifier": "All surveys, texts and histories.", "why_tests_cant": "All histories, split anywhere into single reports and a batch.", "anchors": ["rubin_scheduler/scheduler/surveys/base_survey.py:BaseSurvey.add_observations_array", "rubin_scheduler/scheduler/surveys/base_survey.py:BaseSurvey.check_good_note", "rubin_scheduler/scheduler/surveys/base_survey.py:BaseSurvey.add_observation"]}
{"id": "C151", "title": "Labels of regions and deep fields are added to visits completely", "statement": "After the labelling detailers a visit carries, in the chosen text column, every label of the sky regions its field of view touches (or the mark for outside of the footprint), the name of every deep field it lies near enough to, and everything it carried before; nothing else is added.", "quantifier": "every visit, map of labels, table of deep fields, radius, previous text and order in which Python joins a set", "why_tests_cant": "which labels meet on one visit depends on the pointing; the loss shows only when the joined text outgrows the fixed width of the column", "anchors": ["rubin_scheduler/scheduler/detailers/detailer.py:LabelRegionDetailer", "rubin_scheduler/scheduler/detailers/detailer.py:LabelDDFDetailer", "rubin_scheduler/scheduler/detailers/detailer.py:LabelRegionsAndDDFs"]}
{"id": "C152", "title": "Detailers that choose the camera angle put the rotator where they say", "statement": "For every visit: with the zero-rotation detailer the rotator is at zero; a wanted rotator angle and the sky angle set with it agree; the parallactic detailer stays inside the rotator limits and points along the parallactic angle or opposite; the quarter-turn detailer picks the multiple of 90 degrees that keeps the rotator nearest to zero.", "quantifier": "every parallactic angle, camera, limit pair holding a quarter turn to both sides and wanted angle", "why_tests_cant": "the angles are continuous, and tests look at few pointings and do not compute the rotator angle back", "anchors": ["rubin_scheduler/scheduler/detailers/detailer.py:ZeroRotDetailer", "rubin_scheduler/scheduler/detailers/detailer.py:ParallacticRotationDetailer", "rubin_scheduler/scheduler/detailers/detailer.py:Comcam90rotDetailer", "rubin_scheduler/scheduler/detailers/dither_detailer.py:CameraRotDetailer"]}
{"id": "C153", "title": "A start sequence is run once per stretch of time", "statement": "The detailer that prepends a start sequence does so exactly when no visit matching its program, note and distance was completed within the chosen number of hours; visits of the sequence themselves count as matching.", "quantifier": "every history of completed visits in order of time, time of asking, program, note, radius and number of hours", "why_tests_cant": "depends on the whole history of completed visits and on the options given together", "anchors": ["rubin_scheduler/scheduler/detailers/detailer.py:StartFieldSequenceDetailer", "rubin_scheduler/scheduler/features/features.py:LastObservedMatching"]}
{"id": "C154", "title": "Detailers change only the columns and visits they are for", "statement": "Setting filters from bands, numbers of exposures for a band, marks for visits near a place and bands for near alerts changes exactly the visits that qualify and exactly the named columns, leaving number and order of visits alone.", "quantifier": "every list of visits, table of filters, place, radius, alert, moon phase and set of mounted bands", "why_tests_cant": "must hold for every mix of visits and options", "anchors": ["rubin_scheduler/scheduler/detailers/detailer.py:BandToFilterDetailer", "rubin_scheduler/scheduler/detailers/detailer.py:BandNexp", "rubin_scheduler/scheduler/detailers/detailer.py:TagRadialDetailer", "rubin_scheduler/scheduler/detailers/event_detailers.py:BandPickToODetailer"]}
{"id": "C155", "title": "Varied exposure times reach the target depth", "statement": "The exposure time aimed at brings the expected five sigma depth at the place of the visit to the target depth, is longer where the sky is shallower, and where the map is masked uses the mean depth of the pixels around.", "quantifier": "every target, base time, depth map and pixel", "why_tests_cant": "continuous formula over all of the sky and masks of any shape", "anchors": ["rubin_scheduler/scheduler/detailers/vary_exptime.py:VaryExptDetailer"]}
{"id": "C156", "title": "Depth rewards are measured against the best depth a place can have", "statement": "The basis function of depth is never above zero: no hour, cloud, brighter sky, worse seeing or shorter exposure brings a place deeper than its dark sky depth, and it is zero when the place culminates under the conditions assumed. Places that never rise have no value.", "quantifier": "every place, site, hour, sky brightness, seeing, extinction and exposure of up to 30 seconds", "why_tests_cant": "a bound over continuous hour angles and conditions", "anchors": ["rubin_scheduler/scheduler/basis_functions/basis_functions.py:M5DiffBasisFunction", "rubin_scheduler/skybrightness_pre/dark_sky.py:dark_m5"]}
{"id": "C157", "title": "Wind rewards mask what they say they mask", "statement": "Exactly the directions whose part of the wind is beyond the limit are masked; elsewhere the penalty is the square of that part; unknown wind has no effect.", "quantifier": "every wind, direction and limit", "why_tests_cant": "continuous in speed and direction", "anchors": ["rubin_scheduler/scheduler/basis_functions/basis_functions.py:AvoidDirectWind", "rubin_scheduler/scheduler/basis_functions/basis_functions.py:WindPressureBasisFunction", "rubin_scheduler/scheduler/basis_functions/basis_functions.py:az_rel_point"]}
{"id": "C158", "title": "Bright planets are masked and nothing else is", "statement": "After the planet mask exactly the pixels within the field of view of a listed planet are unobservable.", "quantifier": "every pixelization, radius, scale and list of positions of planets", "why_tests_cant": "depends on geometry of every pixel and every position of the planets", "anchors": ["rubin_scheduler/scheduler/basis_functions/mask_basis_funcs.py:PlanetMaskBasisFunction"]}
{"id": "C159", "title": "Target depths are those of the sky at culmination", "statement": "The depth aimed at for a declination is taken with the altitude at which that declination culminates.", "quantifier": "every latitude and declination", "why_tests_cant": "holds or fails over ranges of declination", "anchors": ["rubin_scheduler/scheduler/detailers/vary_exptime.py:calc_target_m5s"]}
{"id": "C160", "title": "A query of the consolidated database is tried three times", "statement": "The query returns the data of the first successful answer and otherwise fails with the error of the third; it never goes on without end.", "quantifier": "every sequence of answers of the server", "why_tests_cant": "needs servers that fail in every pattern", "anchors": ["rubin_scheduler/utils/consdb.py:query_consdb"]}
{"id": "C161", "title": "The visits asked for are those of the nights asked for", "statement": "Exactly the visits of the table are returned whose night is the chosen one or one of the nights before it, as many as asked for, across ends of months and years, that have time, place, camera angle and band, and meet the constraints; every column is returned once.", "quantifier": "every calendar date, number of nights, table of visits, set of columns and constraint", "why_tests_cant": "calendar borders and missing values combine; the database cannot be reached from tests", "anchors": ["rubin_scheduler/utils/consdb.py:ConsDBVisits.consdb_visits"]}
{"id": "C162", "title": "Missing columns of visits are replaced by right values", "statement": "Where the database has no values, azimuth and altitude are halfway between those at the ends of the visit, the middle of the visit lies in it, numbers made up are unique and the band is read off the filter.", "quantifier": "every combination of columns present and every value", "why_tests_cant": "angles wrap around, and which columns are present changes with the database", "anchors": ["rubin_scheduler/utils/consdb.py:LSSTCamConsDBVisits"]}
{"id": "C163", "title": "Airmass, depth and sky brightness of visits are physical", "statement": "The airmass made up is the path through a thin shell in units of its height, one at the zenith and growing away from it; the depth made from an effective time gives that time back; the sky brightness does not depend on exposure time or clouds.", "quantifier": "every zenith distance, effective time, exposure, background, zero point and pixel scale", "why_tests_cant": "continuous formulas", "anchors": ["rubin_scheduler/utils/consdb.py:LSSTCamConsDBVisits.airmass", "rubin_scheduler/utils/consdb.py:LSSTCamConsDBVisits.eff_time_m5", "rubin_scheduler/utils/consdb.py:ConsDBVisits.sky_mag_per_asec"]}
{"id": "C164", "title": "Nights of visits are numbered from the start of the survey", "statement": "Nights change at noon of universal time, never decrease with time, are never negative, and the number of a visit does not depend on which other visits are asked for.", "quantifier": "every set of times of visits", "why_tests_cant": "depends on the set of visits asked for", "anchors": ["rubin_scheduler/utils/consdb.py:ConsDBVisits.night"]}
{"id": "C165", "title": "Slew distances of visits are those from the visit before", "statement": "The slew distance of a visit is the angle on the sky to the visit before it in time; the first has none.", "quantifier": "every list of visits as returned", "why_tests_cant": "depends on the order in which a database returns rows", "anchors": ["rubin_scheduler/utils/consdb.py:ConsDBVisits.slew_distance"]}
{"id": "C166", "title": "Random samples are uniform on the sphere and in their patch", "statement": "Samples lie in the patch asked for, with right ascension within one turn, and the part of random numbers giving samples in a part of the patch is the part of the area.", "quantifier": "every patch off the poles and every pair of random numbers", "why_tests_cant": "a statement on distributions over a continuum", "anchors": ["rubin_scheduler/utils/sampling_functions.py:sample_patch_on_sphere", "rubin_scheduler/utils/sampling_functions.py:uniform_sphere"]}
{"id": "C167", "title": "Times of rising and setting are those asked for", "statement": "The time returned is the one in the chosen day at which the body passes the altitude in the chosen direction; when the refinement does not reach the tolerance there is a warning.", "quantifier": "every place of a body and of a site between which the altitude is reached, time, altitude, direction and choice of day", "why_tests_cant": "continuous in all of these; choices given by words", "anchors": ["rubin_scheduler/utils/riseset.py:riseset_times"]}
{"id": "C168", "title": "Rotation matrices turn one direction into the other", "statement": "The matrix made from two unit vectors is a rotation that turns the first into the second about the direction at right angles to both.", "quantifier": "every pair of unit vectors", "why_tests_cant": "continuous; degenerate pairs are a set of measure zero", "anchors": ["rubin_scheduler/utils/coordinate_transformations.py:rotation_matrix_from_vectors"]}
{"id": "C169", "title": "Generated surveys keep the safety masks asked for", "statement": "Every survey made by the generators of the baseline has a mask for the moon, bright planets, wind, zenith shadow and altitude limits with the values of the caller's dictionary or the defaults, on the resolution asked for, and the shadow is never shorter than the block or the caller wants.", "quantifier": "every dictionary of settings, resolution, block length and generator", "why_tests_cant": "settings pass through many layers of defaults, each of which may drop one", "anchors": ["rubin_scheduler/scheduler/example/lsst_surveys.py:standard_masks", "rubin_scheduler/scheduler/example/lsst_surveys.py:safety_masks", "rubin_scheduler/scheduler/example/lsst_surveys.py:generate_blobs", "rubin_scheduler/scheduler/example/lsst_surveys.py:gen_greedy_surveys", "rubin_scheduler/scheduler/example/lsst_surveys.py:generate_short_blobs"]}
{"id": "C170", "title": "A generated survey has one resolution", "statement": "A survey and all its maps have the resolution asked for.", "quantifier": "every resolution, dictionary and generator", "why_tests_cant": "a mismatch shows only on other resolutions than the default", "anchors": ["rubin_scheduler/scheduler/example/lsst_surveys.py:generate_blobs", "rubin_scheduler/scheduler/example/lsst_surveys.py:gen_template_surveys", "rubin_scheduler/scheduler/example/lsst_surveys.py:gen_greedy_surveys"]}
{"id": "C171", "title": "No generated survey looks above the ceiling asked for", "statement": "The altitude mask of every survey made allows nothing above the maximal altitude asked for.", "quantifier": "every ceiling, dictionary and generator", "why_tests_cant": "depends on which of two settings wins", "anchors": ["rubin_scheduler/scheduler/example/lsst_surveys.py:generate_blobs", "rubin_scheduler/scheduler/example/lsst_surveys.py:gen_greedy_surveys", "rubin_scheduler/scheduler/example/lsst_surveys.py:generate_short_blobs"]}
{"id": "C172", "title": "Rewards of generated surveys have the weights asked for", "statement": "In all surveys made, the weights of depth, footprint, slew and band are in all those asked for, shared evenly between two bands.", "quantifier": "every set of weights and pair of bands", "why_tests_cant": "sums over lists built by branches on bands", "anchors": ["rubin_scheduler/scheduler/example/lsst_surveys.py:standard_bf", "rubin_scheduler/scheduler/example/lsst_surveys.py:generate_blobs", "rubin_scheduler/scheduler/example/simple_examples.py:simple_rewards", "rubin_scheduler/scheduler/example/simple_examples.py:simple_pairs_survey"]}
{"id": "C173", "title": "Names, reasons and exposures of generated surveys tell their bands", "statement": "The name and the reason of each survey made name its bands, and the number of exposures in u is the one asked for.", "quantifier": "every list of bands, pairs and numbers of exposures", "why_tests_cant": "state carried from one survey to the next in a loop", "anchors": ["rubin_scheduler/scheduler/example/lsst_surveys.py:generate_blobs", "rubin_scheduler/scheduler/example/lsst_surveys.py:blob_for_long", "rubin_scheduler/scheduler/example/lsst_surveys.py:gen_long_gaps_survey"]}
{"id": "C174", "title": "Making surveys leaves the caller's lists alone", "statement": "A list of masks given to a generator is the same afterwards, so that surveys made later from it are not changed.", "quantifier": "every list of masks and sequence of calls", "why_tests_cant": "aliasing between calls", "anchors": ["rubin_scheduler/scheduler/example/simple_examples.py:simple_pairs_survey"]}
{"id": "C175", "title": "The two surveys of the Roman field share the time", "statement": "On no date are both the survey for the seasons and the one between them allowed, and between the first and the last season one is always allowed within a day.", "quantifier": "every date", "why_tests_cant": "union of many windows", "anchors": ["rubin_scheduler/scheduler/example/roman_surveys.py:gen_roman_on_season", "rubin_scheduler/scheduler/example/roman_surveys.py:gen_roman_off_season"]}
{"id": "C176", "title": "The example scheduler starts when and has the resolution it is asked for", "statement": "All parts of the scheduler made (the scheduler, rolling, visits of good seeing, templates, deep drilling) start on the date asked for and have the resolution asked for.", "quantifier": "every date and resolution", "why_tests_cant": "other values than the defaults take hours of set-up each", "anchors": ["rubin_scheduler/scheduler/example/example_scheduler.py:generate_baseline_coresched", "rubin_scheduler/scheduler/example/example_scheduler.py:example_scheduler", "rubin_scheduler/scheduler/example/example_scheduler.py:gen_scheduler"]}
{"id": "C177", "title": "Near-sun visits and short pairs take turns", "statement": "For every pattern of nights, on each night exactly one of visits near the sun and short pairs is allowed; with the default pattern the former have every fourth night.", "quantifier": "every pattern and night", "why_tests_cant": "the patterns are given to different surveys", "anchors": ["rubin_scheduler/scheduler/example/example_scheduler.py:gen_scheduler"]}
{"id": "C178", "title": "The saved table of deep drilling visits is never out of date", "statement": "In every history of calls with changing arguments, code and data, each call gives the table computed from its own arguments, code and data.", "quantifier": "every history of calls", "why_tests_cant": "histories over changing code", "anchors": ["rubin_scheduler/scheduler/example/lsst_ddf_gen.py:gen_ddf_surveys"]}
{"id": "C179", "title": "The observatory is moved to the next sunset", "statement": "The new time is the first sunset of the almanac that is not before the old time.", "quantifier": "every list of sunsets and time", "why_tests_cant": "times before, between and after all sunsets", "anchors": ["rubin_scheduler/scheduler/example/simple_examples.py:update_model_observatory_sunset"]}
{"id": "C180", "title": "Random alerts are in the sky and in the period asked for", "statement": "Every alert made is at a place of the sky, begins in the period asked for, lasts three days and has a region of its area; the alerts are in order of time and numbered from zero.", "quantifier": "every outcome of the random numbers and every period", "why_tests_cant": "random", "anchors": ["rubin_scheduler/scheduler/targetofo/gen_events.py:gen_all_events", "rubin_scheduler/scheduler/targetofo/gen_events.py:gen_gw_events", "rubin_scheduler/scheduler/targetofo/gen_events.py:gen_neutrino_events"]}
{"id": "C181", "title": "There are as many alerts as the period makes", "statement": "The number of alerts is in proportion to the length of the period, rounded; the parts add up and there are enough nights for each to have its own.", "quantifier": "every length of the period", "why_tests_cant": "rounding at every length", "anchors": ["rubin_scheduler/scheduler/targetofo/gen_events.py:gen_all_events", "rubin_scheduler/scheduler/targetofo/gen_events.py:gen_sso_events"]}
{"id": "C182", "title": "Every alert made is followed by exactly one survey", "statement": "Each alert made by the generator is taken up by exactly one of the surveys of the example, whose plan is complete.", "quantifier": "every outcome of the random numbers", "why_tests_cant": "types are strings matched in two files; a type inside another would be taken twice", "anchors": ["rubin_scheduler/scheduler/targetofo/gen_events.py:gen_all_events", "rubin_scheduler/scheduler/example/too_surveys.py:gen_too_surveys"]}
{"id": "C183", "title": "The visits of a whole simulation can all have happened", "statement": "Whatever the scheduler asks for, the visits returned by a simulation with the model observatory do not overlap, slews included, lie in the time simulated, end only when the observatory is open, have the night of their time, and IDs that count on without gaps; and the simulation ends.", "quantifier": "every scheduler, site, telescope, weather and length of simulation", "why_tests_cant": "it is a statement about the working together of loop, observatory and telescope over a whole run", "anchors": ["rubin_scheduler/scheduler/sim_runner.py:sim_runner", "rubin_scheduler/scheduler/model_observatory/model_observatory.py:ModelObservatory.observe"]}
{"id": "C184", "title": "A simulation completes no target twice", "statement": "In a simulation with the core scheduler no two of the visits returned have the same target id.", "quantifier": "every set of surveys, weather, telescope and simulation", "why_tests_cant": "it needs the loop to report every visit and the scheduler never to hand out a reported one, over whole runs with rejections and flushes", "anchors": ["rubin_scheduler/scheduler/sim_runner.py:sim_runner", "rubin_scheduler/scheduler/schedulers/core_scheduler.py:CoreScheduler.request_observation", "rubin_scheduler/scheduler/schedulers/core_scheduler.py:CoreScheduler.add_observation"]}
{"id": "C185", "title": "A simulation begins no visit after its expiry time", "statement": "The telescope sets out for a visit with an expiry time not after that time.", "quantifier": "every set of surveys and simulation", "why_tests_cant": "the time is looked at in the scheduler's conditions, which the loop renews only now and then", "anchors": ["rubin_scheduler/scheduler/sim_runner.py:sim_runner", "rubin_scheduler/scheduler/schedulers/queue_manager.py:BaseQueueManager.request_observation"]}
{"id": "C186", "title": "A simulation makes only visits the telescope can make", "statement": "For every completed visit of a simulation, when the telescope set out, the band was one of those mounted last by the band scheduler's wish, and the altitude and rotator angles were within their limits.", "quantifier": "every scheduler, band scheduler, site and simulation", "why_tests_cant": "the bands in the camera change over the run", "anchors": ["rubin_scheduler/scheduler/sim_runner.py:sim_runner", "rubin_scheduler/scheduler/model_observatory/kinem_model.py:KinemModel.mount_bands", "rubin_scheduler/scheduler/model_observatory/kinem_model.py:KinemModel.slew_times"]}
{"id": "C187", "title": "A polynomial generator answers the same whatever it was asked before", "statement": "The tables a Zernike or factorial generator keeps between calls never change an answer: after any sequence of calls it answers as a new one does, and the factorial generator answers with the factorial.", "quantifier": "every sequence of calls with every radius, angle, array and order", "why_tests_cant": "the tables depend on the order of all earlier calls", "anchors": ["rubin_scheduler/utils/zernike_module.py:_FactorialGenerator.evaluate", "rubin_scheduler/utils/zernike_module.py:ZernikePolynomialGenerator.evaluate"]}
{"id": "C188", "title": "The values of Zernike polynomials are those of the definition cited", "statement": "On the unit disc the generator returns the values of the definition it cites, one at the rim for the even polynomials; outside the disc it returns nan; arrays are treated point by point; exactly the pairs of orders without a polynomial are refused.", "quantifier": "every pair of orders, point and array", "why_tests_cant": "a test tries few orders and points; the value at the rim is an identity of alternating sums of factorials", "anchors": ["rubin_scheduler/utils/zernike_module.py:ZernikePolynomialGenerator.evaluate"]}
{"id": "C189", "title": "Zernike polynomials are orthogonal with the norms returned", "statement": "The integral over the unit disc of the product of two different polynomials is zero and that of the square of a polynomial is its norm.", "quantifier": "every two pairs of orders", "why_tests_cant": "the tests integrate six polynomials by sums over a grid", "anchors": ["rubin_scheduler/utils/zernike_module.py:ZernikePolynomialGenerator.evaluate", "rubin_scheduler/utils/zernike_module.py:ZernikePolynomialGenerator.norm"]}
{"id": "C190", "title": "A Zernike polynomial at Cartesian coordinates is that at the polar coordinates", "statement": "The value at x = r cos(phi), y = r sin(phi) is the value at r and phi, for every angle and at the centre.", "quantifier": "every point and pair of orders", "why_tests_cant": "the angle is found from an inverse cosine with a special case at the centre", "anchors": ["rubin_scheduler/utils/zernike_module.py:ZernikePolynomialGenerator.evaluate_xy"]}
{"id": "C191", "title": "More of its performance never makes the telescope slower", "statement": "A telescope whose mount and rotator are set to higher percentages of their performance can make the same slews and takes no longer for any of them; limits that are all at least as large never make a move longer; more than 125 percent is 125 percent.", "quantifier": "every pair of settings, start, target, band and option of a slew", "why_tests_cant": "six limits pass through roots and cases of the motion profile; a change of case could make a faster telescope slower", "anchors": ["rubin_scheduler/scheduler/model_observatory/kinem_model.py:tma_movement", "rubin_scheduler/scheduler/model_observatory/kinem_model.py:rotator_movement", "rubin_scheduler/scheduler/model_observatory/kinem_model.py:KinemModel.slew_times", "rubin_scheduler/scheduler/model_observatory/jerk.py:jerk_time"]}
{"id": "C192", "title": "The detailed band change time covers the carousel and the rotation", "statement": "A move in two parts with a stop in between never takes less time than in one. The detailed time of a band change is that of the carousel if the rotator is at zero before and after, is the same in both directions, and is never less than that of the carousel and of the direct rotation; a slew to another band takes at least as long.", "quantifier": "every pair of angles, limits and slew", "why_tests_cant": "continuum of angles; the sum of two motion times against a third", "anchors": ["rubin_scheduler/scheduler/model_observatory/kinem_model.py:KinemModel.better_band_changetime", "rubin_scheduler/scheduler/model_observatory/kinem_model.py:KinemModel.slew_times"]}
{"id": "C193", "title": "The downtime report says whether the telescope is down, until when, and when it is down next", "statement": "At any time, the telescope is said to be down exactly when a scheduled or unscheduled downtime covers the time; the end said is the end of the down period, and the next downtime said is the first scheduled one that starts later.", "quantifier": "every time and every pair of downtime tables in order", "why_tests_cant": "positions by binary search, shifted by one, with boundaries at the ends of tables", "anchors": ["rubin_scheduler/site_models/downtime_model.py:DowntimeModel.__call__", "rubin_scheduler/site_models/scheduled_downtime_data.py:ScheduledDowntimeData"]}
{"id": "C194", "title": "The day of observation is the calendar day of the shifted time", "statement": "The day of observation of a time is a string of eight digits, the year, month and day in the Gregorian calendar of the day that contains the time moved by the offset; strings of two times compare as the days do, and are the same exactly for times of the same day.", "quantifier": "every time from 1858 to the year 9999 and every offset", "why_tests_cant": "the calendar over eight thousand years; padding with zeros", "anchors": ["rubin_scheduler/utils/dayobs.py:mjd2dayobs"]}
{"id": "C195", "title": "The fields of a small square camera cover the sky", "statement": "Every place on the sky lies in the square of some field of the tessellation; the fields lie symmetric about the equator, with right ascensions from 0 to a turn and declinations between the poles, and no field is listed twice.", "quantifier": "every side length and overlap of the squares and every sequence of rotations of the stripes", "why_tests_cant": "sizes are real numbers; steps are rounded up and spread over each stripe, so gaps show only between fields", "anchors": ["rubin_scheduler/scheduler/utils/comcam_tessellate.py:comcam_tessellate"]}
{"id": "C196", "title": "A field at an altitude and azimuth is observed there", "statement": "The visits of a field survey in horizontal coordinates point to its altitude and azimuth, and its reward is that of the place that is there now; the visits are those of the sequence in mounted bands.", "quantifier": "every place, time, altitude and azimuth, every sequence and every list of basis functions", "why_tests_cant": "the sky turns: the direction depends on the time at which visits are handed out and made", "anchors": ["rubin_scheduler/scheduler/surveys/field_survey.py:FieldAltAzSurvey", "rubin_scheduler/scheduler/detailers/detailer.py:AltAz2RaDecDetailer"]}
{"id": "C197", "title": "Sky brightness is read from the file of the time asked for", "statement": "A time is read from a file whose name covers it, the one that begins last if there are several, in whatever order the directory lists the files and whatever other files are there; it is refused exactly when no file covers it.", "quantifier": "every set of files, every listing order and every time", "why_tests_cant": "names are compared as text and times as numbers", "anchors": ["rubin_scheduler/skybrightness_pre/sky_model_pre.py:SkyModelPreWithLocalFilesOnly", "rubin_scheduler/skybrightness_pre/sky_model_pre.py:SkyModelPreWithResources"]}
{"id": "C198", "title": "One block of pairs for long gaps in a night", "statement": "The generated surveys that take pairs to be repeated after a long gap know each other's visits: once a visit of one of them has been made in a night, first or second of its pair, none of them begins another block in that night, and in a new night they may.", "quantifier": "every history of visits in order of time and every setting of the generator", "why_tests_cant": "the notes written by a detailer must match the list made by the generator, for all surveys and both orders of the pair", "anchors": ["rubin_scheduler/scheduler/example/lsst_surveys.py:gen_long_gaps_survey", "rubin_scheduler/scheduler/basis_functions/feasibility_funcs.py:OnceInNightBasisFunction", "rubin_scheduler/scheduler/detailers/detailer.py:TakeAsPairsDetailer"]}
{"id": "C199", "title": "The pixels of a small square camera are those in its turned field", "statement": "The pixels returned for a pointing of the small square camera are those whose centres lie in its square field, turned on the sky by the sky angle in the sense of the large camera; each is returned once and no others are.", "quantifier": "every pointing, sky angle, side length, scale of the search tree and set of pixel centres", "why_tests_cant": "positions and angles are real numbers; the search runs over rounded points and the corners of the field", "anchors": ["rubin_scheduler/scheduler/utils/utils.py:HpInComcamFov"]}
{"id": "C200", "title": "In a simulation every survey hears of exactly the visits made", "statement": "In a whole simulation driven by the core scheduler, every survey of every tier is told of the visits returned at the end: each of them once, in the order made, with the time at which each was made, and of nothing else.", "quantifier": "every site, every scheduler, every survey, every history of weather, downtime and failures, any length", "why_tests_cant": "what a survey hears depends on the whole run: refused, interrupted and flushed visits must never be told", "anchors": ["rubin_scheduler/sim_runner/sim_runner.py:sim_runner", "rubin_scheduler/scheduler/schedulers/core_scheduler.py:CoreScheduler.add_observation"]}
{"id": "C201", "title": "The almanac gives the tabulated positions of sun, moon and planets", "statement": "At a tabulated time the almanac gives the tabulated position; azimuths and right ascensions are from 0 to less than a full turn; between two times the angles go the short way, also across the jump from a full turn to 0, and are as good as the interpolated sines and cosines; times outside the table are refused.", "quantifier": "every table in order of time, every time, every interpolation through the samples", "why_tests_cant": "angles jump by a turn at arbitrary times, and times are real numbers", "anchors": ["rubin_scheduler/site_models/almanac.py:Almanac.get_sun_moon_positions", "rubin_scheduler/site_models/almanac.py:Almanac.get_planet_positions"]}
{"id": "C202", "title": "Fetching the sky brightness files leaves complete files", "statement": "When the command that fetches the files of sky brightness ends, every file linked from the index is in the directory, complete and as a server in good order sends it; files already there are kept unless the run is forced. This holds after earlier runs that were cut off anywhere or met a server out of order; cut off anywhere, a run spoils at most the file being written.", "quantifier": "every index page, every server, every directory, every point at which a run may be cut off", "why_tests_cant": "the points at which a download can break off and the pages a server may send cannot be enumerated", "anchors": ["rubin_scheduler/data/rs_download_sky.py:rs_download_sky", "rubin_scheduler/data/rs_download_sky.py:MyHTMLParser"]}
{"id": "C203", "title": "The table of rewards of a survey of fixed targets ends in its reward", "statement": "At any moment the table of rewards of a survey of a fixed list of targets has one row per weight; each row gives the largest weighted value of its method, the number of targets it leaves, and the same for the sum of the methods so far; the number left never grows and the last sum is the survey's reward.", "quantifier": "every list of targets, weights, conditions, history of visits and moment of asking", "why_tests_cant": "the table is made from what the survey happens to remember, so all histories of calls matter", "anchors": ["rubin_scheduler/scheduler/surveys/pointings_survey.py:PointingsSurvey.make_reward_df", "rubin_scheduler/scheduler/surveys/pointings_survey.py:PointingsSurvey.reward_changes"]}
{"id": "C204", "title": "Constant footprints and the norm of goals", "statement": "A constant footprint is at every time, for each band, the map given last, and may be combined with others; the norm of goal maps makes the positive goals of all bands, times the area of a pixel, come to the area of one field; the area near the ecliptic is the mask within the given distance and south of the given declination; a plain division cuts an area into parts that differ by at most one pixel.", "quantifier": "every history of maps given, every time, all maps, radii, pixel sizes and numbers of parts", "why_tests_cant": "maps have real values and arbitrary masked pixels; histories are unbounded", "anchors": ["rubin_scheduler/scheduler/utils/footprints.py:ConstantFootprint", "rubin_scheduler/scheduler/utils/footprints.py:calc_norm_factor", "rubin_scheduler/scheduler/utils/footprints.py:calc_norm_factor_array", "rubin_scheduler/scheduler/utils/footprints.py:ecliptic_area", "rubin_scheduler/scheduler/utils/footprints.py:slice_wfd_indx"]}
{"id": "C205", "title": "Setting all conditions in one call forgets the earlier ones", "statement": "After the conditions of a telescope have been set in one call, every attribute given reads as given, the bands are the names of the filters up to the underscore, and nothing is left of what was set before: the object is as a new one given the same values.", "quantifier": "every earlier state of the object, all values, all extra keywords", "why_tests_cant": "the earlier states of an object that is used again are unbounded", "anchors": ["rubin_scheduler/scheduler/features/conditions.py:Conditions.set_maintel_info", "rubin_scheduler/scheduler/features/conditions.py:Conditions.set_auxtel_info"]}
{"id": "C206", "title": "At the end of a simulation the features hold what the returned visits give", "statement": "Whatever part of a survey changes only when the survey is told of a visit holds, after a whole simulation, what the visits returned, one after the other, make of what it held at the start. So the count of visits of each survey is the number of returned visits that match, its last visit the last that matches, and its map of counts the number for each pixel.", "quantifier": "every scheduler, telescope, site, length and start of a simulation, every such feature", "why_tests_cant": "requests, flushed queues, interruptions and changes of conditions come in any number and order between the visits", "anchors": ["rubin_scheduler/scheduler/sim_runner.py:sim_runner", "rubin_scheduler/scheduler/schedulers/core_scheduler.py:CoreScheduler.add_observation", "rubin_scheduler/scheduler/features/features.py:NObsCount", "rubin_scheduler/scheduler/features/features.py:LastObservation", "rubin_scheduler/scheduler/features/features.py:NObservations"]}
{"id": "C207", "title": "A scheduler restarted from the visits of a simulation knows the same", "statement": "A scheduler made anew with the same surveys and told, in one table of any order, of all visits a simulation returned has in every survey the counts, last visits and maps of counts that the scheduler of the simulation has.", "quantifier": "every scheduler, telescope, site, length and start of a simulation, every order of the table", "why_tests_cant": "the visits of a simulation and the calls around them are unbounded; two ways of updating features must agree on all of them", "anchors": ["rubin_scheduler/scheduler/schedulers/core_scheduler.py:CoreScheduler.add_observations_array", "rubin_scheduler/scheduler/sim_runner.py:sim_runner", "rubin_scheduler/scheduler/features/features.py:NObsCount"]}
{"id": "C208", "title": "Every visit of a simulation was asked for by the best survey of its time", "statement": "Each visit that a simulation returns stems from a moment not after its begin when the scheduler had been given the conditions of the observatory and, with the surveys as they were after hearing of some of the first visits, no survey of an earlier tier had a reward above minus infinity, one survey had the best value of its tier, and that survey generated a visit with this position, band and note. So a rule that the surveys keep when they generate visits holds for every visit returned, under the conditions of that moment.", "quantifier": "every scheduler, telescope, site, weather, length and start of a simulation, every set of surveys", "why_tests_cant": "queues are kept, thrown away and refilled in any order between visits, and the surveys change with each visit", "anchors": ["rubin_scheduler/scheduler/sim_runner.py:sim_runner", "rubin_scheduler/scheduler/schedulers/core_scheduler.py:CoreScheduler._fill_queue", "rubin_scheduler/scheduler/schedulers/core_scheduler.py:CoreScheduler.request_observation", "rubin_scheduler/scheduler/model_observatory/model_observatory.py:ModelObservatory.observe"]}
{"id": "C209", "title": "A simulation can be run in pieces", "statement": "A simulation whose first part is run by itself and then carried on, with the same observatory and scheduler and for the rest of the time, makes the visits of one run over the whole time, in order, and leaves observatory and scheduler as that run does.", "quantifier": "every scheduler, observatory, band scheduler, length of the simulation and place of the cut", "why_tests_cant": "every state in which a run may stop, with queues half done, and every way in which a run may go on from there", "anchors": ["rubin_scheduler/scheduler/sim_runner.py:sim_runner", "rubin_scheduler/scheduler/schedulers/filter_scheduler.py:BandSchedUzy"]}
{"id": "C210", "title": "Visits are paired with the rewards that led to them", "statement": "With record_rewards a simulation is run as without. The tables it returns are those of the fills of the queue, each once and in order, and every visit is given with the time of the fill that put it into the queue, whose table is among those returned.", "quantifier": "every scheduler, telescope, site, weather, length and start of a simulation", "why_tests_cant": "queues are kept over several visits, thrown away and refilled at any time, and a fill may come twice in a request", "anchors": ["rubin_scheduler/scheduler/sim_runner.py:sim_runner", "rubin_scheduler/scheduler/schedulers/core_scheduler.py:CoreScheduler._fill_queue", "rubin_scheduler/scheduler/schedulers/core_scheduler.py:CoreScheduler.request_observation"]}
{"id": "C211", "title": "In a simulation no scripted visit is made twice", "statement": "A simulation makes at most as many visits with a given note as the script of a scripted survey has outstanding entries with it: with the different notes that set_script makes sure of, each scripted visit is made at most once, and one already marked as observed is not made.", "quantifier": "every script, time of a simulation, telescope, site, weather, set of other surveys beside the scripted ones, and way in which conditions are kept over several visits", "why_tests_cant": "queue, remembered answers of the survey and old conditions may each hand out a visit again, and only their interplay in every possible order decides", "anchors": ["rubin_scheduler/scheduler/surveys/scripted_surveys.py:ScriptedSurvey", "rubin_scheduler/scheduler/sim_runner.py:sim_runner", "rubin_scheduler/scheduler/schedulers/core_scheduler.py:CoreScheduler", "rubin_scheduler/scheduler/schedulers/queue_manager.py:QueueManager"]}
{"id": "C212", "title": "In a simulation greedy and blob surveys observe only fields of unmasked pixels", "statement": "Every visit that a simulation returns with the note of a greedy or blob survey is in one of the bands of such a survey and at the field, for some turn of the tessellation, of a pixel that no basis function of the survey masked under conditions the scheduler was given not later than the visit began; with the basis function for the moon, of a pixel not nearer to it than the limit.", "quantifier": "every set of greedy and blob surveys beside other surveys, history, kind of dither, weather, site, telescope and duration", "why_tests_cant": "masks pass through sums, smoothing, growing of blobs, several passes, queues and old conditions, and any of them may lose a mask for some history", "anchors": ["rubin_scheduler/scheduler/surveys/surveys.py:GreedySurvey", "rubin_scheduler/scheduler/surveys/surveys.py:BlobSurvey", "rubin_scheduler/scheduler/surveys/base_survey.py:BaseMarkovSurvey", "rubin_scheduler/scheduler/sim_runner.py:sim_runner", "rubin_scheduler/scheduler/basis_functions/mask_basis_funcs.py:MoonAvoidanceBasisFunction"]}
{"id": "C213", "title": "A longer simulation begins with the shorter one, and sizes of arrays do not matter", "statement": "With the same start and objects, a simulation that may last longer or make more visits returns first the visits of the shorter one, in order. Simulations that differ only in start_result_size and append_result_size end in the same way with the same visits and leave all objects in the same state.", "quantifier": "every scheduler, observatory, band scheduler, length, limit of visits and size of arrays", "why_tests_cant": "the two runs have to agree in every state that any simulation can reach, and at every number of visits at which an array is enlarged", "anchors": ["rubin_scheduler/scheduler/sim_runner.py:sim_runner"]}
{"id": "C214", "title": "The look-ahead wrapper used one visit at a time hands out the visits of the scheduler it wraps", "statement": "A SummitWrapper around a new CoreScheduler, whose every visit is confirmed with add_observation or given up with flush_queue before the next request, hands out the same visits (target ids aside) as the CoreScheduler alone driven by the same calls, and raises exactly when the CoreScheduler raises or has no visit.", "quantifier": "every list of surveys, detailers, alerts, conditions and calls, of any length", "why_tests_cant": "the two schedulers go through different states (copies, replays, appended queues), and they have to agree after every history of calls", "anchors": ["rubin_scheduler/scheduler/schedulers/summit_wrapper.py:SummitWrapper", "rubin_scheduler/scheduler/schedulers/core_scheduler.py:CoreScheduler"]}
{"id": "C215", "title": "Short visits are added after the visits of the fields that want them", "statement": "Given a list of visits, the short-exposure detailer hands back the same visits in the same order, each followed by its short visits in the chosen band when its field still wants short visits by the schedule, by none otherwise, and no field gets more than the wanted number.", "quantifier": "every list of visits, every map of wanted and made short visits, every configuration", "why_tests_cant": "which visits are extended depends on every pixel of their fields, on the night and on all visits before", "anchors": ["rubin_scheduler/scheduler/detailers/short_survey.py:ShortExptDetailer", "rubin_scheduler/scheduler/surveys/plan_night_survey.py:PlanAheadSurvey"]}
{"id": "C216", "title": "The depth aimed for at an altitude is that of the dark sky culminating there", "statement": "The target depth of a band at an altitude is the depth of a visit of the standard exposure time at that altitude with the mean dark-sky brightness of the pixels that culminate within the bin of that altitude; it lies between the depths for the darkest and the brightest of them.", "quantifier": "every dark-sky map, latitude, altitude and bin width", "why_tests_cant": "the altitude at which each pixel culminates depends on which side of the zenith it passes; a wrong side gives a plausible depth of another part of the sky", "anchors": ["rubin_scheduler/scheduler/detailers/vary_exptime.py:calc_target_m5s"]}
{"id": "C217", "title": "The tables of visits made have one row for each visit", "statement": "The visits returned from the consolidated database are the visits of the nights, once each and in order, with their own quick-look values; the table in the format of simulations merged with them has exactly one row for each visit, the one computed from it; exactly the known instruments are served, each with its own visits.", "quantifier": "every set of visits, every quick-look table, every instrument name", "why_tests_cant": "joins repeat or drop rows only for some combinations of keys, and the merged table looks the same either way", "anchors": ["rubin_scheduler/utils/consdb.py:ConsDBVisits", "rubin_scheduler/utils/consdb.py:LATISSConsDBVisits", "rubin_scheduler/utils/consdb.py:load_consdb_visits"]}
{"id": "C218", "title": "A simulation makes each visit planned for an alert at most once", "statement": "In a simulation with surveys that follow targets of opportunity beside other surveys, each visit planned for an alert is made at most once, however often and for however long the alert is announced, and however the queue is flushed and refilled meanwhile.", "quantifier": "every site, telescope, set of alerts over time, survey configuration and duration", "why_tests_cant": "the plan is made when the alert is first seen, is flushed and renumbered at each later announcement, and visits are marked only after they come back from the telescope; a slip makes a visit twice only in rare orders of these events", "anchors": ["rubin_scheduler/scheduler/surveys/too_scripted_surveys.py:ToOScriptedSurvey", "rubin_scheduler/scheduler/surveys/scripted_surveys.py:ScriptedSurvey", "rubin_scheduler/scheduler/schedulers/core_scheduler.py:CoreScheduler", "rubin_scheduler/scheduler/sim_runner.py:sim_runner"]}
{"id": "C219", "title": "A simulation makes visits in the night in which they were asked for", "statement": "In a simulation whose slews, visits and overheads are shorter than the days between nights, every returned visit was asked for by a survey in the night in which it was made: no visit planned in one night is left in the queue and made in the next.", "quantifier": "every site, telescope, scheduler, surveys, start and duration for which no call raised", "why_tests_cant": "visits wait in a queue while the clock jumps over daytime and downtime; only the flush after a rejected visit keeps stale visits out of the next night, and this depends on the order of checks in every pass of the loop", "anchors": ["rubin_scheduler/scheduler/sim_runner.py:sim_runner", "rubin_scheduler/scheduler/model_observatory/model_observatory.py:ModelObservatory.check_mjd", "rubin_scheduler/scheduler/schedulers/core_scheduler.py:CoreScheduler", "rubin_scheduler/scheduler/utils/queue_manager.py:QueueManager"]}
{"id": "C220", "title": "Surveys of a simulation observe only when they are feasible", "statement": "In a simulation every visit of a greedy or blob survey is made when all basis functions of the survey are feasible; in particular a survey that keeps out of twilight makes no visits in twilight.", "quantifier": "every site, telescope, set of surveys and basis functions, duration", "why_tests_cant": "feasibility is checked when visits are chosen, while visits are made from a queue later; whether they may be made too late depends on the history of the whole night", "anchors": ["rubin_scheduler/scheduler/surveys/base_survey.py:BaseMarkovSurvey", "rubin_scheduler/scheduler/surveys/surveys.py:GreedySurvey", "rubin_scheduler/scheduler/surveys/surveys.py:BlobSurvey", "rubin_scheduler/scheduler/basis_functions/feasibility_funcs.py:NotTwilightBasisFunction", "rubin_scheduler/scheduler/sim_runner.py:sim_runner"]}
{"id": "C221", "title": "Visits of a simulation are made in the order in which they were planned", "statement": "The scheduler numbers visits as it plans them. A simulation makes them in the order of these numbers, except that a visit of a planned block may be overtaken by a later visit of the same block while it is hidden by a mask; without masks and expiry times the numbers of the returned visits strictly increase, so none is made twice.", "quantifier": "every site, telescope, scheduler, surveys, start and duration", "why_tests_cant": "the queue is filled, emptied, flushed and searched in an order that depends on rejected visits, masks and clocks over the whole run", "anchors": ["rubin_scheduler/scheduler/sim_runner.py:sim_runner", "rubin_scheduler/scheduler/utils/queue_manager.py:QueueManager.request_observation", "rubin_scheduler/scheduler/schedulers/core_scheduler.py:CoreScheduler"]}
{"id": "C222", "title": "A simulation loses no time", "statement": "Between the end of a visit and the start of the slew to the next visit no time passes, unless at some time in between no survey had a reward above minus infinity or the visit that the scheduler gave could not be made. This is for simulations without overheads, masks of the queue and visits that expire, with surveys that generate visits whenever they are feasible.", "quantifier": "every site, telescope, set of surveys, start and duration for which no call raised", "why_tests_cant": "the clock is moved by many branches of the loop over a whole survey; that none of them skips observable time depends on all of them and on what the queue and surveys hold then", "anchors": ["rubin_scheduler/scheduler/sim_runner.py:sim_runner", "rubin_scheduler/scheduler/schedulers/core_scheduler.py:CoreScheduler.request_observation", "rubin_scheduler/scheduler/utils/queue_manager.py:QueueManager", "rubin_scheduler/scheduler/model_observatory/model_observatory.py:ModelObservatory.observe"]}
{"id": "C223", "title": "Surveys for certain nights keep to them in a simulation", "statement": "If surveys are feasible only in certain nights (OnlyBeforeNightBasisFunction, NightModuloBasisFunction or any other rule on the night number) and the start of the survey from which the scheduler counts is during the day, then every visit that a simulation returns with the note of such a survey was made in an allowed night; and if the observatory was given the same start, the night column of the visit says so.", "quantifier": "every site with nights separated by days longer than a visit with its overheads, every telescope, set of surveys, start and duration for which no call raised", "why_tests_cant": "feasibility is tested when visits are asked for, not when they are made, and the queue may hold visits for long; whether a change of night can come in between depends on the almanac, the weather, downtime and the whole loop", "anchors": ["rubin_scheduler/scheduler/sim_runner.py:sim_runner", "rubin_scheduler/scheduler/basis_functions/feasibility_funcs.py:OnlyBeforeNightBasisFunction", "rubin_scheduler/scheduler/basis_functions/feasibility_funcs.py:NightModuloBasisFunction", "rubin_scheduler/scheduler/features/conditions.py:Conditions.night", "rubin_scheduler/scheduler/model_observatory/model_observatory.py:ModelObservatory.mjd"]}
{"id": "C224", "title": "Scripted visits of a simulation are asked for in their time windows", "statement": "Every visit that a simulation returns with a note that only scripts use is one of the rows of a script that the simulation was started with: it carries the note and the expiry time of that row, it was asked for after the time of the row less its tolerance and before its expiry, in the same night in which it was made, and it was begun no earlier; and it is begun before it expires.", "quantifier": "every site with nights separated by days longer than a visit with its overheads, every telescope, every set of scripts and other surveys, every weather, start and duration for which no call raised", "why_tests_cant": "the window is tested when the script is asked, the result is kept for the next question with the same time, waits in the queue, passes detailers and the observatory; that the window still holds depends on the whole loop", "anchors": ["rubin_scheduler/scheduler/surveys/scripted_surveys.py:ScriptedSurvey", "rubin_scheduler/scheduler/sim_runner.py:sim_runner", "rubin_scheduler/scheduler/schedulers/core_scheduler.py:CoreScheduler.request_observation", "rubin_scheduler/scheduler/schedulers/queue_manager.py:QueueManager"]}
{"id": "C225", "title": "A simulation with the look-ahead wrapper makes the visits of the plain simulation", "statement": "A simulation run with the look-ahead wrapper around a new scheduler returns the same visits, made at the same times, as the simulation run with that scheduler itself, the target ids aside, whatever visits are rejected by the observatory or flushed on the way; and it raises exactly if the simulation with the scheduler itself raises or at some moment has nothing to observe.", "quantifier": "every site, weather, telescope whose movements do not depend on target ids, band scheduler, overheads, duration, start time and size of the result array; every scheduler whose surveys and detailers remember nothing but the visits they are told of, whose detailers give one visit for one, and whose queued visits neither expire nor are masked", "why_tests_cant": "the wrapper keeps two schedulers and rebuilds one from the other after every visit; that the pair never gets out of step is a statement about every history of completed, rejected and flushed visits", "anchors": ["rubin_scheduler/scheduler/schedulers/summit_wrapper.py:SummitWrapper", "rubin_scheduler/scheduler/sim_runner.py:sim_runner"]}
{"id": "C226", "title": "A site has the numbers asked for, and otherwise those known for its name", "statement": "A `Site` can be made from any selection of its numbers; each number it holds is the one asked for, or if none was asked for the one known for the name (LSST), or none; the values in radians and in Kelvin agree with those in degrees and Celsius; the warning names exactly the numbers the site lacks; and two sites compare equal exactly if they have the same name and numbers.", "quantifier": "every name and every selection of the seven numbers, given or not", "why_tests_cant": "there are 256 selections of arguments and unboundedly many values for them; equality is a statement about all pairs of sites", "anchors": ["rubin_scheduler/utils/site.py:Site"]}
{"id": "C227", "title": "The file of a name is the one listed, else the one of the first matching pattern", "statement": "Looking up a name (blanks around it aside) in a map of spectrum files gives the file listed for it, else the compressed file in the directory of the first matching pattern of the map, else of the first matching common pattern, else fails; what was set for a name is found under that name and changes no other.", "quantifier": "every map, list of patterns, pattern language, name and file", "why_tests_cant": "names and maps are unbounded, and precedence between patterns shows only for names that several patterns match", "anchors": ["rubin_scheduler/utils/file_maps.py:SpecMap"]}
{"id": "C228", "title": "Hour angles are brought to the range of -180 to 180 degrees", "statement": "For every sidereal time and right ascension the hour angle used differs from sidereal time minus right ascension by whole turns and lies between -180 and 180 degrees, and the parallactic angle does not depend on whole turns in either.", "quantifier": "every real sidereal time, right ascension, declination and latitude", "why_tests_cant": "a continuum of inputs with seams at whole turns", "anchors": ["rubin_scheduler/utils/coordinate_transformations.py:_wrap_hour_angle", "rubin_scheduler/utils/coordinate_transformations.py:_alt_az_pa_from_ra_dec"]}
{"id": "C229", "title": "Separations of arrays are the separations of the positions in the same place", "statement": "`angular_separation` of two positions is a number, of arrays of positions an array as long as they, holding the angle between the positions in the same place; one position goes with every position of an array; anything that is not two numbers or two arrays of one length is refused with an exception.", "quantifier": "every combination of numbers, arrays of any length, lists and other objects as the four arguments", "why_tests_cant": "lengths and combinations of kinds of arguments are unbounded", "anchors": ["rubin_scheduler/utils/coordinate_transformations.py:_angular_separation", "rubin_scheduler/utils/code_utilities.py:_validate_inputs"]}
{"id": "C230", "title": "Equal trixels and half spaces stand for the same region", "statement": "Equality of trixels and of half spaces is reflexive, symmetric and transitive; trixels are equal exactly if they have the same id, and equal half spaces contain the same points.", "quantifier": "all trixels and half spaces with real coordinates", "why_tests_cant": "tolerances in the comparison fail only for values close to them", "anchors": ["rubin_scheduler/utils/htm_module.py:Trixel.__eq__", "rubin_scheduler/utils/htm_module.py:HalfSpace.__eq__"]}
{"id": "C231", "title": "The download command does what it was asked and reports how it went", "statement": "The command downloads the files of the dictionary it is given, or the published ones if none is given; with `--versions` it changes nothing on disk; and its exit status is 0 exactly if the download succeeded or, with `--versions`, if all files expected are the ones recorded on disk.", "quantifier": "every dictionary of files, combination of options, state of the disk and behaviour of the server", "why_tests_cant": "states of the disk and of the server are unbounded", "anchors": ["rubin_scheduler/data/scheduler_download_data.py:scheduler_download_data", "rubin_scheduler/data/scheduler_download_data.py:download_rubin_data"]}
{"id": "C232", "title": "Saving snapshots does not change a simulation", "statement": "`sim_runner` with `snapshot_dir` makes the same visits at the same times, and ends the same way, as without.", "quantifier": "every scheduler, observatory, band scheduler, function for overheads and length of the simulation", "why_tests_cant": "simulations are unboundedly long and a difference appears only where a call made for the snapshot has a side effect", "anchors": ["rubin_scheduler/scheduler/sim_runner.py:sim_runner", "rubin_scheduler/scheduler/model_observatory/model_observatory.py:ModelObservatory.return_conditions"]}
{"id": "C233", "title": "Every call of the scheduler in a simulation has its snapshot", "statement": "With `snapshot_dir` there is, after the simulation, a file for every call of the scheduler, with the scheduler as it was and the time of the call in its name.", "quantifier": "every scheduler, observatory and length of the simulation", "why_tests_cant": "names collide only for certain sequences of calls", "anchors": ["rubin_scheduler/scheduler/sim_runner.py:sim_runner"]}
{"id": "C234", "title": "The conditions tell the state of the telescope", "statement": "The conditions returned by the simulated observatory have the band that is in the light path and the altitude and azimuth the telescope has at that time.", "quantifier": "every history of visits, parking and mounting of bands, and every time since", "why_tests_cant": "depends on what was done before and how long ago, an unbounded set of histories", "anchors": ["rubin_scheduler/scheduler/model_observatory/model_observatory.py:ModelObservatory.return_conditions", "rubin_scheduler/scheduler/model_observatory/kinem_model.py:KinemModel.park"]}
{"id": "C235", "title": "The telescope is parked when it has not been used for a while, and only then", "statement": "After a visit the simulated telescope goes on tracking and is parked when it has not been used for longer than `park_after`, not before.", "quantifier": "every visit, state of the observatory and time after the visit", "why_tests_cant": "visits of any length and any waiting time are possible", "anchors": ["rubin_scheduler/scheduler/model_observatory/model_observatory.py:ModelObservatory.observe", "rubin_scheduler/scheduler/model_observatory/model_observatory.py:ModelObservatory.return_conditions", "rubin_scheduler/scheduler/model_observatory/kinem_model.py:KinemModel.slew_times"]}
{"id": "C236", "title": "The slew times in the conditions are those that visits then take", "statement": "A visit made right after the conditions were asked for takes at least the slew time they give for its place; in another band exactly the time of the change of bands more, and in the same band the same if the rotator has no way to go.", "quantifier": "every state of the observatory and every visit it can make", "why_tests_cant": "a continuum of positions and telescope states; two separate calculations have to agree in all", "anchors": ["rubin_scheduler/scheduler/model_observatory/model_observatory.py:ModelObservatory.return_conditions", "rubin_scheduler/scheduler/model_observatory/kinem_model.py:KinemModel.slew_times", "rubin_scheduler/scheduler/model_observatory/kinem_model.py:KinemModel.observe"]}
{"id": "C237", "title": "The columns of a visit belong together", "statement": "In the table returned by `sim_runner` every visit has the night, clouds, seeing, sky brightness, positions of sun and moon and coordinates of the time it begins, its rotator angle fits its sky angle and position, its airmass fits its altitude, and its seeing and depth fit its airmass and sky brightness.", "quantifier": "every simulation, scheduler, observatory and visit in the table", "why_tests_cant": "the columns are filled in at three places at different times; a continuum of positions, times and telescope states", "anchors": ["rubin_scheduler/scheduler/sim_runner.py:sim_runner", "rubin_scheduler/scheduler/model_observatory/model_observatory.py:ModelObservatory.observation_add_data", "rubin_scheduler/scheduler/model_observatory/model_observatory.py:ModelObservatory.observe"]}
{"id": "C238", "title": "Mergers of black holes are followed in the bands documented", "statement": "For an alert of merging black holes the visits are in u, g and i in dark time if it is near, in r, g and i in dark time if it is distant, and in r, z and i in bright time; their notes and numbers of exposures are those of their bands, and nothing else of the plan depends on the distance or the moon.", "quantifier": "every alert, distance, phase of the moon, set of mounted bands and state of the survey", "why_tests_cant": "the plan is made from the alert, the conditions and the script of all earlier alerts; visits reach 39 days ahead", "anchors": ["rubin_scheduler/scheduler/example/too_surveys.py:gen_too_surveys", "rubin_scheduler/scheduler/detailers/event_detailers.py:BandPickToODetailer", "rubin_scheduler/scheduler/surveys/too_scripted_surveys.py:ToOScriptedSurvey"]}
{"id": "C239", "title": "Generated surveys keep the safety limits in a simulation", "statement": "In a simulation with surveys as the generators make them, every visit of theirs is at the field of a pixel that, under conditions given to the scheduler before the visit began, was as far from the moon as the caller asked for, away from planets and the wind, and stayed with all pixels close by within the limits of altitude and azimuth for the time the block needs; near sunrise also on the side of the sky asked for.", "quantifier": "all parameters of the caller, all generators of greedy and blob surveys, all conditions and telescopes, all lengths of simulations", "why_tests_cant": "it joins parameters of generators, masks on the whole sky, the choice of fields, the queue and the loop of the simulation over all histories", "anchors": ["rubin_scheduler/scheduler/example/lsst_surveys.py:safety_masks", "rubin_scheduler/scheduler/example/lsst_surveys.py:generate_blobs", "rubin_scheduler/scheduler/basis_functions/mask_basis_funcs.py:AltAzShadowMaskBasisFunction", "rubin_scheduler/scheduler/sim_runner.py:sim_runner"]}
{"id": "C240", "title": "Greedy and blob surveys know of the visits made and turn their fields as configured", "statement": "In a simulation the features of every greedy and blob survey are at the end what all the visits returned, one after the other, make of them. Every visit of such a survey is at a field of the tessellation turned as the survey was configured: one turn for all visits of a night, a new turn for every call, or none. Turned with every call, no two blocks of a night share a turn, and no two passes of a block do.", "quantifier": "all surveys, tessellations and turns, all telescopes, nights and downtimes, all lengths of simulations, all orders of calls of a survey", "why_tests_cant": "the turn is state of the survey that must stay right over all calls, blocks and nights of a simulation", "anchors": ["rubin_scheduler/scheduler/surveys/base_survey.py:BaseMarkovSurvey.generate_observations_rough", "rubin_scheduler/scheduler/surveys/base_survey.py:BaseMarkovSurvey._spin_fields", "rubin_scheduler/scheduler/surveys/base_survey.py:BaseSurvey.add_observation", "rubin_scheduler/scheduler/surveys/surveys.py:BlobSurvey.generate_observations_rough", "rubin_scheduler/scheduler/sim_runner.py:sim_runner"]}
{"id": "C241", "title": "Visits of field and deep drilling surveys are those of their sequences", "statement": "Every visit that a simulation returns with a note of a field or deep drilling survey is a visit of the sequence of a survey with that note: in the band of that visit, at its place but for what the detailers do, with the expiry that its sequence got. It was asked for in the same night, when its band was mounted and the survey was feasible; the survey is feasible when the visit begins.", "quantifier": "all field and deep drilling surveys, basis functions and detailers, all telescopes, nights and downtimes, all lengths of simulations", "why_tests_cant": "visits pass through queue, detailers, rejections and refilling over whole simulations, and feasibility changes while a sequence is under way", "anchors": ["rubin_scheduler/scheduler/surveys/field_survey.py:FieldSurvey.generate_observations_rough", "rubin_scheduler/scheduler/surveys/dd_surveys.py:DeepDrillingSurvey.generate_observations_rough", "rubin_scheduler/scheduler/schedulers/core_scheduler.py:CoreScheduler.request_observation", "rubin_scheduler/scheduler/sim_runner.py:sim_runner"]}
{"id": "C242", "title": "A survey limited to a share of the visits keeps to it", "statement": "When all surveys that use a note are limited to a share of the visits, then at every time of a simulation the visits made with that note, with those heard of before, are at most that share of all visits.", "quantifier": "all surveys with the limit and others beside them, all shares, histories before the start, telescopes, nights, downtimes and lengths of simulations", "why_tests_cant": "the count must be right at every visit of every simulation, across flushed queues, rejected visits and several surveys that share the note", "anchors": ["rubin_scheduler/scheduler/basis_functions/feasibility_funcs.py:FractionOfObsBasisFunction", "rubin_scheduler/scheduler/surveys/dd_surveys.py:DeepDrillingSurvey.generate_observations_rough", "rubin_scheduler/scheduler/schedulers/core_scheduler.py:CoreScheduler.add_observation", "rubin_scheduler/scheduler/sim_runner.py:sim_runner"]}
{"id": "C243", "title": "A survey with a forced or soft delay or a gap does not repeat its sequence too soon", "statement": "When all surveys that use a note wait for a delay after the last visit with it, all by a forced delay, by soft delays none of which is shorter or by a gap in any band, then of any visits with that note in a row that are one more than a sequence has, those before the start of the simulation included, the first and the last are at least the delay apart.", "quantifier": "all surveys with the delay and others beside them, all delays, histories before the start, telescopes, nights, downtimes and lengths of simulations", "why_tests_cant": "the delay is only checked when the queue is filled; that it holds between visits needs the order of all calls of a simulation, with flushed and refilled queues", "anchors": ["rubin_scheduler/scheduler/basis_functions/feasibility_funcs.py:ForceDelayBasisFunction", "rubin_scheduler/scheduler/basis_functions/feasibility_funcs.py:SoftDelayBasisFunction", "rubin_scheduler/scheduler/basis_functions/basis_functions.py:VisitGap", "rubin_scheduler/scheduler/features/features.py:LastObservation", "rubin_scheduler/scheduler/schedulers/core_scheduler.py:CoreScheduler.request_observation", "rubin_scheduler/scheduler/sim_runner.py:sim_runner"]}
{"id": "C244", "title": "Third visits of long gap surveys follow pairs of the same night", "statement": "Every visit that a simulation returns with a note of third visits of a long gap survey is at the position of a second visit of a pair made before in the simulation. It is asked for in the same night as that visit, in the window around the time of that visit plus the gap of its night, moved by whole steps only if the survey keeps away from the zenith, and it is begun no earlier.", "quantifier": "all long gap surveys with any pair surveys, gaps, tolerances not larger than the gaps, and other surveys beside them; all telescopes, nights, downtimes and lengths of simulations", "why_tests_cant": "the survey appends to its script with every visit reported and clears it when asked in another night; that nothing of another night or place gets through needs all orders of visits, questions and nights", "anchors": ["rubin_scheduler/scheduler/surveys/long_gap_survey.py:LongGapSurvey", "rubin_scheduler/scheduler/surveys/scripted_surveys.py:ScriptedSurvey", "rubin_scheduler/scheduler/schedulers/core_scheduler.py:CoreScheduler.request_observation", "rubin_scheduler/scheduler/sim_runner.py:sim_runner"]}
{"id": "C245", "title": "Visits for targets of opportunity are for announced alerts, as planned", "statement": "Every visit that a simulation returns with a note of a survey that follows alerts is for an alert from the list of simulated alerts that is of a type to follow and that had been announced, before the visit and within the duration of the alert. The visit is one of those planned for it: at a position that covers the alert in the footprint of the survey, in a band of one of the times of the plan, with the note of that band, alert and time. It was asked for in the window of that time, counted from the alert or, if the survey is told so, from the announcement.", "quantifier": "all lists of alerts, plans, positions and numbers of surveys that follow alerts, beside any other surveys; all telescopes, nights, downtimes and lengths of simulations", "why_tests_cant": "the survey rewrites its script with every announcement, shortens it as visits expire, marks visits heard of, and keeps the visits of the last question; that a visit from it is for the right alert at the right place and time needs all orders of these", "anchors": ["rubin_scheduler/scheduler/surveys/too_scripted_surveys.py:ToOScriptedSurvey", "rubin_scheduler/scheduler/utils/too_objects.py:SimTargetooServer", "rubin_scheduler/scheduler/surveys/scripted_surveys.py:ScriptedSurvey", "rubin_scheduler/scheduler/schedulers/core_scheduler.py:CoreScheduler.request_observation", "rubin_scheduler/scheduler/sim_runner.py:sim_runner"]}
{"id": "C246", "title": "Second visits of pairs follow the first ones", "statement": "When a simulation makes a visit that a survey planned in one answer with others, those planned before it in that answer were made before it, unless the queue may hide them by a mask or an expiry time; those of the same place and expiry were made before it even with masks. So where visits are taken as pairs, every visit noted as a second one follows the first one of the same field, whatever is masked, rejected, flushed or interrupted. The reverse is not promised: a first visit may stay without a second one.", "quantifier": "every site, telescope, scheduler, surveys, masks, alerts, start and duration", "why_tests_cant": "the queue is filled, ticked off, searched under masks, flushed on rejection and for alerts; that no visit of a block is skipped needs all these histories", "anchors": ["rubin_scheduler/scheduler/schedulers/queue_manager.py:QueueManager", "rubin_scheduler/scheduler/schedulers/core_scheduler.py:CoreScheduler.request_observation", "rubin_scheduler/scheduler/detailers/detailer.py:TakeAsPairsDetailer", "rubin_scheduler/scheduler/sim_runner.py:sim_runner"]}
{"id": "C247", "title": "The grid for deep drilling fields holds the conditions of its times", "statement": "The grid has a row for each time at the given steps within the time asked for. With the Sun not above the limit a row holds the Sun, the Moon, and for each field the airmass, the sky and the depth computed from these, of its own time; otherwise it holds no conditions of fields. A time without an answer of the sky model counts as daytime. Every time then planned for a field is one with an answer, and the limits hold for the conditions of the field at that time and during the sequence.", "quantifier": "all models of the sky, starts, steps, lengths and limits; all plans made from the grid", "why_tests_cant": "the sky model is one object that keeps its last answer from time to time; the grid has millions of rows and is used by a plan of years", "anchors": ["rubin_scheduler/scheduler/surveys/generate_ddf_grid.py:generate_ddf_grid", "rubin_scheduler/scheduler/example/lsst_ddf_presched.py:optimize_ddf_times"]}
{"id": "C248", "title": "Third visits of long gap surveys are made at most once", "statement": "A simulation makes every third visit that a long gap survey plans at most once. The numbers of third visits are those of second visits of pairs made before them, so there are never more third visits than second visits.", "quantifier": "all long gap surveys with any pair surveys and other surveys beside them that do not use the notes of third visits; all telescopes, nights, downtimes and lengths of simulations", "why_tests_cant": "the plan is offered again whenever the queue is filled, its answers are kept from one question to the next, and it is cleared and added to meanwhile; that no copy of a made visit is left anywhere needs all orders of these", "anchors": ["rubin_scheduler/scheduler/surveys/long_gap_survey.py:LongGapSurvey", "rubin_scheduler/scheduler/surveys/scripted_surveys.py:ScriptedSurvey.add_observation", "rubin_scheduler/scheduler/surveys/scripted_surveys.py:ScriptedSurvey.set_script", "rubin_scheduler/scheduler/sim_runner.py:sim_runner"]}
{"id": "C249", "title": "Surveys choose pixels by the visits made before", "statement": "In a simulation, whenever a greedy or blob survey chooses what to observe, its masks know exactly the visits made so far. A survey that avoids fast revisits therefore chooses fields of pixels that no visit made less than the gap before has covered in the band, and one that hides pixels after a number of visits chooses fields of pixels with fewer visits before.", "quantifier": "all greedy and blob surveys with any basis functions and features, other surveys beside them that do not use their notes; all telescopes, nights, downtimes and lengths of simulations", "why_tests_cant": "visits wait in the queue, are dropped, recomputed and made by other surveys meanwhile; that features have heard of exactly the visits made before the time of the choice needs all orders of asking, making and telling", "anchors": ["rubin_scheduler/scheduler/basis_functions/basis_functions.py:AvoidFastRevisitsBasisFunction", "rubin_scheduler/scheduler/basis_functions/mask_basis_funcs.py:MaskAfterNObsBasisFunction", "rubin_scheduler/scheduler/surveys/base_survey.py:BaseMarkovSurvey", "rubin_scheduler/scheduler/surveys/surveys.py:BlobSurvey", "rubin_scheduler/scheduler/sim_runner.py:sim_runner"]}
{"id": "C250", "title": "The total of the downtimes is how long the site is closed", "statement": "The total number of days reported for the unscheduled downtimes is the length of the time in which the site is closed, for every random seed; it is a whole number of nights and less than the survey and the longest event together.", "quantifier": "all random streams, thresholds, lengths of events and of surveys", "why_tests_cant": "a test with one seed compares two numbers computed from the same table; that no moment is counted twice holds for all streams only because events never overlap", "anchors": ["rubin_scheduler/site_models/unscheduled_downtime_data.py:UnscheduledDowntimeData.total_downtime", "rubin_scheduler/site_models/unscheduled_downtime_data.py:UnscheduledDowntimeData.make_data", "rubin_scheduler/site_models/unscheduled_downtime_data.py:UnscheduledDowntimeMoreY1Data.make_data"]}
{"id": "C251", "title": "Surveys that are never feasible do not change a simulation", "statement": "Take a scheduler configuration with some surveys that are never feasible (their reward is never above minus infinity) and that announce no scheduled visits. The simulation with them and the one without them (and without the tiers that had no other survey) end in the same way, at the same time, with the same visits, and leave the observatory and all other surveys in the same state.", "quantifier": "all configurations, conditions, sites, telescopes, start states and lengths of simulations", "why_tests_cant": "a test compares two runs of one configuration; that no call of a survey that is never chosen has an effect on the others holds only over all histories", "anchors": ["rubin_scheduler/scheduler/schedulers/core_scheduler.py:CoreScheduler._fill_queue", "rubin_scheduler/scheduler/schedulers/core_scheduler.py:CoreScheduler.add_observation", "rubin_scheduler/scheduler/schedulers/core_scheduler.py:CoreScheduler.update_conditions", "rubin_scheduler/scheduler/sim_runner.py:sim_runner"]}
{"id": "C252", "title": "Only the order of rewards matters to a simulation", "statement": "When the rewards of all surveys are changed by one rule that keeps their order, nan and minus infinity (a positive factor, a constant added, a logarithm), the simulation ends in the same way, at the same time, with the same visits, and leaves observatory and surveys in the same state.", "quantifier": "all configurations, rules (which may depend on the conditions), sites, telescopes, start states and lengths of simulations", "why_tests_cant": "scaling weights is tested, if at all, on single choices; that no later decision of a simulation depends on the size of a reward holds only over all histories", "anchors": ["rubin_scheduler/scheduler/schedulers/core_scheduler.py:CoreScheduler._fill_queue", "rubin_scheduler/scheduler/schedulers/core_scheduler.py:CoreScheduler.request_observation", "rubin_scheduler/scheduler/sim_runner.py:sim_runner"]}
{"id": "C253", "title": "The order of surveys within a tier matters for ties only", "statement": "List the surveys of each tier of a scheduler in another order. If no two different surveys of a tier ever have the same largest reward, the simulation ends in the same way, at the same time, with the same visits, and leaves the observatory and the surveys in the same state. Of surveys with the same reward the one listed first is used.", "quantifier": "all configurations, orders, sites, telescopes, start states and lengths of simulations", "why_tests_cant": "a test tries one order of a few surveys at one time; that no state kept by place rather than by survey leaks into later choices holds only over all histories", "anchors": ["rubin_scheduler/scheduler/schedulers/core_scheduler.py:CoreScheduler._fill_queue", "rubin_scheduler/scheduler/schedulers/core_scheduler.py:CoreScheduler.update_conditions", "rubin_scheduler/scheduler/sim_runner.py:sim_runner"]}
{"id": "C254", "title": "A tier above another is the same as larger rewards", "statement": "Where the largest reward of each feasible survey of a tier is above all rewards of the next tier, and asking surveys of the next tier for their reward has no effect on them, the surveys of both can be put in one tier: the simulation ends in the same way, at the same time, with the same visits, and leaves the observatory and the surveys in the same state.", "quantifier": "all configurations, sites, telescopes, start states and lengths of simulations", "why_tests_cant": "tiers and rewards are tested one call at a time; that tiers are nothing but a coarse reward holds only over all histories", "anchors": ["rubin_scheduler/scheduler/schedulers/core_scheduler.py:CoreScheduler._fill_queue", "rubin_scheduler/scheduler/schedulers/core_scheduler.py:CoreScheduler.request_observation", "rubin_scheduler/scheduler/sim_runner.py:sim_runner"]}
{"id": "C255", "title": "Only the ratios of weights matter to a simulation", "statement": "When the weights of the basis functions of all greedy and blob surveys are multiplied by one positive number, and so are the rewards of the other surveys, the simulation ends in the same way, at the same time, with the same visits, and leaves the observatory and the surveys in the same state.", "quantifier": "all configurations of greedy and blob surveys, factors, sites, telescopes, start states and lengths of simulations", "why_tests_cant": "a test compares two runs of one configuration; that neither feasibility, areas, the choice of fields nor the choice of surveys depends on the size of weights holds for all maps only", "anchors": ["rubin_scheduler/scheduler/surveys/base_survey.py:BaseMarkovSurvey.calc_reward_function", "rubin_scheduler/scheduler/surveys/surveys.py:BlobSurvey.generate_observations_rough", "rubin_scheduler/scheduler/surveys/surveys.py:GreedySurvey.generate_observations_rough", "rubin_scheduler/scheduler/schedulers/core_scheduler.py:CoreScheduler._fill_queue"]}
{"id": "C256", "title": "Surveys that follow alerts do not change a simulation without alerts for them", "statement": "A simulation with surveys that follow targets of opportunity and have no plans yet, in which no alert of a type they follow is announced, ends in the same way, at the same time, with the same visits as the simulation without these surveys, and leaves the observatory and the other surveys in the same state.", "quantifier": "all other surveys, sites, telescopes, sequences of alerts of other types, settings and places of the surveys that follow alerts, and lengths of simulations", "why_tests_cant": "a test runs one configuration with and without the surveys; that the state of the surveys, the choice among tiers, the announced visits and the numbering of visits never depend on them needs all runs", "anchors": ["rubin_scheduler/scheduler/surveys/too_scripted_surveys.py:ToOScriptedSurvey._new_event", "rubin_scheduler/scheduler/surveys/too_scripted_surveys.py:ToOScriptedSurvey.flush_script", "rubin_scheduler/scheduler/surveys/too_scripted_surveys.py:ToOScriptedSurvey.calc_reward_function", "rubin_scheduler/scheduler/schedulers/core_scheduler.py:CoreScheduler._fill_queue"]}
{"id": "C257", "title": "A simulation goes on the same with a scheduler restarted from its visits", "statement": "A scheduler that is made anew with the same surveys and settings, told of the visits of a simulation in a table in any order, numbered on from the same visit and given conditions makes, in any further simulation from the same state of the observatory, the same visits at the same times, and the simulation ends in the same way, as the scheduler of the first simulation after its queue was flushed.", "quantifier": "all simulations with at least one visit, surveys whose choices depend on what they keep of visits, tables of the visits in any order, conditions, and lengths of both simulations", "why_tests_cant": "a test restarts one scheduler once and compares some numbers; that nothing else in the scheduler's state influences any later visit needs all states and all continuations", "anchors": ["rubin_scheduler/scheduler/schedulers/core_scheduler.py:CoreScheduler.add_observations_array", "rubin_scheduler/scheduler/schedulers/core_scheduler.py:CoreScheduler.flush_queue", "rubin_scheduler/scheduler/schedulers/core_scheduler.py:CoreScheduler.set_target_id_counter", "rubin_scheduler/scheduler/schedulers/queue_manager.py:BaseQueueManager.add_observations_array", "rubin_scheduler/scheduler/sim_runner.py:sim_runner"]}
{"id": "C258", "title": "The number from which visits are numbered does not change a simulation", "statement": "A simulation whose scheduler numbers its visits from another number makes the same visits at the same times, with numbers that differ by the difference of the starts, ends in the same way, and leaves the observatory and all surveys in the same state.", "quantifier": "all surveys, masks, detailers and telescopes that do not read the number of a visit, start numbers, queues at the start, sites, settings and lengths of simulations", "why_tests_cant": "a test compares two runs with two numbers; that no decision of the scheduler, its queue or the loop depends on the numbers needs all runs", "anchors": ["rubin_scheduler/scheduler/schedulers/core_scheduler.py:CoreScheduler.set_target_id_counter", "rubin_scheduler/scheduler/schedulers/core_scheduler.py:CoreScheduler.add_observation", "rubin_scheduler/scheduler/schedulers/core_scheduler.py:CoreScheduler._fill_queue", "rubin_scheduler/scheduler/schedulers/queue_manager.py:BaseQueueManager.mark_observation_completed", "rubin_scheduler/scheduler/sim_runner.py:sim_runner"]}
{"id": "C259", "title": "What happens at the site later does not change the visits made before", "statement": "If the clouds, the downtimes and the conditions at two sites are the same up to a time, simulations of the same scheduler at both sites make the same visits up to that time: a simulated scheduler and observatory never look ahead.", "quantifier": "all schedulers, telescopes, almanacs, clouds, downtimes, settings, times and lengths of simulations", "why_tests_cant": "a test compares two runs with two futures; that nothing after a time influences what is done before it needs all futures", "anchors": ["rubin_scheduler/scheduler/model_observatory/model_observatory.py:ModelObservatory.check_mjd", "rubin_scheduler/scheduler/model_observatory/model_observatory.py:ModelObservatory.check_up", "rubin_scheduler/scheduler/model_observatory/model_observatory.py:ModelObservatory.observe", "rubin_scheduler/scheduler/model_observatory/model_observatory.py:ModelObservatory.return_conditions", "rubin_scheduler/scheduler/sim_runner.py:sim_runner", "rubin_scheduler/site_models/cloud_data.py:CloudData.__call__"]}
{"id": "C260", "title": "What happens at the site in daytime does not change a simulation", "statement": "If two sites have the same nights and are closed and cloudy at the same times of the night, simulations of the same scheduler at both are the same: it does not matter whether a site is closed in daytime or how the time it is closed is cut into downtimes.", "quantifier": "all schedulers, telescopes, almanacs, downtimes, settings and lengths of simulations", "why_tests_cant": "a test tries a few tables of downtimes; that the search for the next open time comes to the same time however the closed times are cut needs an argument for all tables", "anchors": ["rubin_scheduler/scheduler/model_observatory/model_observatory.py:ModelObservatory.check_mjd", "rubin_scheduler/scheduler/model_observatory/model_observatory.py:ModelObservatory.check_up", "rubin_scheduler/scheduler/model_observatory/model_observatory.py:ModelObservatory.observe", "rubin_scheduler/scheduler/sim_runner.py:sim_runner"]}
{"id": "C261", "title": "A simulation inside the almanac ends without an error", "statement": "If every tier of the scheduler has surveys, the bands of its visits are in its dictionary of filters (if there is one), the telescope can make each visit asked for at the time it is asked for, every visit takes some time, and the almanac has, at or after the end of the simulation and the time of one visit, the end of a night that is open throughout for at least twenty minutes, then the simulation returns: no call raises, it does not give up, and its clock is at the end asked for or the number of visits is at its limit.", "quantifier": "all schedulers, surveys, telescopes, almanacs, downtimes, clouds, settings and lengths of simulations", "why_tests_cant": "a test runs a few simulations of a few nights; that none of the ways to fail can come up in a run of any length is a statement about all runs", "anchors": ["rubin_scheduler/scheduler/sim_runner.py:sim_runner", "rubin_scheduler/scheduler/model_observatory/model_observatory.py:ModelObservatory.observe", "rubin_scheduler/scheduler/model_observatory/model_observatory.py:ModelObservatory.check_mjd", "rubin_scheduler/scheduler/schedulers/core_scheduler.py:CoreScheduler.request_observation"]}
{"id": "C262", "title": "A simulation makes as many visits as fit", "statement": "If no visit takes less than a given time, a simulation makes at most one visit more than fit into its duration. If the site is open throughout, the scheduler always has a feasible survey and visits in reach, and slew, visit and overhead together take at most a given time, then a simulation makes at least as many visits as are needed to fill its duration with that time each, unless a smaller number was asked for.", "quantifier": "all schedulers, surveys, telescopes, sites, settings and lengths of simulations", "why_tests_cant": "a test counts the visits of one simulation; bounds that hold for any length need an argument about every pass of the loop", "anchors": ["rubin_scheduler/scheduler/sim_runner.py:sim_runner", "rubin_scheduler/scheduler/model_observatory/model_observatory.py:ModelObservatory.observe", "rubin_scheduler/scheduler/schedulers/core_scheduler.py:CoreScheduler.request_observation"]}
{"id": "C263", "title": "A simulation does not depend on the origin of time", "statement": "When the nights, downtimes and clouds of the site, the begin of the survey, the clock, the telescope and the scheduler are all later by the same time, a simulation ends in the same way and makes the same visits, each later by that time, with the same nights of survey, numbers, slew and visit times. The telescope and the scheduler are ones that only look at differences of times.", "quantifier": "all sites, telescopes, schedulers, settings, lengths of simulations and shifts of time", "why_tests_cant": "a test runs simulations at a few dates near the present; a fixed date in the loop, or a comparison that depends on the size of dates, shows at other dates only", "anchors": ["rubin_scheduler/scheduler/sim_runner.py:sim_runner", "rubin_scheduler/scheduler/model_observatory/model_observatory.py:ModelObservatory.observe", "rubin_scheduler/scheduler/model_observatory/model_observatory.py:ModelObservatory.check_mjd", "rubin_scheduler/scheduler/utils/utils.py:IntRounded"]}
{"id": "C264", "title": "Settings that a simulation makes no use of do not change it", "statement": "A simulation that always had something to observe is the same for any step_none. A function for unexpected overheads that always gives zero is as none. With a scheduler whose queue is never good without new conditions, update_conditions_every_obs makes no difference. A limit of visits that is not reached changes nothing. In each case everything the simulation returns is the same.", "quantifier": "every scheduler, observatory, band scheduler, setting and length of simulation", "why_tests_cant": "tests compare a few runs; that a setting has no other effect has to hold in every pass of every simulation", "anchors": ["rubin_scheduler/scheduler/sim_runner.py:sim_runner"]}
{"id": "C265", "title": "Values are put within limits", "statement": "Clipping an array to limits gives an array of the same length in which each entry is the nearest value within the limits: entries within them stay, entries beyond them become the limit, entries that are no number stay, and a second call changes nothing.", "quantifier": "every array of numbers or integers and every pair of limits, the lower not above the upper", "why_tests_cant": "all values, infinite ones and types of arrays; tests use a few floats", "anchors": ["rubin_scheduler/scheduler/utils/utils.py:inrange"]}
{"id": "C266", "title": "Conversions to and from arcseconds keep the angle", "statement": "Converting an angle between radians or degrees and arcseconds gives the same angle in the other unit, there and back is the same value, and None stays None.", "quantifier": "every value, and None", "why_tests_cant": "all values; tests convert a few", "anchors": ["rubin_scheduler/utils/coordinate_transformations.py:arcsec_from_radians", "rubin_scheduler/utils/coordinate_transformations.py:radians_from_arcsec", "rubin_scheduler/utils/coordinate_transformations.py:arcsec_from_degrees", "rubin_scheduler/utils/coordinate_transformations.py:degrees_from_arcsec"]}
{"id": "C267", "title": "Detailers that copy a column or set the angle change nothing else", "statement": "The detailer that copies a column gives every visit, in the column it writes, the value of the column it reads, keeps all visits, their order and all other columns, and raises exactly when a column does not exist. Applied again it changes nothing; two of them may be applied in either order if neither writes what the other reads or writes. The detailer for a fixed angle on the sky sets it in every visit whatever was set before.", "quantifier": "every array of visits, every pair of columns and angle", "why_tests_cant": "all arrays and chains of detailers; tests apply one to a small array", "anchors": ["rubin_scheduler/scheduler/detailers/detailer.py:CopyValueDetailer", "rubin_scheduler/scheduler/detailers/detailer.py:FixedSkyAngleDetailer"]}
