# Formal model of rubin_scheduler: design

The code in `/repo` (python) is read as text and modelled in Lean 4 under `lean/Verif`.
Nothing here runs the code; the tie between model and code is the citation on every
definition (file and lines in `/repo`).

## Layout

* `lean/Verif/Model/*.lean` – the model. One file per area of the code. Every definition
  cites the lines it models and names its simplifications.
* `lean/Verif/Lemmas/*.lean` – helper lemmas only.
* `lean/Verif/Props/*.lean` – the property theorems, each with the specification it uses
  and a concrete example meeting its hypotheses. One file per area.
* `properties.jsonl` – the English properties. `MANIFEST.json` – property → theorem names.
* `seeded/LOG.jsonl` – wrong-program experiments.

## Modelling choices

* Python/numpy floats are exact numbers: `ℚ` where the code must stay computable, `ℝ` for
  square/cube roots. Floating-point rounding is not modelled.
* Arrays are lists. A numpy structured row is a structure with the fields the code reads.
* Exceptions are values (`Option`/`Except`-style results); where numpy raises (empty
  reductions, index errors) the model returns the error branch.
* Rewards and brightness are `nan | -inf | finite q | +inf` (`XReal`) with the comparisons
  and sums of IEEE arithmetic; in maps where only nan matters, `Option ℚ` with `none` for nan.
* External code (healpix lookup, astropy, scipy ConvexHull, sky brightness, random numbers,
  surveys and detailers supplied by the user) is a parameter of the model: a function or a
  stream, about which nothing is assumed unless a theorem names the assumption.
* Loops become folds or structural recursion; `while` loops take fuel, and theorems say
  what happens for every fuel (or that enough fuel exists).

## Plan per property

| Id | Model | Proof |
|----|-------|-------|
| C01 | Core scheduler as `step` over an op list, surveys abstract | invariant: log of assigned ids strictly increasing and below counter; induction over ops |
| C02 | same | invariant "id < counter and no pending row carries it" preserved by every op |
| C03 | queue manager request | characterisation of the result as filter/first of the queue; idempotence |
| C04 | queue manager + IntRounded array comparison | expected to fail (array-wide rounding): witness, plus partial theorem when no flush time is close to now |
| C05 | core request with mjd argument | expected to fail (argument unused): witness; partial when mjd = conditions time |
| C06 | queue manager mask, core refill | decision logic |
| C07, C08 | `_fill_queue` loop over tiers | induction over tiers; argmax with first index |
| C09 | core request | case analysis of the two refill attempts |
| C10 | queue manager | invariant over op list; refinement to the list of (visit, pending) pairs |
| C11 | update_conditions | invariant over histories of alert lists |
| C12 | update_conditions | sortedness, permutation of the filtered concatenation |
| C13 | core add paths | equality of folds; record where the code differs |
| C14 | fill / backfill | map characterisation |
| C15, C16 | IntRounded on ℚ | order laws; C16 expected to fail: witness |
| C17–C20, C62–C64 | sim_runner loop with abstract scheduler, observatory and band scheduler; every call recorded | invariants over loop passes; C62 by a decreasing measure; C18 fails for a limit of 0: witness |
| C21–C24 | ModelObservatory observe/check_mjd/check_up, telescope abstract | induction over call sequences and over the fuel of check_mjd; C23 fails for short downtimes: witness |
| C25 | downtime merge loop | closed times kept by each pass; number of rows decreases; raises with fewer than two rows left: witness |
| C26 | make_data over arbitrary random streams | induction over nights; first-year variant fails: witness |
| C27–C29, C66–C68 | kinematic model: slews, cable wrap, bands, park, rotation resolution | invariant over histories; per-component bounds; C27, C29, C67, C68 fail: witnesses |
| C65 | ModelObservatory.observe | case analysis |
| C30 | jerk.py over ℝ | case analysis, nlinarith |
| C31, C32 | tsp.py | list permutations; induction on cuts and loop count |
| C33–C35 | features | equality of bulk and fold; witnesses where different |
| C36–C38, C71, C72 | scripted surveys | `Model/Scripted`; offered visits characterised; histories by invariants; witnesses where the code fails |
| C39–C41, C57, C73–C80 | detailers, one function each (`Model/Detailers`); random streams arbitrary | permutations by counting, prefixes by running sums, invariants over calls; witnesses where the code fails |
| C42, C82, C83 | band schedulers (`Model/BandSched`) | searchsorted characterisation; induction on nights |
| C43, C84, C85 | alerts, their server and the survey following them (`Model/Too`, on top of `Model/Scripted`) | filter characterisation; fold over alerts; history invariant on seen ids |
| C44, C45, C86 | weather tables, cloud maps, almanac (`Model/Weather`) | nearest neighbour in sorted and repeated tables; induction on additions |
| C81 | chunking detailer (`Model/Chunk`) | loop invariant over chunks |
| C87, C88 | image quality and depth over ℝ (`Model/Depth`) | monotonicity of powers and logarithms |
| C54, C89, C90, C91 | footprints: evolution, rolling, slices, cache (`Model/Footprint`) | induction on seasons, division with remainder, invariant over histories |
| C46, C47, C49, C54 | angle/season/footprint arithmetic | field and floor arithmetic |
| C48 | `SchemaConverter` and the columns of `ObservationArray` (`Model/Schema`): named columns, unit changes, database cells; `Spec/Schema`: documented columns and units | renaming with an inverse, columnwise scaling; induction over appended arrays |
| C50 | cached quantities of `Conditions` (`Model/Conditions`), astronomy as arbitrary functions; `Spec/Conditions`: inputs in force and the answer computed from them | coherence invariant over histories of setters and reads; witnesses for stale values |
| C51, C94-C96 | rewards of all kinds of survey (`Model/Reward`): feasibility, weighted sum with masks, area checks | decision logic; folds over the basis functions; witnesses where units or infinities go wrong |
| C97-C99 | from rewards to fields (`Model/Blob`): greedy choice, growing a region, passes of a blob; the neighbour relation and tessellation are any functions | sortedness of stable sorts, invariant of the growing loop |
| C100 | sequences of field and deep drilling surveys (`Model/Field`) | list algebra; an independent estimate of the duration |
| C101 | `PointingsSurvey` (`Model/Pointings`): counting, limits, cached reward, choice | folds over histories; nan propagates through the weighted sum |
| C102 | `LongGapSurvey` (`Model/LongGap`): what is scheduled, the search past the zenith with fuel, nights | the search is an iteration of one shift; least number of steps |
| C103 | `BaseBasisFunction` (`Model/Basis`): flags, the two tests of a call, reported visits; a function limited to pixels | invariant: the value is recomputed at each call, or was computed at the same time with the same visits |
| C104 | `AvoidFastRevisitsBasisFunction`, `VisitGap` on the features of `Model/Features` | the feature holds the latest matching visit; exact comparison when clear of the limit |
| C105 | `VisitRepeatBasisFunction` | as C104 |
| C106 | `CadenceEnhanceBasisFunction`, `trapezoid` | values by pixel; closed form of the trapezoid |
| C107 | `StrictBandBasisFunction`, `BandChangeBasisFunction`, `BandDistBasisFunction` | case analysis; counting |
| C108 | `SlewtimeBasisFunction` | values by pixel |
| C109 | `NObsPerYearBasisFunction`, `NGoodSeeingBasisFunction`, `SeasonCoverageBasisFunction` | angles modulo a turn; the n-th latest time against a count |
| C110 | `FootprintBasisFunction` | exchange of sums |
| C111 | `BalanceVisits`, `RewardNObsSequence` | monotonicity of the floor |
| C112 | `NearSunHighAirmassBasisFunction` | values by pixel |
| C113 | `Conditions.alt_az_shadow_mask` with its cache, padding, the basis function limited to sunrise and sunset | fold over the times looked at as a conjunction; angles modulo a turn; witnesses where limits are mixed up |
| C114 | `restore_scheduler`, `warm_start` on top of the core scheduler | reuse of the bulk/one-by-one theorems of C13; sorting |
| C115 | `SkyModelPre.return_mags`, loading of a stretch of a file | search in rising times; case analysis of loads; witnesses |
| C116 | `interp_angle`, `short_angle_dist` | angles modulo a turn |
| C117, C118 | `_approx_ra_dec2_alt_az`, `_approx_alt_az2_ra_dec` over the real numbers | the frame of up, north and east as a separate specification; direction vectors; uniqueness |
| C119 | `calc_lmst` | remainders; witness east of Greenwich |
| C120 | `_approx_altaz2pa`, hour-angle formula | components of the zenith at the target |
| C121, C122 | `_angular_separation`, vectors, search radius, rotations | dot products; Gram determinant for the triangle inequality |
| C123 | `bearing`, `dest_latlon`, `point_to_line_distance` | frame at the start; the cosine along a circle has one peak; witness for far points |
| C124, C125 | gnomonic projection, `rotate`, `LsstCameraFootprint` | points of the touching plane; rounding to cells; witness on the far side |
| C126, C127 | `DitherDetailer`, `EuclidDitherDetailer` over histories of calls and reports (`Model/Dither`) | separation on the sky of a moved visit; invariant: the table of a night is a function of the night; witness on a new night |
| C128 | `DeltaCoordDitherDetailer` | direction vectors and the frame of C117 at the visit |
| C129 | `ComCamGridDitherDetailer` | counter since the band changed; remainders |
| C130 | `match_cumulative` (`Model/Presched`) | induction over the rises with the list of free cells; count of events against rises; witnesses |
| C131 | `ddf_slopes` | invariant over the seasons in order: values of the seasons done, greatest value so far; witnesses |
| C132 | `optimize_ddf_times` | the grown mask as a statement about a window of rows; best time of a night; rises bounded by usable nights because rounding is monotone; witnesses |
| C133 | `generate_ddf_scheduled_obs` (`Model/PreschedObs`) | C132 for the times; counting over rows, times and bands; witnesses |
| C134 | numbers of trixels, the descent to a trixel, the table of all trixels (`Model/Htm`) | induction on the number by division by four; invariant of the table: closed under parents and right for every number |
| C135 | `find_htmid` one by one and for arrays, over the reals (`Model/Htm`) | the cone of a triangle is the union of the cones of its children, with inner parts apart; induction on the level; witnesses |
| C136 | `contains_trixel`, `find_all_trixels` (`Model/Htm`) | a quadratic with a root on an edge; bounding circles of small triangles; invariant over levels; witnesses |
| C137 | merging and joining of ranges (`Model/Htm`) | invariant of the run; induction on the two lists; uniqueness of ranges with gaps |
| C138 | half spaces from positions, points on two circles (`Model/Htm`) | cosine falls from 0 to π; a point in terms of two vectors and their cross product; witness |
| C139 | regions added one after the other to a map (`Model/SkyArea`) | invariant over the regions added: first region or none; each selection equal to a region of the specification; witness for coarse maps |
| C140 | numbers of visits and shares of bands (`Model/SkyArea`) | sums of lists; sum over labels by induction over the pixels |
| C141 | map of the whole sky (`Model/SkyArea`, `altAz` of `Model/Sphere`) | cosine of the hour angle at most one; arcsine rises |
| C142 | rounding to a grid, pixels within a distance of the grid, single and many positions, growing of masks (`Model/Fov`) | the chord grows with the angle; each rounding moves a point by less than one step; triangle inequality |
| C143 | sorting, cutting at the places of distinct numbers, statistic of each part, map (`Model/Bins`, `Spec/Bins`) | slices of a sorted list are the values with that number, for every order of the sort |
| C144 | numbers of pixels of several orders, shares of area, map (`Model/Bins`) | base-2 logarithm of 4^(n+1)+p; sums over a partition |
| C145 | samples before a passage, dropping of the last, line between two samples (`Model/Altitudes`) | signs on both sides; position on the line; filter of a range |
| C146 | numbers of nights, columns of events, rows kept (`Model/Altitudes`) | place in a rising list; induction over the events from the last |
| C147 | turn of positions about three axes, nearest field, turns by night and by call, turns for alerts (`Model/Spin`) | a turn keeps dot products and triple products; induction over the nights |
| C148 | names, numbers given to repeated names (`Model/Report`) | the k-th label is the name or the name with its count so far; numbered names are one-to-one |
| C149 | greatest reward and area, rows, tables of all surveys (`Model/Report`, `Spec/Report`) | counting of open pixels; sums of rewards are open only where their parts are |
| C150 | pruning by notes, single and batch reports to the parts of a survey (`Model/Replay`) | texts found at a place; filters commute with rows of pixels; induction over the history |
| C151 | label detailers over texts, maps of labels and tables of fields (`Model/Tagging`) | splitting a joined text gives its parts back; room in the column |
| C152 | camera angle detailers over any ordered field (`Model/Rotate`) | angles up to whole turns; nearest quarter by rounding |
| C153 | the start sequence detailer over the last matching visit (`Model/Details`) | induction over the history from its end |
| C154 | detailers of filters, exposures, marks and alert bands (`Model/Details`) | visit by visit |
| C155 | the time aimed at by the varied exposure detailer (`Model/Details`) | laws of powers and logarithms |
| C156 | depth, dark depth and their difference over the reals (`Model/Gains`) | monotone depth (C88), highest altitude at culmination (C141) |
| C157 | wind basis functions for one direction (`Model/Gains`) | cases; identities of cosine |
| C158 | the planet mask over the field of view tree (`Model/Gains`, `Model/Fov`) | induction over planets with C142 |
| C159 | altitudes of `calc_target_m5s` (`Model/Gains`) | cases |
| C160 | the loop of requests over any sequence of answers (`Model/Consdb`) | induction over requests |
| C161 | dates, the condition of the query and its columns (`Model/Consdb`) | no date lies between a day and the next; induction over days |
| C162 | replacements of columns for one visit (`Model/Consdb`) | distances of angles by rounding; cases |
| C163 | airmass, depth and sky brightness over the reals (`Model/Consdb`) | square roots and logarithms |
| C164 | numbering of nights (`Model/Consdb`) | floors |
| C165 | slew distances over lists of visits (`Model/Consdb`) | induction over the list |
| C166 | sampling functions for one pair of random numbers (`Model/Spots`) | monotone arc sine |
| C167 | first guess, refinement and warning of rise and set times (`Model/Spots`) | angles up to whole turns; induction over steps |
| C168 | the rotation matrix (`Model/Spots`) | formula of Rodrigues |
| C169 | terms of the surveys made by the generators, by settings (`Model/Generators`) | list predicates over appended terms |
| C170 | resolutions of the same terms and surveys (`Model/Generators`) | the same |
| C171 | altitude masks of the same (`Model/Generators`) | the same |
| C172 | weights of the same (`Model/Generators`) | sums over lists of terms |
| C173 | names, reasons and exposures (`Model/Generators`) | induction over the loop |
| C174 | the list of masks before and after (`Model/Generators`) | cases |
| C175 | windows of the Roman surveys (`Model/Generators`) | order of the windows |
| C176 | dates and resolutions of the parts of the example scheduler (`Model/Launch`) | direct |
| C177 | patterns of nights (`Model/Launch`, `Model/Feasible`) | remainders |
| C178 | the saved table over histories of calls (`Model/Launch`) | invariant of the file; induction over the history |
| C179 | search in a sorted list with indices from the end (`Model/Launch`) | induction over the list |
| C180 | rows of alerts for all outcomes of the random numbers, and their sorting (`Model/Launch`) | ranges; permutation and order of insertion sort |
| C181 | numbers of alerts by length of period (`Model/Launch`) | rounding |
| C182 | types of alerts and of surveys (`Model/Launch`) | finitely many types |
| C183 | loop, observatory and any scheduler put together (`Model/Whole`) | rule for invariants of simulations (`Lemmas/SimKeeps`) over the record of calls; C17, C19, C62 |
| C184 | the same with the core scheduler (`Model/Whole`, `Model/Core`) | invariant: told ids are used up (C02); the same rule |
| C185 | the same (`Model/Whole`) | conditions of now before each request; C04; counterexample by running the model |
| C186 | the same with the kinematic model (`Model/Whole`, `Model/Kinem`) | invariant: bands in the camera are those mounted last |
| C187 | Zernike and factorial generators with their tables (`Model/Zernike`) | invariant of the tables over all histories of calls |
| C188 | the same | closed form of the tables; the value at the rim is the p-th difference of a binomial coefficient (`Lemmas/ZernikeRadial`) |
| C189 | the same | moments of the radial polynomials by differences of polynomials of lower degree; integrals over the disc of Mathlib |
| C190 | the same | polar coordinates by the inverse cosine; multiples of an angle by induction |
| C191 | settings of mount and rotator (`Model/Movement`) on top of the motion times and the telescope | a profile with larger limits and the same distance is not longer (rescaled ramps), then monotonicity of the slew time |
| C192 | detailed band change time and slews with it (`Model/Movement`) | two profiles make one that is not longer (longer cruise of the faster one); triangle inequality of angles |
| C193 | downtime report and the scheduled table (`Model/DownStatus`) | induction over the table for the position found; cases of the two tables |
| C194 | day of observation (`Model/DayObs`) | induction over days for the calendar, closed form for the ordinal; digits of equal length compare as numbers |
| C195 | tessellation of a square camera (`Model/Tessellate`) | nearest point of an even grid; cosine along a stripe bounded by the nearest stripe |
| C196 | horizontal field surveys (`Model/AltAzField`) | the direction seen at an altitude and azimuth (C118); turning the sky for the drift |
| C197 | files of sky brightness by name (`Model/SkyFiles`) | lexicographic order of digits of equal length; last element of a sorted list |
| C198 | names of the long-gap generator (`Model/LongNames`) | the notes written by the pair detailer are in the list given to the once-a-night condition (C55) |
| C199 | pixels of the small camera (`Model/Comcam`) | rounded points of the search tree are near the true ones; sides of the square as inner products with turned axes |
| C200 | whole simulations with the core scheduler (`Model/Whole`) | invariant: what a survey heard is the record of returned visits (C183 and C16) |
| C201 | positions of the almanac (`Model/AlmanacSky`) | direction of a nearly right sine and cosine; a weighted mean of two directions points between them |
| C202 | the download of sky files (`Model/SkyDownload`) | states of the directory at every byte written; induction over the listed files |
| C203 | table of rewards of `PointingsSurvey` (`Model/PointingsTable`) | each prefix of the weights gives the sum of that prefix; adding never makes a value finite |
| C204 | constant footprints, norm of goals, ecliptic, plain cuts (`Model/FootprintNorm`) | induction over the maps given; algebra; division with remainder |
| C205 | conditions set in one call (`Model/ConditionsSet`) | two runs from different objects stay in agreement on a growing set of attributes |
| C206 | whole simulations with features (`Props/WholeFollow`) | a feature changes only with a visit told: kept as an invariant of the loop, then C70, C34 and C33 on the visits, which C183 puts in order |
| C207 | simulations and restarts (`Props/WholeRestart`) | the table is sorted back to the order of the visits; C206 and the agreement of the two ways of updating (C33, C34) |
| C208 | whole simulations with the core scheduler (`Props/WholeSource`) | queue, conditions and completed visits stem from choices of the scheduler: an invariant of the loop; a fill gives C07, C08 and C14 for what it puts into the queue |
| C209 | `sim_runner` twice in a row (`Props/SimPieces`) | two runs of the loop kept alike pass by pass until the first stops (`Twin`), then the rest is a run from there; witnesses with the uzy band scheduler and toy simulations |
| C210 | `record_rewards` and `keep_rewards` in whole simulations (`Model/SimRewards`, `Lemmas/SimProject`, `Props/WholeRewards`) | dropping the tables is a projection of simulations; the pairing is an invariant of the loop over queue, stamps and completed visits |
| C211 | Scripted surveys plugged into the model of the core scheduler beside surveys of any other kind, within the whole simulation | invariant over the passes of a simulation: made and outstanding visits with the note together stay within the bound; conditions kept from an earlier time do no harm, because the surveys were not asked under them, or the queue holds no visit with the note, or nothing in the queue had expired then, so that the queue itself answers |
| C212 | Greedy and blob surveys with rewards, blobs and turned tessellations plugged into the model of the core scheduler (`Model/MarkovSim`), within the whole simulation | C208 for rules, with C95 (masks reach the reward), C97 and C99 (fields have unmasked pixels) for the rule; the moon by C93 |
| C213 | Two runs of the simulation loop with different options | relation between the states of the two runs kept by every pass; where the shorter one stops, visits of the longer one are only added at the end |
| C214 | `SummitWrapper` and `CoreScheduler` side by side, driven by the same turns | simulation relation (`SameCore`, `Quiet`) between the plain scheduler and the wrapped one at the points where no visit is open, kept by every turn |
| C215 | `ShortExptDetailer` (goal, wanting pixels, copies) and the constructors of it and of `PlanAheadSurvey` as lookups of names | induction on the list of visits |
| C216 | `calc_target_m5s` over ℚ maps, with the depth of C88 | the mean of a nonempty list lies between its ends; monotonicity of the depth |
| C217 | the left join of the query, the inner join of `merged_opsim_consdb`, `load_consdb_visits` | a filter by a key without repeats is a singleton |
| C218 | `ToOScriptedSurvey` as a survey of the core scheduler in a whole simulation, beside surveys of any kind | an abstract account of what surveys offer of a note (`Offers`), kept by every event of the simulation; notes determine the alert |
| C219 | `sim_runner` with the whole observatory, core scheduler and queue | an invariant of the queue across passes (`Sim.PassKeeps`): what is queued was asked for in the present night, or the flush is still to come |
| C220 | greedy and blob surveys with their basis functions in a whole simulation | C219 with the rule that a survey asked for visits only while it was feasible; `NotTwilightBasisFunction` as an instance; a witness of a block that goes on into twilight |
| C221 | `sim_runner` with the whole observatory, core scheduler and queue | an invariant of the queue and of the visits made (`Arranged`): rows are numbered in increasing order and those made precede those wanted, up to blocks; a witness with a mask |
| C222 | `sim_runner` with the whole observatory, core scheduler and queue | an invariant of the loop (`Busy`, `Gap`): the clock stands at the end of the last visit, or there is an excuse in the record of calls since; a witness with a mask |
| C223 | `sim_runner` with the whole observatory, core scheduler, queue and surveys of maps; `OnlyBeforeNight`, `NightModulo` | the invariant of C219 generalised from ends of nights to any time after which the telescope is closed (`asked_before_bar`), here the changes of the night number; two witnesses |
| C224 | `sim_runner` with the whole observatory, core scheduler, queue, scripted surveys and any others | an invariant of scripted surveys kept by all their calls (`PlansKept`), carried into the theorems on whole simulations by restricting surveys to those that have it (`Lemmas/CoreHom`: `sim_only`, `asked_by_reached`) |
| C225 | `sim_runner` with `SummitWrapper` as its scheduler (`Model/SummitSim`), beside `sim_runner` with the scheduler itself | a relation between the two simulations (`LoopsAlike`) kept by every pass until one of them has nothing to observe; from there the wrapped one has raised and the plain one has skipped, and both facts last |
| C226 | `Site`: constructor, defaults, missing numbers, equality (`Model/Site`) | cases over the loops of the constructor; the dictionary of attributes as a function of the arguments |
| C227 | `SpecMap` over any pattern language (`Model/SpecMap`) | first match in a list; blanks taken from both ends; updates of association lists |
| C228 | `_wrap_hour_angle`, parallactic angle (`Model/Inputs`) | angles up to whole turns; witness |
| C229 | `_validate_inputs`, `_angular_separation` for numbers and arrays (`Model/Inputs`) | cases over kinds of arguments; C121 for one pair |
| C230 | `__eq__` of trixels and half spaces (`Model/HtmEq`) | ids of trixels (C134); bounds of coordinates of unit vectors; witnesses |
| C231 | `scheduler_download_data`, `download_rubin_data` with `--versions` (`Model/DownloadCmd`) | induction over the recorded versions; cases; witnesses |
| C232 | the loop with `snapshot_dir` (`Model/SimSnap`) and the simulated observatory, whose conditions park the telescope after a gap | between passes the telescope is never waiting to be parked (`AtRest`), unless a long visit was made, which stays in the result |
| C233 | names and contents of the files of snapshots (`Model/SimSnap`) | times at the loop head against the clock, by induction on the passes; witness |
| C234 | the part of `return_conditions` about the telescope (`Model/Parking`) | invariant over histories of the telescope; witnesses |
| C235 | parking after a gap in `observe` and `return_conditions` (`Model/Observatory`, `Kinem`) | cases of `observe`; witness |
| C236 | `slew_times` as called by `return_conditions` beside `slew_times` as called by `observe` (`Model/Parking`, `Kinem`) | comparison of the two maxima term by term |
| C237 | `observation_add_data`, the end of `observe` and the end of `sim_runner` (`Model/Columns`) over the simulation of C184 | what holds of every completed visit holds of the result; cases of `observe` and of the slew |
| C238 | detailers for new alerts and their use for mergers of black holes (`Model/TooBand`) | detailers are maps of bands; plans with mapped bands; scripts that differ in bands only |
| C239 | values of the safety masks of generated surveys (`Model/Made`), in the whole simulation | C169 gives the masks a survey has, C93 and C113 what they leave, C212 that visits are at fields of pixels left |
| C240 | features and turn of the fields of greedy and blob surveys (`Model/MarkovSim`), in the whole simulation | an invariant of the surveys' states under all calls, C206 for features, C224's way for what surveys ask in states that the invariant allows |
| C241 | field and deep drilling surveys as surveys of the core scheduler (`Model/FieldSim`), in the whole simulation | C224's way for what surveys ask, C100 for their sequences |
| C242 | limit on the share of the visits, in the whole simulation | an invariant of queue and surveys: marked visits heard of and marked visits in the queue together are at most the share of the visits heard of and one sequence |
| C243 | forced and soft delays and gaps, in the whole simulation | an invariant of queue, surveys and clock: the marked visits that are younger than the delay and those in the queue together are at most one sequence |
| C244 | long gap surveys as surveys of the core scheduler (`Model/LongSim`: pair survey, script, clearing by night), in the whole simulation | an invariant of what surveys have heard (`Lemmas/Cause`): every row of a script is for a visit heard of since the night of the survey began; every visit in the queue had its reason when it was asked for |
| C245 | surveys that follow alerts (`Model/TooSim`) with the server of simulated alerts (`Too.serve`), in the whole simulation | an invariant of what surveys have heard (`Lemmas/Cause`): every row of a script was planned for an alert at a time when that was announced (C85); rows offered are in their windows |
| C246 | the queue of the whole simulation and `takeAsPairs` | an invariant of the queue and the visits reported (`Lemmas/QueueRun`): rows ticked off were made, the first row that can be handed out has only rows ticked off or hidden before it; rows of one place and expiry are hidden together |
| C247 | `generate_ddf_grid` with any model of the sky (`Model/DdfGrid`), read by `optimize_ddf_times` (`Model/Presched`) | induction over the times with the last answer kept by the sky model; the plan by C132 |
| C248 | long gap surveys among others in a whole simulation (`Model/LongSim`) | `Offers` of `Lemmas/NoteOnce`: before its number is given out a note is not offered, afterwards at most as often as it is outstanding; `Causes` of `Lemmas/Cause` for the numbers; counting |
| C249 | greedy and blob surveys with features that hear of visits, in a whole simulation (`Model/MarkovSim`) | `Causes` of `Lemmas/Cause`: features are the fold of the visits told, all visits told later were made at the time of asking or later; then C104 and C92 for the masks |
| C250 | `total_downtime` (`Model/DownTotal`) beside the generators of C26 | induction over the table: Lebesgue measure of the union of intervals; C26 for order |
| C251 | `CoreScheduler` in whole simulations (C183), `Script.mixed` | bisimulation (`Sim.Relate`, `Lemmas/CoreTrim`): schedulers that agree but for surveys without a feasible reward choose the same survey in each call |
| C252 | as C251, with rewards changed by a rule that keeps their order | bisimulation as C251; the largest reward is mapped to the largest one |
| C253 | `CoreScheduler` in whole simulations (C183), tiers in another order | bisimulation over related tiers (`Lemmas/CoreSwap`): the best survey is the same one, wherever it stands |
| C254 | as C253, two tiers merged | bisimulation as C253; the first tier with a feasible survey holds the best survey of the merged one |
| C255 | greedy and blob surveys (`Model/MarkovSim`) in whole simulations, with weights multiplied | every step from basis functions to fields goes along with a positive factor or does not see it; then C252 |
| C256 | surveys that follow alerts (`Model/TooSim`) beside others in whole simulations | an empty script stays empty while nothing to follow is announced, and offers nothing; then C251 for conditions that occur |
| C257 | `Core.addArr`, `Core.flush`, `Core.update` between two whole simulations | what surveys know is the same by C206/C207; queue, settings and number of the next visit by invariants of the loop; then the projection of simulations to what surveys know (`whole_seen`) |
| C258 | whole simulations from two start numbers | every call of the loop commutes with adding a number to the numbers of visits (`Lemmas/SimRename`: translation of worlds and visits) |
| C259 | whole simulations with two futures of the site | lock-step until the clock reaches the time, then both only add visits that are over later (`Lemmas/SimUntil`); the search for the next open time by induction on the fuel |
| C260 | whole simulations at two sites closed at the same times of the night | the times tried as a relation (`Reach`), without fuel; both chains of tries visit the same times that are at night and not closed, by induction on both |
| C261 | whole simulations with schedulers that answer (`Model/Whole`, `Model/Core`) | loop invariant that nothing was raised, the clock is not before the last flush and at most at the end, so that the search of C24 ends inside the almanac and every rejection moves the clock (`Props/WholeEnds`) |
| C262 | whole simulations, with the longest and the shortest time of a visit | loop invariants: the clock is at least and at most the start and so many times the number of visits; that the core scheduler always answers from `core_idle` of C222 (`Props/WholeCount`) |
| C263 | whole simulations with any scheduler and telescope, and the same with all times later by `d` | every call of the loop commutes with the translation in time (`Lemmas/SimShift`); the search for an open time by induction on its fuel (`Props/WholeShift`); the core scheduler commutes with it on states whose visits do not expire (`Props/WholeShiftCore`) |
| C264 | the simulation loop with any objects, run twice with settings that differ | each pass is the same as long as the setting is not used; numbers of steps and visits only grow, so what holds at the end held in each pass (`Props/SimUnused`) |
| C265 | `inrange` on arrays of numbers and of integers | cases on where the entry lies (`Model/Clip`, `Props/Clip`) |
| C266 | the conversions of angles to and from arcseconds, in real numbers | both values are the same part of a full turn (`Model/Units`, `Props/Units`) |
| C267 | `CopyValueDetailer` and `FixedSkyAngleDetailer` on rows of named columns, with any conversion to the type of a column | row by row (`Model/CopyColumn`, `Props/CopyColumn`) |
| C52 | `SummitWrapper` over the core model (`Model/Summit`): replay, bisection on pending ids, sharing of queues | invariant over histories: queues in id order, all unconfirmed visits of the inner queue are pending or in the look-ahead queue |
| C53 | `download_rubin_data` as a list of atomic steps on a disk, stopped after any of them (`Model/Download`); the server is arbitrary: refuses, cuts, ignores ranges | invariant: what is recorded as current is complete; witnesses of failing crash points |
| C55, C58, C92, C93 | feasibility functions and masks (`Model/Feasible`, `Model/Masks`) | decision logic over histories; witnesses for wrap-around faults |
| C56 | `Model/Block`: `_set_block_size` with all its options, exact arithmetic | rounding lemmas and floors; the block ends before every deadline of a separate list |

## Trusted base

* Lean 4.33.0 kernel; axioms at most `propext`, `Classical.choice`, `Quot.sound`
  (checked with `#print axioms`).
* The reading of the python source recorded in the citations.
* Not modelled: floating-point rounding, numpy dtype truncation of strings except where
  stated, astropy/healpy/scipy internals, pickling, file formats, logging.

### Coverage: which parts of the code are modelled

Line numbers are in the comment of each definition. A function of a listed file that is not
cited there is not modelled.

| File under rubin_scheduler/ | Model | Not modelled |
|------|-------|--------------|
| scheduler/schedulers/core_scheduler.py | Core | printing, reward tables and labels |
| scheduler/schedulers/queue_manager.py | Queue | |
| scheduler/schedulers/filter_scheduler.py | BandSched | |
| scheduler/schedulers/summit_wrapper.py | Summit | |
| scheduler/sim_runner.py | SimRunner, SimSnap, Columns | progress bar, database output |
| scheduler/model_observatory/model_observatory.py | Observatory, Parking, Kinem, Downtime, Conditions | constructor defaults, the values put in the conditions by site models |
| scheduler/model_observatory/kinem_model.py, jerk.py | Kinem, Jerk, Movement, Parking | |
| scheduler/features/features.py | Features | features that no modelled class uses |
| scheduler/features/conditions.py | Conditions, ConditionsSet, Shadow | plotting and string form |
| scheduler/basis_functions/basis_functions.py, rolling_funcs.py | Basis, Masks | M5Diff, depth and cloud-map based ones, labels |
| scheduler/basis_functions/mask_basis_funcs.py | Masks, Shadow | planet mask, cloud map |
| scheduler/basis_functions/feasibility_funcs.py | Feasible | |
| scheduler/surveys/base_survey.py, surveys.py | Reward, Blob, Block, Spin, Report, Replay | kd-tree internals |
| scheduler/surveys/field_survey.py, dd_surveys.py | Field, Reward, AltAzField | |
| scheduler/surveys/scripted_surveys.py, too_scripted_surveys.py | Scripted, Too, TooBand | |
| scheduler/surveys/pointings_survey.py, long_gap_survey.py | Pointings, PointingsTable, LongGap | |
| scheduler/detailers/*.py | Detailers, Chunk, Dither | those not cited in the three models |
| scheduler/example/lsst_ddf_presched.py | Presched, PreschedObs | `calculate_checksum`; reading the grid file; warnings |
| utils/htm_module.py | Htm, HtmEq | caches; `contains_pt` with a tolerance; rounding of floats |
| scheduler/utils/sky_area.py | SkyArea | dust map and its healpix smoothing, `SkyCoord` transforms, interpolation of the Euclid contour (parameters); rounding of floats |
| scheduler/utils/utils.py (`HpInLsstFov`), utils/tree_utils.py, utils/healpy_utils.py (`_hp_grow_mask`, `_healbin`, `moc2array`), utils/binned_stats.py | Fov, Comcam, Bins | the tree search of scipy (all points within the radius), healpix centres (parameters); rounding of floats; types other than float |
| scheduler/model_observatory/generate_altitudes.py (11-149) | Altitudes | altitudes from astropy (parameters); the refinement with `scipy.optimize` (151-204) |
| scheduler/utils/utils.py, comcam_tessellate.py | IntRounded, Angles, Season, Schema, Restore, Tessellate | |
| scheduler/utils/observation_array.py | Schema, Queue, Core | |
| scheduler/utils/tsp.py, footprints.py, too_objects.py | Tsp, Footprint, FootprintNorm, Too | convex hull (a parameter) |
| site_models/*.py | Weather, Depth, Downtime, DownStatus, AlmanacSky | tables read from files, splines (parameters) |
| skybrightness_pre/sky_model_pre.py | Skybright, SkyFiles | reading contents of files; dark sky |
| utils/m5_flat_sed.py, season_utils.py, rotskypos.py, healpy_utils.py | Depth, Season, Angles, Blob | |
| utils/coordinate_transformations.py, approx_coord_transforms.py, bearing.py, projections.py, camera_footprint.py, code_utilities.py | Sphere, Inputs | astropy based versions, `rotation_matrix_from_vectors`, unit conversions |
| utils/site.py, file_maps.py | Site, SpecMap | regular expressions (a parameter) |
| data/*.py | Download, DownloadCmd, SkyDownload | network, archive format |
| utils/dayobs.py | DayObs | times before 1858 |
| utils/consdb.py, sampling_functions.py, riseset.py | query loop, nights, columns with replacements, nights and slews of visits (`Model/Consdb`); samples, first guess and refinement of rise and set times (`Model/Spots`) | the database and its SQL, astropy positions and sidereal times |
| scheduler/example/, scheduler/targetofo/ | generators of surveys (lsst_surveys.py, roman_surveys.py, parts of simple_examples.py), dates, resolutions, saved table and alerts (`Model/Generators`, `Model/Launch`) | configuration of detailers, argument parsers and running of whole surveys |
| zernike_module.py | Zernike | checks of types; rounding of floats in the factorial generator |

## Findings (where the code and the properties disagree)

Each is proved in Lean as a theorem about the model with a concrete witness.

| Property | Where | What happens |
|----------|-------|--------------|
| C15 | utils/utils.py 218 | `v1 - floor * scale` is not parenthesised, so the comparison rounds to whole numbers instead of scaled ones; values 1e-12 apart can compare as different (`C15_close_values_can_differ`) |
| C16 | utils/utils.py 212-220 | one close pair makes the whole array be compared as rounded integers (`C16_violated`) |
| C04 | queue_manager.py 123-126 | follows from C16: a visit that expired 2.4 hours ago is handed out when another queued expiry time is near now (`C04_violated`); never by more than a day (`C04_at_most_one_day`) |
| C05 | core_scheduler.py 363-371 | the `mjd` argument of `request_observation` is never used (`C05_violated`, `C05_mjd_ignored`) |
| C06 | queue_manager.py 137 | a scalar -inf from the queue manager's basis functions masks nothing (`C06_scalar_not_a_mask`) |
| C13 | core_scheduler.py 204 | an empty batch raises (`C13_empty_batch_raises`) |
| C59 | queue_manager.py 81-91 | with an empty queue, a batch of completed visits is not passed to the queue manager's basis functions and detailers (`C59_violated`) |
| C17 | sim_runner.py 104, 193-198 | `start_result_size=0`, or `append_result_size=0` when the buffer is full, raises IndexError (`C17_zero_size_raises`) |
| C18 | sim_runner.py 237-239 | the visit limit is compared after counting a visit, so `n_visit_limit=0` never stops the run (`C18_violated`) |
| C22 | model_observatory.py 265-266, 583-598 | a user-supplied downtime table is used as it is; inside overlapping downtimes the observatory may take itself to be up (`C22_overlapping_downtimes`) |
| C23 | model_observatory.py 748-750 | only the end of a visit is checked, so a downtime shorter than a visit is overlooked (`C23_violated`) |
| C25 | model_observatory.py 254, 262 | with no, one, or all-overlapping downtimes the constructor raises ValueError: `np.min` of an empty array, and `np.roll` wraps so the last merged interval removes itself (`C25_violated`) |
| C26 | unscheduled_downtime_data.py 204-251 | first-year events may fall inside regular downtimes, so the default table is not disjoint (`C26_violated`) |
| C27 | kinem_model.py 756-758 | only slews are added to the cumulative azimuth; what the mount turns while tracking is not, so the true wrap can leave the limits (`C27_violated`) |
| C29 | kinem_model.py 134, 224, 386 | a new telescope, or one whose camera is set up again, may have a current band that is not mounted (`C29_violated`) |
| C46 | scheduler/utils/utils.py 99-125 | declinations more than a turn out of range are not folded back (`C46_violated`) |
| C49 | scheduler/utils/utils.py 889-940 | with `floor=False` array-wide rounding (C16) reports a season below the cap as -1 (`C49_fractional_cap`) |
| C67 | model_observatory.py 690-699 | two equally near rotations raise; the current rotator angle is taken at the new target's parallactic angle, so the move chosen is not always the smallest (`C67_raises`, `C67_not_nearest`) |
| C68 | kinem_model.py 358, 610 | the altitude change is divided by `ol_slope` although the slope is in seconds per degree: 35 degrees take 0.04 s instead of 10 s (`C68_violated`) |
| C32 | tsp.py 248-261 | the count is compared with `niter` only after a round, by equality, so `niter=0` does not limit the number of rounds (`C32_violated`) |
| C33 | features.py 192-210 | `NObsCount(per_night=True)`: a batch adds to the count of an earlier night without clearing it (`C33_count_per_night_violated`) |
| C33 | features.py 201, 221, 347, 371, 741, 751 | several bands in one string: single visits use `in`, batches use `==` and count nothing (`C33_count_bands_violated`, `C33_per_pixel_bands_violated`, `C34_last_observed_bands_violated`) |
| C33 | features.py 335-342, 366-369 | seeing at the limit counts for single visits only; with a map of limits one good pixel makes a single visit count for all its pixels (`C33_seeing_limit_violated`, `C33_seeing_map_violated`) |
| C33 | features.py 599-608, 615 | current season: a batch uses the season at the field centre, single visits that of the pixel; a batch that covers only pixel 0 is dropped (`C33_season_border_violated`, `C33_season_pixel_zero_violated`) |
| C34 | features.py 419-423 | `LastNObsTimes`: a batch after earlier visits overwrites them, with zeros for pixels it does not cover; `n_obs=0` keeps one time for single visits (`C34_last_n_after_history_violated`, `C34_last_n_zero_violated`) |
| C34 | features.py 690, 708 | a visit exactly at the match radius counts in a batch only (`C34_matching_radius_violated`) |
| C35 | features.py 874-881 | `PairInNight`: positions among the rows of the last night index the rows of the whole batch, so visits of earlier nights are used (`C35_bulk_violated`) |
| C35 | features.py 892, 899-902 | the counter is not cleared until the first visit in the band of a new night; one gap at a limit makes the comparison of all gaps coarse (`C35_not_reset`, `C35_limit_gap_violated`) |
| C70 | features.py 349, 373 | `NObservations` looks for the visit's note in the wanted note, the reverse of what is documented (`C70_note_violated`) |
| C37 | scripted_surveys.py 374, 387 | answers are remembered by time and not forgotten when a visit completes: asked again at the same time, the survey offers the completed visit (`C37_violated`) |
| C37 | scripted_surveys.py 134-151, base_survey.py 224-242 | a visit whose note contains an ignored text is never marked as completed by a single report, only by a bulk one (`C37_ignored_violated`) |
| C37 | scripted_surveys.py 407 | when visits are withheld for twilight the time of the wrong memory is set (`last_mjd`, not `last_mjd_rough`); a detailed request at the same time then returns older visits (`C37_stale_violated`) |
| C38 | scripted_surveys.py 347-354 | with `add_index=False` the next number is read from the script being replaced and may go down, so numbers are reused (`C38_violated`) |
| C38 | scripted_surveys.py 341-346 | the index is cut off notes longer than 60 characters; `set_script` raises (`C38_long_violated`) |
| C71 | scripted_surveys.py 396 | band changes are counted with `==` instead of `!=` (`C71_violated`, `C71_withheld_violated`) |
| C72 | scripted_surveys.py 134-151, 370 | a single report does not withdraw the announced time, and extending a script announces completed visits again (`C72_violated`, `C72_extended_violated`) |
| C39 | detailer.py 605-625 | sorting by band loses visits in bands not in the given order and doubles visits of bands listed twice (`C39_lost_violated`, `C39_doubled_violated`) |
| C39, C41 | detailer.py 858, 500 | one value at the limit makes the comparison of all values coarse (C16): visits outside the altitude band, or which do not fit before twilight, are used (`C39_close_alt_violated`, `C41_violated`) |
| C57 | dither_detailer.py 520 | more calls in a night than `n_in_night` raise IndexError (`C57_raises`) |
| C57 | dither_detailer.py 600-613 | only the upper limit is enforced; with a large `per_visit_rot` the angle is below the lower one (`C57_small_violated`) |
| C73 | detailer.py 975-990 | the accumulated time is divided by the number of repeats instead of multiplied, so far too many visits are kept (`C73_violated`) |
| C74 | detailer.py 890 | `observation_array[indx]["flush_by_mjd"] = ...` assigns to a copy: FlushForSchedDetailer does nothing (`C74_violated`) |
| C76 | detailer.py 188-192 | the replacement band is not checked to be mounted (`C76_violated`) |
| C77 | detailer.py 335-339 | the number is cut off notes of 60 characters (`C77_violated`) |
| C78 | dither_detailer.py 418-431 | a single visit returned for several is repeated; completed visits are not passed on, so dithers which depend on the number of visits in the night do not advance (`C78_repeated_violated`, `C78_history_violated`) |
| C79 | vary_exptime.py 125-129 | times are rounded after clipping, so limits which are not whole seconds are broken (`C79_violated`) |
| C42 | filter_scheduler.py 86-108 | ComCamBandSched accepts boundaries that do not reach full moon; above the last one it raises IndexError (`C42_violated`) |
| C44 | cloud_data.py 80-95 | at or before the first sample, index -1 is taken for the left neighbour, so the value of the last sample of the table is returned (`C44_first_violated`) |
| C44 | cloud_data.py 76, 131 | the first sample's time is not added to the time in the table (the seeing data do); tables starting before zero raise (`C44_end_violated`) |
| C45 | cloud_maps.py 66-68 | two lists are compared as a whole, so disorder after the first unequal pair is not noticed (`C45_late_violated`); when it is noticed, indexing a list by an array raises, now and on each later addition, and the store is no longer trimmed (`C45_growth_violated`) |
| C45 | cloud_maps.py 98 | a look-up before any map was added raises (`C45_empty_violated`) |
| C81 | detailer.py 195-314 | visits in bands not configured are lost; no visit above the limit raises (`C81_violated`, `C81_raises`) |
| C82 | filter_scheduler.py 127-135 | the swap is counted only if the choice differs from the mounted set; after a restart the choice stays the same all dark time (`C82_violated`) |
| C83 | filter_scheduler.py 196, 214-223 | IndexError before the first swap and ValueError for an empty schedule (`C83_violated`, `C83_empty_violated`) |
| C84 | core_scheduler.py 254-265 | an alert is noted as seen before it is tested for visibility, so one that rises later never interrupts the queue (`C84_late_violated`) |
| C84 | too_objects.py 93 | `np.max` of no pixels raises (`C84_raises`) |
| C85 | too_scripted_surveys.py 349 | the default type `None` raises TypeError (`C85_untyped_violated`) |
| C85 | too_scripted_surveys.py 377, 388-392 | no centre and a footprint outside the survey's, or `update_mjd0` with an alert not yet started, raise (`C85_outside_violated`, `C85_early_violated`) |
| C86 | almanac.py 124 | before the first sunset index -1 gives the last night of the almanac (`C86_before_violated`) |
| C86 | almanac.py 160-161 | the time stamp of the date is taken in the computer's time zone; east of Greenwich the night before is found (`C86_zone_violated`) |
| C54 | footprints.py 376-391 | rises given as whole numbers lose the growth within a season: `result` is an integer array (`C54_whole_violated`) |
| C54 | footprints.py 139, 382 | with `n_constant_start=0` the first rise has no effect, so one slice stays behind (`C54_no_start_violated`) |
| C81 | detailer.py 195-198, 286-295 | documented to divide into bins of hour angle, but chunks hold equal numbers of visits (`C81_bins_violated`) |
| C89 | footprints.py 465-476 | a second request for the same time with other `norm`, after new maps or after an exception gets a stale answer (`C89_norm_violated`, `C89_set_violated`, `C89_raise_violated`) |
| C90 | footprints.py 200, 207, 247-253 | both halves of the sky include their edges: pixels there count twice (`C90_edge_violated`) |
| C90 | footprints.py 296 | a slice without pixels raises, as the intersection with an empty list holds floating-point numbers (`C90_small_violated`) |
| C91 | footprints.py 679, 691 | a band never loaded raises; bands always loaded are wanted beyond one after the survey (`C91_never_violated`, `C91_end_violated`) |
| C55 | feasibility_funcs.py 52-53, 67 | documented feasible before the maximum night; the maximum night itself is feasible (`C55_last_night_violated`) |
| C55 | feasibility_funcs.py 90-94 | an empty list of bands raises, the result being unbound (`C55_no_bands_violated`) |
| C55 | feasibility_funcs.py 305-308 | an empty pattern of nights raises (`C55_empty_pattern_violated`) |
| C55 | feasibility_funcs.py 164-171 | `nside` is not passed on: with another than the default, a pixel number of one resolution is looked up in a map of the other (`C55_airmass_violated`) |
| C55 | feasibility_funcs.py 206-209, 245-252 | documented as high sun and close to twilight; either is enough (`C55_close_violated`) |
| C55 | feasibility_funcs.py 348-349, 362-363 | "right after evening twilight" holds before its end, "before twilight" holds after it (`C55_after_evening_violated`, `C55_end_of_night_violated`) |
| C55 | feasibility_funcs.py 409 | the next scheduled visit is taken as the earliest, past ones included (`C55_scheduled_violated`) |
| C55 | feasibility_funcs.py 268-272, features.py 150-155 | once in a night: a new night without visits is blocked by the visits of the night before (`C55_once_violated`) |
| C55 | feasibility_funcs.py 497, 651 | division by zero before the first visit of the survey (`C55_soft_delay_violated`, `C55_ahead_start_violated`) |
| C55 | feasibility_funcs.py 529-531 | hour-angle windows over zero lose a part (`C55_hour_angle_violated`) |
| C55 | feasibility_funcs.py 656, 664, 671 | look-ahead: a jump in days is compared with hours, with a date, and in the wrong sense (`C55_jump_unit_violated`, `C55_moonset_violated`, `C55_moonrise_violated`) |
| C58 | basis_functions.py 1230-1239 | a range of azimuth over north, as in the default, hides the whole sky (`C58_azimuth_violated`) |
| C58 | mask_basis_funcs.py 290-295 | a range of hour angle over zero hides the whole sky (`C58_hour_angle_violated`) |
| C58 | feasibility_funcs.py 736-742 | the hour angle is not brought to -12..12 hours (`C58_rising_violated`) |
| C58 | mask_basis_funcs.py 134-159 | `MaskAllButNES` returns a map of zeros: nothing is hidden (not modelled) |
| C92 | mask_basis_funcs.py 181-186, features.py `NObsNight` | pixels of the night before stay hidden on a new night until its first visit (`C92_night_violated`) |
| C92 | mask_basis_funcs.py 303-327, basis_functions.py 119-132 | masks in the list of an area check are never told of visits (`C92_member_violated`) |
| C93 | mask_basis_funcs.py 600, feasibility_funcs.py 689 | clouds equal to the limit: hidden by the mask (documented "greater than"), accepted by the feasibility function (`C93_cloud_violated`) |
| C56 | surveys.py 389-402 | the time of the band change is not taken off when a block of pairs is stretched to fill the time left (`C56_violated_change`) |
| C56 | surveys.py 358-362 | a scheduled visit that rounds to as many blocks as twilight is ignored even when it comes first (`C56_violated_tie`) |
| C56 | surveys.py 366-374 | `in_twilight` overwrites the time left to a nearer scheduled visit (`C56_violated_twilight`) |
| C51 | base_survey.py 621-644 | a Markov survey without basis functions raises (`result` is never set); modelled as an error |
| C94 | base_survey.py 636-640 | a greedy survey with `area_required` raises AttributeError: position of the maximum, pixel area and radius are only set by blob surveys (`C94_greedy_violated`) |
| C94 | surveys.py 582-585, 604 | pairs compare an area in square degrees with the requirement in steradians, about 3283 times too weak (`C94_pairs_violated`) |
| C96 | field_survey.py 237-241 | minus infinity at the field can turn into plus infinity, the largest reward (`C96_minus_infinity_violated`) |
| C99 | surveys.py 478, 490 | the reward is computed again before the second pass, so pixels far from the maximum are no longer masked and the second pass may lie elsewhere on the sky (`C99_radius_violated`) |
| C99 | surveys.py 482-486 | a third pass uses the second band although the warning names the first (`C99_third_band`) |
| C100 | field_survey.py 191 | `/= 3600.0 / 24.0` divides by 150 instead of 86400: the visits of a field survey stay queued 576 times the estimated duration, days instead of minutes (`C100_field_flush_violated`) |
| C100 | dd_surveys.py 105-106 | the order of bands of a deep drilling sequence is lost, it is sorted by band name (`C100_ddf_order_violated`); numbers and bands of different length are cut silently (`C100_ddf_length_violated`) |
| C100 | field_survey.py 352-356 | `FieldAltAzSurvey` builds a `ValueError` when the detailer is missing but does not raise it (not modelled) |
| C101 | pointings_survey.py 205, 218 | visits added singly count for a sequence only if their note equals its name, in arrays if it contains it (`C101_tracking_violated`) |
| C101 | pointings_survey.py 159, 179 | rewards are kept as long as the time is the same, also after visits: the same target can be chosen within the minimum gap (`C101_stale`, `C101_gap_violated`) |
| C101 | pointings_survey.py 111-112, 221-231 | hour angle limits on one side of the meridian mask nothing (`C101_hour_angle_violated`) |
| C101 | pointings_survey.py 271-279 | `balance_revisit` is 1 except 2 for a target that has all visits, so it prefers what was visited (`C101_balance_values`, `C101_balance_violated`) |
| C51, C101 | pointings_survey.py 142-180 | the sun altitude limit is only in `_check_feasibility`, which nothing calls: by day the survey has an ordinary reward (`C51_pointings_violated`) |
| C102 | long_gap_survey.py 174-195 | to avoid the zenith visits are moved later without regard to the longest gap or the end of the night, and the search never ends for a target that stays above the limit (`C102_gap_violated`, `C102_endless`) |
| C102 | long_gap_survey.py 155-161 | altitudes are sampled until the scheduled time, though visits may be taken until the tolerance is over (`C102_zenith_violated`) |
| C102 | long_gap_survey.py 127, 232-235 | the gap shortened for the end of the night is overwritten before it is used (`C102_short_gap_ignored`, `C102_short_gap_violated`) |
| C102 | long_gap_survey.py 74, 228-230 | after a restart the first reward clears the script restored from the visits so far (`C102_restart_violated`) |
| C102 | long_gap_survey.py 79-80 | `site` is only stored when it is not given; with one given and `avoid_zenith` the survey raises (read, not modelled) |
| C52 | summit_wrapper.py 63-71 | pending ids are searched by bisection although masks can make them come out of order: confirming one visit can drop another that was not confirmed, which is then handed out twice (`C52_mask_violated`) |
| C52 | summit_wrapper.py 51-53, core_scheduler.py 440 | ids assigned by the look-ahead scheduler are not reserved in the inner one: after a flush they are used again (`C52_flush_violated`) |
| C52 | summit_wrapper.py 144-153 | a queue filled because the old one expired is not told to the inner scheduler and lost at the next confirmation (`C52_refill_violated`) |
| C52 | summit_wrapper.py 150, 155 | when nothing is available the wrapper raises on `None.copy()` instead of returning `None` (`C52_nothing_raises`) |
| C52 | summit_wrapper.py 149-153 | the visit handed out is put twice in the queue of the inner scheduler (`C52_queue_doubled_violated`) |
| C50 | model_observatory.py 402, 481 | the simulator reads the airmass before it sets the altitude limits of the telescope, so the airmass and depth given to the schedulers ignore these limits (`C50_simulator_airmass`) |
| C50 | conditions.py 411-426 | reading the airmass before altitude or azimuth raises (`C50_airmass_violated`) |
| C50 | conditions.py 535-546 | reading the depth before the airmass raises, and the next read silently gives maps of NaN (`C50_depth_violated`) |
| C50 | conditions.py 551-582 | wind pressure and angles to the sun stay those of the first read when the wind or the sun are set again (`C50_wind_violated`, `C50_sun_violated`) |
| C50 | conditions.py 586-730 | shadow masks are cached by time and arguments, not by the limits, and survive a change of time (`C50_shadow_violated`) |
| C50 | conditions.py 947-954 | `set_attrs` loses the attributes given before `mjd` (`C50_set_attrs`) |
| C50 | model_observatory.py 397-406, healpy_utils.py 466-470 | conditions share the seeing arrays of the simulator, which are refilled in place: conditions kept from an earlier call change (`C50_seeing_shared`) |
| C50 | conditions.py 566-570 | `az_to_sun` is documented as an azimuth but is a difference of right ascensions |
| C53 | scheduler_download_data.py 182-199, 332-334 | `--force` removes and unpacks a directory that stays recorded as current; stopped there, `--update` never repairs it (`C53_force_violated`); likewise when a recorded directory is missing (`C53_missing_violated`) and when a stopped upgrade is followed by a downgrade (`C53_downgrade_violated`) |
| C53 | scheduler_download_data.py 332-334, data_sets.py 41-43 | the version file is rewritten in place: stopped there, a line without a comma makes every later run raise (`C53_torn_violated`) |
| C53 | scheduler_download_data.py 189-192 | without `--update` a half-unpacked directory is taken as it is (`C53_default_skips`) |
| C53 | scheduler_download_data.py 251-269 | the status 206 is not checked: a server that ignores the range yields a wrong archive; the run raises when unpacking and the next starts afresh (`C53_range_ignored`) |
| C48 | utils.py 557-559, 611-618 | `note` is dropped on writing and on reading is left as uninitialised memory, like every non-angle column missing in a file (`C48_note_violated`, `C48_old_files`); an array without `note` cannot be written (`C48_no_note_raises`) |
| C48 | utils.py 594-596 | a file with both `target` and `target_name` cannot be read (`C48_old_files`) |
| C104 | basis_functions.py 674-675 | one pixel exactly at the gap makes the whole comparison coarse: pixels visited seconds ago are not avoided (`C104_rounding_violated`) |
| C104 | basis_functions.py 1344-1355, 166-167 | `penalty_val` of `VisitGap` is never used: when the gap is not over the call returns -inf (`C104_penalty_violated`) |
| C105 | basis_functions.py 765-768 | one pixel exactly at an end of the gap makes pixels visited seconds ago be rewarded (`C105_rounding_violated`) |
| C106 | basis_functions.py 1044-1053 | `IntRounded` of nan raises, so `CadenceEnhanceBasisFunction` raises until every pixel of its area was visited (`C106_unvisited_violated`) |
| C106 | basis_functions.py 1025, 1128 | the feature is made with the default nside whatever the nside of the function (read, not modelled) |
| C106 | basis_functions.py 1125, 1151, 536 | `CadenceEnhanceTrapezoidBasisFunction` raises for its default `season_limit`, and with a limit, like `CadenceInSeasonBasisFunction`, whenever it is called: `conditions.sunRA` does not exist (read, not modelled) |
| C107 | basis_functions.py 884, features.py 269-272 | after a visit reported by itself the feature is an array, and `in` asks for an equal note, so that the change after a deep-drilling visit `DD:...` is not free (`C107_note_violated`) |
| C109 | basis_functions.py 336, 358 | the default `footprint=None` of `NObsPerYearBasisFunction` raises (read, not modelled) |
| C110 | rolling_funcs.py 63-72, 87 | the default footprint is built but not used: `footprint=None` raises (read, not modelled) |
| C111 | basis_functions.py 1473 | no survey of a group gets a boost until the whole reference number of visits was taken, against the description (`C111_boost_violated`) |
| C113 | conditions.py 584-730 | the loop over `sky_az_limits` overwrites the survey's azimuth limits: with two open ranges pixels inside the first are masked, with one range the survey's own limits are not looked at in the future (`C113_two_ranges_violated`, `C113_leak_violated`) |
| C113 | conditions.py 584-730 | a pixel exactly at a limit makes the comparison coarse for the whole sky (`C113_rounding_violated`); the last gap between times looked at can be nearly two steps (`C113_step_violated`); padding raises when nothing is masked (`C113_nothing_masked_violated`); the `lru_cache` key lacks the limits, so a mask of old limits is returned (`C113_stale_violated`) |
| C114 | utils.py 270-346 | the next id is looked up at `good_obs + 1`, which raises for tables not sorted by id; so does a stop before the first visit (`C114_order_violated`); without a band scheduler the bands mounted lack `z` (`C114_bands_violated`) |
| C115 | sky_model_pre.py `_load_data` | the stretch loaded drops its last map but claims its time, so half way to it the map before is returned (`C115_end_of_load_violated`, `C115_last_map_violated`) |
| C115 | sky_model_pre.py `return_mags` | UNSEEN and infinite values are averaged like brightness (`C115_masked_violated`); `extrapolate` looks up `indx[i]` instead of `indx[mi]` (`C115_extrapolate_violated`) and asks for the whole sky with the default bad value (`C115_bad_value_violated`) |
| C119 | coordinate_transformations.py 151-157 | east of Greenwich the local sidereal time is not reduced and can be 24 hours or more (`C119_east_violated`) |
| C123 | bearing.py `point_to_line_distance` | for a point more than 90 degrees from the first end and behind it, the distance to the first end is answered although the second end is nearer (`C123_far_violated`) |
| C124, C125 | projections.py, camera_footprint.py | no check for the far side of the sky: the opposite of every position seen is seen too (`C124_opposite_violated`, `C125_opposite_violated`) |
| C126, C127 | dither_detailer.py 109, 319 | with an offset per visit, the count of visits is reset by the first report of a night only, so a call before it takes offsets from where the night before stopped; after a long night there are not enough and the call raises (`C126_new_night_violated`, `C127_new_night_violated`) |
| C126, C127 | dither_detailer.py 123-126, 380-391 | right ascensions are not brought back to one turn (read) |
| C128 | dither_detailer.py 201 | an empty list of visits raises in `np.concatenate` (`C128_empty_violated`) |
| C130 | lsst_ddf_presched.py 193-200 | a rise is compared with positions in the list of free cells, not with the cells, so once an earlier cell is masked or used, the cell after an allowed and free cell is used (`C130_near_violated`) |
| C130 | lsst_ddf_presched.py 185-186 | a rise of more than one is one event, and a count in the first cell is none (`C130_lost_violated`) |
| C131 | lsst_ddf_presched.py 99-149 | the number wanted is 0 in a season without a rate, also when it is the last (`C131_rising_violated`); a single night with a rate divides 0 by 0 (`C131_one_night_violated`); one season alone always gets the whole number, however short (`C131_alone`) |
| C132 | lsst_ddf_presched.py 402-413 | nights of low rate are set after those out of season, so a low rate makes sequences out of season (`C132_offseason_violated`) |
| C132 | lsst_ddf_presched.py 428-445 | the mask of nights does not know the season, so a masked night pushes a sequence out of season (`C132_pushed_violated`); the first sequence is lost when every usable night is needed (`C132_lost_violated`) |
| C133 | lsst_ddf_presched.py 669-690 | `moon_min_distance` is not set for the first field of the Euclid pair (`C133_moon_violated`) |
| C133 | lsst_ddf_presched.py 669, 692 | an odd number of visits of the pair becomes one more (`C133_odd_violated`), which the length of the sequence does not count |
| C133 | lsst_ddf_presched.py 618-643 | early and late sequences have a low part of 0.4 at rate 1 and so ignore the length of the season (`C133_early_violated`) |
| C133 | lsst_ddf_presched.py 741 | no time for any row raises in `np.concatenate` (`C133_empty_violated`) |
| C133 | lsst_ddf_presched.py 679 | without a science program the column holds the string "None" (modelled) |
| C135 | htm_module.py 640-666 | `find_htmid` at level 1 for a single position looks at children, never meets the level and recurses without end (`C135_level_one_violated`) |
| C135 | htm_module.py 696-713, 763-776 | for positions on the planes between octants the last octant counts for arrays of more than 100 positions and the first for others, so the numbers differ (`C135_fast_violated`) |
| C136 | htm_module.py 1064-1075 | a region of more than a half of the sphere that leaves out a circle within a trixel is said to have all of the trixel (`C136_full_violated`) |
| C136 | htm_module.py 400, 1048 | the cosine of the radius of the bounding circle is passed as its radius; for the eight largest trixels it is too small, and a trixel that meets the region is said to be outside (`C136_base_violated`); harmless below, where the cosine is greater than the radius |
| C136 | htm_module.py 1262-1275 | `find_all_trixels(1)` returns numbers of level 2 (`C136_level_one_violated`) |
| C137 | htm_module.py 1145-1148 | joining with an empty set of ranges raises an IndexError (`C137_empty_violated`), also when a result of joining is joined again |
| C138 | htm_module.py 1356 | no point is returned for planes close to parallel that meet (`C138_parallel_violated`) |
| C138 | htm_module.py 1382-1384 | one point is returned as an array of three numbers, two points as an array of two rows (read, not modelled) |
| C139 | sky_area.py 408-409 | `add_magellanic_clouds` takes the smallest and largest right ascension and declination of the pixels in the clouds, so a map too coarse to have one, or radii of zero, raises a ValueError (`C139_coarse_violated`) |
| C140 | sky_area.py 122-123, 667-677 | maps without any weight give `nan` for the shares and numbers of visits, with a warning (`C140_none_violated`) |
| C141 | sky_area.py 77-80, 96-104 | the coordinates returned are in degrees, the documentation says radians (read) |
| C142 | utils.py 717-720 | an array of one position gives one list of pixels, not a list with one list (`C142_single_violated`) |
| C142 | healpy_utils.py 448 | growing an empty mask raises a ValueError (`C142_empty_violated`) |
| C144 | healpy_utils.py 277-303 | a pixel larger than those of the map fills only the one at its centre, all others have the filling value (`C144_coarse_violated`) |
| C144 | healpy_utils.py 277-303 | in floats the logarithm of the numbers of the last pixels of order 23 and above rounds up to the next order (read) |
| C145 | generate_altitudes.py 28-30 | the greatest index is compared with the number of passages, not the number of samples, so the last passage is always left out (`C145_last_violated`) |
| C145 | generate_altitudes.py 22, 25 | a sample exactly at the altitude hides a passage (`C145_last_violated`) |
| C146 | generate_altitudes.py 102, 110-145 | a night without a rise or set of the moon has the time zero, and of two events in a night the first is lost (`C146_none_violated`) |
| C146 | generate_altitudes.py 113 | events after the first of all sunsets are not written (`C146_none_violated`) |
| C147 | base_survey.py 684-689, 755 | on the night with the number of prepared turns (7305 by default) and later an IndexError is raised (`C147_end_violated`) |
| C147 | base_survey.py 593, 754 | night -1 uses the last turn, or none when it is the first night asked for (`C147_end_violated`) |
| C147 | too_scripted_surveys.py 276-303 | after as many new alerts as there are turns an IndexError is raised (`C147_end_violated`) |
| C147 | base_survey.py 575-576, too_scripted_surveys.py 200-201 | for an unknown camera a ValueError is made but not raised, the next use of the fields raises an AttributeError (read) |
| C147 | base_survey.py 612-619 | `dither="call"` prepares a square table of turns, 7305 by 7305 by default (read) |
| C148 | core_scheduler.py 752-770 | a survey named "wide 1" and two named "wide" give the label "wide 1" twice (`C148_same_violated`) |
| C148 | core_scheduler.py 743 | a survey that is not in a list raises a TypeError, `append()` without an argument (`C148_same_violated`) |
| C148 | base_survey.py 488 | a basis function used twice has the label of its last use both times (`C148_twice_violated`) |
| C149 | core_scheduler.py 403-411, 706 | when no survey has basis functions, `pd.concat` of nothing raises, and filling the queue with `keep_rewards` too (`C149_empty_violated`) |
| C150 | core_scheduler.py 180, 233; utils.py 763-785 | visits given in an array are placed without the rotation of the camera; with ComCam an array of other than three visits raises in the tree query (read) |
| C150 | base_survey.py 206-207 | the arrays of the caller are sorted in place (read) |
| C147 | base_survey.py 595-603 | `dither=False` is turned into a turn per night, with a warning (read) |
| C151 | detailer.py 1107, 1170; observation_array.py 149 | joined labels longer than the 60 characters of the column are cut (`C151_long_violated`) |
| C151 | detailer.py 1165-1170 | with `append=False` a visit near two deep fields keeps the name of the last one only (read) |
| C151 | detailer.py 1142-1148 | a table of deep fields of one's own is ignored and the loop over the function of that name raises `TypeError` (modelled by `ddfTable`) |
| C152 | detailer.py 683-689, 710-716 | right ascension and declination in radians are given to `pseudo_parallactic_angle`, which takes degrees, so the angle is that of another place (`C152_zero_violated`) |
| C152 | detailer.py 709, 721 | the parallactic angle is converted to radians twice, so the quarter turn nearest to zero is not the one chosen (`C152_quarter_violated`) |
| C153 | detailer.py 767-768 | `ang_distance_match` is ignored, the feature always uses 3.5 degrees (`C153_radius_violated`) |
| C153 | detailer.py 786 | without `science_program` the sequence gets the program "None" (`C153_radius_violated`) |
| C153 | detailer.py 800-805 | two `ValueError`s are made and not raised; the check before them follows the overwriting of what it checks (read) |
| C154 | detailer.py 1042-1044 | the mark is cut off where the note leaves no room (`C154_tag_violated`) |
| C155 | vary_exptime.py 117-120 | a missing neighbour is numbered -1, which reads the last pixel of the map (`C155_corner_violated`) |
| C155 | vary_exptime.py 105, 117 | the pixel is numbered at the resolution of the detailer, its neighbours and the map at that of the conditions (read) |
| - | short_survey.py 66 | `ShortExptDetailer` needs a feature that does not exist, so making one raises (read) |
| C156 | conditions.py 535-546 | with `exptime` above 30 seconds the depth is compared with that of 30 seconds and the reward can be above zero (read) |
| C157 | basis_functions.py 1409-1432 | `wind_speed_maximum`, documented to mark regions unobservable, is never used; the lee side is penalised like the side into the wind (`C157_unmasked_violated`) |
| C159 | vary_exptime.py 35-36 | south of the site the zenith distance is used for the altitude (`C159_south_violated`) |
| C160 | consdb.py 116-123 | an answer such as 204, neither a success nor an error, is asked for again without end (`C160_endless_violated`) |
| C161 | consdb.py 353, 377 | columns come from `visit{num_exposures}`, rows always from `visit1` (read; all classes have one exposure) |
| C162 | consdb.py 1162 | the mean of azimuths to both sides of the north points to the south (`C162_north_violated`) |
| C162 | consdb.py 1145 | numbers made up as `day_obs * 10000 + seq_num` repeat from ten thousand visits a night on (`C162_ids_violated`) |
| C162 | consdb.py 1351-1352 | for LATISS the presence of one column decides on the use of another, `eff_time_m5` (read) |
| C164 | consdb.py 795-796 | with visits from before the survey, the number of a night depends on the other visits asked for (`C164_early_violated`) |
| C165 | consdb.py 375-391, 685-697 | slews are taken between rows as returned, and the query has no `ORDER BY` (`C165_order_violated`) |
| C166 | sampling_functions.py 62-63 | right ascensions below zero are moved up by a turn, those above a turn are not moved down (`C166_turn_violated`) |
| C167 | riseset.py 31-32, 73 | the documented values 'evening' and 'morning' of `which_direction` both mean rising; 'down' is the only value for setting (`C167_evening_violated`) |
| C167 | riseset.py 117-124 | the test for unfinished times is the wrong way round: no warning when none is finished (`C167_warning_violated`); with `max_iter=0` the name `finished` is not defined (read) |
| C168 | coordinate_transformations.py 433-434 | two equal or opposite directions give a matrix of nan (`C168_parallel_violated`) |
| C169 | lsst_surveys.py 1418 | `shadow_minutes not in` lacks its quotes: the caller's longer shadow for short pairs is always replaced (`C169_short_violated`) |
| C169 | lsst_surveys.py 952-957, 1003 | single visits prepare the caller's safety settings and then use the defaults (`C169_greedy_violated`) |
| C169, C170 | lsst_surveys.py 1150-1151 | settings without a resolution get masks on the default one (`C169_grid_violated`) |
| C170 | lsst_surveys.py 39 | surveys of pairs themselves have the default resolution whatever is asked for (`C170_survey_violated`) |
| C171 | lsst_surveys.py 1156-1157 | pairs ignore `max_alt` unless the dictionary has one (`C171_pairs_violated`) |
| C172 | simple_examples.py 479-481 | rewards are kept if their weight is above zero, which drops the penalty for repeats of -20 (`C172_repeat_violated`) |
| C172 | lsst_surveys.py `standard_bf` | the arguments on seasons are not used (read) |
| C173 | lsst_surveys.py 716-717 | the reason is set from the first pair of bands and kept for the others (`C173_long_violated`) |
| C173 | lsst_surveys.py 1172 | the constant `U_NEXP` is used in place of the argument `u_nexp` (`C173_u_violated`) |
| C174 | simple_examples.py 429 | masks are appended to the list of the caller (`C174_list_violated`) |
| C176 | example_scheduler.py 92, 200 | the date asked for is stored and never read (`C176_date_violated`) |
| C176 | example_scheduler.py 279-282, 316 | `--mjd_plus` moves the scheduler but not the templates and deep drilling visits (`C176_shift_violated`) |
| C176 | example_scheduler.py 295-313 | Roman and pair surveys have resolution 32 whatever is asked for (`C176_grid_violated`) |
| C178 | lsst_ddf_gen.py 359 | the checksum is over two files; a change elsewhere gives the old table (`C178_stale_violated`) |
| C179 | simple_examples.py 153-157 | before the first sunset the index -1 gives the last one (`C179_first_violated`); a twilight altitude given as a float cannot be formatted with `:0d` (read) |
| C180 | gen_events.py 377-379 | mergers are made without the period of the caller (`C180_period_violated`) |
| C181 | gen_events.py 382-383 | the number of neutrino alerts is computed for the period and not passed on (`C181_neutrino_violated`) |
| C185 | sim_runner.py 162-169, core_scheduler.py 371 | conditions are not renewed while some visit in the queue is still good at the present time, but the visit is then chosen by the time of the old conditions: simulations with default arguments make visits after their expiry time (`C185_stale_violated`) |
| C188 | zernike_module.py 213-215 | for a negative angular order `sin(m * phi)` has the sign opposite to the definition cited (`C188_sign_violated`) |
| C188 | zernike_module.py 131, 162 | on the rim a number has a value and an array has nan (`C188_array_violated`) |
| C188 | zernike_module.py 184-187 | polynomials that vanish are 0 outside the disc, where nan is promised (`C188_outside_violated`) |
| C189 | zernike_module.py 226-231 | polynomials that vanish have a norm (`C189_norm_violated`) |
| C173 | lsst_surveys.py 1633-1634 | surveys near the sun in all bands have one name and reason (`C173_near_sun_violated`) |
| C193 | downtime_model.py 78 | once the last scheduled downtime has started the call raises IndexError (`C193_last_violated`) |
| C193 | downtime_model.py 89-102 | another downtime may cover the end of downtime that is said (`C193_end_violated`) |
| C195 | comcam_tessellate.py 32-33, 44-47 | n fields make n-1 steps, so that without overlap some parallels are covered by no field (`C195_gap_violated`) |
| C195 | comcam_tessellate.py 44 | the first and the last field of a stripe are the same (`C195_twice_violated`) |
| C196 | field_survey.py 191 with 352-356, detailer.py 512-523 | visits given as altitude and azimuth are turned into sky positions when handed out and stay queued for days: made later they point elsewhere (`C196_later_violated`) |
| C196 | field_survey.py 352-356 | the ValueError for a missing detailer is made but not raised, the visits have no position (`C196_detailer_violated`) |
| C197 | sky_model_pre.py 476, 228-230 | files are ordered as text and the last one is taken to be the latest: false where the number of digits changes (`C197_digits_violated`) |
| C197 | sky_model_pre.py 484-487 | any other .h5 file in the directory makes the set-up raise (`C197_other_violated`) |
| C198 | feasibility_funcs.py 268-272 | pairs of the night before hold the surveys up until the first visit of the new night (`C198_next_night_violated`) |
| C199 | utils.py 792-795 | the corners are turned by the sky angle in axes whose first runs east, the other way than the footprint of the large camera: right only for multiples of 45 degrees (`C199_turned_violated`) |
| C199 | utils.py 789-790 | for a field of view without a pixel to check a ValueError is made and not raised |
| C109, C112 | basis_functions.py 632, 706-710 with utils.py 188-220 | one pixel at the limit makes the comparison of the whole map coarse: others lose their reward (`C109_rounding_violated`, `C112_rounding_violated`) |
| C202 | rs_download_sky.py 86-91 | a file cut off while being written, or an error page the server sent, is kept by all later runs without force (`C202_cut_violated`, `C202_error_page_violated`) |
| C202 | rs_download_sky.py 40-47, 85 | a link without attributes or a page without tags raises; `href` must be the first attribute (`C202_index_violated`) |
| C203 | pointings_survey.py 163-170, 226, 236, 254, 360-363 | the table uses altitudes and hour angles remembered from the last reward: it raises before the first, is stale later (`C203_before_violated`, `C203_later_violated`), and after a visit at the same time the reward is stale instead (`C203_visit_violated`) |
| C204 | footprints.py 466, 517-541, 569-571 | a constant footprint has no `mjd_current`, so that a combination with it raises (`C204_combined_violated`) |
| C205 | conditions.py 264-353, 793-797, 940-945 | attributes not known in advance survive later calls, and the keywords themselves become an attribute `kwargs` (`C205_extra_violated`); `current_filter=None` raises (`C205_no_filter_violated`) |
| C207 | core_scheduler.py 162-207 | the table of a simulation without visits raises (`C207_empty_violated`) |
| C169 | simple_examples.py 421-429, 171-236 | the shadow of simple pairs is half an hour, also when the two visits of the block are an hour (`C169_simple_violated`) |
| C209 | filter_scheduler.py 111-135, sim_runner.py 119-122 | a simulation carried on within a night with `BandSchedUzy` first mounts the other bands, so that the visits differ from those of one run (`C209_bands_violated`) |
| C209 | sim_runner.py 175-185 | the end is looked at only after a pass, so a run that is carried on from its very end makes one more request (`C209_end_violated`) |
| C209 | sim_runner.py 111 | the time of the last flush is forgotten between runs: a visit turned down twice ends one run but not two (`C209_reject_violated`) |
| C210 | sim_runner.py 289-303 | `record_rewards=True` with a scheduler made without `keep_rewards=True` (its default) runs the whole simulation and then raises in `pd.concat` of nothing but None: the visits are lost (`C210_unkept_violated`) |
| C210 | sim_runner.py 304-308 | without completed visits the tables are not returned although they were made (`C210_novisits_violated`) |
| C210 | core_scheduler.py 376-381, sim_runner.py 170-173 | when the queue manager turns down all of a fresh queue it is filled again in the same request; only the last table is kept (`C210_twice_violated`) |
| C133 | lsst_ddf_presched.py 604-608, 347-353 | rows of the table marked "even" have even nights masked and so are planned in odd nights, those marked "odd" in even nights (`C133_parity`) |
| C211 | scripted_surveys.py 134-151, base_survey.py 224-242 | a scripted visit whose note contains a word of `ignore_obs` is never marked as observed; in a simulation it is made again and again until it expires, and surveys of lower tiers get nothing (`C211_ignored_violated`) |
| C212 | surveys.py 88-97, 492-508 | a field is visited for any unmasked pixel of it, so the centre of the field may be in a masked pixel, nearer to the moon than the limit (`C212_field_violated`); visits of a block are made in turn without another look at the masks (`C212_later_violated`) |
| C213 | sim_runner.py 193-198, 237-239 | `append_result_size=0` or `start_result_size=0` ends a simulation with IndexError (`C213_size_violated`); `n_visit_limit=0` makes more visits than a limit of one (`C213_limit_violated`) |
| C214 | summit_wrapper.py 126-153 | Visits are generated by a copy of the scheduler that is thrown away at the next confirmation. What a survey remembers of being asked (e.g. the turn of the tessellation with `dither="call"`, the state of a random generator) is lost with it: every block starts from the same state (`C214_memory_violated`) |
| C215 | short_survey.py 66; plan_night_survey.py 55, 57 | `features.N_observations`, `features.Last_observed` and `bfs.Moon_avoidance_basis_function` do not exist: neither `ShortExptDetailer` nor `PlanAheadSurvey` can be constructed (`C215_construct_violated`) |
| C215 | short_survey.py 82-85, 104-105 | `time_scale` does not scale the goal with time, and the short copies keep the expiry time of the long visit (`C215_scale_violated`, `C215_flush_violated`) |
| C216 | vary_exptime.py 35-36 | `alts[alts > 90] -= 90` should be `180 - alts` (see C159): pixels beyond the zenith get a wrong culmination altitude and are averaged in a wrong bin (`C216_south_violated`, `C216_left_out_violated`) |
| C217 | consdb.py 1351-1352 | LATISS checks the column `eff_time` and then reads the column `eff_time_m5`: with only the former the table of visits is a KeyError (`C217_latiss_violated`) |
| C218 | too_scripted_surveys.py 104, 137-140; base_survey.py 224-242 | a survey whose `ignore_obs` matches its own notes makes the visits for an alert again and again (`C218_ignored_violated`) |
| C220 | sim_runner.py 157-169; queue_manager.py 114-152 | feasibility is checked when a block of visits is chosen and not again when they are made: a survey that keeps out of twilight makes the rest of its block in morning twilight (`C220_later_violated`) |
| C29 | kinem_model.py 135-140 | `self.location` is set only when no location is given, so `KinemModel(location=...)` raises `AttributeError` (read, not modelled) |
| C222 | core_scheduler.py 363-390; queue_manager.py 114-152 | when all visits of the chosen survey are masked in the queue, the queue is flushed and filled once more from the same survey, and the request gives nothing: surveys of later tiers are not tried and the simulation waits (`C222_masked`) |
| C223 | core_scheduler.py 74, 271; model_observatory.py 156, 511; example_scheduler.py 134 | the scheduler and the observatory have each a start of the survey of their own, from which they count nights, and nothing compares them: with different ones the surveys for even nights fill nights with odd numbers (`C223_two_starts`), and features compare numbers of the observatory while basis functions and detailers use those of the scheduler. The default of `run_sched` for the observatory is 60796.0, which is neither the default of the scheduler nor, as documented for it, during the day at Cerro Pachon (0h UT) |
| C223 | feasibility_funcs.py 50-69 | `OnlyBeforeNightBasisFunction` is documented as feasible if the night is less than the maximum; it is feasible in the night of the maximum, too (`C223_onlyBefore` has `≤`) |
| C224 | sim_runner.py 162-169; queue_manager.py 99-106 | a scripted visit may be begun after its expiry: `C224_late_violated` (a script of three visits of which the second expires during the first) |
| C225 | summit_wrapper.py 31-33, 144-153 | the wrapper says it is compatible with `sim_runner`, but calls `.copy()` on the answer of the scheduler without looking whether there is one: where `sim_runner` would step over a moment with nothing to observe, it ends with an exception: `C225_idle_violated`. (`record_rewards=True` fails too: the wrapper has no `queue_fill_mjd_ns`, sim_runner.py 173; not modelled.) |
| C225 | summit_wrapper.py 139-153 | visits that expire make the wrapped simulation depart from the plain one: the rest of a block made when the old one has expired is not told to the inner scheduler: `C225_expiry_violated` |
| C227 | file_maps.py 55, 58 | blanks around a name are taken away when it is looked up but not when it is set, so such a name is never found: `C227_set_violated`. (A dictionary that is given is shared with the caller, lines 44-45; read, not modelled.) |
| C228 | coordinate_transformations.py 48-57 | documented to bring hour angles to -180..180 degrees, but nothing is added below -180 degrees: `C228_wrap_violated` |
| C230 | htm_module.py 78-89 | `np.allclose` with a tolerance of 1e-20 still has the relative tolerance 1e-5, which depends on the second argument only: equality of trixels made by hand is not symmetric: `C230_symm_violated` |
| C230 | htm_module.py 907-916 | half spaces 2.9 arcseconds apart compare equal though they contain different points, and equality is not transitive: `C230_points_violated`, `C230_trans_violated` |
| C231 | scheduler_download_data.py 42-43, 89-90 | the `file_dict` argument is not used: `C231_given_violated` |
| C231 | scheduler_download_data.py 85-97, pyproject.toml 54 | the result of the check of versions is not returned, so the command exits with 0 in any case: `C231_status_violated` |
| C232 | sim_runner.py 155 with model_observatory.py 424-427 | the conditions asked for to be saved park the telescope after a gap, before the scheduler asks for its own: with visits longer than `park_after` a simulation with snapshots makes other visits: `C232_long_violated` |
| C233 | sim_runner.py 127, 175-185 | while there is nothing to observe `mjd` is not brought up to date, so all snapshots get the name of the first of them and replace it: `C233_lost_violated` |
| C234 | model_observatory.py 415-427, kinem_model.py 386 | the band is put into the conditions before the telescope is parked, which changes it: `C234_band_violated` |
| C234 | model_observatory.py 460-461, kinem_model.py 751-752 | `tel_alt` and `tel_az`, documented as current, are those at the beginning of the last slew: `C234_where_violated` |
| C235 | kinem_model.py 760, model_observatory.py 425, 732 | the gap is counted from the beginning of the last slew: after a visit longer than `park_after` the telescope is parked at once and has to come back: `C235_long_violated` |
| C237 | model_observatory.py 520, 773-777, kinem_model.py 752; sim_runner.py 261 | the airmass (and seeing and depth) of a visit is computed from the altitude the target had at the beginning of the slew, while the column `alt` is that at the beginning of the exposure: `C237_airmass_violated` |
| C237 | sim_runner.py 249 | altitude, azimuth and angles in the table are those at the site of LSST whatever the site of the observatory (read, not modelled) |
| C238 | too_scripted_surveys.py 408-439, event_detailers.py 51-52 | bands are replaced after notes and numbers of exposures were set from the old ones: visits in u have the note of r and its number of exposures: `C238_note_violated` |
| C238 | event_detailers.py 43, example/too_surveys.py 156-186 | whether it is dark is judged at the time of the alert, for visits up to 39 days later: `C238_later_violated` |
| C238 | event_detailers.py 41-57 | without a distance visits stay in r, z and i in dark time too (read off the model: `Pick.apply`) |
| C239 | example/lsst_surveys.py 952-1003 | a simulation with single visits observes nearer to the moon than the caller asked for: `C239_singles_violated` (as `C169_greedy_violated`, in a whole simulation) |
| C240 | surveys/base_survey.py 593, 754 | the night of the last turn starts as -1: in the night before the start of the survey, which has that number, fields that are to be turned every night stay as they are given: `C240_before_start_violated` |
| C241 | schedulers/core_scheduler.py 332-389, surveys/dd_surveys.py 157-173 | feasibility is only asked when the queue is filled: a deep drilling survey that keeps out of twilight begins visits of its sequence after the twilight has begun: `C241_later_violated` |
| C242 | basis_functions/feasibility_funcs.py 546-583 | the limit does not count the visits about to be handed out: limited to a fifth of the visits a survey makes the first three of three visits, and six of 18: `C242_share_violated` |
| C247 | `surveys/generate_ddf_grid.py` 95-110 | When the sky model raises `ValueError` for a time, only `sun_alt` is overwritten: the row gets the Moon's altitude and phase of an earlier time. For the first time the function raises instead. Harmless for plans, since such times are masked by the Sun. |
| C248 | `surveys/long_gap_survey.py` 210-214, `scripted_surveys.py` 134-151 | The script of a long gap survey hears of visits through `add_observation`, which drops notes that contain a string of `ignore_obs`. If the scripted survey handed to the long gap survey ignores its own notes, third visits are made again and again until they expire. |
| C249 | `surveys/surveys.py` 482-538, `basis_functions/basis_functions.py` 639-677 | Fast revisits are avoided only when a block is chosen. The passes of a blob in one band return to its pixels within the gap that the survey is told to avoid. |
| C250 | `site_models/unscheduled_downtime_data.py` 153-164, 177-251 | `total_downtime` adds lengths, so for the first-year variant, whose events may lie inside regular downtimes, the total is more than the time closed. Events that go on after the end of the survey count in full. |
| C251 | `schedulers/core_scheduler.py` 412-426 | A tier without surveys makes `np.nanmax` of an empty array raise, so taking the last survey out of a tier stops the scheduler although the survey was never used. |
| C255 | `surveys/dd_surveys.py` 144-155, `surveys/base_survey.py` 278-296 | Rewards of deep drilling and plain surveys are fixed numbers, so in a tier with greedy or blob surveys multiplying all weights by one number changes which survey is chosen. |
| C257 | queue_manager.py 80-91 | follows from C59: a queue whose masks remember visits knows nothing of them after a restart, and the simulation goes on differently (`C257_queue_violated`) |
| C259 | cloud_data.py 80-95, seeing_data.py 74-86 | the sample nearest in time is taken, also one of later, so a simulated visit can be given up for clouds that are first seen after it (`C259_nearest_violated`) |
| C260 | model_observatory.py 621-627 | cloudy times are passed over in steps of twenty minutes without regard to the almanac, so after a cloudy day the first visit of a clear night can be up to twenty minutes late (`C260_clouds_violated`) |
| C24 | model_observatory.py 621-627 | cloudy times are passed over in steps of twenty minutes without end: when no time of the steps is clear the call does not return, though there may be clear times between them (`C24_endless_violated`) |
| C261 | sim_runner.py 202-217, core_scheduler.py 387-446, model_observatory.py 584-660 | a simulation fails with an error when it goes beyond the last night of the almanac, when a visit out of reach is asked for twice, when a tier has no surveys and when a band is not in the dictionary (`C261_almanac_needed`, `C261_reach_needed`, `C261_tiers_needed`, `C261_bands_needed`) |
| C263 | sim_runner.py 111, 202-217 | the time of the last flush is -1 before there was one: a visit turned down at the time -1 ends the simulation at once (`C263_flush_violated`); of no consequence at present dates |
| C263 | utils.py 188-220, queue_manager.py 114-152 | expiry times are compared with a tolerance relative to the size of dates and then rounded to whole days: near MJD 60000 a visit may still be made up to 0.86 s after its expiry, near 0 it is not (`C263_expiry_violated`) |
| C265 | utils.py 863-868 | clipping an array of integers to limits that are no integers gives values outside the limits: `inrange([0], 0.5, 5)` is 0 (`C265_fraction_violated`) |
