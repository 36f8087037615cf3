# Formal model of NARP (Breakthrough-Energy/reliability-assessment) in Lean 4

## Method
* The model is a set of total, computable Lean functions, one per Python function, in `lean/Verif/Model/`.
  Each definition cites the file and lines it models and says where it simplifies. `tools/coverage.py` lists the
  lines of `/repo` that no definition cites (they are parameter lists, return tuples and calls modelled inline).
* Exceptions of Python/numpy (IndexError, TypeError, KeyError, UnboundLocalError, ...) are values (`Except PyErr`), not
  preconditions, wherever a property depends on them.
* Specifications (`lean/Verif/Spec/`) are written without the model's helpers: multisets, finite sums, Mathlib
  matrices, textbook linear programs, grammars of texts, lists of annual values.
* Property theorems are in `lean/Verif/Props/`, general lemmas in `lean/Verif/Lemmas/`. Beside each property theorem an
  `example` shows a concrete non-trivial case that meets its hypotheses.
* Where the code violates a property, its negation is proved on a concrete witness or for all inputs (`..._refuted`),
  and the strongest true part is a theorem with suffix `_partial`. Most `partial` rows below are of this kind: the
  missing part is not unproved, it is false of the code.

## Trusted base
* The kernel of Lean 4.33.0, and Mathlib's definitions used in the statements (ℚ, ℝ, matrices, lists, finite sums).
* Axioms: `propext`, `Classical.choice`, `Quot.sound` only, none of our own. `AXIOMS.md` lists what each claimed
  theorem depends on (printed by Lean). No compiled evaluation is used in any proof; concrete runs are computed by the
  kernel (`decide +kernel`, `rfl`).
* The hand translation Python → Lean. It was checked by reading, by the coverage tool, by evaluating the model on test
  data of the repository where this is feasible (`connls`, `conls` and `linp` test cases: the matrices and bases agree),
  and by the mutation tests below.

### Idealisations
* `float` / numpy float64 is modelled by exact rationals ℚ: no rounding, no nan/inf, no overflow. Comparison constants
  are kept (`1e-7`, `1e-13`, `0.4656613e-9`). Square roots (`cvchk`, `report`) are either eliminated exactly
  (`s < x` as `0 < x ∧ v < x²`) or real (`Real.sqrt`). What rounding can change is treated separately in
  `Model/Float.lean` and its properties (see below): there float64 is modelled bit for bit (round to nearest even, 53
  bits, gradual underflow; overflow is out of scope).
* Python `int` is `Int`; numpy int32 products are modelled with wrap around (`Int.bmod _ (2^32)`).
* numpy arrays of fixed shape are functions on `Fin n` or on ℕ where the index is in range by construction, and lists
  with checked (Python style, negative index allowed) access where an index error matters.
* Aliasing: numpy arrays changed in place by a callee are modelled as results; where the sharing of an array changes
  the outcome (`ZB`/`BB` in `tm2`, `INTVT`, contracts, counters) this is what the model follows.
* `while True` loops (`contrl`, `linp`) are fuelled functions or inductive step relations; theorems quantify over all
  numbers of steps, and termination is a property of its own (C06, C87).

### Not modelled
* Text of `print`, and of `output.txt` except what `report` and the annual tables of `year` write (Model/Text, C116, C117):
  the pages of `pmsc` (C123) count as earlier content of the file in C121.
* pandas' splitting of csv files into columns (`readInputB`); the parsing the program does itself (`META DATA`, `LEEI`,
  `ZZMC`) is modelled on characters. Non-ASCII white space, `inf`, `nan` and `_` in numbers.
* pickle (the snapshot is the value that was saved; what is used of its format is that a complete file says where it
  ends, `Model/Disk`); the operating system and the file system beyond open-truncates, write-appends.
* numpy's random generator in `discrete_prob_gen` (the random numbers are parameters).
* Test files and the integration test driver (they repeat `narpMain`).

## Where the code is modelled
| python | Lean |
|---|---|
| monte_carlo/filem, remove, initfl, initl | Model/EventList |
| monte_carlo/contrl, events, quartr, week | Model/Control |
| monte_carlo/hour | Model/Hour (body), Model/Control (calendar) |
| monte_carlo/seeder, gstate, lstate, line_prob_sampling | Model/Random, Model/Variants |
| monte_carlo/sumcap, findtn, findld; data_processing/xporta, xports | Model/Capacity |
| monte_carlo/hrstat, pkstat | Model/Stats |
| monte_carlo/year, cvchk, intm | Model/Year |
| monte_carlo/rstart, the snapshot file | Model/Restart, Model/Disk |
| monte_carlo/report | Model/Report |
| monte_carlo/admitb, admitm, admitr, admref, ximpa, ximpar, mc, rc, rm, theta, thetac, flo, assign, tm1, tm2 | Model/Network, Model/Transm |
| monte_carlo/transm | Model/Transm |
| monte_carlo/connls, net | Model/Connls |
| monte_carlo/conls | Model/Conls |
| monte_carlo/linp | Model/Linp |
| monte_carlo/dgefa, dgeco, dgedi | Model/Lu, Model/Variants |
| monte_carlo/narpMain | Model/Program, Model/Datax |
| data_processing/dataf1, datax, input_processing | Model/Datax, Model/Random, Model/Load |
| data_processing/dpeak, wpeakf, plhr, resca, xldnew | Model/Load |
| data_processing/gsm, pmlolp | Model/Outage |
| data_processing/pind, smaint | Model/Names |
| data_processing/pmsc | Model/Pmsc, Model/PmscText |
| data_processing/readInputB, text of xldnew | Model/ReadB |
| monte_carlo/report, year: the text they write | Model/Text |
| the file output.txt during a run | Model/Output |
| float64 arithmetic of datax, gstate, lstate, sumcap, xldnew, findld, hour (margins), cvchk, contrl, week, quartr | Model/Float, Model/FloatCode, Model/FloatControl |
| float64 arithmetic of the averages and standard errors of year and report | Model/FloatReport |

Compositions: `Model/Program` is the main loop with the real hourly and yearly events; `Props/CardRun`, `CardEnergy`,
`CardWhole`, `CardReport`, `CardStop` follow the input cards through whole runs; `Props/History` connects the draws of a
run with the annual counters and the report; `RedispatchHour` puts the linear program inside the hourly evaluation.

## Mutation tests
`seeded/mutants.py` lists edits of the model (realistic bugs of the program), `seeded/run.py` applies each in a scratch
copy and rebuilds, `seeded/mklog.py` writes `seeded/LOG.jsonl`. Survivors led to the tightenings recorded there; the
remaining survivors are annotated (edits without observable effect).

## Properties
| id | property | modelled code | proof | status | theorems | note |
|---|---|---|---|---|---|---|
| C01 | Event calendar delivers events in chronological order | `filem`, `remove` on the 100-word array | invariant (linked chain = sorted list), refinement to a multiset with minimum | proved | `C01_calendar_is_priority_queue` |  |
| C02 | Event calendar storage is never exhausted or corrupted by a run | + `contrl` loop, handlers arbitrary | invariant over all runs | proved | `C02_calendar_always_seven` |  |
| C03 | Event calendar accepts arbitrary interleavings of schedule and remove | `filem`, `remove` | refuted by remove; schedule; schedule; alternating histories by refinement | partial | `C03_interleaving_partial`, `C03_interleaving_refuted` | The general claim is false of the code (witness proved); it holds when every removal is followed by a filing, which is the only use made by the program. |
| C04 | The constant initial calendar equals the scheduled initial calendar | `initl`, `_initl`, `initfl` | equality of states, both JSTEP | proved | `C04_initl_eq_scheduled` |  |
| C05 | Simulated time never runs backwards and the scheduler never aborts | `contrl`, `events`; handlers arbitrary | inductive invariant | proved | `C05_clock_monotone`, `C05_scheduler_never_raises` |  |
| C06 | Every run terminates | same | measure on the clock, exit conditions | proved | `C06_terminates`, `C06_horizon`, `C06_exit_reason` |  |
| C07 | Each simulated year contains exactly 8760 hourly (365 daily) draws before its year-end evaluation | same | closed form of event times, induction | proved | `C07_year_is_8760_hours`, `C07_draw_times` |  |
| C08 | Season boundaries of the input govern when seasonal ratings change | `initl`, `narpMain` wiring | closed form of change times; witness | partial | `C08_season_ends_partial`, `C08_season_ends_refuted` | False of the code: season ends of the input are ignored. Proved: what the change times are, and that an input season end is never used. |
| C09 | In season s the unit ratings of season s are used | `quartr`, `narpMain` | counter modulo 4; witness | partial | `C09_season_column_partial`, `C09_season_column_refuted` | False of the code: off by one season. Proved for every run. |
| C10 | Weekly planned outages: exactly the listed units are off | `week` | pointwise | proved | `C10_exactly_listed_units_off` |  |
| C11 | Planned outages of week w are applied in week w | `week`, `hour`, loop | row in effect by induction; witness | partial | `C11_week_row_partial`, `C11_week_row_refuted` | False of the code: the plan is applied one week late. Proved for every run. |
| C12 | Pseudo random states stay in range and never collapse | `seeder`, draws | arithmetic modulo 2^31, 2-adic valuation | proved | `C12_states`, `C12_variate_can_exceed_one` | Second theorem: with other seeds than the one the main program uses, the range claim would be false. |
| C13 | The seeding routine gives every unit its own stream, fixed by the seed | same | same | proved | `C13_streams`, `C13_seeder_injective` |  |
| C14 | Generator state sampling follows the three-state outage model | `gstate` | interval specification | proved | `C14_unit_state`, `C14_avail_bounds`, `C14_variants_agree` |  |
| C15 | Line state sampling selects the state by cumulative probability | `lstate`, line samplers | interval specification | proved | `C15_line_state`, `C15_monotone`, `C15_variants` |  |
| C16 | Capacity accounting conserves megawatts | `sumcap`, `findtn` | finite sums | proved | `C16_per_area`, `C16_conservation`, `C16_interchange`, `C16_default_ownership` |  |
| C17 | Area load export shifts load between areas without losing any and is undone by the inverse step | `xporta`, `xports` | algebra | proved | `C17_export_amount`, `C17_export_conserves_and_inverts`, `C17_variants_agree` |  |
| C18 | Daily peaks are true maxima | `dpeak`, `plhr`, `input_processing` | maxima over lists | proved | `C18_daily_peaks`, `C18_variants_agree`, `C18_pool_peak`, `C18_input_steps` |  |
| C19 | Weekly peaks are true maxima over the days of the week | `wpeakf` | maxima | proved | `C19_weekly_peaks` |  |
| C20 | Hourly loads are scaled so that each area's peak is its input peak load | `xldnew` | maxima, scaling | proved | `C20_scaled_peak` | For raw peaks of at least 0.001 (smaller ones are replaced by 0.001 in the code). |
| C21 | Name to index resolution is exact | `pind` | first index of a name | proved | `C21_name`, `C21_resolution` |  |
| C22 | Outage probabilities become valid cumulative distributions | threshold part of `datax` | inequalities | proved | `C22_thresholds` |  |
| C23 | Unit seasonal capacities are reduced according to the season of each week | `resca` | case analysis; witness | partial | `C23_season_of_peak_partial`, `C23_fourth_season_refuted` | False when the peak day is in the fourth season. |
| C24 | Capacity outage probability table is the exact convolution | `gsm`, `_gsm`, `pmlolp` | convolution specification, induction over units | proved | `C24_unit`, `C24_unit_tail`, `C24_indices`, `C24_rounding`, `C24_table`, `C24_versions`, `C24_dead_unit_refuted`, `C24_tiny_unit_refuted` | For units not rounded to 0 MW and not permanently out; the two last theorems show that the table is wrong for those. |
| C25 | The weekly maintenance table lists exactly the units on planned outage | `smaint`, `week` | window specification; witnesses | partial | `C25_table_partial`, `C25_week_event`, `C25_table_refuted` | False for week 51 and for overlapping windows; proved otherwise, end to end with the weekly event. |
| C26 | Loss of load counters count loss of load hours exactly once | `hrstat`, `pkstat` | pointwise | proved | `C26_hrstat`, `C26_pkstat`, `C26_once` |  |
| C27 | Unserved energy of the pool is the sum over its areas | `hrstat` | induction over hours | proved | `C27_pool_is_sum` | Over every history of whole-MW margins. |
| C28 | Loss cause classification is consistent between pool and areas | `hrstat`, `hour` | inequality; witness | partial | `C28_same_cause_partial`, `C28_same_cause_refuted` | False of the code in general (witness proved); proved under the stated balance condition. |
| C29 | Annual distributions count each simulated year once | `year`, `hour` | induction over years | proved | `C29_histograms_count_years`, `C29_one_entry_per_year`, `C29_zero_step_refuted`, `C29_run` | For every histogram step > 0; the third theorem shows what happens when a step is 0. |
| C30 | Annual counters restart from zero every year | `year` | exact list of counters; witnesses | partial | `C30_counters_zeroed_partial`, `C30_reset_refuted`, `C30_accumulates_refuted`, `C49_run_partial` | False of the code for some counters; the counters that are zeroed are characterised exactly, and the claim holds over every run when there are as many areas as tiers. |
| C31 | Final averages are the averages over all simulated years | `year` | induction over years | proved | `C31_cumulative`, `C31_squares`, `C31_weights`, `C31_run` |  |
| C32 | A restart restores clock, calendar and statistics | `intm`, `rstart` | equality of fields | proved | `C32_restored`, `C32_network` |  |
| C33 | Convergence test is sound | `cvchk`, `_cvchk`, `year` | Cauchy-Schwarz; real square root eliminated by squares | proved | `C33_convergence_test`, `C33_variants_agree`, `C33_run`, `C33_exit`, `C33_cards` |  |
| C34 | The bus admittance matrix is symmetric with zero row sums | `admitb` | finite sums | proved | `C34_nodal`, `C34_symm_rows`, `C34_self_loop_refuted` | The last theorem shows that the restriction to lines between different areas is needed. |
| C35 | DC load flow satisfies Kirchhoff's law | `flo`, `theta`, `thetac` | matrix algebra over ℚ | proved | `C35_kirchhoff`, `C35_sampled` |  |
| C36 | Rank-one impedance update keeps the impedance matrix the inverse | `tm1`, `transm` | rank-one update (Sherman-Morrison) | proved | `C36_line`, `C36_ref`, `C36_network` |  |
| C37 | Reducing the network removes exactly the reference area | `admitr`, `admitm`, `ximpa`, `ximpar` | matrix algebra | proved | `C37_reduced`, `C37_map`, `C37_versions` |  |
| C38 | A solution accepted without curtailment respects all line and area limits | `tm2` | case analysis | proved | `C38_accepted`, `C38_converse` |  |
| C39 | The transmission module leaves the base network unchanged | `tm2` | frame theorem; refutation of the restored matrix | partial | `C39_unchanged_partial`, `C39_evaluation_partial`, `C39_redispatch_refuted` | Proved for evaluations that need no re-dispatch; refuted for every evaluation with re-dispatch (impedance matrix overwritten by the admittance matrix). |
| C40 | Assistance assignment balances the pool and sheds exactly the shortage | `assign` | finite sums | proved | `C40_assign`, `C40_sharing`, `C40_versions` |  |
| C41 | The linear program solver keeps a correct basis | `linp` | simplex invariant `B⁻¹B = 1`, optimality, phase 1; integer data: exact pivots | proved | `C41_basis`, `C41_reinvert`, `C41_optimal`, `C41_phase1`, `C41_descent`, `C41_feasible`, `C41_exact_feasible`, `C41_exact_no_error`, `C41_exact_optimal`, `C41_exact`, `C41_crisp_whole`, `C41_total` | C41_total: for whole-number data with small minors and no degenerate basis the solver ends, without an exception, with a cheapest solution; all conditions are on the data. |
| C42 | LP results are mapped back to the right areas | `net` | pointwise; witness | partial | `C42_net`, `C42_versions`, `C42_first_area_refuted`, `C42_refuted` | The mapping is characterised exactly and is right for every area but the first of the reduced numbering; for that area it is refuted (sign of the first coordinate). |
| C43 | An hour without any shortage is processed without error | `hour` | witness, all hours; runs by induction; exact criterion (Spec/Abort.lean) for ample networks | partial | `C43_no_shortage_refuted`, `C43_processed_partial`, `C43_run_refuted`, `C43_run_completes_partial`, `C43_cards_partial`, `C43_abort_exact`, `C43_run_exact`, `C43_adequate_refuted`, `hour_exact` | False of the code: an hour without shortage raises IndexError. For studies with an ample network it is determined exactly which runs are aborted: a run ends regularly if every draw is survived in the sense of Spec/Abort.lean, and raises IndexError at the first one that is not; a system too small to be ever short always raises. |
| C44 | Skipping lower forecast tiers is sound | `hour` | monotonicity in the tier | proved | `C44_later_tiers_not_short` |  |
| C45 | Peak statistics are collected at each day's pool peak hour | `hour`, `contrl`, `setup` | case analysis; refuted in a run of an always short study with its peak in the last hour (`C45_run_refuted`) | partial | `C45_peak_hour_partial`, `C45_daily`, `C45_last_hour_refuted`, `C45_run_refuted`, `last_ok` | False for the last hour of the year only. C45_run_refuted: in every run of a study read from cards whose pool load is largest in the last hour of the year, the draw of that hour takes place, the hourly counters of every area and of the pool grow by one hour, and no peak counter changes. |
| C46 | Matrix factorisation and inversion are exact | `dgefa`, `_dgefa`, `dgeco`, `dgedi` | LU invariant, induction over columns | proved | `C46_inverse`, `C46_singular`, `C46_multipliers`, `C46_info`, `C46_versions`, `C46_inverse_versions`, `C46_determinant_refuted`, `C46_determinant_zero`, `C46_info_refuted` | Exact arithmetic. The documented meaning of the unused indicator INFO is refuted for a zero first pivot. |
| C47 | Successive draws of a unit are not tied by a fixed relation | `seeder`, draws | identity modulo 2^31 | partial | `C47_consecutive_draws_dependent_refuted`, `C47_three_in_a_row_refuted`, `C47_three_in_a_row_run_refuted` | The property is false of the generator for every seed; the theorem proves its negation. |
| C48 | Sampling every n hours keeps the drawn states in between | `hour` | case analysis; witness | partial | `C48_every_hour_draws_partial`, `C48_sampling_frequency_refuted`, `C48_run_refuted`, `sparse_ok` | False of the code for frequency > 1: the hours in between raise UnboundLocalError. C48_run_refuted: every run of every accepted study in hourly mode with such a frequency makes at most one draw, completes no year and is aborted by an exception. |
| C49 | Annual loss counters stay within their natural bounds | `hour`, `hrstat`, loop | invariant over runs | proved | `C49_annual_counters` |  |
| C50 | The annual result table reports every area, tier and cause consistently | `year` table | row by row; the loop over the tiers carries the leftover numbers; witnesses | partial | `C50_table_partial`, `C50_exact_partial`, `C50_no_generation_loss_refuted`, `C50_stale_refuted`, `C50_daily_label_refuted` | Several rows are stale or missing (refuted); the rest of the table is proved. |
| C51 | The network matrices can be built exactly when the network is connected | `admref`, `ximpa` | Laplacian kernel vs connectivity of the graph | proved | `C51_connected`, `C51_inverse` |  |
| C52 | Assistance only redistributes the pool's margin | `transm`, `assign` | sums | proved | `C52_pool_shortage` |  |
| C53 | Reported shortages are backed by feasible flows | `transm`, `tm2` | composition of C35, C38, C40 | proved | `C53_total_flows`, `C53_scheduled_flows` |  |
| C54 | Area limits survive every evaluation | `transm`, loop | frame theorem | proved | `C54_limits_restored`, `C64_limits_run` |  |
| C55 | The re-dispatch program is the transmission dispatch problem | `connls` | map between LP points and dispatches, both ways | proved | `C55_sound`, `C55_complete`, `C55_feasible`, `connls_unit` | Both directions, same cost, always feasible, starting basis is the identity. |
| C56 | A re-dispatch yields an optimal dispatch | `connls`, `linp`, `net` | composition; exact version on runs clear of the tolerances | partial | `C56_dispatch_partial`, `C56_exact`, `C42_refuted` | Proved for every area but the first, when the solver ends with non-negative values and artificial variables at 0; false for the first area (C42_refuted). |
| C57 | A re-dispatch is possible for every admissible setting | `tm2`, `conls` call | witnesses | partial | `C57_no_error_partial`, `C57_sharing_refuted`, `C57_listing_refuted`, `C57_size_refuted` | Proved without loss sharing and listing, within the table sizes, on runs clear of the solver tolerances. False of the code otherwise: exceptions with loss sharing, with the listing, and above the fixed table sizes. |
| C58 | The shortages recorded in re-dispatched hours are those of an optimal dispatch | `transm`, `tm2`, LP | composition; witnesses | partial | `C58_shortages_partial`, `C58_exact`, `C58_first_area_refuted`, `C58_missed_shortage_refuted` | Proved for every area but the first; for that area no shortage is ever recorded (refuted, with an end-to-end witness). |
| C59 | An hour records exactly the shortages that remain after assistance | `hour` | composition with C40, C44 | proved | `C59_recorded_shortages`, `C59_recorded_shortages_daily`, `C59_recorded_used` | Hourly and daily mode, sampling frequency 1 (others fail, C48). |
| C60 | Without binding limits the recorded energy is what the pool lacks | `hour`, `transm` | sums, no binding limit | proved | `C60_pool_energy` | Hourly and daily mode. |
| C61 | Scheduled interchange is carried out as scheduled | `findtn`, `transm` | algebra | proved | `C61_contracts` |  |
| C62 | Planned maintenance is scheduled as asked | `pmsc`, `smaint` | frame theorem by loop invariants; witnesses | partial | `C62_frame`, `C62_schedule`, `C62_automatic_refuted`, `C62_preset_refuted`, `C62_table`, `dataxID_wired`, `C62_plan_partial`, `C62_two_units_refuted` | False of the code: automatic units are never scheduled, and a unit alone in its area loses its weeks; proved: nothing else changes and the table follows the entered weeks. |
| C63 | The final report states the averages of all simulated years | `report` | row by row | proved | `C63_rows`, `C63_summary_areas`, `C63_distributions`, `C63_table_numbers`, `C63_no_error` |  |
| C64 | The input cards take effect as described | `dataf1`, `datax`, `input_processing` | field by field against `Spec/Input` | proved | `C64_units`, `C64_loads`, `C64_accepted`, `C64_required`, `C64_limits_run` |  |
| C65 | Contracts and joint ownership can be entered | `dataf1`, `datax` | case analysis: always an exception | partial | `C65_contracts_refuted` | False of the code: every input with such a card is rejected with an exception. |
| C66 | A line out of service carries nothing | `datax` | witness; case analysis for every input | partial | `C66_out_of_service_refuted`, `C66_never_out_refuted` | False of the code, for every input: zeros are replaced by defaults (admittance -0.5, 1 MW), so that no line is ever out of service. |
| C67 | Cards are used in the order of their serial numbers | `datax` | witness | partial | `C67_serial_refuted` | False of the code: serial numbers have no effect. |
| C68 | Line numbers are only labels | `datax`, `transm` | case analysis; witness | partial | `C68_numbers_partial`, `C68_numbers_refuted` | Proved when no number exceeds the number of lines; otherwise the run fails with an IndexError. |
| C69 | The capacity of an area at every draw follows from the cards | cards to `gstate`/`sumcap` in a run | composition over every draw of every run | partial | `C69_capacity_partial`, `C69_capacity_refuted`, `C69_applies_refuted` | What happens is characterised exactly, for every draw of every run; the property itself is false: the season is the following one and the planned outages are those of the preceding week (C09, C70). C69_capacity_refuted: for every input, wherever the ratings of the next season are lower, the area has less than its cards say, at every draw. |
| C70 | The planned outage weeks of the cards are respected | cards to `week` | composition; witness | partial | `C70_weeks_partial`, `C70_weeks_refuted`, `C70_concrete_refuted` | False of the code: planned outages begin and end one week late in the first year. |
| C71 | The energy not served at every draw follows from the cards | cards to `hour` energy | composition | partial | `C71_energy_partial`, `C71_applies`, `C71_season_refuted` | What happens is characterised exactly for hourly and daily mode and every draw in which no limit binds; as for C69 the property itself is false in the season and the week used. A study (seasonCards) in which according to the cards and the calendar nobody ever lacks anything (NeverShort) has more than 98 MWh recorded at every draw of the first quarter of every year of every run. |
| C72 | The final report shows the statistics of the simulated years | cards to `report` | induction over years of a run (`Spec/History`) | partial | `C72_report_partial`, `C72_settings`, `setup_cap`, `C72_always_short_refuted`, `C72_concrete_refuted` | What the report shows is characterised exactly; the property is false for the areas whose counters are not cleared at the year end (they contain all earlier years) and for the pool (last year divided by the number of years). |
| C73 | The random numbers of different units and lines are unrelated | `seeder` | orders modulo 2^31 | partial | `C73_streams`, `C73_no_repeat_partial`, `C73_shifted_units_refuted`, `C73_shifted_lines_refuted`, `C73_period_refuted`, `C73_apart_refuted` | False of the code: units 32 apart share one stream shifted by 14848 draws, and all streams have period 2^23; proved: within a period no state comes twice. |
| C74 | The load file is read as written | `xldnew` on text | grammar of numbers and rows (`Spec/Text`), inversion of the printer | proved | `C74_load_file`, `C74_scaled`, `pyFloat_iff` | Texts are lists of characters (ASCII white space); numbers are exact decimals (inf, nan and underscores left out). |
| C75 | The line cards are read as written | `readInputB` line card text | grammar | proved | `C75_line_card`, `C75_rejected` | The split of a csv file into columns is done by pandas and not modelled; the column META DATA, which the program parses itself, is. |
| C76 | Input files in good form become the study they describe | `readInputB`, `narpMain` | composition C74, C75, C64 | proved | `C76_files`, `C76_settings` | Tables other than META DATA and the load file are taken as rows of typed columns (pandas). |
| C77 | A damaged row of a load file is rejected | `xldnew` | case analysis | proved | `C77_rejected` |  |
| C78 | Line derating cards take effect | `datax`, the whole run | equality for all card values; a study read from files with a derating card, in which the line carries power although the card's unit is out | partial | `C78_derating_refuted`, `C78_run_refuted`, `C78_applies` | False of the code: the cards are read and never used. C78_run_refuted: a study read from its files whose only line should be out whenever unit P is out; in week 11 of the first year of every run P is out and area A lacks 150 MW, but only 60 MWh are recorded: the other 90 MW come over that line. |
| C79 | The random streams are determined by the user's seed | `narpMain` | equality for all seeds | partial | `C79_study_refuted`, `C13_user_seed_refuted` | False of the code, for every input: the main program ignores the seed on the card, so that set-up, histories, errors and report are the same for all seeds. |
| C80 | Load data of ten or more areas belong to the area named | `xldnew` | witness | partial | `C20_read_partial`, `C20_area_ten_refuted` | Proved for areas 1 to 9; refuted for area 10. |
| C81 | The two implementations of the hourly statistics agree | `hrstat`, `_hrstat` | equality; witness | partial | `C27_variants_agree_partial`, `C27_variants_refuted` | Proved for whole-MW margins; refuted otherwise. |
| C82 | The pool's weighted totals cover all years | `year`, the whole run | the totals in the report of every run (induction over the years); a five-year run in which they are wrong | partial | `C82_totals_partial`, `C82_run_refuted`, `scarce_years5`, `C31_pool_weighted_refuted` | False of the code: the pool's weighted sums are lost between years. What happens is proved for every input: the totals are those of the last year alone. C82_run_refuted: a run of five years, short for 8760 hours in each, ends with the total 8760 in place of 43800. |
| C83 | Interrupting and restarting resumes the same simulation | `intm`, `rstart`, `contrl` | witnesses against it; what is missing: simulation relation between the resumed and the uninterrupted run, by induction over the steps | partial | `C83_resumed_partial`, `C83_applies`, `C32_seeds_refuted`, `C32_maintenance_refuted`, `C32_interval_refuted`, `C83_stop_refuted` | False of the code: random seeds, maintenance status and next snapshot year are not restored (what is: C32). Proved, for every run from input cards: nothing else is missing but the hour of the last draw and the annual counters; with these put back the resumed run ends exactly as the uninterrupted one, if that goes on. C83_stop_refuted: the decision to stop is not saved either; resumed from the year end at which the run stopped (always saved at the horizon), it simulates on. |
| C84 | Convergence of the pool's weighted statistic is sound | `cvchk`, `year`, the whole run | the rule of the code for every history and for every run from cards; witnesses against the property, one of them a whole run | partial | `C84_changes_partial`, `C84_cards_partial`, `C84_run_refuted`, `C84_constant_refuted`, `C33_pool_weighted_refuted` | False of the code: the statistic restarts every year. What the test sees is characterised exactly (for every history: the year-to-year changes in place of the values), so that a growing statistic is declared converged and a constant one never is (both proved). In runs: C84_cards_partial (from the cards, exactly when a run ends); C84_run_refuted (a study short for 8760 hours in every year goes on to its horizon of ten years). |
| C85 | The re-dispatch gets the admittance matrix of the sampled network | `transm` | case analysis; witness | partial | `C36_admittance_partial`, `C36_admittance_refuted` | Proved unless a line at the reference area changes; refuted in that case. |
| C86 | Every hour starts from the intact network | `transm` | frame theorem | proved | `C39_rebuilt`, `C54_limits_restored` |  |
| C87 | The linear program solver returns an answer for every program | `linp` | non-degenerate measure; Beale's example and others | partial | `C41_terminates_partial`, `C41_terminates_refuted`, `C41_feasible_refuted`, `C41_unbounded_refuted`, `C41_artificial_refuted` | Termination proved for non-degenerate programs, refuted in general (Beale); non-negativity refuted without the tolerances; unbounded and infeasible programs are not reported (refuted). |
| C88 | Reported shortages respect the areas' limits without loss sharing | `tm2`, `transm` | witnesses | partial | `C53_area_limits_refuted`, `C88_several_lines_refuted`, `C88_no_contracts_partial` | Proved when nothing is scheduled by contract, which is so in every run from input cards (C65). False of the code with contracts: the scheduled import is added to the limit instead of subtracted, and only the last line of an area counts. |
| C89 | The final report states the pool's averages | `report` | row by row; the loop over the tiers carries the leftover numbers; witnesses | partial | `C63_summary_pool_partial`, `C63_pool_average_refuted`, `C63_pool_reserve_refuted`, `C63_pool_sd_refuted` | Peak and capacity proved; the averages hold the last year only, the reserve is that of the last area, the deviation is wrong (refuted). |
| C90 | The line cards take effect as described | `datax` | field by field | partial | `C64_lines_partial`, `C66_out_of_service_refuted` | Proved up to the replacement of zeros (C66: false of a line whose card has zeros) and when no line number exceeds the number of lines (C68). |
| C91 | An incomplete load file is rejected | `leeiText`, `xldnew` | witness against it; induction over the lines of the file for exactly which texts are accepted | partial | `C77_accepted_refuted`, `C91_accepted_iff_partial`, `C91_short_row_partial` | False of the code: a row with one number is taken for twelve equal loads, missing rows and sections count as zero. Proved: exactly which load files, as text, the reader accepts; and that a file with a row of two to eleven numbers is rejected. |
| C92 | The loss-sharing program is the dispatch problem with loss sharing | `conls` | map between LP points and dispatches with shared loss | proved | `C92_sound`, `C92_complete`, `C92_feasible`, `conls_unit`, `C92_optimal`, `C92_no_worse`, `C92_exact`, `C92_size` | Of conls as a function: transm's caller tm2 fails before it gets the result (C57_sharing_refuted). Optimality up to the solver's tolerance, for a final solution without negative entries or artificial columns. |
| C93 | Both dispatch programs read the area limits the same way | `conls` | witness | partial | `C93_equal_limits_partial`, `C93_limits_refuted` | Proved when the import and export limits are equal, as in every run from cards. False of the code otherwise: conls reads import and export limits from swapped columns. |
| C94 | The alternative line samplers draw the same states | `lstate_original`, `discrete_prob_gen` | interval specification | proved | `C94_samplers_agree`, `C94_rejected`, `C94_rescaled_refuted` | numpy's generator is not modelled: the random numbers are given. For tables that end near but not at 1 the samplers differ (refuted). |
| C95 | Rounding does not change the states drawn | `gstate`, `lstate`, `datax` in binary64 | error bounds of the thresholds and variates; the program's random states are 64 mod 128, so variates keep a distance of 64e-16 from numbers with nine decimals | proved | `C95_unit`, `C95_line`, `C95_states`, `C95_other_seed_refuted`, `seeds_mod` | Overflow, nan and infinities are out of scope of the binary64 model. With random states other than the program's the claim is false (C95_other_seed_refuted). |
| C96 | Rounding keeps the shape of the scaled loads | `xldnew` scaling in binary64 | monotonicity and relative error of rounding | proved | `C96_scaled` |  |
| C97 | A load file whose peak is the card's peak is used as written | `xldnew`, `findld`, `hour` margins in binary64 | witness computed by the kernel; rounding error analysis for what holds | partial | `C97_close_partial`, `C97_as_written_refuted`, `C97_missed_refuted` | False of the code: 29 MW become 28.999999999999996 MW, and a shortage of 1 MW is missed. Proved: the peak hours are used as written, every load up to a relative error of 2^-51, and all loads as written when the peak is a power of two. |
| C98 | Rounding changes a recorded margin by at most 1 MW | `xldnew`, `findld`, `hour` margins in binary64 | error propagation, then a lemma on `int()` of close numbers | proved | `C98_margin`, `margin_err` |  |
| C99 | The convergence test is sound in floating point | `cvchk` and the sums of `year` in binary64 | whole values: n·Σx² − (Σx)² ≥ n − 1 unless all are equal, error propagation; refuted by a computed run for every root function and tolerance | partial | `C99_whole`, `C99_stuck_refuted` | Proved for statistics with whole values (one forecast tier), up to an explicit relative margin. False for weighted statistics: a constant annual value is never accepted as converged in years 5 to 39, because the number under the root is negative. |
| C100 | The simulated calendar is free of rounding | `contrl`, `events`, `week`, `quartr`, calendar of `hour` and `year` in binary64 | all event times are whole numbers of half hours (invariant of C05), sums below 2^52 are exact; induction over the run | proved | `C100_calendar`, `C100_year_number` |  |
| C101 | Rounding from the random draw to the recorded margin | `gstate`, `sumcap`, `datax`, `xldnew`, `findld`, `hour` margins in binary64 | C95, induction over the units for the sums, C98 | proved | `C101_margin` | Up to the margins before assistance; the float arithmetic of the network solution is not modelled. |
| C102 | The snapshot on disk is the last one due | `year` snapshot part, `intm`, `datax` INTV, main loop | induction over reachable states: next snapshot year is the next multiple; the file changes only at year ends that are due | proved | `C102_on_disk`, `C102_loss`, `C102_cards` | Events are the unit of a crash here; a crash during the write itself is C103. |
| C103 | A crash never costs the whole run, and a finished run is on disk | `intm` file writing as a list of crash states, `rstart` as a byte reader | induction over the bytes; witnesses for the two refutations | partial | `C103_torn_detected`, `C103_torn_refuted`, `C103_final_refuted` | Proved: a torn file is always detected (given a reader that knows its end, as pickle does). False of the code: the file is truncated before it is rewritten, so a crash then loses everything, and a run that ends by convergence leaves an older snapshot. |
| C104 | The books of every hour balance in every area | `hour`, `transm`, `datax`, main loop | induction over the tiers of an hour; flows from C53, C88; cards from C64, C69 | partial | `C104_balance_partial`, `C104_applies`, `C104_applies_daily`, `C104_season_refuted` | Proved in hourly and daily mode for every draw in which no limit binds (re-dispatch: C58), for both loss sharing rules; as for C69 the capacities are those of the following season and the preceding maintenance week. With the season of the calendar the property is false (C104_season_refuted): there is a study in which in every hour of the first quarter no flows make the recorded shortages balance. |
| C105 | Over the generator's period every unit and line is in each state as often as its card says | `gstate`, `lstate`, `seeder`, `datax`, main loop | the orbit of 65539 modulo 2^25 is exactly two residue classes modulo 8 (order 2^23, counting); thresholds counted by floor and ceiling; runs by C73; a run of 1000 years as the instance | proved | `C105_unit_frequency`, `C105_line_frequency`, `C105_run_mean`, `C105_applies` | Per unit and per line (joint frequencies: C47, C73); exact rationals, as C14, C15; the rounding of the random numbers is the subject of C101. |
| C106 | The annual figures are those of the year's draws | main loop, `hour`, `gstate`, `sumcap`, `year`, `datax`, `xldnew` | induction over the run with year ends: the books of the draws so far (C71, C73) carry over each event, a year end finds exactly 8760 / step of them (C07); `scarceCards` as the instance | partial | `C106_year_partial`, `C106_applies`, `C106_season_refuted` | Proved for runs in which no line or area limit binds at any draw, in hourly and daily mode; season and maintenance week are the program's (the following season, the preceding week: C69, C70), not the calendar's. A study (seasonCards) in which according to the cards and the calendar nobody ever lacks anything (NeverShort) has 2184 loss-of-load hours at every year end of every run. |
| C107 | A better system never looks worse | as C106, two inputs | monotonicity of the lack of the pool in the cards, draw by draw, with the streams of C73; then the books of C106 | partial | `C107_better_partial`, `C107_applies`, `C107_daily_refuted` | Proved for studies in which no limit binds, with the same places in the list and additional units at the end; lower peaks in hourly mode, in daily mode when all are lowered by the same factor or all areas have the same forecast uncertainty (otherwise the evaluated hour may change). The bound allows 1 MW per area and draw with a shortage; without loss sharing C115 does without it. False of the code in daily mode otherwise: C107_daily_refuted gives two studies in which no limit binds and which differ only in one peak; the one with the higher peak never has a loss of load, the one with the lower peak has one on every day of every year in the highest forecast tier. |
| C108 | Adding a unit leaves the random history of the others alone | `seeder`, main loop | the streams of C73; 123456 * 9649598 is not divisible by 256, so neighbouring streams differ at every draw | partial | `C108_units_partial`, `C108_lines_refuted` | Proved for the units. False of the code for the lines: their streams follow those of the units, so one more unit gives every line other random numbers at every draw. |
| C109 | The running count of shortages per area is the history's | `hrstat`, `hour`, `year`, `intm`, `rstart`, main loop | induction over the run with its tally; restart by C32 | proved | `C109_count`, `C109_snapshot`, `C109_cards` | Events are the unit of time here. |
| C110 | An ample network never decides | `assign`, `tm2`, `transm`, `hour`, `year`, `datax`, main loop | a cut argument: a flow that comes from angles is at most what the exporting areas export, which is at most the deficits; induction over the tiers and the run; annual figures by C106 | proved | `C110_calm`, `C110_completes`, `C110_networks`, `transm_ample` | With the program's rating season and maintenance week (C69, C70), as in C106. Without an area in need the program stops with an error (C43). |
| C111 | The sharing rule decides who bears a shortage | `assign`, `transm`, `hour`, `datax`, main loop | closed forms of `assign` for both rules pushed through one evaluation; induction over the tiers of an hour, lifted to every draw of a run as in C104; the loss-sharing violation by a computed witness | partial | `C111_evaluation`, `C111_shares_partial`, `C111_need_zero`, `C111_need_le`, `C111_need_total`, `C111_load_total`, `C111_own_total`, `C111_total`, `C111_rule_refuted` | Proved for every draw at which no limit binds and no contract is in force, up to the whole-MW recording: without loss sharing in full. With loss sharing the program violates the rule in the tiers in which every area is at least 1 MW short (it records each own deficit; refuted with a witness, including an area whose record rises when its capacity rises); in all other tiers the rule is proved. Missing: draws at which a limit binds (the linear program decides, C58). |
| C112 | The annual figures of every area are those of its share | `hour`, `hrstat`, `assign`, `transm`, `year`, `datax`, main loop | the closed form of one evaluation (C111) with the monotonicity of the shares over the forecast tiers (so that a skipped tier has nothing to record) gives the exact increment of every area counter at a draw; induction over the run as in C106, with the counters that are not cleared carried along | partial | `C112_hour`, `C112_draw_partial`, `C112_year_partial`, `C112_no_cost`, `C112_applies`, `C106_season_refuted` | The exact whole-MW figures of every area at every year end of every run in which no limit binds, in hourly and daily mode, for both sharing rules; what an area bears is stated in Spec/Sharing.lean (borne). Partial because the program clears the area counters with the indices interchanged (C30): the counters that are not cleared are shown to hold the sum over all years so far; the season and the maintenance week are the program's (C09, C68). Missing: draws at which a limit binds. A study (seasonCards) in which according to the cards and the calendar nobody ever lacks anything (NeverShort) has 2184 loss-of-load hours and 218400 MWh in the books of one area at every year end. |
| C113 | A network that never binds has no influence at all | `hour`, `transm`, `year`, main loop, `datax`, `seeder` | the entry of an hour is shown to be a function of capacities, loads and sharing rule only (tier by tier, C111 and C113_evaluation); the set-ups agree outside the network; then a simulation between the two runs, by induction over the events, with the control part of the loop separated from the rest of the state (`step_pre`) | proved | `C113_evaluation`, `C113_figures`, `C113_report`, `C113_ample` | For every two studies that differ only in the network (lines of any number, flow limits) and in neither of which a limit binds (Calm): after equally many events the same log, unit seeds, counters, sums, histograms, tables, report data and stop flag (C113_figures); both end with the same exit and print the same report (C113_report). C113_ample: from the cards alone, both studies run to the same regular end. C113_evaluation is the fact underneath: an evaluation that leaves anybody short leaves nobody with a negative shortage. An example with two networks beside the theorems. |
| C114 | The printed report follows from the input files | `hour`, `hrstat`, `pkstat`, `year`, `report`, main loop, `datax` | the entries of a draw are determined (`HourTiers_unique`) and equal to the shares of C112; induction over the history of a run gives the draws of every year; their sums are put into the report theorem of C72 | partial | `C114_report_partial`, `C114_year_partial`, `C114_ample_partial`, `figures_plain`, `C114_season_refuted` | All figures of the report of every run in which no limit binds, exactly: days (only the peak hour of a day counts, and never the last hour of the year), hours and whole MWh of every area with means and standard errors, the distributions, the pool with its standard errors; C114_ample_partial from the cards alone (the run ends and prints it). Partial because the program's figures are not the intended ones in three points, which the theorem states as they are: area counters that the year end does not clear keep the earlier years (Carried, C30; figures_plain says when there are none), the line of the pool is that of the last year divided by the number of years (C63), and the rating season and maintenance week are the program's (C09, C68, C69). Missing: draws at which a limit binds. A study (seasonCards) in which according to the cards and the calendar nobody ever lacks anything (NeverShort) gets a report with 2184 loss-of-load hours and 218400 MWh per year for one area. |
| C115 | A better system is worse for nobody | `hour`, `hrstat`, `pkstat`, `year`, `report`, main loop, `datax` | without loss sharing the share of an area is monotone in the needs of all areas (`borne_need_mono`), the capacity of an area is monotone in the cards (`areaCap_mono`); the equations of C114 turn this into inequalities of all figures | partial | `C115_books_partial`, `C115_report_partial`, `C115_daily_refuted` | Proved except for lower peaks in daily mode: both for the annual books and for the final report, exactly (no rounding slack). The hypothesis that there is no loss sharing is needed: see C111_rule_refuted. The annual values of later areas carry earlier years (C30), which does not affect the comparison. Peaks may be lower in hourly mode, and in daily mode if all are lowered by the same factor; otherwise the property is false in daily mode (C115_daily_refuted: only the peak of another area is lower, and an area that never had a loss of load has one every day), because the program then evaluates another hour of the day. |
| C116 | The page shows the figures | the text written by `report` (Model/Text) | decimal text of a rational or real number (`fixedText_shown`); a cell is blanks and a word (`CellOK`), so the words of a line are the figures (`cells_words`); lines are cut at line ends (`lw_sep`), piece by piece over the whole text; with C114 end to end | proved | `C116_report_text`, `C116_read_back`, `C116_area_lines`, `fixedText_shown` | The text is modelled character by character (Model/Text.lean), the numbers exactly (rational, standard deviations real): the rounding of double precision before printing is not in it (see C118, C119), and a mean below half a unit is shown as 0. C116_report_text: the lines of the whole report, any values. C116_area_lines: from the cards alone, the run ends and the line of every area shows its name, peak, and the means and standard errors that the streams and the sharing rule give (C114). |
| C117 | The annual tables can be read like the final report | the text written by `year` (Model/Text) | as C116; the refutations compare the number of lines and the first words | partial | `C117_annual_partial`, `C117_lines_refuted`, `C117_number_refuted` | The exact lines of every annual table. The rows of the areas are on lines of their own with the right figures, but the program numbers areas and tiers from 0 (the final report and the input from 1), so the same area has different numbers in the two tables (C117_number_refuted, for all rows), and it writes no line ends between the rows of the pool, which all run together on one line (C117_lines_refuted, for all tables). |
| C118 | Double precision does not spoil the printed averages | the weighted averages, sums, means and mean shortages in binary64 (Model/FloatReport) | induction over the orders of summation and over the years, with a relation for a number of roundings that is closed under sums, products and quotients | proved | `C118_mean`, `C118_hours`, `C118_shortage` | In binary64 arithmetic (Model/FloatReport.lean), from the annual counts in the tiers to the printed word read back, for every order of the additions of the tiers (DotF) and with fused multiply-adds. Counts are whole numbers (below 2^53 for the shortage); overflow is out of scope. The per-tier rows are sums of whole numbers and one division. |
| C119 | Double precision does not spoil the printed standard errors | the number under the root and the printed word in binary64 (Model/FloatReport) | the error bound of C99 for whole values; for the refutation, a computation in the kernel that holds for every rounding of the library functions by monotonicity | partial | `C119_whole_partial`, `C119_nan_refuted` | Without load forecast uncertainty (whole annual values) the printed standard error is always a number and off by at most half a unit of the last digit and a fraction 2e, where the squares of the annual values add up to at most e * 2^48. With forecast tiers it fails: with the same weighted value every year (three hours in the second tier, eleven years) the number under the root is negative and the program prints nan where the standard error is 0, for every order of the additions and every rounding of the library functions (C119_nan_refuted). |
| C120 | The forecast tiers of an hour are evaluated independently of each other | `tierBody`, `tierLoop`, `transm`, `tm1`, `tm2` as before (Model/Hour, Transm, Network) | the arrays of the intact network are determined (uniqueness of the inverse), induction over the tiers with the invariant of C39; refutation on a concrete hour with the solver followed pass by pass | partial | `C120_evaluation_partial`, `C120_tier_partial`, `C120_hour_partial`, `C120_hour_refuted` | Proved as long as no earlier tier of the hour needed a re-dispatch (the tier itself may). After a re-dispatch it fails, because tm2 puts the admittance matrix in the place of the impedance matrix (C39_redispatch_refuted) and hour rebuilds it only once: C120_hour_refuted is an hour in which 32 MW remain unserved in the second tier whatever flows, and the second tier evaluated by itself records them, but the program records nothing for it nor for any later tier. |
| C121 | What a run leaves in output.txt | `yearPage`, `yearFinal`, `yearFile`, `fileCfg` (Model/Output) on top of Model/Program and Model/Text | a run with the file and a run without it simulate each other; invariant over all states: old content, pages of the years that ended, report exactly when the stop flag is set; then the texts are cut into lines (C116, C117) | proved | `C121_output`, `C121_during`, `C121_writes`, `C121_cards` | The file is a component of the state (Model/Output.lean). A yearly event that raises an exception is taken to write nothing (in the code a part of its page may be there). The lines of a page are those of C117 (rows of the pool on one line, numbering from 0), the lines of the report those of C116. C121_cards goes from the input cards to the content of the file for studies that share freely (in hourly mode without annual tables, where the table fails in a year without a loss, C50). |
| C122 | The annual pages follow from the input files | nothing new: `annualTable` (Model/Year), Model/Text and Model/Output on top of the run from cards | the history of the draws (C72, C114) gives the counters at every year end, including the energy at the daily peaks; the rows of the totals are members of the table; their words are on the page (C117) and the page is in the file (C121) | partial | `C122_pages_partial`, `C122_cards_partial`, `C122_season_refuted` | The figures of every page, exactly, for every run in which no limit binds, and from the cards alone in daily mode (in hourly mode a year without loss of load by generation raises an exception: C50). Partial because the property is false for the areas whose counters are not cleared at the year end (C30): their pages contain the earlier years too (Carried in areaFig; areaFig_plain: all others show their year alone). As for C114 season and maintenance week are the program's (C69, C70). C122_season_refuted: a study in which an area never lacks anything by the calendar, bears losses on 91 days of every year by the season of the program, and has 182 days on its page of the second year. |
| C123 | The printed maintenance schedule | `maintText`, `pmscFile`, `smaintFile` (Model/PmscText) on top of Model/Pmsc and Model/Text | the text of an area is cut into lines and words; induction over the areas with the frame theorem of C62 (areas and numbers of units are unchanged); a page determines its rows and its weekly numbers, so the intended page is a different one | partial | `C123_pages_partial`, `C123_refuted` | Proved: one page per area with units, in order, numbered, nothing written without the report, and exactly what each page shows. False of the code: no page ever has a row for a unit, and the capacity on maintenance is never added to the weekly peaks. |
| C124 | The available capacity of an area is right on average | nothing new | the capacity of a draw is the sum of the shares of the units (C69); the shares of each unit over a full period are counted (C105); every draw of a long run is a step of it | proved | `C124_mean_capacity`, `C124_applies` | Exact rationals (the rounding of the random numbers is the subject of C101). Planned outages and seasonal ratings are left out by the property: they are in force at fixed times of the year and the sum over a stretch then depends on where in the period those times fall. C124_applies: a run of 1000 years (longCards) in which all hypotheses hold. |
