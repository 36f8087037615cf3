claim("C01","proved","C01_calendar_is_priority_queue")
claim("C02","proved","C02_calendar_always_seven")
claim("C03","partial","C03_interleaving_partial C03_interleaving_refuted","The general claim is false of the code (witness proved); it holds when every removal is followed by a filing, which is the only use made by the program.")
claim("C04","proved","C04_initl_eq_scheduled")
claim("C05","proved","C05_clock_monotone C05_scheduler_never_raises")
claim("C06","proved","C06_terminates C06_horizon C06_exit_reason")
claim("C07","proved","C07_year_is_8760_hours C07_draw_times")
claim("C08","partial","C08_season_ends_partial C08_season_ends_refuted","False of the code: season ends of the input are ignored. Proved: what the change times are, and that an input season end is never used.")
claim("C09","partial","C09_season_column_partial C09_season_column_refuted","False of the code: off by one season. Proved for every run.")
claim("C10","proved","C10_exactly_listed_units_off")
claim("C11","partial","C11_week_row_partial C11_week_row_refuted","False of the code: the plan is applied one week late. Proved for every run.")
claim("C12","proved","C12_states C12_variate_can_exceed_one","Second theorem: with other seeds than the one the main program uses, the range claim would be false.")
claim("C13","proved","C13_streams C13_seeder_injective")
claim("C14","proved","C14_unit_state C14_avail_bounds C14_variants_agree")
claim("C15","proved","C15_line_state C15_monotone C15_variants")
claim("C16","proved","C16_per_area C16_conservation C16_interchange C16_default_ownership")
claim("C17","proved","C17_export_amount C17_export_conserves_and_inverts C17_variants_agree")
claim("C18","proved","C18_daily_peaks C18_variants_agree C18_pool_peak C18_input_steps")
claim("C19","proved","C19_weekly_peaks")
claim("C20","proved","C20_scaled_peak","For raw peaks of at least 0.001 (smaller ones are replaced by 0.001 in the code).")
claim("C21","proved","C21_name C21_resolution")
claim("C22","proved","C22_thresholds")
claim("C23","partial","C23_season_of_peak_partial C23_fourth_season_refuted","False when the peak day is in the fourth season.")
claim("C25","partial","C25_table_partial C25_week_event C25_table_refuted","False for week 51 and for overlapping windows; proved otherwise, end to end with the weekly event.")
claim("C47","partial","C47_consecutive_draws_dependent_refuted C47_three_in_a_row_refuted C47_three_in_a_row_run_refuted","The property is false of the generator for every seed; the theorem proves its negation.")
claim("C26","proved","C26_hrstat C26_pkstat C26_once")
claim("C27","proved","C27_pool_is_sum","Over every history of whole-MW margins.")
claim("C28","partial","C28_same_cause_partial C28_same_cause_refuted","False of the code in general (witness proved); proved under the stated balance condition.")
claim("C43","partial","C43_no_shortage_refuted C43_processed_partial C43_run_refuted C43_run_completes_partial C43_cards_partial C43_abort_exact C43_run_exact C43_adequate_refuted hour_exact","False of the code: an hour without shortage raises IndexError. For studies with an ample network it is determined exactly which runs are aborted: a run ends regularly if every draw is survived in the sense of Spec/Abort.lean, and raises IndexError at the first one that is not; a system too small to be ever short always raises.")
claim("C44","proved","C44_later_tiers_not_short")
claim("C45","partial","C45_peak_hour_partial C45_daily C45_last_hour_refuted C45_run_refuted last_ok","False for the last hour of the year only. C45_run_refuted: in every run of a study read from cards whose pool load is largest in the last hour of the year, the draw of that hour takes place, the hourly counters of every area and of the pool grow by one hour, and no peak counter changes.")
claim("C48","partial","C48_every_hour_draws_partial C48_sampling_frequency_refuted C48_run_refuted sparse_ok","False of the code for frequency > 1: the hours in between raise UnboundLocalError. C48_run_refuted: every run of every accepted study in hourly mode with such a frequency makes at most one draw, completes no year and is aborted by an exception.")
claim("C49","proved","C49_annual_counters")
claim("C29","proved","C29_histograms_count_years C29_one_entry_per_year C29_zero_step_refuted C29_run","For every histogram step > 0; the third theorem shows what happens when a step is 0.")
claim("C30","partial","C30_counters_zeroed_partial C30_reset_refuted C30_accumulates_refuted C49_run_partial","False of the code for some counters; the counters that are zeroed are characterised exactly, and the claim holds over every run when there are as many areas as tiers.")
claim("C31","proved","C31_cumulative C31_squares C31_weights C31_run")
claim("C33","proved","C33_convergence_test C33_variants_agree C33_run C33_exit C33_cards")
claim("C50","partial","C50_table_partial C50_exact_partial C50_no_generation_loss_refuted C50_stale_refuted C50_daily_label_refuted","Several rows are stale or missing (refuted); the rest of the table is proved.")
claim("C32","proved","C32_restored C32_network")
claim("C24","proved","C24_unit C24_unit_tail C24_indices C24_rounding C24_table C24_versions C24_dead_unit_refuted C24_tiny_unit_refuted","For units not rounded to 0 MW and not permanently out; the two last theorems show that the table is wrong for those.")
claim("C34","proved","C34_nodal C34_symm_rows C34_self_loop_refuted","The last theorem shows that the restriction to lines between different areas is needed.")
claim("C36","proved","C36_line C36_ref C36_network")
claim("C37","proved","C37_reduced C37_map C37_versions")
claim("C51","proved","C51_connected C51_inverse")
claim("C35","proved","C35_kirchhoff C35_sampled")
claim("C38","proved","C38_accepted C38_converse")
claim("C39","partial","C39_unchanged_partial C39_evaluation_partial C39_redispatch_refuted","Proved for evaluations that need no re-dispatch; refuted for every evaluation with re-dispatch (impedance matrix overwritten by the admittance matrix).")
claim("C40","proved","C40_assign C40_sharing C40_versions")
claim("C52","proved","C52_pool_shortage")
claim("C53","proved","C53_total_flows C53_scheduled_flows")
claim("C54","proved","C54_limits_restored C64_limits_run")
claim("C46","proved","C46_inverse C46_singular C46_multipliers C46_info C46_versions C46_inverse_versions C46_determinant_refuted C46_determinant_zero C46_info_refuted","Exact arithmetic. The documented meaning of the unused indicator INFO is refuted for a zero first pivot.")
claim("C41","proved","C41_basis C41_reinvert C41_optimal C41_phase1 C41_descent C41_feasible C41_exact_feasible C41_exact_no_error C41_exact_optimal C41_exact C41_crisp_whole C41_total","C41_total: for whole-number data with small minors and no degenerate basis the solver ends, without an exception, with a cheapest solution; all conditions are on the data.")
claim("C42","partial","C42_net C42_versions C42_first_area_refuted C42_refuted","The mapping is characterised exactly and is right for every area but the first of the reduced numbering; for that area it is refuted (sign of the first coordinate).")
claim("C55","proved","C55_sound C55_complete C55_feasible connls_unit","Both directions, same cost, always feasible, starting basis is the identity.")
claim("C56","partial","C56_dispatch_partial C56_exact C42_refuted","Proved for every area but the first, when the solver ends with non-negative values and artificial variables at 0; false for the first area (C42_refuted).")
claim("C57","partial","C57_no_error_partial C57_sharing_refuted C57_listing_refuted C57_size_refuted","Proved without loss sharing and listing, within the table sizes, on runs clear of the solver tolerances. False of the code otherwise: exceptions with loss sharing, with the listing, and above the fixed table sizes.")
claim("C58","partial","C58_shortages_partial C58_exact C58_first_area_refuted C58_missed_shortage_refuted","Proved for every area but the first; for that area no shortage is ever recorded (refuted, with an end-to-end witness).")
claim("C59","proved","C59_recorded_shortages C59_recorded_shortages_daily C59_recorded_used","Hourly and daily mode, sampling frequency 1 (others fail, C48).")
claim("C60","proved","C60_pool_energy","Hourly and daily mode.")
claim("C61","proved","C61_contracts")
claim("C62","partial","C62_frame C62_schedule C62_automatic_refuted C62_preset_refuted C62_table dataxID_wired C62_plan_partial C62_two_units_refuted","False of the code: automatic units are never scheduled, and a unit alone in its area loses its weeks; proved: nothing else changes and the table follows the entered weeks.")
claim("C63","proved","C63_rows C63_summary_areas C63_distributions C63_table_numbers C63_no_error")
claim("C64","proved","C64_units C64_loads C64_accepted C64_required C64_limits_run")
claim("C65","partial","C65_contracts_refuted","False of the code: every input with such a card is rejected with an exception.")
claim("C66","partial","C66_out_of_service_refuted C66_never_out_refuted","False of the code, for every input: zeros are replaced by defaults (admittance -0.5, 1 MW), so that no line is ever out of service.")
claim("C67","partial","C67_serial_refuted","False of the code: serial numbers have no effect.")
claim("C68","partial","C68_numbers_partial C68_numbers_refuted","Proved when no number exceeds the number of lines; otherwise the run fails with an IndexError.")
claim("C69","partial","C69_capacity_partial C69_capacity_refuted C69_applies_refuted","What happens is characterised exactly, for every draw of every run; the property itself is false: the season is the following one and the planned outages are those of the preceding week (C09, C70). C69_capacity_refuted: for every input, wherever the ratings of the next season are lower, the area has less than its cards say, at every draw.")
claim("C70","partial","C70_weeks_partial C70_weeks_refuted C70_concrete_refuted","False of the code: planned outages begin and end one week late in the first year.")
claim("C71","partial","C71_energy_partial C71_applies C71_season_refuted","What happens is characterised exactly for hourly and daily mode and every draw in which no limit binds; as for C69 the property itself is false in the season and the week used. A study (seasonCards) in which according to the cards and the calendar nobody ever lacks anything (NeverShort) has more than 98 MWh recorded at every draw of the first quarter of every year of every run.")
claim("C72","partial","C72_report_partial C72_settings setup_cap C72_always_short_refuted C72_concrete_refuted","What the report shows is characterised exactly; the property is false for the areas whose counters are not cleared at the year end (they contain all earlier years) and for the pool (last year divided by the number of years).")
claim("C73","partial","C73_streams C73_no_repeat_partial C73_shifted_units_refuted C73_shifted_lines_refuted C73_period_refuted C73_apart_refuted","False of the code: units 32 apart share one stream shifted by 14848 draws, and all streams have period 2^23; proved: within a period no state comes twice.")
claim("C74","proved","C74_load_file C74_scaled pyFloat_iff","Texts are lists of characters (ASCII white space); numbers are exact decimals (inf, nan and underscores left out).")
claim("C75","proved","C75_line_card C75_rejected","The split of a csv file into columns is done by pandas and not modelled; the column META DATA, which the program parses itself, is.")
claim("C76","proved","C76_files C76_settings","Tables other than META DATA and the load file are taken as rows of typed columns (pandas).")
claim("C77","proved","C77_rejected")
claim("C78","partial","C78_derating_refuted C78_run_refuted C78_applies","False of the code: the cards are read and never used. C78_run_refuted: a study read from its files whose only line should be out whenever unit P is out; in week 11 of the first year of every run P is out and area A lacks 150 MW, but only 60 MWh are recorded: the other 90 MW come over that line.")
claim("C79","partial","C79_study_refuted C13_user_seed_refuted","False of the code, for every input: the main program ignores the seed on the card, so that set-up, histories, errors and report are the same for all seeds.")
claim("C80","partial","C20_read_partial C20_area_ten_refuted","Proved for areas 1 to 9; refuted for area 10.")
claim("C81","partial","C27_variants_agree_partial C27_variants_refuted","Proved for whole-MW margins; refuted otherwise.")
claim("C82","partial","C82_totals_partial C82_run_refuted scarce_years5 C31_pool_weighted_refuted","False of the code: the pool's weighted sums are lost between years. What happens is proved for every input: the totals are those of the last year alone. C82_run_refuted: a run of five years, short for 8760 hours in each, ends with the total 8760 in place of 43800.")
claim("C83","partial","C83_resumed_partial C83_applies C32_seeds_refuted C32_maintenance_refuted C32_interval_refuted C83_stop_refuted","False of the code: random seeds, maintenance status and next snapshot year are not restored (what is: C32). Proved, for every run from input cards: nothing else is missing but the hour of the last draw and the annual counters; with these put back the resumed run ends exactly as the uninterrupted one, if that goes on. C83_stop_refuted: the decision to stop is not saved either; resumed from the year end at which the run stopped (always saved at the horizon), it simulates on.")
claim("C84","partial","C84_changes_partial C84_cards_partial C84_run_refuted C84_constant_refuted C33_pool_weighted_refuted","False of the code: the statistic restarts every year. What the test sees is characterised exactly (for every history: the year-to-year changes in place of the values), so that a growing statistic is declared converged and a constant one never is (both proved). In runs: C84_cards_partial (from the cards, exactly when a run ends); C84_run_refuted (a study short for 8760 hours in every year goes on to its horizon of ten years).")
claim("C85","partial","C36_admittance_partial C36_admittance_refuted","Proved unless a line at the reference area changes; refuted in that case.")
claim("C86","proved","C39_rebuilt C54_limits_restored")
claim("C87","partial","C41_terminates_partial C41_terminates_refuted C41_feasible_refuted C41_unbounded_refuted C41_artificial_refuted","Termination proved for non-degenerate programs, refuted in general (Beale); non-negativity refuted without the tolerances; unbounded and infeasible programs are not reported (refuted).")
claim("C88","partial","C53_area_limits_refuted C88_several_lines_refuted C88_no_contracts_partial","Proved when nothing is scheduled by contract, which is so in every run from input cards (C65). False of the code with contracts: the scheduled import is added to the limit instead of subtracted, and only the last line of an area counts.")
claim("C89","partial","C63_summary_pool_partial C63_pool_average_refuted C63_pool_reserve_refuted C63_pool_sd_refuted","Peak and capacity proved; the averages hold the last year only, the reserve is that of the last area, the deviation is wrong (refuted).")
claim("C90","partial","C64_lines_partial C66_out_of_service_refuted","Proved up to the replacement of zeros (C66: false of a line whose card has zeros) and when no line number exceeds the number of lines (C68).")
claim("C91","partial","C77_accepted_refuted C91_accepted_iff_partial C91_short_row_partial","False of the code: a row with one number is taken for twelve equal loads, missing rows and sections count as zero. Proved: exactly which load files, as text, the reader accepts; and that a file with a row of two to eleven numbers is rejected.")
claim("C92","proved","C92_sound C92_complete C92_feasible conls_unit C92_optimal C92_no_worse C92_exact C92_size","Of conls as a function: transm's caller tm2 fails before it gets the result (C57_sharing_refuted). Optimality up to the solver's tolerance, for a final solution without negative entries or artificial columns.")
claim("C93","partial","C93_equal_limits_partial C93_limits_refuted","Proved when the import and export limits are equal, as in every run from cards. False of the code otherwise: conls reads import and export limits from swapped columns.")
claim("C94","proved","C94_samplers_agree C94_rejected C94_rescaled_refuted","numpy's generator is not modelled: the random numbers are given. For tables that end near but not at 1 the samplers differ (refuted).")
claim("C95","proved","C95_unit C95_line C95_states C95_other_seed_refuted seeds_mod","Overflow, nan and infinities are out of scope of the binary64 model. With random states other than the program's the claim is false (C95_other_seed_refuted).")
claim("C96","proved","C96_scaled")
claim("C97","partial","C97_close_partial C97_as_written_refuted C97_missed_refuted","False of the code: 29 MW become 28.999999999999996 MW, and a shortage of 1 MW is missed. Proved: the peak hours are used as written, every load up to a relative error of 2^-51, and all loads as written when the peak is a power of two.")
claim("C98","proved","C98_margin margin_err")
claim("C99","partial","C99_whole C99_stuck_refuted","Proved for statistics with whole values (one forecast tier), up to an explicit relative margin. False for weighted statistics: a constant annual value is never accepted as converged in years 5 to 39, because the number under the root is negative.")
claim("C100","proved","C100_calendar C100_year_number")
claim("C101","proved","C101_margin","Up to the margins before assistance; the float arithmetic of the network solution is not modelled.")
claim("C102","proved","C102_on_disk C102_loss C102_cards","Events are the unit of a crash here; a crash during the write itself is C103.")
claim("C103","partial","C103_torn_detected C103_torn_refuted C103_final_refuted","Proved: a torn file is always detected (given a reader that knows its end, as pickle does). False of the code: the file is truncated before it is rewritten, so a crash then loses everything, and a run that ends by convergence leaves an older snapshot.")
claim("C104","partial","C104_balance_partial C104_applies C104_applies_daily C104_season_refuted","Proved in hourly and daily mode for every draw in which no limit binds (re-dispatch: C58), for both loss sharing rules; as for C69 the capacities are those of the following season and the preceding maintenance week. With the season of the calendar the property is false (C104_season_refuted): there is a study in which in every hour of the first quarter no flows make the recorded shortages balance.")
claim("C105","proved","C105_unit_frequency C105_line_frequency C105_run_mean C105_applies","Per unit and per line (joint frequencies: C47, C73); exact rationals, as C14, C15; the rounding of the random numbers is the subject of C101.")
claim("C106","partial","C106_year_partial C106_applies C106_season_refuted","Proved for runs in which no line or area limit binds at any draw, in hourly and daily mode; season and maintenance week are the program's (the following season, the preceding week: C69, C70), not the calendar's. A study (seasonCards) in which according to the cards and the calendar nobody ever lacks anything (NeverShort) has 2184 loss-of-load hours at every year end of every run.")
claim("C107","partial","C107_better_partial C107_applies C107_daily_refuted","Proved for studies in which no limit binds, with the same places in the list and additional units at the end; lower peaks in hourly mode, in daily mode when all are lowered by the same factor or all areas have the same forecast uncertainty (otherwise the evaluated hour may change). The bound allows 1 MW per area and draw with a shortage; without loss sharing C115 does without it. False of the code in daily mode otherwise: C107_daily_refuted gives two studies in which no limit binds and which differ only in one peak; the one with the higher peak never has a loss of load, the one with the lower peak has one on every day of every year in the highest forecast tier.")
claim("C108","partial","C108_units_partial C108_lines_refuted","Proved for the units. False of the code for the lines: their streams follow those of the units, so one more unit gives every line other random numbers at every draw.")
claim("C109","proved","C109_count C109_snapshot C109_cards","Events are the unit of time here.")
claim("C110","proved","C110_calm C110_completes C110_networks transm_ample","With the program's rating season and maintenance week (C69, C70), as in C106. Without an area in need the program stops with an error (C43).")
claim("C111","partial","C111_evaluation C111_shares_partial C111_need_zero C111_need_le C111_need_total C111_load_total C111_own_total C111_total C111_rule_refuted","Proved for every draw at which no limit binds and no contract is in force, up to the whole-MW recording: without loss sharing in full. With loss sharing the program violates the rule in the tiers in which every area is at least 1 MW short (it records each own deficit; refuted with a witness, including an area whose record rises when its capacity rises); in all other tiers the rule is proved. Missing: draws at which a limit binds (the linear program decides, C58).")
claim("C112","partial","C112_hour C112_draw_partial C112_year_partial C112_no_cost C112_applies C106_season_refuted","The exact whole-MW figures of every area at every year end of every run in which no limit binds, in hourly and daily mode, for both sharing rules; what an area bears is stated in Spec/Sharing.lean (borne). Partial because the program clears the area counters with the indices interchanged (C30): the counters that are not cleared are shown to hold the sum over all years so far; the season and the maintenance week are the program's (C09, C68). Missing: draws at which a limit binds. A study (seasonCards) in which according to the cards and the calendar nobody ever lacks anything (NeverShort) has 2184 loss-of-load hours and 218400 MWh in the books of one area at every year end.")
claim("C113","proved","C113_evaluation C113_figures C113_report C113_ample","For every two studies that differ only in the network (lines of any number, flow limits) and in neither of which a limit binds (Calm): after equally many events the same log, unit seeds, counters, sums, histograms, tables, report data and stop flag (C113_figures); both end with the same exit and print the same report (C113_report). C113_ample: from the cards alone, both studies run to the same regular end. C113_evaluation is the fact underneath: an evaluation that leaves anybody short leaves nobody with a negative shortage. An example with two networks beside the theorems.")
claim("C114","partial","C114_report_partial C114_year_partial C114_ample_partial figures_plain C114_season_refuted","All figures of the report of every run in which no limit binds, exactly: days (only the peak hour of a day counts, and never the last hour of the year), hours and whole MWh of every area with means and standard errors, the distributions, the pool with its standard errors; C114_ample_partial from the cards alone (the run ends and prints it). Partial because the program's figures are not the intended ones in three points, which the theorem states as they are: area counters that the year end does not clear keep the earlier years (Carried, C30; figures_plain says when there are none), the line of the pool is that of the last year divided by the number of years (C63), and the rating season and maintenance week are the program's (C09, C68, C69). Missing: draws at which a limit binds. A study (seasonCards) in which according to the cards and the calendar nobody ever lacks anything (NeverShort) gets a report with 2184 loss-of-load hours and 218400 MWh per year for one area.")
claim("C115","partial","C115_books_partial C115_report_partial C115_daily_refuted","Proved except for lower peaks in daily mode: both for the annual books and for the final report, exactly (no rounding slack). The hypothesis that there is no loss sharing is needed: see C111_rule_refuted. The annual values of later areas carry earlier years (C30), which does not affect the comparison. Peaks may be lower in hourly mode, and in daily mode if all are lowered by the same factor; otherwise the property is false in daily mode (C115_daily_refuted: only the peak of another area is lower, and an area that never had a loss of load has one every day), because the program then evaluates another hour of the day.")
claim("C116","proved","C116_report_text C116_read_back C116_area_lines fixedText_shown","The text is modelled character by character (Model/Text.lean), the numbers exactly (rational, standard deviations real): the rounding of double precision before printing is not in it (see C118, C119), and a mean below half a unit is shown as 0. C116_report_text: the lines of the whole report, any values. C116_area_lines: from the cards alone, the run ends and the line of every area shows its name, peak, and the means and standard errors that the streams and the sharing rule give (C114).")
claim("C117","partial","C117_annual_partial C117_lines_refuted C117_number_refuted","The exact lines of every annual table. The rows of the areas are on lines of their own with the right figures, but the program numbers areas and tiers from 0 (the final report and the input from 1), so the same area has different numbers in the two tables (C117_number_refuted, for all rows), and it writes no line ends between the rows of the pool, which all run together on one line (C117_lines_refuted, for all tables).")
claim("C118","proved","C118_mean C118_hours C118_shortage","In binary64 arithmetic (Model/FloatReport.lean), from the annual counts in the tiers to the printed word read back, for every order of the additions of the tiers (DotF) and with fused multiply-adds. Counts are whole numbers (below 2^53 for the shortage); overflow is out of scope. The per-tier rows are sums of whole numbers and one division.")
claim("C119","partial","C119_whole_partial C119_nan_refuted","Without load forecast uncertainty (whole annual values) the printed standard error is always a number and off by at most half a unit of the last digit and a fraction 2e, where the squares of the annual values add up to at most e * 2^48. With forecast tiers it fails: with the same weighted value every year (three hours in the second tier, eleven years) the number under the root is negative and the program prints nan where the standard error is 0, for every order of the additions and every rounding of the library functions (C119_nan_refuted).")
claim("C120","partial","C120_evaluation_partial C120_tier_partial C120_hour_partial C120_hour_refuted","Proved as long as no earlier tier of the hour needed a re-dispatch (the tier itself may). After a re-dispatch it fails, because tm2 puts the admittance matrix in the place of the impedance matrix (C39_redispatch_refuted) and hour rebuilds it only once: C120_hour_refuted is an hour in which 32 MW remain unserved in the second tier whatever flows, and the second tier evaluated by itself records them, but the program records nothing for it nor for any later tier.")
claim("C121","proved","C121_output C121_during C121_writes C121_cards","The file is a component of the state (Model/Output.lean). A yearly event that raises an exception is taken to write nothing (in the code a part of its page may be there). The lines of a page are those of C117 (rows of the pool on one line, numbering from 0), the lines of the report those of C116. C121_cards goes from the input cards to the content of the file for studies that share freely (in hourly mode without annual tables, where the table fails in a year without a loss, C50).")
claim("C122","partial","C122_pages_partial C122_cards_partial C122_season_refuted","The figures of every page, exactly, for every run in which no limit binds, and from the cards alone in daily mode (in hourly mode a year without loss of load by generation raises an exception: C50). Partial because the property is false for the areas whose counters are not cleared at the year end (C30): their pages contain the earlier years too (Carried in areaFig; areaFig_plain: all others show their year alone). As for C114 season and maintenance week are the program's (C69, C70). C122_season_refuted: a study in which an area never lacks anything by the calendar, bears losses on 91 days of every year by the season of the program, and has 182 days on its page of the second year.")
claim("C123","partial","C123_pages_partial C123_refuted","Proved: one page per area with units, in order, numbered, nothing written without the report, and exactly what each page shows. False of the code: no page ever has a row for a unit, and the capacity on maintenance is never added to the weekly peaks.")
claim("C124","proved","C124_mean_capacity C124_applies","Exact rationals (the rounding of the random numbers is the subject of C101). Planned outages and seasonal ratings are left out by the property: they are in force at fixed times of the year and the sum over a stretch then depends on where in the period those times fall. C124_applies: a run of 1000 years (longCards) in which all hypotheses hold.")
