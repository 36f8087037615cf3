{
 "claims": [
  {
   "property": "C01",
   "status": "proved",
   "theorems": [
    "Narp.Props.C01_calendar_is_priority_queue"
   ],
   "note": ""
  },
  {
   "property": "C02",
   "status": "proved",
   "theorems": [
    "Narp.Props.C02_calendar_always_seven"
   ],
   "note": ""
  },
  {
   "property": "C03",
   "status": "partial",
   "theorems": [
    "Narp.Props.C03_interleaving_partial",
    "Narp.Props.C03_interleaving_refuted"
   ],
   "note": "The general claim is false of the code (witness proved); it holds when every removal is followed by a filing, which is the only use made by the program."
  },
  {
   "property": "C04",
   "status": "proved",
   "theorems": [
    "Narp.Props.C04_initl_eq_scheduled"
   ],
   "note": ""
  },
  {
   "property": "C05",
   "status": "proved",
   "theorems": [
    "Narp.Props.C05_clock_monotone",
    "Narp.Props.C05_scheduler_never_raises"
   ],
   "note": ""
  },
  {
   "property": "C06",
   "status": "proved",
   "theorems": [
    "Narp.Props.C06_terminates",
    "Narp.Props.C06_horizon",
    "Narp.Props.C06_exit_reason"
   ],
   "note": ""
  },
  {
   "property": "C07",
   "status": "proved",
   "theorems": [
    "Narp.Props.C07_year_is_8760_hours",
    "Narp.Props.C07_draw_times"
   ],
   "note": ""
  },
  {
   "property": "C08",
   "status": "partial",
   "theorems": [
    "Narp.Props.C08_season_ends_partial",
    "Narp.Props.C08_season_ends_refuted"
   ],
   "note": "False of the code: season ends of the input are ignored. Proved: what the change times are, and that an input season end is never used."
  },
  {
   "property": "C09",
   "status": "partial",
   "theorems": [
    "Narp.Props.C09_season_column_partial",
    "Narp.Props.C09_season_column_refuted"
   ],
   "note": "False of the code: off by one season. Proved for every run."
  },
  {
   "property": "C10",
   "status": "proved",
   "theorems": [
    "Narp.Props.C10_exactly_listed_units_off"
   ],
   "note": ""
  },
  {
   "property": "C100",
   "status": "proved",
   "theorems": [
    "Narp.Props.C100_calendar",
    "Narp.Props.C100_year_number"
   ],
   "note": ""
  },
  {
   "property": "C101",
   "status": "proved",
   "theorems": [
    "Narp.Props.C101_margin"
   ],
   "note": "Up to the margins before assistance; the float arithmetic of the network solution is not modelled."
  },
  {
   "property": "C102",
   "status": "proved",
   "theorems": [
    "Narp.Props.C102_on_disk",
    "Narp.Props.C102_loss",
    "Narp.Props.C102_cards"
   ],
   "note": "Events are the unit of a crash here; a crash during the write itself is C103."
  },
  {
   "property": "C103",
   "status": "partial",
   "theorems": [
    "Narp.Props.C103_torn_detected",
    "Narp.Props.C103_torn_refuted",
    "Narp.Props.C103_final_refuted"
   ],
   "note": "Proved: a torn file is always detected (given a reader that knows its end, as pickle does). False of the code: the file is truncated before it is rewritten, so a crash then loses everything, and a run that ends by convergence leaves an older snapshot."
  },
  {
   "property": "C104",
   "status": "partial",
   "theorems": [
    "Narp.Props.C104_balance_partial",
    "Narp.Props.C104_applies",
    "Narp.Props.C104_applies_daily",
    "Narp.Props.C104_season_refuted"
   ],
   "note": "Proved in hourly and daily mode for every draw in which no limit binds (re-dispatch: C58), for both loss sharing rules; as for C69 the capacities are those of the following season and the preceding maintenance week. With the season of the calendar the property is false (C104_season_refuted): there is a study in which in every hour of the first quarter no flows make the recorded shortages balance."
  },
  {
   "property": "C105",
   "status": "proved",
   "theorems": [
    "Narp.Props.C105_unit_frequency",
    "Narp.Props.C105_line_frequency",
    "Narp.Props.C105_run_mean",
    "Narp.Props.C105_applies"
   ],
   "note": "Per unit and per line (joint frequencies: C47, C73); exact rationals, as C14, C15; the rounding of the random numbers is the subject of C101."
  },
  {
   "property": "C106",
   "status": "partial",
   "theorems": [
    "Narp.Props.C106_year_partial",
    "Narp.Props.C106_applies",
    "Narp.Props.C106_season_refuted"
   ],
   "note": "Proved for runs in which no line or area limit binds at any draw, in hourly and daily mode; season and maintenance week are the program's (the following season, the preceding week: C69, C70), not the calendar's. A study (seasonCards) in which according to the cards and the calendar nobody ever lacks anything (NeverShort) has 2184 loss-of-load hours at every year end of every run."
  },
  {
   "property": "C107",
   "status": "partial",
   "theorems": [
    "Narp.Props.C107_better_partial",
    "Narp.Props.C107_applies",
    "Narp.Props.C107_daily_refuted"
   ],
   "note": "Proved for studies in which no limit binds, with the same places in the list and additional units at the end; lower peaks in hourly mode, in daily mode when all are lowered by the same factor or all areas have the same forecast uncertainty (otherwise the evaluated hour may change). The bound allows 1 MW per area and draw with a shortage; without loss sharing C115 does without it. False of the code in daily mode otherwise: C107_daily_refuted gives two studies in which no limit binds and which differ only in one peak; the one with the higher peak never has a loss of load, the one with the lower peak has one on every day of every year in the highest forecast tier."
  },
  {
   "property": "C108",
   "status": "partial",
   "theorems": [
    "Narp.Props.C108_units_partial",
    "Narp.Props.C108_lines_refuted"
   ],
   "note": "Proved for the units. False of the code for the lines: their streams follow those of the units, so one more unit gives every line other random numbers at every draw."
  },
  {
   "property": "C109",
   "status": "proved",
   "theorems": [
    "Narp.Props.C109_count",
    "Narp.Props.C109_snapshot",
    "Narp.Props.C109_cards"
   ],
   "note": "Events are the unit of time here."
  },
  {
   "property": "C11",
   "status": "partial",
   "theorems": [
    "Narp.Props.C11_week_row_partial",
    "Narp.Props.C11_week_row_refuted"
   ],
   "note": "False of the code: the plan is applied one week late. Proved for every run."
  },
  {
   "property": "C110",
   "status": "proved",
   "theorems": [
    "Narp.Props.C110_calm",
    "Narp.Props.C110_completes",
    "Narp.Props.C110_networks",
    "Narp.Props.transm_ample"
   ],
   "note": "With the program's rating season and maintenance week (C69, C70), as in C106. Without an area in need the program stops with an error (C43)."
  },
  {
   "property": "C111",
   "status": "partial",
   "theorems": [
    "Narp.Props.C111_evaluation",
    "Narp.Props.C111_shares_partial",
    "Narp.Props.C111_need_zero",
    "Narp.Props.C111_need_le",
    "Narp.Props.C111_need_total",
    "Narp.Props.C111_load_total",
    "Narp.Props.C111_own_total",
    "Narp.Props.C111_total",
    "Narp.Props.C111_rule_refuted"
   ],
   "note": "Proved for every draw at which no limit binds and no contract is in force, up to the whole-MW recording: without loss sharing in full. With loss sharing the program violates the rule in the tiers in which every area is at least 1 MW short (it records each own deficit; refuted with a witness, including an area whose record rises when its capacity rises); in all other tiers the rule is proved. Missing: draws at which a limit binds (the linear program decides, C58)."
  },
  {
   "property": "C112",
   "status": "partial",
   "theorems": [
    "Narp.Props.C112_hour",
    "Narp.Props.C112_draw_partial",
    "Narp.Props.C112_year_partial",
    "Narp.Props.C112_no_cost",
    "Narp.Props.C112_applies",
    "Narp.Props.C106_season_refuted"
   ],
   "note": "The exact whole-MW figures of every area at every year end of every run in which no limit binds, in hourly and daily mode, for both sharing rules; what an area bears is stated in Spec/Sharing.lean (borne). Partial because the program clears the area counters with the indices interchanged (C30): the counters that are not cleared are shown to hold the sum over all years so far; the season and the maintenance week are the program's (C09, C68). Missing: draws at which a limit binds. A study (seasonCards) in which according to the cards and the calendar nobody ever lacks anything (NeverShort) has 2184 loss-of-load hours and 218400 MWh in the books of one area at every year end."
  },
  {
   "property": "C113",
   "status": "proved",
   "theorems": [
    "Narp.Props.C113_evaluation",
    "Narp.Props.C113_figures",
    "Narp.Props.C113_report",
    "Narp.Props.C113_ample"
   ],
   "note": "For every two studies that differ only in the network (lines of any number, flow limits) and in neither of which a limit binds (Calm): after equally many events the same log, unit seeds, counters, sums, histograms, tables, report data and stop flag (C113_figures); both end with the same exit and print the same report (C113_report). C113_ample: from the cards alone, both studies run to the same regular end. C113_evaluation is the fact underneath: an evaluation that leaves anybody short leaves nobody with a negative shortage. An example with two networks beside the theorems."
  },
  {
   "property": "C114",
   "status": "partial",
   "theorems": [
    "Narp.Props.C114_report_partial",
    "Narp.Props.C114_year_partial",
    "Narp.Props.C114_ample_partial",
    "Narp.Props.figures_plain",
    "Narp.Props.C114_season_refuted"
   ],
   "note": "All figures of the report of every run in which no limit binds, exactly: days (only the peak hour of a day counts, and never the last hour of the year), hours and whole MWh of every area with means and standard errors, the distributions, the pool with its standard errors; C114_ample_partial from the cards alone (the run ends and prints it). Partial because the program's figures are not the intended ones in three points, which the theorem states as they are: area counters that the year end does not clear keep the earlier years (Carried, C30; figures_plain says when there are none), the line of the pool is that of the last year divided by the number of years (C63), and the rating season and maintenance week are the program's (C09, C68, C69). Missing: draws at which a limit binds. A study (seasonCards) in which according to the cards and the calendar nobody ever lacks anything (NeverShort) gets a report with 2184 loss-of-load hours and 218400 MWh per year for one area."
  },
  {
   "property": "C115",
   "status": "partial",
   "theorems": [
    "Narp.Props.C115_books_partial",
    "Narp.Props.C115_report_partial",
    "Narp.Props.C115_daily_refuted"
   ],
   "note": "Proved except for lower peaks in daily mode: both for the annual books and for the final report, exactly (no rounding slack). The hypothesis that there is no loss sharing is needed: see C111_rule_refuted. The annual values of later areas carry earlier years (C30), which does not affect the comparison. Peaks may be lower in hourly mode, and in daily mode if all are lowered by the same factor; otherwise the property is false in daily mode (C115_daily_refuted: only the peak of another area is lower, and an area that never had a loss of load has one every day), because the program then evaluates another hour of the day."
  },
  {
   "property": "C116",
   "status": "proved",
   "theorems": [
    "Narp.Props.C116_report_text",
    "Narp.Props.C116_read_back",
    "Narp.Props.C116_area_lines",
    "Narp.Props.fixedText_shown"
   ],
   "note": "The text is modelled character by character (Model/Text.lean), the numbers exactly (rational, standard deviations real): the rounding of double precision before printing is not in it (see C118, C119), and a mean below half a unit is shown as 0. C116_report_text: the lines of the whole report, any values. C116_area_lines: from the cards alone, the run ends and the line of every area shows its name, peak, and the means and standard errors that the streams and the sharing rule give (C114)."
  },
  {
   "property": "C117",
   "status": "partial",
   "theorems": [
    "Narp.Props.C117_annual_partial",
    "Narp.Props.C117_lines_refuted",
    "Narp.Props.C117_number_refuted"
   ],
   "note": "The exact lines of every annual table. The rows of the areas are on lines of their own with the right figures, but the program numbers areas and tiers from 0 (the final report and the input from 1), so the same area has different numbers in the two tables (C117_number_refuted, for all rows), and it writes no line ends between the rows of the pool, which all run together on one line (C117_lines_refuted, for all tables)."
  },
  {
   "property": "C118",
   "status": "proved",
   "theorems": [
    "Narp.Props.C118_mean",
    "Narp.Props.C118_hours",
    "Narp.Props.C118_shortage"
   ],
   "note": "In binary64 arithmetic (Model/FloatReport.lean), from the annual counts in the tiers to the printed word read back, for every order of the additions of the tiers (DotF) and with fused multiply-adds. Counts are whole numbers (below 2^53 for the shortage); overflow is out of scope. The per-tier rows are sums of whole numbers and one division."
  },
  {
   "property": "C119",
   "status": "partial",
   "theorems": [
    "Narp.Props.C119_whole_partial",
    "Narp.Props.C119_nan_refuted"
   ],
   "note": "Without load forecast uncertainty (whole annual values) the printed standard error is always a number and off by at most half a unit of the last digit and a fraction 2e, where the squares of the annual values add up to at most e * 2^48. With forecast tiers it fails: with the same weighted value every year (three hours in the second tier, eleven years) the number under the root is negative and the program prints nan where the standard error is 0, for every order of the additions and every rounding of the library functions (C119_nan_refuted)."
  },
  {
   "property": "C12",
   "status": "proved",
   "theorems": [
    "Narp.Props.C12_states",
    "Narp.Props.C12_variate_can_exceed_one"
   ],
   "note": "Second theorem: with other seeds than the one the main program uses, the range claim would be false."
  },
  {
   "property": "C120",
   "status": "partial",
   "theorems": [
    "Narp.Props.C120_evaluation_partial",
    "Narp.Props.C120_tier_partial",
    "Narp.Props.C120_hour_partial",
    "Narp.Props.C120_hour_refuted"
   ],
   "note": "Proved as long as no earlier tier of the hour needed a re-dispatch (the tier itself may). After a re-dispatch it fails, because tm2 puts the admittance matrix in the place of the impedance matrix (C39_redispatch_refuted) and hour rebuilds it only once: C120_hour_refuted is an hour in which 32 MW remain unserved in the second tier whatever flows, and the second tier evaluated by itself records them, but the program records nothing for it nor for any later tier."
  },
  {
   "property": "C121",
   "status": "proved",
   "theorems": [
    "Narp.Props.C121_output",
    "Narp.Props.C121_during",
    "Narp.Props.C121_writes",
    "Narp.Props.C121_cards"
   ],
   "note": "The file is a component of the state (Model/Output.lean). A yearly event that raises an exception is taken to write nothing (in the code a part of its page may be there). The lines of a page are those of C117 (rows of the pool on one line, numbering from 0), the lines of the report those of C116. C121_cards goes from the input cards to the content of the file for studies that share freely (in hourly mode without annual tables, where the table fails in a year without a loss, C50)."
  },
  {
   "property": "C122",
   "status": "partial",
   "theorems": [
    "Narp.Props.C122_pages_partial",
    "Narp.Props.C122_cards_partial",
    "Narp.Props.C122_season_refuted"
   ],
   "note": "The figures of every page, exactly, for every run in which no limit binds, and from the cards alone in daily mode (in hourly mode a year without loss of load by generation raises an exception: C50). Partial because the property is false for the areas whose counters are not cleared at the year end (C30): their pages contain the earlier years too (Carried in areaFig; areaFig_plain: all others show their year alone). As for C114 season and maintenance week are the program's (C69, C70). C122_season_refuted: a study in which an area never lacks anything by the calendar, bears losses on 91 days of every year by the season of the program, and has 182 days on its page of the second year."
  },
  {
   "property": "C123",
   "status": "partial",
   "theorems": [
    "Narp.Props.C123_pages_partial",
    "Narp.Props.C123_refuted"
   ],
   "note": "Proved: one page per area with units, in order, numbered, nothing written without the report, and exactly what each page shows. False of the code: no page ever has a row for a unit, and the capacity on maintenance is never added to the weekly peaks."
  },
  {
   "property": "C124",
   "status": "proved",
   "theorems": [
    "Narp.Props.C124_mean_capacity",
    "Narp.Props.C124_applies"
   ],
   "note": "Exact rationals (the rounding of the random numbers is the subject of C101). Planned outages and seasonal ratings are left out by the property: they are in force at fixed times of the year and the sum over a stretch then depends on where in the period those times fall. C124_applies: a run of 1000 years (longCards) in which all hypotheses hold."
  },
  {
   "property": "C13",
   "status": "proved",
   "theorems": [
    "Narp.Props.C13_streams",
    "Narp.Props.C13_seeder_injective"
   ],
   "note": ""
  },
  {
   "property": "C14",
   "status": "proved",
   "theorems": [
    "Narp.Props.C14_unit_state",
    "Narp.Props.C14_avail_bounds",
    "Narp.Props.C14_variants_agree"
   ],
   "note": ""
  },
  {
   "property": "C15",
   "status": "proved",
   "theorems": [
    "Narp.Props.C15_line_state",
    "Narp.Props.C15_monotone",
    "Narp.Props.C15_variants"
   ],
   "note": ""
  },
  {
   "property": "C16",
   "status": "proved",
   "theorems": [
    "Narp.Props.C16_per_area",
    "Narp.Props.C16_conservation",
    "Narp.Props.C16_interchange",
    "Narp.Props.C16_default_ownership"
   ],
   "note": ""
  },
  {
   "property": "C17",
   "status": "proved",
   "theorems": [
    "Narp.Props.C17_export_amount",
    "Narp.Props.C17_export_conserves_and_inverts",
    "Narp.Props.C17_variants_agree"
   ],
   "note": ""
  },
  {
   "property": "C18",
   "status": "proved",
   "theorems": [
    "Narp.Props.C18_daily_peaks",
    "Narp.Props.C18_variants_agree",
    "Narp.Props.C18_pool_peak",
    "Narp.Props.C18_input_steps"
   ],
   "note": ""
  },
  {
   "property": "C19",
   "status": "proved",
   "theorems": [
    "Narp.Props.C19_weekly_peaks"
   ],
   "note": ""
  },
  {
   "property": "C20",
   "status": "proved",
   "theorems": [
    "Narp.Props.C20_scaled_peak"
   ],
   "note": "For raw peaks of at least 0.001 (smaller ones are replaced by 0.001 in the code)."
  },
  {
   "property": "C21",
   "status": "proved",
   "theorems": [
    "Narp.Props.C21_name",
    "Narp.Props.C21_resolution"
   ],
   "note": ""
  },
  {
   "property": "C22",
   "status": "proved",
   "theorems": [
    "Narp.Props.C22_thresholds"
   ],
   "note": ""
  },
  {
   "property": "C23",
   "status": "partial",
   "theorems": [
    "Narp.Props.C23_season_of_peak_partial",
    "Narp.Props.C23_fourth_season_refuted"
   ],
   "note": "False when the peak day is in the fourth season."
  },
  {
   "property": "C24",
   "status": "proved",
   "theorems": [
    "Narp.Props.C24_unit",
    "Narp.Props.C24_unit_tail",
    "Narp.Props.C24_indices",
    "Narp.Props.C24_rounding",
    "Narp.Props.C24_table",
    "Narp.Props.C24_versions",
    "Narp.Props.C24_dead_unit_refuted",
    "Narp.Props.C24_tiny_unit_refuted"
   ],
   "note": "For units not rounded to 0 MW and not permanently out; the two last theorems show that the table is wrong for those."
  },
  {
   "property": "C25",
   "status": "partial",
   "theorems": [
    "Narp.Props.C25_table_partial",
    "Narp.Props.C25_week_event",
    "Narp.Props.C25_table_refuted"
   ],
   "note": "False for week 51 and for overlapping windows; proved otherwise, end to end with the weekly event."
  },
  {
   "property": "C26",
   "status": "proved",
   "theorems": [
    "Narp.Props.C26_hrstat",
    "Narp.Props.C26_pkstat",
    "Narp.Props.C26_once"
   ],
   "note": ""
  },
  {
   "property": "C27",
   "status": "proved",
   "theorems": [
    "Narp.Props.C27_pool_is_sum"
   ],
   "note": "Over every history of whole-MW margins."
  },
  {
   "property": "C28",
   "status": "partial",
   "theorems": [
    "Narp.Props.C28_same_cause_partial",
    "Narp.Props.C28_same_cause_refuted"
   ],
   "note": "False of the code in general (witness proved); proved under the stated balance condition."
  },
  {
   "property": "C29",
   "status": "proved",
   "theorems": [
    "Narp.Props.C29_histograms_count_years",
    "Narp.Props.C29_one_entry_per_year",
    "Narp.Props.C29_zero_step_refuted",
    "Narp.Props.C29_run"
   ],
   "note": "For every histogram step > 0; the third theorem shows what happens when a step is 0."
  },
  {
   "property": "C30",
   "status": "partial",
   "theorems": [
    "Narp.Props.C30_counters_zeroed_partial",
    "Narp.Props.C30_reset_refuted",
    "Narp.Props.C30_accumulates_refuted",
    "Narp.Props.C49_run_partial"
   ],
   "note": "False of the code for some counters; the counters that are zeroed are characterised exactly, and the claim holds over every run when there are as many areas as tiers."
  },
  {
   "property": "C31",
   "status": "proved",
   "theorems": [
    "Narp.Props.C31_cumulative",
    "Narp.Props.C31_squares",
    "Narp.Props.C31_weights",
    "Narp.Props.C31_run"
   ],
   "note": ""
  },
  {
   "property": "C32",
   "status": "proved",
   "theorems": [
    "Narp.Props.C32_restored",
    "Narp.Props.C32_network"
   ],
   "note": ""
  },
  {
   "property": "C33",
   "status": "proved",
   "theorems": [
    "Narp.Props.C33_convergence_test",
    "Narp.Props.C33_variants_agree",
    "Narp.Props.C33_run",
    "Narp.Props.C33_exit",
    "Narp.Props.C33_cards"
   ],
   "note": ""
  },
  {
   "property": "C34",
   "status": "proved",
   "theorems": [
    "Narp.Props.C34_nodal",
    "Narp.Props.C34_symm_rows",
    "Narp.Props.C34_self_loop_refuted"
   ],
   "note": "The last theorem shows that the restriction to lines between different areas is needed."
  },
  {
   "property": "C35",
   "status": "proved",
   "theorems": [
    "Narp.Props.C35_kirchhoff",
    "Narp.Props.C35_sampled"
   ],
   "note": ""
  },
  {
   "property": "C36",
   "status": "proved",
   "theorems": [
    "Narp.Props.C36_line",
    "Narp.Props.C36_ref",
    "Narp.Props.C36_network"
   ],
   "note": ""
  },
  {
   "property": "C37",
   "status": "proved",
   "theorems": [
    "Narp.Props.C37_reduced",
    "Narp.Props.C37_map",
    "Narp.Props.C37_versions"
   ],
   "note": ""
  },
  {
   "property": "C38",
   "status": "proved",
   "theorems": [
    "Narp.Props.C38_accepted",
    "Narp.Props.C38_converse"
   ],
   "note": ""
  },
  {
   "property": "C39",
   "status": "partial",
   "theorems": [
    "Narp.Props.C39_unchanged_partial",
    "Narp.Props.C39_evaluation_partial",
    "Narp.Props.C39_redispatch_refuted"
   ],
   "note": "Proved for evaluations that need no re-dispatch; refuted for every evaluation with re-dispatch (impedance matrix overwritten by the admittance matrix)."
  },
  {
   "property": "C40",
   "status": "proved",
   "theorems": [
    "Narp.Props.C40_assign",
    "Narp.Props.C40_sharing",
    "Narp.Props.C40_versions"
   ],
   "note": ""
  },
  {
   "property": "C41",
   "status": "proved",
   "theorems": [
    "Narp.Props.C41_basis",
    "Narp.Props.C41_reinvert",
    "Narp.Props.C41_optimal",
    "Narp.Props.C41_phase1",
    "Narp.Props.C41_descent",
    "Narp.Props.C41_feasible",
    "Narp.Props.C41_exact_feasible",
    "Narp.Props.C41_exact_no_error",
    "Narp.Props.C41_exact_optimal",
    "Narp.Props.C41_exact",
    "Narp.Props.C41_crisp_whole",
    "Narp.Props.C41_total"
   ],
   "note": "C41_total: for whole-number data with small minors and no degenerate basis the solver ends, without an exception, with a cheapest solution; all conditions are on the data."
  },
  {
   "property": "C42",
   "status": "partial",
   "theorems": [
    "Narp.Props.C42_net",
    "Narp.Props.C42_versions",
    "Narp.Props.C42_first_area_refuted",
    "Narp.Props.C42_refuted"
   ],
   "note": "The mapping is characterised exactly and is right for every area but the first of the reduced numbering; for that area it is refuted (sign of the first coordinate)."
  },
  {
   "property": "C43",
   "status": "partial",
   "theorems": [
    "Narp.Props.C43_no_shortage_refuted",
    "Narp.Props.C43_processed_partial",
    "Narp.Props.C43_run_refuted",
    "Narp.Props.C43_run_completes_partial",
    "Narp.Props.C43_cards_partial",
    "Narp.Props.C43_abort_exact",
    "Narp.Props.C43_run_exact",
    "Narp.Props.C43_adequate_refuted",
    "Narp.Props.hour_exact"
   ],
   "note": "False of the code: an hour without shortage raises IndexError. For studies with an ample network it is determined exactly which runs are aborted: a run ends regularly if every draw is survived in the sense of Spec/Abort.lean, and raises IndexError at the first one that is not; a system too small to be ever short always raises."
  },
  {
   "property": "C44",
   "status": "proved",
   "theorems": [
    "Narp.Props.C44_later_tiers_not_short"
   ],
   "note": ""
  },
  {
   "property": "C45",
   "status": "partial",
   "theorems": [
    "Narp.Props.C45_peak_hour_partial",
    "Narp.Props.C45_daily",
    "Narp.Props.C45_last_hour_refuted",
    "Narp.Props.C45_run_refuted",
    "Narp.Props.last_ok"
   ],
   "note": "False for the last hour of the year only. C45_run_refuted: in every run of a study read from cards whose pool load is largest in the last hour of the year, the draw of that hour takes place, the hourly counters of every area and of the pool grow by one hour, and no peak counter changes."
  },
  {
   "property": "C46",
   "status": "proved",
   "theorems": [
    "Narp.Props.C46_inverse",
    "Narp.Props.C46_singular",
    "Narp.Props.C46_multipliers",
    "Narp.Props.C46_info",
    "Narp.Props.C46_versions",
    "Narp.Props.C46_inverse_versions",
    "Narp.Props.C46_determinant_refuted",
    "Narp.Props.C46_determinant_zero",
    "Narp.Props.C46_info_refuted"
   ],
   "note": "Exact arithmetic. The documented meaning of the unused indicator INFO is refuted for a zero first pivot."
  },
  {
   "property": "C47",
   "status": "partial",
   "theorems": [
    "Narp.Props.C47_consecutive_draws_dependent_refuted",
    "Narp.Props.C47_three_in_a_row_refuted",
    "Narp.Props.C47_three_in_a_row_run_refuted"
   ],
   "note": "The property is false of the generator for every seed; the theorem proves its negation."
  },
  {
   "property": "C48",
   "status": "partial",
   "theorems": [
    "Narp.Props.C48_every_hour_draws_partial",
    "Narp.Props.C48_sampling_frequency_refuted",
    "Narp.Props.C48_run_refuted",
    "Narp.Props.sparse_ok"
   ],
   "note": "False of the code for frequency > 1: the hours in between raise UnboundLocalError. C48_run_refuted: every run of every accepted study in hourly mode with such a frequency makes at most one draw, completes no year and is aborted by an exception."
  },
  {
   "property": "C49",
   "status": "proved",
   "theorems": [
    "Narp.Props.C49_annual_counters"
   ],
   "note": ""
  },
  {
   "property": "C50",
   "status": "partial",
   "theorems": [
    "Narp.Props.C50_table_partial",
    "Narp.Props.C50_exact_partial",
    "Narp.Props.C50_no_generation_loss_refuted",
    "Narp.Props.C50_stale_refuted",
    "Narp.Props.C50_daily_label_refuted"
   ],
   "note": "Several rows are stale or missing (refuted); the rest of the table is proved."
  },
  {
   "property": "C51",
   "status": "proved",
   "theorems": [
    "Narp.Props.C51_connected",
    "Narp.Props.C51_inverse"
   ],
   "note": ""
  },
  {
   "property": "C52",
   "status": "proved",
   "theorems": [
    "Narp.Props.C52_pool_shortage"
   ],
   "note": ""
  },
  {
   "property": "C53",
   "status": "proved",
   "theorems": [
    "Narp.Props.C53_total_flows",
    "Narp.Props.C53_scheduled_flows"
   ],
   "note": ""
  },
  {
   "property": "C54",
   "status": "proved",
   "theorems": [
    "Narp.Props.C54_limits_restored",
    "Narp.Props.C64_limits_run"
   ],
   "note": ""
  },
  {
   "property": "C55",
   "status": "proved",
   "theorems": [
    "Narp.Props.C55_sound",
    "Narp.Props.C55_complete",
    "Narp.Props.C55_feasible",
    "Narp.Props.connls_unit"
   ],
   "note": "Both directions, same cost, always feasible, starting basis is the identity."
  },
  {
   "property": "C56",
   "status": "partial",
   "theorems": [
    "Narp.Props.C56_dispatch_partial",
    "Narp.Props.C56_exact",
    "Narp.Props.C42_refuted"
   ],
   "note": "Proved for every area but the first, when the solver ends with non-negative values and artificial variables at 0; false for the first area (C42_refuted)."
  },
  {
   "property": "C57",
   "status": "partial",
   "theorems": [
    "Narp.Props.C57_no_error_partial",
    "Narp.Props.C57_sharing_refuted",
    "Narp.Props.C57_listing_refuted",
    "Narp.Props.C57_size_refuted"
   ],
   "note": "Proved without loss sharing and listing, within the table sizes, on runs clear of the solver tolerances. False of the code otherwise: exceptions with loss sharing, with the listing, and above the fixed table sizes."
  },
  {
   "property": "C58",
   "status": "partial",
   "theorems": [
    "Narp.Props.C58_shortages_partial",
    "Narp.Props.C58_exact",
    "Narp.Props.C58_first_area_refuted",
    "Narp.Props.C58_missed_shortage_refuted"
   ],
   "note": "Proved for every area but the first; for that area no shortage is ever recorded (refuted, with an end-to-end witness)."
  },
  {
   "property": "C59",
   "status": "proved",
   "theorems": [
    "Narp.Props.C59_recorded_shortages",
    "Narp.Props.C59_recorded_shortages_daily",
    "Narp.Props.C59_recorded_used"
   ],
   "note": "Hourly and daily mode, sampling frequency 1 (others fail, C48)."
  },
  {
   "property": "C60",
   "status": "proved",
   "theorems": [
    "Narp.Props.C60_pool_energy"
   ],
   "note": "Hourly and daily mode."
  },
  {
   "property": "C61",
   "status": "proved",
   "theorems": [
    "Narp.Props.C61_contracts"
   ],
   "note": ""
  },
  {
   "property": "C62",
   "status": "partial",
   "theorems": [
    "Narp.Props.C62_frame",
    "Narp.Props.C62_schedule",
    "Narp.Props.C62_automatic_refuted",
    "Narp.Props.C62_preset_refuted",
    "Narp.Props.C62_table",
    "Narp.Props.dataxID_wired",
    "Narp.Props.C62_plan_partial",
    "Narp.Props.C62_two_units_refuted"
   ],
   "note": "False of the code: automatic units are never scheduled, and a unit alone in its area loses its weeks; proved: nothing else changes and the table follows the entered weeks."
  },
  {
   "property": "C63",
   "status": "proved",
   "theorems": [
    "Narp.Props.C63_rows",
    "Narp.Props.C63_summary_areas",
    "Narp.Props.C63_distributions",
    "Narp.Props.C63_table_numbers",
    "Narp.Props.C63_no_error"
   ],
   "note": ""
  },
  {
   "property": "C64",
   "status": "proved",
   "theorems": [
    "Narp.Props.C64_units",
    "Narp.Props.C64_loads",
    "Narp.Props.C64_accepted",
    "Narp.Props.C64_required",
    "Narp.Props.C64_limits_run"
   ],
   "note": ""
  },
  {
   "property": "C65",
   "status": "partial",
   "theorems": [
    "Narp.Props.C65_contracts_refuted"
   ],
   "note": "False of the code: every input with such a card is rejected with an exception."
  },
  {
   "property": "C66",
   "status": "partial",
   "theorems": [
    "Narp.Props.C66_out_of_service_refuted",
    "Narp.Props.C66_never_out_refuted"
   ],
   "note": "False of the code, for every input: zeros are replaced by defaults (admittance -0.5, 1 MW), so that no line is ever out of service."
  },
  {
   "property": "C67",
   "status": "partial",
   "theorems": [
    "Narp.Props.C67_serial_refuted"
   ],
   "note": "False of the code: serial numbers have no effect."
  },
  {
   "property": "C68",
   "status": "partial",
   "theorems": [
    "Narp.Props.C68_numbers_partial",
    "Narp.Props.C68_numbers_refuted"
   ],
   "note": "Proved when no number exceeds the number of lines; otherwise the run fails with an IndexError."
  },
  {
   "property": "C69",
   "status": "partial",
   "theorems": [
    "Narp.Props.C69_capacity_partial",
    "Narp.Props.C69_capacity_refuted",
    "Narp.Props.C69_applies_refuted"
   ],
   "note": "What happens is characterised exactly, for every draw of every run; the property itself is false: the season is the following one and the planned outages are those of the preceding week (C09, C70). C69_capacity_refuted: for every input, wherever the ratings of the next season are lower, the area has less than its cards say, at every draw."
  },
  {
   "property": "C70",
   "status": "partial",
   "theorems": [
    "Narp.Props.C70_weeks_partial",
    "Narp.Props.C70_weeks_refuted",
    "Narp.Props.C70_concrete_refuted"
   ],
   "note": "False of the code: planned outages begin and end one week late in the first year."
  },
  {
   "property": "C71",
   "status": "partial",
   "theorems": [
    "Narp.Props.C71_energy_partial",
    "Narp.Props.C71_applies",
    "Narp.Props.C71_season_refuted"
   ],
   "note": "What happens is characterised exactly for hourly and daily mode and every draw in which no limit binds; as for C69 the property itself is false in the season and the week used. A study (seasonCards) in which according to the cards and the calendar nobody ever lacks anything (NeverShort) has more than 98 MWh recorded at every draw of the first quarter of every year of every run."
  },
  {
   "property": "C72",
   "status": "partial",
   "theorems": [
    "Narp.Props.C72_report_partial",
    "Narp.Props.C72_settings",
    "Narp.Props.setup_cap",
    "Narp.Props.C72_always_short_refuted",
    "Narp.Props.C72_concrete_refuted"
   ],
   "note": "What the report shows is characterised exactly; the property is false for the areas whose counters are not cleared at the year end (they contain all earlier years) and for the pool (last year divided by the number of years)."
  },
  {
   "property": "C73",
   "status": "partial",
   "theorems": [
    "Narp.Props.C73_streams",
    "Narp.Props.C73_no_repeat_partial",
    "Narp.Props.C73_shifted_units_refuted",
    "Narp.Props.C73_shifted_lines_refuted",
    "Narp.Props.C73_period_refuted",
    "Narp.Props.C73_apart_refuted"
   ],
   "note": "False of the code: units 32 apart share one stream shifted by 14848 draws, and all streams have period 2^23; proved: within a period no state comes twice."
  },
  {
   "property": "C74",
   "status": "proved",
   "theorems": [
    "Narp.Props.C74_load_file",
    "Narp.Props.C74_scaled",
    "Narp.Props.pyFloat_iff"
   ],
   "note": "Texts are lists of characters (ASCII white space); numbers are exact decimals (inf, nan and underscores left out)."
  },
  {
   "property": "C75",
   "status": "proved",
   "theorems": [
    "Narp.Props.C75_line_card",
    "Narp.Props.C75_rejected"
   ],
   "note": "The split of a csv file into columns is done by pandas and not modelled; the column META DATA, which the program parses itself, is."
  },
  {
   "property": "C76",
   "status": "proved",
   "theorems": [
    "Narp.Props.C76_files",
    "Narp.Props.C76_settings"
   ],
   "note": "Tables other than META DATA and the load file are taken as rows of typed columns (pandas)."
  },
  {
   "property": "C77",
   "status": "proved",
   "theorems": [
    "Narp.Props.C77_rejected"
   ],
   "note": ""
  },
  {
   "property": "C78",
   "status": "partial",
   "theorems": [
    "Narp.Props.C78_derating_refuted",
    "Narp.Props.C78_run_refuted",
    "Narp.Props.C78_applies"
   ],
   "note": "False of the code: the cards are read and never used. C78_run_refuted: a study read from its files whose only line should be out whenever unit P is out; in week 11 of the first year of every run P is out and area A lacks 150 MW, but only 60 MWh are recorded: the other 90 MW come over that line."
  },
  {
   "property": "C79",
   "status": "partial",
   "theorems": [
    "Narp.Props.C79_study_refuted",
    "Narp.Props.C13_user_seed_refuted"
   ],
   "note": "False of the code, for every input: the main program ignores the seed on the card, so that set-up, histories, errors and report are the same for all seeds."
  },
  {
   "property": "C80",
   "status": "partial",
   "theorems": [
    "Narp.Props.C20_read_partial",
    "Narp.Props.C20_area_ten_refuted"
   ],
   "note": "Proved for areas 1 to 9; refuted for area 10."
  },
  {
   "property": "C81",
   "status": "partial",
   "theorems": [
    "Narp.Props.C27_variants_agree_partial",
    "Narp.Props.C27_variants_refuted"
   ],
   "note": "Proved for whole-MW margins; refuted otherwise."
  },
  {
   "property": "C82",
   "status": "partial",
   "theorems": [
    "Narp.Props.C82_totals_partial",
    "Narp.Props.C82_run_refuted",
    "Narp.Props.scarce_years5",
    "Narp.Props.C31_pool_weighted_refuted"
   ],
   "note": "False of the code: the pool's weighted sums are lost between years. What happens is proved for every input: the totals are those of the last year alone. C82_run_refuted: a run of five years, short for 8760 hours in each, ends with the total 8760 in place of 43800."
  },
  {
   "property": "C83",
   "status": "partial",
   "theorems": [
    "Narp.Props.C83_resumed_partial",
    "Narp.Props.C83_applies",
    "Narp.Props.C32_seeds_refuted",
    "Narp.Props.C32_maintenance_refuted",
    "Narp.Props.C32_interval_refuted",
    "Narp.Props.C83_stop_refuted"
   ],
   "note": "False of the code: random seeds, maintenance status and next snapshot year are not restored (what is: C32). Proved, for every run from input cards: nothing else is missing but the hour of the last draw and the annual counters; with these put back the resumed run ends exactly as the uninterrupted one, if that goes on. C83_stop_refuted: the decision to stop is not saved either; resumed from the year end at which the run stopped (always saved at the horizon), it simulates on."
  },
  {
   "property": "C84",
   "status": "partial",
   "theorems": [
    "Narp.Props.C84_changes_partial",
    "Narp.Props.C84_cards_partial",
    "Narp.Props.C84_run_refuted",
    "Narp.Props.C84_constant_refuted",
    "Narp.Props.C33_pool_weighted_refuted"
   ],
   "note": "False of the code: the statistic restarts every year. What the test sees is characterised exactly (for every history: the year-to-year changes in place of the values), so that a growing statistic is declared converged and a constant one never is (both proved). In runs: C84_cards_partial (from the cards, exactly when a run ends); C84_run_refuted (a study short for 8760 hours in every year goes on to its horizon of ten years)."
  },
  {
   "property": "C85",
   "status": "partial",
   "theorems": [
    "Narp.Props.C36_admittance_partial",
    "Narp.Props.C36_admittance_refuted"
   ],
   "note": "Proved unless a line at the reference area changes; refuted in that case."
  },
  {
   "property": "C86",
   "status": "proved",
   "theorems": [
    "Narp.Props.C39_rebuilt",
    "Narp.Props.C54_limits_restored"
   ],
   "note": ""
  },
  {
   "property": "C87",
   "status": "partial",
   "theorems": [
    "Narp.Props.C41_terminates_partial",
    "Narp.Props.C41_terminates_refuted",
    "Narp.Props.C41_feasible_refuted",
    "Narp.Props.C41_unbounded_refuted",
    "Narp.Props.C41_artificial_refuted"
   ],
   "note": "Termination proved for non-degenerate programs, refuted in general (Beale); non-negativity refuted without the tolerances; unbounded and infeasible programs are not reported (refuted)."
  },
  {
   "property": "C88",
   "status": "partial",
   "theorems": [
    "Narp.Props.C53_area_limits_refuted",
    "Narp.Props.C88_several_lines_refuted",
    "Narp.Props.C88_no_contracts_partial"
   ],
   "note": "Proved when nothing is scheduled by contract, which is so in every run from input cards (C65). False of the code with contracts: the scheduled import is added to the limit instead of subtracted, and only the last line of an area counts."
  },
  {
   "property": "C89",
   "status": "partial",
   "theorems": [
    "Narp.Props.C63_summary_pool_partial",
    "Narp.Props.C63_pool_average_refuted",
    "Narp.Props.C63_pool_reserve_refuted",
    "Narp.Props.C63_pool_sd_refuted"
   ],
   "note": "Peak and capacity proved; the averages hold the last year only, the reserve is that of the last area, the deviation is wrong (refuted)."
  },
  {
   "property": "C90",
   "status": "partial",
   "theorems": [
    "Narp.Props.C64_lines_partial",
    "Narp.Props.C66_out_of_service_refuted"
   ],
   "note": "Proved up to the replacement of zeros (C66: false of a line whose card has zeros) and when no line number exceeds the number of lines (C68)."
  },
  {
   "property": "C91",
   "status": "partial",
   "theorems": [
    "Narp.Props.C77_accepted_refuted",
    "Narp.Props.C91_accepted_iff_partial",
    "Narp.Props.C91_short_row_partial"
   ],
   "note": "False of the code: a row with one number is taken for twelve equal loads, missing rows and sections count as zero. Proved: exactly which load files, as text, the reader accepts; and that a file with a row of two to eleven numbers is rejected."
  },
  {
   "property": "C92",
   "status": "proved",
   "theorems": [
    "Narp.Props.C92_sound",
    "Narp.Props.C92_complete",
    "Narp.Props.C92_feasible",
    "Narp.Props.conls_unit",
    "Narp.Props.C92_optimal",
    "Narp.Props.C92_no_worse",
    "Narp.Props.C92_exact",
    "Narp.Props.C92_size"
   ],
   "note": "Of conls as a function: transm's caller tm2 fails before it gets the result (C57_sharing_refuted). Optimality up to the solver's tolerance, for a final solution without negative entries or artificial columns."
  },
  {
   "property": "C93",
   "status": "partial",
   "theorems": [
    "Narp.Props.C93_equal_limits_partial",
    "Narp.Props.C93_limits_refuted"
   ],
   "note": "Proved when the import and export limits are equal, as in every run from cards. False of the code otherwise: conls reads import and export limits from swapped columns."
  },
  {
   "property": "C94",
   "status": "proved",
   "theorems": [
    "Narp.Props.C94_samplers_agree",
    "Narp.Props.C94_rejected",
    "Narp.Props.C94_rescaled_refuted"
   ],
   "note": "numpy's generator is not modelled: the random numbers are given. For tables that end near but not at 1 the samplers differ (refuted)."
  },
  {
   "property": "C95",
   "status": "proved",
   "theorems": [
    "Narp.Props.C95_unit",
    "Narp.Props.C95_line",
    "Narp.Props.C95_states",
    "Narp.Props.C95_other_seed_refuted",
    "Narp.Props.seeds_mod"
   ],
   "note": "Overflow, nan and infinities are out of scope of the binary64 model. With random states other than the program's the claim is false (C95_other_seed_refuted)."
  },
  {
   "property": "C96",
   "status": "proved",
   "theorems": [
    "Narp.Props.C96_scaled"
   ],
   "note": ""
  },
  {
   "property": "C97",
   "status": "partial",
   "theorems": [
    "Narp.Props.C97_close_partial",
    "Narp.Props.C97_as_written_refuted",
    "Narp.Props.C97_missed_refuted"
   ],
   "note": "False of the code: 29 MW become 28.999999999999996 MW, and a shortage of 1 MW is missed. Proved: the peak hours are used as written, every load up to a relative error of 2^-51, and all loads as written when the peak is a power of two."
  },
  {
   "property": "C98",
   "status": "proved",
   "theorems": [
    "Narp.Props.C98_margin",
    "Narp.Props.margin_err"
   ],
   "note": ""
  },
  {
   "property": "C99",
   "status": "partial",
   "theorems": [
    "Narp.Props.C99_whole",
    "Narp.Props.C99_stuck_refuted"
   ],
   "note": "Proved for statistics with whole values (one forecast tier), up to an explicit relative margin. False for weighted statistics: a constant annual value is never accepted as converged in years 5 to 39, because the number under the root is negative."
  }
 ]
}