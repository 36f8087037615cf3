# Axioms of the claimed theorems

Printed by Lean (`#print axioms`), collected by `tools/axioms.py`. All names are in the namespace `Narp.Props`.

## propext (1)

C13_user_seed_refuted

## propext, Quot.sound (6)

C103_torn_refuted, C10_exactly_listed_units_off, C13_streams, C25_table_partial, C25_week_event, C37_reduced

## propext, Classical.choice, Quot.sound (379)

C01_calendar_is_priority_queue, C02_calendar_always_seven, C03_interleaving_partial, C03_interleaving_refuted, C04_initl_eq_scheduled, C05_clock_monotone, C05_scheduler_never_raises, C06_exit_reason, C06_horizon, C06_terminates, C07_draw_times, C07_year_is_8760_hours, C08_season_ends_partial, C08_season_ends_refuted, C09_season_column_partial, C09_season_column_refuted, C100_calendar, C100_year_number, C101_margin, C102_cards, C102_loss, C102_on_disk, C103_final_refuted, C103_torn_detected, C104_applies, C104_applies_daily, C104_balance_partial, C104_season_refuted, C105_applies, C105_line_frequency, C105_run_mean, C105_unit_frequency, C106_applies, C106_season_refuted, C106_year_partial, C107_applies, C107_better_partial, C107_daily_refuted, C108_lines_refuted, C108_units_partial, C109_cards, C109_count, C109_snapshot, C110_calm, C110_completes, C110_networks, C111_evaluation, C111_load_total, C111_need_le, C111_need_total, C111_need_zero, C111_own_total, C111_rule_refuted, C111_shares_partial, C111_total, C112_applies, C112_draw_partial, C112_hour, C112_no_cost, C112_year_partial, C113_ample, C113_evaluation, C113_figures, C113_report, C114_ample_partial, C114_report_partial, C114_season_refuted, C114_year_partial, C115_books_partial, C115_daily_refuted, C115_report_partial, C116_area_lines, C116_read_back, C116_report_text, C117_annual_partial, C117_lines_refuted, C117_number_refuted, C118_hours, C118_mean, C118_shortage, C119_nan_refuted, C119_whole_partial, C11_week_row_partial, C11_week_row_refuted, C120_evaluation_partial, C120_hour_partial, C120_hour_refuted, C120_tier_partial, C121_cards, C121_during, C121_output, C121_writes, C122_cards_partial, C122_pages_partial, C122_season_refuted, C123_pages_partial, C123_refuted, C124_applies, C124_mean_capacity, C12_states, C12_variate_can_exceed_one, C13_seeder_injective, C14_avail_bounds, C14_unit_state, C14_variants_agree, C15_line_state, C15_monotone, C15_variants, C16_conservation, C16_default_ownership, C16_interchange, C16_per_area, C17_export_amount, C17_export_conserves_and_inverts, C17_variants_agree, C18_daily_peaks, C18_input_steps, C18_pool_peak, C18_variants_agree, C19_weekly_peaks, C20_area_ten_refuted, C20_read_partial, C20_scaled_peak, C21_name, C21_resolution, C22_thresholds, C23_fourth_season_refuted, C23_season_of_peak_partial, C24_dead_unit_refuted, C24_indices, C24_rounding, C24_table, C24_tiny_unit_refuted, C24_unit, C24_unit_tail, C24_versions, C25_table_refuted, C26_hrstat, C26_once, C26_pkstat, C27_pool_is_sum, C27_variants_agree_partial, C27_variants_refuted, C28_same_cause_partial, C28_same_cause_refuted, C29_histograms_count_years, C29_one_entry_per_year, C29_run, C29_zero_step_refuted, C30_accumulates_refuted, C30_counters_zeroed_partial, C30_reset_refuted, C31_cumulative, C31_pool_weighted_refuted, C31_run, C31_squares, C31_weights, C32_interval_refuted, C32_maintenance_refuted, C32_network, C32_restored, C32_seeds_refuted, C33_cards, C33_convergence_test, C33_exit, C33_pool_weighted_refuted, C33_run, C33_variants_agree, C34_nodal, C34_self_loop_refuted, C34_symm_rows, C35_kirchhoff, C35_sampled, C36_admittance_partial, C36_admittance_refuted, C36_line, C36_network, C36_ref, C37_map, C37_versions, C38_accepted, C38_converse, C39_evaluation_partial, C39_rebuilt, C39_redispatch_refuted, C39_unchanged_partial, C40_assign, C40_sharing, C40_versions, C41_artificial_refuted, C41_basis, C41_crisp_whole, C41_descent, C41_exact, C41_exact_feasible, C41_exact_no_error, C41_exact_optimal, C41_feasible, C41_feasible_refuted, C41_optimal, C41_phase1, C41_reinvert, C41_terminates_partial, C41_terminates_refuted, C41_total, C41_unbounded_refuted, C42_first_area_refuted, C42_net, C42_refuted, C42_versions, C43_abort_exact, C43_adequate_refuted, C43_cards_partial, C43_no_shortage_refuted, C43_processed_partial, C43_run_completes_partial, C43_run_exact, C43_run_refuted, C44_later_tiers_not_short, C45_daily, C45_last_hour_refuted, C45_peak_hour_partial, C45_run_refuted, C46_determinant_refuted, C46_determinant_zero, C46_info, C46_info_refuted, C46_inverse, C46_inverse_versions, C46_multipliers, C46_singular, C46_versions, C47_consecutive_draws_dependent_refuted, C47_three_in_a_row_refuted, C47_three_in_a_row_run_refuted, C48_every_hour_draws_partial, C48_run_refuted, C48_sampling_frequency_refuted, C49_annual_counters, C49_run_partial, C50_daily_label_refuted, C50_exact_partial, C50_no_generation_loss_refuted, C50_stale_refuted, C50_table_partial, C51_connected, C51_inverse, C52_pool_shortage, C53_area_limits_refuted, C53_scheduled_flows, C53_total_flows, C54_limits_restored, C55_complete, C55_feasible, C55_sound, C56_dispatch_partial, C56_exact, C57_listing_refuted, C57_no_error_partial, C57_sharing_refuted, C57_size_refuted, C58_exact, C58_first_area_refuted, C58_missed_shortage_refuted, C58_shortages_partial, C59_recorded_shortages, C59_recorded_shortages_daily, C59_recorded_used, C60_pool_energy, C61_contracts, C62_automatic_refuted, C62_frame, C62_plan_partial, C62_preset_refuted, C62_schedule, C62_table, C62_two_units_refuted, C63_distributions, C63_no_error, C63_pool_average_refuted, C63_pool_reserve_refuted, C63_pool_sd_refuted, C63_rows, C63_summary_areas, C63_summary_pool_partial, C63_table_numbers, C64_accepted, C64_limits_run, C64_lines_partial, C64_loads, C64_required, C64_units, C65_contracts_refuted, C66_never_out_refuted, C66_out_of_service_refuted, C67_serial_refuted, C68_numbers_partial, C68_numbers_refuted, C69_applies_refuted, C69_capacity_partial, C69_capacity_refuted, C70_concrete_refuted, C70_weeks_partial, C70_weeks_refuted, C71_applies, C71_energy_partial, C71_season_refuted, C72_always_short_refuted, C72_concrete_refuted, C72_report_partial, C72_settings, C73_apart_refuted, C73_no_repeat_partial, C73_period_refuted, C73_shifted_lines_refuted, C73_shifted_units_refuted, C73_streams, C74_load_file, C74_scaled, C75_line_card, C75_rejected, C76_files, C76_settings, C77_accepted_refuted, C77_rejected, C78_applies, C78_derating_refuted, C78_run_refuted, C79_study_refuted, C82_run_refuted, C82_totals_partial, C83_applies, C83_resumed_partial, C83_stop_refuted, C84_cards_partial, C84_changes_partial, C84_constant_refuted, C84_run_refuted, C88_no_contracts_partial, C88_several_lines_refuted, C91_accepted_iff_partial, C91_short_row_partial, C92_complete, C92_exact, C92_feasible, C92_no_worse, C92_optimal, C92_size, C92_sound, C93_equal_limits_partial, C93_limits_refuted, C94_rejected, C94_rescaled_refuted, C94_samplers_agree, C95_line, C95_other_seed_refuted, C95_states, C95_unit, C96_scaled, C97_as_written_refuted, C97_close_partial, C97_missed_refuted, C98_margin, C99_stuck_refuted, C99_whole, conls_unit, connls_unit, dataxID_wired, figures_plain, fixedText_shown, hour_exact, last_ok, margin_err, pyFloat_iff, scarce_years5, seeds_mod, setup_cap, sparse_ok, transm_ample
