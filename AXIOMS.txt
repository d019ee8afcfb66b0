Axioms of the property theorems, from `#print axioms` (namespace Imfit).

Classical.choice, Quot.sound, propext
  C01_mask_accepted, C01_unknown_mask_code, C01_valid_after_setup, C02_chi2_ignores_masked, C03_cash_ignores_masked,
  C03_poissonMLR_ignores_masked_partial, C03_poissonMLR_nan, C03_poissonMLR_masked_false, C04_success_iff, C04_success_usable, C04_example,
  C05_chi2_partial, C05_modelErrors_false, C06_poissonMLR_partial, C06_false, C07_conventions, C07_exported_weights, C07_generated, C08_coordinates,
  C08_deviates, C08_only_paired_pixels, C08_evaluated_at_own_coordinate, C09_outputs, C10_sum, C10_kahan, C100_values, C100_exponential,
  C100_gaussian, C100_moffat, C100_sersic_partial, C100_brokenExponential, C100_nuker, C100_coreSersic_partial, C100_sersic_false, C101_zeroPoint,
  C101_exponential, C101_gaussian, C101_gaussian2Side, C101_sech, C101_sech2, C101_moffat, C101_brokenExponential, C101_sersic, C101_nuker,
  C101_coreSersic, C101_vdkSech_centre, C101_vdkSech_false, C101_vdkSech, C101_intensity, C101_zeroPoint_false, C101_gaussHermite_same,
  C101_gaussHermite_false, C102_seen_partial, C102_plain, C102_flat, C102_point, C102_uneven_false, C102_onePoint_false, C103_deviates_partial,
  C103_chi2_partial, C103_psf_false, C103_zeroError_false, C103_negativeError_false, C103_masked_false, C103_bootstrap_partial, C103_bootstrap_false,
  C103_status_false, C104_rows_partial, C104_psf_partial, C104_safe, C104_input_partial, C104_longLine_false, C104_longComment_false, C104_x1_false,
  C104_x2_false, C104_single_false, C104_shortRow_false, C104_longPsf_false, C104_parameters_false, C105_settings_partial, C105_orderly_partial,
  C105_refused, C105_garbage_false, C105_first_false, C105_order_false, C105_large_false, C106_precedence_partial, C106_statistic,
  C106_unchecked_false, C106_statistics_false, C107_cores_partial, C107_threads_partial, C107_noSocket_false, C107_mixed_false, C108_settings_partial,
  C108_orderly_partial, C108_refused, C108_contradiction_false, C108_unchecked_false, C109_size_partial, C109_fluxes, C109_reference_false,
  C109_nosave_false, C109_single_false, C11_pass, C11_no_fault, C11_ends, C11_model_image, C11_single_image, C110_sum_partial, C110_values,
  C110_names, C110_false, C110_expanded_false, C111_enough_partial, C111_exact, C111_solver_false, C112_table_partial, C112_magnitudes,
  C112_none_false, C112_zeroPoint_false, C112_file_false, C113_settings_partial, C113_orderly_partial, C113_refused, C113_dream, C113_gelman_partial,
  C113_precedence_partial, C113_cash_false, C113_gelman_false, C113_single_false, C113_unchecked_false, C114_image_partial, C114_missing,
  C114_unknown_false, C114_dash_false, C114_unsaved_false, C114_profile_partial, C114_longPsf_false, C114_single_false, C114_small_false, C115_exists,
  C115_value_partial, C115_points, C115_runs, C115_beyond_false, C115_two_false, C115_one_false, C115_five_false, C115_negative_false, C116_reported,
  C116_failed_false, C116_limits_false, C116_single_false, C117_settings_partial, C117_orderly_partial, C117_refused, C117_cash, C117_statistic_false,
  C117_formats_false, C117_ignored_false, C117_arguments_false, C117_files_partial, C117_statOnly_false, C117_unopened_false, C118_chosen,
  C118_unknown, C118_limits_partial, C118_not_worse_partial, C118_start_false, C118_worse_false, C119_settings_partial, C119_orderly_partial,
  C119_refused, C119_pictures_partial, C119_count_false, C119_unread_false, C119_nosave_false, C119_overrun_false, C11_shared_integrand_false,
  C12_history_partial, C12_settled_partial, C12_false, C120_functions, C120_section_partial, C121_setup, C121_chi2, C121_cash_partial,
  C121_model_partial, C122_definition_partial, C122_whole, C122_limits_false, C122_columns, C122_header_partial, C123_registered, C123_sorted,
  C123_names, C123_usable, C123_list, C123_setup, C124_partial, C124_exact, C124_digits, C124_offered, C124_false, C124_options_false, C125_names,
  C125_imfit, C125_makeimage, C126_numbers, C126_partial, C126_whole, C127_chi2, C127_counts, C127_made, C127_partial, C127_deviates, C127_stays,
  C127_false, C128_same, C128_whole, C128_stays_partial, C129_numbers, C129_levmar_partial, C129_de_partial, C129_de_silent, C129_failed,
  C129_failed_false, C129_limits_false, C13_layout, C13_every_vector, C13_unique, C130_de, C130_levmar, C130_de_report, C130_de_false,
  C131_levmar_partial, C131_de_partial, C131_nlopt, C131_nlopt_report, C131_nlopt_false, C14_flags, C14_names, C14_header, C14_dump, C14_offsets,
  C15_convolution, C15_linear, C16_normalize, C16_add, C16_bad_pixel, C16_convolver, C16_flux, C17_downsample_partial, C17_square, C17_wide_false,
  C17_tall_false, C17_memory_false, C18_points, C18_centred, C18_grid, C19_clip_partial, C19_one_pixel_false, C19_offset, C20_sample, C20_no_fault,
  C20_terminates, C20_diverges, C20_after_setup, C21_collect, C21_reported, C21_partial, C21_count_fix, C21_false, C21_multi_labels_false,
  C21_multi_single_false, C21_multi_repeats_false, C22_mean, C22_stddev, C22_stddev_shift, C22_single_value, C22_interval, C22_coverage, C22_empty,
  C23_stream, C23_unseeded, C23_stream_key, C23_empty_key, C23_int32_range, C23_int31_range, C23_real1, C23_real2, C23_real3, C23_res53,
  C24_solve_partial, C24_fit_partial, C24_limits_required, C24_limits_false, C24_fixed_false, C25_solve_partial, C25_fit_partial, C25_false,
  C26_partners, C26_index, C26_solve_partial, C26_runs_partial, C26_false, C27_fixed, C27_reject, C27_partial, C27_false, C27_direction_false,
  C27_step, C28_partial, C28_squares_partial, C28_reported_partial, C28_reported_last_partial, C28_false, C28_nan_false, C29_add, C29_split,
  C29_split_partial, C29_false, C29_extra, C29_maximal, C30_chop, C30_chop_idempotent, C30_trim, C30_trim_partial, C30_trim_spec, C30_trim_idempotent,
  C30_false, C31_counts, C31_limits, C31_limits_exact, C31_sets_partial, C31_false, C32_only_oob, C32_vet, C32_false, C32_safe_partial, C33_insert,
  C33_pad, C33_trailing_partial, C33_false, C34_partial, C34_false, C35_section, C35_extension_section, C35_total, C35_malformed_false,
  C35_malformed_reported, C35_region, C35_region_false, C36_partial, C36_safe, C36_false, C37_assembly, C37_description, C37_similarity,
  C37_distances, C37_invertible, C37_identity, C37_nonpositive_scale, C37_uninitialised_false, C37_sizes_false, C38_statistic, C38_statistic_sum,
  C38_valid_pixels, C38_deviates, C38_bootstrap_partial, C38_bootstrap_overrun, C38_bootstrap_samples, C38_bootstrap_false, C39_exact_partial,
  C39_bounds_partial, C39_order, C39_false, C40_outside, C40_bicubic, C40_interpolates_possible, C40_linear, C40_in_bounds_partial, C40_overrun_false,
  C40_lanczos_pixel_partial, C40_transposed_partial, C40_symmetric_partial, C40_transposed_false, C40_one_column_false, C41_symmetric, C41_linear,
  C41_decreasing, C41_bounded_partial, C41_amplitude_centre, C41_amplitude_sersic, C41_moffat_half, C41_flat_sky, C41_sersic_index_false,
  C41_maximum_false, C42_mean_partial, C42_central, C42_grid_inside, C42_grid_regular, C42_grid_mean, C42_mean_linear, C42_tiny_scale_false, C43_aic,
  C43_aic_degenerate, C43_bic, C43_aic_increases, C43_bic_increases, C43_aic_monotone, C43_ranking, C44_partial, C44_cut, C44_false, C45_described,
  C45_fixed_unless_limits_partial, C45_proper, C45_layout, C45_refused, C45_safe_partial, C45_omitted_false, C45_bad_limits_false, C45_comment_false,
  C45_overrun_false, C45_functions_false, C45_flag_false, C45_line_number_false, C45_items, C46_bounds_partial, C46_runs, C46_stops,
  C46_respects_partial, C46_contract_possible, C46_one_sided_false, C46_count_false, C47_error_code_false, C48_repeat_partial, C48_false,
  C49_reported, C49_partial, C49_false, C50_psf_sum, C50_pixel_sum, C50_point_sum, C51_count, C51_max_partial, C51_false, C52_first, C52_same_partial,
  C52_method_false, C52_rot_value, C52_rot_plain, C52_rot_zero_false, C52_rot_null_false, C52_oversampled_false, C52_oversampled_null_false,
  C53_same_object, C53_cusps_partial, C53_ignored_false, C53_flatBar_false, C53_edgeDisk_false, C53_nuker_false, C53_tiltedSky_false, C53_elliptical,
  C53_line_of_sight_partial, C53_depth_false, C53_triax_false, C54_guard, C54_flatExp_false, C55_symmetric, C55_mirror, C55_linear,
  C55_edgeRing2_false, C55_nonneg, C56_mean_partial, C56_edgeDisk_false, C57_settled, C57_fit, C57_constant, C57_zero, C57_perfect_false, C58_limits,
  C58_finite, C59_faults_partial, C59_returns, C59_single_false, C59_default_false, C59_stuck_false, C60_all_written, C60_written_partial,
  C60_last_false, C61_rule, C61_probability, C61_balance, C61_number, C62_pairs, C62_three, C62_symmetric_false, C63_table, C63_update,
  C63_unused_false, C63_jumps, C64_latin, C65_restored, C65_resume_partial, C65_interrupted_false, C65_offset_false, C65_burnin_false, C66_textbook,
  C66_converged_partial, C66_stuck_false, C67_count, C67_few, C67_moved, C67_noburnin_false, C68_proposal, C68_crossover, C69_flux, C69_constant,
  C70_fluxes_partial, C70_fractions, C70_elliptical, C70_sky, C70_centre_false, C71_qr_partial, C72_step_partial, C73_predicted_partial,
  C73_limits_false, C74_covariance_partial, C74_point_false, C75_line_of_sight_partial, C75_documented, C75_ferrers_false, C75_peanut_false,
  C75_bpBar_false, C76_ferrers, C76_expDisk_partial, C76_triax_partial, C76_small_bar_false, C76_thick_disk_false, C76_empty_range_false,
  C77_point_symmetry, C77_linear, C77_nonneg, C77_face_on, C78_peak_partial, C78_unbounded_false, C79_partial, C79_refused, C79_misplaced_false,
  C79_overrun_false, C80_partial, C80_uninitialised_false, C80_local_false, C80_overrun_false, C80_ownFunctions_partial, C81_partial, C81_arms,
  C81_symmetry, C81_maximum, C81_continuous, C81_jump_false, C81_fraction_false, C81_centre, C82_partial, C82_maximum, C82_negative_false, C83_own,
  C83_shared, C83_refused, C83_section_false, C84_regions, C84_convolution, C84_partial, C84_flux_false, C84_shared_false, C84_switch_false,
  C84_zero_false, C85_value, C85_axes, C85_symmetry, C85_bounds, C85_constant, C86_value, C86_partial, C86_minor_false, C86_scale_false, C87_partial,
  C87_shape, C87_same, C87_axes, C87_decreasing_partial, C87_rise_false, C87_equal_false, C87_reversed_false, C88_value, C88_misspelt_false,
  C88_flux_false, C89_main, C89_region, C89_flux_partial, C89_flux_false, C90_read_back_partial, C90_lost_false, C90_fixed_false, C90_offset_false,
  C90_combined_false, C90_scales_false, C91_columns_partial, C91_one_image_false, C91_local_false, C92_read_partial, C92_read_image, C92_read_other,
  C92_leak_false, C92_large_false, C92_size, C92_save, C92_round_trip, C92_float_false, C93_accept, C93_mask_error, C93_psf_partial,
  C93_psf_size_false, C94_quotient, C94_linear, C94_error, C94_size_false, C95_gradient_partial, C95_pegged, C95_stop_partial, C95_minimum_partial,
  C96_fixed, C96_not_worse_partial, C96_limits_partial, C96_ends_partial, C96_stationary_partial, C96_ends_false, C97_linear_partial,
  C98_statistic_partial, C98_bootstrap, C98_images, C98_bootstrap_false, C98_only_false, C99_ends_partial, C99_counted_partial, C99_counted_false

Quot.sound, propext
  C104_unreadable_false, C111_region_false, C117_images_partial, C119_size, C119_optional_false, C11_line_of_sight_partial, C11_single_thread_partial,
  C20_every_pixel_reachable, C21_collect_flat, C29_pieces, C35_no_section, C37_counts, C38_data_values, C44_reuse, C46_count, C46_first_run_partial,
  C47_mask_code_partial, C47_addMask_code, C52_rot_words_partial, C61_step, C62_two_false, C80_optional_false, C80_limits, C88_words, C88_unknown,
  C92_size_leak_false, C92_lost_false, C92_short_false, C98_setup

none
  C52_rot_lanczos3_false, C92_null

propext
  C09_null_before_model, C111_convolver, C111_output_false, C46_names, C52_words, C52_refused, C61_reject, C83_multi_partial, C92_uninit_false
