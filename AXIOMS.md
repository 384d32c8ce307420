# Axioms of the theorems in MANIFEST.json

Made by `tools/axioms.py` from `#print axioms`.

## none

C116_empty, C18_negative_not_encoded, C32_storage, C39_names_differ

## propext

C02_epoch, C03_epoch, C05_switch, C08_historical, C09_epoch, C09_persian_bogus_date, C09_persian_last_year, C102_designation, C102_unnamed, C108_leap_twelve, C108_year_zero, C114_october, C116_constants, C120_other, C14_persian_counterexample, C16_negative_fails, C43_short, C50_determined, C50_empty_pattern, C56_orientation, C57_1972, C57_dates, C57_ranges, C57_steps

## propext, Quot.sound

C01_result_unique, C05_skipped_inputs, C06_eleven_in_thirty, C07_hebrew_traditional_fails, C09_leap_years, C09_persian_months_partial, C09_persian_out_of_range, C102_number, C102_provisional, C107_cut, C114_early, C114_four, C114_small, C116_cycle, C116_eight, C116_negative, C116_switches, C11_chinese_months, C11_chinese_next_year, C11_chinese_out_of_range, C120_forever, C120_room, C120_text, C12_chinese_search_hangs, C15_day_query, C15_month_query, C15_set_returns, C16_period, C17_least_period, C17_period, C24_read, C28_strlcat_full, C29_remove_char, C30_encode, C30_no_overflow, C31_utc_algo, C38_too_many_points, C39_all_occur, C39_south_of_line, C39_unique, C42_rotate_add, C42_rotate_back, C42_rotate_length, C48_double, C48_double_only, C48_get16, C48_get16s, C48_get32, C48_get32s, C50_length, C56_length, C56_perpendicular, C56_rotate, C90_field, C90_missing, C90_overflow, C90_part_of_name

## propext, Classical.choice, Quot.sound

C01_gregorian_roundtrip, C02_gregorian_daycount, C02_year_length, C03_julian_daycount, C03_julian_roundtrip, C04_gregorian_date_roundtrip, C04_gregorian_injective, C04_julian_date_roundtrip, C04_julian_injective, C05_mixed_roundtrip, C05_skipped_dates, C06_islamic_daycount, C06_islamic_roundtrip, C07_hebrew_lengths_partial, C07_hebrew_not_injective, C07_hebrew_overlap, C07_hebrew_roundtrip, C07_hebrew_traditional, C07_hebrew_weekday, C07_newYear, C08_drift, C08_french, C08_leap_years, C09_persian_day_error, C09_persian_day_roundtrip, C100_aborts, C100_day, C100_day_early, C100_flags, C100_last_day, C100_no_data, C100_no_nutation, C100_outside, C100_refused, C100_reported_range, C100_table, C101_astorb, C101_mpcorb, C101_other_lines, C101_retrograde, C101_runs_on, C102_aborts, C102_asteroid, C102_asteroids, C102_comet, C102_comet_line, C102_comets_alone, C102_first_observed, C102_overflow, C102_permanent, C102_with_comets, C103_load, C103_many_blocks, C103_not_covered, C103_outside, C103_planet, C103_position, C103_six, C103_velocity, C104_asserts, C104_big_data, C104_calls, C104_error, C104_exact, C104_other_file, C104_short_file, C104_small_data, C105_arguments, C105_asserts, C105_error, C105_exact, C105_latitude, C105_longitude, C105_moon, C105_obliquity, C105_planets, C105_pluto, C105_systems, C106_designation, C106_length, C106_longer, C106_none, C106_normal, C106_not_a_number, C106_other_letters, C107_again, C107_angle, C107_endless, C107_first_radii, C107_found, C107_handed, C107_kept, C107_last, C107_no_file, C107_no_meridian, C107_not_there, C107_old_number, C107_old_numbers, C107_orientation, C107_orthonormal, C107_radii, C107_rate, C107_rows, C107_sum, C108_offset, C108_table, C109_dates, C109_end, C109_file, C109_origin, C109_short, C10_cycle, C10_modern_persian_daycount, C10_modern_persian_roundtrip, C110_arguments, C110_count, C110_default, C110_end, C110_interval, C110_more, C110_negative, C110_no_craft, C110_table, C110_times, C111_again, C111_days, C111_gap, C111_merge, C111_short_range, C112_hidden, C112_sort, C113_count, C113_default, C113_empty_line, C113_more, C113_options, C113_other_craft, C113_table, C113_times, C114_cell, C114_columns, C114_fits, C114_labels, C114_length, C114_months, C114_normal, C114_order, C114_row, C114_wrap, C115_code, C115_columns, C115_file, C115_high, C115_last, C115_observation, C115_other, C115_place, C115_unset, C116_blocks, C116_offsets, C116_reached, C117_backwards, C117_found, C117_refused, C117_unique, C117_url, C118_cubic, C118_far, C118_jump, C118_pieces, C118_range, C118_rows, C118_table, C119_centre, C119_edge, C119_overflow, C119_pole, C119_turns, C119_window, C11_chinese_error, C11_chinese_hangs, C11_chinese_roundtrip_partial, C120_entries, C120_line, C120_list, C120_short, C120_slash, C120_weekday, C12_returns_partial, C12_search_stops, C12_search_stops_hebrew, C12_two_passes, C13_date_roundtrip, C13_monotone, C14_days_in_month, C15_assertion, C16_easter, C16_least_period, C17_easter, C18_char, C18_decode, C18_decode_encode, C18_decode_invalid, C18_encode_decode, C18_overflow_reported, C19_injective, C19_pack_unpack, C20_accepted_iff, C20_aliased, C20_bare, C20_not_aliased_partial, C21_classic, C21_extended, C21_letter_I, C21_subscript_lost, C21_too_large, C21_trailing, C22_large_number, C22_reported, C22_survey_partial, C23_arabic, C23_permanent_exits, C23_permanent_partial, C23_provisional_loses_digit, C23_provisional_partial, C24_other_spellings, C24_written_read, C25_artsat, C26_code_name_code, C26_documented_spelling, C26_found, C26_gaia_3E, C26_known_codes, C26_loose, C26_name_code_name_partial, C26_overflow, C26_unknown_partial, C27_clash, C27_decipher_V, C27_decipher_lettered, C27_distinct_partial, C27_large_numbers, C27_name_partial, C27_one_letter_clash, C27_round_trip_partial, C27_two_letters, C28_strlcat, C28_strlcat_err, C28_strlcpy, C28_strlcpy_err, C30_bad_escape, C30_consumes, C30_cut, C30_field, C30_form, C30_high_byte, C30_small_hex, C30_stops, C30_zero_size, C31_dmy_to_day, C31_jan, C31_months, C32_changes, C32_changes_any_prediction, C32_monotone, C32_monotone_tabulated, C32_tabulated, C32_total, C33_half_year, C34_after_table, C34_continuous, C34_index_in_table, C34_jump_1620, C34_linear, C34_passes_through, C34_year, C35_add, C35_done, C35_equal_aborts, C35_golden, C35_init, C35_init_accepts, C35_next, C35_next_fails, C35_no_minimum, C35_run, C35_suggest, C35_symmetric_aborts, C35_vertex, C36_cubic, C36_parabola, C36_stationary, C36_unique, C37_err_code, C37_misses_ends, C37_passes_through_partial, C37_quadratics, C37_reads_inside, C37_smooth, C38_derivative, C38_derivative_at_entry, C38_exact, C38_nearest, C38_reads_inside, C39_far_negative_ra, C39_full_width, C39_lookup, C39_name, C39_negative_ra, C39_periodic, C39_poles, C39_position, C40_ades_prefix, C40_closing, C40_codes, C40_injective, C40_numbering, C40_only, C40_opening, C41_after_error, C41_control_hangs, C41_document, C41_follows, C41_optical_unopened, C41_rejects_closing, C41_rejects_depth, C41_safe, C41_stops, C42_identity, C42_invert, C42_pre_spin, C42_pre_spin_orthonormal, C42_spin, C42_spin_back, C42_spin_orthonormal, C43_bad_digit, C43_injective, C43_leap_second, C43_ranges, C43_roundtrip, C43_warnings, C44_gregorian, C44_order, C44_roundtrip, C44_split, C44_unique, C45_collisions, C45_five, C45_injective, C45_other, C45_packs, C45_unchecked, C46_bad_width, C46_other_o, C46_result, C46_safe, C46_short_record, C46_success, C47_bad_month, C47_blank, C47_date, C47_injective, C47_negative, C47_no_such_day, C47_other_length, C49_example_stale, C49_inverse, C49_monotone, C49_sol, C50_replace, C51_comet_partial, C51_large_subscript, C51_order_letter_lost, C51_survey_clash, C52_numbered_comet, C52_packed, C52_prefix, C52_trailing_ignored, C53_embedded_nul, C53_twelve_bytes, C53_unknown, C54_dollar, C54_exact, C54_too_long, C54_total_partial, C54_unaligned, C54_underscore_uninitialised, C55_append, C55_append_trunc, C58_ends, C58_one_piece, C59_airy, C59_contracts, C59_rate, C59_size, C60_calendar, C60_count, C60_days_fit, C60_exact, C60_iso, C60_layout, C60_monotone, C60_month13, C60_picodays, C60_remainder, C60_remainder_abort, C60_room, C60_rounds, C60_sorted, C60_time_only, C61_abort, C61_any_order, C61_month_name, C61_month_out, C61_named_abort, C62_contents, C62_copied, C62_overflow, C63_complete, C63_sorts, C63_table, C64_blank_month, C64_exact, C64_hours_lost, C64_iso, C64_rounds, C64_roundtrip, C65_depth, C65_endless, C65_offset_adds, C65_offset_alone, C65_returns, C65_zero_offset, C66_before, C66_weekday, C67_fits, C67_zulu, C68_gps, C68_jd, C68_mjd, C68_now, C68_unix, C68_year, C69_ad, C69_bc, C69_half, C69_phase, C70_jd, C70_jd_back, C70_jd_exact, C70_jd_rounding, C70_jd_rounding_exact, C70_year, C70_year_back, C70_year_five, C71_code, C71_count, C71_date, C71_length, C71_mark, C71_no_month, C71_october, C71_radar, C72_blank, C72_dec, C72_packed, C72_packed_overflow, C72_ra, C72_report, C72_seven_digits, C73_decimal, C73_integer, C73_no_number, C73_only_point, C73_too_large, C73_too_many_decimals, C74_dec, C74_format_200, C74_long_decimal, C74_long_degrees, C74_long_seconds, C74_nearest, C74_ra, C74_recreate, C74_sign, C74_whole_turn, C75_angle, C75_coordinate, C75_dec, C75_dec_range, C75_dec_unsigned, C75_height, C75_past_end, C75_past_end_second, C75_place, C75_place_default, C75_place_range, C75_place_twice, C75_place_unchecked, C75_ra, C75_ra_minutes, C75_xxx, C75_xxx_codes, C76_base60, C76_negative_planet, C76_point, C76_rover, C76_rover_base60, C76_satellite, C76_short, C76_standard, C76_unknown, C77_circle, C77_nearest, C77_parallax, C77_pole, C77_radii, C77_round, C78_cut, C78_region, C78_short, C79_angle, C79_back, C79_dist, C79_reverse, C79_there, C79_unit, C80_alt_az, C80_back, C80_hour_angle, C80_mismatch, C80_poles, C80_ra_dec, C81_cache, C81_chain, C81_ecliptic, C81_equatorial, C81_galactic, C81_garbage, C81_inverse, C81_j2000, C81_nutation, C81_obliquity, C81_obliquity_ends, C81_order, C81_pt, C81_ra_dec, C81_ra_dec_back, C81_setup, C81_there_and_back, C81_vector, C82_high, C82_hyperbolic, C82_low, C82_low_ends, C82_near, C82_same, C82_unique, C83_angles, C83_back, C83_elements, C83_flat, C83_flat_wrong, C83_flatten, C83_stops, C84_again, C84_motion, C84_perihelion, C84_polar, C85_dec, C85_dec_any, C85_given_out, C85_long_time, C85_negative_ra, C85_negative_ra_zero, C85_no_z, C85_observation, C85_own_columns, C85_ra, C85_ra_abort, C85_ra_any, C85_ra_overflow, C85_ra_overwritten, C85_short_station, C85_time, C86_drains, C86_long_center, C86_short, C86_sigmas_dropped, C86_stale_correlation, C86_stale_magnitude, C87_file, C87_header, C87_line, C87_lower_case, C87_other_count, C87_row, C87_section, C87_section_ends, C87_unknown_name, C88_header, C88_inside, C88_last, C88_name_not_ended, C88_observation, C88_observations, C88_same, C88_same_lines, C88_two_on_a_line, C88_unended_tag, C88_whole, C89_boundary_kept, C89_bounds, C89_consumes, C89_cut, C89_field, C89_file, C89_form, C89_long_name, C89_request, C90_files, C91_b_v, C91_exact_lost, C91_inverse, C91_lower_end, C91_outside, C91_polynomial, C91_tycho, C91_tycho_end, C91_upper_end, C91_v_r, C92_bound, C92_decreasing, C92_every, C92_increasing, C92_lipschitz, C92_reverse, C93_cubic, C93_joined, C93_newton, C93_settled, C93_slope, C93_top, C93_top_dry, C93_tropopause, C93_vacuum, C94_data, C94_guess, C94_lost, C94_moid, C94_point, C94_pole, C94_speed, C95_centralize, C95_closed, C95_minor, C95_planets, C95_pluto, C95_range, C96_error, C96_line, C96_read, C96_round_trip, C96_too_far, C96_zero_sign, C97_ades, C97_answered, C97_codes, C97_late, C97_lines, C97_no_answer, C98_calendar, C98_carry, C98_epoch, C98_room, C99_distance, C99_ellipse, C99_negative, C99_open, C99_parabola_shift, C99_perihelion, C99_period, C99_unit_lost
