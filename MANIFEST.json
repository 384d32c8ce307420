{
 "claims": [
  {
   "property": "C01",
   "status": "proved",
   "theorems": [
    "Verif.Props.C01_gregorian_roundtrip",
    "Verif.Props.C01_result_unique"
   ],
   "note": "All integer day numbers."
  },
  {
   "property": "C02",
   "status": "proved",
   "theorems": [
    "Verif.Props.C02_gregorian_daycount",
    "Verif.Props.C02_epoch",
    "Verif.Props.C02_year_length"
   ],
   "note": "Against the leap-year rule and the epoch of Spec/Calendar.lean."
  },
  {
   "property": "C03",
   "status": "proved",
   "theorems": [
    "Verif.Props.C03_julian_roundtrip",
    "Verif.Props.C03_julian_daycount",
    "Verif.Props.C03_epoch"
   ],
   "note": ""
  },
  {
   "property": "C04",
   "status": "proved",
   "theorems": [
    "Verif.Props.C04_gregorian_date_roundtrip",
    "Verif.Props.C04_julian_date_roundtrip",
    "Verif.Props.C04_gregorian_injective",
    "Verif.Props.C04_julian_injective"
   ],
   "note": "Dates that exist under the specification."
  },
  {
   "property": "C05",
   "status": "proved",
   "theorems": [
    "Verif.Props.C05_mixed_roundtrip",
    "Verif.Props.C05_skipped_dates",
    "Verif.Props.C05_switch",
    "Verif.Props.C05_skipped_inputs"
   ],
   "note": "Includes what the code does with the ten skipped dates when given them."
  },
  {
   "property": "C06",
   "status": "proved",
   "theorems": [
    "Verif.Props.C06_islamic_roundtrip",
    "Verif.Props.C06_islamic_daycount",
    "Verif.Props.C06_eleven_in_thirty"
   ],
   "note": ""
  },
  {
   "property": "C07",
   "status": "partial",
   "theorems": [
    "Verif.Props.C07_hebrew_roundtrip",
    "Verif.Props.C07_newYear",
    "Verif.Props.C07_hebrew_weekday",
    "Verif.Props.C07_hebrew_traditional",
    "Verif.Props.C07_hebrew_traditional_fails",
    "Verif.Props.C07_hebrew_lengths_partial",
    "Verif.Props.C07_hebrew_overlap",
    "Verif.Props.C07_hebrew_not_injective"
   ],
   "note": "Holds for day numbers without exception; date round trip and year lengths fail in the years congruent to 193151, 383856, 574561 mod 689472 (code tests > 18h where the rule says >=), proved as C07_hebrew_overlap and C07_hebrew_not_injective."
  },
  {
   "property": "C08",
   "status": "proved",
   "theorems": [
    "Verif.Props.C08_french",
    "Verif.Props.C08_leap_years",
    "Verif.Props.C08_drift",
    "Verif.Props.C08_historical"
   ],
   "note": ""
  },
  {
   "property": "C09",
   "status": "partial",
   "theorems": [
    "Verif.Props.C09_persian_months_partial",
    "Verif.Props.C09_persian_out_of_range",
    "Verif.Props.C09_persian_day_roundtrip",
    "Verif.Props.C09_persian_day_error",
    "Verif.Props.C09_persian_last_year",
    "Verif.Props.C09_persian_bogus_date",
    "Verif.Props.C09_epoch",
    "Verif.Props.C09_leap_years"
   ],
   "note": "Violated in the last supported year 2327 (month 12 has 126 days), proved as C09_persian_last_year; the rest of the range is proved."
  },
  {
   "property": "C10",
   "status": "proved",
   "theorems": [
    "Verif.Props.C10_modern_persian_roundtrip",
    "Verif.Props.C10_modern_persian_daycount",
    "Verif.Props.C10_cycle"
   ],
   "note": ""
  },
  {
   "property": "C11",
   "status": "partial",
   "theorems": [
    "Verif.Props.C11_chinese_months",
    "Verif.Props.C11_chinese_roundtrip_partial",
    "Verif.Props.C11_chinese_hangs",
    "Verif.Props.C11_chinese_error",
    "Verif.Props.C11_chinese_out_of_range",
    "Verif.Props.C11_chinese_next_year"
   ],
   "note": "Violated on eight days that the table leaves out: day_to_dmy never returns (C11_chinese_hangs). All other days proved."
  },
  {
   "property": "C12",
   "status": "partial",
   "theorems": [
    "Verif.Props.C12_search_stops",
    "Verif.Props.C12_search_stops_hebrew",
    "Verif.Props.C12_chinese_search_hangs",
    "Verif.Props.C12_returns_partial",
    "Verif.Props.C12_two_passes"
   ],
   "note": "Violated for the Chinese calendar on eight days; every other call returns."
  },
  {
   "property": "C13",
   "status": "proved",
   "theorems": [
    "Verif.Props.C13_monotone",
    "Verif.Props.C13_date_roundtrip"
   ],
   "note": "The six rule-based calendars; the Hebrew counterexample is C07_hebrew_not_injective."
  },
  {
   "property": "C14",
   "status": "proved",
   "theorems": [
    "Verif.Props.C14_days_in_month",
    "Verif.Props.C14_persian_counterexample"
   ],
   "note": "The six rule-based calendars; Persian counterexample C14_persian_counterexample."
  },
  {
   "property": "C15",
   "status": "proved",
   "theorems": [
    "Verif.Props.C15_assertion",
    "Verif.Props.C15_month_query",
    "Verif.Props.C15_day_query",
    "Verif.Props.C15_set_returns"
   ],
   "note": "The library keeps the caller's pointer; the model keeps the name, i.e. assumes the caller does not change the string."
  },
  {
   "property": "C16",
   "status": "proved",
   "theorems": [
    "Verif.Props.C16_easter",
    "Verif.Props.C16_period",
    "Verif.Props.C16_least_period",
    "Verif.Props.C16_negative_fails"
   ],
   "note": "Years 0 on; negative years are shown to fail."
  },
  {
   "property": "C17",
   "status": "proved",
   "theorems": [
    "Verif.Props.C17_easter",
    "Verif.Props.C17_period",
    "Verif.Props.C17_least_period"
   ],
   "note": ""
  },
  {
   "property": "C18",
   "status": "proved",
   "theorems": [
    "Verif.Props.C18_decode",
    "Verif.Props.C18_decode_invalid",
    "Verif.Props.C18_encode_decode",
    "Verif.Props.C18_overflow_reported",
    "Verif.Props.C18_decode_encode",
    "Verif.Props.C18_negative_not_encoded",
    "Verif.Props.C18_char"
   ],
   "note": "Negative values are shown not to be encodable."
  },
  {
   "property": "C19",
   "status": "proved",
   "theorems": [
    "Verif.Props.C19_pack_unpack",
    "Verif.Props.C19_injective"
   ],
   "note": "All numbers 1..15396335."
  },
  {
   "property": "C20",
   "status": "partial",
   "theorems": [
    "Verif.Props.C20_bare",
    "Verif.Props.C20_accepted_iff",
    "Verif.Props.C20_not_aliased_partial",
    "Verif.Props.C20_aliased"
   ],
   "note": "Violated: the number is kept modulo 2^32, so '(4294967297)' packs as '(1)' (C20_aliased). Proved for all numbers below 2^32. C20_bare: five or more digits without parentheses are treated as the number in parentheses, fewer digits are reported."
  },
  {
   "property": "C21",
   "status": "partial",
   "theorems": [
    "Verif.Props.C21_trailing",
    "Verif.Props.C21_classic",
    "Verif.Props.C21_extended",
    "Verif.Props.C21_subscript_lost",
    "Verif.Props.C21_letter_I",
    "Verif.Props.C21_too_large"
   ],
   "note": "Violated for subscripts from 620 outside 2000-2061 (C21_subscript_lost: success is returned but the subscript is dropped) and for order letter I in the underscore form (C21_letter_I). Proved for all others; C21_too_large shows what happens beyond the underscore scheme. C21_trailing: a designation followed by anything but blanks is not packed as that designation."
  },
  {
   "property": "C22",
   "status": "partial",
   "theorems": [
    "Verif.Props.C22_reported",
    "Verif.Props.C22_survey_partial",
    "Verif.Props.C22_large_number"
   ],
   "note": "Violated for survey numbers from 9000 (C22_large_number). Proved for 1000-8999. C22_reported: every number from 9000 on is reported as unpackable, so nothing is silently changed."
  },
  {
   "property": "C23",
   "status": "partial",
   "theorems": [
    "Verif.Props.C23_permanent_partial",
    "Verif.Props.C23_permanent_exits",
    "Verif.Props.C23_arabic",
    "Verif.Props.C23_provisional_partial",
    "Verif.Props.C23_provisional_loses_digit"
   ],
   "note": "Violated: unpacking a long Roman numeral exits the program (C23_permanent_exits) and provisional numbers 100-109 lose a digit (C23_provisional_loses_digit). Proved elsewhere."
  },
  {
   "property": "C24",
   "status": "partial",
   "theorems": [
    "Verif.Props.C24_read",
    "Verif.Props.C24_written_read",
    "Verif.Props.C24_other_spellings"
   ],
   "note": "Every numeral the library writes is read back; 'accepts no other spelling' is violated (C24_other_spellings)."
  },
  {
   "property": "C25",
   "status": "proved",
   "theorems": [
    "Verif.Props.C25_artsat"
   ],
   "note": ""
  },
  {
   "property": "C26",
   "status": "partial",
   "theorems": [
    "Verif.Props.C26_found",
    "Verif.Props.C26_unknown_partial",
    "Verif.Props.C26_code_name_code",
    "Verif.Props.C26_known_codes",
    "Verif.Props.C26_name_code_name_partial",
    "Verif.Props.C26_gaia_3E",
    "Verif.Props.C26_loose",
    "Verif.Props.C26_documented_spelling",
    "Verif.Props.C26_overflow"
   ],
   "note": "Violated: 'Gaia-3E' comes back as 'Gaia-EDR3' (C26_gaia_3E), the documented spelling 'Gaiadr1' is not understood (C26_documented_spelling), names of eighty letters overrun a buffer (C26_overflow). Everything else proved."
  },
  {
   "property": "C27",
   "status": "partial",
   "theorems": [
    "Verif.Props.C27_name_partial",
    "Verif.Props.C27_decipher_lettered",
    "Verif.Props.C27_decipher_V",
    "Verif.Props.C27_round_trip_partial",
    "Verif.Props.C27_distinct_partial",
    "Verif.Props.C27_large_numbers",
    "Verif.Props.C27_clash",
    "Verif.Props.C27_two_letters",
    "Verif.Props.C27_one_letter_clash"
   ],
   "note": "Violated from number 10000 on (C27_large_numbers, C27_clash) and for one-letter words (C27_one_letter_clash). Proved for 1-9999 and all two-letter words."
  },
  {
   "property": "C28",
   "status": "proved",
   "theorems": [
    "Verif.Props.C28_strlcpy",
    "Verif.Props.C28_strlcat",
    "Verif.Props.C28_strlcat_full",
    "Verif.Props.C28_strlcpy_err",
    "Verif.Props.C28_strlcat_err"
   ],
   "note": ""
  },
  {
   "property": "C29",
   "status": "proved",
   "theorems": [
    "Verif.Props.C29_remove_char"
   ],
   "note": ""
  },
  {
   "property": "C30",
   "status": "proved",
   "theorems": [
    "Verif.Props.C30_field",
    "Verif.Props.C30_form",
    "Verif.Props.C30_encode",
    "Verif.Props.C30_no_overflow",
    "Verif.Props.C30_consumes",
    "Verif.Props.C30_stops",
    "Verif.Props.C30_cut",
    "Verif.Props.C30_zero_size",
    "Verif.Props.C30_small_hex",
    "Verif.Props.C30_high_byte",
    "Verif.Props.C30_bad_escape"
   ],
   "note": "Findings: size 0 is taken as no limit (C30_zero_size); small-letter hexadecimal digits are refused (C30_small_hex); a raw byte from 128 on ends the value (C30_high_byte); the rest of a value that does not fit is read as the next field (C30_cut)."
  },
  {
   "property": "C31",
   "status": "proved",
   "theorems": [
    "Verif.Props.C31_jan",
    "Verif.Props.C31_months",
    "Verif.Props.C31_dmy_to_day",
    "Verif.Props.C31_utc_algo"
   ],
   "note": "All twelve macros equal the Gregorian first of the month for every integer year, negative ones included, and agree with dmy_to_day; also the second JAN_1 in utc_algo.cpp."
  },
  {
   "property": "C32",
   "status": "proved",
   "theorems": [
    "Verif.Props.C32_total",
    "Verif.Props.C32_monotone",
    "Verif.Props.C32_changes",
    "Verif.Props.C32_tabulated",
    "Verif.Props.C32_monotone_tabulated",
    "Verif.Props.C32_changes_any_prediction",
    "Verif.Props.C32_storage"
   ],
   "note": "Table, monotonicity and change dates, for all days from 1972 on with the program's own Delta-T prediction (exact arithmetic, no EOP file loaded); changes also for any prediction."
  },
  {
   "property": "C33",
   "status": "proved",
   "theorems": [
    "Verif.Props.C33_half_year"
   ],
   "note": "For every day from the year 1 on, more than the branch's domain."
  },
  {
   "property": "C34",
   "status": "proved",
   "theorems": [
    "Verif.Props.C34_index_in_table",
    "Verif.Props.C34_linear",
    "Verif.Props.C34_passes_through",
    "Verif.Props.C34_continuous",
    "Verif.Props.C34_after_table",
    "Verif.Props.C34_jump_1620",
    "Verif.Props.C34_year"
   ],
   "note": "Passes through every entry, straight between them, at most 4.5 s/yr, index in the table. Finding: not continuous at 1620, where the table starts 28 s above the polynomial (C34_jump_1620); the property speaks of the tabulated years only."
  },
  {
   "property": "C35",
   "status": "partial",
   "theorems": [
    "Verif.Props.C35_add",
    "Verif.Props.C35_next",
    "Verif.Props.C35_suggest",
    "Verif.Props.C35_next_fails",
    "Verif.Props.C35_run",
    "Verif.Props.C35_init",
    "Verif.Props.C35_init_accepts",
    "Verif.Props.C35_symmetric_aborts",
    "Verif.Props.C35_equal_aborts",
    "Verif.Props.C35_done",
    "Verif.Props.C35_vertex",
    "Verif.Props.C35_golden",
    "Verif.Props.C35_no_minimum"
   ],
   "note": "With a positive tolerance the invariant (sorted values, best point strictly inside, bracket only shrinks, best value never rises) holds from brent_min_init through any run, for any function and any square-root routine, and brent_min_add never fails. Missing: brent_min_next can fail an assertion; C35_next_fails lists the only ways, and C35_symmetric_aborts / C35_equal_aborts show two starting brackets for which it does."
  },
  {
   "property": "C36",
   "status": "proved",
   "theorems": [
    "Verif.Props.C36_parabola",
    "Verif.Props.C36_unique",
    "Verif.Props.C36_cubic",
    "Verif.Props.C36_stationary"
   ],
   "note": "Parabola and cubic both interpolate; the parabola is unique; the point returned by cubic_min is stationary."
  },
  {
   "property": "C37",
   "status": "partial",
   "theorems": [
    "Verif.Props.C37_err_code",
    "Verif.Props.C37_reads_inside",
    "Verif.Props.C37_passes_through_partial",
    "Verif.Props.C37_misses_ends",
    "Verif.Props.C37_smooth",
    "Verif.Props.C37_quadratics"
   ],
   "note": "Smoothness, quadratics, reads and err_code in full; passes through every entry except the first and the last, which are missed by the third difference (C37_misses_ends)."
  },
  {
   "property": "C38",
   "status": "proved",
   "theorems": [
    "Verif.Props.C38_exact",
    "Verif.Props.C38_derivative",
    "Verif.Props.C38_derivative_at_entry",
    "Verif.Props.C38_reads_inside",
    "Verif.Props.C38_too_many_points",
    "Verif.Props.C38_nearest"
   ],
   "note": "Exact on polynomials of degree below n, value and derivative, at entries as well; reads inside when n does not exceed the table, and outside otherwise (C38_too_many_points)."
  },
  {
   "property": "C39",
   "status": "proved",
   "theorems": [
    "Verif.Props.C39_lookup",
    "Verif.Props.C39_unique",
    "Verif.Props.C39_name",
    "Verif.Props.C39_names_differ",
    "Verif.Props.C39_all_occur",
    "Verif.Props.C39_poles",
    "Verif.Props.C39_full_width",
    "Verif.Props.C39_south_of_line",
    "Verif.Props.C39_position",
    "Verif.Props.C39_periodic",
    "Verif.Props.C39_negative_ra",
    "Verif.Props.C39_far_negative_ra"
   ],
   "note": "Negative right ascensions are outside the quantifier: C39_negative_ra and C39_far_negative_ra show what happens there."
  },
  {
   "property": "C40",
   "status": "proved",
   "theorems": [
    "Verif.Props.C40_opening",
    "Verif.Props.C40_closing",
    "Verif.Props.C40_codes",
    "Verif.Props.C40_numbering",
    "Verif.Props.C40_only",
    "Verif.Props.C40_injective",
    "Verif.Props.C40_ades_prefix"
   ],
   "note": "As find_tag is written, any text beginning with \"ades\" gets code 0, C40_ades_prefix."
  },
  {
   "property": "C41",
   "status": "proved",
   "theorems": [
    "Verif.Props.C41_follows",
    "Verif.Props.C41_document",
    "Verif.Props.C41_rejects_closing",
    "Verif.Props.C41_rejects_depth",
    "Verif.Props.C41_stops",
    "Verif.Props.C41_safe",
    "Verif.Props.C41_control_hangs",
    "Verif.Props.C41_optical_unopened",
    "Verif.Props.C41_after_error"
   ],
   "note": "The unrestricted claim is false: C41_optical_unopened, C41_after_error (access outside the table) and C41_control_hangs (endless loop) show where.  Only the XML path of xlate_ades2mpc is modelled."
  },
  {
   "property": "C42",
   "status": "proved",
   "theorems": [
    "Verif.Props.C42_spin",
    "Verif.Props.C42_pre_spin",
    "Verif.Props.C42_spin_orthonormal",
    "Verif.Props.C42_pre_spin_orthonormal",
    "Verif.Props.C42_spin_back",
    "Verif.Props.C42_identity",
    "Verif.Props.C42_invert",
    "Verif.Props.C42_rotate_length",
    "Verif.Props.C42_rotate_add",
    "Verif.Props.C42_rotate_back"
   ],
   "note": "Exact arithmetic in a commutative ring."
  },
  {
   "property": "C43",
   "status": "proved",
   "theorems": [
    "Verif.Props.C43_roundtrip",
    "Verif.Props.C43_ranges",
    "Verif.Props.C43_injective",
    "Verif.Props.C43_warnings",
    "Verif.Props.C43_bad_digit",
    "Verif.Props.C43_short",
    "Verif.Props.C43_leap_second"
   ],
   "note": "Finding: a bad digit is printed as a date with no warning (C43_bad_digit); an argument under six bytes is read past its end (C43_short). The Julian Date in the output is not modelled. C43_leap_second says what each warning means."
  },
  {
   "property": "C44",
   "status": "proved",
   "theorems": [
    "Verif.Props.C44_split",
    "Verif.Props.C44_gregorian",
    "Verif.Props.C44_unique",
    "Verif.Props.C44_roundtrip",
    "Verif.Props.C44_order"
   ],
   "note": "Exact arithmetic in any ordered field with a floor function (no rounding errors); C44_split covers every calendar in which day_to_dmy returns, the others the Gregorian calendar."
  },
  {
   "property": "C45",
   "status": "proved",
   "theorems": [
    "Verif.Props.C45_packs",
    "Verif.Props.C45_injective",
    "Verif.Props.C45_five",
    "Verif.Props.C45_collisions",
    "Verif.Props.C45_unchecked",
    "Verif.Props.C45_other"
   ],
   "note": "Findings: the year of an MPEC is dropped and numbers past the range wrap (C45_collisions); the number of an MPEC is not checked (C45_unchecked)."
  },
  {
   "property": "C46",
   "status": "proved",
   "theorems": [
    "Verif.Props.C46_result",
    "Verif.Props.C46_bad_width",
    "Verif.Props.C46_safe",
    "Verif.Props.C46_success",
    "Verif.Props.C46_other_o",
    "Verif.Props.C46_short_record"
   ],
   "note": "The column texts are modelled; their conversion by atof is not. Findings: any column beginning with o or O is taken for an element (C46_other_o); a record shorter than the header is read past its end (C46_short_record)."
  },
  {
   "property": "C47",
   "status": "proved",
   "theorems": [
    "Verif.Props.C47_date",
    "Verif.Props.C47_injective",
    "Verif.Props.C47_other_length",
    "Verif.Props.C47_bad_month",
    "Verif.Props.C47_no_such_day",
    "Verif.Props.C47_blank",
    "Verif.Props.C47_negative"
   ],
   "note": "Findings: a month from 15 on reads outside a table (C47_bad_month); dates that do not exist are accepted (C47_no_such_day); blanks or a sign count among the eight bytes (C47_blank). Also C47_negative: seven digits with a minus sign are taken as a date."
  },
  {
   "property": "C48",
   "status": "proved",
   "theorems": [
    "Verif.Props.C48_get16",
    "Verif.Props.C48_get32",
    "Verif.Props.C48_get16s",
    "Verif.Props.C48_get32s",
    "Verif.Props.C48_double",
    "Verif.Props.C48_double_only"
   ],
   "note": ""
  },
  {
   "property": "C49",
   "status": "proved",
   "theorems": [
    "Verif.Props.C49_inverse",
    "Verif.Props.C49_monotone",
    "Verif.Props.C49_sol",
    "Verif.Props.C49_example_stale"
   ],
   "note": "Exact arithmetic. C49_example_stale: the worked example in the source comment belongs to an older constant."
  },
  {
   "property": "C50",
   "status": "proved",
   "theorems": [
    "Verif.Props.C50_replace",
    "Verif.Props.C50_determined",
    "Verif.Props.C50_length",
    "Verif.Props.C50_empty_pattern"
   ],
   "note": "Finding: an empty pattern makes the loop run for ever (C50_empty_pattern)."
  },
  {
   "property": "C51",
   "status": "partial",
   "theorems": [
    "Verif.Props.C51_comet_partial",
    "Verif.Props.C51_order_letter_lost",
    "Verif.Props.C51_large_subscript",
    "Verif.Props.C51_survey_clash"
   ],
   "note": "Violated: C51_order_letter_lost, C51_large_subscript, C51_survey_clash. Proved for designations without those features."
  },
  {
   "property": "C52",
   "status": "proved",
   "theorems": [
    "Verif.Props.C52_packed",
    "Verif.Props.C52_numbered_comet",
    "Verif.Props.C52_trailing_ignored",
    "Verif.Props.C52_prefix"
   ],
   "note": "C52_trailing_ignored records that text after the fragment letters is accepted and dropped."
  },
  {
   "property": "C53",
   "status": "partial",
   "theorems": [
    "Verif.Props.C53_unknown",
    "Verif.Props.C53_twelve_bytes",
    "Verif.Props.C53_embedded_nul"
   ],
   "note": "Length and return value proved for every name, and the exact field for names of no known form (C53_unknown); 'non-NUL' violated (C53_embedded_nul)."
  },
  {
   "property": "C54",
   "status": "partial",
   "theorems": [
    "Verif.Props.C54_dollar",
    "Verif.Props.C54_unaligned",
    "Verif.Props.C54_total_partial",
    "Verif.Props.C54_underscore_uninitialised",
    "Verif.Props.C54_too_long",
    "Verif.Props.C54_exact"
   ],
   "note": "Violated (C54_underscore_uninitialised, C54_too_long, C23_permanent_exits). C54_exact says for every twelve-byte NUL-free field whether the call returns, aborts or reads unset memory; C54_dollar and C54_unaligned cover the fields that are not twelve-column packed forms."
  },
  {
   "property": "C55",
   "status": "proved",
   "theorems": [
    "Verif.Props.C55_append_trunc",
    "Verif.Props.C55_append"
   ],
   "note": "vsnprintf itself is taken to behave as the C standard says."
  },
  {
   "property": "C56",
   "status": "proved",
   "theorems": [
    "Verif.Props.C56_perpendicular",
    "Verif.Props.C56_length",
    "Verif.Props.C56_orientation",
    "Verif.Props.C56_rotate"
   ],
   "note": "Exact arithmetic."
  },
  {
   "property": "C57",
   "status": "proved",
   "theorems": [
    "Verif.Props.C57_ranges",
    "Verif.Props.C57_steps",
    "Verif.Props.C57_1972",
    "Verif.Props.C57_dates"
   ],
   "note": "All thirteen pieces, exactly, in units of 1e-7 s."
  },
  {
   "property": "C58",
   "status": "proved",
   "theorems": [
    "Verif.Props.C58_ends",
    "Verif.Props.C58_one_piece"
   ],
   "note": "Exact end values; the largest jump between pieces is 0.2511145408 s."
  },
  {
   "property": "C59",
   "status": "proved",
   "theorems": [
    "Verif.Props.C59_contracts",
    "Verif.Props.C59_rate",
    "Verif.Props.C59_size",
    "Verif.Props.C59_airy"
   ],
   "note": "Over the real numbers (no rounding)."
  },
  {
   "property": "C60",
   "status": "proved",
   "theorems": [
    "Verif.Props.C60_remainder",
    "Verif.Props.C60_remainder_abort",
    "Verif.Props.C60_time_only",
    "Verif.Props.C60_iso",
    "Verif.Props.C60_sorted",
    "Verif.Props.C60_monotone",
    "Verif.Props.C60_exact",
    "Verif.Props.C60_rounds",
    "Verif.Props.C60_picodays",
    "Verif.Props.C60_days_fit",
    "Verif.Props.C60_month13",
    "Verif.Props.C60_room",
    "Verif.Props.C60_layout",
    "Verif.Props.C60_count",
    "Verif.Props.C60_calendar"
   ],
   "note": "Exact arithmetic. C60_layout for all flags, C60_calendar for the calendars of C01-C08. Findings: C60_picodays (stack overflow for 12 or more decimals of a day), C60_month13 (NULL month name). The year, JD and MJD formats are C70. C60_room says exactly when the day name and time fill the 80-byte buffer."
  },
  {
   "property": "C61",
   "status": "proved",
   "theorems": [
    "Verif.Props.C61_month_out",
    "Verif.Props.C61_month_name",
    "Verif.Props.C61_named_abort",
    "Verif.Props.C61_abort",
    "Verif.Props.C61_any_order"
   ],
   "note": "Exact arithmetic, bytes below 128, int and long unbounded. Findings: the aborts, and C61_month_out."
  },
  {
   "property": "C62",
   "status": "proved",
   "theorems": [
    "Verif.Props.C62_copied",
    "Verif.Props.C62_overflow",
    "Verif.Props.C62_contents"
   ],
   "note": "The write past the buffer is a finding (C62_overflow says exactly when)."
  },
  {
   "property": "C63",
   "status": "proved",
   "theorems": [
    "Verif.Props.C63_sorts",
    "Verif.Props.C63_table",
    "Verif.Props.C63_complete"
   ],
   "note": ""
  },
  {
   "property": "C64",
   "status": "proved",
   "theorems": [
    "Verif.Props.C64_iso",
    "Verif.Props.C64_roundtrip",
    "Verif.Props.C64_exact",
    "Verif.Props.C64_rounds",
    "Verif.Props.C64_hours_lost",
    "Verif.Props.C64_blank_month"
   ],
   "note": "Exact arithmetic; the all-digits year-first format of C60. Findings: C64_hours_lost, C64_blank_month."
  },
  {
   "property": "C65",
   "status": "proved",
   "theorems": [
    "Verif.Props.C65_offset_adds",
    "Verif.Props.C65_offset_alone",
    "Verif.Props.C65_endless",
    "Verif.Props.C65_zero_offset",
    "Verif.Props.C65_depth",
    "Verif.Props.C65_returns"
   ],
   "note": "Exact arithmetic. Findings: C65_endless (endless loop), C65_zero_offset (an offset of 0 ends the loop, earlier offsets are not seen)."
  },
  {
   "property": "C66",
   "status": "proved",
   "theorems": [
    "Verif.Props.C66_weekday",
    "Verif.Props.C66_before"
   ],
   "note": "Gregorian calendar; that split_timel gives the civil date of the initial time is a hypothesis (C44 proves that of the model of split_timel). Finding: C66_before."
  },
  {
   "property": "C67",
   "status": "proved",
   "theorems": [
    "Verif.Props.C67_fits",
    "Verif.Props.C67_zulu"
   ],
   "note": "Exact arithmetic. Finding: C67_zulu."
  },
  {
   "property": "C68",
   "status": "proved",
   "theorems": [
    "Verif.Props.C68_jd",
    "Verif.Props.C68_mjd",
    "Verif.Props.C68_year",
    "Verif.Props.C68_unix",
    "Verif.Props.C68_gps",
    "Verif.Props.C68_now"
   ],
   "note": "Exact arithmetic. \"JD 0\" is excluded: the code takes the value 0 for \"not a Julian Date\"."
  },
  {
   "property": "C69",
   "status": "proved",
   "theorems": [
    "Verif.Props.C69_ad",
    "Verif.Props.C69_bc",
    "Verif.Props.C69_half",
    "Verif.Props.C69_phase"
   ],
   "note": "Exact arithmetic; find_nearest_lunar_phase_time is a parameter."
  },
  {
   "property": "C70",
   "status": "proved",
   "theorems": [
    "Verif.Props.C70_jd",
    "Verif.Props.C70_jd_exact",
    "Verif.Props.C70_jd_rounding",
    "Verif.Props.C70_jd_rounding_exact",
    "Verif.Props.C70_jd_back",
    "Verif.Props.C70_year",
    "Verif.Props.C70_year_back",
    "Verif.Props.C70_year_five"
   ],
   "note": "Exact arithmetic; %.pLf rounds to nearest, ties to even. Findings: C70_jd_rounding, C70_jd_rounding_exact, C70_year_back, C70_year_five."
  },
  {
   "property": "C71",
   "status": "proved",
   "theorems": [
    "Verif.Props.C71_date",
    "Verif.Props.C71_count",
    "Verif.Props.C71_october",
    "Verif.Props.C71_radar",
    "Verif.Props.C71_length",
    "Verif.Props.C71_mark",
    "Verif.Props.C71_code",
    "Verif.Props.C71_no_month"
   ],
   "note": "Exact arithmetic. Findings: C71_october, C71_no_month."
  },
  {
   "property": "C72",
   "status": "proved",
   "theorems": [
    "Verif.Props.C72_ra",
    "Verif.Props.C72_dec",
    "Verif.Props.C72_packed",
    "Verif.Props.C72_packed_overflow",
    "Verif.Props.C72_seven_digits",
    "Verif.Props.C72_blank",
    "Verif.Props.C72_report"
   ],
   "note": "Exact arithmetic; the factors to radians and arcseconds are left out. Findings: C72_seven_digits, C72_packed_overflow."
  },
  {
   "property": "C73",
   "status": "proved",
   "theorems": [
    "Verif.Props.C73_integer",
    "Verif.Props.C73_decimal",
    "Verif.Props.C73_too_many_decimals",
    "Verif.Props.C73_too_large",
    "Verif.Props.C73_no_number",
    "Verif.Props.C73_only_point"
   ],
   "note": "Exact arithmetic. Findings: C73_too_many_decimals, C73_too_large, C73_no_number."
  },
  {
   "property": "C74",
   "status": "proved",
   "theorems": [
    "Verif.Props.C74_recreate",
    "Verif.Props.C74_nearest",
    "Verif.Props.C74_sign",
    "Verif.Props.C74_ra",
    "Verif.Props.C74_dec",
    "Verif.Props.C74_long_seconds",
    "Verif.Props.C74_long_decimal",
    "Verif.Props.C74_long_degrees",
    "Verif.Props.C74_format_200",
    "Verif.Props.C74_whole_turn"
   ],
   "note": "Exact arithmetic: the products in doubles are not modelled. Whole decimal degrees or hours (100, 200) are outside Format: they have no decimal point and read back as minutes."
  },
  {
   "property": "C75",
   "status": "proved",
   "theorems": [
    "Verif.Props.C75_angle",
    "Verif.Props.C75_coordinate",
    "Verif.Props.C75_height",
    "Verif.Props.C75_place",
    "Verif.Props.C75_place_default",
    "Verif.Props.C75_place_range",
    "Verif.Props.C75_place_unchecked",
    "Verif.Props.C75_place_twice",
    "Verif.Props.C75_past_end",
    "Verif.Props.C75_past_end_second",
    "Verif.Props.C75_ra",
    "Verif.Props.C75_ra_minutes",
    "Verif.Props.C75_dec",
    "Verif.Props.C75_dec_unsigned",
    "Verif.Props.C75_dec_range",
    "Verif.Props.C75_xxx",
    "Verif.Props.C75_xxx_codes"
   ],
   "note": "Angles in degrees, exact arithmetic; the multiplication by PI/180 and the parallax constants are not part of this model. Findings: read past the end of the text; hours and minutes taken for degrees; a declination beyond 90 degrees reported with length 1; range not checked without a place to fill; codes -4, -8, -12 never returned."
  },
  {
   "property": "C76",
   "status": "proved",
   "theorems": [
    "Verif.Props.C76_standard",
    "Verif.Props.C76_base60",
    "Verif.Props.C76_rover",
    "Verif.Props.C76_rover_base60",
    "Verif.Props.C76_point",
    "Verif.Props.C76_negative_planet",
    "Verif.Props.C76_short",
    "Verif.Props.C76_satellite",
    "Verif.Props.C76_unknown"
   ],
   "note": "Angles in degrees, exact arithmetic; the computations of parallax constants and of the place from them are left out here. Findings: no parallax constants on the equator or the prime meridian; negative planet; text of fewer than three bytes; the first at sign of the line counts even in the name."
  },
  {
   "property": "C77",
   "status": "proved",
   "theorems": [
    "Verif.Props.C77_parallax",
    "Verif.Props.C77_nearest",
    "Verif.Props.C77_round",
    "Verif.Props.C77_pole",
    "Verif.Props.C77_circle",
    "Verif.Props.C77_radii"
   ],
   "note": "Over the real numbers, no rounding; NaN as a separate outcome. Findings: wrong distance on the minor axis (the height of a station at a pole is off by the difference of the axes), NaN on the x axis for a circle, NaN parallax constants for bodies without a radius, negative body before the tables."
  },
  {
   "property": "C78",
   "status": "proved",
   "theorems": [
    "Verif.Props.C78_cut",
    "Verif.Props.C78_short",
    "Verif.Props.C78_region"
   ],
   "note": "Exact arithmetic. Findings: text cut before a byte over 127; short lines, such as empty ones, make bytes after the end of the line be read."
  },
  {
   "property": "C79",
   "status": "proved",
   "theorems": [
    "Verif.Props.C79_unit",
    "Verif.Props.C79_dist",
    "Verif.Props.C79_angle",
    "Verif.Props.C79_reverse",
    "Verif.Props.C79_there",
    "Verif.Props.C79_back"
   ],
   "note": "Over the real numbers, no rounding: the arcsine branches that the code takes near 0 and pi for accuracy agree exactly with the arccosine."
  },
  {
   "property": "C80",
   "status": "proved",
   "theorems": [
    "Verif.Props.C80_alt_az",
    "Verif.Props.C80_ra_dec",
    "Verif.Props.C80_back",
    "Verif.Props.C80_mismatch",
    "Verif.Props.C80_poles",
    "Verif.Props.C80_hour_angle"
   ],
   "note": "Over the real numbers, no rounding; NaN is a separate outcome; sidereal time and nutation are parameters. Findings: the two functions count azimuths from opposite points, so that a direction does not come back; both are wrong at the poles of the earth; no azimuth at the zenith."
  },
  {
   "property": "C81",
   "status": "proved",
   "theorems": [
    "Verif.Props.C81_pt",
    "Verif.Props.C81_ecliptic",
    "Verif.Props.C81_equatorial",
    "Verif.Props.C81_cache",
    "Verif.Props.C81_inverse",
    "Verif.Props.C81_j2000",
    "Verif.Props.C81_garbage",
    "Verif.Props.C81_order",
    "Verif.Props.C81_chain",
    "Verif.Props.C81_obliquity",
    "Verif.Props.C81_obliquity_ends",
    "Verif.Props.C81_setup",
    "Verif.Props.C81_nutation",
    "Verif.Props.C81_vector",
    "Verif.Props.C81_ra_dec",
    "Verif.Props.C81_ra_dec_back",
    "Verif.Props.C81_galactic",
    "Verif.Props.C81_there_and_back"
   ],
   "note": "Over the real numbers, no rounding; nutation is a parameter. Findings: between two years other than 2000 the product is the transpose of the first matrix times the second instead of the second times the transpose of the first; the two years the cache begins with get a matrix of zeros on a first call."
  },
  {
   "property": "C82",
   "status": "proved",
   "theorems": [
    "Verif.Props.C82_unique",
    "Verif.Props.C82_low",
    "Verif.Props.C82_low_ends",
    "Verif.Props.C82_same",
    "Verif.Props.C82_high",
    "Verif.Props.C82_hyperbolic",
    "Verif.Props.C82_near"
   ],
   "note": "Over the reals. Not excluded: the assertion on the number of rounds for eccentricities from 0.9; minus an odd number of half turns (in exact arithmetic the first guess is then a whole turn off, in doubles it is not)."
  },
  {
   "property": "C83",
   "status": "proved",
   "theorems": [
    "Verif.Props.C83_elements",
    "Verif.Props.C83_back",
    "Verif.Props.C83_stops",
    "Verif.Props.C83_angles",
    "Verif.Props.C83_flat",
    "Verif.Props.C83_flat_wrong",
    "Verif.Props.C83_flatten"
   ],
   "note": "Over \u211d, K any exact solution of Kepler's equation. C83_elements, C83_back, C83_angles, C83_stops; findings: C83_flat, C83_flat_wrong (orbits in the xy plane), C83_flatten (division by |h| instead of |h|\u00b2)."
  },
  {
   "property": "C84",
   "status": "proved",
   "theorems": [
    "Verif.Props.C84_motion",
    "Verif.Props.C84_perihelion",
    "Verif.Props.C84_polar",
    "Verif.Props.C84_again"
   ],
   "note": "Over \u211d, K any exact solution of Kepler's equation (C82 is about kepler itself). C84_motion, C84_perihelion, C84_again; finding: C84_polar."
  },
  {
   "property": "C85",
   "status": "proved",
   "theorems": [
    "Verif.Props.C85_time",
    "Verif.Props.C85_ra",
    "Verif.Props.C85_dec",
    "Verif.Props.C85_ra_any",
    "Verif.Props.C85_dec_any",
    "Verif.Props.C85_observation",
    "Verif.Props.C85_long_time",
    "Verif.Props.C85_ra_overwritten",
    "Verif.Props.C85_no_z",
    "Verif.Props.C85_negative_ra",
    "Verif.Props.C85_negative_ra_zero",
    "Verif.Props.C85_short_station",
    "Verif.Props.C85_ra_abort",
    "Verif.Props.C85_ra_overflow",
    "Verif.Props.C85_given_out",
    "Verif.Props.C85_own_columns"
   ],
   "note": "Numbers are rational (atof and printf exact). The exceptions are theorems of their own, with explicit hypotheses."
  },
  {
   "property": "C86",
   "status": "proved",
   "theorems": [
    "Verif.Props.C86_drains",
    "Verif.Props.C86_long_center",
    "Verif.Props.C86_sigmas_dropped",
    "Verif.Props.C86_stale_correlation",
    "Verif.Props.C86_stale_magnitude",
    "Verif.Props.C86_short"
   ],
   "note": "Nine or more calls. The texts are assumed to fit the output buffer of 221 bytes; the values left behind are stated exactly."
  },
  {
   "property": "C87",
   "status": "proved",
   "theorems": [
    "Verif.Props.C87_row",
    "Verif.Props.C87_other_count",
    "Verif.Props.C87_header",
    "Verif.Props.C87_unknown_name",
    "Verif.Props.C87_line",
    "Verif.Props.C87_section",
    "Verif.Props.C87_file",
    "Verif.Props.C87_section_ends",
    "Verif.Props.C87_lower_case"
   ],
   "note": "The values must leave the remark lines of the observation within the output buffer (Moderate), which is a condition on the values of that line only: the rest is proved to stay short."
  },
  {
   "property": "C88",
   "status": "proved",
   "theorems": [
    "Verif.Props.C88_whole",
    "Verif.Props.C88_same",
    "Verif.Props.C88_same_lines",
    "Verif.Props.C88_inside",
    "Verif.Props.C88_last",
    "Verif.Props.C88_observation",
    "Verif.Props.C88_observations",
    "Verif.Props.C88_header",
    "Verif.Props.C88_unended_tag",
    "Verif.Props.C88_name_not_ended",
    "Verif.Props.C88_two_on_a_line"
   ],
   "note": "Lines must be none of the other things the translator looks for first (PlainLine: a header of columns, a comment starting a header, sigmas in columns 81 to 92), and the values must not make it end (Taken, Moderate)."
  },
  {
   "property": "C89",
   "status": "proved",
   "theorems": [
    "Verif.Props.C89_bounds",
    "Verif.Props.C89_consumes",
    "Verif.Props.C89_field",
    "Verif.Props.C89_form",
    "Verif.Props.C89_request",
    "Verif.Props.C89_file",
    "Verif.Props.C89_long_name",
    "Verif.Props.C89_cut",
    "Verif.Props.C89_boundary_kept"
   ],
   "note": "memcmp is taken to look no further than the first difference."
  },
  {
   "property": "C90",
   "status": "proved",
   "theorems": [
    "Verif.Props.C90_field",
    "Verif.Props.C90_part_of_name",
    "Verif.Props.C90_missing",
    "Verif.Props.C90_overflow",
    "Verif.Props.C90_files"
   ],
   "note": "The column asked for is not the last one; fields have no commas."
  },
  {
   "property": "C91",
   "status": "proved",
   "theorems": [
    "Verif.Props.C91_polynomial",
    "Verif.Props.C91_inverse",
    "Verif.Props.C91_outside",
    "Verif.Props.C91_lower_end",
    "Verif.Props.C91_exact_lost",
    "Verif.Props.C91_upper_end",
    "Verif.Props.C91_b_v",
    "Verif.Props.C91_v_r",
    "Verif.Props.C91_tycho",
    "Verif.Props.C91_tycho_end"
   ],
   "note": "Over the real numbers. That the search ends within its hundred turns is not shown; 99 is the result when it does not."
  },
  {
   "property": "C92",
   "status": "proved",
   "theorems": [
    "Verif.Props.C92_lipschitz",
    "Verif.Props.C92_reverse",
    "Verif.Props.C92_increasing",
    "Verif.Props.C92_decreasing",
    "Verif.Props.C92_bound",
    "Verif.Props.C92_every"
   ],
   "note": "Over the real numbers."
  },
  {
   "property": "C93",
   "status": "proved",
   "theorems": [
    "Verif.Props.C93_slope",
    "Verif.Props.C93_joined",
    "Verif.Props.C93_newton",
    "Verif.Props.C93_settled",
    "Verif.Props.C93_tropopause",
    "Verif.Props.C93_top",
    "Verif.Props.C93_top_dry",
    "Verif.Props.C93_cubic",
    "Verif.Props.C93_vacuum"
   ],
   "note": "Over the real numbers. The radius at which the inner search ends is a parameter of the model."
  },
  {
   "property": "C94",
   "status": "proved",
   "theorems": [
    "Verif.Props.C94_point",
    "Verif.Props.C94_moid",
    "Verif.Props.C94_data",
    "Verif.Props.C94_speed",
    "Verif.Props.C94_guess",
    "Verif.Props.C94_lost",
    "Verif.Props.C94_pole"
   ],
   "note": "Over the real numbers. The points that Brent's method visits inside a bracket are a parameter. Hyperbolic second orbits are modelled, but the theorem is for ellipses."
  },
  {
   "property": "C95",
   "status": "proved",
   "theorems": [
    "Verif.Props.C95_centralize",
    "Verif.Props.C95_planets",
    "Verif.Props.C95_pluto",
    "Verif.Props.C95_minor",
    "Verif.Props.C95_range",
    "Verif.Props.C95_closed"
   ],
   "note": "Over the real numbers; the tables are compared with a copy of the published ones in the specification."
  },
  {
   "property": "C96",
   "status": "proved",
   "theorems": [
    "Verif.Props.C96_line",
    "Verif.Props.C96_too_far",
    "Verif.Props.C96_read",
    "Verif.Props.C96_round_trip",
    "Verif.Props.C96_error",
    "Verif.Props.C96_zero_sign"
   ],
   "note": "Over the rational numbers. The text is that of %10.pf rounded to even."
  },
  {
   "property": "C97",
   "status": "proved",
   "theorems": [
    "Verif.Props.C97_codes",
    "Verif.Props.C97_lines",
    "Verif.Props.C97_answered",
    "Verif.Props.C97_no_answer",
    "Verif.Props.C97_ades",
    "Verif.Props.C97_late"
   ],
   "note": "The service and the date of a line are parameters. The option that shows differences from the positions before is modelled, but the theorems are for runs without it. Second pass over ADES files: only the finding, since the first pass is undefined for them."
  },
  {
   "property": "C98",
   "status": "proved",
   "theorems": [
    "Verif.Props.C98_room",
    "Verif.Props.C98_epoch",
    "Verif.Props.C98_calendar",
    "Verif.Props.C98_carry"
   ],
   "note": "Over the real numbers, with printf rounding to even."
  },
  {
   "property": "C99",
   "status": "proved",
   "theorems": [
    "Verif.Props.C99_period",
    "Verif.Props.C99_perihelion",
    "Verif.Props.C99_ellipse",
    "Verif.Props.C99_distance",
    "Verif.Props.C99_negative",
    "Verif.Props.C99_open",
    "Verif.Props.C99_unit_lost",
    "Verif.Props.C99_parabola_shift"
   ],
   "note": "Over the real numbers, with printf rounding to even; the text of full_ctime is a parameter of at most 19 bytes."
  },
  {
   "property": "C100",
   "status": "proved",
   "theorems": [
    "Verif.Props.C100_table",
    "Verif.Props.C100_last_day",
    "Verif.Props.C100_day_early",
    "Verif.Props.C100_refused",
    "Verif.Props.C100_flags",
    "Verif.Props.C100_day",
    "Verif.Props.C100_no_nutation",
    "Verif.Props.C100_outside",
    "Verif.Props.C100_no_data",
    "Verif.Props.C100_aborts",
    "Verif.Props.C100_reported_range"
   ],
   "note": "Over the real numbers; td_minus_utc and default_td_minus_ut are parameters."
  },
  {
   "property": "C101",
   "status": "proved",
   "theorems": [
    "Verif.Props.C101_mpcorb",
    "Verif.Props.C101_other_lines",
    "Verif.Props.C101_astorb",
    "Verif.Props.C101_retrograde",
    "Verif.Props.C101_runs_on"
   ],
   "note": "Over the real numbers; numbers that overflow a long are not modelled."
  },
  {
   "property": "C102",
   "status": "proved",
   "theorems": [
    "Verif.Props.C102_asteroids",
    "Verif.Props.C102_with_comets",
    "Verif.Props.C102_overflow",
    "Verif.Props.C102_comets_alone",
    "Verif.Props.C102_asteroid",
    "Verif.Props.C102_comet",
    "Verif.Props.C102_aborts",
    "Verif.Props.C102_number",
    "Verif.Props.C102_designation",
    "Verif.Props.C102_unnamed",
    "Verif.Props.C102_first_observed",
    "Verif.Props.C102_provisional",
    "Verif.Props.C102_permanent",
    "Verif.Props.C102_comet_line"
   ],
   "note": "Over the real numbers; get_time_from_string is a parameter. The parts of the statement about the file assume that no line ends the program."
  },
  {
   "property": "C103",
   "status": "proved",
   "theorems": [
    "Verif.Props.C103_position",
    "Verif.Props.C103_velocity",
    "Verif.Props.C103_not_covered",
    "Verif.Props.C103_six",
    "Verif.Props.C103_load",
    "Verif.Props.C103_planet",
    "Verif.Props.C103_outside",
    "Verif.Props.C103_many_blocks"
   ],
   "note": "Over the real numbers; which real number eight bytes denote is a parameter."
  },
  {
   "property": "C104",
   "status": "proved",
   "theorems": [
    "Verif.Props.C104_error",
    "Verif.Props.C104_exact",
    "Verif.Props.C104_small_data",
    "Verif.Props.C104_asserts",
    "Verif.Props.C104_big_data",
    "Verif.Props.C104_calls",
    "Verif.Props.C104_other_file",
    "Verif.Props.C104_short_file"
   ],
   "note": "Over the real numbers; which real number eight bytes denote is a parameter."
  },
  {
   "property": "C105",
   "status": "proved",
   "theorems": [
    "Verif.Props.C105_error",
    "Verif.Props.C105_exact",
    "Verif.Props.C105_longitude",
    "Verif.Props.C105_latitude",
    "Verif.Props.C105_arguments",
    "Verif.Props.C105_moon",
    "Verif.Props.C105_systems",
    "Verif.Props.C105_obliquity",
    "Verif.Props.C105_planets",
    "Verif.Props.C105_pluto",
    "Verif.Props.C105_asserts"
   ],
   "note": "Over the real numbers; which real number eight bytes denote is a parameter."
  },
  {
   "property": "C106",
   "status": "proved",
   "theorems": [
    "Verif.Props.C106_designation",
    "Verif.Props.C106_none",
    "Verif.Props.C106_length",
    "Verif.Props.C106_longer",
    "Verif.Props.C106_normal",
    "Verif.Props.C106_not_a_number",
    "Verif.Props.C106_other_letters"
   ],
   "note": "Texts as bytes without the zero; overflow of atoi is not modelled."
  },
  {
   "property": "C107",
   "status": "proved",
   "theorems": [
    "Verif.Props.C107_angle",
    "Verif.Props.C107_sum",
    "Verif.Props.C107_old_numbers",
    "Verif.Props.C107_old_number",
    "Verif.Props.C107_found",
    "Verif.Props.C107_last",
    "Verif.Props.C107_not_there",
    "Verif.Props.C107_rows",
    "Verif.Props.C107_orthonormal",
    "Verif.Props.C107_handed",
    "Verif.Props.C107_orientation",
    "Verif.Props.C107_again",
    "Verif.Props.C107_no_file",
    "Verif.Props.C107_first_radii",
    "Verif.Props.C107_radii",
    "Verif.Props.C107_rate",
    "Verif.Props.C107_no_meridian",
    "Verif.Props.C107_cut",
    "Verif.Props.C107_kept",
    "Verif.Props.C107_endless"
   ],
   "note": "Real numbers for doubles; the Earth's precession matrix and TD-UT are parameters; no angle is exactly zero; the constant of a sum has no exponent."
  },
  {
   "property": "C108",
   "status": "proved",
   "theorems": [
    "Verif.Props.C108_leap_twelve",
    "Verif.Props.C108_offset",
    "Verif.Props.C108_year_zero",
    "Verif.Props.C108_table"
   ],
   "note": "Lines shorter than 60 bytes without zero bytes; bytes after a line's end are zero; `int` without overflow."
  },
  {
   "property": "C109",
   "status": "proved",
   "theorems": [
    "Verif.Props.C109_file",
    "Verif.Props.C109_dates",
    "Verif.Props.C109_origin",
    "Verif.Props.C109_end",
    "Verif.Props.C109_short"
   ],
   "note": "Rational arithmetic; the text that %g makes of the scale is a parameter; lines have no zero bytes."
  },
  {
   "property": "C110",
   "status": "proved",
   "theorems": [
    "Verif.Props.C110_table",
    "Verif.Props.C110_times",
    "Verif.Props.C110_count",
    "Verif.Props.C110_end",
    "Verif.Props.C110_negative",
    "Verif.Props.C110_no_craft",
    "Verif.Props.C110_default",
    "Verif.Props.C110_more",
    "Verif.Props.C110_interval",
    "Verif.Props.C110_arguments"
   ],
   "note": "Rational arithmetic; full_ctime is a parameter; lines have no zero bytes."
  },
  {
   "property": "C111",
   "status": "proved",
   "theorems": [
    "Verif.Props.C111_merge",
    "Verif.Props.C111_days",
    "Verif.Props.C111_gap",
    "Verif.Props.C111_again",
    "Verif.Props.C111_short_range"
   ],
   "note": "A new file without the range line is taken to be undefined; files can be opened and written."
  },
  {
   "property": "C112",
   "status": "proved",
   "theorems": [
    "Verif.Props.C112_sort",
    "Verif.Props.C112_hidden"
   ],
   "note": "Times are rational numbers; indices do not overflow, apart from the intended wrap around of j."
  },
  {
   "property": "C113",
   "status": "proved",
   "theorems": [
    "Verif.Props.C113_table",
    "Verif.Props.C113_times",
    "Verif.Props.C113_count",
    "Verif.Props.C113_empty_line",
    "Verif.Props.C113_other_craft",
    "Verif.Props.C113_options",
    "Verif.Props.C113_more",
    "Verif.Props.C113_default"
   ],
   "note": "Rational arithmetic; get_time_from_string and full_ctime are parameters."
  },
  {
   "property": "C114",
   "status": "proved",
   "theorems": [
    "Verif.Props.C114_length",
    "Verif.Props.C114_october",
    "Verif.Props.C114_columns",
    "Verif.Props.C114_order",
    "Verif.Props.C114_labels",
    "Verif.Props.C114_wrap",
    "Verif.Props.C114_fits",
    "Verif.Props.C114_early",
    "Verif.Props.C114_months",
    "Verif.Props.C114_four",
    "Verif.Props.C114_normal",
    "Verif.Props.C114_small",
    "Verif.Props.C114_row",
    "Verif.Props.C114_cell"
   ],
   "note": "The layout only: dates from files, fonts and the coordinates of texts are left out; the phases of the moon are a parameter."
  },
  {
   "property": "C115",
   "status": "proved",
   "theorems": [
    "Verif.Props.C115_columns",
    "Verif.Props.C115_observation",
    "Verif.Props.C115_code",
    "Verif.Props.C115_other",
    "Verif.Props.C115_place",
    "Verif.Props.C115_file",
    "Verif.Props.C115_unset",
    "Verif.Props.C115_last",
    "Verif.Props.C115_high"
   ],
   "note": "Rational arithmetic, angles in degrees; lines without NULs."
  },
  {
   "property": "C116",
   "status": "proved",
   "theorems": [
    "Verif.Props.C116_offsets",
    "Verif.Props.C116_reached",
    "Verif.Props.C116_empty",
    "Verif.Props.C116_blocks",
    "Verif.Props.C116_cycle",
    "Verif.Props.C116_eight",
    "Verif.Props.C116_negative",
    "Verif.Props.C116_switches",
    "Verif.Props.C116_constants"
   ],
   "note": "The days at which the years begin, which come from the equinoxes, are a parameter."
  },
  {
   "property": "C117",
   "status": "proved",
   "theorems": [
    "Verif.Props.C117_unique",
    "Verif.Props.C117_found",
    "Verif.Props.C117_url",
    "Verif.Props.C117_refused",
    "Verif.Props.C117_backwards"
   ],
   "note": "Rational arithmetic; get_time_from_string is a parameter."
  },
  {
   "property": "C118",
   "status": "proved",
   "theorems": [
    "Verif.Props.C118_rows",
    "Verif.Props.C118_cubic",
    "Verif.Props.C118_table",
    "Verif.Props.C118_range",
    "Verif.Props.C118_far",
    "Verif.Props.C118_jump",
    "Verif.Props.C118_pieces"
   ],
   "note": "Rational arithmetic."
  },
  {
   "property": "C119",
   "status": "proved",
   "theorems": [
    "Verif.Props.C119_centre",
    "Verif.Props.C119_turns",
    "Verif.Props.C119_window",
    "Verif.Props.C119_edge",
    "Verif.Props.C119_pole",
    "Verif.Props.C119_overflow"
   ],
   "note": "Rational arithmetic; the file as a list of bytes."
  },
  {
   "property": "C120",
   "status": "proved",
   "theorems": [
    "Verif.Props.C120_text",
    "Verif.Props.C120_room",
    "Verif.Props.C120_weekday",
    "Verif.Props.C120_forever",
    "Verif.Props.C120_list",
    "Verif.Props.C120_entries",
    "Verif.Props.C120_other",
    "Verif.Props.C120_line",
    "Verif.Props.C120_slash",
    "Verif.Props.C120_short"
   ],
   "note": "The lines of the files; the dates computed and the phases of the moon are left out."
  }
 ]
}