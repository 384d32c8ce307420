{
 "C01": [
  "proved",
  "All integer day numbers."
 ],
 "C02": [
  "proved",
  "Against the leap-year rule and the epoch of Spec/Calendar.lean."
 ],
 "C03": [
  "proved",
  ""
 ],
 "C04": [
  "proved",
  "Dates that exist under the specification."
 ],
 "C05": [
  "proved",
  "Includes what the code does with the ten skipped dates when given them."
 ],
 "C06": [
  "proved",
  ""
 ],
 "C07": [
  "partial",
  "Holds for day numbers without exception; date round trip and year lengths fail in the years congruent to 193151, 383856, 574561 mod 689472 (code tests > 18h where the rule says >=), proved as C07_hebrew_overlap and C07_hebrew_not_injective."
 ],
 "C08": [
  "proved",
  ""
 ],
 "C09": [
  "partial",
  "Violated in the last supported year 2327 (month 12 has 126 days), proved as C09_persian_last_year; the rest of the range is proved."
 ],
 "C10": [
  "proved",
  ""
 ],
 "C100": [
  "proved",
  "Over the real numbers; td_minus_utc and default_td_minus_ut are parameters."
 ],
 "C101": [
  "proved",
  "Over the real numbers; numbers that overflow a long are not modelled."
 ],
 "C102": [
  "proved",
  "Over the real numbers; get_time_from_string is a parameter. The parts of the statement about the file assume that no line ends the program."
 ],
 "C103": [
  "proved",
  "Over the real numbers; which real number eight bytes denote is a parameter."
 ],
 "C104": [
  "proved",
  "Over the real numbers; which real number eight bytes denote is a parameter."
 ],
 "C105": [
  "proved",
  "Over the real numbers; which real number eight bytes denote is a parameter."
 ],
 "C106": [
  "proved",
  "Texts as bytes without the zero; overflow of atoi is not modelled."
 ],
 "C107": [
  "proved",
  "Real numbers for doubles; the Earth's precession matrix and TD-UT are parameters; no angle is exactly zero; the constant of a sum has no exponent."
 ],
 "C108": [
  "proved",
  "Lines shorter than 60 bytes without zero bytes; bytes after a line's end are zero; `int` without overflow."
 ],
 "C109": [
  "proved",
  "Rational arithmetic; the text that %g makes of the scale is a parameter; lines have no zero bytes."
 ],
 "C11": [
  "partial",
  "Violated on eight days that the table leaves out: day_to_dmy never returns (C11_chinese_hangs). All other days proved."
 ],
 "C110": [
  "proved",
  "Rational arithmetic; full_ctime is a parameter; lines have no zero bytes."
 ],
 "C111": [
  "proved",
  "A new file without the range line is taken to be undefined; files can be opened and written."
 ],
 "C112": [
  "proved",
  "Times are rational numbers; indices do not overflow, apart from the intended wrap around of j."
 ],
 "C113": [
  "proved",
  "Rational arithmetic; get_time_from_string and full_ctime are parameters."
 ],
 "C114": [
  "proved",
  "The layout only: dates from files, fonts and the coordinates of texts are left out; the phases of the moon are a parameter."
 ],
 "C115": [
  "proved",
  "Rational arithmetic, angles in degrees; lines without NULs."
 ],
 "C116": [
  "proved",
  "The days at which the years begin, which come from the equinoxes, are a parameter."
 ],
 "C117": [
  "proved",
  "Rational arithmetic; get_time_from_string is a parameter."
 ],
 "C118": [
  "proved",
  "Rational arithmetic."
 ],
 "C119": [
  "proved",
  "Rational arithmetic; the file as a list of bytes."
 ],
 "C12": [
  "partial",
  "Violated for the Chinese calendar on eight days; every other call returns."
 ],
 "C120": [
  "proved",
  "The lines of the files; the dates computed and the phases of the moon are left out."
 ],
 "C13": [
  "proved",
  "The six rule-based calendars; the Hebrew counterexample is C07_hebrew_not_injective."
 ],
 "C14": [
  "proved",
  "The six rule-based calendars; Persian counterexample C14_persian_counterexample."
 ],
 "C15": [
  "proved",
  "The library keeps the caller's pointer; the model keeps the name, i.e. assumes the caller does not change the string."
 ],
 "C16": [
  "proved",
  "Years 0 on; negative years are shown to fail."
 ],
 "C17": [
  "proved",
  ""
 ],
 "C18": [
  "proved",
  "Negative values are shown not to be encodable."
 ],
 "C19": [
  "proved",
  "All numbers 1..15396335."
 ],
 "C20": [
  "partial",
  "Violated: the number is kept modulo 2^32, so '(4294967297)' packs as '(1)' (C20_aliased). Proved for all numbers below 2^32. C20_bare: five or more digits without parentheses are treated as the number in parentheses, fewer digits are reported."
 ],
 "C21": [
  "partial",
  "Violated for subscripts from 620 outside 2000-2061 (C21_subscript_lost: success is returned but the subscript is dropped) and for order letter I in the underscore form (C21_letter_I). Proved for all others; C21_too_large shows what happens beyond the underscore scheme. C21_trailing: a designation followed by anything but blanks is not packed as that designation."
 ],
 "C22": [
  "partial",
  "Violated for survey numbers from 9000 (C22_large_number). Proved for 1000-8999. C22_reported: every number from 9000 on is reported as unpackable, so nothing is silently changed."
 ],
 "C23": [
  "partial",
  "Violated: unpacking a long Roman numeral exits the program (C23_permanent_exits) and provisional numbers 100-109 lose a digit (C23_provisional_loses_digit). Proved elsewhere."
 ],
 "C24": [
  "partial",
  "Every numeral the library writes is read back; 'accepts no other spelling' is violated (C24_other_spellings)."
 ],
 "C25": [
  "proved",
  ""
 ],
 "C26": [
  "partial",
  "Violated: 'Gaia-3E' comes back as 'Gaia-EDR3' (C26_gaia_3E), the documented spelling 'Gaiadr1' is not understood (C26_documented_spelling), names of eighty letters overrun a buffer (C26_overflow). Everything else proved."
 ],
 "C27": [
  "partial",
  "Violated from number 10000 on (C27_large_numbers, C27_clash) and for one-letter words (C27_one_letter_clash). Proved for 1-9999 and all two-letter words."
 ],
 "C28": [
  "proved",
  ""
 ],
 "C29": [
  "proved",
  ""
 ],
 "C30": [
  "proved",
  "Findings: size 0 is taken as no limit (C30_zero_size); small-letter hexadecimal digits are refused (C30_small_hex); a raw byte from 128 on ends the value (C30_high_byte); the rest of a value that does not fit is read as the next field (C30_cut)."
 ],
 "C31": [
  "proved",
  "All twelve macros equal the Gregorian first of the month for every integer year, negative ones included, and agree with dmy_to_day; also the second JAN_1 in utc_algo.cpp."
 ],
 "C32": [
  "proved",
  "Table, monotonicity and change dates, for all days from 1972 on with the program's own Delta-T prediction (exact arithmetic, no EOP file loaded); changes also for any prediction."
 ],
 "C33": [
  "proved",
  "For every day from the year 1 on, more than the branch's domain."
 ],
 "C34": [
  "proved",
  "Passes through every entry, straight between them, at most 4.5 s/yr, index in the table. Finding: not continuous at 1620, where the table starts 28 s above the polynomial (C34_jump_1620); the property speaks of the tabulated years only."
 ],
 "C35": [
  "partial",
  "With a positive tolerance the invariant (sorted values, best point strictly inside, bracket only shrinks, best value never rises) holds from brent_min_init through any run, for any function and any square-root routine, and brent_min_add never fails. Missing: brent_min_next can fail an assertion; C35_next_fails lists the only ways, and C35_symmetric_aborts / C35_equal_aborts show two starting brackets for which it does."
 ],
 "C36": [
  "proved",
  "Parabola and cubic both interpolate; the parabola is unique; the point returned by cubic_min is stationary."
 ],
 "C37": [
  "partial",
  "Smoothness, quadratics, reads and err_code in full; passes through every entry except the first and the last, which are missed by the third difference (C37_misses_ends)."
 ],
 "C38": [
  "proved",
  "Exact on polynomials of degree below n, value and derivative, at entries as well; reads inside when n does not exceed the table, and outside otherwise (C38_too_many_points)."
 ],
 "C39": [
  "proved",
  "Negative right ascensions are outside the quantifier: C39_negative_ra and C39_far_negative_ra show what happens there."
 ],
 "C40": [
  "proved",
  "As find_tag is written, any text beginning with \"ades\" gets code 0, C40_ades_prefix."
 ],
 "C41": [
  "proved",
  "The unrestricted claim is false: C41_optical_unopened, C41_after_error (access outside the table) and C41_control_hangs (endless loop) show where.  Only the XML path of xlate_ades2mpc is modelled."
 ],
 "C42": [
  "proved",
  "Exact arithmetic in a commutative ring."
 ],
 "C43": [
  "proved",
  "Finding: a bad digit is printed as a date with no warning (C43_bad_digit); an argument under six bytes is read past its end (C43_short). The Julian Date in the output is not modelled. C43_leap_second says what each warning means."
 ],
 "C44": [
  "proved",
  "Exact arithmetic in any ordered field with a floor function (no rounding errors); C44_split covers every calendar in which day_to_dmy returns, the others the Gregorian calendar."
 ],
 "C45": [
  "proved",
  "Findings: the year of an MPEC is dropped and numbers past the range wrap (C45_collisions); the number of an MPEC is not checked (C45_unchecked)."
 ],
 "C46": [
  "proved",
  "The column texts are modelled; their conversion by atof is not. Findings: any column beginning with o or O is taken for an element (C46_other_o); a record shorter than the header is read past its end (C46_short_record)."
 ],
 "C47": [
  "proved",
  "Findings: a month from 15 on reads outside a table (C47_bad_month); dates that do not exist are accepted (C47_no_such_day); blanks or a sign count among the eight bytes (C47_blank). Also C47_negative: seven digits with a minus sign are taken as a date."
 ],
 "C48": [
  "proved",
  ""
 ],
 "C49": [
  "proved",
  "Exact arithmetic. C49_example_stale: the worked example in the source comment belongs to an older constant."
 ],
 "C50": [
  "proved",
  "Finding: an empty pattern makes the loop run for ever (C50_empty_pattern)."
 ],
 "C51": [
  "partial",
  "Violated: C51_order_letter_lost, C51_large_subscript, C51_survey_clash. Proved for designations without those features."
 ],
 "C52": [
  "proved",
  "C52_trailing_ignored records that text after the fragment letters is accepted and dropped."
 ],
 "C53": [
  "partial",
  "Length and return value proved for every name, and the exact field for names of no known form (C53_unknown); 'non-NUL' violated (C53_embedded_nul)."
 ],
 "C54": [
  "partial",
  "Violated (C54_underscore_uninitialised, C54_too_long, C23_permanent_exits). C54_exact says for every twelve-byte NUL-free field whether the call returns, aborts or reads unset memory; C54_dollar and C54_unaligned cover the fields that are not twelve-column packed forms."
 ],
 "C55": [
  "proved",
  "vsnprintf itself is taken to behave as the C standard says."
 ],
 "C56": [
  "proved",
  "Exact arithmetic."
 ],
 "C57": [
  "proved",
  "All thirteen pieces, exactly, in units of 1e-7 s."
 ],
 "C58": [
  "proved",
  "Exact end values; the largest jump between pieces is 0.2511145408 s."
 ],
 "C59": [
  "proved",
  "Over the real numbers (no rounding)."
 ],
 "C60": [
  "proved",
  "Exact arithmetic. C60_layout for all flags, C60_calendar for the calendars of C01-C08. Findings: C60_picodays (stack overflow for 12 or more decimals of a day), C60_month13 (NULL month name). The year, JD and MJD formats are C70. C60_room says exactly when the day name and time fill the 80-byte buffer."
 ],
 "C61": [
  "proved",
  "Exact arithmetic, bytes below 128, int and long unbounded. Findings: the aborts, and C61_month_out."
 ],
 "C62": [
  "proved",
  "The write past the buffer is a finding (C62_overflow says exactly when)."
 ],
 "C63": [
  "proved",
  ""
 ],
 "C64": [
  "proved",
  "Exact arithmetic; the all-digits year-first format of C60. Findings: C64_hours_lost, C64_blank_month."
 ],
 "C65": [
  "proved",
  "Exact arithmetic. Findings: C65_endless (endless loop), C65_zero_offset (an offset of 0 ends the loop, earlier offsets are not seen)."
 ],
 "C66": [
  "proved",
  "Gregorian calendar; that split_timel gives the civil date of the initial time is a hypothesis (C44 proves that of the model of split_timel). Finding: C66_before."
 ],
 "C67": [
  "proved",
  "Exact arithmetic. Finding: C67_zulu."
 ],
 "C68": [
  "proved",
  "Exact arithmetic. \"JD 0\" is excluded: the code takes the value 0 for \"not a Julian Date\"."
 ],
 "C69": [
  "proved",
  "Exact arithmetic; find_nearest_lunar_phase_time is a parameter."
 ],
 "C70": [
  "proved",
  "Exact arithmetic; %.pLf rounds to nearest, ties to even. Findings: C70_jd_rounding, C70_jd_rounding_exact, C70_year_back, C70_year_five."
 ],
 "C71": [
  "proved",
  "Exact arithmetic. Findings: C71_october, C71_no_month."
 ],
 "C72": [
  "proved",
  "Exact arithmetic; the factors to radians and arcseconds are left out. Findings: C72_seven_digits, C72_packed_overflow."
 ],
 "C73": [
  "proved",
  "Exact arithmetic. Findings: C73_too_many_decimals, C73_too_large, C73_no_number."
 ],
 "C74": [
  "proved",
  "Exact arithmetic: the products in doubles are not modelled. Whole decimal degrees or hours (100, 200) are outside Format: they have no decimal point and read back as minutes."
 ],
 "C75": [
  "proved",
  "Angles in degrees, exact arithmetic; the multiplication by PI/180 and the parallax constants are not part of this model. Findings: read past the end of the text; hours and minutes taken for degrees; a declination beyond 90 degrees reported with length 1; range not checked without a place to fill; codes -4, -8, -12 never returned."
 ],
 "C76": [
  "proved",
  "Angles in degrees, exact arithmetic; the computations of parallax constants and of the place from them are left out here. Findings: no parallax constants on the equator or the prime meridian; negative planet; text of fewer than three bytes; the first at sign of the line counts even in the name."
 ],
 "C77": [
  "proved",
  "Over the real numbers, no rounding; NaN as a separate outcome. Findings: wrong distance on the minor axis (the height of a station at a pole is off by the difference of the axes), NaN on the x axis for a circle, NaN parallax constants for bodies without a radius, negative body before the tables."
 ],
 "C78": [
  "proved",
  "Exact arithmetic. Findings: text cut before a byte over 127; short lines, such as empty ones, make bytes after the end of the line be read."
 ],
 "C79": [
  "proved",
  "Over the real numbers, no rounding: the arcsine branches that the code takes near 0 and pi for accuracy agree exactly with the arccosine."
 ],
 "C80": [
  "proved",
  "Over the real numbers, no rounding; NaN is a separate outcome; sidereal time and nutation are parameters. Findings: the two functions count azimuths from opposite points, so that a direction does not come back; both are wrong at the poles of the earth; no azimuth at the zenith."
 ],
 "C81": [
  "proved",
  "Over the real numbers, no rounding; nutation is a parameter. Findings: between two years other than 2000 the product is the transpose of the first matrix times the second instead of the second times the transpose of the first; the two years the cache begins with get a matrix of zeros on a first call."
 ],
 "C82": [
  "proved",
  "Over the reals. Not excluded: the assertion on the number of rounds for eccentricities from 0.9; minus an odd number of half turns (in exact arithmetic the first guess is then a whole turn off, in doubles it is not)."
 ],
 "C83": [
  "proved",
  "Over ℝ, K any exact solution of Kepler's equation. C83_elements, C83_back, C83_angles, C83_stops; findings: C83_flat, C83_flat_wrong (orbits in the xy plane), C83_flatten (division by |h| instead of |h|²)."
 ],
 "C84": [
  "proved",
  "Over ℝ, K any exact solution of Kepler's equation (C82 is about kepler itself). C84_motion, C84_perihelion, C84_again; finding: C84_polar."
 ],
 "C85": [
  "proved",
  "Numbers are rational (atof and printf exact). The exceptions are theorems of their own, with explicit hypotheses."
 ],
 "C86": [
  "proved",
  "Nine or more calls. The texts are assumed to fit the output buffer of 221 bytes; the values left behind are stated exactly."
 ],
 "C87": [
  "proved",
  "The values must leave the remark lines of the observation within the output buffer (Moderate), which is a condition on the values of that line only: the rest is proved to stay short."
 ],
 "C88": [
  "proved",
  "Lines must be none of the other things the translator looks for first (PlainLine: a header of columns, a comment starting a header, sigmas in columns 81 to 92), and the values must not make it end (Taken, Moderate)."
 ],
 "C89": [
  "proved",
  "memcmp is taken to look no further than the first difference."
 ],
 "C90": [
  "proved",
  "The column asked for is not the last one; fields have no commas."
 ],
 "C91": [
  "proved",
  "Over the real numbers. That the search ends within its hundred turns is not shown; 99 is the result when it does not."
 ],
 "C92": [
  "proved",
  "Over the real numbers."
 ],
 "C93": [
  "proved",
  "Over the real numbers. The radius at which the inner search ends is a parameter of the model."
 ],
 "C94": [
  "proved",
  "Over the real numbers. The points that Brent's method visits inside a bracket are a parameter. Hyperbolic second orbits are modelled, but the theorem is for ellipses."
 ],
 "C95": [
  "proved",
  "Over the real numbers; the tables are compared with a copy of the published ones in the specification."
 ],
 "C96": [
  "proved",
  "Over the rational numbers. The text is that of %10.pf rounded to even."
 ],
 "C97": [
  "proved",
  "The service and the date of a line are parameters. The option that shows differences from the positions before is modelled, but the theorems are for runs without it. Second pass over ADES files: only the finding, since the first pass is undefined for them."
 ],
 "C98": [
  "proved",
  "Over the real numbers, with printf rounding to even."
 ],
 "C99": [
  "proved",
  "Over the real numbers, with printf rounding to even; the text of full_ctime is a parameter of at most 19 bytes."
 ]
}