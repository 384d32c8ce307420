{"id": "C01", "title": "Gregorian day number to date and back", "statement": "For calendar CALENDAR_GREGORIAN, day_to_dmy(jd) always finishes, gives a date that exists in the Gregorian calendar, and dmy_to_day on that date returns jd.", "quantifier": "every integer day number, positive or negative", "why_tests_cant": "The year search is an unbounded do/while loop and the day numbers are unbounded; a test samples days near the present and cannot show the loop always stops or that no day is skipped.", "anchors": ["date.cpp: day_to_dmy, dmy_to_day, approx_year, get_calendar_data, get_jul_greg_year_data"]}
{"id": "C02", "title": "Gregorian day numbers agree with the leap-year rule", "statement": "dmy_to_day for CALENDAR_GREGORIAN equals the count of days obtained by adding up 365/366-day years (leap iff divisible by 4 and not by 100 unless by 400) from a fixed epoch, including for zero and negative years.", "quantifier": "every integer year, and every month and day of that year", "why_tests_cant": "The code uses truncating C division with a separate branch for negative years; only an inductive argument covers all years on both sides of zero.", "anchors": ["date.cpp: get_jul_greg_year_data, dmy_to_day"]}
{"id": "C03", "title": "Julian calendar day number to date and back", "statement": "For CALENDAR_JULIAN, day_to_dmy finishes for every day number, returns an existing Julian date (leap iff divisible by 4) and dmy_to_day inverts it; and dmy_to_day is the day count from a fixed epoch.", "quantifier": "every integer day number and every integer year", "why_tests_cant": "Unbounded range; negative-year branch uses a different formula.", "anchors": ["date.cpp: day_to_dmy, dmy_to_day, get_jul_greg_year_data"]}
{"id": "C04", "title": "Date to day number and back, Gregorian and Julian", "statement": "Every existing Gregorian (or Julian) date (d,m,y) is returned unchanged by day_to_dmy(dmy_to_day(d,m,y)); so no two existing dates share a day number.", "quantifier": "all integer years, months 1..12, days of the month", "why_tests_cant": "Injectivity over an infinite set of dates.", "anchors": ["date.cpp: day_to_dmy, dmy_to_day"]}
{"id": "C05", "title": "Mixed Julian/Gregorian calendar", "statement": "For CALENDAR_JULIAN_GREGORIAN, every day number converts to a date that converts back to the same day number; days up to JD 2299160 get Julian dates and later ones Gregorian, so 4 Oct 1582 is followed by 15 Oct 1582; and the ten skipped dates are never produced.", "quantifier": "every integer day number", "why_tests_cant": "Correctness depends on the two halves of a case split agreeing in both directions for all days, not just around the switchover.", "anchors": ["date.cpp: day_to_dmy, dmy_to_day", "date.h: GREGORIAN_SWITCHOVER_JD"]}
{"id": "C06", "title": "Islamic calendar", "statement": "For CALENDAR_ISLAMIC, day_to_dmy finishes for every day number, inverts dmy_to_day, years have 354 or 355 days, with exactly 11 long years in each 30, months alternate 30/29 with the last 29 or 30, and year starts are the running sum of year lengths.", "quantifier": "every integer day number and every integer year", "why_tests_cant": "Unbounded range and a hidden dependence between the year-start formula and the leap-month test.", "anchors": ["date.cpp: get_islamic_year_data, day_to_dmy, dmy_to_day"]}
{"id": "C07", "title": "Hebrew calendar", "statement": "For CALENDAR_HEBREW, the months of each year add up to the distance between consecutive New Years (so days are neither skipped nor doubled), year lengths are 353-355 or 383-385, New Year never falls on Sunday, Wednesday or Friday, and day_to_dmy/dmy_to_day are inverse.", "quantifier": "every integer day number and every integer year", "why_tests_cant": "The calendar repeats only after 98496 years (689472 with weekdays taken as part of the state); exceptions from the postponement rules are rare enough that samples miss them.", "anchors": ["date.cpp: get_hebrew_year_data, find_tishri_1, lunations_to_days_and_halakim, lunations_to_tishri_1, is_hebrew_leap_year"]}
{"id": "C08", "title": "French Revolutionary calendar", "statement": "For CALENDAR_REVOLUTIONARY, every year has twelve 30-day months and a short thirteenth month of 5 or 6 days, and day_to_dmy/dmy_to_day are inverse for all days.", "quantifier": "every integer day number and every integer year", "why_tests_cant": "Piecewise formula with truncating division of negative numbers and nine blocks; an off-by-one at a block boundary shows only on one year.", "anchors": ["date.cpp: jd_of_french_rev_year, get_revolutionary_year_data"]}
{"id": "C09", "title": "Persian astronomical calendar and its range", "statement": "For CALENDAR_PERSIAN, inside the supported range of years months are 31x6, 30x5 and 29 or 30, dates and day numbers are inverse, and outside that range dmy_to_day returns 0 and day_to_dmy reports an error (day = -1) instead of a wrong date.", "quantifier": "every integer year and every integer day number", "why_tests_cant": "The range limits are single years (-1096, 2327); the behaviour at each limit and for all years beyond must be established.", "anchors": ["date.cpp: jalali_jd0, get_jalali_year_data, get_calendar_data"]}
{"id": "C10", "title": "Modern Persian calendar", "statement": "For CALENDAR_MODERN_PERSIAN, every year has 365 or 366 days with last month 29 or 30, 2820 years contain exactly 1029983 days, and day_to_dmy/dmy_to_day are inverse for all days.", "quantifier": "every integer day number and every integer year", "why_tests_cant": "Unbounded range; cycle of 2820 years with truncating division.", "anchors": ["date.cpp: persian_modern_jd0, get_jalali_year_data"]}
{"id": "C11", "title": "Chinese calendar table", "statement": "For CALENDAR_CHINESE, for every year held in the packed table the months are 29 or 30 days, 12 of them or 13 when an intercalary month is present, the year that follows starts the day after it ends, and day_to_dmy/dmy_to_day are inverse for every day covered; outside the table the calls report failure.", "quantifier": "every year of the 10000-year table and every integer day number", "why_tests_cant": "30004 bytes of bit-packed data: each year could be individually wrong; termination of the search depends on contiguity of the whole table.", "anchors": ["date.cpp: get_chinese_year_data, day_to_dmy, dmy_to_day", "chinese.h: chinese_calendar_data"]}
{"id": "C12", "title": "Year search in day_to_dmy always stops", "statement": "For each calendar, day_to_dmy visits only finitely many years: from any first guess, the search reaches the year containing jd and moves monotonically toward it.", "quantifier": "all calendars, all integer day numbers, all first guesses of the year", "why_tests_cant": "Termination for all inputs.", "anchors": ["date.cpp: day_to_dmy, approx_year"]}
{"id": "C13", "title": "Later dates have larger day numbers", "statement": "For the rule-based calendars, if date A precedes date B in (year, month, day) order and both exist, dmy_to_day(A) < dmy_to_day(B).", "quantifier": "all pairs of existing dates, all integer years", "why_tests_cant": "Quantifies over all pairs.", "anchors": ["date.cpp: dmy_to_day"]}
{"id": "C14", "title": "days_in_month agrees with the day numbers", "statement": "days_in_month(m, y) is the difference between the day numbers of the first of the next month (or next year) and the first of this month.", "quantifier": "all rule-based calendars, all integer years, all months", "why_tests_cant": "Infinite set of years; days_in_month goes through a sentinel value of the day argument (-999).", "anchors": ["date.cpp: days_in_month, dmy_to_day, RETURN_DAYS_IN_MONTH"]}
{"id": "C15", "title": "Month and weekday name tables", "statement": "After any sequence of set_month_name/set_day_of_week_name calls, a query (NULL name) returns the most recent name given for that slot (or the default), other slots are unaffected, and queries never change anything; out-of-range slots are rejected by assertion.", "quantifier": "all sequences of calls", "why_tests_cant": "Stateful API over arbitrary call sequences.", "anchors": ["date.cpp: set_month_name, set_day_of_week_name"]}
{"id": "C16", "title": "Easter (Gregorian)", "statement": "easter_date(year) gives a day that is a Sunday according to dmy_to_day, lies between 22 March and 25 April, is the first Sunday after the ecclesiastical full moon of an independently stated computus, and repeats after 5700000 years.", "quantifier": "every non-negative integer year", "why_tests_cant": "5.7-million-year period; the classical exceptions (epact 24/25) occur in few years.", "anchors": ["easter.cpp: easter_date", "date.cpp: dmy_to_day"]}
{"id": "C17", "title": "Easter (Julian)", "statement": "easter_date_julian(year) gives a Sunday of the Julian calendar between 22 March and 25 April, the first Sunday after the Julian paschal full moon, repeating after 532 years.", "quantifier": "every non-negative integer year", "why_tests_cant": "Unbounded years.", "anchors": ["easter.cpp: easter_date_julian", "date.cpp: dmy_to_day"]}
{"id": "C18", "title": "Base-62 ('mutant hex') numbers", "statement": "encode_value_in_mutant_hex followed by get_mutant_hex_value gives the original value when it fits in the digits; decoding then encoding valid digits gives the same digits; values that do not fit are reported; digits outside 0-9A-Za-z are rejected; int_to_mutant_hex_char gives NUL for exactly the integers outside 0-61.", "quantifier": "all values and all digit counts / all digit strings", "why_tests_cant": "62^n strings.", "anchors": ["unpack.cpp: int_to_mutant_hex_char, mutant_hex_char_to_int, get_mutant_hex_value, encode_value_in_mutant_hex"]}
{"id": "C19", "title": "Numbered minor planets: pack then unpack", "statement": "create_mpc_packed_desig on '(n)' gives a 12-byte packed form that unpack_mpc_desig turns back into '(n)' and classifies as a numbered asteroid; different numbers pack differently.", "quantifier": "every minor planet number from 1 to the largest the scheme can hold (15396335)", "why_tests_cant": "15 million numbers across three encodings (digits, letter prefix, tilde base-62) with boundaries at 100000 and 620000.", "anchors": ["mpc_fmt.cpp: create_mpc_packed_desig", "unpack.cpp: unpack_mpc_desig"]}
{"id": "C20", "title": "Out-of-range minor planet numbers are not aliased", "statement": "A minor planet number too large for the packed scheme is reported as unpackable rather than silently packed as another object's designation.", "quantifier": "every decimal number in parentheses", "why_tests_cant": "The number is accumulated in a 32-bit unsigned; only reasoning about wrap-around shows which inputs alias.", "anchors": ["mpc_fmt.cpp: create_mpc_packed_desig"]}
{"id": "C21", "title": "Provisional designations: pack then unpack", "statement": "A provisional designation 'YYYY LL' / 'YYYY LLn' packs to a form that unpacks to the same designation, for both the classic seven-character form (subscript below 620) and the extended underscore form.", "quantifier": "all years the scheme supports, all half-month and order letters, all subscripts", "why_tests_cant": "Tens of millions of designations, with separate encodings by subscript and year.", "anchors": ["mpc_fmt.cpp: create_mpc_packed_desig", "unpack.cpp: unpack_provisional_packed_desig, unpack_mpc_desig"]}
{"id": "C22", "title": "Survey designations: pack then unpack", "statement": "'nnnn P-L', 'nnnn T-1', 'nnnn T-2', 'nnnn T-3' pack to a form that unpacks to the same designation.", "quantifier": "all four-digit survey numbers and all four surveys", "why_tests_cant": "Format branches overlap with provisional designations.", "anchors": ["mpc_fmt.cpp: create_mpc_packed_desig", "unpack.cpp: unpack_provisional_packed_desig"]}
{"id": "C23", "title": "Planetary satellite designations: pack then unpack", "statement": "Permanent ('Jupiter IX') and provisional ('S/2003 J 12') satellite designations pack to a form that unpacks to the same designation.", "quantifier": "all planets with satellites, all satellite numbers the format can hold", "why_tests_cant": "Roman numerals of unbounded width meet a fixed 16-byte buffer and a three-digit field; failures occur at a handful of numbers.", "anchors": ["mpc_fmt.cpp: pack_permanent_natsat, pack_provisional_natsat, extract_roman_numeral", "unpack.cpp: unpack_mpc_desig"]}
{"id": "C24", "title": "Roman numerals", "statement": "extract_roman_numeral reads back every Roman numeral the library writes, and accepts no other spelling as the same number.", "quantifier": "all numbers the library writes", "why_tests_cant": "Round trip over all numbers and all strings.", "anchors": ["mpc_fmt.cpp: extract_roman_numeral", "unpack.cpp: unpack_mpc_desig"]}
{"id": "C25", "title": "Artificial satellite designations", "statement": "'YYYY-NNNA' designations recognised by is_artsat_desig survive packing and unpacking.", "quantifier": "all international designators", "why_tests_cant": "Format branch selection.", "anchors": ["unpack.cpp: is_artsat_desig, unpack_mpc_desig", "mpc_fmt.cpp: create_mpc_packed_desig"]}
{"id": "C26", "title": "Catalogue codes", "statement": "net_name_to_byte_code and byte_code_to_net_name are inverse on all catalogue codes and names known to the library, and unknown names and codes are reported as such.", "quantifier": "all byte codes and all strings", "why_tests_cant": "All strings; table entries can shadow each other after the name is reduced to lower case letters and digits.", "anchors": ["mpc_fmt.cpp: net_codes, byte_code_to_net_name, reduce_net_name, net_name_to_byte_code"]}
{"id": "C27", "title": "Variable star designations", "statement": "make_var_desig and decipher_var_desig are inverse: R..Z, RR..QZ, then V335...; every number gives a distinct name and every name its number.", "quantifier": "all variable star numbers", "why_tests_cant": "Infinite numbering; letter J is skipped.", "anchors": ["miscell.cpp: make_var_desig, decipher_var_desig"]}
{"id": "C28", "title": "Bounded string copy and append", "statement": "strlcpy/strlcat never write past the given size, always leave a NUL-terminated string when size>0 (and, for strlcat, when the destination was terminated within size), the result is the longest prefix that fits, and the returned value is the length that was wanted.", "quantifier": "all strings and all buffer sizes", "why_tests_cant": "All lengths and sizes including 0 and an unterminated destination.", "anchors": ["snprintf.cpp: strlcpy, strlcat, strlcpy_err, strlcat_err"]}
{"id": "C29", "title": "remove_char", "statement": "remove_char leaves exactly the characters other than the given one, in order, in place and terminated.", "quantifier": "all strings and characters", "why_tests_cant": "In-place two-pointer loop.", "anchors": ["miscell.cpp: remove_char"]}
{"id": "C30", "title": "URL-encoded form data", "statement": "Decoding a URL-encoded form field recovers the original name and value for every byte string, never writes more bytes than the buffer holds, consumes exactly one field, and stops; a percent sign not followed by two capital hexadecimal digits is reported as an error.", "quantifier": "all byte strings written in the usual encoding with capital hexadecimal digits, all buffer sizes from 1; round trip for values that fit", "why_tests_cant": "Unbounded attacker-controlled input.", "anchors": ["cgi_func.cpp: get_urlencoded_piece, get_urlencoded_form_data"]}
{"id": "C31", "title": "MJD macros agree with the calendar", "statement": "JAN_1(y) ... DEC_1(y) are the Modified Julian Dates of the first of each month in the Gregorian calendar as computed by dmy_to_day.", "quantifier": "all integer years for which the macros are meant (non-negative), and exact characterisation elsewhere", "why_tests_cant": "All years.", "anchors": ["mjd_defs.h: JAN_1, FEB_1, ..., DEC_1", "date.cpp: dmy_to_day"]}
{"id": "C32", "title": "Leap seconds", "statement": "For dates from 1972 the whole-second TD-UTC offset is one second more after each listed leap-second date, never decreases with time, and changes only at the start of January or July.", "quantifier": "all integer MJDs from 1 Jan 1972 on", "why_tests_cant": "Unbounded dates.", "anchors": ["delta_t.cpp: td_minus_utc"]}
{"id": "C33", "title": "Half-year containing a day", "statement": "The arithmetic used for future leap seconds finds, for each MJD, the start of the half year (1 Jan or 1 Jul) containing it and the start of the next one.", "quantifier": "all integer MJDs in the branch's domain", "why_tests_cant": "Integer estimate of year from MJD with correction steps; failure at isolated days.", "anchors": ["delta_t.cpp: td_minus_utc", "utc_algo.cpp", "mjd_defs.h"]}
{"id": "C34", "title": "TD-UT table interpolation", "statement": "Within the tabulated years the interpolated Delta-T passes through each tabulated value and is continuous across table boundaries; the table lookup never reads outside the table; the year of a Julian Date is 2000 at noon of 1 January 2000 and increases by one every 365.25 days.", "quantifier": "all real years in the table range", "why_tests_cant": "Continuum of inputs.", "anchors": ["delta_t.cpp: default_td_minus_ut, delta_t_table"]}
{"id": "C35", "title": "Bracketed minimiser", "statement": "From any valid bracket, after any sequence of brent_min_add calls, the stored points are sorted by function value, the bracket [xmin,xmax] contains the best point and never grows, and the best value never increases. The search stops exactly when the four best values or both ends of the bracket are within the tolerances; the first point tried is the vertex of the parabola through the three starting points; from the 31st step on every odd step is a golden section, as is the step after a cubic with no stationary point.", "quantifier": "all starting brackets and all sequences of function values (ordered field)", "why_tests_cant": "All executions of a stateful loop with arbitrary function values.", "anchors": ["brentmin.cpp: brent_min_init, brent_min_add, brent_min_next"]}
{"id": "C36", "title": "Parabola through three points", "statement": "fit_parabola returns coefficients of the quadratic through the three given points.", "quantifier": "all triples with distinct x (field)", "why_tests_cant": "Algebraic identity over a continuum.", "anchors": ["brentmin.cpp: fit_parabola"]}
{"id": "C37", "title": "Cubic table interpolation", "statement": "cubic_spline_interpolate_within_table passes through every table entry, is continuous with continuous first derivative at grid points, reproduces quadratics, reads only inside the table when it has at least four entries, and sets err_code as documented.", "quantifier": "all tables of at least four entries, all real x", "why_tests_cant": "Continuum of inputs.", "anchors": ["spline.cpp: cubic_spline_interpolate_within_table"]}
{"id": "C38", "title": "Lagrange table interpolation", "statement": "lagrange_interpolate_within_table with n points reproduces every polynomial of degree below n sampled at the integers, and reads only inside the table. Away from the ends the n entries nearest to x are used.", "quantifier": "all tables, all point counts, all real x", "why_tests_cant": "Continuum of inputs and every n.", "anchors": ["spline.cpp: lagrange_interpolate_within_table"]}
{"id": "C39", "title": "Constellation lookup", "statement": "constell_from_ra_dec always stops, reads only inside the tables, returns an index from 0 to 87 with the matching three-letter name, and the result is the constellation of the first boundary met by going north (Ursa Minor if there is none), which is unique. Adding a full turn to a non-negative RA changes nothing; all 88 constellations occur; each boundary outside Octans has exactly the width of its constellation just south of it.", "quantifier": "all integer RA seconds of one turn and all integer south polar distances; for positions given in degrees, RA from 0 to 8900000 and declination from -90 to 90", "why_tests_cant": "Hand-tuned binary search over 324 unequally long bands; 86400 x 10800 cells.", "anchors": ["conbound.c: constell_from_ra_dec, bounds, constell_names"]}
{"id": "C40", "title": "ADES tag lookup", "statement": "find_tag maps every ADES tag name to its own code (the ADES_ macros, 1 to 145), opening and closing tags to the same code, names beginning with \"ades\" to 0, and any other text to -1; different names have different codes.", "quantifier": "all tag texts, i.e. all byte strings without '>'", "why_tests_cant": "All strings; memcmp with prefix lengths.", "anchors": ["ades2mpc.cpp: find_tag"]}
{"id": "C41", "title": "ADES tag nesting", "statement": "While a line of XML is translated the tag stack follows the nesting exactly: closing tags must match the innermost open tag, errors are reported (-2, -3), and a well-nested document ends with an empty stack (free_ades2mpc_context returns 0). The stack never leaves its 20 slots on any line without </optical>, and translation stops on every line without control characters.", "quantifier": "all lines, all states with at most 19 open elements, any handling of element contents", "why_tests_cant": "All inputs, including malformed XML.", "anchors": ["ades2mpc.cpp: xlate_ades2mpc, free_ades2mpc_context"]}
{"id": "C42", "title": "Rotations preserve orthonormality", "statement": "spin_matrix and pre_spin_matrix keep an orthonormal matrix orthonormal, invert_orthonormal_matrix gives its inverse, rotate_vector preserves length, and rotating by an angle and its negative is the identity.", "quantifier": "all matrices, vectors and angles (commutative ring with c^2+s^2=1)", "why_tests_cant": "Continuum of inputs.", "anchors": ["miscell.cpp: spin_matrix, pre_spin_matrix, rotate_vector, set_identity_matrix, invert_orthonormal_matrix, vector_cross_product"]}
{"id": "C43", "title": "Submission time in observation identifiers", "statement": "The first eight base-62 digits of an ADES obsID decode to exactly one date and time, and every date and time from 1800 to 2440 has an identifier that decodes to it.", "quantifier": "all identifiers / all times in range", "why_tests_cant": "62^8 identifiers.", "anchors": ["mpc_time.c: main", "unpack.cpp: get_mutant_hex_value"]}
{"id": "C44", "title": "Mixed-radix time split", "statement": "Splitting a time into days, hours, minutes, seconds gives fields in range which recombine to the input.", "quantifier": "all times", "why_tests_cant": "Continuum / all integers.", "anchors": ["get_time.cpp: split_timel", "miscell.cpp: full_ctimel"]}
{"id": "C45", "title": "Packed MPC references", "statement": "References 'MPEC yyyy-Xnn', 'MPS n' and 'MPC n' are packed into five bytes so that different references (for MPECs: of one year) get different codes; references beginning with an exclamation mark are stored as they are.", "quantifier": "all MPEC numbers below 1000, MPS numbers below 260000 + 62^4, MPC numbers below 110000 + 62^4", "why_tests_cant": "All numbers across three encodings each.", "anchors": ["ades2mpc.cpp: pack_mpc_reference"]}
{"id": "C46", "title": "SOF record parsing", "statement": "extract_sof_data takes every element from the record's text under the last header column for it, returns success exactly if the six required elements have columns, always stops, and never overruns its 80-byte field buffer.", "quantifier": "all header lines and all records at least as long", "why_tests_cant": "All strings.", "anchors": ["sof.cpp: extract_sof_data_ex"]}
{"id": "C47", "title": "YYYYMMDD dates", "statement": "extract_yyyymmdd_to_jd gives the Gregorian Julian Date of midnight, plus the fraction written after it, for every date that exists.", "quantifier": "all eight-digit dates of the years 0000 to 9999", "why_tests_cant": "10^8 strings.", "anchors": ["sof.cpp: extract_yyyymmdd_to_jd"]}
{"id": "C48", "title": "Two-byte and four-byte little-endian readers", "statement": "get16bits/get32bits and signed forms invert little-endian storage of the value.", "quantifier": "all 16-bit and 32-bit values", "why_tests_cant": "2^32 values.", "anchors": ["get_bin.h: get16bits, get16sbits, get32bits, get32sbits"]}
{"id": "C49", "title": "Mars time conversion", "statement": "tt_to_mtc and mtc_to_tt are mutually inverse in exact arithmetic, and both strictly increasing; a sol is 88775.244 seconds to within 0.00015 s.", "quantifier": "all real times", "why_tests_cant": "Continuum.", "anchors": ["marstime.cpp: tt_to_mtc, mtc_to_tt"]}
{"id": "C50", "title": "Search and replace in text", "statement": "The text substitution used for observatory names replaces every non-overlapping occurrence, keeps the rest, and stops.", "quantifier": "all texts, non-empty patterns and replacements, in a buffer that is large enough", "why_tests_cant": "All strings; in-place buffer with changing length.", "anchors": ["mpc_code.cpp: _text_search_and_replace"]}
{"id": "C51", "title": "Provisional comet designations: pack then unpack", "statement": "A provisional comet designation such as 'C/2012 S1' or 'D/1993 F2-A' packs to a form that unpacks to the same designation.", "quantifier": "all comet types, years, half-month letters, subscripts and fragments", "why_tests_cant": "Hundreds of millions of designations, with overlapping column uses.", "anchors": ["mpc_fmt.cpp: create_mpc_packed_desig", "unpack.cpp: unpack_mpc_desig"]}
{"id": "C52", "title": "Numbered comets: pack then unpack", "statement": "A numbered comet such as '67P' or '73P-BC' packs to a form that unpacks to the same designation.", "quantifier": "all comet numbers below 10000, all types and fragments of at most two letters", "why_tests_cant": "Millions of combinations of number, type and fragment.", "anchors": ["mpc_fmt.cpp: create_mpc_packed_desig", "unpack.cpp: unpack_mpc_desig"]}
{"id": "C53", "title": "Packed designations have a fixed shape", "statement": "create_mpc_packed_desig returns 0 or -1 and stores exactly twelve non-NUL characters followed by a NUL, whatever name it is given.", "quantifier": "all names", "why_tests_cant": "All strings, many overlapping branches writing single columns.", "anchors": ["mpc_fmt.cpp: create_mpc_packed_desig"]}
{"id": "C54", "title": "Unpacking is total", "statement": "unpack_mpc_desig returns normally (no abort, no exit, no read of unset memory) for every twelve-byte packed field.", "quantifier": "all twelve-byte fields", "why_tests_cant": "2^84 inputs; the failing ones are rare combinations.", "anchors": ["unpack.cpp: unpack_mpc_desig"]}
{"id": "C55", "title": "Appending formatted text", "statement": "snprintf_append adds the whole text or stops the program, snprintf_append_trunc adds the longest prefix that fits; both leave a terminated string, write nothing outside the buffer and return the length wanted.", "quantifier": "all buffer contents, sizes and texts", "why_tests_cant": "All combinations of lengths at and around the boundary.", "anchors": ["snprintf.cpp: _sn_append, snprintf_append, snprintf_append_trunc"]}
{"id": "C56", "title": "Cross product", "statement": "vector_cross_product is perpendicular to both factors, has the length given by Lagrange's identity, is antisymmetric and right-handed, and commutes with rotate_vector.", "quantifier": "all vectors (commutative ring)", "why_tests_cant": "Continuum.", "anchors": ["miscell.cpp: vector_cross_product, dot_product, rotate_vector"]}
{"id": "C57", "title": "UTC from 1961 to 1972", "statement": "The thirteen linear laws for TAI-UTC before 1972 apply to consecutive intervals stored without overflow, and where one takes over from the next UTC steps by exactly the historical amounts (-0.05 s, 0, +0.1 s, ..., -0.1 s, and 0.107758 s at the start of 1972); they begin on the published dates.", "quantifier": "all thirteen laws", "why_tests_cant": "Constants are combined with compile-time date macros and 16-bit storage; tests at sample dates do not see wrong slopes or boundaries.", "anchors": ["delta_t.cpp: td_minus_utc", "mjd_defs.h"]}
{"id": "C58", "title": "Delta-T before 1620", "statement": "Every year before 1620 lies in exactly one polynomial piece of the built-in Delta-T string, whose value is returned, and consecutive pieces agree to within 0.3 s where they meet.", "quantifier": "all real years before 1620", "why_tests_cant": "Continuum of years.", "anchors": ["delta_t.cpp: default_td_minus_ut, evaluate_delta_t_string, default_delta_t_string"]}
{"id": "C59", "title": "Martian true solar time inversion", "statement": "mtst_at_airy_to_tt inverts true solar time at Airy: given the true solar time of an instant it returns that instant to within 1.3e-8 day; the equation of time stays below 0.042 day and changes by at most 0.00053 per day, so that each iteration brings the estimate nearer.", "quantifier": "all real times within 999999 days of J2000", "why_tests_cant": "Continuum of times; fixed number of iterations of a contraction.", "anchors": ["marstime.cpp: mars_true_solar_minus_mean_solar_time, mtst_at_airy_to_tt"]}
{"id": "C60", "title": "Printed times", "statement": "full_ctimel in the formats with a date, for every combination of its flags (year first, last, two digits or left out, day and month in either order, month as digits or name, weekday first or last, day of the year, time only, leading zeroes, no blanks, no colons), prints exactly the pieces asked for, in order, with one blank between them: those of the calendar date and of the count of last-place units of the shifted time, so that seconds never show as 60. A time with no more decimals than are printed is printed exactly (no rounding flag) or to within half a unit of the last place (rounding flag); without the flag other times are cut off. The year-first all-digits texts sort in dictionary order as the times do. show_remainder never fails its assertions for fractions in [0,1). Days with 12 or more decimals overflow day_str.", "quantifier": "all times with |year| < 10^9; all calendars for which day_to_dmy and dmy_to_day are given; all flags; precisions 0-15 (days: 0-11); days, hours, minutes or seconds; names of at most 12 bytes", "why_tests_cant": "Continuum of times, with carries at every place and every day, month and year boundary.", "anchors": ["miscell.cpp: full_ctimel, show_remainder"]}
{"id": "C61", "title": "Dates in any order", "statement": "A date of year, month and day in any of the six orders, separated by dashes, slashes or blanks, with the month as a number or an English name and decimals in the day allowed, optionally followed by a time of day, is read by get_time_from_stringl as exactly that day and time whenever the fields can be told apart (year above 32 and a day with decimals, a day too large for a month, or the order the format asks for), whatever the initial time, the locale names and the clock. Three numbers abort the program exactly if the first or last is taken for the year, carries the last decimal point and no other field must be a day; with a month name, a small year and a day with decimals always abort.", "quantifier": "all numerals of any spelling, all orders, separators, formats, initial times and environments; texts below 80 bytes", "why_tests_cant": "Unbounded combinations of order, separators, spellings and flags; the claims include that nothing else influences the result.", "anchors": ["get_time.cpp: get_time_from_stringl"]}
{"id": "C62", "title": "Copy of the text into a buffer", "statement": "get_time_from_stringl copies its text in lower case with a blank between digits and letters into an 80-byte buffer: what is copied is a prefix of the text so changed, and the terminating NUL is written outside the buffer exactly if a blank is due when 78 or more bytes have been copied.", "quantifier": "all texts", "why_tests_cant": "The condition depends on where letters and digits meet in a text of up to 79 bytes.", "anchors": ["get_time.cpp: get_time_from_stringl (copy loop)"]}
{"id": "C63", "title": "Tag table generator", "statement": "The exchange sort in adestags.c returns a sorted permutation of its input; run on its own list of documented tags it produces exactly the table used by find_tag, so that every documented tag is known and no other.", "quantifier": "all lists of names, of any length", "why_tests_cant": "Sorting correctness is a statement about all lists.", "anchors": ["adestags.c: main", "ades2mpc.cpp: find_tag"]}
{"id": "C64", "title": "Printed times are read back", "statement": "What full_ctimel prints with leading zeroes, year first and digits, to seconds or minutes with up to 15 decimals, is read back by get_time_from_stringl (same format) as the time printed: unchanged if it has no more decimals than printed, within half a unit of the last place with the rounding flag. A time with hours only is read back as midnight, and blank-padded dates are misread.", "quantifier": "all times in Gregorian years 0-9999, all precisions 0-15, any initial time", "why_tests_cant": "Continuum of times; both functions have carries and field guesses that depend on the values.", "anchors": ["miscell.cpp: full_ctimel", "get_time.cpp: get_time_from_stringl"]}
{"id": "C65", "title": "Time offsets and termination of the time parser", "statement": "In get_time_from_stringl a text with a signed nonzero number and a unit (s m h d w l y c) at the end gives the time of the text before it plus that many units; such an offset alone is added to the initial time. The nesting of calls is bounded and a text without + and - never makes the function loop for ever. Texts such as \"2009-03-05 12h\" do: the loop collecting offsets does not end.", "quantifier": "all base texts, numbers, units, formats and initial times; termination for all texts without a sign", "why_tests_cant": "The base is any text at all, including those that end in an error; termination is about every text.", "anchors": ["get_time.cpp: collect_time_offset", "get_time.cpp: get_time_from_stringl (offset loop, lunar phases)"]}
{"id": "C66", "title": "Names of weekdays as times", "statement": "The name of a weekday given to get_time_from_stringl means midnight of the nearest day with that name, at most three days from the initial date, if the initial time is not before 1999 December 25. Before that (and not at midnight) it means the day before a day with that name, up to five days away.", "quantifier": "all initial times, all seven names in full or three letters, any case", "why_tests_cant": "The error depends on the sign of the initial time; tests start from the present.", "anchors": ["get_time.cpp: get_time_from_stringl (day_of_week_name_to_index)"]}
{"id": "C67", "title": "FITS times", "statement": "get_time_from_stringl reads YYYY-MM-DDTHH:MM:SS with any number of decimals as that date and time whatever the order of date fields in the format. With a Z at the end it reads the same date and midnight.", "quantifier": "all dates with four-digit years, all times of day, any number of decimals, all formats, calendars and initial times", "why_tests_cant": "Unbounded decimals, all calendars; the loss of the time of day needs the final Z.", "anchors": ["get_time.cpp: get_time_from_stringl (FITS)"]}
{"id": "C68", "title": "Julian Dates, years, Unix and GPS times", "statement": "get_time_from_stringl reads JD, MJD, y, unix, gps and now with a number as that count: days, days, Julian years from 2000, seconds from 1970 January 1, GPS weeks and days from 1980 January 6, the clock; the flag is 1 for JD and MJD and 0 otherwise.", "quantifier": "all decimal numbers (other than 0 for JD), all formats, calendars and initial times", "why_tests_cant": "All numbers with any number of digits and decimals that fit the buffer.", "anchors": ["get_time.cpp: get_time_from_stringl (keywords)"]}
{"id": "C69", "title": "Eras, halves of the day, phases of the moon", "statement": "In get_time_from_stringl: A.D. after a date in digits makes no difference; B.C. after a date in any order of fields makes year y the year 1-y, without adding a century; a.m. and p.m. make the time of day that of a twelve-hour clock (12:30 a.m. is half an hour after midnight); nm, 1q, fm, 3q at the end give the phase of the moon nearest to the time of the text before.", "quantifier": "all dates, orders of fields, separators, decimals, formats, calendars and initial times; all texts before a phase", "why_tests_cant": "All combinations of order, separator, era, half and precision; the text before a phase is any text.", "anchors": ["get_time.cpp: check_for_bc", "get_time.cpp: get_phase_idx", "get_time.cpp: get_time_from_stringl (a.m., p.m.)"]}
{"id": "C70", "title": "Times printed as Julian Dates and years", "statement": "full_ctimel with a Julian Date format and no rounding flag prints JD or MJD and the count to the nearest unit of the last place (up to an allowance of 1/1728000 of a unit), exactly if it is a whole number of units, and get_time_from_stringl reads it back as that. With the rounding flag it rounds up instead, and prints an odd whole number of units one unit too high. With the year format it prints the Julian year in four bytes, cut off after the decimals asked for, rounding flag or not; get_time_from_stringl reads this half a day early. Years of five digits lose the last one.", "quantifier": "all times with a count below 10^40, years 0-9999 (10000-99999 for the finding); precisions 0-15; all formats, calendars and initial times when reading back", "why_tests_cant": "Continuum of times; rounding happens twice in different places.", "anchors": ["miscell.cpp: full_ctimel", "get_time.cpp: get_time_from_stringl"]}
{"id": "C71", "title": "Dates of 80-column observations", "statement": "extract_date_from_mpc_report reads a date in any of its documented formats (year, month, day with decimals, with zeroes or blanks in front; century letter, year, month, day with decimals or with hours, minutes and perhaps seconds; Julian Date; Modified Julian Date) as the Julian Date it stands for in the calendar that changed on 4 October 1582, and returns the number of the format. Radar times are rounded to the nearest second. Lines of another length, with another byte in column 13, or without a station code, give 0. 15 to 31 October 1582 come out ten days late; a month of 0 or more than 12 is not rejected but gives the day of the month.", "quantifier": "all lines of 80 to 82 bytes; all dates of the years 0-9999 or 1700-2099; all numbers of decimals the columns hold; all other bytes of the line", "why_tests_cant": "All dates in eight formats with all numbers of decimals and all contents of the other columns.", "anchors": ["mpc_fmt.cpp: extract_date_from_mpc_report", "mpc_fmt.cpp: get_two_digits", "mpc_fmt.cpp: is_valid_mpc_code"]}
{"id": "C72", "title": "Right ascensions and declinations of 80-column observations", "statement": "get_ra_dec reads every format in the table of its comment (except packed with seven, or with ten or more, digits) as its exact value, with the number of the format and the precision; a minus sign negates. Packed values of ten to twelve digits are read if the digits make up a number below 2^31, otherwise an int overflows. The documented packed format with seven digits is not recognised. get_ra_dec_from_mpc_report returns 0, -1, -2 or -3 according to which of the two was not understood.", "quantifier": "all values of every field, all numbers of decimals the columns hold, all bytes outside the twelve that are read", "why_tests_cant": "All values in about forty formats.", "anchors": ["mpc_fmt.cpp: get_ra_dec", "mpc_fmt.cpp: get_ra_dec_from_mpc_report"]}
{"id": "C73", "title": "Numbers without exponent", "statement": "quick_strtod reads blanks, a sign, digits and perhaps a point with digits as the number they stand for and returns the rest of the text, when the whole part is below 2^31 and there are at most nine decimals; otherwise an int overflows. A point alone is no number and nothing is passed over; but with no digit and no point blanks and sign are passed over as if a number had been read.", "quantifier": "all numbers of blanks, all digit strings, all texts after them", "why_tests_cant": "Digit strings of any length.", "anchors": ["mpc_code.cpp: quick_strtod", "mpc_code.cpp: quick_atof"]}
{"id": "C74", "title": "Angles written are read back", "statement": "output_angle_to_buff writes an angle in the format asked for as the text that stands for the nearest value the format can express, carrying into minutes, hours or degrees as needed; the value of a text in its own format gives the same text again. output_signed_angle_to_buff puts the sign first. What is written is read back by the reader of 80-column observations with the same format and within half a unit of the last place, except in the formats the reader does not understand (C72). Format 200 is written like format 100, and a right ascension that rounds up to a whole turn is written as 24 hours.", "quantifier": "all non-negative rational angles below 99 (66 hours for right ascensions), all formats of observations, all clean texts", "why_tests_cant": "Rounding and carries at every angle and every number of decimals.", "anchors": ["mpc_fmt2.cpp: output_angle_to_buff", "mpc_fmt2.cpp: output_signed_angle_to_buff", "mpc_fmt.cpp: get_ra_dec"]}
{"id": "C75", "title": "Places and directions as people write them", "statement": "get_lat_lon_info reads a latitude and a longitude in either order, each with its compass letter before or after, as degrees, degrees and minutes, or degrees, minutes and seconds with decimals in the last number, and a height in metres or feet; longitudes are brought to 0-360 degrees, the height is 100 m if none is given, and values out of range and two coordinates of the same kind are rejected. get_ra_from_string reads degrees, or hours with minutes and seconds; get_dec_from_string needs a sign and at most 90 degrees. get_xxx_location_info reads \"COM Long. ..., Lat. ..., Alt. ...\". A text that ends with an angle without a letter makes get_lat_lon_info read past its end.", "quantifier": "all texts of the documented forms, any numbers of blanks and digits that an int holds, all texts after them", "why_tests_cant": "Any combination of forms, blanks, letters and numbers.", "anchors": ["mpc_code.cpp: get_lat_lon_info", "mpc_code.cpp: get_ra_from_string", "mpc_code.cpp: get_dec_from_string", "mpc_code.cpp: get_xxx_location_info"]}
{"id": "C76", "title": "Lines about observing stations", "statement": "get_mpc_code_info reads a line of the list of stations (three bytes of code, longitude, two parallax constants, name) with the values of the columns and their numbers of decimals, and a line of rovers.txt (three or four bytes of code, exclamation mark, longitude, latitude, height, perhaps a planet after an at sign) with longitude brought to 0-360 degrees, both angles being degrees, minutes and seconds run together if one is out of range. A spacecraft line returns -2; a line too short or without a code of three or four bytes returns -1 and leaves the Earth. A place on the equator or the prime meridian gets no parallax constants, a planet over 9000 no place, a negative planet makes it read before its table of radii, and a text of fewer than three bytes makes it read past the end.", "quantifier": "all lines of the documented forms: any code, any number of digits and decimals the columns hold, any blanks, any rest of the line", "why_tests_cant": "Any code, number, precision and rest of the line.", "anchors": ["mpc_code.cpp: get_mpc_code_info", "mpc_code.cpp: convert_base_60_to_decimal", "mpc_code.cpp: limited_atof"]}
{"id": "C77", "title": "Parallax constants and the height over an ellipse", "statement": "lat_alt_to_parallax gives the point at the given height above the ellipsoid where the outward normal has the given latitude. point_to_ellipse gives, for a point off the minor axis, the direction of the normal below it and the height along that normal, and no point of the ellipse is nearer. For heights above the smallest radius of curvature below the surface the second gives back the latitude and the height put into the first. On the minor axis the distance is measured from the wrong axis, and for a circle a point of the x axis gives a NaN. Every body from the Sun to Callisto has a radius and an axis ratio between 0 and 1; other numbers have none.", "quantifier": "all real latitudes, heights, points, and axes 0 < b <= a", "why_tests_cant": "A continuum of points, where the solution of the quartic takes different branches, and a claim about all points of the ellipse.", "anchors": ["mpc_code.cpp: lat_alt_to_parallax", "mpc_code.cpp: point_to_ellipse", "mpc_code.cpp: planet_axis_ratio", "mpc_code.cpp: planet_radius_in_meters"]}
{"id": "C78", "title": "The region a place is in", "statement": "extract_region_data_for_lat_lon gives the text of the first line of the file whose box holds the place strictly inside, longitudes being counted modulo 360 degrees and the shorter way between the borders being meant, and returns 0; or an empty text and -2. Comment lines are passed over. The text is cut before the first byte over 127, and a line of fewer than 19 bytes that is no comment makes bytes after its end be read.", "quantifier": "all files of comment lines and lines with four columns of ten bytes, boxes not exactly half a turn wide, all rational places", "why_tests_cant": "Any number of lines, any longitudes modulo a turn.", "anchors": ["mpc_code.cpp: extract_region_data_for_lat_lon"]}
{"id": "C79", "title": "Distance and position angle on the sphere", "statement": "calc_dist_and_posn_ang gives the angle between two directions, from 0 to pi, and a position angle from 0 up to a whole turn, counted from north over decreasing longitude, such that going that far that way from the first direction reaches the second; it returns -1 just when the directions are the same or opposite, else 0. reverse_dist_and_posn_ang reaches the direction at the given distance and angle, with a latitude within a quarter turn. Each undoes the other: the second direction comes back, and so do a distance strictly between 0 and pi and an angle from 0 up to a whole turn.", "quantifier": "all real longitudes, latitudes, distances and position angles", "why_tests_cant": "A continuum of pairs of directions, with separate branches near 0 and pi, at the poles and where the longitude wraps.", "anchors": ["dist_pa.cpp: calc_dist_and_posn_ang", "dist_pa.cpp: reverse_dist_and_posn_ang"]}
{"id": "C80", "title": "Altitude and azimuth", "statement": "Away from the poles of the earth ra_dec_to_alt_az gives the altitude and, unless the direction is that of the zenith or the nadir, the azimuth, counted from south over west. alt_az_to_ra_dec takes the azimuth from north over east, understands altitudes past the zenith or the nadir, and gives the declination and, unless the direction is that of a celestial pole, the hour angle. So they are inverse to each other after half a turn is added to the azimuth; without that another declination is found unless the direction is due east or west. At the poles both go wrong. The hour angle used is within half a turn.", "quantifier": "all real hour angles, declinations within a quarter turn, latitudes with a cosine of at least 0.00001, azimuths, altitudes from -270 to 450 degrees", "why_tests_cant": "A continuum of directions and latitudes, with branches by quadrant.", "anchors": ["alt_az.cpp: ra_dec_to_alt_az", "alt_az.cpp: alt_az_to_ra_dec", "alt_az.cpp: full_ra_dec_to_alt_az"]}
{"id": "C81", "title": "Precession and the obliquity of the ecliptic", "statement": "setup_ecliptic_precession and setup_precession give rotations that do not depend on the calls made before, in spite of the matrix kept between calls, and the rotations from a year to another and back are exactly inverse. To and from 2000 the rotation is that of the formula, none at 2000. Between two other years the factors are in the wrong order: 2000 to 2100 to 2200 is not 2000 to 2200. mean_obliquity does not depend on the calls before and jumps by less than two microarcseconds where its polynomial ends. precess_vector and deprecess_vector undo each other; precess_ra_dec gives the rotated direction with a right ascension within half a turn of the old one, and gives the direction back. The matrix with nutation is a rotation; the galactic and supergalactic ones are, up to the digits given.", "quantifier": "all real years, all sequences of calls, all directions and orthonormal matrices", "why_tests_cant": "The state kept between calls depends on any history; a continuum of years and directions.", "anchors": ["precess.cpp: setup_ecliptic_precession", "precess.cpp: setup_precession", "precess.cpp: setup_equatorial_precession_from_j2000", "precess.cpp: precess_ra_dec", "precess.cpp: deprecess_vector", "obliquit.cpp: mean_obliquity", "alt_az.cpp: j2000_to_galactic_matrix"]}
{"id": "C82", "title": "Kepler's equation", "statement": "Kepler's equation has exactly one solution for every eccentricity not 1 and every mean anomaly. kepler gives at most one answer. Below an eccentricity of 0.9 it ends for every mean anomaly that is not minus an odd number of half turns, and what it gives is the solution within 1e-23. From 0.9 to 1, whatever it returns meets the equation within 2e-15; for hyperbolas (up to 1e11) within three times e cosh E times the square of the threshold, and 1e-15, for e < 1.01 if the result is at most 3. The series for nearly parabolic orbits are right within 1e-15. Exact real arithmetic.", "quantifier": "all real eccentricities and mean anomalies", "why_tests_cant": "A continuum of two parameters; the number of rounds of Newton's method is not bounded beforehand.", "anchors": ["astfuncs.cpp: kepler", "astfuncs.cpp: near_parabolic"]}
{"id": "C83", "title": "Elements from a position and a velocity", "statement": "For a positive mass and a position and velocity that are not parallel, calc_classical_elements finds elements; the eccentricity and the size are those given by energy and angular momentum, and comet_posn_and_vel on these elements gives back the position and the velocity: at the very time when the orbit is a parabola or its eccentricity differs from 1 by 1e-5 or more, else at a time within 1e-29 of the orbit's unit of time (hyperbolas within nine times their semimajor axis). Squares of eccentricities that differ from 1 by less than 1e-14, without being 1, are left out, as they are rounded to a parabola. Node, inclination and argument of the perihelion describe the orientation unless the orbit lies in the plane of x and y; there the perihelion they describe is the mirror image for half of the orbits. With position and velocity parallel the program stops. Exact real arithmetic, with an exact solution of Kepler's equation.", "quantifier": "all positions, velocities, masses and times", "why_tests_cant": "Seven real parameters with several branches; the wrong angles appear only in one plane.", "anchors": ["classel.cpp: calc_classical_elements", "astfuncs.cpp: comet_posn_and_vel"]}
{"id": "C84", "title": "Motion along an orbit", "statement": "For every perihelion distance above 0, eccentricity, node, argument of the perihelion, inclination other than 90 degrees and positive mass, the places and velocities given by derive_quantities and comet_posn_and_vel obey Newton's law of gravitation: the velocity is the rate of change of the position, and the acceleration is -gm r / |r|^3. At the time of the perihelion the body is at the perihelion, moving ahead at the speed sqrt(gm (1 + e) / q). Elements found from a position and a velocity describe the same motion when only the six numbers are kept. For an inclination of exactly 90 degrees a division by 0 occurs. Exact real arithmetic, with an exact solution of Kepler's equation.", "quantifier": "all elements, masses and times", "why_tests_cant": "A differential equation at every instant for every orbit cannot be tested by samples.", "anchors": ["astfuncs.cpp: derive_quantities", "astfuncs.cpp: setup_orbit_vectors", "astfuncs.cpp: comet_posn_part_ii", "astfuncs.cpp: comet_posn_and_vel"]}
{"id": "C85", "title": "ADES values in the columns of an observation", "statement": "Whatever elements an ADES observation is made of, and in whatever order they come: each element changes only the columns of the 80-column line that belong to it, and if there is one time from 1700 to 2099 of no more than three decimals of a second ending in Z, one right ascension of up to three figures, one declination of up to two, with any number of decimals, and one station code of three bytes, then extract_date_from_mpc_report and get_ra_dec_from_mpc_report read the same time and station from the columns, and the same angles: exactly for up to seven decimals, and to half a unit of the eighth decimal otherwise, in which case the whole text is kept for the remark line too. Exceptions proved with them: a time of four or more decimals after the right ascension is written over it; a time without Z takes digits of the fields after it; a negative right ascension of one figure is read as zero; a short station code takes the delimiter; a right ascension that is rounded to 1000 degrees ends the program; one of 26 bytes or more overflows an array.", "quantifier": "all lists of elements, all contexts, all numbers of decimals", "why_tests_cant": "The order of the elements, the other elements present and the digits are unbounded; interference between elements shows up only for some orders and lengths.", "anchors": ["ades2mpc.cpp: process_ades_tag", "ades2mpc.cpp: move_fits_time", "ades2mpc.cpp: place_value", "mpc_fmt.cpp: extract_date_from_mpc_report", "mpc_fmt.cpp: get_ra_dec_from_mpc_report"]}
{"id": "C86", "title": "Lines given out for an ADES observation", "statement": "However an observation has been filled in, repeated calls that ask for the next line give out exactly the lines that describe it, each once and in a fixed order: sigmas, identifications, angles and time in full, magnitude in full, tags, velocity, the 80-column line, and the second line with the designation, time and station copied into it; then nothing. Afterwards the context is drained, and only the values the code does not clear are left. Exceptions proved with them: a declination sigma and a correlation without a right ascension sigma are dropped or kept for a later observation, as are the sigmas of magnitude and time; an observing centre of more than eight bytes ends the program.", "quantifier": "all contexts whose texts fit the buffer", "why_tests_cant": "Every combination of pending remarks is a different sequence of calls.", "anchors": ["ades2mpc.cpp: get_a_line", "ades2mpc.cpp: xlate_ades2mpc", "ades2mpc.cpp: fgets_with_ades_xlation"]}
{"id": "C87", "title": "ADES files of columns separated by bars", "statement": "A line of four or more known ADES names separated by bars, with any blanks around them, starts a section. Every further line with as many fields (not all of them beginning with a small letter) is translated by giving each field, without the blanks around it, to the element named in its column, empty fields to none, and gives out exactly the lines of that observation (C86), whatever came before, for any number of lines. A line with another number of fields, if short and nothing else, ends the section and is passed on. Texts held never get longer than their arrays allow (C86). Exceptions proved with them: four words that are not all known end the program, be it an ADES file or not, and a line of values that all begin with small letters is taken for a header.", "quantifier": "all files, all column sets, all blanks, all values", "why_tests_cant": "Files, columns and blanks are unbounded, and the state left behind by one line must not change the next.", "anchors": ["ades2mpc.cpp: get_psv_header", "ades2mpc.cpp: process_psv_line", "ades2mpc.cpp: xlate_ades2mpc", "ades2mpc.cpp: fgets_with_ades_xlation"]}
{"id": "C88", "title": "ADES files in XML", "statement": "Inside an ADES file in XML an observation, from <optical> to </optical>, may be spread over any number of lines, with any white space around tags and texts. Each text is given to the element it stands in, and when the observation ends exactly the lines of that observation (C86) are given out, once, the elements around it staying open; this holds for any number of observations one after the other. Names and codes in the header of the file come out as COD, COM, OBS, MEA and CON lines according to the element around them. What follows a whole value plays no part, so the same values written in columns (C87) and in XML give out the same lines. Exceptions proved with it: of two observations on one line only the second comes out; a line with a tag that does not end on it is given to the caller again and again for ever; a name in the header whose closing tag is not on the same line is given out, put back and read again, longer each time, until the program ends.", "quantifier": "all observations, all ways of spreading them over lines, all states of the translator inside a file", "why_tests_cant": "Texts, elements, line breaks and what was open or read before are unbounded, and one observation must not change the next.", "anchors": ["ades2mpc.cpp: xlate_ades2mpc", "ades2mpc.cpp: xlate_ades2mpc_in_place", "ades2mpc.cpp: fgets_with_ades_xlation", "ades2mpc.cpp: process_ades_tag"]}
{"id": "C89", "title": "Multipart forms", "statement": "A request with a multipart/form-data body is read to exactly the names and values of its fields, in order, whatever the names, values and boundary are, provided that no line of a value begins with the boundary and each value fits into the buffer together with the boundary line after it. Line ends at the end of a value are left off; the name of a file is stored. On any input whatever nothing is written outside the buffer for the value, what is left to read is an end of the input, and every call reads something, so the loop over the fields ends. Exceptions proved with it: the value of an uploaded file begins with an empty line; a name of any length is stored, whatever the size of the caller's array (30 bytes); a value that does not fit is cut without an error and the following fields are lost; a value that fits without the boundary gets part of the boundary.", "quantifier": "all requests, all buffer sizes", "why_tests_cant": "Bodies, boundaries and buffer sizes are unbounded and come from outside.", "anchors": ["cgi_func.cpp: get_multipart_form_data", "cgi_func.cpp: initialize_cgi_reading", "cgi_func.cpp: get_cgi_data"]}
{"id": "C90", "title": "Columns of Gaia tables", "statement": "Asked for a column by name, the reader of Gaia tables gives, from every row with as many fields as the header, the field of the first column whose name ends in the text asked for (text with a comma) or contains it (text without), cut to the limit given. A name that no column but the last ends in aborts the program. Of the twenty files exactly those that hold a number of the range asked for are read. Exception proved with it: the callers give a limit of 99 bytes for an array of 90, so that a field of 90 bytes or more is stored past its end.", "quantifier": "all headers, rows, names, limits; all ranges of numbers from 0", "why_tests_cant": "Tables and names are unbounded; which column is taken depends on every name before it.", "anchors": ["csv2ades.c: get_csv", "csv2ades.c: file_needed"]}
{"id": "C91", "title": "Conversions of colours", "statement": "The conversions V-I to B-V and V-I to V-R give the value of their polynomial for a colour in their range and 100 for any other. The functions said to be their inverses never divide by zero; they give 99 or a colour in the range that lies within a millionth of one for which the polynomial has exactly the value given. A value outside those at the ends gives 99, the value at the lower end gives the lower end. The conversions from Tycho's to Johnson's system join the points of their table by straight lines. Exceptions proved with it: the value at the upper end gives 99, and so does every value that a guess of the search meets exactly; at the last point of the table, 1.8, nothing is added.", "quantifier": "all colours; for the search all polynomials and ranges with a larger value at the upper end", "why_tests_cant": "The colours are real numbers, and the search takes another path for each one.", "anchors": ["colors.cpp: compute_color_polynomial", "colors.cpp: compute_inverse_color_polynomial", "colors.cpp: johnson_b_minus_v_from_tycho_b_minus_v"]}
{"id": "C92", "title": "Refraction and its inverse", "statement": "From 1.2 degrees below the horizon to 2.2 degrees beyond the zenith the refraction becomes smaller with the altitude seen, by at most 29 hundredths of the change of the altitude, so that a higher altitude seen always belongs to a higher true altitude. From the horizon to 91 degrees it is at most 35.1 minutes, and reverse_refraction of the true altitude gives the refraction again to two hundredths of a second. Every true altitude from the horizon to the zenith belongs to an altitude seen.", "quantifier": "all altitudes in the range", "why_tests_cant": "Altitudes are real numbers; that no altitude is worse than the bound needs the derivative.", "anchors": ["refract.cpp: refraction", "refract.cpp: reverse_refraction"]}
{"id": "C93", "title": "Integrated refraction", "statement": "In both layers of the air the slope used is the derivative of the refractive index, and the index of the upper layer joins that of the lower one. The search for the radius that belongs to a zenith angle takes Newton's steps for the law that index, radius and sine of the zenith angle have the same product all along the ray, and stands still exactly where the law holds. The zenith angle at the tropopause obeys the law. However the interval is split, the sum is exact for polynomials of degree three. Exception proved with it: the zenith angle at the top of the stratosphere obeys the law only towards the zenith or if the index there is the one at the observer; in dry air it never is.", "quantifier": "all places, altitudes, wavelengths, temperatures, pressures, humidities; all radii with a positive temperature", "why_tests_cant": "All of them are real numbers; the angle at the top is off by so little that the result looks right.", "anchors": ["refract4.cpp: compute_refractive_index", "refract4.cpp: total_refraction", "refract4.cpp: integrated_refraction"]}
{"id": "C94", "title": "Least distance of two orbits", "statement": "For two ellipses around the Sun, if none of the points of the second orbit that are looked at lies exactly on the minor axis of the first (or, for a circular first orbit, on its line of apsides), find_moid_full returns the distance of a point of the one from a point of the other; no point looked at is closer; and no two points at all are closer by more than what half a step of 5 degrees along the second orbit can make out, Q/(1-e) times 2.5 degrees. Leaving out the parts of the second orbit that are too far in or out loses nothing. The true anomaly reported for the first body is that of the point nearest to the point kept on the second orbit, the time reported is one at which the first body is there, and the speed is the length of the difference of the two velocities. Exceptions proved with it: if the orbits meet at one of the points tried first, the point kept is the perihelion of the second orbit, and the other data are those of that point; for a point on the minor axis the result can be 0 though the orbits do not meet.", "quantifier": "all pairs of elliptic orbits with an aphelion within 1000 astronomical units; all ways to refine a bracket", "why_tests_cant": "Orbits and points on them are continuous; a test can compare with a finer search at a few orbits only.", "anchors": ["moid.cpp: find_moid_full", "moid.cpp: find_point_moid_2", "moid.cpp: compute_posn_and_vel", "moid.cpp: true_anom_from_r"]}
{"id": "C95", "title": "Mean elements of the planets", "statement": "For Mercury to Neptune setup_planet_elem gives the published semimajor axis, eccentricity, inclination, longitude of the node, longitude of the perihelion and mean longitude (angles up to whole turns), and the time of perihelion that gives the mean anomaly at the epoch. Numbers outside 1 to 15 are refused. Within 3000 years of 2000 all orbits are ellipses for which the search for the least distance works. Exceptions proved with it: Pluto's longitude of perihelion is taken for the argument of perihelion, so its orbit is turned by more than 90 degrees; the mean anomaly of the minor planets has node and argument of the perihelion taken off.", "quantifier": "all times; all numbers of bodies", "why_tests_cant": "Times are real numbers; whoever writes the test with the code's own idea of Pluto's elements sees nothing wrong.", "anchors": ["moid.cpp: setup_planet_elem", "moid.cpp: centralize_angle"]}
{"id": "C96", "title": "The line with the position of a spacecraft", "statement": "For an observation of at least 81 bytes and a position whose coordinates are within what the columns can hold, the second line that add_off writes has the letter s, the number of the unit (kilometres up to 9999999, astronomical units beyond), sign and size of each coordinate in its columns, and all other columns of the observation as they were. A coordinate too large for its columns stops the program rather than spoiling a column. What add_off itself reads from such a line is the position to within half a unit of the last decimal written. Exception proved with it: a coordinate of exactly zero gets a minus sign.", "quantifier": "all lines of 81 bytes or more, all rational positions", "why_tests_cant": "Positions are numbers of any size; the decimals change at several sizes, and rounding can carry into one more digit at each of them.", "anchors": ["add_off.c: set_mpc_style_offsets", "add_off.c: offsets_in_au", "add_off.c: process_file"]}
{"id": "C97", "title": "Positions added to observations from spacecraft", "statement": "For a file of 80-column observations add_off writes each line that is no observation from a spacecraft unchanged and in order, leaves out positions that were there, and follows each observation from a spacecraft by a position. If the service answers all questions, then for every spacecraft of the table and every observation up to 2099 that position and velocity are ones that the service gave for this very spacecraft and for a time within 2e-5 days. For any service whose answers are in range the program comes to its end, however many observations there are (the command never outgrows its buffer). Exceptions proved with it: when the service cannot be reached, the first observation is still given a position, the centre of the Earth; a spacecraft that is not in the table is given a position 100 m from the centre of the Earth; a file in ADES makes the program read bytes that were not set; an observation of 2132 or later stops it.", "quantifier": "all files of lines without <stn>, all services, all functions for the date of a line, all differences of time scales of a second or more", "why_tests_cant": "It depends on what a service in the network answers and on how many observations have to be put into one command; failures of the service are not to be had at will.", "anchors": ["add_off.c: process_file", "add_off.c: set_offsets", "add_off.c: get_sat_obs_jd", "add_off.c: get_horizons_idx", "jpl_xref.h"]}
{"id": "C98", "title": "The epoch of orbital elements as text", "statement": "In the line about the epoch that elements_in_mpc_format writes, the day of the month with its fraction and the Julian Date have the same number of decimals, one to six and no more than needed; both say the same instant, which is at most 0.6 microdays from the epoch; and day, month and year are those of the civil day the epoch falls on in the mixed Julian and Gregorian calendar. Exception proved with it: an epoch less than 0.4 microdays before midnight is shown as the next day of the same month, which after the last of January is \"Jan 32.0\".", "quantifier": "all real epochs from JD 0 to 999999998, all names of months without an equals sign, all calendars that give a day from 1 to 31", "why_tests_cant": "The zeroes at the end of one number decide how many digits are taken off another, without looking at them; a wrong digit would show for few fractions of a day only.", "anchors": ["showelem.cpp: elements_in_mpc_format", "showelem.cpp: decimal_day_to_dmy"]}
{"id": "C99", "title": "Orbital elements as text", "statement": "For every closed orbit whose numbers are within what the columns can hold, and every orbit that is not closed, elements_in_mpc_format writes into a buffer of 800 bytes more than the name and returns the number of lines written. In them each number is in its columns and, up to one unit of its last decimal, is the element asked for: the perihelion with its date, the epoch, the mean anomaly and the angles brought to 0 to 360 degrees, the daily motion, eccentricity, axis, perihelion and aphelion distances, the components of the unit vectors P and Q turned to the equator, the period by Kepler's third law in units that suit it, and the magnitude. Distances have precision + 4 digits, in kilometres when less than a million of them. Exceptions proved with it: with ten decimals or more the perihelion distance of an open orbit loses its unit below 998 km and then reads as astronomical units; with more than ten decimals the line of a parabola with the eccentricity is not aligned with the others.", "quantifier": "all real elements within the stated ranges, all precisions from 1 to 15, all flags, all names and buffer sizes", "why_tests_cant": "Digits are taken off at fixed columns and buffers shrink from line to line; whether all lines fit and no digit goes missing depends on precision, size of the numbers and flags together.", "anchors": ["showelem.cpp: elements_in_mpc_format", "showelem.cpp: show_formatted_dist", "showelem.cpp: add_pq_data", "showelem.cpp: lop_digits", "showelem.cpp: normal_vect", "showelem.cpp: zero_to_two_pi"]}
{"id": "C100", "title": "Earth orientation parameters from a file", "statement": "A file of lines for consecutive days in the format of the IERS, at least 16371 of them and the first from observations, gives a table with the numbers the lines contain, in radians, and with TD - UT1 free of the jumps that leap seconds make in UT1 - UTC; the last day with observations is reported, and the value returned is the day before that of the first line without numbers. Other files are refused with a negative value and leave no data. At 0h of a day inside the table get_earth_orientation_params gives exactly the numbers of the line for that day, those asked for and zero for the others; outside of it, or without data, zeroes, a bit for each number that is missing (-1 without data), and TD - UT1 by the general formulas. Exceptions proved with it: when the file ends with its last day the value returned is one day too early; the ranges reported end one day after the last; and a position of the pole beyond what was usual ends the program.", "quantifier": "all files, all numbers in them, all numbers of days, all sets of parameters asked for, all times", "why_tests_cant": "The table has more than 16371 lines and the sums of leap seconds run over all of them; a wrong rounding would show after one particular leap second only.", "anchors": ["eop_prec.cpp: load_earth_orientation_params", "eop_prec.cpp: is_valid_eop_line", "eop_prec.cpp: get_earth_orientation_params", "spline.cpp: cubic_spline_interpolate_within_table"]}
{"id": "C101", "title": "Orbits from the lines of mpcorb and astorb", "statement": "A line of mpcorb whose fields stand in their columns and are ended by blanks gives the elements it says: semimajor axis, eccentricity, the three angles and the mean anomaly in radians, absolute magnitude and slope, the epoch of the packed date, and the perihelion distance and time that follow; lines of any other form are refused with zero and nothing is read past their end. A line of astorb gives the elements in the same way as long as every number is preceded by a blank. Exceptions proved with it: an inclination of 100 degrees or more has no blank in front of it in astorb, so the node read is wrong and the hundreds of the inclination are lost; and a last field without a blank after it is read past the end of the text.", "quantifier": "all lines, all numbers in the fields, all elements left from before", "why_tests_cant": "A catalogue holds more than a million lines; the retrograde ones that are misread are a handful, and a field that runs into its neighbour needs particular digits.", "anchors": ["mpcorb.cpp: extract_mpcorb_dat", "mpcorb.cpp: extract_astorb_dat", "mpcorb.cpp: extract_mpc_epoch"]}
{"id": "C102", "title": "A catalogue in the Standard Orbit Format made from other catalogues", "statement": "mpc2sof makes from a line of mpcorb.dat or ELEMENTS.COMET a record of exactly 144 bytes, and what the reader of the Standard Orbit Format gets from it is the same orbit: perihelion distance and eccentricity within half a unit of the eighth decimal, the angles of the sixth, the time of perihelion within one of its seventh decimal of a day, the day of the epoch; number or designation, magnitude and slope parameter are copied. The file is the header followed by the records of all asteroids and then all comets, in the order of the lines. Exceptions proved with it: the comets are written past the end of the memory if all records are more than the power of two above the number of asteroids, or through a NULL pointer if there is no asteroid; and an orbit whose numbers do not fit into the columns (perihelion in the year 10000, or at 100 au or more) ends the program by an assertion.", "quantifier": "all files with any numbers of asteroids and comets, all orbits with a perihelion in the years 0 to 9999 and numbers that fit into the columns", "why_tests_cant": "The overflow depends on how the number of asteroids lies between powers of two; a record that reads back wrongly needs particular digits.", "anchors": ["mpc2sof.cpp: main", "mpc2sof.cpp: output_sof", "mpc2sof.cpp: extract_name", "mpc2sof.cpp: parse_elements_dot_comet", "sof.cpp: extract_sof_data", "miscell.cpp: full_ctime"]}
{"id": "C103", "title": "Planets' positions from the file of PS-1996 series", "statement": "For a time inside one of a planet's blocks, load_ps1996_series gets from the file exactly the numbers stored for that block, whichever of the four sizes (0, 2, 4 or 8 bytes) each number of a group of six was stored in, and get_ps1996_position gives the value of that block's Poisson series; the velocity it gives is the derivative of the position. For a time before the first block, or from the end of the last on, no series is loaded, and for a time outside the loaded block no position is given. Exception proved with it: a planet with more than thirty blocks makes the reader write past the end of its table.", "quantifier": "all files that hold a planet's blocks in the stated layout (any frequencies, numbers, sizes), all times, all planets", "why_tests_cant": "Whether every combination of sizes is unpacked correctly and the velocity agrees with the position at every instant cannot be sampled; the table overflow needs a file with more blocks than those distributed.", "anchors": ["de_plan.cpp: load_ps1996_series", "de_plan.cpp: get_ps1996_position", "de_plan.cpp: unpack_six_doubles"]}
{"id": "C104", "title": "Planets' positions from the VSOP87 series", "statement": "calc_vsop_loc and calc_big_vsop_loc give the value of the planet's power series in time whose coefficients are sums of waves, taken over exactly the terms that can exceed the given precision at that time (calc_big_vsop_loc before the year 2000 also all terms of odd powers); what is left out is at most the precision for each term, and nothing with precision zero. The longitude is reduced to at least 0 and less than 2*pi by whole turns. Calls of calc_big_vsop_loc with the same file answer the same whatever was asked before. Exceptions proved with it: its memory of where series begin is used for another file too, giving zeros or other wrong values without an error; a call that fails at the end of the file changes what is remembered for another planet and leaves the file it opened open.", "quantifier": "all data in the stated layout, all planets, values, times and precisions; all sequences of calls", "why_tests_cant": "The error of truncation is a bound over all times and precisions; the stale memory shows only in sequences of calls with two files.", "anchors": ["vsopson.cpp: calc_vsop_loc", "big_vsop.cpp: calc_big_vsop_loc"]}
{"id": "C105", "title": "The Moon's position, and bodies in five coordinate systems", "statement": "lunar_fundamentals gives the arguments of the Moon's theory as polynomials of time reduced to at least 0 and less than a turn; lunar_lon_and_dist and lunar_lat give the sums of exactly those terms whose amplitude exceeds the precision, with the factor for the eccentricity of the Earth's orbit, and the longitude is in 0 to 360 degrees; what is left out is at most the precision for each term times its factor, and nothing with precision zero. compute_planet gives, for the Sun, planets 1 to 8 and the Moon, the longitude, latitude and distance of the whole series; the four Cartesian vectors have that distance as their length and are related by the rotations for the obliquity of date, the precession to 2000, and the obliquity of 2000 (within 0.00004 arcseconds of the obliquity used elsewhere); nothing depends on earlier calls. Exception proved with it: planet 9, documented as Pluto, always fails an assertion.", "quantifier": "all data in the stated layout, all times, precisions, planets, and all states of the static caches reachable by calls", "why_tests_cant": "The bound of the truncation error and the equality of lengths hold for all times; independence of earlier calls is about all sequences of calls.", "anchors": ["lunar2.cpp: lunar_fundamentals, lunar_lon_and_dist, lunar_lat", "getplane.cpp: compute_planet"]}
{"id": "C106", "title": "The designation of a comet in a line of text", "statement": "extract_periodic_name finds exactly: the text in parentheses ended by the first 'P)', if a parenthesis opens before it; otherwise the first 'P/' or 'C/' followed by a digit from 1 to 9, with the year, one blank, capital letters, digits and perhaps a hyphen and letters; otherwise the text from the first parenthesis followed by a number from 1001 to 2299 to the closing one. It returns 0 exactly if there is none of these. A provisional designation is brought to a normal form, which is found in itself unchanged. At most one byte more than the text has is written, besides the zero. Exceptions proved with it: that byte is really written when a year ends the text, so that a buffer of the size of the text overflows; any text in parentheses ended by a capital P is taken for a permanent designation, even before a provisional one; designations with D/, A/, I/ or X/ in parentheses are not found.", "quantifier": "all texts", "why_tests_cant": "The three searches depend on each other and on where in the text they first succeed; tests use well-formed catalogue lines.", "anchors": ["com_file.cpp: extract_periodic_name"]}
{"id": "C107", "title": "Orientations, rates of rotation and radii of planets and satellites", "statement": "For an object whose lines stand in the file of orientations after those of its planet and before another object or planet, calc_planet_orientation gives the value 0 and a matrix made of the sums that the file states for the right ascension and declination of the pole and for the meridian (the one of the system asked for, if it stands before the usual one): constants, terms in days and centuries, sines and cosines of multiples of the planet's angles. The rows are orthonormal: the prime meridian at the stated angle from the node of the equator, the direction 90 degrees before it (after it if the meridian goes backwards), the pole. planet_rotation_rate gives the coefficient of the days, planet_radii the one, two or three radii. Old numbers are replaced by those of the Remap lines. An object that is not there gives -1. Asked again, the function gives the same. Exceptions proved with it: the last object in the file is taken for one that is not there; the axes are left-handed if the planet goes forwards, contrary to the comment; the first question about radii sets nothing; without the file the matrix is made of numbers never set; a line is cut at the first byte above 127, as in the line of Mars; a sine without coefficient is read for ever; an object without meridian has the rate of the one before; results are kept even if another file is loaded.", "quantifier": "all files of this form, objects, systems and times", "why_tests_cant": "The file is a small language with context: planets, angles, old numbers, systems; tests run on the one file that exists, whose last object and whose Mars are misread without notice.", "anchors": ["cospar.cpp: get_cospar_data_from_text_file, load_cospar_file, planet_rotation_rate, planet_radii, calc_planet_orientation"]}
{"id": "C108", "title": "The table of Chinese years made from a log of new moons and principal terms, and its reader", "statement": "From a log of consecutive suis (winter solstice to winter solstice, each with twelve or thirteen new moons and eleven further principal terms), chinese.cpp writes a file from which get_chinese_year_data of date.cpp reads, for every year between two complete suis: the day after the first month's new moon day as the year's beginning, the lengths of the months in order, and the place of the leap month. Months are numbered by the rule of the calendar: the solstice is in month 11, and of thirteen months in a sui the first without a principal term is a leap month with the number of the one before. This holds if no leap month follows month 12, the year has at most one, months have 29 or 30 days and the year begins within 145 days of where the table counts from. Exceptions proved: the length of a leap month 12 goes to the first month; years that begin 147 days or more later (the comment allows 186) are read at least 146 days too early; a log from year -1 on makes a table without year 0, whose months go to year 1.", "quantifier": "all logs of this form, numbers of years and years", "why_tests_cant": "The table in the sources was made once, from one log; the packing's limits, the leap months that never occurred in it, and other first years show only in logs that nobody has run.", "anchors": ["chinese.cpp: dump_data, main", "date.cpp: get_chinese_year_data"]}
{"id": "C109", "title": "Files of scaled integers made from Horizons tables", "statement": "From a file with a table of positions at midnight by Horizons (lines with the date, each followed by one with three ordinates, among any other lines), jpl2b32 writes 128 bytes with the satellite's number, the first date, the step from the first date to the second, the number of positions and the scale; then each ordinate, in order, as a signed integer of four bytes in units of the largest absolute ordinate / 1500000000, rounded toward zero, so that it never overflows; then two lines of text. A date without a position at the end of the file gives the value -2. Exceptions proved with it: of the dates only the first two matter, so that unequal steps are not noticed; if all positions are at the origin 0/0 is converted to an integer; a line too short for the third ordinate is read as zero, from the line before it in the buffer.", "quantifier": "all files of this form, satellite numbers and texts of the scale", "why_tests_cant": "The largest ordinate is found in one pass and used in another, over files of any length; no ordinate may overflow 32 bits; short lines and unequal steps show only in files nobody has tried.", "anchors": ["jpl2b32.cpp: main"]}
{"id": "C110", "title": "Every n-th line of an ephemeris of an MMS satellite", "statement": "For a file of an MMS satellite from 1 to 4 and an interval f that divides 720, mms writes a header with the first time, the step f/720 day and the number of lines / f; then the lines 0, f, 2f, ... with their times changed from days since 1958 (atomic time) to Julian dates (ephemeris time); then the first and last date. If the lines are two minutes apart, the j-th written line is j steps after the first. The interval is 72 if not given; -f and the interval may be one argument or two; 0 and what does not divide 720 is refused; a file without a satellite's number fails the assertion. Exceptions proved with it: the header's number is one too small unless f divides the number of lines; in that case the last date is one step after the last line; negative intervals are accepted and give a negative step and number; an output file that cannot be opened is written to nevertheless; a lone - is read beyond its end.", "quantifier": "all files, intervals and arguments", "why_tests_cant": "Whether header and lines agree depends on the remainder of the number of lines, which the usual files do not show; the arguments' forms are unbounded.", "anchors": ["mms.cpp: mms_ephem_jd, get_arg, main"]}
{"id": "C111", "title": "Joining files with a TLE a day", "statement": "them_cat replaces an old file of TLEs by: its header with the end of the range, the last date and the time of the update replaced, its TLEs up to that of the day before the new file begins, and what the new file has after its own last date. If both have one TLE a day and the new file begins at most one day after the last and after the first of the old one, so has the result, from the first day of the old file to the last of the new. Otherwise the assertion fails and the old file is not replaced. Joining the same new file again changes nothing. Exception proved with it: a range of fewer than 28 bytes keeps its end.", "quantifier": "all old and new files of this form", "why_tests_cant": "Files accumulate week after week; gaps, overlaps and repeated runs of any extent must leave one TLE a day.", "anchors": ["them_cat.c: main"]}
{"id": "C112", "title": "Sorting the events of Jupiter's satellites and marking those that cannot be seen", "statement": "For every number of events, _sort_events ends and leaves the same events in the order of time, all else untouched. _mark_hidden_events leaves them sorted and sets the unseen bit on exactly those at which an occultation or eclipse has begun at an earlier element of the sorted array and has not ended up to this one; no other bit, time or satellite number is changed.", "quantifier": "all numbers of events and all events", "why_tests_cant": "A Shell sort whose gaps did not end with 1, or that skipped a comparison after an exchange, sorts most short arrays nevertheless; overlapping occultations and eclipses come in orders that a few days of events do not show.", "anchors": ["jevent.cpp: _sort_events, _mark_hidden_events"]}
{"id": "C113", "title": "Every n-th position of a THEMIS ephemeris", "statement": "From a file with the satellite's catalogue number, the first and last time and positions a minute apart, themis writes a header with the first time, the step f/1440 day, the satellite's number and letter; then the positions 0, f, 2f, ..., the j-th with the time j steps after the first; then both dates. -f and -o take the next argument or the rest of their own; intervals that do not divide 1440 are refused; a file of another satellite fails the assertion. Exceptions proved with it: the header's number of positions is that of the whole days between first and last time, so that for d days and m minutes m/f + 1 lines more follow; a line of fewer than four bytes after a position counts as another position, and writes the one before it again under a time a minute later.", "quantifier": "all files of this form, intervals and arguments", "why_tests_cant": "The usual files have whole days and no empty lines after the positions; what a short line leaves in the buffer depends on all lines before it.", "anchors": ["themis.cpp: get_arg, main"]}
{"id": "C114", "title": "The layout of calendar pages", "statement": "calendar writes each day of the month in the column of its day of the week, in consecutive cells from the top row on. Days after the last cell go to the cell a week earlier, whose label then names both days (24/31), or, with -w, to the top row, in cells of their own. So each day's number is drawn once, and the labels fit their buffer. The cells that no day uses get, in order, the months -2, -1, 1, 2, 3, ... from the main one, at least four of them; the number and year of such a month are brought to 1..12, each of its days has one place, in the column of its weekday, and the text there is the day's number or the name of the moon's phase. Exceptions proved with it: October 1582 is drawn with the days 1 to 21, and what is drawn as the fifth is the fifteenth; a month that begins before the first Julian day can have cells with negative numbers.", "quantifier": "all months, years, places of the first day, and phases", "why_tests_cant": "The rows depend on the first weekday, the length of the month and the -w option together; a test prints one page of PostScript and does not compare it with the calendar.", "anchors": ["calendar.cpp: calendar, show_small_month"]}
{"id": "C115", "title": "Observers without a station code as roving observers", "statement": "xxx2rov copies a file and turns each observation with code XXX into two lines, with code 247 and the notes V and v; the second has, in columns 33 to 61, the mark 1 and the longitude, latitude and altitude of the last line COM Long. ... before it, rounded to 5, 5 and 0 decimals and in columns of 9, 9 and 4 bytes, and otherwise the same text as the observation. COD XXX becomes COD 247; every other line stays as it is. Exceptions proved with it: above 9999 metres the blank after the columns overwrites the last digit of the altitude, and the second line ends there, without code or newline; an observation before any line with a place is written with coordinates that were never set; one in a last line without a newline keeps the code XXX.", "quantifier": "all files of such lines, places and observations", "why_tests_cant": "That the NUL of sprintf is overwritten by the blank depends on the lengths of all three numbers; usual places have less than 10000 metres.", "anchors": ["xxx2rov.c: main", "mpc_code.cpp: get_xxx_location_info"]}
{"id": "C116", "title": "The constants of the Persian calendar", "statement": "Given the Julian days at which the years of a range begin, persian prints, in order, exactly the offsets o from 0 to q - 1 for which some zero makes every year y begin on the day zero + 365 y + (p y + o)/q (in C's division), each with that zero; and then the furthest year at which one of the other offsets first goes wrong. For any range within a block of the table of date.cpp it finds the block's constant and zero. Its cycle of 33 years has eight leap years in 33, and gives the leap years of date.cpp's calendar from 1178 to 1633, but not in 1177 and 1634. -j is taken after the second argument, wherever it is. Exceptions proved with it: the cycle has no leap years before the year 1, because C's remainders are negative; with no years a day beyond the table is read; a negative constant is refused as an unknown option.", "quantifier": "all tables of days, ranges, constants and arguments", "why_tests_cant": "That no offset is left out or wrongly printed is a statement about all of them for all tables; the table depends on the times of equinoxes.", "anchors": ["persian.cpp: jalali_jd0, main", "date.cpp: jalali_jd0"]}
{"id": "C117", "title": "Addresses of ephemerides of spacecraft", "statement": "jpl_url finds each spacecraft of its table by code, by international designation and by Horizons number, and no argument fits two of them. It then writes an address with that number, the two times with six decimals, and as many steps as there are tenths of a day between them, to the nearest. It writes none exactly if the argument is no name of a spacecraft or one of the times is before 1990. Exception proved with it: a span that ends before it begins is not refused, and has a negative number of steps.", "quantifier": "all arguments and times", "why_tests_cant": "That codes, designations and numbers do not collide is a statement about every argument, since atoi takes any text.", "anchors": ["jpl_url.c: main", "jpl_xref.h: jpl_xrefs"]}
{"id": "C118", "title": "Colours of stars in the Tycho and Johnson systems", "statement": "For colours from -0.25 to 2 tycho_to_johnson_colors uses four rows that are in its table, with the colour between the second and the third of them but at the ends, and each result is the value of the polynomial of degree three through those rows; at the colours of the table the results are the table's, the second with the colour added. Outside there are no results. The older formula rises by 0.79 to 0.97 of the difference between two colours, so that it has no jumps. Exceptions proved with it: at its last colour, 1.8, the older formula forgets its correction and jumps by 0.032; a colour of more than a billion is converted to an int, which is undefined, before it is refused.", "quantifier": "all colours", "why_tests_cant": "Which rows are used changes at each multiple of 0.05; that none is outside the table and that pieces meet is a statement about all colours.", "anchors": ["colors2.cpp: tycho_to_johnson_colors, johnson_b_minus_v_from_tycho"]}
{"id": "C119", "title": "The part of the map of night lights around a place", "statement": "With a map of 13500 by 6750 pixels in its file, pollute marks the pixel that contains the longitude and the latitude, and shows the pixels of the map around it, each at its place and in its shade, if the window is within the map and has at most a hundred pixels to either side. Turns to the east do not change the column. Exceptions proved with it: near 180 degrees west the pixels to the left come from the other end of the row above; near the north pole the first lines show the begin of the file, with its header, because fseek fails; more than a hundred pixels to either side overflow the buffer.", "quantifier": "all images, coordinates and sizes of the window", "why_tests_cant": "There are 91 million pixels and any of them may be the middle; that no offset is off by one for any of them and any size is a statement about all windows.", "anchors": ["pollute.c: main"]}
{"id": "C120", "title": "Dates from files on calendars", "statement": "A line of the file of dates with the name of the month, a day, perhaps more days after commas, and a text gives an entry with the text for each of the days, and a line of another month gives none; with a slash and a number from 0 to 6 after the first day that day is the first one from there on with that day of the week, from 1583 on. As PostScript the text stands for what is in the file, parentheses included. Exceptions proved with it: parentheses that make the line longer than 79 bytes, and more than ten days, are written after the end of arrays; another number after the slash lets the program run forever; a line that ends after the day gets its text from behind its end.", "quantifier": "all lines, months and years from 1583 on", "why_tests_cant": "The days of the week depend on the year, and where the text begins on the number of days; that each line gives its entries is a statement about all lines and years.", "anchors": ["calendar.cpp: grab_dates, make_postscript_substitutions"]}
