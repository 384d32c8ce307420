# Lean model of Bill-Gray/lunar: design

Source of truth: `/repo` (C/C++), read as text, never built or run.

## Layout

* `lean/Verif/Model/` – the code, function by function.  Every definition names the file and lines it comes from.
* `lean/Verif/Spec/` – what the results should be, written without reference to the model.
* `lean/Verif/Lemmas/` – proofs that several properties share.
* `lean/Verif/Props/` – the property theorems, named `Cnn_…` after the property they belong to.
* `properties.jsonl` – the properties.  `MANIFEST.json` – property to theorems, made by `tools/manifest.py` from the
  theorem names and `tools/notes.json`.  `AXIOMS.md` – axioms of each theorem, made by `tools/axioms.py`.
* `seeded/LOG.jsonl` – wrong programs tried against the theorems.  `tools/mutate.py` runs them.

## Trusted base

* The Lean 4.33.0 kernel.  `decide +kernel` is kernel evaluation; nothing trusts the compiler (no `native_decide`,
  `bv_decide`, `implemented_by`, `unsafe`), there is no `sorry` and no axiom of our own.
* Axioms: only `propext`, `Classical.choice` and `Quot.sound`; `AXIOMS.md` has the list theorem by theorem.
* Mathlib, as compiled and checked by the same kernel.
* That the definitions in `Model/` say what the C code does.  This is a reading, not a mechanical translation; the
  comments give the lines so that it can be checked.  The conventions are below.
* That the definitions in `Spec/` and the statements in `Props/` say what the properties say.

## Conventions

* `int`, `long` are `Int`; `/` and `%` are `Int.tdiv` and `Int.tmod`.  Overflow of signed arithmetic is not modelled
  except where a theorem says so; `unsigned` wraps where it matters (`Pack.lean`, `GetBin.lean`).
* Bytes are `Nat`, strings lists of bytes without the final NUL; reading position `length` gives 0 and reading past it
  is undefined behaviour.  Buffers that matter have their size in the model.
* `Outcome` has `ok`, `abort` (failed assertion, `exit`) and `ub` (out-of-bounds access, NULL dereference, read of an
  uninitialised variable).  Nothing undefined is given a convenient value.
* Loops without an obvious bound are transition systems or relations ("returns"), and termination is a theorem.
* Floating point is exact: an ordered field with a floor function, a commutative ring, or the real numbers.  Rounding
  errors are out of scope everywhere.  In `Brent.lean` infinities and NaN are modelled, square roots are a parameter.
* Library calls (`sprintf`, `sscanf`, `atoi`, `strtol`, `strlen`, `vsnprintf`…) are taken to do what the C standard says.

## What is modelled

| file of /repo | modelled | not modelled |
|---|---|---|
| `date.cpp` | all calendars, `day_to_dmy`, `dmy_to_day`, `days_in_month`, name tables | |
| `easter.cpp` | `easter_date`, `julian_easter_date`-equivalent | `main` |
| `mpc_fmt.cpp` | packing of designations; catalogue codes; base-62 numbers; dates and angles of 80-column lines | magnitudes, satellite lines; writing of lines |
| `mpc_fmt2.cpp` | writing of angles | |
| `unpack.cpp` | `unpack_mpc_desig` and what it calls | NULL output buffer |
| `snprintf.cpp` | `strlcpy`, `strlcat`, `…_err`, `snprintf_append` | the formatting itself |
| `miscell.cpp` | rotations, cross products, variable-star words, `full_ctimel` | `fopen` helpers |
| `delta_t.cpp` | default Delta-T table and polynomials, UTC from 1961, leap seconds | user-supplied Delta-T string, EOP files |
| `mjd_defs.h`, `utc_algo.cpp` | all macros | |
| `spline.cpp`, `brentmin.cpp` | everything | `main`, debugging output |
| `colors.cpp` | polynomials, their inverses, Tycho's colours | test programs |
| `refract.cpp` | `refraction`, `reverse_refraction` | Saastamoinen's formula |
| `refract4.cpp` | refractive index, integral, angles at the layers | the inverse; where the inner search ends is a parameter |
| `moid.cpp` | all functions | which points Brent's method visits is a parameter; its limit of 200 steps |
| `add_off.c`, `jpl_xref.h` | all functions that make up the output | the service and the date of a line are parameters; rational numbers; the lines about the run itself, and what `-v` prints |
| `showelem.cpp` | all | real numbers for `double`; `day_to_dmy`, `set_month_name` and `full_ctime` are parameters (C98 also with the calendar of the library) |
| `eop_prec.cpp` | 80-246 | real numbers for `double`; the file is the list of strings `fgets` gives; memory can be had; `td_minus_utc` and `default_td_minus_ut` are parameters |
| `mpcorb.cpp` | all | real numbers for `double`; no number overflows a `long`; a NULL for the elements is not modelled |
| `mpc2sof.cpp` | all | real numbers for `double`; lines have at most 399 bytes; `get_time_from_string` is a parameter; files can be opened and written |
| `de_plan.cpp` | 29-314 | real numbers for `double`; which number eight bytes denote is a parameter; little-endian, signed `char`; planet numbers from 1; the file can be opened and memory can be had; bytes that a file too short leaves unset are `ub` where they are used |
| `vsopson.cpp` | all | real numbers for `double`; which number eight bytes denote is a parameter; little-endian; planet not negative; a term that is partly beyond the data is `ub` |
| `big_vsop.cpp` | all | the same; the static variables are a state; results that depend on bytes never set, or on where the file was read before, are `ub` |
| `lunar2.cpp` | all | real numbers for `double`; which number eight bytes denote is a parameter; little-endian; data that are too short are `ub` |
| `getplane.cpp` | all | the same; planet not negative; the static variables of `precess.cpp` and `obliquit.cpp` are a state |
| `com_file.cpp` | `extract_periodic_name` | texts as bytes; overflow of `atoi` is not modelled; the code under `OBSOLETE` is not compiled and not modelled |
| `cospar.cpp` | all but the test program | real numbers for `double`; signed `char`; a file is the list of strings from `fgets`; the Earth's matrix and TD-UT are parameters; `load_cospar_file` with NULL only as `FREE_INTERNAL_DATA` |
| `chinese.cpp` | all but what it prints | a file is the list of its lines; bytes beyond a line's end are zero, also in the first line; `int`s do not overflow |
| `jpl2b32.cpp` | all but the messages | a file is the list of the pieces `fgets` gives; `buff` keeps what a longer line left there; rational numbers; the text of `%g`, the date of compilation and `ctime` are parameters |
| `mms.cpp` | all but the messages | a file is the list of the pieces `fgets` gives; rational numbers; `full_ctime` is a parameter |
| `them_cat.c` | all but the messages | files are lists of pieces, can be opened and written; a new file without the range line is undefined |
| `jevent.cpp` | `_sort_events`, `_mark_hidden_events` | an array is a function of the index; times are rational; the search for events, VSOP series and output are not modelled |
| `themis.cpp` | all but the messages | a file is the list of the pieces `fgets` gives; `buff` keeps what a longer line left there; rational numbers; `get_time_from_string` and `full_ctime` are parameters |
| `calendar.cpp` | 145-210, 475-655: which day and which small month is in which cell, and the text of small months | no dates from files, fonts or coordinates; the phases of the moon are a parameter |
| `xxx2rov.c` | all but the message | a file is the list of the pieces `fgets` gives, without NULs; rational numbers, degrees |
| `persian.cpp` | 34-58, 92-113, 145-148, 175-230 | the days at which the years begin are a parameter; no overflow of `long` |
| `jpl_url.c` | all but the messages; of `jpl_xref.h` codes, numbers and designations | rational numbers; `get_time_from_string` is a parameter |
| `colors2.cpp` | all but `main` | rational numbers |
| `pollute.c` | all but the messages | rational numbers; the coordinates as `atof` gives them; the file as a list of bytes |
| `calendar.cpp` (dates from files) | `make_postscript_substitutions`, the loop of `grab_dates` over lines | `int`s do not overflow; the loop over days as one of at most eight turns, `none` if it goes on |
| `csv2ades.c` | `get_csv`, `file_needed` | the output |
| `cgi_func.cpp` | readers of URL-encoded and multipart forms, how a request is told | limits on running time |
| `get_bin.h` | all readers | the dead type-punning branch |
| `marstime.cpp` | MSD, MTC, equation of time, true solar time and its inversion | `main` |
| `mpc_code.cpp` | `text_search_and_replace`, `quick_strtod`, places and directions in words, station lines, parallax constants, `point_to_ellipse`, regions | `cbrt` for old compilers, `fopen_ext`, `main` |
| `dist_pa.cpp` | everything | NULL for the position angle |
| `precess.cpp`, `obliquit.cpp` | everything; `nutation` as a parameter | the test `main`s |
| `alt_az.cpp` | everything; sidereal time and nutation as parameters | the sequence of calls inside `full_ra_dec_to_alt_az` and `full_alt_az_to_ra_dec` |
| `astfuncs.cpp` | `kepler`, `near_parabolic` (exact reals, not for eccentricity 1); `setup_orbit_vectors`, `derive_quantities`, `comet_posn_part_ii`, `comet_posn_and_vel` (exact reals, `kepler` a parameter that solves its equation) | double rounding; reading of element files |
| `classel.cpp` | `calc_classical_elements` with `ref` 1, `remaining_terms` (exact reals) | double rounding; the assertions on infinities |
| `mpc_time.c` | decoding of the submission time | the Julian Date in the output |
| `ades2mpc.cpp`, `adestags.c` | everything: `pack_mpc_reference`, tag lookup, tag nesting, the sort, values of the elements, lines given out, PSV, sigmas in columns 81-92 | `get_time_from_stringl` inside it (a parameter); theorems only for what C40-C42, C63, C85-C88 say |
| `sof.cpp` | header and record splitting, dates | conversion of the numbers, `gm` |
| `get_time.cpp` | everything; `split_time` as a parameter of the parser | lunar phase times, the clock |
| `conbound.c` | constellation lookup | precession of the position |

Everything else in the repository (planetary theories, ephemeris readers, eclipses, the command-line
programs) is outside the model.

## Simplifications

* Names given to `set_month_name` and `set_day_of_week_name` are kept as names; the library keeps the pointer.
* `sub_designator` in the packer is an unbounded integer; the number of a minor planet wraps modulo 2^32 as in C.
* `get_mutant_hex_value` is modelled without overflow (reached only with six or more digits).
* `strlcpy` and the search-and-replace source do not overlap the destination.
* Bytes from 128 on: in `Cgi` and `Sof` a `char` is signed.
* Delta-T: no EOP file loaded, `td_minus_dt_string` NULL, the built-in string held already parsed.
* SOF: `sscanf("%ld")` without overflow, `atof` without exponent.
* `full_ctimel`: month and weekday names are a parameter, `none` for NULL.
* `get_time_from_stringl`: `inf`, `nan` and hexadecimal numbers are not numbers; `int` and `long` are unbounded; name
  tables, the splitting of the initial time, lunar phases and the clock are parameters (`Env`); `is_ut` is given.
  `Run` has a fourth outcome, `hang`.

## Properties

`status` is in `MANIFEST.json`; this table says how the proof goes.

| id | title | approach |
|---|---|---|
| C01–C05 | Gregorian, Julian and mixed calendars | Search loop as a transition system; contiguity of years by `omega`; specification is the leap-year rule summed up year by year. |
| C06, C10 | Islamic, modern Persian | Same general refinement (`Lemmas/Refine.lean`), rule given separately. |
| C07 | Hebrew | Molad and postponements as specification; exact set of years where the code departs from them. |
| C08 | French Revolutionary | Interval split, `omega`. |
| C09, C11 | Persian, Chinese | Tables transcribed; whole-table check in the kernel, lifted to all years. |
| C12 | The year search stops | Measure for an abstract contiguous calendar; the Chinese gaps make it loop for ever. |
| C13, C14 | Order, month lengths | From contiguity. |
| C15 | Name tables | Invariant over any sequence of calls. |
| C16, C17 | Easter | Computus as specification; reduction to one period. |
| C18 | Base-62 | Induction on digits. |
| C19–C25, C51–C54 | Designations | Byte-list models of packer and unpacker; round trips by cases with digit lemmas. |
| C26, C27 | Catalogue codes, variable stars | Whole tables; arithmetic on letter indices. |
| C28, C29, C55 | Bounded strings | Memory model with out-of-bounds writes as failure. |
| C30 | Form data | Encoder as specification, parser as recursion. |
| C31–C34, C57, C58 | Time scales | Tables, `omega`, piecewise functions over an ordered field. |
| C35, C36 | Minimiser | Invariant over any run, any function. |
| C37, C38 | Interpolation | `ring`; Lagrange basis. |
| C39 | Constellations | Binary search on the transcribed table against a linear scan. |
| C40, C41 | ADES tags | Table check; stack as a transition system. |
| C42, C56 | Rotations, cross product | `ring`. |
| C43, C45, C47 | Packed times, references, dates | Digit lemmas. |
| C44 | Splitting a time | Floor lemmas; uniqueness of the civil time. |
| C46 | SOF records | Loop over the header; closed form of the result. |
| C48, C50 | Binary readers, replacement | Byte arithmetic; rewriting with termination. |
| C49, C59 | Mars time | Field identities; contraction over the reals. |
| C60, C70 | Printed times | Digits of the remainder by induction; list of pieces for all layouts; dictionary order. |
| C61, C62, C64 | Reading times | Model of `scanf` and `strtold` on byte lists; refinement in stages (copy, offsets, keywords, time of day, fields, roles). |
| C65–C69 | Offsets, weekdays, FITS times, counts, eras, halves of the day, phases | Same stages; the offset commutes with everything after it; strong induction on the text for termination. |
| C71–C74 | Lines of observations, plain numbers, angles written | Each format as a relation between text and meaning; the text as an explicit list of bytes. |
| C75 | Places in words | Grammar as an inductive relation; one lemma per reading step. |
| C76 | Station lines | Formats as inductive relations; scanning lemmas for the three numbers, then the at sign. |
| C77 | Height over an ellipse | Over ℝ: root of the cubic resolvent, factors of the quartic, Lagrange multiplier for the nearest point, uniqueness for the way back. |
| C78 | Regions | Loops as well-founded recursion; uniqueness of the representative modulo 360; induction over the file. |
| C79 | Distance and position angle | Over ℝ: the components as inner products with a frame; uniqueness of an angle from its sine and cosine. |
| C80 | Altitude and azimuth | Over ℝ: components up, north and east as the specification; it is symmetric, so one lemma serves both ways. |
| C81 | Precession | Matrices as products of plane rotations (C42); invariant of the cache over all sequences of calls; wrong order by one entry of the two products. |
| C82 | Kepler's equation | Over ℝ: Newton's residual by the error of the linear approximation; the first loop decreases by concavity of the sine; series with their tails. |
| C83 | Elements from a state | Over ℝ: the plane of the orbit spanned by the perihelion and the direction ahead; true anomaly by its cosine and sine; one lemma per kind of orbit. |
| C84 | Motion along an orbit | Derivatives of the coordinates in the plane, the anomaly as inverse function; Newton's law as specification. |
| C85 | ADES values | One lemma on the columns each tag writes; induction over the elements; the columns then meet the hypotheses of C71 and C72. |
| C86 | ADES lines | One lemma for each stage of `get_a_line`, composed; what is left behind is stated exactly. |
| C87 | ADES columns | Rows are written by a small spec (`psvRow`) and read back; an invariant (`Short`) bounds all texts; induction over the lines. |
| C88 | ADES in XML | Lines are described by a grammar of tags and texts (`Inner`, `Body`, `XmlObs`) with the elements open before and after; induction over it, over lines and over observations; congruence in what follows a value (`WholeValue`). |
| C89 | Multipart forms | Parts are written by a small spec and read back; `fgets` and `strstr` over byte lists; induction over lines and parts. |
| C90 | Columns of Gaia tables | Lines are joined from columns; `strstr` in a joined line is found by induction over the columns. |
| C91 | Conversions of colours | Invariant of the bracket, then the intermediate value theorem; the division is checked for zero in the model. |
| C92 | Refraction | Derivative, bounds of sine near zero, mean value theorem; the loop is a contraction. |
| C93 | Integrated refraction | Derivatives of powers and exponentials; Simpson's rule by induction over the depth. |
| C94 | Least distance of two orbits | C77 for one point; folds over lists of angles; triangle inequality for the parts left out; Lipschitz bound for the grid. |
| C95 | Mean elements | Angles up to whole turns; whole tables in the kernel. |
| C96 | Line with a position | Columns of a text into which bytes are put one after another; rounding to even; C-style reading back. |
| C97 | Positions added | Invariant over the records (where each position comes from) through the loop of questions; length of the command; second invariant for a service that answers. |
| C98 | Epoch as text | Two numbers whose units differ by a multiple of 10^5, so the same zeroes end both; rounding to even commutes with that shift. |
| C99 | Elements as text | One lemma per form of number (width, decimals, digits taken off), then the lines one after another with the room left. |
| C100 | Earth orientation parameters | Induction over the lines with the day before as state; the true TD - UT1 changes by less than half a second a day and is known modulo one second. |
| C101 | Lines of mpcorb and astorb | A field ended by a blank is read by the scanner for numbers whatever follows; one such step per field. |
| C102 | Standard Orbit Format from other catalogues | The room for records is the power of two above their number, by induction; the record is cut into its columns and read with C46, C47 and C101. |
| C103 | PS-1996 series | The layout of the file is a relation between bytes and blocks; the loops are shown by induction to read it back, and the sums to be the series and its derivative. |
| C104 | VSOP87 series | The layout of the data is a relation; the loops over terms and powers by induction, with the precision as invariant; the static memory by an invariant over all sequences of calls. |
| C105 | The Moon and `compute_planet` | The layout of the data is a relation; loops over terms by induction; loops over turns by functional induction; rotations as matrices, with the invariants of C81 for the caches. |
| C106 | Comet designations | Each of the three searches is shown equivalent to a relation between text and result that says where the designation is; spans by `takeWhile`. |
| C107 | Orientations | A grammar of sums (`Spec/Orientation.lean`); the loop over the text of a sum by induction on the terms, the loop over the lines by invariants before, within and after the object. |
| C108 | Table of Chinese years | The calendar's rule as a specification (`Spec/Lunisolar.lean`); the loop of `dump_data` refines a step per month (induction on the lines, pigeonhole for the leap month); an invariant on the bits of a year's mask; the file's bytes and the reader by arithmetic. |
| C109 | Scaled integers | The two passes as folds over the table's positions (induction on the relation between lines and positions); the maximum as an invariant; bounds of rounding; bytes by arithmetic. |
| C110 | Every n-th line | The second reading's counter against a recursion by remainder, that against the elements 0, f, 2f, ... |
| C111 | Joining TLEs | The loop over header and blocks by induction; the update of a header line as a relation that is its own fixed point (hence idempotence). |
| C112 | Events of satellites | Termination by a potential (sum of index times rank, which every exchange increases); sortedness by the invariant of the pass with gap 1; the gaps end with 1 by an inductive predicate that growing keeps; marks by induction over starts, bit by bit. |
| C113 | THEMIS ephemerides | The header's lines by a fold over the lines before the positions, the positions by induction on the body, with the recursion by remainder of C110; the buffer's stale bytes by index. |
| C114 | Calendar pages | The length of a month from the dates of C01's model; the cells by linear arithmetic over quotient and remainder; the small months by induction over the cells; the count of free cells by `decide +kernel` over all lengths and first weekdays. |
| C115 | Roving observers | The line in memory with the NUL of `sprintf`, by a lemma on bytes put in the middle of a list; files by induction with the last place as state; places by C75. |
| C116 | Constants of the Persian calendar | Induction over the years of a table and over the offsets; the cycle of 33 years against the table of date.cpp by `decide +kernel` over all years from 1178 to 1633. |
| C117 | Addresses of ephemerides | The keys of the table by `decide +kernel` over all pairs of rows, lifted to every argument by cases on the key that fits. |
| C118 | Colours of stars | The rows from the floor of the scaled colour; Lagrange's formula against any polynomial through the four points by `ring`; the pieces of the older formula by linear arithmetic. |
| C119 | Map of night lights | Bytes of the file at an offset by quotient and remainder; induction over the rows; the pixel of a place from the floor of the scaled coordinates. |
| C120 | Dates from files | Days of the year as a linear function, so that one of seven has the day of the week; induction over the days after commas and over the text. |
| C63 | Tag table generator | Induction over the exchange sort; whole table in the kernel. |

## Findings

Places where the code does not do what it should, each with a theorem.

| theorem | what happens |
|---|---|
| `C05_skipped_inputs` | 5–14 October 1582 in the mixed calendar is taken as Julian and comes back as another date. |
| `C07_hebrew_overlap`, `C07_hebrew_not_injective`, `C07_hebrew_traditional_fails` | A test with `>` instead of `>=` makes years ≡ 193151, 383856, 574561 mod 689472 overlap. |
| `C09_persian_last_year`, `C09_persian_bogus_date` | Month 12 of the last supported Persian year, 2327, has 126 days. |
| `C11_chinese_hangs`, `C12_chinese_search_hangs` | Eight days missing from the Chinese table: `day_to_dmy` never returns. |
| `C16_negative_fails` | Easter for negative years. |
| `C20_aliased` | "(4294967297)" packs as "(1)". |
| `C21_subscript_lost`, `C21_letter_I` | Subscripts from 620 outside 2000–2061 dropped; order letter I collides. |
| `C22_large_number` | Survey numbers from 9000 are not packed; `C22_reported`: the caller is told. |
| `C23_permanent_exits`, `C23_provisional_loses_digit` | Long Roman numerals exit the program; provisional numbers 100–109 lose a digit. |
| `C24_other_spellings` | Non-standard Roman numerals accepted. |
| `C26_gaia_3E`, `C26_documented_spelling`, `C26_overflow` | Catalogue names: wrong round trip, documented spelling refused, 80-letter name overruns a buffer. |
| `C27_large_numbers`, `C27_clash`, `C27_one_letter_clash` | Variable-star numbers from 10000; "A" and "V9201". |
| `C30_zero_size`, `C30_small_hex`, `C30_high_byte` | Form reader limits. |
| `C34_jump_1620` | Delta-T jumps by 28 s at 1620. |
| `C35_…`, `C37_misses_ends`, `C38_too_many_points` | Minimiser aborts on a symmetric bracket or equal values; cubic interpolation misses the end entries; Lagrange with too many points reads before the table. |
| `C39_negative_ra`, `C39_far_negative_ra` | Constellations for negative right ascensions: cut towards zero; lines across RA 0 missed below -3600 degrees. |
| `C40_ades_prefix` | Any tag beginning with "ades" passes for `ades`. |
| `C41_optical_unopened`, `C41_after_error`, `C41_control_hangs` | Unmatched `</optical>` unnoticed and next tag stored out of bounds; the same after any reported error; endless loop on a control character. |
| `C43_bad_digit`, `C43_short` | Submission time: bad digits unnoticed; short argument read past its end. |
| `C45_collisions`, `C45_unchecked` | Packed references: year dropped, numbers wrap. |
| `C46_other_o`, `C46_short_record` | SOF: any column in `o`; short record read past its end. |
| `C47_bad_month`, `C47_no_such_day`, `C47_blank`, `C47_negative` | YYYYMMDD: month from 15 reads outside a table; impossible and negative dates accepted. |
| `C49_example_stale` | Worked example in a comment belongs to an older constant. |
| `C50_empty_pattern` | Search and replace with an empty pattern runs for ever. |
| `C51_order_letter_lost`, `C51_large_subscript`, `C51_survey_clash` | Comet designations. |
| `C53_embedded_nul`, `C54_underscore_uninitialised`, `C54_too_long` | Packed field with NUL bytes; uninitialised read; abort. `C54_exact` says for each field which of these happens. |
| `C60_picodays`, `C60_month13` | Days with 12 or more decimals overflow a buffer; month 13 prints a NULL name. |
| `C61_abort`, `C61_named_abort` | "2009.5 3 4" and "5.5 jan 12" abort the program. |
| `C61_month_out` | "2009 20 25": month 20, read outside a table. |
| `C62_overflow` | 79 bytes of letters and digits: NUL written past the buffer. |
| `C70_jd_rounding`, `C70_jd_rounding_exact` | JD and MJD with the rounding flag are rounded twice: JD 2451545 prints as 2451546. |
| `C70_year_back`, `C70_year_five` | A printed year is read back half a day early; year 12345 prints as 1234. |
| `C71_october`, `C71_no_month` | Observations of 15–31 October 1582 come out ten days late; a missing month gives the bare day. |
| `C72_seven_digits`, `C72_packed_overflow` | Packed angles: seven digits are not recognised; from 2^31 on an `int` overflows. |
| `C74_format_200`, `C74_whole_turn` | Whole degrees of right ascension are written as hours; rounding up gives 24 h. |
| `C73_too_many_decimals`, `C73_too_large`, `C73_no_number` | `quick_strtod`: ten decimals or 2^31 overflow an `int`; a missing number is not reported. |
| `C75_past_end`, `C75_past_end_second` | A place that ends with an angle without a letter: the byte after the NUL is read. |
| `C75_ra_minutes`, `C75_dec_range`, `C75_place_unchecked`, `C75_xxx_codes` | Hours and minutes taken for degrees; bad declination given length 1; range not checked; unused error codes. |
| `C76_negative_planet`, `C76_short`, `C76_rover` | A negative planet: read before the table of radii. Fewer than three bytes: read past the end. No parallax constants on the equator and the prime meridian. |
| `C77_pole`, `C77_circle`, `C77_radii` | On the minor axis the distance is `fy - a` instead of `fy - b`; NaN on the x axis of a circle; no parallax constants for bodies without a radius. |
| `C78_cut`, `C78_short` | Text cut before a byte over 127; short line: bytes after its end are read. |
| `C80_mismatch`, `C80_poles` | Azimuth from south over west one way, from north over east the other, so a direction does not come back; wrong at the poles. |
| `C81_order`, `C81_chain`, `C81_garbage` | Precession between two years other than 2000: factors in the wrong order. Zero matrix on a first call with the years of the empty cache. |
| `C83_flat`, `C83_flat_wrong` | Orbits in the plane of x and y: argument of the perihelion between 0 and 180° only, so the perihelion is mirrored for half of them. |
| `C83_flatten` | The correction of the eccentricity vector divides by the length of the angular momentum, not by its square; with rounding errors it makes them worse for |h| > 2. |
| `C84_polar` | Division by 0 for an inclination of 90°. |
| `C85_ra_overwritten` | An ADES time of four or more decimals that comes after the right ascension overwrites its first digits. |
| `C85_no_z` | An ADES time without `Z` takes the digits of the fields after it. |
| `C85_negative_ra`, `C85_negative_ra_zero` | An ADES right ascension of -5.125 is stored as `0-5.125` and read as 0. |
| `C85_short_station` | A station code of two bytes takes the delimiter as its third. |
| `C85_ra_abort`, `C85_ra_overflow` | A right ascension that rounds to 1000 degrees ends the program; one of 26 bytes overflows `full_ra`. |
| `C86_sigmas_dropped`, `C86_stale_correlation`, `C86_stale_magnitude` | Sigmas without a right ascension sigma are not given out, and may turn up in a later observation. |
| `C86_long_center` | An observing centre of more than eight bytes ends the program. |
| `C87_unknown_name`, `C87_lower_case` | Four words with bars between them that are not all ADES names end the program, in any file; so does a line of values that all begin with small letters. |
| `C88_two_on_a_line` | Of two observations on one line of an XML file only the second is given out. |
| `C88_unended_tag` | A line with a tag that does not end on it (a comment of several lines) is given to the caller for ever. |
| `C88_name_not_ended` | A name in the header whose closing tag is not on the same line is given out, read again as another name, and so on until the program ends. |
| `C89_file` | The value of an uploaded file begins with the empty line after its header. |
| `C89_long_name` | Names of fields are stored without any limit; the callers have arrays of 30 bytes. |
| `C89_cut`, `C89_boundary_kept` | A value too long for the buffer is cut without an error, and the following fields are lost; one that leaves no room for the boundary gets part of it. |
| `C90_overflow` | A field of 90 bytes or more is stored past the end of the array, the limit given being 99. |
| `C90_missing` | A column that is the last one cannot be asked for by its name and a comma: the program is aborted. |
| `C91_upper_end`, `C91_exact_lost` | The inverse of a colour conversion gives 99 for the value at the upper end of its range, and whenever a guess is exact. |
| `C91_tycho_end` | At 1.8, the last point of the table, the correction of Tycho's colours is left out. |
| `C93_top`, `C93_top_dry` | The zenith angle at the top of the stratosphere is computed with the index there in place of the one at the observer. |
| `C94_guess`, `C94_lost` | When the least distance is found among the first guesses, the point kept is the perihelion of the second orbit; the data reported belong to it. |
| `C94_pole` | The error of C77_pole makes the least distance 0 for two orbits that do not meet. |
| `C95_pluto` | Pluto's longitude of perihelion is taken for its argument of perihelion (`planet_idx < 9`). |
| `C95_minor` | The mean anomalies of the minor planets are off by node and argument of perihelion. |
| `C96_zero_sign` | A coordinate of zero is written with a minus sign. |
| `C97_no_answer` | When the service is silent, the first observation gets the centre of the Earth for its position (`for( i--; i > 0; i--)`). |
| `C97_answered` (`Followed`) | A spacecraft that is not in the table gets a position 100 m from the centre of the Earth. |
| `C97_ades` | `tbuff` gets no NUL at its end: undefined for ADES files with a spacecraft of the table. |
| `C97_late` | JD 2500000.5 and later: the time does not fit its buffer of 15 bytes, though dates up to 2700000 are let through. |
| `C98_carry` | An epoch just before midnight is shown as the next day of the same month ("Jan 32.0"). |
| `C99_unit_lost` | With ten decimals or more, `q` of an open orbit below 998 km is shown without its unit. |
| `C99_parabola_shift` | With more than ten decimals, the line with `e` of a parabola is shifted to the left. |
| `C100_day_early` | The value returned is one day too early if no line without numbers follows the last day. |
| `C100_aborts` | A position of the pole outside the range of the last decades ends the program by an assertion. |
| `C100_reported_range` | The last days reported are the days after the last ones with data. |
| `C101_retrograde` | In astorb an inclination of 100 degrees or more runs into the node: the node read is wrong and the hundreds of the inclination are lost. |
| `C101_runs_on` | A field of astorb with no blank after it is read past the end of the text. |
| `C102_overflow`, `C102_comets_alone` | Comets are written past the end of the memory for the records, or through NULL if there is no asteroid. |
| `C102_aborts` | A perihelion in the year 10000 or at 100 au and more ends the program by an assertion. |
| `C103_many_blocks` | A planet with more than thirty blocks: the reader writes past the end of `block_sizes`. |
| `C104_other_file` | `calc_big_vsop_loc` uses the header of one file for another: the planet is at zero without an error. |
| `C104_short_file` | A call that fails changes the header remembered for another planet, and leaves its file open. |
| `C105_pluto` | `compute_planet` for planet 9, documented as Pluto, fails an assertion. |
| `C106_longer` | `extract_periodic_name` writes a blank after a year at the end of the text: one byte more than the text has. |
| `C106_not_a_number` | `(SHARP)` is taken for a permanent designation of a comet. |
| `C106_other_letters` | `(D/1770 L1)` is not found. |
| `C107_last` | The last object before `END` is never found: `calc_planet_orientation` returns -1 with a pole of 20 times its number; in `cospar.txt` this is Itokawa. |
| `C107_handed` | The rows are left-handed for planets that go forwards, right-handed for those that go backwards; the comment says the reverse. |
| `C107_cut` | Mars' `a0=` line in `cospar.txt` has a minus sign of three bytes above 127: all its terms are lost where `char` is signed. |
| `C107_first_radii`, `C107_no_file`, `C107_no_meridian`, `C107_endless`, `C107_again` | The first `planet_radii` sets nothing; without file uninitialised numbers are used; stale rate; endless loop at a sine without coefficient; results outlive `load_cospar_file`. |
| `C108_leap_twelve` | A leap month 12 is taken for the beginning of the next year: its length goes to the first month of its own year. |
| `C108_offset` | A year that begins 147 days or more after the table's reckoning does not fit the three bytes, though the comment in `date.cpp` allows 186. |
| `C108_year_zero` | `year0` of zero stands for "not known": a log from year -1 on makes a table without year 0, whose months are entered in year 1. |
| `C109_dates` | jpl2b32 takes the step from the first two dates and looks at no other. |
| `C109_origin` | jpl2b32 divides 0 by 0 if all positions are at the origin, and converts the result to an integer. |
| `C109_short` | A position's line of fewer than 47 bytes gets a third ordinate of zero, from the date's line still in the buffer. |
| `C110_count`, `C110_end` | The header of mms counts one line too few unless the interval divides the number of lines; then the last date is one step too late. |
| `C110_negative`, `C110_arguments` | mms accepts negative intervals, and tests the wrong file pointer after opening the output. |
| `C111_short_range` | them_cat writes the new end of a short range after the end of the line, where it is not seen. |
| `C113_count` | themis truncates the span to whole days before it counts the lines for the header. |
| `C113_empty_line` | themis takes an empty line after a position for another position, because it looks at bytes that the line before left in the buffer. |
| `C114_october` | calendar draws October 1582 with the days 1 to 21. |
| `C114_early` | calendar uses a remainder that is negative before the first Julian day, and then writes `lines_used[]` before its start. |
| `C115_high` | xxx2rov cuts the second line short if the altitude has five digits, and overwrites the last of them. |
| `C115_unset` | xxx2rov reads a place that was never set, if an observation comes first. |
| `C115_last` | xxx2rov leaves an observation in a last line without newline as it is. |
| `C116_negative` | persian has no leap years before the year 1. |
| `C116_empty` | persian reads the first of no years, if the range is empty. |
| `C117_backwards` | jpl_url does not refuse a span that ends before it begins. |
| `C118_jump` | johnson_b_minus_v_from_tycho forgets its correction at 1.8. |
| `C118_far` | tycho_to_johnson_colors converts a colour to `int` before it checks the range. |
| `C119_edge` | pollute shows the end of the row above instead of what is across 180 degrees west. |
| `C119_pole` | Near the north pole `fseek` fails and pollute shows the header of the file as pixels. |
| `C119_overflow` | More than a hundred pixels to either side overflow pollute's buffer. |
| `C120_room`, `C120_list` | calendar writes after the end of its arrays for many parentheses, and for more than ten days in a line. |
| `C120_forever` | A day of the week above 6 in the file of dates lets calendar run forever. |
| `C120_short` | A line of the file of dates that ends after the day gets its text from behind its end. |
| `C64_hours_lost`, `C64_blank_month` | Hours-only times read back as midnight; "2009  3 12" read as 3 January. |
| `C65_endless`, `C65_zero_offset` | "2009-03-05 12h" loops for ever; an offset of 0 hides the offsets before it. |
| `C66_before` | Initial time before 1999 December 25: the name of a weekday gives the day before one. |
| `C67_zulu` | "2009-03-05T12:30:00Z" is read as midnight. |

Found while reading, no theorem: the comment giving 1961 January 1 as MJD 37400 (it is 37300); leftover bytes after
"$name" for undeciphered names of 8–10 characters; "S/2003 J 12xyz" accepted; a NULL output buffer with the
underscore form; "JD 0" is not understood.
