{
 "claims": [
  {
   "property": "C01",
   "status": "proved",
   "theorems": [
    "SatSky.Props.C01_accept_iff",
    "SatSky.Props.C01_wellformed_accepted",
    "SatSky.Props.C01_single_digit_detected"
   ],
   "note": "Exact acceptance criterion of tle_checksum, acceptance of well-formed lines, detection of any single digit change."
  },
  {
   "property": "C02",
   "status": "partial",
   "theorems": [
    "SatSky.Props.C02_result",
    "SatSky.Props.C02_reads_past_end_violated",
    "SatSky.Props.C02_safe_partial"
   ],
   "note": "Codes -1/-2/-3/0..9 characterised for every string. Memory safety fails for strings of exactly 68 characters (C02_reads_past_end_violated); proved for all others."
  },
  {
   "property": "C03",
   "status": "proved",
   "theorems": [
    "SatSky.Props.C03_decode_encode",
    "SatSky.Props.C03_injective",
    "SatSky.Props.C03_decode_valid",
    "SatSky.Props.C03_invalid_zero",
    "SatSky.Props.C03_blank_padded"
   ],
   "note": "Decoder and an independent encoder are inverse bijections on 0..45435423; invalid characters give 0; blank padded numbers."
  },
  {
   "property": "C04",
   "status": "partial",
   "theorems": [
    "SatSky.Props.C04_return_code_partial",
    "SatSky.Props.C04_high_type_violated"
   ],
   "note": "Proved for all element types but 'H', lines not exactly 68 characters long; for 'H' sets the code returns 0 with wrong checksums (C04_high_type_violated)."
  },
  {
   "property": "C05",
   "status": "proved",
   "theorems": [
    "SatSky.Props.C05_epoch_day",
    "SatSky.Props.C05_year_rollover"
   ],
   "note": "Epoch day arithmetic against an independent calendar day count; combined with the text reader in C09."
  },
  {
   "property": "C06",
   "status": "proved",
   "theorems": [
    "SatSky.Props.C06_angle",
    "SatSky.Props.C06_integer_field",
    "SatSky.Props.C06_eight_places"
   ],
   "note": "Angles, integer fields, DD.DDDDDDDD fields for every digit string; values in units of the format."
  },
  {
   "property": "C07",
   "status": "proved",
   "theorems": [
    "SatSky.Props.C07_sci",
    "SatSky.Props.C07_sci_blank"
   ],
   "note": "All signs, mantissas, exponents; blank mantissa."
  },
  {
   "property": "C08",
   "status": "proved",
   "theorems": [
    "SatSky.Props.C08_roundtrip",
    "SatSky.Props.C08_accept"
   ],
   "note": "Round trip for |v|<36^8, and exactly which fields are accepted."
  },
  {
   "property": "C09",
   "status": "proved",
   "theorems": [
    "SatSky.Props.C09_roundtrip"
   ],
   "note": "Independent writer of the standard layout; all elements come back, return code 0. Values in the units of the format (the final multiplication by floating point constants is not modelled)."
  },
  {
   "property": "C10",
   "status": "proved",
   "theorems": [
    "SatSky.Props.C10_next_day",
    "SatSky.Props.C10_epoch",
    "SatSky.Props.C10_day_count"
   ],
   "note": "Next day of the calendar has the next number, epoch is 1858-11-17, for all dates of years >= 0 (no upper bound)."
  },
  {
   "property": "C11",
   "status": "proved",
   "theorems": [
    "SatSky.Props.C11_calendar",
    "SatSky.Props.C11_roundtrip",
    "SatSky.Props.C11_text"
   ],
   "note": "All valid dates of years 0..9999 (text: 1000..9999), all 86400 seconds, every rounding-to-nearest arithmetic (structures Fl64, Fl32; IEEE is an instance). sscanf/sprintf modelled."
  },
  {
   "property": "C12",
   "status": "proved",
   "theorems": [
    "SatSky.Props.C12_calendar",
    "SatSky.Props.C12_calendar_epoch",
    "SatSky.Props.C12_within",
    "SatSky.Props.C12_valid",
    "SatSky.Props.C12_accepted"
   ],
   "note": "Accuracy for every rounding to nearest; validity of all fields for IEEE binary64 round-half-even (exponent range unbounded). C12_calendar: printed day sequence is the calendar."
  },
  {
   "property": "C13",
   "status": "partial",
   "theorems": [
    "SatSky.Props.C13_fits_iff_partial",
    "SatSky.Props.C13_safe_range_partial",
    "SatSky.Props.C13_overflow_violated",
    "SatSky.Props.C13_null_violated"
   ],
   "note": "Exact criterion: fits iff year in -999..9999 (C13_fits_iff_partial). Violated: overflow from year 10000 (C13_overflow_violated), NULL copied for huge MJD (C13_null_violated)."
  },
  {
   "property": "C14",
   "status": "partial",
   "theorems": [
    "SatSky.Props.C14_accepts",
    "SatSky.Props.C14_rejects",
    "SatSky.Props.C14_silent_violated",
    "SatSky.Props.C14_month13_violated"
   ],
   "note": "date2mjd_nf rejects every argument not of the shape and accepts every ISO date. Violated at program level: -d ignores the code and uses MJD 0 (C14_silent_violated); month 13 accepted (C14_month13_violated)."
  },
  {
   "property": "C15",
   "status": "proved",
   "theorems": [
    "SatSky.Props.C15_examined_in_order",
    "SatSky.Props.C15_stop_reason"
   ],
   "note": "Files of records (optional name line), any options, any number of records, for runs with defined behaviour (C17 says when). Also when the loop is left early, for arbitrary files."
  },
  {
   "property": "C16",
   "status": "proved",
   "theorems": [
    "SatSky.Props.C16_no_duplicates",
    "SatSky.Props.C16_first_occurrence"
   ],
   "note": "No duplicates: arbitrary files, all options. First occurrence: region and name searches over files of records."
  },
  {
   "property": "C17",
   "status": "partial",
   "theorems": [
    "SatSky.Props.C17_buffer_safe_partial",
    "SatSky.Props.C17_overflow_violated",
    "SatSky.Props.C17_overflow_exists_violated"
   ],
   "note": "Violated: the 11667th distinct satellite overflows the 70000-byte buffer (general theorem and an explicit existing file). Proved safe up to 11666 satellites in files of records."
  },
  {
   "property": "C18",
   "status": "proved",
   "theorems": [
    "SatSky.Props.C18_at_most",
    "SatSky.Props.C18_first_n"
   ],
   "note": "At most N for arbitrary files; the first N wanted ones for region/name searches, stop exactly at the Nth."
  },
  {
   "property": "C19",
   "status": "partial",
   "theorems": [
    "SatSky.Props.C19_wrap_violated",
    "SatSky.Props.C19_only_requested_partial",
    "SatSky.Props.C19_found",
    "SatSky.Props.C19_number",
    "SatSky.Props.C19_sunlit_violated",
    "SatSky.Props.C19_altitude_violated",
    "SatSky.Props.C19_alpha5_violated"
   ],
   "note": "Violated with -V, -a (other satellites reported when the requested one fails the filter) and for Alpha-5 numbers. Proved: the requested satellite is the one reported when no filter is on."
  },
  {
   "property": "C20",
   "status": "partial",
   "theorems": [
    "SatSky.Props.C20_prefix_partial",
    "SatSky.Props.C20_printed_selects",
    "SatSky.Props.C20_text",
    "SatSky.Props.C20_truncated_violated"
   ],
   "note": "Violated: truncated designators select others. Proved: exact meaning as prefix comparison; a printed designator selects its satellite."
  },
  {
   "property": "C21",
   "status": "partial",
   "theorems": [
    "SatSky.Props.C21_prefix_partial",
    "SatSky.Props.C21_substring_violated"
   ],
   "note": "Violated: only a prefix match, not a substring (witness). Proved for the prefix reading."
  },
  {
   "property": "C22",
   "status": "proved",
   "theorems": [
    "SatSky.Props.C22_sunlit_counter"
   ],
   "note": "Arbitrary files and options."
  },
  {
   "property": "C23",
   "status": "proved",
   "theorems": [
    "SatSky.Props.C23_arguments",
    "SatSky.Props.C23_kept_iff",
    "SatSky.Props.C23_none_outside"
   ],
   "note": "Argument order, exact criterion in files of records, nothing outside in arbitrary files."
  },
  {
   "property": "C24",
   "status": "partial",
   "theorems": [
    "SatSky.Props.C24_own_name_partial",
    "SatSky.Props.C24_subsequence",
    "SatSky.Props.C24_digit_violated",
    "SatSky.Props.C24_uninitialised_violated"
   ],
   "note": "Violated for names starting with '1' or '2', and when the uninitialised byte 23 of sat_name is not 0 (undefined behaviour). Proved otherwise."
  },
  {
   "property": "C25",
   "status": "proved",
   "theorems": [
    "SatSky.Props.C25_reported_exactly",
    "SatSky.Props.C25_reported_iff",
    "SatSky.Props.C25_only_if"
   ],
   "note": "Exact list of reports for region/name searches; every reported satellite passed the tests for arbitrary files and all options. Single-satellite requests: see C19."
  },
  {
   "property": "C26",
   "status": "partial",
   "theorems": [
    "SatSky.Props.C26_json_partial",
    "SatSky.Props.C26_no_args_violated",
    "SatSky.Props.C26_quote_violated",
    "SatSky.Props.C26_open_array_violated",
    "SatSky.Props.C26_blank_name_violated"
   ],
   "note": "Violated without arguments (newline in a string), with quotes in arguments, after a late error (array left open), by empty name lines. Proved for every run otherwise: printable arguments and lines, no error after satellites were printed."
  },
  {
   "property": "C27",
   "status": "partial",
   "theorems": [
    "SatSky.Props.C27_run_command_partial",
    "SatSky.Props.C27_list_last_violated"
   ],
   "note": "Violated when the list is the last argument (witness). Proved for every run otherwise."
  },
  {
   "property": "C28",
   "status": "partial",
   "theorems": [
    "SatSky.Props.C28_status_cause_partial",
    "SatSky.Props.C28_bad_value_violated",
    "SatSky.Props.C28_exit_code_violated"
   ],
   "note": "Every answer has one of the listed causes (proved for all runs). Violated: malformed dates or limits give status 0; exit code 0 with status 1."
  },
  {
   "property": "C29",
   "status": "partial",
   "theorems": [
    "SatSky.Props.C29_terminates_partial",
    "SatSky.Props.C29_hangs_violated",
    "SatSky.Props.C29_hangs_GH_violated",
    "SatSky.Props.C29_reads_past_end_violated",
    "SatSky.Props.C29_documented_safe_partial",
    "SatSky.Props.C29_value_overflow_violated",
    "SatSky.Props.C29_vis_terminates_partial",
    "SatSky.Props.C29_vis_hangs_violated",
    "SatSky.Props.C29_vis_hangs_NT_violated",
    "SatSky.Props.C29_vis_reads_past_end_violated",
    "SatSky.Props.C29_vis_value_overflow_violated",
    "SatSky.Props.C29_vis_documented_safe_partial"
   ],
   "note": "Both programs. Violated: switch clusters loop forever, a missing last value reads argv[argc], long values overflow buffers. Proved: terminates without clusters; documented items with values that fit end regularly."
  },
  {
   "property": "C30",
   "status": "partial",
   "theorems": [
    "SatSky.Props.C30_any_order_partial",
    "SatSky.Props.C30_order_violated",
    "SatSky.Props.C30_date_mjd_violated"
   ],
   "note": "Violated for d/j, a/i, a/s, p/i, p/s, D/T. Proved for every permutation of pairwise independent items."
  },
  {
   "property": "C31",
   "status": "partial",
   "theorems": [
    "SatSky.Props.C31_single_partial",
    "SatSky.Props.C31_list_slash_violated"
   ],
   "note": "Violated for a list name with a slash. Proved for single files, first or last argument."
  },
  {
   "property": "C32",
   "status": "partial",
   "theorems": [
    "SatSky.Props.C32_rows_partial",
    "SatSky.Props.C32_reads_rows_partial",
    "SatSky.Props.C32_crlf_violated",
    "SatSky.Props.C32_long_comment_violated"
   ],
   "note": "Violated for CRLF line ends and for comments longer than 63 characters. Proved for any number of rows up to 63 printable characters."
  },
  {
   "property": "C33",
   "status": "proved",
   "theorems": [
    "SatSky.Props.C33_great_circle",
    "SatSky.Props.C33_range",
    "SatSky.Props.C33_symmetric",
    "SatSky.Props.C33_zero",
    "SatSky.Props.C33_turns",
    "SatSky.Props.C33_triangle"
   ],
   "note": "exact reals, all arguments"
  },
  {
   "property": "C34",
   "status": "partial",
   "theorems": [
    "SatSky.Props.C34_wrap_partial",
    "SatSky.Props.C34_ahead",
    "SatSky.Props.C34_violated"
   ],
   "note": "holds exactly where the satellite is at most half a turn ahead of the target (C34_ahead); violated otherwise (target 1 degree, satellite 359 degrees: 358 instead of 2)"
  },
  {
   "property": "C35",
   "status": "proved",
   "theorems": [
    "SatSky.Props.C35_ray",
    "SatSky.Props.C35_binary",
    "SatSky.Props.C35_segment"
   ],
   "note": "ray and (for a distant Sun) segment; exact reals"
  },
  {
   "property": "C36",
   "status": "proved",
   "theorems": [
    "SatSky.Props.C36_range"
   ],
   "note": "for every position and sidereal times in [-24,24]; exact reals"
  },
  {
   "property": "C37",
   "status": "proved",
   "theorems": [
    "SatSky.Props.C37_topocentric"
   ],
   "note": "exact reals"
  },
  {
   "property": "C38",
   "status": "partial",
   "theorems": [
    "SatSky.Props.C38_partial",
    "SatSky.Props.C38_zenith_violated",
    "SatSky.Props.C38_meridian_violated",
    "SatSky.Props.C38_meridian_partial",
    "SatSky.Props.C38_pole_violated"
   ],
   "note": "general case proved; the special cases near the zenith, on the meridian south of the zenith and at the poles are wrong (witnesses)"
  },
  {
   "property": "C39",
   "status": "proved",
   "theorems": [
    "SatSky.Props.C39_ends",
    "SatSky.Props.C39_local"
   ],
   "note": "all dates and longitudes; exact reals"
  },
  {
   "property": "C40",
   "status": "proved",
   "theorems": [
    "SatSky.Props.C40_FMod2p",
    "SatSky.Props.C40_centralize",
    "SatSky.Props.C40_atan_circ"
   ],
   "note": "exact reals; double arithmetic is C71"
  },
  {
   "property": "C41",
   "status": "proved",
   "theorems": [
    "SatSky.Props.C41_identity",
    "SatSky.Props.C41_range",
    "SatSky.Props.C41_first_order",
    "SatSky.Props.C41_pole_excluded"
   ],
   "note": "epochs within a century of 2000 and |tan dec| <= 600; C41_pole_excluded shows that the condition is needed"
  },
  {
   "property": "C42",
   "status": "proved",
   "theorems": [
    "SatSky.Props.C42_nest",
    "SatSky.Props.C42_nest64"
   ],
   "note": "32 bit version for nside = 2^k, k \u2264 13, 64 bit version for k \u2264 29; build without BMI2."
  },
  {
   "property": "C43",
   "status": "partial",
   "theorems": [
    "SatSky.Props.C43_inverse_partial",
    "SatSky.Props.C43_inverse64_partial",
    "SatSky.Props.C43_other_nside",
    "SatSky.Props.C43_zero_violated",
    "SatSky.Props.C43_size_violated"
   ],
   "note": "Proved for nside = 2^k, k \u2264 13 (32 bit) and k \u2264 29 (64 bit), -1 for every other nside except 0. Violated: nside = 0 divides by zero, the 32 bit version accepts 16384 and overflows."
  },
  {
   "property": "C44",
   "status": "proved",
   "theorems": [
    "SatSky.Props.C44_nest",
    "SatSky.Props.C44_nest64",
    "SatSky.Props.C44_ring",
    "SatSky.Props.C44_ring64",
    "SatSky.Props.C44_printed",
    "SatSky.Props.C44_refused"
   ],
   "note": "Exact arithmetic; 32 bit nside up to 8192 and 64 bit up to 2^29, both numberings; other colatitudes are refused. Rounding: C67."
  },
  {
   "property": "C45",
   "status": "proved",
   "theorems": [
    "SatSky.Props.C45_ring",
    "SatSky.Props.C45_ring64",
    "SatSky.Props.C45_nest",
    "SatSky.Props.C45_nest64"
   ],
   "note": "Exact arithmetic; both numberings, 32 and 64 bit."
  },
  {
   "property": "C46",
   "status": "partial",
   "theorems": [
    "SatSky.Props.C46_roundtrip_partial",
    "SatSky.Props.C46_roundtrip64_partial",
    "SatSky.Props.C46_powers",
    "SatSky.Props.C46_exact_partial",
    "SatSky.Props.C46_defined_partial",
    "SatSky.Props.C46_defined64",
    "SatSky.Props.C46_roundtrip_violated",
    "SatSky.Props.C46_roundtrip64_violated",
    "SatSky.Props.C46_negative_violated"
   ],
   "note": "Round trip proved for nside \u2264 46340 (long), \u2264 27397079 and all powers of two up to 2^29 (64 bit); a result other than -1 is exact. Violated: nside 65536 (long, quotient cut to int), nside 134626353 (64 bit, division in double), negative counts."
  },
  {
   "property": "C47",
   "status": "partial",
   "theorems": [
    "SatSky.Props.C47_types_partial",
    "SatSky.Props.C47_high_violated",
    "SatSky.Props.C47_rejected_violated"
   ],
   "note": "Types '2'-'5' and the domain check: C47_types_partial; the period: C89. Violated: state vectors are marked 'H' by the reader while select_ephemeris tests 'h', so SGP4 can be chosen (C47_high_violated); rejected elements are propagated with SDP4 (C47_rejected_violated)."
  },
  {
   "property": "C48",
   "status": "partial",
   "theorems": [
    "SatSky.Props.C48_reported_violated",
    "SatSky.Props.C48_codes_partial",
    "SatSky.Props.C48_within_violated"
   ],
   "note": "Codes of sxpx_posn_vel are truthful and errors give zero vectors. Violated: -3 is never returned (C48_within_violated); sat_skymap ignores the code and reports a failed satellite at the centre of the Earth (C48_reported_violated). The early return of SDP4 is in C143."
  },
  {
   "property": "C49",
   "status": "proved",
   "theorems": [
    "SatSky.Props.C49_residual"
   ],
   "note": "exact reals; the number of passes is the fuel of the loop"
  },
  {
   "property": "C50",
   "status": "partial",
   "theorems": [
    "SatSky.Props.C50_default_partial",
    "SatSky.Props.C50_bound_partial",
    "SatSky.Props.C50_default_violated"
   ],
   "note": "violated in the default mode, which the programs use: C50_default_violated (a satellite and two times less than 30 minutes apart for which the perturbed eccentricity of the second call is that of the first). Proved: for orbits without resonance the answer is that of the secular elements of t with the periodic terms of a time less than 30 minutes away (C50_default_partial), and how much those terms can differ (C50_bound_partial). The Dundee mode is C103. exact reals"
  },
  {
   "property": "C51",
   "status": "proved",
   "theorems": [
    "SatSky.Props.C51_array",
    "SatSky.Props.C51_terminates",
    "SatSky.Props.C51_order_excluded",
    "SatSky.Props.C51_step_excluded"
   ],
   "note": "orders above 20 and steps that are not positive, which the interface accepts but the programs never set, are shown to fail (C51_order_excluded, C51_step_excluded). exact reals"
  },
  {
   "property": "C52",
   "status": "proved",
   "theorems": [
    "SatSky.Props.C52_cached",
    "SatSky.Props.C52_start",
    "SatSky.Props.C52_zero_excluded",
    "SatSky.Props.C52_history"
   ],
   "note": "exact reals. C52_cached: any sequence of calls of cached_lunar_solar_position; C52_history: the results for 'H' elements do not depend on earlier calls. C52_zero_excluded: a first call for Julian date 0 returns zeros"
  },
  {
   "property": "C53",
   "status": "proved",
   "theorems": [
    "SatSky.Props.C53_steps",
    "SatSky.Props.C53_double",
    "SatSky.Props.C53_endless_excluded"
   ],
   "note": "C53_steps: exact reals, all t; C53_double: the loop in double arithmetic up to 2^53 days; C53_endless_excluded: from 2^53 + 4 days the loop does not end"
  },
  {
   "property": "C54",
   "status": "proved",
   "theorems": [
    "SatSky.Props.C54_cached",
    "SatSky.Props.C54_start",
    "SatSky.Props.C54_zero_excluded"
   ],
   "note": "exact reals; dates within 1000 years of 2000. C54_cached covers any history of calls and also bounds the error of each returned quantity; C54_zero_excluded: a first call for a date within 0.01 day of Julian date 0 returns the zeros of the initial state"
  },
  {
   "property": "C55",
   "status": "proved",
   "theorems": [
    "SatSky.Props.C55_entries",
    "SatSky.Props.C55_series",
    "SatSky.Props.C55_arguments",
    "SatSky.Props.C55_nutation"
   ],
   "note": "exact reals. C55_entries: every index of the table program is in range and refers to an entry already computed; C55_series: the sums are the 106-term series of IAU 1980 for any arguments; C55_arguments, C55_nutation: with the program's own arguments within 1e-9 arcseconds for 1000 years around 2000"
  },
  {
   "property": "C56",
   "status": "proved",
   "theorems": [
    "SatSky.Props.C56_first",
    "SatSky.Props.C56_skipped",
    "SatSky.Props.C56_mjd"
   ],
   "note": "C56_first (search), C56_skipped (-N), C56_mjd (printed time; ordinary dates). Propagation and geometry are an arbitrary function of the instant; the ends of the search are C60"
  },
  {
   "property": "C57",
   "status": "partial",
   "theorems": [
    "SatSky.Props.C57_contiguous_partial",
    "SatSky.Props.C57_end_violated"
   ],
   "note": "C57_contiguous_partial: all samples before the reported end are visible; C57_end_violated: the sample reported as the end is the first one no longer visible (C120 says exactly what is reported)"
  },
  {
   "property": "C58",
   "status": "proved",
   "theorems": [
    "SatSky.Props.C58_least"
   ],
   "note": "over the visible samples of the pass"
  },
  {
   "property": "C59",
   "status": "partial",
   "theorems": [
    "SatSky.Props.C59_order_partial",
    "SatSky.Props.C59_duration_partial",
    "SatSky.Props.C59_negative_violated",
    "SatSky.Props.C59_short_violated"
   ],
   "note": "C59_order_partial, C59_duration_partial (right when the pass ends in the shadow); C59_short_violated: one step too short when the satellite leaves the field or the range ends; C59_negative_violated: negative for a pass of one sample at the end of the range"
  },
  {
   "property": "C60",
   "status": "partial",
   "theorems": [
    "SatSky.Props.C60_positive_partial",
    "SatSky.Props.C60_zero_violated"
   ],
   "note": "C60_positive_partial: steps of at least 1 s, every range up to JD 2^30; C60_zero_violated: step 0 (-t 0, -t 0.5) never ends"
  },
  {
   "property": "C61",
   "status": "partial",
   "theorems": [
    "SatSky.Props.C61_dates_partial",
    "SatSky.Props.C61_mjds_partial",
    "SatSky.Props.C61_fraction_violated",
    "SatSky.Props.C61_negative_violated",
    "SatSky.Props.C61_ignored_violated"
   ],
   "note": "C61_dates_partial: two dates YYYY-MM-DDThh:mm:ss set both ends, whatever else is on the command line; C61_mjds_partial: two MJDs without minus sign; C61_fraction_violated: with fractions of seconds the second date is not read; C61_negative_violated: a minus sign in -j prints the usage; C61_ignored_violated: -j after -d wins"
  },
  {
   "property": "C62",
   "status": "partial",
   "theorems": [
    "SatSky.Props.C62_first_partial",
    "SatSky.Props.C62_alpha5_violated",
    "SatSky.Props.C62_pieces_violated"
   ],
   "note": "C62_first_partial: over files of records, the record analysed is the first one for which the comparison of the code succeeds, else status 1; C129 says when that comparison is equality; C62_alpha5_violated: a number above 99999 is never found and -s 0 selects such a record; C62_pieces_violated: -i 2019-006D selects 2019-006DE, and -i 2019-006DE finds nothing"
  },
  {
   "property": "C63",
   "status": "partial",
   "theorems": [
    "SatSky.Props.C63_nondigit_check_accepted_violated",
    "SatSky.Props.C63_digit_check_partial"
   ],
   "note": "Violated: the check column is not tested to be a digit (witness with 'B'). Proved when it is a digit."
  },
  {
   "property": "C64",
   "status": "partial",
   "theorems": [
    "SatSky.Props.C64_angle_unterminated_violated",
    "SatSky.Props.C64_sci_bad_exponent_violated",
    "SatSky.Props.C64_standard_layout_safe_partial",
    "SatSky.Props.C64_bad_exponent_violated",
    "SatSky.Props.C64_angle_runs_on_violated"
   ],
   "note": "Violated: witnesses with valid checksums where sci() runs away and get_angle() overflows. Proved safe for the standard layout."
  },
  {
   "property": "C65",
   "status": "partial",
   "theorems": [
    "SatSky.Props.C65_classification_partial",
    "SatSky.Props.C65_classification_digit_violated"
   ],
   "note": "Violated for a digit in the classification column (witness); proved otherwise."
  },
  {
   "property": "C66",
   "status": "proved",
   "theorems": [
    "SatSky.Props.C66_single_file",
    "SatSky.Props.C66_list_files"
   ],
   "note": "Non-interference for single files and lists, for all runs."
  },
  {
   "property": "C67",
   "status": "partial",
   "theorems": [
    "SatSky.Props.C67_nest_violated",
    "SatSky.Props.C67_ring_violated",
    "SatSky.Props.C67_nest_partial",
    "SatSky.Props.C67_ring_partial"
   ],
   "note": "Violated: nside 256, z=-0.6666666666666661, phi=6.283185307179585 gives 830122 (C67_nest_violated); RING at nside 2 gives -1 (C67_ring_violated). Proved for NESTED outside the last 2^-40 quarter turns of the belt (C67_nest_partial) and for RING in every direction for nside 4 to 8192 (C67_ring_partial)."
  },
  {
   "property": "C68",
   "status": "proved",
   "theorems": [
    "SatSky.Props.C68_ring",
    "SatSky.Props.C68_ring64",
    "SatSky.Props.C68_all",
    "SatSky.Props.C68_same",
    "SatSky.Props.C68_same64"
   ],
   "note": "Exact arithmetic; all rings, both numberings, 32 and 64 bit."
  },
  {
   "property": "C69",
   "status": "proved",
   "theorems": [
    "SatSky.Props.C69_flat_is_safe",
    "SatSky.Props.C69_selected_within",
    "SatSky.Props.C69_not_complete"
   ],
   "note": "all reals; the converse fails (C69_not_complete)"
  },
  {
   "property": "C70",
   "status": "partial",
   "theorems": [
    "SatSky.Props.C70_equator_partial",
    "SatSky.Props.C70_overhead_violated",
    "SatSky.Props.C70_geo_violated",
    "SatSky.Props.C70_geo_partial"
   ],
   "note": "violated: degrees are subtracted from radians (witness C70_overhead_violated); holds on the equator only (C70_equator_partial)"
  },
  {
   "property": "C71",
   "status": "partial",
   "theorems": [
    "SatSky.Props.C71_violated",
    "SatSky.Props.C71_partial"
   ],
   "note": "violated at the upper end: -2^-60 gives twopi itself; closed interval and error bound proved"
  },
  {
   "property": "C72",
   "status": "proved",
   "theorems": [
    "SatSky.Props.C72_sun_direction",
    "SatSky.Props.C72_sun_vector",
    "SatSky.Props.C72_sun_dec"
   ],
   "note": "exact reals; C72_sun_dec for obliquities in [0, pi/2]"
  },
  {
   "property": "C73",
   "status": "proved",
   "theorems": [
    "SatSky.Props.C73_ellipsoid",
    "SatSky.Props.C73_observer"
   ],
   "note": "exact reals, |lat| < 90 degrees"
  },
  {
   "property": "C74",
   "status": "partial",
   "theorems": [
    "SatSky.Props.C74_partial",
    "SatSky.Props.C74_violated"
   ],
   "note": "violated before 22 September 1999 (witness: 20 September 1999 0h); at most 24 always, not negative after"
  },
  {
   "property": "C75",
   "status": "proved",
   "theorems": [
    "SatSky.Props.C75_agree"
   ],
   "note": "exact reals, Julian dates from 0"
  },
  {
   "property": "C76",
   "status": "partial",
   "theorems": [
    "SatSky.Props.C76_partial",
    "SatSky.Props.C76_meridian_violated"
   ],
   "note": "general case; violated on the meridian south of the zenith (witness)"
  },
  {
   "property": "C77",
   "status": "proved",
   "theorems": [
    "SatSky.Props.C77_ends"
   ],
   "note": "contraction with factor 1/2; exact reals"
  },
  {
   "property": "C78",
   "status": "proved",
   "theorems": [
    "SatSky.Props.C78_geodetic",
    "SatSky.Props.C78_axis_excluded"
   ],
   "note": "positions not on the axis; C78_axis_excluded: on the axis the altitude is below -6000 km"
  },
  {
   "property": "C79",
   "status": "partial",
   "theorems": [
    "SatSky.Props.C79_partial",
    "SatSky.Props.C79_violated"
   ],
   "note": "violated: the test uses the position at the second epoch (witness: half an orbit later); what holds is the statement for that epoch"
  },
  {
   "property": "C80",
   "status": "proved",
   "theorems": [
    "SatSky.Props.C80_exact",
    "SatSky.Props.C80_flat",
    "SatSky.Props.C80_globe"
   ],
   "note": "for arbitrary propagators; exact reals; the Sun is not at the satellite"
  },
  {
   "property": "C81",
   "status": "partial",
   "theorems": [
    "SatSky.Props.C81_partial",
    "SatSky.Props.C81_violated"
   ],
   "note": "violated for motion to the west across right ascension 0 (witness); proved otherwise"
  },
  {
   "property": "C82",
   "status": "partial",
   "theorems": [
    "SatSky.Props.C82_partial",
    "SatSky.Props.C82_violated"
   ],
   "note": "violated near the poles (witness: the program ends in an assertion); proved for declinations 0.0098 rad per century away"
  },
  {
   "property": "C83",
   "status": "proved",
   "theorems": [
    "SatSky.Props.C83_sun_longitude"
   ],
   "note": "exact reals"
  },
  {
   "property": "C84",
   "status": "partial",
   "theorems": [
    "SatSky.Props.C84_partial",
    "SatSky.Props.C84_violated"
   ],
   "note": "violated for negative steps; proved for positive ones"
  },
  {
   "property": "C85",
   "status": "proved",
   "theorems": [
    "SatSky.Props.C85_coordinates"
   ],
   "note": "exact reals"
  },
  {
   "property": "C86",
   "status": "proved",
   "theorems": [
    "SatSky.Props.C86_location_requested"
   ],
   "note": "for all argument lists"
  },
  {
   "property": "C87",
   "status": "proved",
   "theorems": [
    "SatSky.Props.C87_accepted_in_range"
   ],
   "note": "for all argument lists; the longitude is not limited (example), right ascension 360 is accepted"
  },
  {
   "property": "C88",
   "status": "partial",
   "theorems": [
    "SatSky.Props.C88_counts_partial",
    "SatSky.Props.C88_filtered_violated"
   ],
   "note": "The answer lists satellites once each; n_sats_found and n_sunlit_sats are right on every exit of the reading loop, n_sats is right when the run completes without -s/-i. Violated: with -s and -V for a satellite in shadow nothing is listed, n_sats_found is 0 and n_sats 1 (C88_filtered_violated)."
  },
  {
   "property": "C89",
   "status": "proved",
   "theorems": [
    "SatSky.Props.C89_period",
    "SatSky.Props.C89_band"
   ],
   "note": "exact reals"
  },
  {
   "property": "C90",
   "status": "proved",
   "theorems": [
    "SatSky.Props.C90_third_law"
   ],
   "note": "exact reals"
  },
  {
   "property": "C91",
   "status": "proved",
   "theorems": [
    "SatSky.Props.C91_root",
    "SatSky.Props.C91_accepted"
   ],
   "note": "exact reals"
  },
  {
   "property": "C92",
   "status": "proved",
   "theorems": [
    "SatSky.Props.C92_converges",
    "SatSky.Props.C92_code"
   ],
   "note": "exact reals"
  },
  {
   "property": "C93",
   "status": "proved",
   "theorems": [
    "SatSky.Props.C93_ellipse",
    "SatSky.Props.C93_velocity"
   ],
   "note": "exact reals"
  },
  {
   "property": "C94",
   "status": "proved",
   "theorems": [
    "SatSky.Props.C94_plane"
   ],
   "note": "exact reals"
  },
  {
   "property": "C95",
   "status": "proved",
   "theorems": [
    "SatSky.Props.C95_epoch"
   ],
   "note": "exact reals"
  },
  {
   "property": "C96",
   "status": "proved",
   "theorems": [
    "SatSky.Props.C96_density"
   ],
   "note": "exact reals; the constants are those of the source"
  },
  {
   "property": "C97",
   "status": "proved",
   "theorems": [
    "SatSky.Props.C97_turns"
   ],
   "note": "exact reals"
  },
  {
   "property": "C98",
   "status": "proved",
   "theorems": [
    "SatSky.Props.C98_outside"
   ],
   "note": "exact reals"
  },
  {
   "property": "C99",
   "status": "proved",
   "theorems": [
    "SatSky.Props.C99_derivatives",
    "SatSky.Props.C99_step",
    "SatSky.Props.C99_second_order"
   ],
   "note": "exact reals; for 12-hour orbits the argument of perigee is held during the step, as the code does"
  },
  {
   "property": "C100",
   "status": "proved",
   "theorems": [
    "SatSky.Props.C100_full",
    "SatSky.Props.C100_half",
    "SatSky.Props.C100_comment_excluded"
   ],
   "note": "the angles are those of Spacetrack Report 3; the comment's 0.1313091 is rounded (C100_comment_excluded)"
  },
  {
   "property": "C101",
   "status": "proved",
   "theorems": [
    "SatSky.Props.C101_epoch"
   ],
   "note": "exact reals"
  },
  {
   "property": "C102",
   "status": "proved",
   "theorems": [
    "SatSky.Props.C102_secular"
   ],
   "note": "exact reals"
  },
  {
   "property": "C103",
   "status": "proved",
   "theorems": [
    "SatSky.Props.C103_dundee"
   ],
   "note": "exact reals; in floating point the equality of a step of zero length with the value kept holds as well, but that of atime = k*step with repeated additions only for steps that are exact"
  },
  {
   "property": "C104",
   "status": "proved",
   "theorems": [
    "SatSky.Props.C104_secular",
    "SatSky.Props.C104_small_excluded",
    "SatSky.Props.C104_strength"
   ],
   "note": "exact reals. Below 3 degrees the program leaves out the motion of the node (C104_small_excluded). The sense of the strengths is C104_strength"
  },
  {
   "property": "C105",
   "status": "proved",
   "theorems": [
    "SatSky.Props.C105_periodic"
   ],
   "note": "exact reals. The program neglects the eccentricity of the body's orbit except in the isotropic part and in the equation of the centre; the theorem says which derivative the terms have, not that this is all of the perturbation"
  },
  {
   "property": "C106",
   "status": "proved",
   "theorems": [
    "SatSky.Props.C106_sun",
    "SatSky.Props.C106_moon",
    "SatSky.Props.C106_elements",
    "SatSky.Props.C106_anomaly"
   ],
   "note": "exact reals; tolerance 1e-5 (1e-7 for the Sun). The mean motion of the Sun per minute has six digits only, whence the tolerance 2e-7 per day in C106_anomaly"
  },
  {
   "property": "C107",
   "status": "proved",
   "theorems": [
    "SatSky.Props.C107_round",
    "SatSky.Props.C107_program",
    "SatSky.Props.C107_circular"
   ],
   "note": "exact reals; mean eccentricity zero with the long-period terms of the third harmonic left out (C107_circular uses posVelOf with axn = ayn = 0). C107_program: the program uses these functions with its own coefficients"
  },
  {
   "property": "C108",
   "status": "proved",
   "theorems": [
    "SatSky.Props.C108_zonal",
    "SatSky.Props.C108_program"
   ],
   "note": "exact reals; the linear part in the coefficients. The terms in the square of the coefficient of the second harmonic are not covered"
  },
  {
   "property": "C109",
   "status": "proved",
   "theorems": [
    "SatSky.Props.C109_decay",
    "SatSky.Props.C109_low",
    "SatSky.Props.C109_decayed"
   ],
   "note": "exact reals; what c1 itself stands for is C135"
  },
  {
   "property": "C110",
   "status": "proved",
   "theorems": [
    "SatSky.Props.C110_along",
    "SatSky.Props.C110_low",
    "SatSky.Props.C110_node"
   ],
   "note": "exact reals; the node for e = 0 only (the factor betao2 of xnodcf is exact there)"
  },
  {
   "property": "C111",
   "status": "proved",
   "theorems": [
    "SatSky.Props.C111_direct",
    "SatSky.Props.C111_turn"
   ],
   "note": "exact reals; first order in the terms. The terms themselves are C104, C105"
  },
  {
   "property": "C112",
   "status": "partial",
   "theorems": [
    "SatSky.Props.C112_lyddane_partial",
    "SatSky.Props.C112_along_violated",
    "SatSky.Props.C112_turn_violated",
    "SatSky.Props.C112_equator_violated"
   ],
   "note": "C112_lyddane_partial: the displacement across is right, the one along the orbit has the extra term -xnode sin(i) pinc. C112_along_violated, C112_turn_violated (a whole turn of the node changes the position), C112_equator_violated (inclination zero: division by zero)"
  },
  {
   "property": "C113",
   "status": "proved",
   "theorems": [
    "SatSky.Props.C113_same",
    "SatSky.Props.C113_range",
    "SatSky.Props.C113_sidereal",
    "SatSky.Props.C113_reported"
   ],
   "note": "exact reals; the reduction of the angle is exact"
  },
  {
   "property": "C114",
   "status": "proved",
   "theorems": [
    "SatSky.Props.C114_zenith",
    "SatSky.Props.C114_apparent"
   ],
   "note": "exact reals, the two constants with suffix F are the float values"
  },
  {
   "property": "C115",
   "status": "partial",
   "theorems": [
    "SatSky.Props.C115_gmst_partial",
    "SatSky.Props.C115_float_violated"
   ],
   "note": "C115_gmst_partial: within 3 arcseconds. C115_float_violated: more than one arcsecond in 2050, as 8640184.7942063F is 8640185"
  },
  {
   "property": "C116",
   "status": "proved",
   "theorems": [
    "SatSky.Props.C116_latitude",
    "SatSky.Props.C116_longitude",
    "SatSky.Props.C116_sun"
   ],
   "note": "exact reals; only the terms the program has, the neglected ones are not bounded for the Moon; precession from 2000 to the date is neglected by the program"
  },
  {
   "property": "C117",
   "status": "partial",
   "theorems": [
    "SatSky.Props.C117_distance_partial",
    "SatSky.Props.C117_distance_violated"
   ],
   "note": "C117_distance_partial: within 1140 km; C117_distance_violated: the fourth term has the anomaly of the Sun (cos 2 m_solar) instead of that of the Moon, up to 1100 km wrong"
  },
  {
   "property": "C118",
   "status": "proved",
   "theorems": [
    "SatSky.Props.C118_epoch"
   ],
   "note": "exact reals; the obliquity constants satisfy sin^2 + cos^2 = 1 to 39 digits"
  },
  {
   "property": "C119",
   "status": "proved",
   "theorems": [
    "SatSky.Props.C119_law",
    "SatSky.Props.C119_order",
    "SatSky.Props.C119_exists"
   ],
   "note": "exact reals; local error of one step (C119_order), existence of the motion compared with (C119_exists). The error after steps of a whole day is not bounded in metres"
  },
  {
   "property": "C120",
   "status": "proved",
   "theorems": [
    "SatSky.Props.C120_interval"
   ],
   "note": "any rounding of times"
  },
  {
   "property": "C121",
   "status": "proved",
   "theorems": [
    "SatSky.Props.C121_date"
   ],
   "note": "rounded times; before the rounding to seconds of mjd2date"
  },
  {
   "property": "C122",
   "status": "partial",
   "theorems": [
    "SatSky.Props.C122_mjd_partial",
    "SatSky.Props.C122_same_violated",
    "SatSky.Props.C122_max_violated"
   ],
   "note": "C122_mjd_partial: start and end; C122_same_violated: mid and max always print the MJD of the end; C122_max_violated: concrete pass"
  },
  {
   "property": "C123",
   "status": "partial",
   "theorems": [
    "SatSky.Props.C123_sun_partial",
    "SatSky.Props.C123_sun_violated"
   ],
   "note": "C123_sun_partial: all groups except the end of a pass that leaves the field; C123_sun_violated: there the Sun is one step older"
  },
  {
   "property": "C124",
   "status": "partial",
   "theorems": [
    "SatSky.Props.C124_mid_partial",
    "SatSky.Props.C124_late_violated"
   ],
   "note": "C124_mid_partial: between the middle and one step later; C124_late_violated: after the reported end for a pass of one sample"
  },
  {
   "property": "C125",
   "status": "partial",
   "theorems": [
    "SatSky.Props.C125_start_partial",
    "SatSky.Props.C125_same_violated",
    "SatSky.Props.C125_max_violated"
   ],
   "note": "C125_start_partial: the start group; C125_same_violated: the three other groups repeat direction and speed of the start; C125_max_violated: concrete pass"
  },
  {
   "property": "C126",
   "status": "partial",
   "theorems": [
    "SatSky.Props.C126_once_partial",
    "SatSky.Props.C126_twice_violated"
   ],
   "note": "C126_once_partial: all groups except the end group of a pass of one sample at the end of the range; C126_twice_violated: there the coordinates are converted twice"
  },
  {
   "property": "C127",
   "status": "proved",
   "theorems": [
    "SatSky.Props.C127_accepted_in_range"
   ],
   "note": "any library functions for reading numbers"
  },
  {
   "property": "C128",
   "status": "proved",
   "theorems": [
    "SatSky.Props.C128_any_order",
    "SatSky.Props.C128_pairs_excluded"
   ],
   "note": "C128_any_order; C128_pairs_excluded: the excluded pairs do not commute"
  },
  {
   "property": "C129",
   "status": "proved",
   "theorems": [
    "SatSky.Props.C129_number",
    "SatSky.Props.C129_designator"
   ],
   "note": "C129_number, C129_designator"
  },
  {
   "property": "C130",
   "status": "proved",
   "theorems": [
    "SatSky.Props.C130_named",
    "SatSky.Props.C130_both_excluded",
    "SatSky.Props.C130_pieces_excluded"
   ],
   "note": "C130_named; C130_both_excluded: with both -s and -i the designator is printed as none; C130_pieces_excluded: two-letter pieces are cut"
  },
  {
   "property": "C131",
   "status": "partial",
   "theorems": [
    "SatSky.Props.C131_json_partial",
    "SatSky.Props.C131_no_args_violated",
    "SatSky.Props.C131_altitude_violated"
   ],
   "note": "C131_json_partial: for printable arguments and files, unless the altitude filter ends the program during a pass; C131_no_args_violated: newline inside a string; C131_altitude_violated: the object of the satellite is left open"
  },
  {
   "property": "C132",
   "status": "proved",
   "theorems": [
    "SatSky.Props.C132_status_cause"
   ],
   "note": "C132_status_cause"
  },
  {
   "property": "C133",
   "status": "partial",
   "theorems": [
    "SatSky.Props.C133_declination_partial",
    "SatSky.Props.C133_region_violated"
   ],
   "note": "C133_declination_partial: declination (= latitude) and radius are right; C133_region_violated: ra, lmst and gmst are always printed as 0"
  },
  {
   "property": "C134",
   "status": "partial",
   "theorems": [
    "SatSky.Props.C134_exit_partial",
    "SatSky.Props.C134_no_args_violated",
    "SatSky.Props.C134_altitude_violated"
   ],
   "note": "C134_exit_partial: equal except in two cases; C134_no_args_violated: status 1, exit code 0; C134_altitude_violated: status 2, exit code 1"
  },
  {
   "property": "C135",
   "status": "proved",
   "theorems": [
    "SatSky.Props.C135_axis",
    "SatSky.Props.C135_eccentricity",
    "SatSky.Props.C135_program"
   ],
   "note": "exact reals; C135_axis, C135_eccentricity, C135_program; the bounded term of the eccentricity (c5) is not compared with theory"
  },
  {
   "property": "C136",
   "status": "proved",
   "theorems": [
    "SatSky.Props.C136_flattening"
   ],
   "note": "exact reals; the corresponding part of C4 is not covered"
  },
  {
   "property": "C137",
   "status": "proved",
   "theorems": [
    "SatSky.Props.C137_longitude",
    "SatSky.Props.C137_motion",
    "SatSky.Props.C137_axis",
    "SatSky.Props.C137_perigee",
    "SatSky.Props.C137_round",
    "SatSky.Props.C137_epoch",
    "SatSky.Props.C137_circular_excluded"
   ],
   "note": "exact reals; C137_circular_excluded: an eccentricity of zero becomes 10^-6"
  },
  {
   "property": "C138",
   "status": "partial",
   "theorems": [
    "SatSky.Props.C138_codes",
    "SatSky.Props.C138_perigee_violated"
   ],
   "note": "exact reals; C138_codes proves -2 and what -4 stands for: the axis itself (the eccentricity 10^-6 is used), and that -1 and -3 are never returned; C138_perigee_violated: an orbit with its perigee at 0.4 Earth radii gets 0"
  },
  {
   "property": "C139",
   "status": "partial",
   "theorems": [
    "SatSky.Props.C139_residual",
    "SatSky.Props.C139_converges",
    "SatSky.Props.C139_unchecked_violated"
   ],
   "note": "exact reals; C139_residual and C139_converges; C139_unchecked_violated: with eccentricity 1 - 10^-9 and mean anomaly 2 10^-9 the eleven passes do not suffice and the residual is above 10^-7, without any report"
  },
  {
   "property": "C140",
   "status": "proved",
   "theorems": [
    "SatSky.Props.C140_vectors"
   ],
   "note": "exact reals; for the longitude actually used"
  },
  {
   "property": "C141",
   "status": "proved",
   "theorems": [
    "SatSky.Props.C141_expansion",
    "SatSky.Props.C141_half",
    "SatSky.Props.C141_full"
   ],
   "note": "exact reals; C141_expansion, C141_half, C141_full; the list of seven harmonics is the one of the program"
  },
  {
   "property": "C142",
   "status": "proved",
   "theorems": [
    "SatSky.Props.C142_mean",
    "SatSky.Props.C142_half",
    "SatSky.Props.C142_kept",
    "SatSky.Props.C142_full",
    "SatSky.Props.C142_synchronous"
   ],
   "note": "exact reals; C142_half and C142_full hold for whatever functions of inclination and eccentricity the coefficients are made of, C142_mean and C142_kept say which ones belong there and which terms are left out; how well the cubic fits for 12-hour orbits approximate Hansen's coefficients is not claimed"
  },
  {
   "property": "C143",
   "status": "proved",
   "theorems": [
    "SatSky.Props.C143_early",
    "SatSky.Props.C143_nonresonant",
    "SatSky.Props.C143_slow",
    "SatSky.Props.C143_half",
    "SatSky.Props.C143_full"
   ],
   "note": "exact reals; C143_early, C143_nonresonant, C143_half, C143_full (and C143_slow for any bounds of the acceleration). The uninitialised output matters because the programs do not look at the return code"
  },
  {
   "property": "C144",
   "status": "proved",
   "theorems": [
    "SatSky.Props.C144_no_unload",
    "SatSky.Props.C144_same",
    "SatSky.Props.C144_index_excluded"
   ],
   "note": "C144_no_unload, C144_same; the index of the propagator is not checked by the code (C144_index_excluded); the program is taken to be the only user of the library"
  },
  {
   "property": "C145",
   "status": "partial",
   "theorems": [
    "SatSky.Props.C145_moved_violated",
    "SatSky.Props.C145_gone_violated",
    "SatSky.Props.C145_late_violated",
    "SatSky.Props.C145_ambiguous_violated",
    "SatSky.Props.C145_init_partial"
   ],
   "note": "Violated: SXPX keeps its pointers and calls them after the library moved (C145_moved_violated); SXPX_init calls the old pointer when the library is gone (C145_gone_violated); a propagator asked for while the library was missing stays missing (C145_late_violated); -1 and -2 are also codes of the propagators (C145_ambiguous_violated). Proved: initialisation and version when the library can always be loaded (C145_init_partial)."
  },
  {
   "property": "C146",
   "status": "proved",
   "theorems": [
    "SatSky.Props.C146_second",
    "SatSky.Props.C146_third",
    "SatSky.Props.C146_exists"
   ],
   "note": "C146_second, C146_third, C146_exists"
  },
  {
   "property": "C147",
   "status": "proved",
   "theorems": [
    "SatSky.Props.C147_derivatives",
    "SatSky.Props.C147_integral",
    "SatSky.Props.C147_simple"
   ],
   "note": "C147_derivatives, C147_integral, C147_simple"
  },
  {
   "property": "C148",
   "status": "proved",
   "theorems": [
    "SatSky.Props.C148_rates",
    "SatSky.Props.C148_drag"
   ],
   "note": "C148_rates, C148_drag"
  },
  {
   "property": "C149",
   "status": "partial",
   "theorems": [
    "SatSky.Props.C149_circular_violated",
    "SatSky.Props.C149_weak_violated",
    "SatSky.Props.C149_after",
    "SatSky.Props.C149_position_partial"
   ],
   "note": "Violated: on a circular orbit with strong drag SGP8_init divides by eta^2 = 0 (C149_circular_violated); with weak drag the eccentricity leaves the range of an ellipse (C149_weak_violated); the fitted law ends at 1/gamma (C149_after). Proved: a position for eccentricities up to 9/10, perigee outside the Earth and inclinations up to 175 degrees (C149_position_partial)."
  },
  {
   "property": "C150",
   "status": "proved",
   "theorems": [
    "SatSky.Props.C150_kepler",
    "SatSky.Props.C150_kepler_eccentric",
    "SatSky.Props.C150_same_half"
   ],
   "note": "C150_kepler (1.5e-6 up to eccentricity 1/2), C150_kepler_eccentric, C150_same_half"
  },
  {
   "property": "C151",
   "status": "proved",
   "theorems": [
    "SatSky.Props.C151_orientation",
    "SatSky.Props.C151_frame",
    "SatSky.Props.C151_lengths"
   ],
   "note": "C151_orientation, C151_frame, C151_lengths"
  },
  {
   "property": "C152",
   "status": "proved",
   "theorems": [
    "SatSky.Props.C152_motion",
    "SatSky.Props.C152_eccentricity",
    "SatSky.Props.C152_lift",
    "SatSky.Props.C152_field_motion",
    "SatSky.Props.C152_field_eccentricity",
    "SatSky.Props.C152_height"
   ],
   "note": "C152_motion, C152_eccentricity, C152_lift, C152_height, C152_field_motion, C152_field_eccentricity"
  },
  {
   "property": "C153",
   "status": "partial",
   "theorems": [
    "SatSky.Props.C153_factor_partial",
    "SatSky.Props.C153_order_violated"
   ],
   "note": "Violated: C153_order_violated (a factor 1 + e^2 is missing). Proved: with the factor the rate is complete (C153_factor_partial)."
  },
  {
   "property": "C154",
   "status": "partial",
   "theorems": [
    "SatSky.Props.C154_sgp8_partial",
    "SatSky.Props.C154_sgp4",
    "SatSky.Props.C154_sgp4_violated"
   ],
   "note": "Violated by SGP4: C154_sgp4, C154_sgp4_violated. SGP8 has only the term of the third harmonic (C154_sgp8_partial)."
  },
  {
   "property": "C155",
   "status": "proved",
   "theorems": [
    "SatSky.Props.C155_ellipse",
    "SatSky.Props.C155_kepler"
   ],
   "note": "C155_ellipse, C155_kepler"
  },
  {
   "property": "C156",
   "status": "proved",
   "theorems": [
    "SatSky.Props.C156_flattening",
    "SatSky.Props.C156_program",
    "SatSky.Props.C156_third",
    "SatSky.Props.C156_third_program"
   ],
   "note": "C156_flattening, C156_program, C156_third, C156_third_program"
  },
  {
   "property": "C157",
   "status": "proved",
   "theorems": [
    "SatSky.Props.C157_elements",
    "SatSky.Props.C157_epoch",
    "SatSky.Props.C157_calls"
   ],
   "note": "C157_elements, C157_epoch, C157_calls"
  },
  {
   "property": "C158",
   "status": "proved",
   "theorems": [
    "SatSky.Props.C158_ellipse",
    "SatSky.Props.C158_same"
   ],
   "note": "C158_ellipse, C158_same"
  },
  {
   "property": "C159",
   "status": "partial",
   "theorems": [
    "SatSky.Props.C159_motion",
    "SatSky.Props.C159_far",
    "SatSky.Props.C159_code_violated",
    "SatSky.Props.C159_position_partial"
   ],
   "note": "Violated: for every orbit without resonance whose eccentricity has a rate there is no position from some time on, with code 0 (C159_far, C159_code_violated), nor when the mean motion is used up (C159_motion). Proved: a position for eccentricities up to 9/10, perigee outside the Earth and inclinations up to 172 degrees (C159_position_partial)."
  },
  {
   "property": "C160",
   "status": "proved",
   "theorems": [
    "SatSky.Props.C160_generator",
    "SatSky.Props.C160_position",
    "SatSky.Props.C160_constants",
    "SatSky.Props.C160_deep"
   ],
   "note": "C160_generator, C160_constants, C160_position, C160_deep"
  },
  {
   "property": "C161",
   "status": "proved",
   "theorems": [
    "SatSky.Props.C161_leading",
    "SatSky.Props.C161_program",
    "SatSky.Props.C161_sgp",
    "SatSky.Props.C161_plane"
   ],
   "note": "C161_leading, C161_program, C161_sgp, C161_plane"
  },
  {
   "property": "C162",
   "status": "proved",
   "theorems": [
    "SatSky.Props.C162_free",
    "SatSky.Props.C162_sgp",
    "SatSky.Props.C162_position"
   ],
   "note": "C162_free, C162_sgp, C162_position"
  },
  {
   "property": "C163",
   "status": "proved",
   "theorems": [
    "SatSky.Props.C163_drag"
   ],
   "note": "C163_drag"
  },
  {
   "property": "C164",
   "status": "proved",
   "theorems": [
    "SatSky.Props.C164_nest",
    "SatSky.Props.C164_nest64"
   ],
   "note": "C164_nest, C164_nest64"
  },
  {
   "property": "C165",
   "status": "proved",
   "theorems": [
    "SatSky.Props.C165_nest",
    "SatSky.Props.C165_nest64"
   ],
   "note": "C165_nest, C165_nest64"
  },
  {
   "property": "C166",
   "status": "proved",
   "theorems": [
    "SatSky.Props.C166_agree",
    "SatSky.Props.C166_agree64"
   ],
   "note": "C166_agree, C166_agree64"
  },
  {
   "property": "C167",
   "status": "proved",
   "theorems": [
    "SatSky.Props.C167_nest",
    "SatSky.Props.C167_nest64",
    "SatSky.Props.C167_ring",
    "SatSky.Props.C167_ring64"
   ],
   "note": "C167_nest, C167_nest64, C167_ring, C167_ring64"
  },
  {
   "property": "C168",
   "status": "proved",
   "theorems": [
    "SatSky.Props.C168_ring",
    "SatSky.Props.C168_ring64",
    "SatSky.Props.C168_nest",
    "SatSky.Props.C168_nest64",
    "SatSky.Props.C168_printed"
   ],
   "note": "C168_ring, C168_ring64, C168_nest, C168_nest64"
  },
  {
   "property": "C169",
   "status": "proved",
   "theorems": [
    "SatSky.Props.C169_ang2vec",
    "SatSky.Props.C169_vec2ang",
    "SatSky.Props.C169_round"
   ],
   "note": "C169_ang2vec, C169_vec2ang, C169_round"
  },
  {
   "property": "C170",
   "status": "proved",
   "theorems": [
    "SatSky.Props.C170_vec2pix",
    "SatSky.Props.C170_zero",
    "SatSky.Props.C170_scale",
    "SatSky.Props.C170_angles",
    "SatSky.Props.C170_ring",
    "SatSky.Props.C170_ring64",
    "SatSky.Props.C170_nest",
    "SatSky.Props.C170_nest64"
   ],
   "note": "C170_vec2pix, C170_zero (the zero vector has no pixel: 0/0), C170_scale, C170_angles, C170_ring, C170_ring64, C170_nest, C170_nest64"
  },
  {
   "property": "C171",
   "status": "proved",
   "theorems": [
    "SatSky.Props.C171_place",
    "SatSky.Props.C171_range",
    "SatSky.Props.C171_undoes",
    "SatSky.Props.C171_sph2v"
   ],
   "note": "C171_place, C171_range, C171_undoes, C171_sph2v"
  },
  {
   "property": "C172",
   "status": "proved",
   "theorems": [
    "SatSky.Props.C172_within",
    "SatSky.Props.C172_valid",
    "SatSky.Props.C172_fits",
    "SatSky.Props.C172_accepted",
    "SatSky.Props.C172_overflow_excluded"
   ],
   "note": "C172_within, C172_valid, C172_fits, C172_accepted, C172_overflow_excluded (year 10000)"
  },
  {
   "property": "C173",
   "status": "proved",
   "theorems": [
    "SatSky.Props.C173_g200",
    "SatSky.Props.C173_g300",
    "SatSky.Props.C173_g310",
    "SatSky.Props.C173_dropped",
    "SatSky.Props.C173_synchronous"
   ],
   "note": "C173_g200, C173_g300, C173_g310, C173_dropped, C173_synchronous (extends C142_synchronous to eccentric orbits)"
  },
  {
   "property": "C174",
   "status": "proved",
   "theorems": [
    "SatSky.Props.C174_g201",
    "SatSky.Props.C174_g211",
    "SatSky.Props.C174_g310",
    "SatSky.Props.C174_g322",
    "SatSky.Props.C174_g410",
    "SatSky.Props.C174_g422",
    "SatSky.Props.C174_g520",
    "SatSky.Props.C174_g533",
    "SatSky.Props.C174_g521",
    "SatSky.Props.C174_g532",
    "SatSky.Props.C174_force"
   ],
   "note": "C174_g201, C174_g211, C174_g310, C174_g322, C174_g410, C174_g422, C174_g520, C174_g521, C174_g532, C174_g533, C174_force"
  },
  {
   "property": "C175",
   "status": "proved",
   "theorems": [
    "SatSky.Props.C175_axis",
    "SatSky.Props.C175_common"
   ],
   "note": "C175_axis, C175_common; exact reals"
  },
  {
   "property": "C176",
   "status": "proved",
   "theorems": [
    "SatSky.Props.C176_near",
    "SatSky.Props.C176_month",
    "SatSky.Props.C176_halfyear",
    "SatSky.Props.C176_halfday",
    "SatSky.Props.C176_history"
   ],
   "note": "C176_near, C176_month, C176_halfyear, C176_halfday, C176_history; exact reals"
  },
  {
   "property": "C177",
   "status": "proved",
   "theorems": [
    "SatSky.Props.C177_relative",
    "SatSky.Props.C177_quarter",
    "SatSky.Props.C177_far"
   ],
   "note": "C177_relative, C177_quarter, C177_far; doubles as rationals with rounding (`Fl64`), library functions by their accuracy (`Libm`)"
  },
  {
   "property": "C178",
   "status": "proved",
   "theorems": [
    "SatSky.Props.C178_ends",
    "SatSky.Props.C178_numerical",
    "SatSky.Props.C178_clock",
    "SatSky.Props.C178_24"
   ],
   "note": "C178_ends, C178_numerical, C178_clock; C178_24: the value 24 is attained (the exact-arithmetic range [0, 24) of C39 does not carry over to doubles)"
  },
  {
   "property": "C179",
   "status": "proved",
   "theorems": [
    "SatSky.Props.C179_direction"
   ],
   "note": "C179_direction; exponent range not modelled; `DirLib` states the accuracy of the library functions"
  },
  {
   "property": "C180",
   "status": "proved",
   "theorems": [
    "SatSky.Props.C180_altitude",
    "SatSky.Props.C180_nadir_excluded"
   ],
   "note": "C180_altitude; C180_nadir_excluded: at latitude 8, declination -8 degrees, hour angle 12 the altitude is NaN with correctly rounded sine and cosine; azimuth and parallactic angle not in this model"
  },
  {
   "property": "C181",
   "status": "proved",
   "theorems": [
    "SatSky.Props.C181_theta",
    "SatSky.Props.C181_clock",
    "SatSky.Props.C181_agree",
    "SatSky.Props.C181_observer"
   ],
   "note": "C181_theta, C181_clock, C181_agree, C181_observer; exponent range not modelled"
  },
  {
   "property": "C182",
   "status": "proved",
   "theorems": [
    "SatSky.Props.C182_number",
    "SatSky.Props.C182_record",
    "SatSky.Props.C182_json",
    "SatSky.Props.C182_turn"
   ],
   "note": "C182_number, C182_record, C182_json, C182_turn; printf is the C standard's, with rounding to nearest even as glibc does"
  },
  {
   "property": "C183",
   "status": "proved",
   "theorems": [
    "SatSky.Props.C183_precession"
   ],
   "note": "C183_precession; exponent range not modelled; near the poles the formula itself diverges"
  },
  {
   "property": "C184",
   "status": "proved",
   "theorems": [
    "SatSky.Props.C184_position",
    "SatSky.Props.C184_printed"
   ],
   "note": "C184_position, C184_printed; the propagated position is taken as given"
  },
  {
   "property": "C185",
   "status": "proved",
   "theorems": [
    "SatSky.Props.C185_near",
    "SatSky.Props.C185_separation",
    "SatSky.Props.C185_speed",
    "SatSky.Props.C185_region"
   ],
   "note": "C185_near, C185_separation, C185_speed, C185_region; for directions beyond 178 degrees the haversine loses digits (C177)"
  },
  {
   "property": "C186",
   "status": "proved",
   "theorems": [
    "SatSky.Props.C186_angle",
    "SatSky.Props.C186_printed"
   ],
   "note": "C186_angle, C186_printed; westward motion across right ascension 0 is C81_violated"
  },
  {
   "property": "C187",
   "status": "proved",
   "theorems": [
    "SatSky.Props.C187_geolocation"
   ],
   "note": "C187_geolocation; on and near the polar axis the altitude is wrong even in exact arithmetic (C78_axis_excluded)"
  },
  {
   "property": "C188",
   "status": "proved",
   "theorems": [
    "SatSky.Props.C188_shadow"
   ],
   "note": "C188_shadow; satellites within 1 km of the sphere are left out"
  },
  {
   "property": "C189",
   "status": "proved",
   "theorems": [
    "SatSky.Props.C189_azimuth"
   ],
   "note": "C189_azimuth; at ha == 0 and near the poles of the Earth the azimuth is wrong in exact arithmetic already (C38)"
  },
  {
   "property": "C190",
   "status": "proved",
   "theorems": [
    "SatSky.Props.C190_parallactic"
   ],
   "note": "C190_parallactic; at ha == 0 the angle is wrong in exact arithmetic already (C76)"
  },
  {
   "property": "C191",
   "status": "proved",
   "theorems": [
    "SatSky.Props.C191_sun",
    "SatSky.Props.C191_place"
   ],
   "note": "C191_sun, C191_place"
  },
  {
   "property": "C192",
   "status": "proved",
   "theorems": [
    "SatSky.Props.C192_sunlit"
   ],
   "note": "C192_sunlit; C188 for a given Sun"
  },
  {
   "property": "C193",
   "status": "proved",
   "theorems": [
    "SatSky.Props.C193_nest",
    "SatSky.Props.C193_printed"
   ],
   "note": "C193_nest, C193_printed; the last longitudes of the belt, where the code fails, are recorded under C67"
  },
  {
   "property": "C194",
   "status": "proved",
   "theorems": [
    "SatSky.Props.C194_since",
    "SatSky.Props.C194_later"
   ],
   "note": "C194_since, C194_later"
  },
  {
   "property": "C195",
   "status": "partial",
   "theorems": [
    "SatSky.Props.C195_date_partial",
    "SatSky.Props.C195_date_violated"
   ],
   "note": "violated: 2024-01-01T00:00:54 is computed for 54.432 s, 3 km along a low orbit (C195_date_violated); proved: never more than 0.45 s off (C195_date_partial)"
  },
  {
   "property": "C196",
   "status": "proved",
   "theorems": [
    "SatSky.Props.C196_longitude",
    "SatSky.Props.C196_reported"
   ],
   "note": "C196_longitude, C196_reported"
  },
  {
   "property": "C197",
   "status": "proved",
   "theorems": [
    "SatSky.Props.C197_altitude"
   ],
   "note": "C197_altitude"
  },
  {
   "property": "C198",
   "status": "proved",
   "theorems": [
    "SatSky.Props.C198_separation",
    "SatSky.Props.C198_selected"
   ],
   "note": "C198_separation, C198_selected"
  },
  {
   "property": "C199",
   "status": "partial",
   "theorems": [
    "SatSky.Props.C199_sum_partial",
    "SatSky.Props.C199_zenith_violated"
   ],
   "note": "violated where the declination is within 1e-6 radian of the latitude: the altitude is then 90 whatever the hour angle (C199_zenith_violated); proved elsewhere (C199_sum_partial)"
  },
  {
   "property": "C200",
   "status": "proved",
   "theorems": [
    "SatSky.Props.C200_theta",
    "SatSky.Props.C200_agree",
    "SatSky.Props.C200_epoch"
   ],
   "note": ""
  },
  {
   "property": "C201",
   "status": "proved",
   "theorems": [
    "SatSky.Props.C201_recovered",
    "SatSky.Props.C201_choice",
    "SatSky.Props.C201_band"
   ],
   "note": ""
  },
  {
   "property": "C202",
   "status": "proved",
   "theorems": [
    "SatSky.Props.C202_fields"
   ],
   "note": ""
  },
  {
   "property": "C203",
   "status": "proved",
   "theorems": [
    "SatSky.Props.C203_centralize",
    "SatSky.Props.C203_root",
    "SatSky.Props.C203_accepted"
   ],
   "note": ""
  },
  {
   "property": "C204",
   "status": "proved",
   "theorems": [
    "SatSky.Props.C204_converges",
    "SatSky.Props.C204_solved"
   ],
   "note": ""
  },
  {
   "property": "C205",
   "status": "proved",
   "theorems": [
    "SatSky.Props.C205_position"
   ],
   "note": ""
  },
  {
   "property": "C206",
   "status": "proved",
   "theorems": [
    "SatSky.Props.C206_position"
   ],
   "note": ""
  },
  {
   "property": "C207",
   "status": "proved",
   "theorems": [
    "SatSky.Props.C207_step"
   ],
   "note": ""
  },
  {
   "property": "C208",
   "status": "proved",
   "theorems": [
    "SatSky.Props.C208_position",
    "SatSky.Props.C208_code"
   ],
   "note": ""
  },
  {
   "property": "C209",
   "status": "proved",
   "theorems": [
    "SatSky.Props.C209_rates"
   ],
   "note": ""
  },
  {
   "property": "C210",
   "status": "proved",
   "theorems": [
    "SatSky.Props.C210_density"
   ],
   "note": ""
  },
  {
   "property": "C211",
   "status": "proved",
   "theorems": [
    "SatSky.Props.C211_drag"
   ],
   "note": ""
  },
  {
   "property": "C212",
   "status": "proved",
   "theorems": [
    "SatSky.Props.C212_coefficients"
   ],
   "note": ""
  },
  {
   "property": "C213",
   "status": "proved",
   "theorems": [
    "SatSky.Props.C213_eccentricity"
   ],
   "note": ""
  },
  {
   "property": "C214",
   "status": "proved",
   "theorems": [
    "SatSky.Props.C214_quadratic"
   ],
   "note": ""
  }
 ]
}