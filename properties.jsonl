{"id": "C01", "title": "TLE line checksum accepts exactly the well-formed lines, and no single corrupted digit goes unnoticed", "statement": "tle_checksum(line) returns 0 if and only if the line starts with '1' or '2' followed by a blank, its first 68 characters are all between ' ' and 'z', the value of its 69th character is congruent modulo 10 to the checksum (sum of digits, '-' counting 1), and nothing printable follows; in particular every well-formed line is accepted. Replacing any one digit of an accepted line (data or check digit) by another digit gives a line that is rejected.", "quantifier": "all NUL-terminated byte strings; for the error-detection half all accepted lines, all 69 positions, all replacement digits", "why_tests_cant": "There are about 90^69 lines; a test can corrupt a few digits of a few lines but not show that no corruption escapes.", "anchors": ["src/get_el.c: tle_checksum"]}
{"id": "C02", "title": "TLE checksum reading never leaves the line buffer and its negative codes are exactly the documented ones", "statement": "tle_checksum on any NUL-terminated string inspects only bytes of that string (up to and including its terminator) and returns -1, -2 or -3 exactly for: wrong leading characters; a control or non-ASCII character in the first 68 columns; printable text after the check digit. Otherwise it returns 0..9.", "quantifier": "all NUL-terminated byte strings of any length", "why_tests_cant": "Out-of-bounds reads on particular short lines do not usually crash; only a proof over all lengths shows which lengths are unsafe.", "anchors": ["src/get_el.c: tle_checksum"]}
{"id": "C03", "title": "NORAD catalogue numbers: every 5-character code means exactly one number and every number up to 45,435,423 has exactly one code", "statement": "Decoding the 5-character catalogue field (standard, Alpha-5, Super-5 schemes) gives 0..99999 for all-digit codes, 100000..339999 for Alpha-5, 340000..45435423 for Super-5; two different valid codes never decode to the same number and each number in 0..45435423 is decoded from some code.", "quantifier": "all 5-character codes over digits and upper-case letters without I and O, followed by a non-digit classification character; all numbers 0..45435423", "why_tests_cant": "There are 33^5+ codes in six interacting schemes; injectivity is a statement about all pairs of codes.", "anchors": ["src/get_el.c: get_norad_number", "src/get_el.c: base34_to_int"]}
{"id": "C04", "title": "parse_elements return code reports every checksum problem", "statement": "parse_elements(line1,line2) returns 0 only when line 1 starts with '1 ', line 2 with '2 ' and both checksums are right; 1, 2 or 3 exactly when line 1, line 2 or both checksums are wrong; a negative value when either line is not a TLE line.", "quantifier": "all pairs of NUL-terminated lines of at least 70 bytes storage", "why_tests_cant": "All combinations of two 69-character lines, including the rarely exercised 'H' element type.", "anchors": ["src/get_el.c: parse_elements"]}
{"id": "C05", "title": "TLE epoch field is converted to the right calendar day for every year of the two-digit window", "statement": "For an epoch field YYDDD.FFFFFFFF the parsed Julian date is the JD of day DDD of year 1957..2056 (YY<57 meaning 20YY) plus the fraction, for every valid day of year in that window; consecutive days (also across year ends and leap years) differ by exactly one.", "quantifier": "all two-digit years, all days of year, all fractions", "why_tests_cant": "Leap-year and century arithmetic fails only at isolated dates.", "anchors": ["src/get_el.c: parse_elements (year/epoch lines)"]}
{"id": "C06", "title": "Angle and motion fields are read exactly", "statement": "A blank-padded fixed-point angle field 'DDD.DDDD ' is read as exactly 10000 times the printed decimal value; eccentricity, mean motion and ndot/2 fields likewise are read as exactly the integer formed by their digits.", "quantifier": "all field values of every width allowed by the TLE format", "why_tests_cant": "The number of possible fields is 10^7 or more for each; only a digit-induction covers them all.", "anchors": ["src/get_el.c: get_angle", "src/get_el.c: get_eight_places", "src/get_el.c: parse_elements"]}
{"id": "C07", "title": "Exponential fields (bstar, nddot/6) are read exactly with both signs", "statement": "A field 'sDDDDDtE' (s,t signs, five digits, one exponent digit) is read as s0.DDDDD x 10^(tE); a blank mantissa gives 0.", "quantifier": "all signs, mantissas and exponent digits", "why_tests_cant": "Sign and exponent combinations and malformed characters (which make the scaling loop run away) are not covered by sample TLEs.", "anchors": ["src/get_el.c: sci"]}
{"id": "C08", "title": "High-precision state-vector fields survive encoding in base 36", "statement": "For every integer v with |v| < 36^8, decoding the sign and eight base-36 digits that represent v gives v back; characters outside 0-9A-Z are detected.", "quantifier": "all integers |v| < 36^8, all 9-character fields", "why_tests_cant": "36^8 values; the assert aborts only on particular characters.", "anchors": ["src/get_el.c: mutant_dehex", "src/get_el.c: get_high_value"]}
{"id": "C09", "title": "A TLE written in the standard layout is read back with every element intact", "statement": "Formatting any catalogue number, designator, epoch, drag terms, angles, eccentricity, mean motion, revolution number with the standard column layout and valid checksums, parse_elements succeeds and returns those very values (in the units of the format).", "quantifier": "all element values representable in the TLE format", "why_tests_cant": "A whole-record round trip over some 10^60 records; column mix-ups can hide for particular values.", "anchors": ["src/get_el.c: parse_elements"]}
{"id": "C10", "title": "Calendar date to MJD follows the Gregorian calendar on every day", "statement": "For valid dates the integer MJD of the day after d is the MJD of d plus one, and 1858-11-17 is MJD 0; hence the number is the count of days in the Gregorian calendar.", "quantifier": "all Gregorian dates of years 0..9999", "why_tests_cant": "3.6 million days and two different integer-division formulas with truncation.", "anchors": ["src/date2mjd_nf.c: date2mjd_nf"]}
{"id": "C11", "title": "date -> MJD -> date gives the date back to the second", "statement": "For every valid date and time YYYY-MM-DDThh:mm:ss of years 1000..9999 the MJD computed for it is converted back to exactly the same text, in spite of the 1e-5-day rounding of the time of day; for years 0..999 the same six numbers come back (the year is then printed blank padded).", "quantifier": "all dates in years 0..9999 and all 86400 seconds of the day, all rounding errors within the stated bound", "why_tests_cant": "3e11 date-times; failures would be at isolated seconds where rounding goes the wrong way.", "anchors": ["src/date2mjd_nf.c: date2mjd_nf", "src/mjd2date.c: mjd2date"]}
{"id": "C12", "title": "mjd2date always prints a valid calendar date and time within half a second of its argument", "statement": "For every MJD the function accepts, the printed month is 1..12, day 1..length of month, hours 0..23, minutes and seconds 0..59, and the instant it names differs from the argument by at most half a second, up to the rounding of the argument itself.", "quantifier": "all real MJDs in the supported range", "why_tests_cant": "A continuum of arguments; seconds=60 style defects appear only in windows of microseconds.", "anchors": ["src/mjd2date.c: mjd2date"]}
{"id": "C13", "title": "mjd2date output fits its buffer or the argument is rejected", "statement": "Whatever the argument, mjd2date writes at most 20 bytes to its static buffer; unsupported arguments give NULL, and callers cope with it.", "quantifier": "all real MJDs", "why_tests_cant": "The overflow starts at year 10000 (or before -999) and silently corrupts static storage.", "anchors": ["src/mjd2date.c: mjd2date", "src/sat_skymap.c: main (-j)"]}
{"id": "C14", "title": "An unreadable date is reported to the user", "statement": "If the date argument does not parse as YYYY-MM-DDThh:mm:ss, date2mjd_nf returns nonzero and the program does not silently use another date.", "quantifier": "all date argument strings", "why_tests_cant": "Every malformed string must be caught; tests try a few.", "anchors": ["src/date2mjd_nf.c: date2mjd_nf", "src/sat_skymap.c: main", "src/sat_visibility.c: main"]}
{"id": "C15", "title": "Every valid element pair in a TLE file is examined exactly once, in file order", "statement": "For a file made of records (optional name line, line 1, line 2) with valid checksums, the satellites considered are exactly the records of the file, in order, each once, regardless of which of them were skipped by filters.", "quantifier": "all files (lists of lines), all filter outcomes per record", "why_tests_cant": "Skipping a record uses 'continue' and leaves the sliding two-line window in a different state; all interleavings of skipped and reported records matter.", "anchors": ["src/sat_skymap.c: main (while fgets)"]}
{"id": "C16", "title": "No satellite is listed twice", "statement": "Even if several input files contain the same catalogue number, at most one entry with that catalogue text is output, and it comes from its first occurrence.", "quantifier": "all sequences of records over all files", "why_tests_cant": "Substring search in a growing text buffer could match across entry boundaries for particular sequences only.", "anchors": ["src/sat_skymap.c: main (sbuff, strstr)"]}
{"id": "C17", "title": "The list of seen satellites never outgrows its buffer", "statement": "For any number of distinct satellites in the input, appending to the list of catalogue numbers writes only inside the allocated buffer.", "quantifier": "all numbers and sequences of distinct satellites", "why_tests_cant": "The first out-of-bounds write happens at the 11667th distinct satellite; ordinary tests are far smaller.", "anchors": ["src/sat_skymap.c: main (use_bufflen, realloc)"]}
{"id": "C18", "title": "-n N limits the number of satellites reported", "statement": "With -n N (N>=1) at most N satellites are reported, they are the first N that qualify, and scanning stops at the Nth.", "quantifier": "all N, all input files, all filters", "why_tests_cant": "Must hold for every file content and interaction with other filters and with the info-only flag.", "anchors": ["src/sat_skymap.c: main (max_sats)"]}
{"id": "C19", "title": "-s N reports only satellite N", "statement": "With a single-satellite request every reported satellite carries the requested catalogue number, whatever other options (-V, -a, radius) are given.", "quantifier": "all files, all requested numbers, all option combinations", "why_tests_cant": "Depends on the order of records and on which of them are sunlit at the time of the run.", "anchors": ["src/sat_skymap.c: main (single_sat, single_sat_found)"]}
{"id": "C20", "title": "-i D reports only satellites with that international designator", "statement": "With -i the reported satellite's designator is the requested one; any designator printed by the program can be used to select that satellite.", "quantifier": "all designators incl. multi-letter pieces, all requests", "why_tests_cant": "Truncation happens only for some launches (pieces AA and later).", "anchors": ["src/sat_skymap.c: main (intl_desig)"]}
{"id": "C21", "title": "-S selects by name", "statement": "With -S NAME every reported satellite's name contains NAME (documented as substring), and every satellite whose name contains it is considered.", "quantifier": "all names, all requests", "why_tests_cant": "Prefix versus substring differs only for particular names.", "anchors": ["src/sat_skymap.c: main (satname_filter)"]}
{"id": "C22", "title": "-V reports only sunlit satellites and the sunlit counter is right", "statement": "n_sats_in_sunlight equals the number of reported satellites flagged sunlit, never exceeds n_sats found, and equals it under -V.", "quantifier": "all files and all sunlit outcomes", "why_tests_cant": "Counter relations over unbounded runs.", "anchors": ["src/sat_skymap.c: main (n_sunlit, sunlit_only)"]}
{"id": "C23", "title": "-a lo,hi keeps exactly the satellites whose altitude is in the range, in either argument order", "statement": "With -a a,b a satellite is kept iff min(a,b) <= altitude <= max(a,b) at the first epoch.", "quantifier": "all a, b, altitudes", "why_tests_cant": "Continuum of values; order of arguments.", "anchors": ["src/sat_skymap.c: main (-a, altrng_requested)"]}
{"id": "C24", "title": "Each reported satellite carries its own name", "statement": "In a file of three-line records every reported satellite is printed with the name line of its own record (blank-trimmed, at most 23 characters), and the name buffer is always a terminated string.", "quantifier": "all files of three-line records incl. names of any length and first character", "why_tests_cant": "Depends on name length and first character and on the uninitialised tail of the buffer.", "anchors": ["src/sat_skymap.c: main (sat_name)", "src/sat_skymap.c: trimend"]}
{"id": "C25", "title": "A satellite is reported exactly when it passes the region test and the filters", "statement": "A considered satellite is reported iff it is in the search radius at one of the two epochs (or was requested by number, designator or name) and passes the requested altitude and sunlit filters.", "quantifier": "all files, parameters, positions", "why_tests_cant": "The decision is spread over five early exits; the claim is about every combination.", "anchors": ["src/sat_skymap.c: main"]}
{"id": "C26", "title": "The output is one well-formed JSON object on every exit path", "statement": "Whatever the arguments and files, what the program prints (other than usage text) is a single syntactically valid JSON object.", "quantifier": "all argument vectors, all file contents, all exit paths", "why_tests_cant": "Exit paths interleave with partial output; only some orders of events leave brackets open or put raw newlines into strings.", "anchors": ["src/sat_skymap.c: main, open_json, add_*_json, close_stat_json, exit_json"]}
{"id": "C27", "title": "run_command reproduces the invocation", "statement": "The run_command member of the output is the program name and the arguments as given, separated by single blanks.", "quantifier": "all argument vectors", "why_tests_cant": "The '@' handling edits argv in place; wrong only for one of the two allowed positions.", "anchors": ["src/sat_skymap.c: close_stat_json"]}
{"id": "C28", "title": "Status codes tell what happened", "statement": "status is 0 exactly when the requested computation was carried out; invalid options or values give the documented nonzero status with errmsg.", "quantifier": "all argument vectors and file outcomes", "why_tests_cant": "Enumeration of all failing paths.", "anchors": ["src/sat_skymap.c: main, exit_json"]}
{"id": "C29", "title": "Argument processing terminates and never reads past the argument vector", "statement": "For every argument vector the option loop finishes after finitely many steps and reads only strings argv[1..argc-1].", "quantifier": "all argument vectors", "why_tests_cant": "Non-termination occurs only for option clusters such as -HG; out-of-range reads only when a value is missing at the end.", "anchors": ["src/sat_skymap.c: main (option loop)", "src/sat_visibility.c: main (option loop)"]}
{"id": "C30", "title": "Options may be given in any order", "statement": "Two command lines that differ only in the order of options with different letters set the same parameters.", "quantifier": "all pairs of options with different letters, all values", "why_tests_cant": "All pairs and values; a few pairs do not commute.", "anchors": ["src/sat_skymap.c: main (option loop)"]}
{"id": "C31", "title": "The TLE file or list argument is located as documented", "statement": "The file argument may come first or last; a leading '@' makes it a list; a name containing '/' is used as is and any other is looked up in the TLE directory.", "quantifier": "all argument vectors", "why_tests_cant": "Position and prefix combinations.", "anchors": ["src/sat_skymap.c: main (iarg, input_list, tle_path)"]}
{"id": "C32", "title": "Every usable row of a list file is opened exactly once", "statement": "For a list file, rows that are not comments and not empty are opened in order, each once, as tle_path/row with the line terminator removed.", "quantifier": "all list files", "why_tests_cant": "Line ends (CRLF, missing final newline) and row lengths vary without bound.", "anchors": ["src/sat_skymap.c: main (list loop)"]}
{"id": "C33", "title": "Spherical separation is the great-circle angle", "statement": "skysep_h returns the true angle between the two directions: in [0,180], symmetric, zero only for coinciding directions, unaffected by adding full turns in right ascension, and obeying the triangle inequality.", "quantifier": "all pairs/triples of directions (reals)", "why_tests_cant": "A continuum of directions.", "anchors": ["src/skysep_h.c: skysep_h"]}
{"id": "C34", "title": "The flat (tangent) separation used without -H does not depend on how the RA is wrapped", "statement": "The separation used in the region test is unchanged when the RA of target or satellite is shifted by 360 degrees, and is symmetric about the target.", "quantifier": "all pairs of positions", "why_tests_cant": "Fails only for satellites more than 180 degrees ahead of the target in RA.", "anchors": ["src/sat_skymap.c: main (d_ra, sep)"]}
{"id": "C35", "title": "The shadow test decides exactly whether the Earth's sphere blocks the Sun", "statement": "intersect_satsun_sphere returns 1 iff the ray from the satellite towards the Sun meets the closed ball of Earth's radius centred at the geocentre.", "quantifier": "all satellite and Sun position vectors (reals, satellite != Sun)", "why_tests_cant": "A continuum; grazing and behind-the-satellite cases are measure zero or rare.", "anchors": ["src/sat_skymap.c: intersect_satsun_sphere"]}
{"id": "C36", "title": "Sub-satellite point is in range and consistent", "statement": "sat_geoLocation gives longitude in [-180,180], latitude in [-90,90] and the longitude differs from RA by the sidereal angle (mod 360).", "quantifier": "all positions not on the polar axis and all sidereal times in [0,24]", "why_tests_cant": "Continuum, wrap-around edges.", "anchors": ["src/sat_skymap.c: sat_geoLocation"]}
{"id": "C37", "title": "RA, Dec and distance reconstruct the topocentric vector", "statement": "get_satellite_ra_dec_delta returns ra in [0,2pi), dec in [-pi/2,pi/2], dist>=0 with (dist cos dec cos ra, dist cos dec sin ra, dist sin dec) = satellite - observer.", "quantifier": "all observer and satellite positions at nonzero distance", "why_tests_cant": "Continuum incl. axes and quadrant boundaries.", "anchors": ["src/observe.c: get_satellite_ra_dec_delta"]}
{"id": "C38", "title": "Altitude and azimuth describe the direction of the object in the observer's frame", "statement": "dechalat2alt returns alt in [-90,90], az in [0,360) such that the unit vector (north,east,up) is the one of the object with that hour angle and declination seen from that latitude.", "quantifier": "all dec, ha, lat", "why_tests_cant": "The special cases (ha=0, near the pole, near the zenith) are thin sets.", "anchors": ["src/dechalat2alt.c: dechalat2alt"]}
{"id": "C39", "title": "Sidereal time is in [0,24) and shifts with longitude", "statement": "lmst_hr returns LMST in [0,24) and LMST - GMST = longitude/15 modulo 24 h.", "quantifier": "all JDs and longitudes", "why_tests_cant": "Continuum incl. dates before 2000.", "anchors": ["src/lmst_hr.c: lmst_hr"]}
{"id": "C40", "title": "Angle normalisation keeps the angle and lands in the stated interval", "statement": "FMod2p lands in [0,2pi), centralize_angle in [-pi,pi], atan_circ in [0,2pi) and each result equals its argument modulo 2pi (for atan_circ: is the polar angle of the point).", "quantifier": "all reals", "why_tests_cant": "Continuum; boundaries.", "anchors": ["src/basics.c: FMod2p", "src/common.c: centralize_angle", "src/lpsun_radec.c: atan_circ"]}
{"id": "C41", "title": "Precession to J2000 is the identity at J2000 and keeps RA in [0,2pi)", "statement": "epoch_of_date_to_j2000 leaves coordinates unchanged for year 2000 and returns ra in [0,2pi) for year offsets in the supported range.", "quantifier": "all positions away from the poles, all epochs within range", "why_tests_cant": "Continuum.", "anchors": ["src/observe.c: epoch_of_date_to_j2000"]}
{"id": "C42", "title": "NESTED pixel index and face coordinates are in bijection", "statement": "For every power-of-two nside (up to 8192 resp. 2^29) converting a face coordinate triple to a NESTED index and back is the identity in both directions, the index is in [0,12*nside^2), and no intermediate value overflows.", "quantifier": "all nside=2^k, all pixels", "why_tests_cant": "12*4^29 pixels.", "anchors": ["HealpixC/chealpix.c: xyf2nest, nest2xyf, xyf2nest64, nest2xyf64"]}
{"id": "C43", "title": "RING and NESTED numbering are inverse bijections", "statement": "nest2ring and ring2nest are mutually inverse on [0,12*nside^2) for every power-of-two nside, and give -1 for any other nside.", "quantifier": "all nside, all pixels", "why_tests_cant": "12*4^29 pixels; the project's own test samples them.", "anchors": ["HealpixC/chealpix.c: nest2ring, ring2nest, xyf2ring, ring2xyf"]}
{"id": "C44", "title": "Every direction gets a valid pixel number", "statement": "ang2pix_nest/ang2pix_ring return an index in [0,12*nside^2) for every theta in [0,pi] and every phi (so the order-8 pixel printed is in 0..786431) (in exact arithmetic; rounding is the subject of C67).", "quantifier": "all directions (reals), all nside the integer types allow (32 bit: up to 8192, 64 bit: up to 2^29; powers of two for NESTED)", "why_tests_cant": "Continuum with caps, equatorial belt and phi wrap boundaries.", "anchors": ["HealpixC/chealpix.c: ang2pix_nest, ang2pix_ring"]}
{"id": "C45", "title": "Pixel centres map back to their pixel", "statement": "ang2pix(pix2ang(p)) = p for all pixels in both schemes (in exact arithmetic; rounding is the subject of C67).", "quantifier": "all nside the integer types allow (32 bit: up to 8192, 64 bit: up to 2^29; powers of two for NESTED), all pixels", "why_tests_cant": "12*4^29 pixels.", "anchors": ["HealpixC/chealpix.c: pix2ang_*, ang2pix_*"]}
{"id": "C46", "title": "Pixel counts and nside convert exactly", "statement": "npix2nside(nside2npix(n)) = n, and npix2nside returns -1 for every number that is not 12*n^2.", "quantifier": "all n up to the type's limit, all npix", "why_tests_cant": "2^63 values.", "anchors": ["HealpixC/chealpix.c: nside2npix, npix2nside"]}
{"id": "C47", "title": "The propagation model is chosen by the orbital period", "statement": "select_ephemeris chooses the deep-space model exactly when the recovered period is at least 225 minutes (or the element type demands it) and rejects elements outside the documented domain.", "quantifier": "all element values", "why_tests_cant": "Continuum around the boundary and special element types.", "anchors": ["src/basics.c: select_ephemeris"]}
{"id": "C48", "title": "Propagation errors are reported and give a zero position", "statement": "When the propagated orbit is invalid the position is all zeros and a code that names the actual problem is returned; callers do not report a position for a failed propagation.", "quantifier": "all propagated element values", "why_tests_cant": "Overlapping error conditions.", "anchors": ["src/common.c: sxpx_posn_vel", "src/sgp4.c: SGP4", "src/sdp4.c: SDP4"]}
{"id": "C49", "title": "Solving Kepler's equation always stops and a successful stop means a small residual", "statement": "The iteration ends after a bounded number of steps for every input; unless the convergence-failure code is returned the last correction is below the tolerance.", "quantifier": "all reals", "why_tests_cant": "Newton iterations can cycle for isolated inputs.", "anchors": ["src/common.c: sxpx_posn_vel"]}
{"id": "C50", "title": "Deep-space propagation does not depend on which times were asked for earlier", "statement": "The position for time t depends only on the elements and t, not on the earlier calls made with the same parameter block.", "quantifier": "all histories of calls, all t", "why_tests_cant": "A property of call histories; individual tests use one history.", "anchors": ["src/deep.c: Deep_dpsec, Deep_dpper", "src/sdp4.c: SDP4"]}
{"id": "C51", "title": "Resonance integration terminates and stays inside its work array", "statement": "For every finite t and positive step the integrator reaches t in at most |t|/step+1 steps, and for every supported integration order it writes only inside its derivative array.", "quantifier": "all t, all steps, all orders", "why_tests_cant": "Unbounded time spans.", "anchors": ["src/deep.c: Deep_dpsec, compute_dpsec_derivs"]}
{"id": "C52", "title": "Caching of Moon/Sun positions is invisible", "statement": "In any sequence of calls each answer equals what a fresh computation for that date would give.", "quantifier": "all call histories with dates other than Julian date zero", "why_tests_cant": "History property.", "anchors": ["src/sdp4.c: cached_lunar_solar_position"]}
{"id": "C53", "title": "High-precision ephemeris integration covers the requested interval exactly", "statement": "The numerical integration for 'H' elements takes steps of at most one day, ends exactly at epoch+t and terminates for every finite t of either sign.", "quantifier": "all t (exact arithmetic); all t up to 2^53 days (double arithmetic)", "why_tests_cant": "Unbounded number of steps.", "anchors": ["src/sdp4.c: high_ephemeris"]}
{"id": "C54", "title": "Earth-orientation caching error is bounded", "statement": "earthtilt returns values computed for a date within 0.01 day of the requested one, in any call history.", "quantifier": "all call histories with nonzero dates", "why_tests_cant": "History property.", "anchors": ["src/earthtilt.c: earthtilt"]}
{"id": "C55", "title": "The nutation recursion evaluates the intended trigonometric series", "statement": "Each of the 106 tabulated sine/cosine pairs equals sine and cosine of a fixed integer combination of the five fundamental arguments; all table indices are in range and refer to already computed entries.", "quantifier": "all five fundamental arguments (reals)", "why_tests_cant": "Continuum of arguments; the table program is intricate.", "anchors": ["src/earthtilt.c: calcnutation"]}
{"id": "C56", "title": "Visibility: the pass found starts at the first sampled instant in the field and in sunlight", "statement": "The reported start is the first sampling time in the requested range at which the satellite is within the radius, in sunlight (and after the skipped daytime); if there is none no pass is reported.", "quantifier": "all time ranges, steps, separation and illumination histories for which the search ends", "why_tests_cant": "Quantifies over all histories of samples.", "anchors": ["src/sat_visibility.c: main (time loop)"]}
{"id": "C57", "title": "Visibility: the pass is one contiguous interval of samples", "statement": "Between the reported start and end all samples are in the field and in sunlight, and the sample after the end (if any) is not.", "quantifier": "all histories", "why_tests_cant": "Same.", "anchors": ["src/sat_visibility.c: main (time loop)"]}
{"id": "C58", "title": "Visibility: the reported closest approach is the minimum over the pass", "statement": "The minimum separation reported is the least sampled separation in the pass and its time is where it is first attained.", "quantifier": "all histories", "why_tests_cant": "Same.", "anchors": ["src/sat_visibility.c: main (min_sep)"]}
{"id": "C59", "title": "Visibility: durations are not negative", "statement": "Reported end is not before reported start and the duration equals end minus start.", "quantifier": "all histories", "why_tests_cant": "A pass of a single sample at the end of the range is rare.", "anchors": ["src/sat_visibility.c: main"]}
{"id": "C60", "title": "Visibility: the time loop terminates", "statement": "For every accepted range and step the search ends after finitely many steps.", "quantifier": "all ranges, all steps accepted from the command line", "why_tests_cant": "Step 0 or negative passes the option parser.", "anchors": ["src/sat_visibility.c: main"]}
{"id": "C61", "title": "Visibility: date and MJD range arguments are read as documented", "statement": "-d DATE1,DATE2 sets both ends for every pair of dates in the documented formats, and the -j form likewise.", "quantifier": "all argument strings", "why_tests_cant": "All formats incl. fractional seconds.", "anchors": ["src/sat_visibility.c: main (-d, -j)"]}
{"id": "C62", "title": "Visibility: the satellite analysed is the one asked for", "statement": "The satellite whose pass is computed is the first record with the requested number or designator.", "quantifier": "all files, all requests", "why_tests_cant": "Depends on file contents.", "anchors": ["src/sat_visibility.c: main"]}
{"id": "C63", "title": "The check column of an accepted TLE line is a digit", "statement": "A line accepted by tle_checksum has a decimal digit in column 69, equal to the checksum modulo 10.", "quantifier": "all NUL-terminated byte strings", "why_tests_cant": "Which of the 256 characters are accepted in the check column depends on the sum of the other 68.", "anchors": ["src/get_el.c: tle_checksum"]}
{"id": "C64", "title": "Reading the elements of checksum-valid lines stays inside the lines", "statement": "parse_elements on any two lines that pass tle_checksum reads only characters of these lines, does not overflow, and terminates.", "quantifier": "all pairs of lines with valid checksums", "why_tests_cant": "Runaway reads and overflows happen only for malformed fields that a file of real TLEs never contains.", "anchors": ["src/get_el.c: get_angle", "src/get_el.c: sci", "src/get_el.c: parse_elements"]}
{"id": "C65", "title": "The catalogue number does not depend on the classification character", "statement": "The catalogue number read from a TLE is determined by its five characters, whatever the classification column contains.", "quantifier": "all 5-character codes and all following text", "why_tests_cant": "Only a digit in the classification column shows the difference.", "anchors": ["src/get_el.c: get_norad_number"]}
{"id": "C66", "title": "Only the named file or list and its rows influence the answer", "statement": "For given arguments the answer depends on the file system only through the file named by the first (or last) argument; with a list, only through the list and the files of its rows: two file systems that agree on these give the same output and exit code.", "quantifier": "all argument vectors, all pairs of file systems", "why_tests_cant": "Non-interference relates two runs; it cannot be observed on a single run, and there are unboundedly many other files.", "anchors": ["src/sat_skymap.c: main 553-700"]}
{"id": "C67", "title": "Every direction gets a valid pixel number in double arithmetic", "statement": "With the double constants and IEEE rounding of every operation, ang2pix_nest and ang2pix_ring still return an index in [0,12*nside^2).", "quantifier": "all doubles z in [-1,1] and phi, all nside up to 8192", "why_tests_cant": "The failing inputs are single doubles next to face boundaries among 2^128 pairs.", "anchors": ["HealpixC/chealpix.c: fmodulo 61-67, ang2pix_nest_z_phi 232-278, ang2pix_ring_z_phi 280-318"]}
{"id": "C68", "title": "Pixel centres follow the published formulae in both numberings", "statement": "The centre that pix2ang_ring gives to pixel j of ring i has the height and longitude of Gorski et al. (2005), and pix2ang_nest(p) is the same direction as pix2ang_ring(nest2ring(p)).", "quantifier": "all nside the integer types allow, all pixels", "why_tests_cant": "12*4^29 pixels, four branches and three wrap corrections; two code paths have to agree everywhere.", "anchors": ["HealpixC/chealpix.c: pix2ang_ring_z_phi 320-355, pix2ang_nest_z_phi 357-392, 732-819"]}
{"id": "C69", "title": "The flat separation never underestimates the distance on the sky", "statement": "The separation used without -H is at least the great-circle angle, so that whatever the flat test selects is within the search radius on the sky.", "quantifier": "all pairs of directions (reals), also with right ascensions outside [0,2pi)", "why_tests_cant": "An inequality over a four-dimensional continuum.", "anchors": ["src/sat_skymap.c: main 827-837", "src/skysep_h.c: skysep_h"]}
{"id": "C70", "title": "The separation for -E without -H is the one on the globe", "statement": "With -E and without -H the separation is computed from longitude and latitude differences in the same unit, round the circle in longitude.", "quantifier": "all locations", "why_tests_cant": "Each formula looks right alone; the units of the two operands differ.", "anchors": ["src/sat_skymap.c: main 820-826"]}
{"id": "C71", "title": "FMod2p in double arithmetic stays below 2pi", "statement": "With IEEE rounding FMod2p returns a value in [0, twopi) that differs from the argument by a whole number of turns and a rounding error.", "quantifier": "all doubles", "why_tests_cant": "Fails only for tiny negative arguments.", "anchors": ["src/basics.c: FMod2p 25-32"]}
{"id": "C72", "title": "The Sun's coordinates are those of the ecliptic longitude of the almanac formula", "statement": "lpsun_radec gives right ascension in [0,2pi) and declination in [-pi/2,pi/2] of the point of the ecliptic with the almanac's longitude; the declination never exceeds the obliquity and the vector for the shadow test has the length of one astronomical unit.", "quantifier": "all Julian dates (reals)", "why_tests_cant": "Continuum; quadrants of atan.", "anchors": ["src/lpsun_radec.c: lpsun_radec, atan_circ", "src/sat_skymap.c: sphrad2v, main 647-651"]}
{"id": "C73", "title": "The observer is on the ellipsoid at the geodetic latitude", "statement": "earth_lat_alt_to_parallax and observer_cartesian_coords put an observer of height h at distance h along the normal from the point of the ellipsoid whose normal has the given latitude, at the local sidereal angle.", "quantifier": "all latitudes with |lat|<90, heights, longitudes and dates", "why_tests_cant": "Continuum.", "anchors": ["src/observe.c: earth_lat_alt_to_parallax 77-85, observer_cartesian_coords 65-74"]}
{"id": "C74", "title": "Greenwich sidereal time is in [0,24)", "statement": "lmst_hr stores a Greenwich sidereal time in [0,24).", "quantifier": "all Julian dates", "why_tests_cant": "Fails for part of every day before September 1999 only.", "anchors": ["src/lmst_hr.c: lmst_hr"]}
{"id": "C75", "title": "Both computations of sidereal time agree", "statement": "The Greenwich sidereal time of lmst_hr and ThetaG of observe.c are the same angle modulo a full turn.", "quantifier": "all Julian dates from 0", "why_tests_cant": "Two different splittings of the date into day and fraction.", "anchors": ["src/lmst_hr.c: lmst_hr", "src/observe.c: ThetaG 39-62"]}
{"id": "C76", "title": "The parallactic angle is the angle between the directions to the pole and the zenith", "statement": "dechalat2alt returns the angle at the object between north and zenith, in (-180,180].", "quantifier": "all dec, ha, lat", "why_tests_cant": "The special cases are thin sets.", "anchors": ["src/dechalat2alt.c: dechalat2alt"]}
{"id": "C77", "title": "The latitude iteration ends", "statement": "The loop of sat_geoLocation ends within 37 passes for every position at least 200 km from the geocentre.", "quantifier": "all positions with distance >= 200 km and all sidereal times", "why_tests_cant": "Convergence for a continuum of starting points.", "anchors": ["src/sat_skymap.c: sat_geoLocation 318-345"]}
{"id": "C78", "title": "Geodetic latitude and altitude give back the position", "statement": "Latitude and altitude of sat_geoLocation, put on the ellipsoid of the program, give the distance from the axis and the height above the equator to within 1e-8 km.", "quantifier": "all positions not on the polar axis for which the loop ends", "why_tests_cant": "Continuum; the error of the stopped iteration has to be bounded.", "anchors": ["src/sat_skymap.c: sat_geoLocation 318-345"]}
{"id": "C79", "title": "The sunlit flag refers to the time asked for", "statement": "is_sunlit says whether the satellite is out of the Earth's shadow at the requested time.", "quantifier": "all trajectories, dates and time steps", "why_tests_cant": "With the default step of one second flag and truth differ only at the moment of entering or leaving the shadow.", "anchors": ["src/sat_skymap.c: main 811-814, 857"]}
{"id": "C80", "title": "A satellite is reported exactly if it is in the region and passes the filters", "statement": "With -H a satellite is reported iff it passes the altitude and sunlight filters and (unless a single satellite or a name is requested) its direction is within the search radius of the target at one of the two epochs; with -E the point below it is within the radius on the globe; without -H everything reported because of the region is within the radius.", "quantifier": "all trajectories, observers, dates and options", "why_tests_cant": "Composition of propagation, projection, precession and four filters.", "anchors": ["src/sat_skymap.c: main 760-860"]}
{"id": "C81", "title": "The position angle is the direction of motion", "statement": "posn_ang_of_motion is in [0,2pi) and is the direction from the first to the second position in the tangent plane, right ascension taken round the circle.", "quantifier": "all pairs of positions", "why_tests_cant": "Fails only for motion to the west across right ascension 0.", "anchors": ["src/sat_skymap.c: main 869-876"]}
{"id": "C82", "title": "The precessed declination stays a declination", "statement": "After epoch_of_date_to_j2000 the declination is in [-pi/2,pi/2], so that ang2pix_nest accepts it.", "quantifier": "all positions, epochs within a century of 2000", "why_tests_cant": "Fails only within 0.6 degrees per century of the poles.", "anchors": ["src/observe.c: epoch_of_date_to_j2000 111-128", "src/sat_skymap.c: main 881-882"]}
{"id": "C83", "title": "The Sun's longitude is in (-180,180] and consistent with its right ascension", "statement": "sun.lon is right ascension minus sidereal time up to full turns, in (-180,180].", "quantifier": "all dates and sidereal times up to 24 h", "why_tests_cant": "Two wrap corrections on a continuum.", "anchors": ["src/sat_skymap.c: main 633-637, 655-656"]}
{"id": "C84", "title": "The speed is the non-negative angular speed", "statement": "speed is the great-circle distance between the two positions per unit of time, in degrees per minute, and not negative.", "quantifier": "all trajectories and time steps", "why_tests_cant": "Fails only for negative steps, which are accepted.", "anchors": ["src/sat_skymap.c: main 519, 878"]}
{"id": "C85", "title": "The reported coordinates are those of the satellite seen from the observer", "statement": "The reported distance and the direction before precession give back the vector from the observer to the satellite; right ascension, declination and pixel number are in range.", "quantifier": "all trajectories, observers and dates", "why_tests_cant": "Continuum; composition of four functions.", "anchors": ["src/sat_skymap.c: main 760-800, 881-895"]}
{"id": "C86", "title": "The location is computed whenever it is used", "statement": "Whatever the command line, if -E or an altitude range is in force, geoloc_requested is set, so the location structure is never read before it is written.", "quantifier": "all command lines", "why_tests_cant": "Combinations and orders of switches; reading the uninitialised structure may go unnoticed.", "anchors": ["src/sat_skymap.c: main (option loop) 417-452, 791-797, 820"]}
{"id": "C87", "title": "Accepted parameters are in range", "statement": "If the option loop ends regularly, latitude and declination are in [-90,90], right ascension in [0,360], the altitude range is ordered and the texts fit their buffers.", "quantifier": "all command lines", "why_tests_cant": "All argument strings in all combinations.", "anchors": ["src/sat_skymap.c: main (option loop) 401-527"]}
{"id": "C88", "title": "The counters in the answer count the satellites listed", "statement": "n_sats_found, n_sats and n_sunlit_sats in the answer are the number of satellites listed (or that would be listed without -I) and the number of those in sunlight.", "quantifier": "all files, all options", "why_tests_cant": "The counters agree in all ordinary runs; they part only when the satellite asked for is found but filtered out.", "anchors": ["src/sat_skymap.c: main (end_checking), close_stat_json"]}
{"id": "C89", "title": "Deep-space model exactly from 225 minutes on", "statement": "For elements of no special type, positive mean motion and an elliptic orbit with semilatus rectum at least 0.2 Earth radii, the equations of the Spacetrack report have exactly one solution for the original mean motion, and the deep-space model is chosen exactly if its period is at least 225 minutes; in terms of the given mean motion the boundary lies between 224.6 and 225.4 minutes for orbits outside the Earth.", "quantifier": "all such elements (reals)", "why_tests_cant": "Continuum around a boundary that depends on inclination and eccentricity.", "anchors": ["src/basics.c: select_ephemeris", "src/common.c: sxpall_common_init"]}
{"id": "C90", "title": "The recovered orbit obeys Kepler's third law", "statement": "The recovered semimajor axis and mean motion satisfy a^3 n^2 = ke^2 up to 25 times the fourth power of the first correction (below 2e-10 for orbits outside the Earth).", "quantifier": "all element sets with 0<=e<1 and semilatus rectum at least 0.2 Earth radii", "why_tests_cant": "A wrong series coefficient changes positions by metres, not visible in tests of a plausible position.", "anchors": ["src/common.c: sxpall_common_init"]}
{"id": "C91", "title": "An accepted solution of Kepler's equation is close to the only solution", "statement": "For eccentricity below one Kepler's equation has exactly one solution and an accepted approximation differs from it by less than 1e-12/(1-e), hence by less than 2e-6 rad for every orbit that is not refused.", "quantifier": "all eccentricity vectors, all mean longitudes (reals)", "why_tests_cant": "Continuum; a small residual is not a small error for eccentric orbits.", "anchors": ["src/common.c: sxpx_posn_vel"]}
{"id": "C92", "title": "Kepler's equation is always solved for eccentricities up to 0.4", "statement": "For every mean longitude and every limit of the first step the iteration reaches the tolerance within six of its ten passes, so the convergence code is never returned for eccentricities up to 0.4.", "quantifier": "all eccentricity vectors of length at most 0.4, all mean longitudes (reals)", "why_tests_cant": "Failure of an iteration would occur on a small set of inputs.", "anchors": ["src/common.c: sxpx_posn_vel"]}
{"id": "C93", "title": "The computed point is on the ellipse and moves with the computed velocity", "statement": "Distance and argument of latitude satisfy the polar equation of the ellipse, and the unperturbed radial and transverse velocities are the time derivative of the position when the mean longitude grows with Kepler's mean motion.", "quantifier": "all elliptic orbits, all times (reals)", "why_tests_cant": "A derivative cannot be tested pointwise.", "anchors": ["src/common.c: sxpx_posn_vel"]}
{"id": "C94", "title": "Position and velocity lie in the orbital plane at the orbital distance", "statement": "Position and velocity lie in one plane through the centre whose node and inclination differ from the mean ones by at most 1.5 k2/p^2 and 0.75 k2/p^2; the distance differs from that on the ellipse by at most k2(3r/p^2+1/(2p)) Earth radii.", "quantifier": "all elliptic mean orbits, all eccentric longitudes (reals)", "why_tests_cant": "Continuum; relation between two output vectors.", "anchors": ["src/common.c: sxpx_posn_vel"]}
{"id": "C95", "title": "At the epoch SGP4 uses the elements of the set", "statement": "For tsince 0 the orbit handed to sxpx_posn_vel has the recovered semimajor axis and the eccentricity (at least 1e-6), inclination, node, perigee and mean longitude of the element set, with and without the drag terms.", "quantifier": "all element sets (reals)", "why_tests_cant": "Drag terms vanish at the epoch only if their reference values agree.", "anchors": ["src/sgp4.c: SGP4_init, SGP4"]}
{"id": "C96", "title": "The density parameters depend continuously on the perigee height", "statement": "s is min(78, max(20, h-78)) km and (q0-s)^4 follows it up to 1e-30 at the change of formula at 156 km.", "quantifier": "all perigee heights (reals)", "why_tests_cant": "Jumps at a boundary.", "anchors": ["src/common.c: sxpx_common_init"]}
{"id": "C97", "title": "Whole turns in the elements do not matter", "statement": "Adding whole turns to node, argument of perigee or mean anomaly changes neither code nor position nor velocity of SGP4 at any time.", "quantifier": "all element sets, all integers, all times", "why_tests_cant": "Continuum; the reduction of the mean longitude has an ambiguous end.", "anchors": ["src/sgp4.c: SGP4_init, SGP4", "src/common.c: sxpx_posn_vel, centralize_angle"]}
{"id": "C98", "title": "A position returned without warning is outside the Earth", "statement": "With code 0 and an eccentricity between 0 and 0.9 the distance from the centre is at least 0.99 Earth radii and at most 1.002 times the apogee plus 0.01 Earth radii.", "quantifier": "all mean orbits (reals)", "why_tests_cant": "Continuum of orbits.", "anchors": ["src/common.c: sxpx_posn_vel"]}
{"id": "C99", "title": "The resonance step is the Taylor polynomial of the equations of motion", "statement": "The array filled by compute_dpsec_derivs holds the acceleration and its successive derivatives with respect to the resonance longitude, and a step of Deep_dpsec over h adds to longitude and mean motion the Taylor terms up to the chosen order; with order 2 it is the second-degree Taylor polynomial of the motion.", "quantifier": "all orders 1 to 20, all states, all steps, both resonances", "why_tests_cant": "Unbounded parameter space; an error in a derivative is a small drift, not a wrong digit.", "anchors": ["src/deep.c: compute_dpsec_derivs, Deep_dpsec"]}
{"id": "C100", "title": "The sine and cosine constants of the resonance belong to the angles of Spacetrack Report 3", "statement": "Each pair of literals c_x, s_x of deep.c is the cosine and sine of the documented phase angle to within 1e-12.", "quantifier": "the eight pairs of constants", "why_tests_cant": "Equality with transcendental values; a test compares with the libm of the platform.", "anchors": ["src/deep.c: compute_dpsec_derivs"]}
{"id": "C101", "title": "At the epoch the deep-space model gives back the elements", "statement": "For t = 0 the long-period part of SDP4 is exactly the mean elements of the satellite, whatever times were asked for before, for every step and order and both modes.", "quantifier": "all elements, all call histories, all steps, all orders up to 20", "why_tests_cant": "A property of call histories.", "anchors": ["src/deep.c: Deep_dpsec, Deep_dpinit"]}
{"id": "C102", "title": "Without resonance forces the integration reproduces the secular motion", "statement": "With the resonance coefficients set to zero the integration gives, for every time and history, the constant mean motion and the mean anomaly with the secular rates, up to the quadratic drag term of the node.", "quantifier": "all elements, all call histories, all t, all steps, all orders from 1", "why_tests_cant": "Needs coefficients that no elements produce; unbounded time.", "anchors": ["src/deep.c: Deep_dpsec, Deep_dpinit"]}
{"id": "C103", "title": "In Dundee mode the answer does not depend on earlier calls", "statement": "With the DUNDEE_COMPLIANT flag code, position and velocity of SDP4 for t are the same after any sequence of earlier calls as for a first call.", "quantifier": "all histories of calls, all t, all elements, all positive steps, all orders up to 20", "why_tests_cant": "A property of call histories; individual tests use one history.", "anchors": ["src/deep.c: Deep_dpsec, Deep_dpper", "src/sdp4.c: SDP4"]}
{"id": "C104", "title": "The secular rates caused by Sun and Moon are those of the averaged tidal potential", "statement": "The rates sse, ssi, ssh, ssg, ssl of SDP4_init satisfy Lagrange's planetary equations for the tidal potential of Sun and Moon averaged over the orbit of the satellite and over the orbit of the body, with the strength of the Sun (square of its mean motion) and of the Moon (that times its share of the mass).", "quantifier": "all elements with 0 < e < 1, inclination from 3 degrees up to below 180 degrees, mean motion not zero", "why_tests_cant": "A wrong coefficient in one of some fifty products changes an orbit by a slow drift only; no reference values besides those of the same formulas.", "anchors": ["src/deep.c: Deep_dpinit"]}
{"id": "C105", "title": "The periodic terms caused by Sun and Moon are the integrals of the deviations from the secular rates", "statement": "The terms applied at time t are the sum of terms of the Sun and of the Moon at their true anomalies; the derivative of each with respect to the true anomaly is the deviation of the rate of Lagrange's equations, for the body in that direction, from the secular rate, divided by the mean motion of the body (for argument of perigee and mean anomaly plus the variation of the isotropic part with the distance of the body), and each has mean zero.", "quantifier": "all elements as in C104, all times, all true anomalies", "why_tests_cant": "Sign or factor errors in one of the coefficients are hidden in terms of 1e-4; continuous families.", "anchors": ["src/deep.c: Deep_dpinit, Deep_dpper"]}
{"id": "C106", "title": "The orbits of Sun and Moon have the right orientation at every epoch", "statement": "The directions used for perigee and the point 90 degrees further of the apparent orbit of the Sun and of the orbit of the Moon are, within 1e-5, those of orbits with the obliquity 23.4441, the inclination 5.1454 to the ecliptic and the longitudes of node and perigee of the literature, for every epoch; the mean anomalies are those of the literature up to whole turns.", "quantifier": "all epochs, all times", "why_tests_cant": "The orientation of the Moon's orbit goes through all quadrants in 18.6 years; square roots and atan2 with branch points.", "anchors": ["src/deep.c: Deep_dpinit, Deep_dpper"]}
{"id": "C107", "title": "The short-period terms and secular rates of a circular orbit solve the motion around an oblate Earth", "statement": "To the first order in the coefficient of the second zonal harmonic, the velocity sxpx_posn_vel gives for a circular orbit is the derivative of the position it gives, and the derivative of that velocity is the attraction of the oblate Earth at that position.", "quantifier": "all mean axes > 0, inclinations, nodes, arguments of latitude and times; orbits of mean eccentricity zero, long-period terms switched off", "why_tests_cant": "The corrections to radius, latitude, node, inclination and the two velocities are formulas with different fractions of the same coefficient; a wrong fraction is an error of some kilometres for one inclination and none for another.", "anchors": ["src/common.c: sxpx_posn_vel, sxpx_common_init"]}
{"id": "C108", "title": "The secular rates are those of the averaged zonal harmonics", "statement": "The parts of xnodot, omgdot and xmdot linear in the coefficients of the second and fourth zonal harmonic satisfy Lagrange's planetary equations for the potential averaged over the orbit and the direction of the perigee, but for stated terms of the fourth harmonic with the factor e squared.", "quantifier": "all axes > 0, mean motions > 0, 0 < e < 1, inclinations with sine not zero", "why_tests_cant": "Drifts of perigee and node; wrong polynomial of the inclination agrees at the inclinations tried.", "anchors": ["src/common.c: sxpx_common_init"]}
{"id": "C109", "title": "The axis decays as a circular orbit in a power-law atmosphere", "statement": "With the perigee at 220 km or higher the axis a follows da/dt = -2 c1 sqrt(a0 a) ((a0 - s)/(a - s))^4 up to the fourth power of the time since the epoch, below 220 km up to the first; when the root of the axis has become negative the program returns -1 or -2 and no position.", "quantifier": "all elements with recovered axis > 0 and not equal to the level s of the density", "why_tests_cant": "Coefficients of t^2 to t^4 matter only after weeks; no outside reference.", "anchors": ["src/sgp4.c: SGP4_init, SGP4", "src/common.c: sxpx_common_init"]}
{"id": "C110", "title": "The drag terms of the angles agree with the decay of the axis", "statement": "The argument of latitude runs with the mean motion that Kepler's third law gives for the decayed axis, up to the fifth power of the time (perigee at 220 km or higher) or the second (lower); the acceleration of the node of a circular orbit is that of the rate for the decayed axis and its mean motion.", "quantifier": "all elements with recovered axis > 0; node: eccentricity zero", "why_tests_cant": "A position along the orbit drifts by t^2 to t^5 terms; only visible against independent long arcs.", "anchors": ["src/sgp4.c: SGP4_init, SGP4", "src/common.c: sxpx_common_init"]}
{"id": "C111", "title": "The periodic lunar and solar terms move the satellite as a perturbation of its elements should", "statement": "With an inclination of 0.2 radians or more the periodic terms added to the elements displace the satellite, to first order, along the orbit by pgh and across it by pinc sin u - ph cos u (u the argument of latitude), change eccentricity and mean anomaly by pe and pl, and a whole turn added to the node makes no difference.", "quantifier": "all elements with inclination >= 0.2, all arguments of latitude, all sizes of the terms (derivative at zero)", "why_tests_cant": "The division of ph by the sine of the inclination and the sign of its share in the perigee cancel in most of the result; a wrong sign is a few hundred metres at some argument of latitude.", "anchors": ["src/deep.c: Deep_dpper"]}
{"id": "C112", "title": "The form for small inclinations displaces the satellite as the direct form does", "statement": "Below 0.2 radians the modified (Lyddane) form displaces the satellite to first order as the direct form, for any node, also at the equator, and a whole turn added to the node makes no difference.", "quantifier": "all elements with inclination below 0.2", "why_tests_cant": "The wrong part has the node as a factor, so it is visible only far from node zero and for large changes of inclination.", "anchors": ["src/deep.c: Deep_dpper"]}
{"id": "C113", "title": "All sidereal times in the programs agree with the reference polynomial", "statement": "ThetaG of deep.c and of observe.c give the same angle, lie in [0, 2 pi) and agree, as does the local sidereal time reported, with the polynomial of the International Astronomical Union within 4e-7 degrees for two centuries around 2000.", "quantifier": "all dates (agreement of the two and range); dates with |jd - 2451545| <= 73050 (polynomial)", "why_tests_cant": "Whole days are removed before multiplication; an error of half a day or a wrong factor shows only for other times of the day.", "anchors": ["src/deep.c: ThetaG", "src/observe.c: ThetaG", "src/lmst_hr.c"]}
{"id": "C114", "title": "The right ascension of the zenith is the local sidereal time", "statement": "zenith_site_ra returns a value in [0, 360) which is the mean sidereal time of Greenwich plus the longitude, within 3 arcseconds; zenith_site_ra_last the same plus the equation of the equinoxes, in any history of calls.", "quantifier": "all dates 1900 to 2100, all longitudes from -180 to 180 degrees, all call histories", "why_tests_cant": "The wrap into one turn is done once and midnight is taken at half a day; only a proof covers all combinations of day fraction and longitude.", "anchors": ["src/zenith_site_ra.c: ut2gmst, ut2gast, ut2last, zenith_site_ra, zenith_site_ra_last", "src/earthtilt.c: earthtilt"]}
{"id": "C115", "title": "Sidereal time is accurate to an arcsecond", "statement": "ut2gmst agrees with the reference polynomial within one arcsecond from 1900 to 2100.", "quantifier": "all dates 1900 to 2100", "why_tests_cant": "The error comes from the suffix F of two constants and grows slowly with time: 0.2 seconds in a century.", "anchors": ["src/zenith_site_ra.c: ut2gmst"]}
{"id": "C116", "title": "Moon and Sun stand where the theory puts them", "statement": "The latitude of the Moon used for 'H' elements is the sum of the four largest terms of the theory, its longitude the mean longitude and the six largest terms within 0.00005 degrees; the longitude of the Sun agrees with the Almanac within 0.03 degrees from 1900 to 2100.", "quantifier": "all dates (Moon); dates from 1900 to 2100 (Sun)", "why_tests_cant": "Coefficients and multiples of angles; a wrong one is a small periodic error without outside reference.", "anchors": ["src/sdp4.c: lunar_solar_position"]}
{"id": "C117", "title": "The Moon's distance is that of the theory", "statement": "The distance of the Moon used for 'H' elements is the mean distance and the four largest terms of the theory.", "quantifier": "all dates", "why_tests_cant": "An error of 0.3 per cent at most in the distance, periodic.", "anchors": ["src/sdp4.c: lunar_solar_position"]}
{"id": "C118", "title": "At the date of the elements an 'H' element set gives back its own position and velocity", "statement": "For time zero the position and velocity returned are those stored in the elements, in km and km per minute.", "quantifier": "all elements of type 'H'", "why_tests_cant": "Rotation to the ecliptic and back, units and the order of six members of a structure; equality must hold for all vectors.", "anchors": ["src/sdp4.c: init_high_ephemeris, high_ephemeris"]}
{"id": "C119", "title": "Elements of type 'H' are propagated by Newton's law to the fourth order", "statement": "The derivative computed is velocity and acceleration of Newton's law for the attraction of Earth, Moon and Sun relative to the Earth, and one step of the integration agrees with every motion that follows this law up to the fifth power of the length of the step.", "quantifier": "all states not at the centre of a body, all dates after Julian date zero, all cache states", "why_tests_cant": "The order of a method is a limit; a wrong weight or time of a stage gives a method of lower order whose results still look right.", "anchors": ["src/sdp4.c: calc_accel, calc_state_vector_deriv, high_ephemeris"]}
{"id": "C120", "title": "Visibility: the pass reported is the first maximal run of visible samples", "statement": "When a pass is reported its start group shows the first and its end group the sample after the last element of the first uninterrupted run of visible samples (the last element itself when the range ends there), and there are exactly the four groups start, end, mid, max.", "quantifier": "all ranges, steps, histories for which the search ends", "why_tests_cant": "Quantifies over all histories of samples.", "anchors": ["src/sat_visibility.c: main (time loop)"]}
{"id": "C121", "title": "Visibility: 'Date' is the instant of the satellite's data", "statement": "In each of the four groups the date printed is that of the instant for which the position of the satellite was computed, up to a millisecond and the rounding to seconds.", "quantifier": "ordinary dates (JD 0 to 4194000), steps of one second to one day, all histories", "why_tests_cant": "The date is reconstructed from the loop variable after it has moved on by one step and after rounding.", "anchors": ["src/sat_visibility.c: main (time loop)"]}
{"id": "C122", "title": "Visibility: 'MJD' is the instant of the satellite's data", "statement": "In each of the four groups the MJD printed is that of the instant for which the position of the satellite was computed.", "quantifier": "ordinary dates, steps of one second to one day, all histories", "why_tests_cant": "All four groups share one variable; a stale value looks like a plausible date.", "anchors": ["src/sat_visibility.c: main (time loop)"]}
{"id": "C123", "title": "Visibility: Sun and satellite of one group belong to the same instant", "statement": "In each of the four groups the data of the Sun are computed for the same instant as those of the satellite.", "quantifier": "ordinary dates, steps of one second to one day, all histories", "why_tests_cant": "Stale by one step only on one way of leaving the loop.", "anchors": ["src/sat_visibility.c: main (time loop)"]}
{"id": "C124", "title": "Visibility: 'mid' is the middle of the pass", "statement": "The instant of the group 'mid' is halfway between the instants of the groups start and end.", "quantifier": "ordinary dates, steps of one second to one day, all histories", "why_tests_cant": "An error of half a step or a step, depending on how the pass ended.", "anchors": ["src/sat_visibility.c: main (time loop)"]}
{"id": "C125", "title": "Visibility: 'PA' and 'Speed' belong to the instant of their group", "statement": "In each of the four groups the position angle and the speed of motion are measured from the instant for which the position of the satellite in that group was computed.", "quantifier": "all ranges, steps, histories for which the search ends", "why_tests_cant": "The two values are kept in a global structure and plausible at any instant.", "anchors": ["src/sat_visibility.c: main (time loop), get_sat_PA_and_speed"]}
{"id": "C126", "title": "Visibility: positions are converted to J2000 exactly once", "statement": "In each of the four groups ra and dec have been converted from the equinox of date to J2000 exactly once.", "quantifier": "all ranges, steps, histories for which the search ends", "why_tests_cant": "A second conversion changes the position by a fraction of a degree and only for one shape of pass.", "anchors": ["src/sat_visibility.c: main (time loop), get_sat_PA_and_speed"]}
{"id": "C127", "title": "Visibility: accepted parameters are in range", "statement": "If the option loop of sat_visibility ends regularly, the latitude is in [-90,90], the altitude range is ordered, catalogue number and time step are ints and the texts fit their buffers.", "quantifier": "all command lines", "why_tests_cant": "All argument strings in all combinations.", "anchors": ["src/sat_visibility.c: main (option loop) 576-669"]}
{"id": "C128", "title": "Visibility: options may be given in any order", "statement": "Two documented command lines of sat_visibility that differ only in the order of their items set the same parameters.", "quantifier": "documented command lines whose items have different letters, without the pairs d/j, a/i, a/s, D/T", "why_tests_cant": "All orders of all sets of options with all values.", "anchors": ["src/sat_visibility.c: main (option loop) 576-669"]}
{"id": "C129", "title": "Visibility: a full number or designator selects the first record carrying it", "statement": "If the catalogue numbers of the records are written with five digits, -s N makes sat_visibility analyse the first record, in the order of the files, whose number is N; if all designators have one piece letter, -i with a full designator YYYY-NNNX analyses the first record carrying exactly that designator. If there is no such record the answer is status 1 with the name of the last file.", "quantifier": "all files of well-formed records, all requests of these two forms, one file or a list", "why_tests_cant": "Depends on the contents and order of all files.", "anchors": ["src/sat_visibility.c: main (record search) 691-808"]}
{"id": "C130", "title": "Visibility: the answer names the record that was analysed", "statement": "If sat_visibility reports a pass, the members name, intl_desig and norad_n are the name, the full designator (\"none\" if blank) and the number of the first record that answers the request.", "quantifier": "all files of well-formed records with blank or one-letter designators; requests by exactly one of -s and -i", "why_tests_cant": "The arrays for name and designator are reused over all records of all files.", "anchors": ["src/sat_visibility.c: main 750-808, 941-972"]}
{"id": "C131", "title": "Visibility: the output is one JSON object", "statement": "Every answer of sat_visibility is a single well-formed JSON object.", "quantifier": "all command lines, files and numerical results", "why_tests_cant": "All combinations of options, texts, endings of the time loop and errors.", "anchors": ["src/sat_visibility.c: main 541-1082", "src/sat_visibility.c: open_json, add_params_json, add_satlatlon_json, add_satdata_json, add_sundata_json, close_stat_json 332-400"]}
{"id": "C132", "title": "Visibility: every answer tells its cause", "statement": "Every answer of sat_visibility has a status and a message with a cause among the documented ones; the status is 0 only if the options were accepted with a location and a request.", "quantifier": "all command lines, files and numerical results", "why_tests_cant": "All error paths in all combinations.", "anchors": ["src/sat_visibility.c: main 541-1082"]}
{"id": "C133", "title": "Visibility: the region printed is the zenith of the observer", "statement": "The member region of input_params gives right ascension and declination of the zenith and the local sidereal time, and gmst the sidereal time of Greenwich, at the beginning of the interval.", "quantifier": "all answers with exit code 0", "why_tests_cant": "Depends on time and place; a wrong constant looks plausible.", "anchors": ["src/sat_visibility.c: add_params_json 339-345, main 822-828"]}
{"id": "C134", "title": "Visibility: the exit code is the status", "statement": "The exit code of sat_visibility equals the member status of the answer.", "quantifier": "all command lines, files and numerical results", "why_tests_cant": "All error paths in all combinations.", "anchors": ["src/sat_visibility.c: main 541-1082"]}
{"id": "C135", "title": "The drag coefficients are means over the orbit in a power-law atmosphere", "statement": "Without the part due to the flattening, -2 a B* C2 is the time mean over the ellipse of Gauss's rate of the axis, and -B* C4 that of the eccentricity, for a drag B* q/(r - s)^4 v^2 against the velocity, up to relative errors between 0 and 2e^2/(1-e), resp. of at most 0.6 e/(1-e). These are the rates at which the axis (at the epoch) and the eccentricity (up to a bounded term) change in the program.", "quantifier": "all elements with 0 <= e < 1, recovered axis and mean motion > 0 and the perigee above 20 km", "why_tests_cant": "The coefficients are closed forms of integrals over the orbit; an outside reference has the same formulas.", "anchors": ["src/common.c: sxpx_common_init 64-99", "src/sgp4.c: SGP4 104-147"]}
{"id": "C136", "title": "The flattening enters the drag through the height of the orbit", "statement": "The part of C2 that is proportional to the flattening is the first-order effect on the mean density of the radial displacement -3 k2 (3 cos^2 i - 1)/(2 a) of the orbit.", "quantifier": "all elements with 0 <= e < 1, recovered axis > 0 and the perigee above 20 km", "why_tests_cant": "A contribution of a thousandth to an uncertain quantity.", "anchors": ["src/common.c: sxpx_common_init 91-92"]}
{"id": "C137", "title": "SGP: the mean elements follow the given mean motion", "statement": "In SGP the mean longitude moves with the mean motion n(t) and the rates of node and perigee; n(t) has the derivatives 2 xndt2o and 6 xndd6o at the epoch; axis and mean motion obey Kepler's third law; the perigee distance of the epoch is kept while the axis is longer than it, afterwards the orbit is almost circular; at the epoch axis, eccentricity and longitude are those of the set.", "quantifier": "all elements with positive mean motion and axis, all times at which n(t) > 0; for the epoch an eccentricity > 0", "why_tests_cant": "Holds for all times and elements; a wrong factor 2 or 3 of the drag terms shows only after days.", "anchors": ["src/sgp.c: SGP_init 34-61, SGP 80-107", "src/get_el.c: 354-358"]}
{"id": "C138", "title": "SGP: a perigee inside the Earth is reported", "statement": "SGP returns -4 when the perigee of the orbit is inside the Earth, -3 when the whole orbit is, -2 with zero vectors when the mean motion has become negative.", "quantifier": "all elements and times", "why_tests_cant": "The code depends on thresholds of real quantities.", "anchors": ["src/sgp.c: SGP 80-101"]}
{"id": "C139", "title": "SGP: Kepler's equation is solved", "statement": "When the loop of SGP is left by its test, the residual of Kepler's equation is at most 0.75 e 10^-12 and the eccentric longitude is within that over 1 - e of the solution; for eccentricities up to 1/2 this always happens; otherwise the failure is reported.", "quantifier": "all eccentricity vectors of length < 1, all longitudes", "why_tests_cant": "Convergence of an iteration for a continuum of inputs.", "anchors": ["src/sgp.c: SGP 115-133"]}
{"id": "C140", "title": "SGP: position and velocity lie in the orbital plane, with the speed of the ellipse", "statement": "Position and velocity lie in one plane through the centre of the Earth; node and inclination differ from those of the mean orbit by at most 1.5 k2/p^2 and 0.75 k2/p^2, the distance from that on the ellipse by at most k2/(2p); the square of the speed is k_e^2 (2/r - 1/a).", "quantifier": "all axes > 0, eccentricities < 1, longitudes, nodes, inclinations", "why_tests_cant": "A statement about all orientations.", "anchors": ["src/sgp.c: SGP 135-182"]}
{"id": "C141", "title": "The resonance coefficients use Kaula's inclination functions", "statement": "A spherical harmonic of the degrees and orders used by the program, along an orbit of any inclination, is the sum over p of Kaula's F_lmp times a wave of the angle (l-2p)u + m h; the functions of the inclination in Deep_dpinit are these F_lmp for the terms kept (two of them up to rounded constants, within 4 10^-6).", "quantifier": "all inclinations, arguments of latitude, node longitudes and coefficients; all element sets", "why_tests_cant": "Polynomial identities in sine and cosine for all angles; a wrong coefficient would only distort the motion over months.", "anchors": ["src/deep.c: Deep_dpinit 309-330, 401-411"]}
{"id": "C142", "title": "The resonance acceleration is the derivative of the mean tesseral potential", "statement": "The potential of a harmonic, averaged over a revolution during which the Earth turns by one or half a turn, is the sum of F_lmp times Hansen's coefficients times waves of the resonant longitude; the acceleration that compute_dpsec_derivs integrates is -3/a^2 times the derivative of the kept terms with respect to that longitude; for circular synchronous orbits the potential is met exactly.", "quantifier": "all element sets, times and longitudes", "why_tests_cant": "Connects the program with an integral over the orbit; holds for a continuum of inputs.", "anchors": ["src/deep.c: Deep_dpinit 299-418, compute_dpsec_derivs"]}
{"id": "C143", "title": "SDP4 writes a position for resonant orbits", "statement": "SDP4 leaves pos and vel unset exactly when it returns -5, i.e. when the integrated mean motion is negative. That never happens for orbits without resonance; for 12-hour orbits with eccentricity up to 0.8 it does not happen as long as the requested times move by less than a year in all, for synchronous orbits by less than four years, whatever sequence of times was asked for.", "quantifier": "all element sets with 0 <= e <= 0.8, period above that of a ground-level orbit, inclination up to 177 degrees; all sequences of times within the given distance; settings of the programs", "why_tests_cant": "The integration state carries over from call to call, so the claim is about every sequence of requests; the bound needs the worst case over all phases and inclinations.", "anchors": ["src/sdp4.c: SDP4", "src/deep.c: Deep_dpsec, Deep_dpinit, compute_dpsec_derivs"]}
{"id": "C144", "title": "Functions of the library loaded at run time are found and called correctly", "statement": "Whatever sequence of initialisations, propagations and version requests is made through dynamic.c, the answers are -2 without the library, -1 without the function, and otherwise those of the function, and no pointer is called that does not point into the loaded library; this holds as long as the library is not unloaded, or comes back unchanged at the same address.", "quantifier": "all worlds (outcomes of LoadLibrary and GetProcAddress), all sequences of requests for the propagators 0 to 4", "why_tests_cant": "The static variables make the outcome depend on the whole history; tests run with one library at one address.", "anchors": ["src/dynamic.c: load_sat_code_lib, SXPX_init, SXPX, get_sat_code_lib_version"]}
{"id": "C145", "title": "Unloading the library leaves nothing behind", "statement": "After the library was unloaded (SXPX_init with NULL), later requests are answered by the library that is then found, or with -2 if there is none; the answers tell a missing library, a missing function and the codes of the propagators apart.", "quantifier": "all worlds, all sequences of requests", "why_tests_cant": "Needs a library that moves, disappears or appears between two loads.", "anchors": ["src/dynamic.c: SXPX_init, SXPX", "src/norad.h: 85-90"]}
{"id": "C146", "title": "The higher derivatives that SGP8_init computes are the derivatives along the decay", "statement": "When the mean motion, the eccentricity and the perigee change by the rates SGP8 has for them (xndt, edot, xgdt1, with the axis following Kepler's third law), the second derivatives of mean motion and eccentricity are xnddt and eddot and the third derivative of the mean motion is xntrdt, whatever the drag and the inclination; every such orbit starts a decay.", "quantifier": "all drag coefficients and inclination functions, all orbits with the perigee above the level s; for the third derivative eccentricity other than 0", "why_tests_cant": "About forty intermediate quantities differentiated by hand in the source; a wrong term changes predictions by little and grows with time.", "anchors": ["src/sgp8.c: SGP8_init lines 97-207"]}
{"id": "C147", "title": "The laws by which SGP8 lets an orbit decay agree with the derivatives at the epoch", "statement": "With strong drag the power laws for mean motion and eccentricity have at the epoch the value and the first three (eccentricity: two) derivatives of the decay, and the term in the mean anomaly is the integral of the change of the mean motion; with weak drag the laws are linear, the mean motion with its rate, the eccentricity so that the perigee distance is stationary.", "quantifier": "all element sets for which SGP8_init finds numbers, with the perigee above the level s; times before 1/gamma", "why_tests_cant": "The fit solves for exponents with scale factors 1e9 and 1e18 against rounding; a slip changes only the third derivative.", "anchors": ["src/sgp8.c: SGP8_init lines 205-224", "src/sgp8.c: SGP8 lines 243-264"]}
{"id": "C148", "title": "SGP8 has the secular rates of SGP4 and changes them by their derivatives with respect to the mean motion", "statement": "The rates of mean anomaly, perigee and node are those of SGP4, and the drag adds to each angle the derivative of its first-order rate with respect to the mean motion (the axis following Kepler's third law) times the integrated change of the mean motion.", "quantifier": "all element sets with the perigee above the level s for which SGP8_init finds numbers, all times at which the law has numbers", "why_tests_cant": "Two codes with differently arranged formulas; the factor 7/3 is a derivative that no output shows.", "anchors": ["src/sgp8.c: sxp8_common_init lines 50-78", "src/sgp8.c: SGP8 lines 243-268"]}
{"id": "C149", "title": "SGP8 says so when it has no position", "statement": "SGP8 returns the code 0 only with a position that is a number.", "quantifier": "all element sets, all times", "why_tests_cant": "The return value is constant; NaN shows up only for orbits and times where a law or a square root ends.", "anchors": ["src/sgp8.c: SGP8_init lines 165-224", "src/sgp8.c: SGP8 lines 227-360"]}
{"id": "C150", "title": "SGP8 solves Kepler's equation and takes the true anomaly in the same turn as the mean anomaly", "statement": "The eccentric anomaly used fulfils Kepler's equation to 1.9e-6, and the true anomaly computed lies between the mean anomaly and the apogee, in the same half of the orbit, so that the equation of the centre is not a turn off.", "quantifier": "eccentricities 0 to 9/10 at the time asked for, all mean anomalies (in [0, 2 pi) for the second part)", "why_tests_cant": "The iteration stops after at most 11 passes without a check; the turn matters only at the perigee.", "anchors": ["src/sgp8.c: SGP8 lines 269-306"]}
{"id": "C151", "title": "The vectors SGP8 takes from longitude and half-inclination components are those of the orbit", "statement": "For y4 = sin(i/2) sin u, y5 = sin(i/2) cos u and the longitude u + node the two vectors are the unit vectors toward the satellite and along the motion of an orbit with these angles; for any components in the unit disc they are orthonormal, so distance and speed are those computed.", "quantifier": "all angles with cos(i/2) >= 0; all components in the unit disc", "why_tests_cant": "The formula has no singularity at inclination 0 and no visible relation to the classical one.", "anchors": ["src/sgp8.c: SGP8 lines 336-358"]}
{"id": "C152", "title": "The drag rates of SGP8 are means over the orbit in an atmosphere of the fourth power", "statement": "The rate of the mean motion (eccentricity) is the mean over one revolution of Gauss's equation for a drag proportional to density and squared speed, with a density falling with the fourth power of the distance from the level s, up to a relative error of 36 e^3 (40 e^2); the terms of the flattening and of the third harmonic are the effect on that mean of the periodic variation of the distance that SGP8 itself has in the position.", "quantifier": "all drag coefficients, inclinations and orbits with the perigee above the level s; the field terms to the lowest order in the eccentricity, to all orders in eta", "why_tests_cant": "Ten polynomials in eta whose origin is an integral; no output shows one of them alone.", "anchors": ["src/sgp8.c: SGP8_init lines 102-127, 135-154", "src/sgp8.c: SGP8 lines 288-334"]}
{"id": "C153", "title": "The rate of the eccentricity in SGP8 is complete to the second power of the eccentricity", "statement": "The rate of the eccentricity is the mean over one revolution up to a multiple of e^3, as its terms up to e^2 suggest.", "quantifier": "all orbits with the perigee above the level s", "why_tests_cant": "The missing factor 1 + e^2 changes the result by one part in ten thousand for e = 0.01.", "anchors": ["src/sgp8.c: SGP8_init lines 118-122, 153-154"]}
{"id": "C154", "title": "Drag in a flattened field does not make a circular orbit eccentric", "statement": "At eccentricity 0 the rate of the eccentricity by drag has no term of the flattening: every part of the orbit with the opposite one adds nothing to the mean.", "quantifier": "all orbits with eccentricity 0 and perigee above 20 km", "why_tests_cant": "SGP4 cuts the eccentricity off at 1e-6, so that the sign of the rate decides whether anything is seen at all.", "anchors": ["src/common.c: sxpx_common_init lines 95-99", "src/sgp8.c: SGP8_init lines 153-154"]}
{"id": "C155", "title": "Without harmonics SGP8 is motion on a Kepler ellipse", "statement": "With the periodic terms of the harmonics removed, the position of SGP8 is the point of the ellipse with the mean motion, eccentricity, inclination, node and perigee of the mean elements, and the velocity is its derivative with respect to time.", "quantifier": "all mean elements with positive mean motion, eccentricity in [0,1), inclination from 0 to 180 degrees, all mean anomalies", "why_tests_cant": "A velocity that is not the derivative of the position is only visible by differencing outputs, where the periodic terms hide it.", "anchors": ["src/sgp8.c: SGP8 lines 288-358"]}
{"id": "C156", "title": "SGP8 and SGP4 agree on circular orbits to first order in the harmonics", "statement": "To the first order in the coefficient of the second zonal harmonic the positions and velocities of SGP8 on a circular orbit are those of SGP4, and these are the motion around the oblate Earth; to the first order in the coefficient of the third harmonic positions and velocities of both are the same.", "quantifier": "all circular orbits with inclination below 180 degrees, all nodes, arguments of latitude and times", "why_tests_cant": "The two propagators use different variables for the orientation; their outputs differ by terms of the second order, so a comparison needs a tolerance that hides a wrong coefficient.", "anchors": ["src/sgp8.c: sxp8_common_init lines 50-78", "src/sgp8.c: SGP8 lines 288-358", "src/common.c: sxpx_posn_vel"]}
{"id": "C157", "title": "Without drag SDP8 and SDP4 compute from the same elements", "statement": "Without drag the perturbed elements from which SDP8 computes a position are those from which SDP4 computes it, and the two keep the same from call to call; at the epoch the elements agree with drag as well.", "quantifier": "all element sets with B* = 0 (any B* at the epoch), all times, all histories of calls in which SDP4 wrote a position, resonant orbits included", "why_tests_cant": "The two initialisations share deep_arg but fill different members; a member read by deep.c and set by only one of them matters only for some resonance.", "anchors": ["src/sdp8.c: SDP8_init lines 36-89", "src/sdp8.c: SDP8 lines 106-125", "src/sdp4.c: SDP4 lines 294-328", "src/deep.c: Deep_dpsec, Deep_dpper"]}
{"id": "C158", "title": "Without harmonics SDP8 is on the ellipse of its perturbed elements and agrees with SDP4", "statement": "With the periodic terms of the harmonics removed, the position of SDP8 is the point of the ellipse of the perturbed elements, the velocity is its derivative, and both are those that SDP4 computes from the same elements.", "quantifier": "all perturbed elements with positive mean motion, eccentricity in [0,1), inclination from 0 to 180 degrees, all eccentric anomalies", "why_tests_cant": "The outputs contain the periodic terms of the harmonics, which differ between the two by second order terms.", "anchors": ["src/sdp8.c: SDP8 lines 146-219", "src/common.c: sxpx_posn_vel"]}
{"id": "C159", "title": "SDP8 says so when it has no position", "statement": "SDP8 returns the code 0 only with a position that is a number.", "quantifier": "all element sets, all times, all histories of calls", "why_tests_cant": "The return value is constant; NaN shows up only for orbits and times far from the epoch.", "anchors": ["src/sdp8.c: SDP8 lines 126-219"]}
{"id": "C160", "title": "The terms of SGP8 for the third harmonic are the slow variation of the orbit, at any eccentricity", "statement": "To the first order the position of SGP8 (and of SDP8) moves with the coefficient a3ovk2 exactly as the point of the Kepler ellipse whose elements have the variation that Lagrange's equations give for the third zonal harmonic averaged over the orbit and integrated over the time in which the oblateness turns the perigee.", "quantifier": "all eccentricities in (0,1), all inclinations except 0 and 180 degrees, all positions on the orbit; the second harmonic in its rate of the perigee only; first order in the coefficient", "why_tests_cant": "The terms are of the order of a kilometre and mixed with those of the second harmonic in every output; the expressions differ in form from those of SGP4, and agree with it only for small eccentricities.", "anchors": ["src/sgp8.c: SGP8 lines 288-334", "src/sdp8.c: SDP8 lines 146-194", "src/norad_in.h: a3ovk2"]}
{"id": "C161", "title": "The terms of SGP4 and SGP for the third harmonic are the leading part of the slow variation", "statement": "The terms SGP4 (aycof, xlcof) and SGP (c5, c6) add to e sin g, e cos g and the mean longitude are the slow variation by the third harmonic up to the stated multiples of e^2, e^2 and e^3; the variation of the plane of the orbit, proportional to e, is what they leave out.", "quantifier": "all eccentricities in (0,1), all inclinations except 0 and 180 degrees; first order in the coefficient", "why_tests_cant": "See C160; a wrong rational coefficient in xlcof moves the satellite by a few hundred metres on eccentric orbits only.", "anchors": ["src/common.c: sxpx_posn_vel lines 137-146", "src/sgp.c: SGP_init lines 34-61", "src/sgp.c: SGP lines 102-117"]}
{"id": "C162", "title": "SGP and SGP4 agree to first order in the oblateness on every orbit", "statement": "Without drag and without the third harmonic, and with the exact solutions of Kepler's equation, the derivative of the position of SGP with respect to the coefficient of the second harmonic is that of SGP4 at every time; at coefficient zero both are the same point of a Kepler ellipse. The two reach it by different means: SGP keeps the given mean motion and shortens the axis, SGP4 recovers another mean motion and a longer axis and scales the distance.", "quantifier": "all mean motions > 0, all eccentricities in (0,1), all inclinations, perigees, nodes, mean anomalies and times; first order in the coefficient, exact arithmetic", "why_tests_cant": "The outputs differ in the second order and by the drag models, so every comparison of the two needs a tolerance of several kilometres, in which a wrong first-order coefficient disappears; SGP is not called by the programs and has no test.", "anchors": ["src/sgp.c: SGP_init lines 34-61", "src/sgp.c: SGP lines 64-184", "src/common.c: sxpall_common_init lines 32-50", "src/common.c: sxpx_common_init lines 101-115", "src/common.c: sxpx_posn_vel lines 225-279", "src/sgp4.c: SGP4 lines 104-150"]}
{"id": "C163", "title": "What drag does to the elements in SDP8", "statement": "The mean motion of SDP8 grows linearly with the rate of SGP8. Drag advances the mean anomaly by the integral of the change of the mean motion; it advances mean anomaly, perigee and node further by that integral times the derivative of their first-order secular rates with respect to the mean motion (the axis follows Kepler's third law). The eccentricity changes linearly so that the perigee distance is stationary at the epoch. Perigee and node get this before the secular perturbations of Sun and Moon, the rest after them.", "quantifier": "all element sets whose perigee is above the density reference level of 78 km, with 0 < mean motion and |eccentricity| < 1; all times, all states of the perturbation routines; exact arithmetic", "why_tests_cant": "The drag of deep-space orbits is so weak that a wrong factor (7/3 replaced by 1) changes positions by metres over weeks, below every tolerance; SDP8 is not called by the programs and has no test.", "anchors": ["src/sdp8.c: SDP8_init lines 36-89", "src/sdp8.c: SDP8 lines 106-125", "src/common.c: sxp8_common_init"]}
{"id": "C164", "title": "The pixel of a direction contains it", "statement": "The NESTED pixel number computed for a direction is that of a square on one of the twelve faces which contains the image of the direction under the HEALPix projection of the sphere to the plane (boundary included).", "quantifier": "nside a power of two up to 2^13 (32 bit) and 2^29 (64 bit), all directions, longitude given with any number of whole turns; exact arithmetic", "why_tests_cant": "The existing test only goes from pixel centres back to pixels, so a direction near the edge of a pixel may be put into a neighbour, or into a wrong face, without a test noticing it.", "anchors": ["HealpixC/chealpix.c: ang2pix_nest_z_phi lines 232-279", "HealpixC/chealpix.c: ang2pix_nest_z_phi64 lines 639-690"]}
{"id": "C165", "title": "Finer divisions refine coarser ones", "statement": "The NESTED pixel number of a direction at nside 2^k is that at nside 2^l, k ≤ l, divided by 4^(l-k): the pixels form a tree, as users of the multi-order maps rely on.", "quantifier": "all k ≤ l ≤ 13 (32 bit) and l ≤ 29 (64 bit), all directions; exact arithmetic", "why_tests_cant": "A rounding direction that differs between the faces, or between the belt and the caps, only shows for directions on few pixel boundaries and only when two resolutions are compared.", "anchors": ["HealpixC/chealpix.c: ang2pix_nest_z_phi lines 232-279", "HealpixC/chealpix.c: ang2pix_nest_z_phi64 lines 639-690", "HealpixC/chealpix.c: xyf2nest lines 106-132"]}
{"id": "C166", "title": "RING and NESTED agree about every direction", "statement": "For every direction the RING pixel number is the NESTED pixel number converted by nest2ring: the two searches, which compute a ring and a place in it by different formulas, never assign a direction to two different pixels.", "quantifier": "nside a power of two up to 2^13 (32 bit) and 2^29 (64 bit), all directions with colatitude in [0, π] and any longitude; exact arithmetic", "why_tests_cant": "The two functions round at different places (the RING search multiplies the longitude by the ring number, the NESTED search intersects edge lines); a disagreement would only show for directions on or near pixel edges, of which a test can only sample a few.", "anchors": ["HealpixC/chealpix.c: ang2pix_ring_z_phi lines 280-318", "HealpixC/chealpix.c: ang2pix_nest_z_phi lines 232-279", "HealpixC/chealpix.c: ang2pix_ring_z_phi64 lines 691-730", "HealpixC/chealpix.c: nest2ring lines 468-474", "HealpixC/chealpix.c: xyf2ring lines 151-183"]}
{"id": "C167", "title": "All pixels have the same area", "statement": "The set of directions that are given one pixel number has the area 4π / (12 nside²) on the unit sphere (in the coordinates height and longitude, whose area element is dz dφ), for every pixel and both numberings.", "quantifier": "NESTED: nside a power of two up to 2^13 (32 bit) and 2^29 (64 bit); RING: every nside from 1 to 8192 (32 bit) and 2^29 (64 bit), powers of two or not; all 12 nside² pixels; exact arithmetic", "why_tests_cant": "Equal areas are what the density maps made with the pixel numbers rely on; an area is a property of infinitely many directions, and a wrong constant in a cap (for example sqrt(3(1-z)) without the 3) keeps pixel centres in their pixels near the poles while changing the areas.", "anchors": ["HealpixC/chealpix.c: ang2pix_nest_z_phi lines 232-278", "HealpixC/chealpix.c: ang2pix_ring_z_phi lines 280-318", "HealpixC/chealpix.c: ang2pix_nest_z_phi64 lines 639-689", "HealpixC/chealpix.c: ang2pix_ring_z_phi64 lines 691-730"]}
{"id": "C168", "title": "The centre of the pixel of a direction is near the direction", "statement": "For every direction the pixel search succeeds, the pixel number it gives has a centre, and the chord of the unit sphere from the direction to that centre is shorter than 1.7 / nside.", "quantifier": "all colatitudes 0..π, all real longitudes; RING: every nside from 1 to 8192 (32 bit) and 2^29 (64 bit); NESTED: nside a power of two up to 2^13 (32 bit) and 2^29 (64 bit); exact arithmetic", "why_tests_cant": "Round trips of pixel centres (C45) say nothing about directions away from the centres; a direction put into a wrong but valid pixel, for example across the seam at longitude 0 or in the wrong quarter of a cap, passes them. The bound excludes this for all directions at once.", "anchors": ["HealpixC/chealpix.c: ang2pix_nest_z_phi lines 232-278", "HealpixC/chealpix.c: ang2pix_ring_z_phi lines 280-318", "HealpixC/chealpix.c: pix2ang_ring_z_phi lines 320-355", "HealpixC/chealpix.c: pix2ang_nest_z_phi lines 357-391", "HealpixC/chealpix.c: ang2pix_nest_z_phi64 lines 639-689", "HealpixC/chealpix.c: ang2pix_ring_z_phi64 lines 691-730"]}
{"id": "C169", "title": "Vectors and angles of HEALPix are inverse to each other", "statement": "ang2vec gives the unit vector with colatitude theta and longitude phi; vec2ang of any vector gives a colatitude in [0, π] and a longitude in [0, 2π), and the vector is its length times the unit vector with these angles; vec2ang of k·ang2vec(theta, phi) is (theta, phi).", "quantifier": "all real angles and vectors; the round trip for 0 < theta < π, 0 ≤ phi < 2π, k > 0; exact arithmetic", "why_tests_cant": "All quadrants, the seam at longitude 0 and every length of the vector are covered at once; exchanged arguments of atan2 or a missing correction of negative longitudes is invisible for vectors in the first quadrant.", "anchors": ["HealpixC/chealpix.c: ang2vec lines 394-400", "HealpixC/chealpix.c: vec2ang lines 402-407"]}
{"id": "C170", "title": "The pixel of a vector is the pixel of its direction", "statement": "vec2pix of a vector other than zero is ang2pix of vec2ang of the vector, and does not change when the vector is multiplied by a positive number; vec2pix of ang2vec(theta, phi) is ang2pix(theta, phi); pix2vec of a pixel is the unit vector of the angles pix2ang gives, and vec2pix leads back to the pixel. Both numberings, 32 and 64 bit.", "quantifier": "all nside and vectors for the first part; 0 < theta < π and all real phi for the second; for the third all pixels, RING nside 1..8192 (32 bit) and 1..2^29 (64 bit), NESTED powers of two up to the same limits; exact arithmetic", "why_tests_cant": "The vector functions compute height, distance from the axis and longitude by formulae of their own (other ones near the poles in the 64 bit version), and nothing but agreement for all vectors shows that they are the same.", "anchors": ["HealpixC/chealpix.c: vec2pix_ring lines 428-432", "HealpixC/chealpix.c: vec2pix_nest lines 433-437", "HealpixC/chealpix.c: pix2vec_ring lines 450-458", "HealpixC/chealpix.c: pix2vec_nest lines 459-467", "HealpixC/chealpix.c: vec2pix_ring64 lines 842-848", "HealpixC/chealpix.c: vec2pix_nest64 lines 849-855", "HealpixC/chealpix.c: pix2vec_ring64 lines 868-876", "HealpixC/chealpix.c: pix2vec_nest64 lines 877-885"]}
{"id": "C171", "title": "The horizon functions of zenith_site_ra.c lead back to the sky", "statement": "For every azimuth, elevation and latitude, the hour angle and declination slaDh2e gives are those of the object seen there (north, east and up components agree), with hour angle in (-π, π] and declination in [-π/2, π/2]. From the altitude and azimuth of dechalat2alt it gives back declination and (wrapped) hour angle. sph2v gives the unit vector of a right ascension and declination in degrees.", "quantifier": "all real angles; for the way back from dechalat2alt its general case (hour angle not 0, cosine of the latitude at least 1e-6, declination at least 1e-6 from the latitude) and |declination| < π/2; exact arithmetic", "why_tests_cant": "No program calls these functions, so no run shows an error in them; an exchanged sine or a sign wrong in one quadrant only shows for particular combinations of three angles.", "anchors": ["src/zenith_site_ra.c: slaDh2e lines 156-177", "src/zenith_site_ra.c: sph2v lines 137-147", "src/dechalat2alt.c: dechalat2alt lines 13-81"]}
{"id": "C172", "title": "The date with milliseconds is right to a millisecond and has valid fields", "statement": "mjd2datef prints a date of the calendar, and the instant of date, time and milliseconds is not after the argument and less than 1 ms before it, up to the rounding of the argument. In IEEE arithmetic all fields are in range (milliseconds 0..999), and the text fits the 24 byte buffer exactly if the year is in -999..9999.", "quantifier": "all arguments from -2468569 (4900 BC) on for which the function does not return NULL; accuracy for every rounding to nearest, validity for IEEE double", "why_tests_cant": "Whether the milliseconds can become 1000 depends on roundings of four successive remainders for every double; only the 60 extreme doubles matter, and no sampling finds them.", "anchors": ["src/mjd2date.c: mjd2datef lines 77-129"]}
{"id": "C173", "title": "The eccentricity functions of synchronous orbits are Hansen's coefficients, and what is left out is of second order", "statement": "The functions g200, g300, g310 of the eccentricity e agree with the mean over a revolution of (a/r)^(l+1) cos k(f-M) for (l,k) = (2,2), (3,3), (3,1): up to K e^5 for g200, up to 5e-6 e^4 + K e^5 for g300 (6.60937 stands for 423/64), and g310 lacks exactly the term 239/64 e^4. All other terms of the three harmonics are at most K e^2. Hence the resonance acceleration differs from -3/a^2 times the derivative of the mean potential of the three harmonics by at most K e^2 n^2.", "quantifier": "all eccentricities from 0 to 1/4 with one constant K; for the acceleration all element sets of synchronous orbits with semimajor axis at least one Earth radius, all perigees, times and longitudes; exact arithmetic", "why_tests_cant": "The functions are truncated series of integrals along an ellipse; a wrong coefficient changes the position after weeks by less than the error of the elements, and no test has the integrals to compare with.", "anchors": ["src/deep.c: Deep_dpinit lines 401-418"]}
{"id": "C174", "title": "The fitted eccentricity functions of 12-hour orbits are Hansen's coefficients to a known accuracy", "statement": "For eccentricities from 0.5 to 0.77 each of the ten piecewise polynomials g201 ... g533 differs from the mean over a revolution of (a/r)^(l+1) cos(kf - jM), with the degree l and the angle that belong to its term, by at most: g201 0.002; g211 0.02 up to e = 0.65, 0.015 above; g310 0.011, 0.018; g322 0.006, 0.018; g410 0.015, 0.08; g422 0.05, 0.25; g520 0.23 up to 0.65, 0.35 up to 0.715, 0.9 above; g533 0.9 below 0.7, 1 above; g521 1.5, 0.7; g532 0.7, 0.45. Hence the resonance acceleration differs from -3/a^2 times the derivative of the kept terms of the mean potential by at most 4e-12 rad/min^2.", "quantifier": "all real eccentricities in [0.5, 0.77]; for the acceleration all element sets with a 12-hour resonance and mean motion between 0 and xke, all times and longitudes; exact arithmetic", "why_tests_cant": "The functions are 20 cubic fits with 70 decimal constants to integrals that have no closed form; a wrong digit in one constant changes a Molniya orbit by less than the error of the elements for weeks, and sampling the fits says nothing between the samples or about the integrals.", "anchors": ["src/deep.c: Deep_dpinit lines 309, 338-372"]}
{"id": "C175", "title": "SGP starts from the axis that belongs to the given mean motion", "statement": "Let a be the axis stored by SGP_init and d = (3/2) k2 (3 cos^2 i - 1) / (a^2 (1-e^2)^(3/2)) the relative change of the mean motion by the flattening of the Earth at that axis. Then a/(1-d) and xno/(1+d) satisfy Kepler's third law to 2e-10, and they are exactly the axis and the mean motion that sxpall_common_init computes for the other propagators.", "quantifier": "all element sets with xno > 0, 0 <= e < 1 and a semilatus rectum (of the uncorrected axis) of at least one Earth radius; for the agreement with sxpall_common_init no bound on the semilatus rectum; exact arithmetic", "why_tests_cant": "The axis is a series in the correction with the coefficients 1/3, 1 and 134/81; a wrong higher coefficient changes it by less than a metre, which no test against tabulated positions can tell from rounding and from the model's own error.", "anchors": ["src/sgp.c: SGP_init 45-48", "src/common.c: sxpall_common_init 32-50"]}
{"id": "C176", "title": "The resonance integration follows the resonant motion, whatever was asked for before", "statement": "Deep_dpsec advances the resonant longitude and the mean motion in Taylor steps of at most 720 minutes from the last point it kept. The exact motion with the same acceleration, that is longitude' = mean motion + xfact and mean motion' = accel, exists and the integrated values stay near it: for synchronous orbits within 1.8e-5 rad and 1.4e-10 rad/min for 30 days and within 6e-4 rad and 4.7e-9 rad/min for half a year, for 12-hour orbits within 8.1e-4 rad and 3.7e-8 rad/min for ten days. So the results for one time after two different sequences of requests differ by at most twice these bounds.", "quantifier": "all element sets with the resonance flag and the stated bounds on eccentricity, axis, mean motion and drift; all finite sequences of requested times, forwards and backwards, whose total way is at most the given span; standard (non-Dundee) setting with the initial step of 720 minutes; exact arithmetic", "why_tests_cant": "The error of a numerical integration depends on the whole path of requests; a wrong factor in a second-order term or a wrong restart changes results only slowly along long paths that no test follows for all satellites.", "anchors": ["src/deep.c: compute_dpsec_derivs 441-561, Deep_dpsec 563-639"]}
{"id": "C177", "title": "The separation is accurate in double arithmetic, however small it is", "statement": "skysep_h in IEEE double arithmetic, with library functions that are right to two units of rounding, returns a number whenever the separation is at most 179 degrees. Its error against the angle between the two directions is at most 3e-11 degrees, at most 5e-13 degrees up to a separation of 90 degrees, and where the longitudes are not folded (both non-negative and at most pi apart) at most 3e-15 of the separation itself (plus 1e-20).", "quantifier": "all doubles for the longitudes in [-2pi, 2pi] and the latitudes in [-pi/2, pi/2]; every rounding to nearest and every library within the stated accuracy", "why_tests_cant": "Rounding errors depend on the operands; the formula is chosen for its behaviour at small separations, from which the speed of a satellite is computed, and a formula that is equal over the reals (the arccosine of the scalar product) passes tests at moderate distances and loses all digits at small ones.", "anchors": ["src/skysep_h.c: skysep_h 10-25", "src/sat_skymap.c 878: speed"]}
{"id": "C178", "title": "The sidereal time is right to a fraction of a millisecond in double arithmetic", "statement": "lmst_hr in IEEE double arithmetic always ends; the split of the date into midnight and fraction is exact; the local and the Greenwich time differ from those of exact arithmetic by at most 18 nanoseconds (up to whole days), the local time being in [0, 24] (24 itself does occur); and for any instant, passed as the nearest double, both are within 0.13 milliseconds of the sidereal time of the instant, as its header promises ('about a millisecond').", "quantifier": "all instants from 1800 to 2199 (rational Julian dates), all longitudes in [-360, 360]; every rounding to nearest", "why_tests_cant": "The Julian date is near 2.4 million, so a date carried through the arithmetic without the split loses the digits; the error depends on every operand, and a test compares with a table of a few instants.", "anchors": ["src/lmst_hr.c: lmst_hr 18-53, comment 8-9"]}
{"id": "C179", "title": "The direction to a satellite is never NaN and is accurate in double arithmetic", "statement": "get_satellite_ra_dec_delta in IEEE double arithmetic gives a number for every observer and every satellite that is not at the observer: the quotient passed to asin never exceeds 1, since the rounded root of a rounded sum of squares is not less than any of the components. The distance is right to 1e-15 of itself, the right ascension to 3e-15 radian (modulo 2 pi), the declination to 7e-8 radian, and to 8e-15 radian where its sine is at most 0.98. So the message 'Could not decode TLE data' of sat_skymap is never caused by rounding.", "quantifier": "all pairs of distinct positions; IEEE rounding to nearest even with correctly rounded sqrt; every atan2 and asin within two units of rounding", "why_tests_cant": "Near the zenith of a pole the quotient is 1 up to rounding; whether it can exceed 1 by one unit depends on all bits of the operands, and one such case would end the program (exit in the middle of the list).", "anchors": ["src/observe.c: get_satellite_ra_dec_delta 88-105", "src/sat_skymap.c 783-787"]}
{"id": "C180", "title": "The altitude is accurate in double arithmetic", "statement": "dechalat2alt in double arithmetic gives an altitude within 1e-5 degree of the exact one, and within 2e-12 degree where the sine of the altitude is between -0.98 and 0.98; in particular not NaN. Left out: latitudes beyond 89.99 degrees, declinations within 2e-6 radian of the latitude (special case of the code), and directions whose altitude has a sine below -1 + 1e-14, where the argument of asin may be less than -1 and the altitude NaN.", "quantifier": "all declinations, hour angles within a day, latitudes; every rounding to nearest and every library within two units of rounding", "why_tests_cant": "The error bound is over a continuum of inputs and all libraries; the NaN needs the exact rounding of five values at the nadir.", "anchors": ["src/dechalat2alt.c: dechalat2alt 13-81", "src/const_def.h 15, 19"]}
{"id": "C181", "title": "The position of the observer is accurate in double arithmetic", "statement": "From 1800 to 2199 the angle of the Earth computed by ThetaG of observe.c in double arithmetic is within 1.1e-12 radian of the exact formula (modulo 2 pi), within 4.1e-7 degree of the standard polynomial for any instant, and within 2e-10 degree of the sidereal time lmst_hr gives for the same date and longitude, also in double. Every component of the observer's position computed by earth_lat_alt_to_parallax and observer_cartesian_coords is within 1e-8 km (10 micrometres) of the exact formulas, up to the poles.", "quantifier": "all dates that are doubles from 1800 to 2199, longitudes, latitudes with a cosine of at least 1e-17 (all doubles), heights up to 637 km; every rounding to nearest and every library within two units of rounding", "why_tests_cant": "The sums reach 17 million seconds before the remainder is taken, and near the poles the tangent is 1e16: the loss is bounded only by an argument over all inputs.", "anchors": ["src/observe.c: ThetaG 39-62", "src/observe.c: observer_cartesian_coords 65-74", "src/observe.c: earth_lat_alt_to_parallax 77-85", "src/lmst_hr.c: lmst_hr"]}
{"id": "C182", "title": "The numbers printed for a satellite are the computed ones to half a unit of the last decimal", "statement": "The text printed between the brackets of a record splits at its commas into exactly ten numbers in the order of data_fields: right ascension and declination at both instants within 0.0000500001 degree of the computed angles, the distance within 5 m, the separation within 0.00005 degree, the integer part of the position angle, the speed within 0.0005, the flag and the cell exactly. Right ascensions are printed between 0 and 360 (360.0000 included), declinations between -90 and 90, the position angle between 0 and 360, so the -p option accepts a printed position again.", "quantifier": "all computed values with the angles in their ranges, every rounding to nearest, all field widths and numbers of decimals", "why_tests_cant": "The digits depend on carries through the whole number and on the sign of numbers that round to zero; a test sees only chosen digits.", "anchors": ["src/sat_skymap.c: printf of data 898-901", "src/sat_skymap.c: option p 487-500", "src/sat_skymap.c: add_fieldsdesc_json"]}
{"id": "C183", "title": "The precession is accurate in double arithmetic", "statement": "From 1800 to 2199 the precession computed by epoch_of_date_to_j2000 in double arithmetic is that of the exact formulas for the exact direction, up to twice the error of the direction given and 6e-15 radian; the right ascension (modulo a turn) stays between 0 and TWOPI, the declination within a quarter turn.", "quantifier": "all dates within 73050 days of 2000, all directions with a cosine of the declination of at least 0.198, every error of the direction up to 1e-6 radian, every rounding to nearest and every library within two units of rounding", "why_tests_cant": "The tangent and the product of rates amplify an error by an amount that depends on the direction and the date.", "anchors": ["src/observe.c: epoch_of_date_to_j2000 111-128"]}
{"id": "C184", "title": "The printed direction and distance are those of the exact formulas", "statement": "For every position of a satellite between 100 and a million km from the observer and more than 14 degrees from the poles of the sky, the right ascension (modulo 360) and declination printed are within 0.0000503 degree of what the exact formulas give from the place of the observer, the date and that position, and the printed distance is within 5.001 m: of these 0.00005 degree and 5 m are the last decimal. No NaN is met on the way.", "quantifier": "all places (up to the poles), heights to 637 km, dates that are doubles from 1800 to 2199 for the observer and the precession, positions of the satellite; every library within two units of rounding, sqrt and arithmetic rounded to nearest even", "why_tests_cant": "Sidereal time, observer, direction, precession, conversion and printing each lose digits; only a bound through all of them says how many of the printed ones mean something.", "anchors": ["src/sat_skymap.c: 542-546, 780, 800, 816-817, 898", "src/observe.c: ThetaG, observer_cartesian_coords, earth_lat_alt_to_parallax, get_satellite_ra_dec_delta, epoch_of_date_to_j2000"]}
{"id": "C185", "title": "The printed separation and speed, and the selection by radius, follow the exact directions", "statement": "When the computed directions are within 5e-9 radian of the exact ones, as C184 gives, the separation from the target that is printed under -H is within 0.0000507 degree of the exact angle (0.00005 being the last decimal), the printed speed is within 0.0005 + 0.00008/dt arcminute per second of the exact angle over the time, and a satellite is reported when one of its two exact directions is within the radius by 7e-7 degree and not reported when both are outside by as much. No NaN is met.", "quantifier": "all targets, directions no more than 178 degrees apart, all delta times from 1 s to 2^31, all radii, every rounding to nearest and every library within two units of rounding", "why_tests_cant": "The angle between two computed directions depends on both errors in a way that differs from place to place on the sphere; the threshold is decided on the rounded numbers.", "anchors": ["src/sat_skymap.c: 840-852, 878, 898", "src/skysep_h.c: skysep_h"]}
{"id": "C186", "title": "The printed position angle is that of the exact motion", "statement": "When the computed directions at both instants are within 5e-9 radian of the exact ones, as C184 gives, and the right ascension does not jump up by more than half a turn, the position angle computed in double arithmetic is between 0 and TWOPI and within 6e-8/r radian (modulo a turn) of the angle of the exact displacement, r being its length in radians; the integer printed is the integer part of the exact angle up to 3.45e-6/r degree.", "quantifier": "all pairs of directions with a displacement of 4e-5 radian or more and a change of right ascension of up to 3 radians either way across 0 h, except westward across 0 h (C81); every library within two units of rounding, arithmetic rounded to nearest even", "why_tests_cant": "The angle of a small difference of two nearly equal directions loses the digits they share; how many depends on how far the satellite moves.", "anchors": ["src/sat_skymap.c: 869-876, 898"]}
{"id": "C187", "title": "The point below a satellite is found in double arithmetic: the loop ends and the coordinates are geodetic", "statement": "In double arithmetic the loop of sat_geoLocation ends after at most 37 passes, no division by zero or NaN occurs, and the latitude and altitude it leaves give back, on the ellipsoid of the program, the distance from the axis to 1e-8 km and the height above the equator to 2e-8 km; the longitude is the exact one modulo 360 to 2e-12 degree and within 180 + 1e-9.", "quantifier": "all positions at least 6000 km from the centre, up to 50000 km from axis and equator, with a height of up to 90 times the distance from the axis; all sidereal times from 0 to 24 h; every rounding to nearest and every library within two units of rounding", "why_tests_cant": "A loop that waits for two successive values to agree within a tolerance ends in exact arithmetic because it contracts; whether rounding noise stays below the tolerance for every position cannot be sampled.", "anchors": ["src/sat_skymap.c: sat_geoLocation 318-344", "src/sat_visibility.c: sat_geoLocation 457-485"]}
{"id": "C188", "title": "The sunlit flag is right in double arithmetic except within 0.02 mm of grazing", "statement": "In double arithmetic intersect_satsun_sphere returns 1 for every satellite whose ray towards the Sun meets a ball around the centre of the Earth 2e-8 km smaller than the Earth of the program, and returns 0 for every satellite whose ray does not meet a ball 2e-8 km larger.", "quantifier": "all satellite positions at least 1 km above the sphere with coordinates up to 50000 km; all positions of the Sun with coordinates up to 153 million km at least 145 million km from the satellite; every rounding to nearest and every square root within one unit of rounding", "why_tests_cant": "The discriminant is a difference of numbers up to 1e10, so near the edge of the shadow its sign is decided by cancellation; a sample does not show how wide the unreliable zone is, nor that rounding never flips the sign of the farther intersection.", "anchors": ["src/sat_skymap.c: intersect_satsun_sphere 273-311, call 857", "src/sat_visibility.c: intersect_satsun_sphere 410-448, call 909"]}
{"id": "C189", "title": "The azimuth is right in double arithmetic up to the neighbourhood of the zenith", "statement": "In double arithmetic the azimuth dechalat2alt returns is in [0, 360) and differs from the exact one modulo 360 by at most 3e-12 degree divided by the cosine of the altitude.", "quantifier": "all declinations, hour angles other than 0 up to 24 h, latitudes up to 89.99 degrees, directions at least 1e-11 rad from zenith and nadir; every rounding to nearest and every library within two units of rounding", "why_tests_cant": "A negative azimuth of tiny size becomes exactly 360 when 360 is added in double arithmetic; that the second test always brings it back below 360, and how the error grows towards the zenith, is not seen on samples.", "anchors": ["src/dechalat2alt.c: dechalat2alt 13-58"]}
{"id": "C190", "title": "The parallactic angle is right in double arithmetic", "statement": "In double arithmetic the parallactic angle dechalat2alt returns differs from the exact angle at the object between pole and zenith modulo 360 by at most 8e-12 degree divided by the product of the cosines of altitude and declination.", "quantifier": "all declinations, hour angles other than 0 up to 24 h, latitudes up to 89.99 degrees, products of the cosines of altitude and declination from 1e-10; every rounding to nearest and every library within two units of rounding", "why_tests_cant": "The sine and cosine are built from a rounded azimuth and divided by the cosine of the declination; how the two amplifications combine is a statement about all directions.", "anchors": ["src/dechalat2alt.c: dechalat2alt 51-74"]}
{"id": "C191", "title": "The position of the Sun is right in double arithmetic", "statement": "In double arithmetic lpsun_radec returns a right ascension in [0, 2pi] that differs from the exact one of the almanac formula by at most 5e-12 rad modulo 2pi and a declination that differs by at most 2e-12 rad, never NaN; the vector in km used for the shadow is within 1.1 m of the exact one in every component.", "quantifier": "all Julian dates within 40000 days of J2000; every rounding to nearest and every library within two units of rounding", "why_tests_cant": "The longitude grows to tens of thousands of degrees without reduction and the quotient y/x of atan_circ has a pole twice a year; how much error each leaves is a statement about all dates.", "anchors": ["src/lpsun_radec.c: lpsun_radec, atan_circ", "src/sat_skymap.c: sphrad2v 132-139, main 646-647"]}
{"id": "C192", "title": "From the date to the sunlit flag in double arithmetic", "statement": "In double arithmetic, computing the Sun from the date and testing the shadow gives 1 whenever the ray from the satellite to the exact position of the almanac Sun meets a ball 2e-6 km smaller than the Earth, and 0 whenever it does not meet a ball 2e-6 km larger.", "quantifier": "all Julian dates within 40000 days of J2000; all satellite positions at least 1 km above the sphere with coordinates up to 50000 km; every rounding to nearest and every library within two units of rounding", "why_tests_cant": "The flag is a sign decided after a chain of some sixty rounded operations; tests away from the edge of the shadow say nothing about the edge.", "anchors": ["src/lpsun_radec.c: lpsun_radec, atan_circ", "src/sat_skymap.c: intersect_satsun_sphere 273-311, main 628, 644-647, 857"]}
{"id": "C193", "title": "The HEALPix pixel of a direction is right in double arithmetic", "statement": "In double arithmetic ang2pix_nest returns the NESTED number of a pixel that contains (boundary included) a direction whose height z is within 3e-14 and whose longitude is within 6e-14 quarter turns of the given one; the pixel that sat_skymap prints contains a direction within 4e-14 in the sine of the declination and 6e-14 quarter turns in right ascension of the position.", "quantifier": "every nside = 2^k up to 8192; all heights in [-1, 1]; all longitudes of at most 12 rad either way that, in the belt, are not within 2^-39 quarter turns of a whole turn; every rounding to nearest and every correctly rounded square root or one within a unit of rounding", "why_tests_cant": "The pixel is decided by truncations of rounded products; at the edges of the squares, the corners of the faces and the poles a wrong pixel would be a whole cell away and random directions almost never get there.", "anchors": ["HealpixC/chealpix.c: ang2pix_nest_z_phi 232-278, ang2pix_nest 423-427, fmodulo", "src/sat_skymap.c: main 572, 881-882"]}
{"id": "C194", "title": "The time since the epoch of the elements is right to 84 microseconds in double arithmetic", "statement": "From the epoch field of the element set (two-digit year, day of the year, fraction in 1e-8 day) and the MJD of the request, the minutes handed to the propagator differ from the exact ones by at most 1.4e-6 minutes, and those of the second instant, delta seconds later, by at most 3 microseconds more.", "quantifier": "all two-digit years, days up to 999, fractions; all MJD within 200000 days of 1858; every rounding to nearest", "why_tests_cant": "Dates near 2.4 million days leave 40 microseconds per unit of the last place; whether the order of the additions loses more is a statement about all operands.", "anchors": ["src/get_el.c: get_eight_places, parse_elements 308-315", "src/sat_skymap.c: main 530, 771, 809"]}
{"id": "C195", "title": "Positions are computed for the date given", "statement": "With a date given to the second the positions are those of that second, to a millisecond.", "quantifier": "all dates from 1858 to 2399 and all seconds of the day; all element epochs; every rounding to nearest", "why_tests_cant": "The time of day is rounded to 1e-5 day, half of it 0.43 s; the date printed back is the one given (C11), so nothing in the output shows the shift.", "anchors": ["src/date2mjd_nf.c: date2mjd_nf 34", "src/sat_skymap.c: main 455, 530, 771"]}
{"id": "C196", "title": "The longitude of the Sun is right in double arithmetic", "statement": "The longitude reported for the Sun is in [-180, 180] and, up to whole turns, within 6e-7 degrees of its right ascension less the Greenwich sidereal time (IAU 1982) of the date.", "quantifier": "all Julian dates held by a double within 40000 days of 2000; every rounding to nearest and every library within two units of rounding", "why_tests_cant": "Before September 1999 the Greenwich time may be negative, so the sum reduced by fmod reaches beyond two turns; the range and the error are statements about all dates and libraries.", "anchors": ["src/sat_skymap.c: main 628-631, 653-654", "src/lmst_hr.c: lmst_hr", "src/lpsun_radec.c: lpsun_radec"]}
{"id": "C197", "title": "The altitude of the Sun at the site is right in double arithmetic", "statement": "From the date and the place, the altitude of the Sun is within 4e-6 degrees of that of the direction of the Sun on the sphere over the horizon of the place, and not NaN. Left out: altitudes whose sine is beyond 0.97, latitudes beyond 89.99 degrees, and latitudes within 3e-6 radian of the declination (special case of the code).", "quantifier": "all Julian dates held by a double within 40000 days of 2000, all longitudes, latitudes up to 89.99 degrees; every rounding to nearest and every library within two units of rounding", "why_tests_cant": "The bound runs through sidereal time, position of the Sun and the horizontal coordinates for a continuum of dates and places.", "anchors": ["src/sat_skymap.c: main 628-635", "src/sat_visibility.c: 495, 841", "src/dechalat2alt.c: dechalat2alt 13-81"]}
{"id": "C198", "title": "The selection without -H follows the flat separation in double arithmetic and stays within the radius", "statement": "The separation used without -H is, in double arithmetic, within 3e-12 degrees of the exact formula (also where the difference of right ascensions is folded at half a turn), and a satellite selected by it is, at one of the two instants, no farther than the radius and 7e-7 degrees from the target on the sky.", "quantifier": "all right ascensions within a turn, all declinations, all radii; every rounding to nearest and every library within two units of rounding", "why_tests_cant": "The fold at half a turn may go either way after rounding; that the size is the same is a statement about all operands near it.", "anchors": ["src/sat_skymap.c: main 827-837, 852"]}
{"id": "C199", "title": "Visibility: zenith distance and altitude of a satellite add up to 90 degrees", "statement": "The angular separation and the altitude printed for a satellite belong to the same direction: in double arithmetic their sum is 90 degrees to 4e-11 degrees where the sine of the altitude is between -0.97 and 0.97, and to 3e-5 degrees nearer to the zenith.", "quantifier": "all sidereal times, right ascensions, declinations, latitudes up to 89.99 degrees, altitudes with a sine of at least -0.99; IEEE rounding and every library within two units of rounding", "why_tests_cant": "The two values come from different formulas; they disagree in a band of declinations two microradians wide.", "anchors": ["src/sat_visibility.c: main 823, 856, 883, 966-967, 1018, 1024-1025, 1054, 1060-1061", "src/dechalat2alt.c: dechalat2alt 75-81"]}
{"id": "C200", "title": "Deep-space propagator: the sidereal angle of the epoch", "statement": "The angle of the Earth from which the resonance terms of a deep-space satellite start is the sidereal time of the epoch written in the element set to 6.1e-7 degrees, up to whole turns, in double arithmetic; it lies between 0 and 2 pi and agrees to 2.3e-12 radian with the angle used for the observer.", "quantifier": "all epoch fields (years 1957-2056, day up to 999, fraction of 8 digits); all Julian dates within 73050 days of 2000", "why_tests_cant": "The angle is internal to the propagator; an error shows only as a slow drift of geostationary and 12-hour satellites.", "anchors": ["src/deep.c: ThetaG 65-83, Deep_dpinit 154", "src/observe.c: ThetaG 39-62", "src/get_el.c: parse_elements 258-268, 314-315"]}
{"id": "C201", "title": "Choice of the propagator in double arithmetic", "statement": "The program chooses between the near-Earth and the deep-space model as exact arithmetic would, except for orbits whose period is within 2e-13 minutes of 225 minutes; the mean motion recovered for the choice is right to a part in 3e15, the semimajor axis to a part in 3e14.", "quantifier": "all elements with a mean motion of at least 3e-6 radian per minute, eccentricity up to 0.97 and semilatus rectum of at least one Earth radius, and all elements marked for a model or out of range; every IEEE-like rounding and every library within two units of rounding", "why_tests_cant": "A wrong choice is visible only for a satellite at the boundary; the rounded exponent 2/3, the cancelling numerator and five corrections take part in it.", "anchors": ["src/basics.c: select_ephemeris 48-75", "src/common.c: sxpall_common_init 32-50"]}
{"id": "C202", "title": "Element set: the elements as double in the units of the propagators", "statement": "Every valid element set gives elements in radians and minutes that are those written in the file: angles and eccentricity to a part in 3e15, mean motion and its derivative to a part in 1e15, second derivative and drag term (scaled by up to nine products with a rounded tenth) to a part in 3e14; a zero stays zero and a sign is kept.", "quantifier": "all valid element sets in the standard layout, followed by nothing, a blank or a line end; every IEEE-like rounding", "why_tests_cant": "The error of repeated products with 0.1 depends on mantissa and exponent; a wrong unit in one rarely used field changes no printed digit of a short test.", "anchors": ["src/get_el.c: get_angle 22-35, sci 46-71, get_eight_places 258-261, parse_elements 340-359"]}
{"id": "C203", "title": "Kepler's equation in double: an accepted solution is close to the only one", "statement": "In double arithmetic the mean longitude is reduced by whole turns to at most pi with an error of at most 4e-16 (|k|+1) for k turns, and an eccentric longitude that passes the test of the residual differs from the only solution of Kepler's equation by at most 1.001e-12/(1-e), hence by at most 2.1e-6 for every orbit not refused as nearly parabolic.", "quantifier": "all eccentricity vectors and mean longitudes that are doubles, every limit of the first step; every IEEE-like rounding, every library whose sine and cosine are good to 2 units in the last place", "why_tests_cant": "The computed residual is a difference of numbers of size 3 compared with 1e-12; whether rounding can let a wrong value pass is a statement about all doubles.", "anchors": ["src/common.c: centralize_angle 118-127, sxpx_posn_vel 145-148, 175, 190-222"]}
{"id": "C204", "title": "Kepler's equation in double is always solved for eccentricities up to 0.39", "statement": "In double arithmetic the iteration passes its test within six of ten passes for every mean longitude and every limit of the first step, without a division by zero, so the convergence code is never returned and the eccentric longitude is the solution to 1.7e-12.", "quantifier": "all eccentricity vectors of length at most 0.39 and mean longitudes that are doubles; every IEEE-like rounding, every library as in C203", "why_tests_cant": "An iteration stopped by a fixed tolerance can cycle in rounded arithmetic; failure would occur on a small set of inputs.", "anchors": ["src/common.c: sxpx_posn_vel 190-222"]}
{"id": "C205", "title": "The position of the near-Earth model in double", "statement": "In double arithmetic sxpx_posn_vel, from the components of the eccentricity, the axis, node, inclination and mean longitude to the position, differs in each coordinate by at most 6e-7 km per Earth radius of the axis (0.6 mm for a low orbit) from the position of exact arithmetic for the exact solution of Kepler's equation; it is never refused.", "quantifier": "all eccentricity vectors of length at most 0.39, axes 0.9 to 100 Earth radii, all mean longitudes, nodes and inclinations up to 100 rad, all cosines and sines of the inclination up to 1 in size, all doubles; every IEEE-like rounding, every library good to 2 units in the last place", "why_tests_cant": "About seventy roundings, four library functions and an atan2 with a cut; an ill-conditioned step would show on a small set of orbits only.", "anchors": ["src/common.c: sxpx_posn_vel 145, 160-163, 190-262"]}
{"id": "C206", "title": "The position of the near-Earth model in double from its arguments", "statement": "In double arithmetic sxpx_posn_vel, from node, axis, eccentricity, inclination, argument of the perigee and mean longitude, with the long-period terms, differs in each coordinate of the position by at most 2.3e-6 km per Earth radius of the axis from the position of exact arithmetic for the exact solution of Kepler's equation of the exact mean longitude; it is never refused for want of convergence.", "quantifier": "all axes 0.9 to 100 Earth radii, eccentricities up to 0.4 whose long-period value is at most 0.38, cosine of the inclination at least -0.9, mean longitudes up to 10000 rad, nodes and inclinations up to 100 rad, all doubles; every IEEE-like rounding, every library good to 2 units in the last place", "why_tests_cant": "The reduction of the mean longitude may take different whole turns in double and in exact arithmetic when it is near half a turn, and the divisor 1+cosio is small for retrograde orbits: both show on a small set of inputs only.", "anchors": ["src/common.c: sxpx_posn_vel 131-262", "src/norad_in.h 78-101"]}
{"id": "C207", "title": "The time step of SGP4 in double", "statement": "In double arithmetic SGP4, for the stored values taken as exact, hands to sxpx_posn_vel the node to 1e-14 rad, the axis to 2.8e-15 of the original one, the eccentricity to 3.4e-14, the perigee to 1.5e-12 rad and the mean longitude to 7.1e-12 rad of exact arithmetic, both with the simple flag and with the drag terms of higher order; a negative axis is never forced and the lower limit of the eccentricity does not enlarge the error.", "quantifier": "all stored values and all times up to 1e7 minutes for which the mean anomaly moves by at most 5000 rad, node and perigee by at most 20 rad, and each drag term of the axis is at most a tenth; all doubles; every IEEE-like rounding, every library good to 2 units in the last place", "why_tests_cant": "The polynomials in time have coefficients down to 1e-33 times powers up to the fifth; the cosine is taken of a mean anomaly of thousands of radians; the limit of the eccentricity is a branch on a rounded value.", "anchors": ["src/sgp4.c: SGP4 104-150"]}
{"id": "C208", "title": "The code and the position of sxpx_posn_vel in double", "statement": "In double arithmetic sxpx_posn_vel gives no error, and each coordinate of its position differs by at most 2.3e-6 km per Earth radius of the axis from what the same function gives in exact arithmetic, although the two may leave the Newton iteration after different numbers of steps; the returned code is that of exact arithmetic unless the perigee or the apogee is within 1e-15 Earth radii of the surface.", "quantifier": "all orbits with an axis of 0.9 to 100 Earth radii, an eccentricity of at most 0.38 with the long-period terms, cos of the inclination at least -0.9 and a mean longitude of at most 7000 rad; all doubles; every IEEE-like rounding, every library good to 2 units in the last place", "why_tests_cant": "The stop of the Newton iteration and the three tests of the code are branches on rounded values; only a proof over all roundings shows that a different branch never moves the position.", "anchors": ["src/common.c: sxpx_posn_vel 131-262"]}
{"id": "C209", "title": "The secular rates of sxpx_common_init in double", "statement": "In double arithmetic sxpx_common_init finds the secular rate of the mean anomaly to 2.4e-17, of the perigee to 2.4e-18 and of the node to 8e-19 rad/min, for the values stored by sxpall_common_init taken as they are.", "quantifier": "all orbits with an axis of 0.9 to 100 Earth radii, an eccentricity of at most 0.44, a mean motion of at most 0.1 rad/min, at any inclination; all doubles; every IEEE-like rounding", "why_tests_cant": "The rates multiply times of millions of minutes, so an error in the last places grows; the polynomials of the inclination cancel near the critical inclination, which samples miss.", "anchors": ["src/common.c: sxpx_common_init 61, 81-82, 100-113", "src/norad_in.h: 84-95"]}
{"id": "C210", "title": "The density parameters in double", "statement": "In double arithmetic the parameter s4 of the atmospheric density is within 9e-16 Earth radii, and qoms24 within a factor 1+5e-13, of exact arithmetic, also where rounding of the perigee height selects another branch at 98 or 156 km.", "quantifier": "all axes from 0 to 100 Earth radii and all eccentricities from 0 to 1; all doubles; every IEEE-like rounding", "why_tests_cant": "The branches at 98 and 156 km can go either way by rounding; only the constants s_const and qoms2t, which have to agree with the formulas at 156 km, make that harmless, and no sample reaches the limits exactly.", "anchors": ["src/common.c: sxpx_common_init 64-79", "src/norad_in.h: 79, 96-97"]}
{"id": "C211", "title": "The drag coefficient of sxpx_common_init in double", "statement": "In double arithmetic sxpx_common_init has tsi to a relative error of 4.6e-14, eta of 4.7e-14, coef of 7e-13 and the drag coefficient coef1 of 2.5e-12, from the stored axis and the eccentricity on, whichever branches the rounded perigee height selects.", "quantifier": "all axes from 0.9 to 100 Earth radii that are at least 1/50 above s4, all eccentricities (zero, or from 1e-10) with eta at most 0.9; all doubles; every IEEE-like rounding, every pow good to 2 units in the last place", "why_tests_cant": "1/(aodp-s4) and 1-eta^2 amplify the error of s4, and the power 3.5 multiplies it again; the amplification depends on the orbit and is bounded only by a proof.", "anchors": ["src/common.c: sxpx_common_init 64-90"]}
{"id": "C212", "title": "The drag coefficients c2 and c1 in double", "statement": "In double arithmetic the drag coefficient c2 of sxpx_common_init is within 6e-11 of exact arithmetic, in units of coef1*xnodp*aodp (its value for a circular orbit over a spherical Earth), and c1 within bstar times 6.1e-11 of these units and an underflow term.", "quantifier": "all orbits of C211 at any inclination, with a mean motion of at least 1e-6 rad/min; every bstar; all doubles; every IEEE-like rounding, every pow good to 2 units in the last place", "why_tests_cant": "The term of the oblateness can nearly cancel the first one, so that the error is bounded in units of the first term only; the worst case depends on five inputs.", "anchors": ["src/common.c: sxpx_common_init 85-93"]}
{"id": "C213", "title": "The drag coefficient c4 in double", "statement": "In double arithmetic the drag coefficient c4 of sxpx_common_init is within 5e-11 of exact arithmetic, in units of its common factor 2*xnodp*coef1*aodp*betao2.", "quantifier": "all orbits of C211 at any inclination, with a mean motion of at least 1e-6 rad/min, 1-eo^2 at least 1/100 and an argument of perigee within 7 rad; all doubles; every IEEE-like rounding, every pow and cos good to 2 units in the last place", "why_tests_cant": "Four terms of both signs, one of them through the cosine of twice the perigee, can cancel; the error is bounded in units of the common factor and its worst case depends on six inputs.", "anchors": ["src/common.c: sxpx_common_init 83-99"]}
{"id": "C214", "title": "The quadratic drag terms xnodcf and t2cof in double", "statement": "In double arithmetic sxpx_common_init finds xnodcf, the coefficient of the squared time in the node, to 7e-14 and t2cof, that of the mean longitude, to 9.2e-11, in units of bstar*coef1*xnodp*aodp and apart from underflow.", "quantifier": "all orbits of C209 and C211 with a mean motion of at least 1e-6 rad/min, at any inclination; every bstar; all doubles; every IEEE-like rounding, every pow good to 2 units in the last place", "why_tests_cant": "The terms are multiplied by the squared time since the epoch, so their errors grow fastest; the bound combines the errors of the rate of the node and of c1 over six inputs.", "anchors": ["src/common.c: sxpx_common_init 92-93, 111-115"]}
