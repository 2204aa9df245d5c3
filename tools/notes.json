{
 "C01": {
  "status": "proved",
  "note": "Exact acceptance criterion of tle_checksum, acceptance of well-formed lines, detection of any single digit change."
 },
 "C02": {
  "status": "partial",
  "note": "Codes -1/-2/-3/0..9 characterised for every string. Memory safety fails for strings of exactly 68 characters (C02_reads_past_end_violated); proved for all others."
 },
 "C03": {
  "status": "proved",
  "note": "Decoder and an independent encoder are inverse bijections on 0..45435423; invalid characters give 0; blank padded numbers."
 },
 "C04": {
  "status": "partial",
  "note": "Proved for all element types but 'H', lines not exactly 68 characters long; for 'H' sets the code returns 0 with wrong checksums (C04_high_type_violated)."
 },
 "C05": {
  "status": "proved",
  "note": "Epoch day arithmetic against an independent calendar day count; combined with the text reader in C09."
 },
 "C06": {
  "status": "proved",
  "note": "Angles, integer fields, DD.DDDDDDDD fields for every digit string; values in units of the format."
 },
 "C07": {
  "status": "proved",
  "note": "All signs, mantissas, exponents; blank mantissa."
 },
 "C08": {
  "status": "proved",
  "note": "Round trip for |v|<36^8, and exactly which fields are accepted."
 },
 "C09": {
  "status": "proved",
  "note": "Independent writer of the standard layout; all elements come back, return code 0. Values in the units of the format (the final multiplication by floating point constants is not modelled)."
 },
 "C10": {
  "status": "proved",
  "note": "Next day of the calendar has the next number, epoch is 1858-11-17, for all dates of years >= 0 (no upper bound)."
 },
 "C100": {
  "status": "proved",
  "note": "the angles are those of Spacetrack Report 3; the comment's 0.1313091 is rounded (C100_comment_excluded)"
 },
 "C101": {
  "status": "proved",
  "note": "exact reals"
 },
 "C102": {
  "status": "proved",
  "note": "exact reals"
 },
 "C103": {
  "status": "proved",
  "note": "exact reals; in floating point the equality of a step of zero length with the value kept holds as well, but that of atime = k*step with repeated additions only for steps that are exact"
 },
 "C104": {
  "status": "proved",
  "note": "exact reals. Below 3 degrees the program leaves out the motion of the node (C104_small_excluded). The sense of the strengths is C104_strength"
 },
 "C105": {
  "status": "proved",
  "note": "exact reals. The program neglects the eccentricity of the body's orbit except in the isotropic part and in the equation of the centre; the theorem says which derivative the terms have, not that this is all of the perturbation"
 },
 "C106": {
  "status": "proved",
  "note": "exact reals; tolerance 1e-5 (1e-7 for the Sun). The mean motion of the Sun per minute has six digits only, whence the tolerance 2e-7 per day in C106_anomaly"
 },
 "C107": {
  "status": "proved",
  "note": "exact reals; mean eccentricity zero with the long-period terms of the third harmonic left out (C107_circular uses posVelOf with axn = ayn = 0). C107_program: the program uses these functions with its own coefficients"
 },
 "C108": {
  "status": "proved",
  "note": "exact reals; the linear part in the coefficients. The terms in the square of the coefficient of the second harmonic are not covered"
 },
 "C109": {
  "status": "proved",
  "note": "exact reals; what c1 itself stands for is C135"
 },
 "C11": {
  "status": "proved",
  "note": "All valid dates of years 0..9999 (text: 1000..9999), all 86400 seconds, every rounding-to-nearest arithmetic (structures Fl64, Fl32; IEEE is an instance). sscanf/sprintf modelled."
 },
 "C110": {
  "status": "proved",
  "note": "exact reals; the node for e = 0 only (the factor betao2 of xnodcf is exact there)"
 },
 "C111": {
  "status": "proved",
  "note": "exact reals; first order in the terms. The terms themselves are C104, C105"
 },
 "C112": {
  "status": "partial",
  "note": "C112_lyddane_partial: the displacement across is right, the one along the orbit has the extra term -xnode sin(i) pinc. C112_along_violated, C112_turn_violated (a whole turn of the node changes the position), C112_equator_violated (inclination zero: division by zero)"
 },
 "C113": {
  "status": "proved",
  "note": "exact reals; the reduction of the angle is exact"
 },
 "C114": {
  "status": "proved",
  "note": "exact reals, the two constants with suffix F are the float values"
 },
 "C115": {
  "status": "partial",
  "note": "C115_gmst_partial: within 3 arcseconds. C115_float_violated: more than one arcsecond in 2050, as 8640184.7942063F is 8640185"
 },
 "C116": {
  "status": "proved",
  "note": "exact reals; only the terms the program has, the neglected ones are not bounded for the Moon; precession from 2000 to the date is neglected by the program"
 },
 "C117": {
  "status": "partial",
  "note": "C117_distance_partial: within 1140 km; C117_distance_violated: the fourth term has the anomaly of the Sun (cos 2 m_solar) instead of that of the Moon, up to 1100 km wrong"
 },
 "C118": {
  "status": "proved",
  "note": "exact reals; the obliquity constants satisfy sin^2 + cos^2 = 1 to 39 digits"
 },
 "C119": {
  "status": "proved",
  "note": "exact reals; local error of one step (C119_order), existence of the motion compared with (C119_exists). The error after steps of a whole day is not bounded in metres"
 },
 "C12": {
  "status": "proved",
  "note": "Accuracy for every rounding to nearest; validity of all fields for IEEE binary64 round-half-even (exponent range unbounded). C12_calendar: printed day sequence is the calendar."
 },
 "C120": {
  "status": "proved",
  "note": "any rounding of times"
 },
 "C121": {
  "status": "proved",
  "note": "rounded times; before the rounding to seconds of mjd2date"
 },
 "C122": {
  "status": "partial",
  "note": "C122_mjd_partial: start and end; C122_same_violated: mid and max always print the MJD of the end; C122_max_violated: concrete pass"
 },
 "C123": {
  "status": "partial",
  "note": "C123_sun_partial: all groups except the end of a pass that leaves the field; C123_sun_violated: there the Sun is one step older"
 },
 "C124": {
  "status": "partial",
  "note": "C124_mid_partial: between the middle and one step later; C124_late_violated: after the reported end for a pass of one sample"
 },
 "C125": {
  "status": "partial",
  "note": "C125_start_partial: the start group; C125_same_violated: the three other groups repeat direction and speed of the start; C125_max_violated: concrete pass"
 },
 "C126": {
  "status": "partial",
  "note": "C126_once_partial: all groups except the end group of a pass of one sample at the end of the range; C126_twice_violated: there the coordinates are converted twice"
 },
 "C127": {
  "status": "proved",
  "note": "any library functions for reading numbers"
 },
 "C128": {
  "status": "proved",
  "note": "C128_any_order; C128_pairs_excluded: the excluded pairs do not commute"
 },
 "C129": {
  "status": "proved",
  "note": "C129_number, C129_designator"
 },
 "C13": {
  "status": "partial",
  "note": "Exact criterion: fits iff year in -999..9999 (C13_fits_iff_partial). Violated: overflow from year 10000 (C13_overflow_violated), NULL copied for huge MJD (C13_null_violated)."
 },
 "C130": {
  "status": "proved",
  "note": "C130_named; C130_both_excluded: with both -s and -i the designator is printed as none; C130_pieces_excluded: two-letter pieces are cut"
 },
 "C131": {
  "status": "partial",
  "note": "C131_json_partial: for printable arguments and files, unless the altitude filter ends the program during a pass; C131_no_args_violated: newline inside a string; C131_altitude_violated: the object of the satellite is left open"
 },
 "C132": {
  "status": "proved",
  "note": "C132_status_cause"
 },
 "C133": {
  "status": "partial",
  "note": "C133_declination_partial: declination (= latitude) and radius are right; C133_region_violated: ra, lmst and gmst are always printed as 0"
 },
 "C134": {
  "status": "partial",
  "note": "C134_exit_partial: equal except in two cases; C134_no_args_violated: status 1, exit code 0; C134_altitude_violated: status 2, exit code 1"
 },
 "C135": {
  "status": "proved",
  "note": "exact reals; C135_axis, C135_eccentricity, C135_program; the bounded term of the eccentricity (c5) is not compared with theory"
 },
 "C136": {
  "status": "proved",
  "note": "exact reals; the corresponding part of C4 is not covered"
 },
 "C137": {
  "status": "proved",
  "note": "exact reals; C137_circular_excluded: an eccentricity of zero becomes 10^-6"
 },
 "C138": {
  "status": "partial",
  "note": "exact reals; C138_codes proves -2 and what -4 stands for: the axis itself (the eccentricity 10^-6 is used), and that -1 and -3 are never returned; C138_perigee_violated: an orbit with its perigee at 0.4 Earth radii gets 0"
 },
 "C139": {
  "status": "partial",
  "note": "exact reals; C139_residual and C139_converges; C139_unchecked_violated: with eccentricity 1 - 10^-9 and mean anomaly 2 10^-9 the eleven passes do not suffice and the residual is above 10^-7, without any report"
 },
 "C14": {
  "status": "partial",
  "note": "date2mjd_nf rejects every argument not of the shape and accepts every ISO date. Violated at program level: -d ignores the code and uses MJD 0 (C14_silent_violated); month 13 accepted (C14_month13_violated)."
 },
 "C140": {
  "status": "proved",
  "note": "exact reals; for the longitude actually used"
 },
 "C141": {
  "status": "proved",
  "note": "exact reals; C141_expansion, C141_half, C141_full; the list of seven harmonics is the one of the program"
 },
 "C142": {
  "status": "proved",
  "note": "exact reals; C142_half and C142_full hold for whatever functions of inclination and eccentricity the coefficients are made of, C142_mean and C142_kept say which ones belong there and which terms are left out; how well the cubic fits for 12-hour orbits approximate Hansen's coefficients is not claimed"
 },
 "C143": {
  "status": "proved",
  "note": "exact reals; C143_early, C143_nonresonant, C143_half, C143_full (and C143_slow for any bounds of the acceleration). The uninitialised output matters because the programs do not look at the return code"
 },
 "C144": {
  "status": "proved",
  "note": "C144_no_unload, C144_same; the index of the propagator is not checked by the code (C144_index_excluded); the program is taken to be the only user of the library"
 },
 "C145": {
  "status": "partial",
  "note": "Violated: SXPX keeps its pointers and calls them after the library moved (C145_moved_violated); SXPX_init calls the old pointer when the library is gone (C145_gone_violated); a propagator asked for while the library was missing stays missing (C145_late_violated); -1 and -2 are also codes of the propagators (C145_ambiguous_violated). Proved: initialisation and version when the library can always be loaded (C145_init_partial)."
 },
 "C146": {
  "status": "proved",
  "note": "C146_second, C146_third, C146_exists"
 },
 "C147": {
  "status": "proved",
  "note": "C147_derivatives, C147_integral, C147_simple"
 },
 "C148": {
  "status": "proved",
  "note": "C148_rates, C148_drag"
 },
 "C149": {
  "status": "partial",
  "note": "Violated: on a circular orbit with strong drag SGP8_init divides by eta^2 = 0 (C149_circular_violated); with weak drag the eccentricity leaves the range of an ellipse (C149_weak_violated); the fitted law ends at 1/gamma (C149_after). Proved: a position for eccentricities up to 9/10, perigee outside the Earth and inclinations up to 175 degrees (C149_position_partial)."
 },
 "C15": {
  "status": "proved",
  "note": "Files of records (optional name line), any options, any number of records, for runs with defined behaviour (C17 says when). Also when the loop is left early, for arbitrary files."
 },
 "C150": {
  "status": "proved",
  "note": "C150_kepler (1.5e-6 up to eccentricity 1/2), C150_kepler_eccentric, C150_same_half"
 },
 "C151": {
  "status": "proved",
  "note": "C151_orientation, C151_frame, C151_lengths"
 },
 "C152": {
  "status": "proved",
  "note": "C152_motion, C152_eccentricity, C152_lift, C152_height, C152_field_motion, C152_field_eccentricity"
 },
 "C153": {
  "status": "partial",
  "note": "Violated: C153_order_violated (a factor 1 + e^2 is missing). Proved: with the factor the rate is complete (C153_factor_partial)."
 },
 "C154": {
  "status": "partial",
  "note": "Violated by SGP4: C154_sgp4, C154_sgp4_violated. SGP8 has only the term of the third harmonic (C154_sgp8_partial)."
 },
 "C155": {
  "status": "proved",
  "note": "C155_ellipse, C155_kepler"
 },
 "C156": {
  "status": "proved",
  "note": "C156_flattening, C156_program, C156_third, C156_third_program"
 },
 "C157": {
  "status": "proved",
  "note": "C157_elements, C157_epoch, C157_calls"
 },
 "C158": {
  "status": "proved",
  "note": "C158_ellipse, C158_same"
 },
 "C159": {
  "status": "partial",
  "note": "Violated: for every orbit without resonance whose eccentricity has a rate there is no position from some time on, with code 0 (C159_far, C159_code_violated), nor when the mean motion is used up (C159_motion). Proved: a position for eccentricities up to 9/10, perigee outside the Earth and inclinations up to 172 degrees (C159_position_partial)."
 },
 "C16": {
  "status": "proved",
  "note": "No duplicates: arbitrary files, all options. First occurrence: region and name searches over files of records."
 },
 "C160": {
  "status": "proved",
  "note": "C160_generator, C160_constants, C160_position, C160_deep"
 },
 "C161": {
  "status": "proved",
  "note": "C161_leading, C161_program, C161_sgp, C161_plane"
 },
 "C162": {
  "status": "proved",
  "note": "C162_free, C162_sgp, C162_position"
 },
 "C163": {
  "status": "proved",
  "note": "C163_drag"
 },
 "C164": {
  "status": "proved",
  "note": "C164_nest, C164_nest64"
 },
 "C165": {
  "status": "proved",
  "note": "C165_nest, C165_nest64"
 },
 "C166": {
  "status": "proved",
  "note": "C166_agree, C166_agree64"
 },
 "C167": {
  "status": "proved",
  "note": "C167_nest, C167_nest64, C167_ring, C167_ring64"
 },
 "C168": {
  "status": "proved",
  "note": "C168_ring, C168_ring64, C168_nest, C168_nest64"
 },
 "C169": {
  "status": "proved",
  "note": "C169_ang2vec, C169_vec2ang, C169_round"
 },
 "C17": {
  "status": "partial",
  "note": "Violated: the 11667th distinct satellite overflows the 70000-byte buffer (general theorem and an explicit existing file). Proved safe up to 11666 satellites in files of records."
 },
 "C170": {
  "status": "proved",
  "note": "C170_vec2pix, C170_zero (the zero vector has no pixel: 0/0), C170_scale, C170_angles, C170_ring, C170_ring64, C170_nest, C170_nest64"
 },
 "C171": {
  "status": "proved",
  "note": "C171_place, C171_range, C171_undoes, C171_sph2v"
 },
 "C172": {
  "status": "proved",
  "note": "C172_within, C172_valid, C172_fits, C172_accepted, C172_overflow_excluded (year 10000)"
 },
 "C173": {
  "status": "proved",
  "note": "C173_g200, C173_g300, C173_g310, C173_dropped, C173_synchronous (extends C142_synchronous to eccentric orbits)"
 },
 "C174": {
  "status": "proved",
  "note": "C174_g201, C174_g211, C174_g310, C174_g322, C174_g410, C174_g422, C174_g520, C174_g521, C174_g532, C174_g533, C174_force"
 },
 "C175": {
  "status": "proved",
  "note": "C175_axis, C175_common; exact reals"
 },
 "C176": {
  "status": "proved",
  "note": "C176_near, C176_month, C176_halfyear, C176_halfday, C176_history; exact reals"
 },
 "C177": {
  "status": "proved",
  "note": "C177_relative, C177_quarter, C177_far; doubles as rationals with rounding (`Fl64`), library functions by their accuracy (`Libm`)"
 },
 "C178": {
  "status": "proved",
  "note": "C178_ends, C178_numerical, C178_clock; C178_24: the value 24 is attained (the exact-arithmetic range [0, 24) of C39 does not carry over to doubles)"
 },
 "C179": {
  "status": "proved",
  "note": "C179_direction; exponent range not modelled; `DirLib` states the accuracy of the library functions"
 },
 "C18": {
  "status": "proved",
  "note": "At most N for arbitrary files; the first N wanted ones for region/name searches, stop exactly at the Nth."
 },
 "C180": {
  "status": "proved",
  "note": "C180_altitude; C180_nadir_excluded: at latitude 8, declination -8 degrees, hour angle 12 the altitude is NaN with correctly rounded sine and cosine; azimuth and parallactic angle not in this model"
 },
 "C181": {
  "status": "proved",
  "note": "C181_theta, C181_clock, C181_agree, C181_observer; exponent range not modelled"
 },
 "C182": {
  "status": "proved",
  "note": "C182_number, C182_record, C182_json, C182_turn; printf is the C standard's, with rounding to nearest even as glibc does"
 },
 "C183": {
  "status": "proved",
  "note": "C183_precession; exponent range not modelled; near the poles the formula itself diverges"
 },
 "C184": {
  "status": "proved",
  "note": "C184_position, C184_printed; the propagated position is taken as given"
 },
 "C185": {
  "status": "proved",
  "note": "C185_near, C185_separation, C185_speed, C185_region; for directions beyond 178 degrees the haversine loses digits (C177)"
 },
 "C186": {
  "status": "proved",
  "note": "C186_angle, C186_printed; westward motion across right ascension 0 is C81_violated"
 },
 "C187": {
  "status": "proved",
  "note": "C187_geolocation; on and near the polar axis the altitude is wrong even in exact arithmetic (C78_axis_excluded)"
 },
 "C188": {
  "status": "proved",
  "note": "C188_shadow; satellites within 1 km of the sphere are left out"
 },
 "C189": {
  "status": "proved",
  "note": "C189_azimuth; at ha == 0 and near the poles of the Earth the azimuth is wrong in exact arithmetic already (C38)"
 },
 "C19": {
  "status": "partial",
  "note": "Violated with -V, -a (other satellites reported when the requested one fails the filter) and for Alpha-5 numbers. Proved: the requested satellite is the one reported when no filter is on."
 },
 "C190": {
  "status": "proved",
  "note": "C190_parallactic; at ha == 0 the angle is wrong in exact arithmetic already (C76)"
 },
 "C191": {
  "status": "proved",
  "note": "C191_sun, C191_place"
 },
 "C192": {
  "status": "proved",
  "note": "C192_sunlit; C188 for a given Sun"
 },
 "C193": {
  "status": "proved",
  "note": "C193_nest, C193_printed; the last longitudes of the belt, where the code fails, are recorded under C67"
 },
 "C194": {
  "status": "proved",
  "note": "C194_since, C194_later"
 },
 "C195": {
  "status": "partial",
  "note": "violated: 2024-01-01T00:00:54 is computed for 54.432 s, 3 km along a low orbit (C195_date_violated); proved: never more than 0.45 s off (C195_date_partial)"
 },
 "C196": {
  "status": "proved",
  "note": "C196_longitude, C196_reported"
 },
 "C197": {
  "status": "proved",
  "note": "C197_altitude"
 },
 "C198": {
  "status": "proved",
  "note": "C198_separation, C198_selected"
 },
 "C199": {
  "status": "partial",
  "note": "violated where the declination is within 1e-6 radian of the latitude: the altitude is then 90 whatever the hour angle (C199_zenith_violated); proved elsewhere (C199_sum_partial)"
 },
 "C20": {
  "status": "partial",
  "note": "Violated: truncated designators select others. Proved: exact meaning as prefix comparison; a printed designator selects its satellite."
 },
 "C200": {
  "status": "proved",
  "note": ""
 },
 "C201": {
  "status": "proved",
  "note": ""
 },
 "C202": {
  "status": "proved",
  "note": ""
 },
 "C203": {
  "status": "proved",
  "note": ""
 },
 "C204": {
  "status": "proved",
  "note": ""
 },
 "C205": {
  "status": "proved",
  "note": ""
 },
 "C206": {
  "status": "proved",
  "note": ""
 },
 "C207": {
  "status": "proved",
  "note": ""
 },
 "C208": {
  "status": "proved",
  "note": ""
 },
 "C209": {
  "status": "proved",
  "note": ""
 },
 "C21": {
  "status": "partial",
  "note": "Violated: only a prefix match, not a substring (witness). Proved for the prefix reading."
 },
 "C210": {
  "status": "proved",
  "note": ""
 },
 "C211": {
  "status": "proved",
  "note": ""
 },
 "C212": {
  "status": "proved",
  "note": ""
 },
 "C213": {
  "status": "proved",
  "note": ""
 },
 "C214": {
  "status": "proved",
  "note": ""
 },
 "C22": {
  "status": "proved",
  "note": "Arbitrary files and options."
 },
 "C23": {
  "status": "proved",
  "note": "Argument order, exact criterion in files of records, nothing outside in arbitrary files."
 },
 "C24": {
  "status": "partial",
  "note": "Violated for names starting with '1' or '2', and when the uninitialised byte 23 of sat_name is not 0 (undefined behaviour). Proved otherwise."
 },
 "C25": {
  "status": "proved",
  "note": "Exact list of reports for region/name searches; every reported satellite passed the tests for arbitrary files and all options. Single-satellite requests: see C19."
 },
 "C26": {
  "status": "partial",
  "note": "Violated without arguments (newline in a string), with quotes in arguments, after a late error (array left open), by empty name lines. Proved for every run otherwise: printable arguments and lines, no error after satellites were printed."
 },
 "C27": {
  "status": "partial",
  "note": "Violated when the list is the last argument (witness). Proved for every run otherwise."
 },
 "C28": {
  "status": "partial",
  "note": "Every answer has one of the listed causes (proved for all runs). Violated: malformed dates or limits give status 0; exit code 0 with status 1."
 },
 "C29": {
  "status": "partial",
  "note": "Both programs. Violated: switch clusters loop forever, a missing last value reads argv[argc], long values overflow buffers. Proved: terminates without clusters; documented items with values that fit end regularly."
 },
 "C30": {
  "status": "partial",
  "note": "Violated for d/j, a/i, a/s, p/i, p/s, D/T. Proved for every permutation of pairwise independent items."
 },
 "C31": {
  "status": "partial",
  "note": "Violated for a list name with a slash. Proved for single files, first or last argument."
 },
 "C32": {
  "status": "partial",
  "note": "Violated for CRLF line ends and for comments longer than 63 characters. Proved for any number of rows up to 63 printable characters."
 },
 "C33": {
  "status": "proved",
  "note": "exact reals, all arguments"
 },
 "C34": {
  "status": "partial",
  "note": "holds exactly where the satellite is at most half a turn ahead of the target (C34_ahead); violated otherwise (target 1 degree, satellite 359 degrees: 358 instead of 2)"
 },
 "C35": {
  "status": "proved",
  "note": "ray and (for a distant Sun) segment; exact reals"
 },
 "C36": {
  "status": "proved",
  "note": "for every position and sidereal times in [-24,24]; exact reals"
 },
 "C37": {
  "status": "proved",
  "note": "exact reals"
 },
 "C38": {
  "status": "partial",
  "note": "general case proved; the special cases near the zenith, on the meridian south of the zenith and at the poles are wrong (witnesses)"
 },
 "C39": {
  "status": "proved",
  "note": "all dates and longitudes; exact reals"
 },
 "C40": {
  "status": "proved",
  "note": "exact reals; double arithmetic is C71"
 },
 "C41": {
  "status": "proved",
  "note": "epochs within a century of 2000 and |tan dec| <= 600; C41_pole_excluded shows that the condition is needed"
 },
 "C42": {
  "status": "proved",
  "note": "32 bit version for nside = 2^k, k ≤ 13, 64 bit version for k ≤ 29; build without BMI2."
 },
 "C43": {
  "status": "partial",
  "note": "Proved for nside = 2^k, k ≤ 13 (32 bit) and k ≤ 29 (64 bit), -1 for every other nside except 0. Violated: nside = 0 divides by zero, the 32 bit version accepts 16384 and overflows."
 },
 "C44": {
  "status": "proved",
  "note": "Exact arithmetic; 32 bit nside up to 8192 and 64 bit up to 2^29, both numberings; other colatitudes are refused. Rounding: C67."
 },
 "C45": {
  "status": "proved",
  "note": "Exact arithmetic; both numberings, 32 and 64 bit."
 },
 "C46": {
  "status": "partial",
  "note": "Round trip proved for nside ≤ 46340 (long), ≤ 27397079 and all powers of two up to 2^29 (64 bit); a result other than -1 is exact. Violated: nside 65536 (long, quotient cut to int), nside 134626353 (64 bit, division in double), negative counts."
 },
 "C47": {
  "status": "partial",
  "note": "Types '2'-'5' and the domain check: C47_types_partial; the period: C89. Violated: state vectors are marked 'H' by the reader while select_ephemeris tests 'h', so SGP4 can be chosen (C47_high_violated); rejected elements are propagated with SDP4 (C47_rejected_violated)."
 },
 "C48": {
  "status": "partial",
  "note": "Codes of sxpx_posn_vel are truthful and errors give zero vectors. Violated: -3 is never returned (C48_within_violated); sat_skymap ignores the code and reports a failed satellite at the centre of the Earth (C48_reported_violated). The early return of SDP4 is in C143."
 },
 "C49": {
  "status": "proved",
  "note": "exact reals; the number of passes is the fuel of the loop"
 },
 "C50": {
  "status": "partial",
  "note": "violated in the default mode, which the programs use: C50_default_violated (a satellite and two times less than 30 minutes apart for which the perturbed eccentricity of the second call is that of the first). Proved: for orbits without resonance the answer is that of the secular elements of t with the periodic terms of a time less than 30 minutes away (C50_default_partial), and how much those terms can differ (C50_bound_partial). The Dundee mode is C103. exact reals"
 },
 "C51": {
  "status": "proved",
  "note": "orders above 20 and steps that are not positive, which the interface accepts but the programs never set, are shown to fail (C51_order_excluded, C51_step_excluded). exact reals"
 },
 "C52": {
  "status": "proved",
  "note": "exact reals. C52_cached: any sequence of calls of cached_lunar_solar_position; C52_history: the results for 'H' elements do not depend on earlier calls. C52_zero_excluded: a first call for Julian date 0 returns zeros"
 },
 "C53": {
  "status": "proved",
  "note": "C53_steps: exact reals, all t; C53_double: the loop in double arithmetic up to 2^53 days; C53_endless_excluded: from 2^53 + 4 days the loop does not end"
 },
 "C54": {
  "status": "proved",
  "note": "exact reals; dates within 1000 years of 2000. C54_cached covers any history of calls and also bounds the error of each returned quantity; C54_zero_excluded: a first call for a date within 0.01 day of Julian date 0 returns the zeros of the initial state"
 },
 "C55": {
  "status": "proved",
  "note": "exact reals. C55_entries: every index of the table program is in range and refers to an entry already computed; C55_series: the sums are the 106-term series of IAU 1980 for any arguments; C55_arguments, C55_nutation: with the program's own arguments within 1e-9 arcseconds for 1000 years around 2000"
 },
 "C56": {
  "status": "proved",
  "note": "C56_first (search), C56_skipped (-N), C56_mjd (printed time; ordinary dates). Propagation and geometry are an arbitrary function of the instant; the ends of the search are C60"
 },
 "C57": {
  "status": "partial",
  "note": "C57_contiguous_partial: all samples before the reported end are visible; C57_end_violated: the sample reported as the end is the first one no longer visible (C120 says exactly what is reported)"
 },
 "C58": {
  "status": "proved",
  "note": "over the visible samples of the pass"
 },
 "C59": {
  "status": "partial",
  "note": "C59_order_partial, C59_duration_partial (right when the pass ends in the shadow); C59_short_violated: one step too short when the satellite leaves the field or the range ends; C59_negative_violated: negative for a pass of one sample at the end of the range"
 },
 "C60": {
  "status": "partial",
  "note": "C60_positive_partial: steps of at least 1 s, every range up to JD 2^30; C60_zero_violated: step 0 (-t 0, -t 0.5) never ends"
 },
 "C61": {
  "status": "partial",
  "note": "C61_dates_partial: two dates YYYY-MM-DDThh:mm:ss set both ends, whatever else is on the command line; C61_mjds_partial: two MJDs without minus sign; C61_fraction_violated: with fractions of seconds the second date is not read; C61_negative_violated: a minus sign in -j prints the usage; C61_ignored_violated: -j after -d wins"
 },
 "C62": {
  "status": "partial",
  "note": "C62_first_partial: over files of records, the record analysed is the first one for which the comparison of the code succeeds, else status 1; C129 says when that comparison is equality; C62_alpha5_violated: a number above 99999 is never found and -s 0 selects such a record; C62_pieces_violated: -i 2019-006D selects 2019-006DE, and -i 2019-006DE finds nothing"
 },
 "C63": {
  "status": "partial",
  "note": "Violated: the check column is not tested to be a digit (witness with 'B'). Proved when it is a digit."
 },
 "C64": {
  "status": "partial",
  "note": "Violated: witnesses with valid checksums where sci() runs away and get_angle() overflows. Proved safe for the standard layout."
 },
 "C65": {
  "status": "partial",
  "note": "Violated for a digit in the classification column (witness); proved otherwise."
 },
 "C66": {
  "status": "proved",
  "note": "Non-interference for single files and lists, for all runs."
 },
 "C67": {
  "status": "partial",
  "note": "Violated: nside 256, z=-0.6666666666666661, phi=6.283185307179585 gives 830122 (C67_nest_violated); RING at nside 2 gives -1 (C67_ring_violated). Proved for NESTED outside the last 2^-40 quarter turns of the belt (C67_nest_partial) and for RING in every direction for nside 4 to 8192 (C67_ring_partial)."
 },
 "C68": {
  "status": "proved",
  "note": "Exact arithmetic; all rings, both numberings, 32 and 64 bit."
 },
 "C69": {
  "status": "proved",
  "note": "all reals; the converse fails (C69_not_complete)"
 },
 "C70": {
  "status": "partial",
  "note": "violated: degrees are subtracted from radians (witness C70_overhead_violated); holds on the equator only (C70_equator_partial)"
 },
 "C71": {
  "status": "partial",
  "note": "violated at the upper end: -2^-60 gives twopi itself; closed interval and error bound proved"
 },
 "C72": {
  "status": "proved",
  "note": "exact reals; C72_sun_dec for obliquities in [0, pi/2]"
 },
 "C73": {
  "status": "proved",
  "note": "exact reals, |lat| < 90 degrees"
 },
 "C74": {
  "status": "partial",
  "note": "violated before 22 September 1999 (witness: 20 September 1999 0h); at most 24 always, not negative after"
 },
 "C75": {
  "status": "proved",
  "note": "exact reals, Julian dates from 0"
 },
 "C76": {
  "status": "partial",
  "note": "general case; violated on the meridian south of the zenith (witness)"
 },
 "C77": {
  "status": "proved",
  "note": "contraction with factor 1/2; exact reals"
 },
 "C78": {
  "status": "proved",
  "note": "positions not on the axis; C78_axis_excluded: on the axis the altitude is below -6000 km"
 },
 "C79": {
  "status": "partial",
  "note": "violated: the test uses the position at the second epoch (witness: half an orbit later); what holds is the statement for that epoch"
 },
 "C80": {
  "status": "proved",
  "note": "for arbitrary propagators; exact reals; the Sun is not at the satellite"
 },
 "C81": {
  "status": "partial",
  "note": "violated for motion to the west across right ascension 0 (witness); proved otherwise"
 },
 "C82": {
  "status": "partial",
  "note": "violated near the poles (witness: the program ends in an assertion); proved for declinations 0.0098 rad per century away"
 },
 "C83": {
  "status": "proved",
  "note": "exact reals"
 },
 "C84": {
  "status": "partial",
  "note": "violated for negative steps; proved for positive ones"
 },
 "C85": {
  "status": "proved",
  "note": "exact reals"
 },
 "C86": {
  "status": "proved",
  "note": "for all argument lists"
 },
 "C87": {
  "status": "proved",
  "note": "for all argument lists; the longitude is not limited (example), right ascension 360 is accepted"
 },
 "C88": {
  "status": "partial",
  "note": "The answer lists satellites once each; n_sats_found and n_sunlit_sats are right on every exit of the reading loop, n_sats is right when the run completes without -s/-i. Violated: with -s and -V for a satellite in shadow nothing is listed, n_sats_found is 0 and n_sats 1 (C88_filtered_violated)."
 },
 "C89": {
  "status": "proved",
  "note": "exact reals"
 },
 "C90": {
  "status": "proved",
  "note": "exact reals"
 },
 "C91": {
  "status": "proved",
  "note": "exact reals"
 },
 "C92": {
  "status": "proved",
  "note": "exact reals"
 },
 "C93": {
  "status": "proved",
  "note": "exact reals"
 },
 "C94": {
  "status": "proved",
  "note": "exact reals"
 },
 "C95": {
  "status": "proved",
  "note": "exact reals"
 },
 "C96": {
  "status": "proved",
  "note": "exact reals; the constants are those of the source"
 },
 "C97": {
  "status": "proved",
  "note": "exact reals"
 },
 "C98": {
  "status": "proved",
  "note": "exact reals"
 },
 "C99": {
  "status": "proved",
  "note": "exact reals; for 12-hour orbits the argument of perigee is held during the step, as the code does"
 }
}
