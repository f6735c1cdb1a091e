{"claims": [
{"property": "C01", "status": "proved", "theorems": ["Verif.Props.C01_floorDiv_floor", "Verif.Props.C01_floorDiv64_floor", "Verif.Props.C01_floorDiv64_exceptions"], "note": ""},
{"property": "C02", "status": "proved", "theorems": ["Verif.Props.C02_gregorian_dayCount"], "note": ""},
{"property": "C03", "status": "proved", "theorems": ["Verif.Props.C03_julian_dayCount", "Verif.Props.C03_reform"], "note": ""},
{"property": "C04", "status": "proved", "theorems": ["Verif.Props.C04_date_jd_date", "Verif.Props.C04_jd_date_jd", "Verif.Props.C04_jd_proleptic"], "note": ""},
{"property": "C05", "status": "partial", "theorems": ["Verif.Props.C05_julian_roundtrip_partial", "Verif.Props.C05_jd_date_jd_partial", "Verif.Props.C05_violation", "Verif.Props.C05_violation_oct4"], "note": "The code violates the statement for Julian dates 1582 Sep 25 to Oct 4 (violation theorems); the roundtrip is proved for every other Julian date."},
{"property": "C06", "status": "partial", "theorems": ["Verif.Props.C06_dayOfWeek_constant", "Verif.Props.C06_dayOfWeek_step", "Verif.Props.C06_dayOfWeek_anchor", "Verif.Props.C06_violation_negative"], "note": "Proved for Julian days ≥ -1.5; for more negative Julian days the code returns a negative weekday (violation theorem)."},
{"property": "C07", "status": "proved", "theorems": ["Verif.Props.C07_leapGregorian_length", "Verif.Props.C07_leapJulian_length", "Verif.Props.C07_leap_density"], "note": ""},
{"property": "C08", "status": "proved", "theorems": ["Verif.Props.C08_dayOfYearGregorian", "Verif.Props.C08_dayOfYearJulian", "Verif.Props.C08_calendar_of_dayOfYear", "Verif.Props.C08_dayOfYear_of_calendar"], "note": ""},
{"property": "C09", "status": "proved", "theorems": ["Verif.Props.C09_easterGregorian_first_sunday", "Verif.Props.C09_easterGregorian_range", "Verif.Props.C09_easterGregorian_dayOfWeek"], "note": ""},
{"property": "C10", "status": "proved", "theorems": ["Verif.Props.C10_easterJulian_first_sunday", "Verif.Props.C10_easterJulian_range", "Verif.Props.C10_easterJulian_dayOfWeek"], "note": ""},
{"property": "C11", "status": "proved", "theorems": ["Verif.Props.C11_easterGregorian_period", "Verif.Props.C11_easterJulian_period", "Verif.Props.C11_easterGregorian_minimal", "Verif.Props.C11_easterJulian_minimal"], "note": ""},
{"property": "C12", "status": "proved", "theorems": ["Verif.Props.C12_jewish_weekdays"], "note": "Holds for every y ≥ 0 and any error below one day in the floating point term."},
{"property": "C13", "status": "partial", "theorems": ["Verif.Props.C13_newYear_exact", "Verif.Props.C13_days_exact", "Verif.Props.C13_days_values", "Verif.Props.C13_months", "Verif.Props.C13_violation", "Verif.Props.C13_violation_1582"], "note": "days and the new year date agree exactly with the molad/dehiyyot definition for 0..400,000,000 except year 1582 (violation); months belongs to year A but days to year A+1 (violation)."},
{"property": "C14", "status": "partial", "theorems": ["Verif.Props.C14_moslemToJulian_day", "Verif.Props.C14_dayOfYear_range_partial", "Verif.Props.C14_dayOfYear_pos_partial", "Verif.Props.C14_violation"], "note": "Same day proved for all dates; the day number 0 occurs for some 1 Muharram (violation), bounds otherwise proved."},
{"property": "C15", "status": "proved", "theorems": ["Verif.Props.C15_moslemLeapYear", "Verif.Props.C15_moslemLeapYear_density"], "note": ""},
{"property": "C16", "status": "partial", "theorems": ["Verif.Props.C16_same_year_partial", "Verif.Props.C16_next_year_partial", "Verif.Props.C16_violation", "Verif.Props.C16_violation_first_year"], "note": "False (violations: JulianToMoslem tests the Julian year number for leap, and fails in 622); two partial theorems delimit where it is right."},
{"property": "C17", "status": "proved", "theorems": ["Verif.Props.C17_julianToGregorian", "Verif.Props.C17_julianToGregorian_before", "Verif.Props.C17_gregorianToJulian"], "note": ""},
{"property": "C18", "status": "proved", "theorems": ["Verif.Props.C18_horner"], "note": ""},
{"property": "C19", "status": "proved", "theorems": ["Verif.Props.C19_through", "Verif.Props.C19_reproduces", "Verif.Props.C19_order", "Verif.Props.C19_poly"], "note": ""},
{"property": "C20", "status": "proved", "theorems": ["Verif.Props.C20_newLen3_errors", "Verif.Props.C20_len3_polynomial", "Verif.Props.C20_len3_unique", "Verif.Props.C20_len3_strict"], "note": ""},
{"property": "C21", "status": "proved", "theorems": ["Verif.Props.C21_extremum_sound", "Verif.Props.C21_extremum_complete", "Verif.Props.C21_extremum_errors"], "note": ""},
{"property": "C22", "status": "proved", "theorems": ["Verif.Props.C22_zero_sound"], "note": "Exact arithmetic with IEEE-like Inf/NaN."},
{"property": "C23", "status": "partial", "theorems": ["Verif.Props.C23_len3_violation", "Verif.Props.C23_len5_violation"], "note": "False for every table with a zero central row, both strategies (universal violation theorems)."},
{"property": "C24", "status": "proved", "theorems": ["Verif.Props.C24_newLen5_errors", "Verif.Props.C24_len5_polynomial", "Verif.Props.C24_len5_unique"], "note": ""},
{"property": "C25", "status": "partial", "theorems": ["Verif.Props.C25_extremum_partial", "Verif.Props.C25_extremum_no_third_partial", "Verif.Props.C25_violation"], "note": "The code uses a wrong third difference (h+k instead of h+j): residual derivative is H/4 n^2; correct when H=0 (partial), concrete violation."},
{"property": "C26", "status": "proved", "theorems": ["Verif.Props.C26_zero_sound", "Verif.Props.C26_linear"], "note": "Exact arithmetic with IEEE-like Inf/NaN."},
{"property": "C27", "status": "partial", "theorems": ["Verif.Props.C27_len5_strict_partial", "Verif.Props.C27_violation"], "note": "False: only the inner half of the range is accepted (exact characterisation proved, plus violation at both ends)."},
{"property": "C28", "status": "proved", "theorems": ["Verif.Props.C28_len4Half"], "note": ""},
{"property": "C29", "status": "proved", "theorems": ["Verif.Props.C29_selects", "Verif.Props.C29_tabulated", "Verif.Props.C29_errors"], "note": ""},
{"property": "C30", "status": "proved", "theorems": ["Verif.Props.C30_linear"], "note": ""},
{"property": "C31", "status": "proved", "theorems": ["Verif.Props.C31_quadratic", "Verif.Props.C31_exact"], "note": ""},
{"property": "C32", "status": "proved", "theorems": ["Verif.Props.C32_func3", "Verif.Props.C32_func3_quadratic", "Verif.Props.C32_func1"], "note": ""},
{"property": "C33", "status": "proved", "theorems": ["Verif.Props.C33_range", "Verif.Props.C33_symmetric", "Verif.Props.C33_line"], "note": ""},
{"property": "C34", "status": "proved", "theorems": ["Verif.Props.C34_decimalPlaces", "Verif.Props.C34_contraction"], "note": ""},
{"property": "C35", "status": "proved", "theorems": ["Verif.Props.C35_binaryRoot", "Verif.Props.C35_between"], "note": ""},
{"property": "C36", "status": "partial", "theorems": ["Verif.Props.C36_root_at_bound_partial", "Verif.Props.C36_violation"], "note": "False for a root exactly at the lower bound with f positive above it (violation); every other endpoint case proved."},
{"property": "C37", "status": "proved", "theorems": ["Verif.Props.C37_kepler3"], "note": ""},
{"property": "C38", "status": "proved", "theorems": ["Verif.Props.C38_kepler1_accuracy", "Verif.Props.C38_kepler1_converges"], "note": ""},
{"property": "C39", "status": "partial", "theorems": ["Verif.Props.C39_kepler2", "Verif.Props.C39_kepler2b", "Verif.Props.C39_kepler2a_partial", "Verif.Props.C39_kepler2a_violation"], "note": "Proved for Kepler2 and Kepler2b; false for Kepler2a at every precision (violation), partial for it."},
{"property": "C40", "status": "proved", "theorems": ["Verif.Props.C40_true_radius"], "note": ""},
{"property": "C41", "status": "proved", "theorems": ["Verif.Props.C41_elliptic_ascending", "Verif.Props.C41_elliptic_descending", "Verif.Props.C41_parabolic_ascending", "Verif.Props.C41_parabolic_descending"], "note": ""},
{"property": "C42", "status": "proved", "theorems": ["Verif.Props.C42_parabolic", "Verif.Props.C42_symmetric"], "note": ""},
{"property": "C43", "status": "proved", "theorems": ["Verif.Props.C43_nearparabolic_limit"], "note": ""},
{"property": "C44", "status": "proved", "theorems": ["Verif.Props.C44_sepHav", "Verif.Props.C44_sepPauwels", "Verif.Props.C44_metric"], "note": ""},
{"property": "C45", "status": "partial", "theorems": ["Verif.Props.C45_sep_partial", "Verif.Props.C45_sep_small_partial", "Verif.Props.C45_violation"], "note": "False across the 0h wrap (violation: 2π for equal directions); exact above 10 arc minutes, within 3% below it when right ascensions are not wrapped and the bodies are not near a pole."},
{"property": "C46", "status": "proved", "theorems": ["Verif.Props.C46_eqToEcl_rotation", "Verif.Props.C46_eclToEq_rotation", "Verif.Props.C46_roundtrip_eq", "Verif.Props.C46_roundtrip_ecl", "Verif.Props.C46_separation"], "note": ""},
{"property": "C47", "status": "proved", "theorems": ["Verif.Props.C47_eqToHz", "Verif.Props.C47_roundtrip", "Verif.Props.C47_roundtrip_hz"], "note": ""},
{"property": "C48", "status": "proved", "theorems": ["Verif.Props.C48_eqToGal", "Verif.Props.C48_galToEq", "Verif.Props.C48_roundtrip_eq", "Verif.Props.C48_roundtrip_gal", "Verif.Props.C48_pole"], "note": ""},
{"property": "C49", "status": "proved", "theorems": ["Verif.Props.C49_parallaxConstants", "Verif.Props.C49_height", "Verif.Props.C49_radiusOfCurvature"], "note": ""},
{"property": "C50", "status": "partial", "theorems": ["Verif.Props.C50_symmetric", "Verif.Props.C50_violation", "Verif.Props.C50_distance_partial", "Verif.Props.C50_meridian"], "note": "Distance of a point from itself is NaN (violation); symmetry proved; finite otherwise and exact on a sphere."},
{"property": "C51", "status": "proved", "theorems": ["Verif.Props.C51_rotation", "Verif.Props.C51_angles", "Verif.Props.C51_separation_preserved", "Verif.Props.C51_range", "Verif.Props.C51_identity", "Verif.Props.C51_position_zero_motion", "Verif.Props.C51_example"], "note": ""},
{"property": "C52", "status": "proved", "theorems": ["Verif.Props.C52_precess", "Verif.Props.C52_position", "Verif.Props.C52_approxPosition", "Verif.Props.C52_eclipticPrecess", "Verif.Props.C52_eclipticPosition", "Verif.Props.C52_reduceElements", "Verif.Props.C52_reduceB1950", "Verif.Props.C52_reduceFK4", "Verif.Props.C52_properMotion3D", "Verif.Props.C52_apparentPosition", "Verif.Props.C52_positionRonVondrak", "Verif.Props.C52_example"], "note": ""},
{"property": "C53", "status": "partial", "theorems": ["Verif.Props.C53_terminates_partial", "Verif.Props.C53_zero_terms_violation"], "note": ""},
{"property": "C54", "status": "partial", "theorems": ["Verif.Props.C54_no_panic_partial", "Verif.Props.C54_errors", "Verif.Props.C54_truncated_violation", "Verif.Props.C54_negative_violation"], "note": ""},
{"property": "C55", "status": "proved", "theorems": ["Verif.Props.C55_loads_exactly", "Verif.Props.C55_example"], "note": ""},
{"property": "C56", "status": "proved", "theorems": ["Verif.Props.C56_bracketed", "Verif.Props.C56_neptune"], "note": ""},
{"property": "C57", "status": "partial", "theorems": ["Verif.Props.C57_terminates_forward_partial", "Verif.Props.C57_terminates_backward_partial", "Verif.Props.C57_plateau_violation", "Verif.Props.C57_example"], "note": ""},
{"property": "C58", "status": "proved", "theorems": ["Verif.Props.C58_kind", "Verif.Props.C58_numbers", "Verif.Props.C58_example"], "note": ""},
{"property": "C59", "status": "proved", "theorems": ["Verif.Props.C59_kind", "Verif.Props.C59_numbers"], "note": ""},
{"property": "C60", "status": "proved", "theorems": ["Verif.Props.C60_error_iff", "Verif.Props.C60_times", "Verif.Props.C60_example", "Verif.Props.C60_example_circumpolar"], "note": ""},
{"property": "C61", "status": "partial", "theorems": ["Verif.Props.C61_transit_partial", "Verif.Props.C61_rise_set", "Verif.Props.C61_violation"], "note": "False: the corrected times are not reduced to the day (violation with a transit a day late); the corrected transit is right modulo whole days (partial)."},
{"property": "C62", "status": "proved", "theorems": ["Verif.Props.C62_range", "Verif.Props.C62_day", "Verif.Props.C62_midnight"], "note": ""},
{"property": "C63", "status": "partial", "theorems": ["Verif.Props.C63_violation", "Verif.Props.C63_midnight_partial"], "note": "False on every day: the fraction of the day is kept (violation, universally quantified); at 0h it is Mean0UT plus the nutation of the following noon (partial)."},
{"property": "C64", "status": "proved", "theorems": ["Verif.Props.C64_vertical", "Verif.Props.C64_horizontal"], "note": "Horizontal agreement between the polar circles; at higher latitudes Horizontal plots points of the polar night (C65)."},
{"property": "C65", "status": "partial", "theorems": ["Verif.Props.C65_up_partial", "Verif.Props.C65_general_horizontal_partial", "Verif.Props.C65_violation"], "note": "False: Horizontal plots points for the polar night (violation: arc cosine out of its domain). True when the Sun rises, and for General with a horizontal plane (partial)."},
{"property": "C66", "status": "proved", "theorems": ["Verif.Props.C66_lengths", "Verif.Props.C66_order"], "note": ""},
{"property": "C67", "status": "proved", "theorems": ["Verif.Props.C67_phase_nearest", "Verif.Props.C67_apsis_node_nearest"], "note": ""},
{"property": "C68", "status": "proved", "theorems": ["Verif.Props.C68_smallest", "Verif.Props.C68_bounds", "Verif.Props.C68_order", "Verif.Props.C68_triangle"], "note": "Smallest circle in the plane of the three separations, as the function is defined."},
{"property": "C69", "status": "proved", "theorems": ["Verif.Props.C69_topocentric", "Verif.Props.C69_topocentric3", "Verif.Props.C69_agree", "Verif.Props.C69_no_parallax", "Verif.Props.C69_topocentric2"], "note": ""},
{"property": "C70", "status": "proved", "theorems": ["Verif.Props.C70_fraction", "Verif.Props.C70_geometry"], "note": ""},
{"property": "C71", "status": "partial", "theorems": ["Verif.Props.C71_violation", "Verif.Props.C71_difference_partial"], "note": "False: the 1984 formula divides by the ring longitude difference (violation, infinite at 0); the remaining terms agree (partial)."},
{"property": "C72", "status": "partial", "theorems": ["Verif.Props.C72_violation", "Verif.Props.C72_near2000_partial", "Verif.Props.C72_always_violation"], "note": "False: quotients of integer constants are 0 (violation); node and perigee right within .0002 degree near 2000 (partial)."},
{"property": "C73", "status": "partial", "theorems": ["Verif.Props.C73_violation", "Verif.Props.C73_violation_mean"], "note": "False: the constant is 2 arcsec (violation)."},
{"property": "C74", "status": "proved", "theorems": ["Verif.Props.C74_sumN_flux", "Verif.Props.C74_sum_two", "Verif.Props.C74_sumN_perm", "Verif.Props.C74_sum_comm", "Verif.Props.C74_brighter", "Verif.Props.C74_ratio_difference", "Verif.Props.C74_difference_ratio", "Verif.Props.C74_absolute"], "note": ""},
{"property": "C75", "status": "proved", "theorems": ["Verif.Props.C75_position", "Verif.Props.C75_range", "Verif.Props.C75_face_on", "Verif.Props.C75_ellipse", "Verif.Props.C75_mean"], "note": "Odd multiples of 180 degrees of the eccentric anomaly excluded in Position (the code takes the tangent of 90 degrees)."},
{"property": "C76", "status": "partial", "theorems": ["Verif.Props.C76_violation", "Verif.Props.C76_other_partial", "Verif.Props.C76_ellipse_partial"], "note": "False for Earth (violation, panic at every instant); all others proved (partial)."},
{"property": "C77", "status": "proved", "theorems": ["Verif.Props.C77_total", "Verif.Props.C77_tabulated", "Verif.Props.C77_example", "Verif.Props.C77_smooth"], "note": ""},
{"property": "C78", "status": "partial", "theorems": ["Verif.Props.C78_valid_dates_partial", "Verif.Props.C78_violation"], "note": "Proved for 1583..2999; false outside (violation)."},
{"property": "C79", "status": "partial", "theorems": ["Verif.Props.C79_fullPrecision_partial", "Verif.Props.C79_violation"], "note": "A fixed point at zero is missed: the relative test divides by the iterate (violation)."},
{"property": "C80", "status": "proved", "theorems": ["Verif.Props.C80_kepler4"], "note": ""},
{"property": "C81", "status": "proved", "theorems": ["Verif.Props.C81_nearparabolic_terminates"], "note": ""},
{"property": "C82", "status": "partial", "theorems": ["Verif.Props.C82_relativePosition_partial", "Verif.Props.C82_violation"], "note": "The code returns the angle with the opposite sign (violation); its negative is proved correct."},
{"property": "C83", "status": "proved", "theorems": ["Verif.Props.C83_ecliptic_rotation", "Verif.Props.C83_angles", "Verif.Props.C83_separation_preserved", "Verif.Props.C83_identity", "Verif.Props.C83_reduceElements", "Verif.Props.C83_inclination_range"], "note": ""},
{"property": "C84", "status": "partial", "theorems": ["Verif.Props.C84_fk4_rotation", "Verif.Props.C84_b1950_partial", "Verif.Props.C84_b1950_violation"], "note": ""},
{"property": "C85", "status": "proved", "theorems": ["Verif.Props.C85_straight_line", "Verif.Props.C85_range"], "note": ""},
{"property": "C86", "status": "proved", "theorems": ["Verif.Props.C86_ecliptic", "Verif.Props.C86_equatorial", "Verif.Props.C86_agree", "Verif.Props.C86_ronVondrak", "Verif.Props.C86_bound", "Verif.Props.C86_example"], "note": ""},
{"property": "C87", "status": "proved", "theorems": ["Verif.Props.C87_motion_to_ecliptic"], "note": ""},
{"property": "C88", "status": "proved", "theorems": ["Verif.Props.C88_nutation"], "note": ""},
{"property": "C89", "status": "proved", "theorems": ["Verif.Props.C89_nearest_number", "Verif.Props.C89_defined", "Verif.Props.C89_alternate"], "note": ""},
{"property": "C90", "status": "proved", "theorems": ["Verif.Props.C90_phases_in_order", "Verif.Props.C90_monotone"], "note": ""},
{"property": "C91", "status": "proved", "theorems": ["Verif.Props.C91_apsides_alternate", "Verif.Props.C91_parallax", "Verif.Props.C91_nodes_alternate"], "note": ""},
{"property": "C92", "status": "partial", "theorems": ["Verif.Props.C92_A1_partial", "Verif.Props.C92_A1_violation"], "note": "False: the argument A1 of the phase corrections is off (violation)."},
{"property": "C93", "status": "partial", "theorems": ["Verif.Props.C93_mean_near_partial", "Verif.Props.C93_half_day_violation"], "note": "False (violation)."},
{"property": "C94", "status": "proved", "theorems": ["Verif.Props.C94_no_eclipse_missed", "Verif.Props.C94_example"], "note": ""},
{"property": "C95", "status": "proved", "theorems": ["Verif.Props.C95_geometry", "Verif.Props.C95_ecliptic", "Verif.Props.C95_approximation"], "note": ""},
{"property": "C96", "status": "proved", "theorems": ["Verif.Props.C96_limb"], "note": ""},
{"property": "C97", "status": "partial", "theorems": ["Verif.Props.C97_violation", "Verif.Props.C97_range_partial"], "note": "False: exceeds 1 at superior conjunction (violation); within [0, 1.000001] (partial)."},
{"property": "C98", "status": "proved", "theorems": ["Verif.Props.C98_saturn"], "note": ""},
{"property": "C99", "status": "proved", "theorems": ["Verif.Props.C99_ecliptical"], "note": ""},
{"property": "C100", "status": "partial", "theorems": ["Verif.Props.C100_violation", "Verif.Props.C100_finite_partial"], "note": "False at the equinox: division by tan 0 (violation); finite otherwise (partial)."},
{"property": "C101", "status": "proved", "theorems": ["Verif.Props.C101_shadow", "Verif.Props.C101_center"], "note": ""},
{"property": "C102", "status": "proved", "theorems": ["Verif.Props.C102_parallactic", "Verif.Props.C102_horizon", "Verif.Props.C102_horizon_nan"], "note": ""},
{"property": "C103", "status": "proved", "theorems": ["Verif.Props.C103_ecliptic_horizon", "Verif.Props.C103_ecliptic_equator"], "note": ""},
{"property": "C104", "status": "proved", "theorems": ["Verif.Props.C104_diurnal", "Verif.Props.C104_nan"], "note": ""},
{"property": "C105", "status": "partial", "theorems": ["Verif.Props.C105_triple", "Verif.Props.C105_time", "Verif.Props.C105_length", "Verif.Props.C105_example", "Verif.Props.C105_centre_violation"], "note": "Soundness proved; false for a body aligned exactly at the central row: reported as no convergence (violation, inherited from C23)."},
{"property": "C106", "status": "partial", "theorems": ["Verif.Props.C106_angle", "Verif.Props.C106_angleError_partial", "Verif.Props.C106_violation"], "note": "Angle proved; the angle of AngleError is the supplement (violation; the exact relation is the partial theorem)."},
{"property": "C107", "status": "proved", "theorems": ["Verif.Props.C107_error", "Verif.Props.C107_angleError", "Verif.Props.C107_example"], "note": ""},
{"property": "C108", "status": "partial", "theorems": ["Verif.Props.C108_decreasing", "Verif.Props.C108_order", "Verif.Props.C108_positive_partial", "Verif.Props.C108_zenith_violation", "Verif.Props.C108_gt15"], "note": "Monotonicity and order proved; negative at the zenith (violation), positive up to 89.8 degrees (partial)."},
{"property": "C109", "status": "proved", "theorems": ["Verif.Props.C109_ends", "Verif.Props.C109_areas", "Verif.Props.C109_decreasing"], "note": ""},
{"property": "C110", "status": "proved", "theorems": ["Verif.Props.C110_length4"], "note": "The rounding of the float sum is a parameter (structure Rounding); all else exact."},
{"property": "C111", "status": "proved", "theorems": ["Verif.Props.C111_length1", "Verif.Props.C111_length2"], "note": ""},
{"property": "C112", "status": "proved", "theorems": ["Verif.Props.C112_anomaly", "Verif.Props.C112_place", "Verif.Props.C112_obliquity"], "note": ""},
{"property": "C113", "status": "proved", "theorems": ["Verif.Props.C113_astrometric", "Verif.Props.C113_lighttime", "Verif.Props.C113_planet", "Verif.Props.C113_equatorial"], "note": ""},
{"property": "C114", "status": "proved", "theorems": ["Verif.Props.C114_ranges", "Verif.Props.C114_center", "Verif.Props.C114_radius", "Verif.Props.C114_ecc", "Verif.Props.C114_trueEquatorial", "Verif.Props.C114_apparentEquatorial", "Verif.Props.C114_vsop", "Verif.Props.C114_apparent_vsop", "Verif.Props.C114_apparent", "Verif.Props.C114_apparent_obliquity", "Verif.Props.C114_true2000"], "note": ""},
{"property": "C115", "status": "proved", "theorems": ["Verif.Props.C115_smart_bound", "Verif.Props.C115_smart", "Verif.Props.C115_E"], "note": ""},
{"property": "C116", "status": "proved", "theorems": ["Verif.Props.C116_obliquity", "Verif.Props.C116_range", "Verif.Props.C116_decreasing", "Verif.Props.C116_bounds", "Verif.Props.C116_approx", "Verif.Props.C116_inRA", "Verif.Props.C116_approx_obliquity"], "note": "All parts proved. The obliquity of ApproxNutation is bounded by a sum of squares of trigonometric polynomials, the adding up of absolute coefficients being too coarse."},
{"property": "C117", "status": "proved", "theorems": ["Verif.Props.C117_disk", "Verif.Props.C117_position", "Verif.Props.C117_cycle"], "note": ""},
{"property": "C118", "status": "proved", "theorems": ["Verif.Props.C118_xyz", "Verif.Props.C118_longitude", "Verif.Props.C118_position", "Verif.Props.C118_equinox", "Verif.Props.C118_norm", "Verif.Props.C118_J2000", "Verif.Props.C118_B1950"], "note": ""},
{"property": "C119", "status": "partial", "theorems": ["Verif.Props.C119_planetary", "Verif.Props.C119_stellar", "Verif.Props.C119_star_is_planet", "Verif.Props.C119_uniform_partial", "Verif.Props.C119_violation"], "note": "Soundness proved; a conjunction in the outer half of the table gives an error (violation, inherited from C27); uniform motion in the inner half but off the central row is found exactly (partial)."},
{"property": "C120", "status": "partial", "theorems": ["Verif.Props.C120_minSep_partial", "Verif.Props.C120_rows", "Verif.Props.C120_violation"], "note": "The extremum may be a maximum (violation); least value proved when the middle separation is below the mean of the others (partial)."},
{"property": "C121", "status": "partial", "theorems": ["Verif.Props.C121_tan_sep", "Verif.Props.C121_plane", "Verif.Props.C121_sound_partial", "Verif.Props.C121_uniform_partial", "Verif.Props.C121_constant_violation", "Verif.Props.C121_extrapolation_violation"], "note": "Plane coordinates and stationarity proved; bodies at constant distance give an error, and the point may lie outside the table (violations); uniform motion exact (partial)."},
{"property": "C122", "status": "proved", "theorems": ["Verif.Props.C122_events", "Verif.Props.C122_elongations_stations"], "note": ""},
{"property": "C123", "status": "partial", "theorems": ["Verif.Props.C123_nearest_violation"], "note": "False in every synodic period (universal violation): the correction from the mean event has a mean of -21.6, +21.6 and +36.7 days. The general bound on how far the answer can be from the nearest event is C122_elongations_stations."},
{"property": "C124", "status": "proved", "theorems": ["Verif.Props.C124_order", "Verif.Props.C124_elongation"], "note": ""},
{"property": "C125", "status": "partial", "theorems": ["Verif.Props.C125_declination", "Verif.Props.C125_alternate", "Verif.Props.C125_monotone", "Verif.Props.C125_nearest_violation"], "note": "False that the nearest event is returned: k is counted from a date 7 days off (violation); the rest proved."},
{"property": "C126", "status": "partial", "theorems": ["Verif.Props.C126_bounds", "Verif.Props.C126_parallax", "Verif.Props.C126_moon_parallax", "Verif.Props.C126_range_violation"], "note": "Bounds and parallax proved; the longitude can be negative (violation: the reduction is applied before the periodic terms)."},
{"property": "C127", "status": "partial", "theorems": ["Verif.Props.C127_range", "Verif.Props.C127_true", "Verif.Props.C127_true_range_violation"], "note": "Node and Perigee proved; TrueNode is not reduced and can be negative (violation); the bound is proved."},
{"property": "C128", "status": "proved", "theorems": ["Verif.Props.C128_optical", "Verif.Props.C128_lib", "Verif.Props.C128_physical", "Verif.Props.C128_axis"], "note": ""},
{"property": "C129", "status": "partial", "theorems": ["Verif.Props.C129_helio", "Verif.Props.C129_sun_partial", "Verif.Props.C129_nutation_violation"], "note": "False: the Sun's longitude includes the nutation, the node's does not (violation, 14 arc seconds in 2001). Direction and frame otherwise proved (partial); heliocentric direction proved to second order."},
{"property": "C130", "status": "proved", "theorems": ["Verif.Props.C130_altitude", "Verif.Props.C130_zenith"], "note": ""},
{"property": "C131", "status": "partial", "theorems": ["Verif.Props.C131_equator_partial", "Verif.Props.C131_afternoon_violation", "Verif.Props.C131_latitude_partial"], "note": "False: started in the late lunar afternoon the result is not a sunrise (violation). Exact on the equator within 3/8 of a period, and to .0001 day at any latitude within 3 days (partial)."},
{"property": "C132", "status": "proved", "theorems": ["Verif.Props.C132_areas", "Verif.Props.C132_near_perihelion"], "note": "Proved for eccentricities 1/3..3, in exact arithmetic. Outside (e.g. e = .2, where the first term of the series vanishes) the series is cut too early; not near-parabolic, so outside the property."},
{"property": "C133", "status": "proved", "theorems": ["Verif.Props.C133_position2000", "Verif.Props.C133_position_of_date", "Verif.Props.C133_epoch"], "note": "Theorem C133_position2000 starts from the bytes of the file (through C55). The series of T are over all blocks; exact real arithmetic."},
{"property": "C134", "status": "proved", "theorems": ["Verif.Props.C134_rotation", "Verif.Props.C134_small"], "note": ""},
{"property": "C135", "status": "proved", "theorems": ["Verif.Props.C135_linear", "Verif.Props.C135_instant", "Verif.Props.C135_jd_roundtrip", "Verif.Props.C135_time_roundtrip", "Verif.Props.C135_lib_exists"], "note": "Go's package time is a parameter with the stated specification (structure Lib.Ok), shown satisfiable by C135_lib_exists."},
{"property": "C136", "status": "proved", "theorems": ["Verif.Props.C136_years", "Verif.Props.C136_calendar"], "note": ""},
{"property": "C137", "status": "proved", "theorems": ["Verif.Props.C137_vector", "Verif.Props.C137_frame", "Verif.Props.C137_latitudes", "Verif.Props.C137_axes", "Verif.Props.C137_position_angle"], "note": "Planets are arbitrary functions of time. Exact arithmetic."},
{"property": "C138", "status": "partial", "theorems": ["Verif.Props.C138_deltaU_partial", "Verif.Props.C138_violation"], "note": "False: ΔU is |U1−U2| of two arctangents and can exceed 6 radians with Sun and Earth 0.2 radians apart, which changes illum.Saturn by more than 7 magnitudes (violation). Range [0,2π) and the cosine proved (partial)."},
{"property": "C139", "status": "proved", "theorems": ["Verif.Props.C139_frame", "Verif.Props.C139_sun", "Verif.Props.C139_position_angle", "Verif.Props.C139_defect", "Verif.Props.C139_disk", "Verif.Props.C139_obliquity"], "note": "Planets are arbitrary functions of time; exact arithmetic. C139_position_angle refers to the apparent place (aberration and nutation as the code applies them)."},
{"property": "C140", "status": "proved", "theorems": ["Verif.Props.C140_frame", "Verif.Props.C140_sun", "Verif.Props.C140_position_angle"], "note": "Planets are arbitrary functions of time; exact arithmetic. The sign of the phase correction is sign(sin(l−l0)), and its size differs from the textbook one by the term from the Earth's latitude stated in jupPhase."},
{"property": "C141", "status": "proved", "theorems": ["Verif.Props.C141_light_time", "Verif.Props.C141_planets"], "note": "Motion of the planet is any Lipschitz function slower than light; the Earth is fixed at the date."},
{"property": "C142", "status": "proved", "theorems": ["Verif.Props.C142_triangle", "Verif.Props.C142_physical"], "note": ""},
{"property": "C143", "status": "proved", "theorems": ["Verif.Props.C143_ellipse", "Verif.Props.C143_inner_moons_cross"], "note": ""},
{"property": "C144", "status": "proved", "theorems": ["Verif.Props.C144_no_triple_transit"], "note": "Range of dates 1e8 days, as the arguments of the code drift by 1e-7 degree a day from the exact resonance."},
{"property": "C145", "status": "proved", "theorems": ["Verif.Props.C145_alignment", "Verif.Props.C145_anomaly"], "note": ""},
{"property": "C146", "status": "partial", "theorems": ["Verif.Props.C146_fk4_rotation", "Verif.Props.C146_b1950_partial", "Verif.Props.C146_b1950_violation", "Verif.Props.C146_angles"], "note": "FK4 to FK5 reduction proved exact; same-basis reduction proved to 2 arc seconds below 89.99 degrees; retrograde orbits are wrong in the code (arc sine of the hypotenuse), shown by a witness."},
{"property": "C147", "status": "proved", "theorems": ["Verif.Props.C147_year", "Verif.Props.C147_1800to1997", "Verif.Props.C147_1800to1899", "Verif.Props.C147_1900to1997", "Verif.Props.C147_documented", "Verif.Props.C147_seams"], "note": ""},
{"property": "C148", "status": "proved", "theorems": ["Verif.Props.SatMoons.C148_elements", "Verif.Props.SatMoons.C148_seen", "Verif.Props.SatMoons.C148_corrected", "Verif.Props.SatMoons.C148_sight", "Verif.Props.SatMoons.C148_ring_plane", "Verif.Props.SatMoons.C148_outer", "Verif.Props.SatMoons.C148_positions"], "note": ""},
{"property": "C149", "status": "proved", "theorems": ["Verif.Props.SatMoons.C149_distances", "Verif.Props.SatMoons.C149_order", "Verif.Props.SatMoons.C149_kepler"], "note": ""},
{"property": "C150", "status": "proved", "theorems": ["Verif.Props.JupE5.C150_view", "Verif.Props.JupE5.C150_E5", "Verif.Props.JupE5.C150_sight", "Verif.Props.JupE5.C150_far"], "note": ""},
{"property": "C151", "status": "proved", "theorems": ["Verif.Props.JupE5.C151_distances", "Verif.Props.JupE5.C151_latitudes", "Verif.Props.JupE5.C151_kepler", "Verif.Props.JupE5.C151_laplace", "Verif.Props.JupE5.C151_never_together"], "note": ""},
{"property": "C152", "status": "proved", "theorems": ["Verif.Props.JupE5.C152_longitudes", "Verif.Props.JupE5.C152_radii"], "note": ""},
{"property": "C153", "status": "proved", "theorems": ["Verif.Props.Pluto.C153_orbit"], "note": ""},
{"property": "C154", "status": "proved", "theorems": ["Verif.Props.Pluto.C154_areas"], "note": ""},
{"property": "C155", "status": "proved", "theorems": ["Verif.Props.Pluto.C155_turn", "Verif.Props.Pluto.C155_astrometric"], "note": ""},
{"property": "C156", "status": "partial", "theorems": ["Verif.Props.C156_transit_partial", "Verif.Props.C156_wrap_violation", "Verif.Props.C156_approx"], "note": "False when the right ascension passes 24h within the three days: the interpolation is done on the wrapped values and the transit is off by hours (violation). The rest proved for planets whose three right ascensions are on one branch (partial). Positions of the planet are a parameter."},
{"property": "C157", "status": "proved", "theorems": ["Verif.Props.C157_lunar"], "note": "From year 0 to 4000; uses the bound of the parallax of C126."},
{"property": "C158", "status": "proved", "theorems": ["Verif.Props.C158_seasons", "Verif.Props.C158_seasons_early"], "note": "Exact arithmetic. Polynomial identities certified by a kernel computation on rational coefficients (Lemmas/PolyQ)."},
{"property": "C159", "status": "proved", "theorems": ["Verif.Props.C159_loop"], "note": "The Earth is any theory meeting SunLike, shown satisfiable. The loop is modelled with fuel; eight steps suffice."},
{"property": "C160", "status": "proved", "theorems": ["Verif.Props.C160_rho", "Verif.Props.C160_latitude", "Verif.Props.C160_linear", "Verif.Props.C160_degree"], "note": "Exact arithmetic, Earth76."},
{"property": "C161", "status": "partial", "theorems": ["Verif.Props.C161_inverse_square", "Verif.Props.C161_fading", "Verif.Props.C161_agree_partial", "Verif.Props.C161_violation", "Verif.Props.C161_venus_repaired"], "note": "False for Venus84: the signs of the square and cube terms are exchanged (violation), it brightens with the phase angle; with the signs restored it agrees within 0.6 (C161_venus_repaired). The rest holds for every other planet; Saturn84 is dealt with in C71."},
{"property": "C162", "status": "partial", "theorems": ["Verif.Props.C162_violation", "Verif.Props.C162_diameter_partial"], "note": "False: the constant 0.0013788 arc seconds gives the diameter, twice the semidiameter (violation). Proved to be the diameter within 1e-4 (partial)."},
{"property": "C163", "status": "partial", "theorems": ["Verif.Props.C163_violation", "Verif.Props.C163_cmp_partial"], "note": "False with NaN, which compares equal to everything (violation). Proved for the other values including the infinities (partial)."},
{"property": "C164", "status": "proved", "theorems": ["Verif.Props.C164_frame", "Verif.Props.C164_ecliptic", "Verif.Props.C164_horizontal", "Verif.Props.C164_galactic", "Verif.Props.C164_meaning"], "note": "Memory is one function per struct type from addresses to values; exact arithmetic."},
{"property": "C165", "status": "proved", "theorems": ["Verif.Props.C165_phase_arguments", "Verif.Props.C165_mean_phases", "Verif.Props.C165_apsis_arguments", "Verif.Props.C165_mean_apsides", "Verif.Props.C165_node_arguments", "Verif.Props.C165_nodes", "Verif.Props.C165_eclipse_arguments", "Verif.Props.C165_differences"], "note": "Exact arithmetic; polynomial residues bounded by coefficient certificates for 3000 years on both sides of 2000. Agreement within 0.006 degrees (phases), 0.0033 (apsides), 0.0012 (nodes); Omega of the nodes 0.072, the perigee 0.39 at the ends of the range."},
{"property": "C166", "status": "proved", "theorems": ["Verif.Props.C166_julian", "Verif.Props.C166_gregorian", "Verif.Props.C166_toCalendar", "Verif.Props.C166_roundtrip", "Verif.Props.C166_dayOfWeek", "Verif.Props.C166_midnight", "Verif.Props.C166_time", "Verif.Props.C166_time_roundtrip"], "note": "IEEE binary64 with rounding to nearest even (Go/Float64), every float operation rounded; overflow is excluded by the ranges. C166_midnight shows that the date may pass to the next day. Package time as in C135."},
{"property": "C167", "status": "proved", "theorems": ["Verif.Props.C167_horner", "Verif.Props.C167_century", "Verif.Props.C167_elongation"], "note": "IEEE binary64; both readings of x*y + z (fused or not). The coefficients are exact reals rounded once."},
{"property": "C168", "status": "proved", "theorems": ["Verif.Props.C168_binaryRoot"], "note": "IEEE binary64 for the bounds and midpoints; the function is any function to the reals. Overflow of the sum of the bounds is excluded."},
{"property": "C169", "status": "proved", "theorems": ["Verif.Props.C169_middle", "Verif.Props.C169_interpolate"], "note": "IEEE binary64; both readings of x*y + z in both places. n itself is given exactly."},
{"property": "C170", "status": "proved", "theorems": ["Verif.Props.C170_phases"], "note": "Exact real arithmetic. The terms of moonphase for the planets and the node, 0.00147 day at most, and the three additive terms of moonposition, 0.0062 degree at most, are bounded; the other terms of both series are matched by a second order expansion with exact coefficients and a third order remainder."},
{"property": "C171", "status": "proved", "theorems": ["Verif.Props.C171_nodes"], "note": "Exact real arithmetic. The terms of moonnode in the node and the planets, 0.0023 day at most, and the six additive terms of the latitude, 0.0033 degree at most, are bounded, the others matched by a second order expansion with exact coefficients."},
{"property": "C172", "status": "proved", "theorems": ["Verif.Props.C172_angle", "Verif.Props.C172_illuminated"], "note": "Exact real arithmetic. The term -0.147 sin e of the phase angle follows from the distances; the bound 0.703 degree adds the terms of the Moon's longitude which PhaseAngle3 leaves out."},
{"property": "C173", "status": "proved", "theorems": ["Verif.Props.C173_mean", "Verif.Props.C173_equation_of_time"], "note": "Exact real arithmetic. The polynomials of the packages are subtracted and the residue bounded on the interval; the constant part of the difference, 0.0057 degree, is the aberration in the mean longitude of the Sun."},
{"property": "C174", "status": "proved", "theorems": ["Verif.Props.C174_anomaly", "Verif.Props.C174_radius"], "note": "Exact real arithmetic. The expansion of the true anomaly to the third power of the eccentricity is proved with a remainder of 7.3 e^4. At an odd multiple of 180 degrees the tangent in kepler.True has no value."},
{"property": "C175", "status": "proved", "theorems": ["Verif.Props.C175_planets", "Verif.Props.C175_earth"], "note": "Exact real arithmetic. The polynomial of the date is substituted in the polynomials of the elements and the coefficients of the residue added up on the interval. planetelements.Mean panics for the Earth (C76), so the anomaly of package solar is taken."},
{"property": "C176", "status": "proved", "theorems": ["Verif.Props.C176_consistent", "Verif.Props.C176_gt15"], "note": "4 arc seconds is the documented figure; the largest difference found numerically is 3.7 arc seconds at 9.4 degrees (0.025 for the other pair)."},
{"property": "C177", "status": "proved", "theorems": ["Verif.Props.C177_ron_vondrak", "Verif.Props.C177_along_ecliptic", "Verif.Props.C177_of_date", "Verif.Props.C177_sun"], "note": "The 36 rows of the table are summed as vectors; all but the three leading rows are bounded term by term, so an error in a small row is seen only if it exceeds the margin (the part towards the pole of the ecliptic has a margin of 3 units of the table). Exact real arithmetic."},
{"property": "C178", "status": "proved", "theorems": ["Verif.Props.C178_there_and_back", "Verif.Props.C178_ecliptic_there_and_back", "Verif.Props.C178_ecliptic_through_2000", "Verif.Props.C178_through_2000"], "note": "Exact real arithmetic. The way back of the equatorial precession is exact for all epochs. The bounds between 1800 and 2200 come from enclosures of the sines and cosines of all angles by polynomials of degree six in the two epochs with integer coefficients and an error, checked by the kernel; the differences of the rotations are bounded on the three axes and hence on every direction."},
{"property": "C179", "status": "proved", "theorems": ["Verif.Props.C179_routes"], "note": "Exact real arithmetic, as C178. Stars whose declination or precessed ecliptic latitude is exactly a pole are left out, since the conversions of coord divide by its cosine."},
{"property": "C180", "status": "partial", "theorems": ["Verif.Props.C180_rate_partial", "Verif.Props.C180_rate_violation"], "note": "Violated: mn takes T as the interval epochTo − epochFrom (v3/precess/precess.go:68) where the coefficients want centuries from 2000, so for two epochs both 1900 the rate of 2000 is returned, off by more than 0.02″ per year (C180_rate_violation). Proved for epochFrom = 2000 (C180_rate_partial): the result is the rate at epochTo."},
{"property": "C181", "status": "proved", "theorems": ["Verif.Props.C181_ring", "Verif.Props.C181_ring_moons", "Verif.Props.C181_jupiter", "Verif.Props.C181_sun"], "note": "Exact real arithmetic; enclosures as in C178. The Sun's equator is fixed relative to the moving ecliptic in the code (inclination 7.25° at all dates), so for the Sun the statement is along the ecliptic. Mars is left out: its pole moves in space."},
{"property": "C182", "status": "proved", "theorems": ["Verif.Props.C182_solar", "Verif.Props.C182_lunar", "Verif.Props.C182_example"], "note": "Exact real arithmetic. Distance to the first and latitude to the second order in the correction, multiplied with exact coefficients; terms below a threshold are dropped and bounded. The true difference is about 0.01."},
{"property": "C183", "status": "proved", "theorems": ["Verif.Props.C183_phases", "Verif.Props.C183_mean", "Verif.Props.C183_apsides", "Verif.Props.C183_nodes", "Verif.Props.C183_example"], "note": "IEEE binary64 with every choice of fused multiply-add. math.Sin and math.Cos are parameters with an absolute error of at most 1e-15 up to 2^29. Constants are rounded once, as untyped constants are. No overflow or NaN arises for the years covered."},
{"property": "C184", "status": "proved", "theorems": ["Verif.Props.C184_moon", "Verif.Props.C184_nutation", "Verif.Props.C184_obliquity", "Verif.Props.C184_example"], "note": "IEEE binary64 with every choice of fused multiply-add, sine and cosine as in C183. The reduction of the mean longitude (package unit) and the conversions to radians at the very end are not modelled in double precision."},
{"property": "C185", "status": "proved", "theorems": ["Verif.Props.C185_solar", "Verif.Props.C185_lunar", "Verif.Props.C185_example"], "note": "IEEE binary64 with every choice of fused multiply-add, sine and cosine as in C183; math.Sqrt is correctly rounded. The conversion of hours to unit.Time is not modelled."},
{"property": "C186", "status": "proved", "theorems": ["Verif.Props.Kepler64.C186_kepler3", "Verif.Props.Kepler64.C186_kepler1", "Verif.Props.Kepler64.C186_kepler1_converges", "Verif.Props.Kepler64.C186_kepler2", "Verif.Props.Kepler64.C186_kepler2b", "Verif.Props.Kepler64.C186_example", "Verif.Props.C186_direction", "Verif.Props.C186_direction_example"], "note": "Relations between arguments and possible results in binary64 without overflow; the reduction M.Mod1() of the external package unit is an argument, math.Pow(10, -places) is a parameter d. C186_direction: every iteration of Kepler2 and Kepler2b goes towards the solution. Kepler2a is left out: C39 shows that it may return a wrong number even in exact arithmetic."},
{"property": "C187", "status": "proved", "theorems": ["Verif.Props.C187_solstices", "Verif.Props.C187_seasons", "Verif.Props.C187_deltaT_year", "Verif.Props.C187_deltaT_date", "Verif.Props.C187_sidereal", "Verif.Props.C187_example"], "note": "binary64 without overflow, every fusing allowed. Bounds by the analyser of Go/FloatExpr; the reduction Mod1 and TimeFromDay belong to the external package unit, the latter a parameter with an error of at most 2e-11 second."},
{"property": "C188", "status": "proved", "theorems": ["Verif.Props.C188_mercury_inf", "Verif.Props.C188_mercury_sup", "Verif.Props.C188_venus_inf", "Verif.Props.C188_mars_opp", "Verif.Props.C188_mars_station", "Verif.Props.C188_jupiter_opp", "Verif.Props.C188_saturn_opp", "Verif.Props.C188_saturn_conj", "Verif.Props.C188_uranus_opp", "Verif.Props.C188_neptune_opp", "Verif.Props.C188_elongation", "Verif.Props.C188_example"], "note": "binary64 without overflow, every fusing allowed. unit.PMod is a parameter with a stated error; the conversion of the elongation by unit.AngleFromDeg is external. Constants a row of which is A, B, M0, M1 enter as integers over a power of ten, equal to those of the exact model."},
{"property": "C189", "status": "proved", "theorems": ["Verif.Props.C189_north", "Verif.Props.C189_south", "Verif.Props.C189_perihelion", "Verif.Props.C189_aphelion", "Verif.Props.C189_example"], "note": "binary64 without overflow, every fusing allowed. Bounds by the analyser of Go/FloatExpr on the expressions of the code; the product with the sign of the declination is exact."},
{"property": "C190", "status": "partial", "theorems": ["Verif.Props.C190_pauwels", "Verif.Props.C190_sep", "Verif.Props.C190_hav_partial", "Verif.Props.C190_hav_small_partial", "Verif.Props.C190_hav_violation", "Verif.Props.C190_example"], "note": "SepHav is not accurate for small separations: base.Hav is computed as (1 − cos)/2, so two bodies of equal right ascension up to 1e-8 radian apart have separation exactly zero (C190_hav_violation), while below 10 arcminutes the error can only be bounded by 3e-7 radian. SepPauwels and Sep as stated."},
{"property": "C191", "status": "partial", "theorems": ["Verif.Props.C191_EclToEq_partial", "Verif.Props.C191_EqToEcl_partial", "Verif.Props.C191_HzToEq_partial", "Verif.Props.C191_EqToHz_partial", "Verif.Props.C191_zenith_violation", "Verif.Props.C191_example"], "note": "The coordinate is not always a number: the argument of math.Asin can exceed 1 by rounding, and then the result is NaN. C191_zenith_violation: a star of declination 85/128 radian on the meridian of latitude 85/128 (in the zenith) has altitude NaN in every way of rounding, with correctly rounded sine and cosine (some 4 latitudes in 100 have the same). The accuracy is proved whenever the body is 10 arcminutes from the poles, and 3e-7 radian whenever the result is a number. The longitudes are not covered here."},
{"property": "C192", "status": "proved", "theorems": ["Verif.Props.C192_EqToEcl", "Verif.Props.C192_EclToEq", "Verif.Props.C192_EqToHz", "Verif.Props.C192_HzToEq", "Verif.Props.C192_example"], "note": "binary64 without overflow, every fusing allowed. math.Atan2 to 1e-15 up to whole turns, unit.RAFromRad to 4e-15 up to whole turns (parameters). The truth is given by inner products with the axes of the new system."},
{"property": "C193", "status": "proved", "theorems": ["Verif.Props.C193_Precess", "Verif.Props.C193_EclPrecess", "Verif.Props.C193_example"], "note": "binary64 without overflow, every fusing allowed. math.Asin, Acos, Hypot and Atan2 within stated errors, base.CosSmallAngle to 1e-14, unit.RAFromRad to 4e-15 up to whole turns (parameters). The truth is the composition of rotations by the published polynomials."},
{"property": "C194", "status": "proved", "theorems": ["Verif.Props.C194_Reduce", "Verif.Props.C194_ReduceFK4", "Verif.Props.C194_example"], "note": "binary64 without overflow, every fusing allowed. math.Acos to 1e-12 and math.Atan2 to 1e-15 up to whole turns, Angle.Mod1 to 4e-15 up to whole turns, the package constants of elementequinox to 1e-15 (parameters). The argument of the arc cosine is not clamped, so for an orbit in the new ecliptic the inclination may be NaN; the statement leaves this case open."},
{"property": "C195", "status": "proved", "theorems": ["Verif.Props.C195_sun", "Verif.Props.C195_apparent", "Verif.Props.C195_pluto", "Verif.Props.C195_example"], "note": "binary64 without overflow, every fusing allowed. unit.AngleFromDeg and Angle.Mod1 are parameters with stated errors. The truth is the same formula in exact arithmetic. TrueEquatorial and ApparentEquatorial are not included."},
{"property": "C196", "status": "proved", "theorems": ["Verif.Props.C196_latitude_radius", "Verif.Props.C196_longitude", "Verif.Props.C196_example"], "note": "binary64 without overflow, every fusing allowed. The coefficients are arbitrary reals in the stated ranges. PMod of package unit is a parameter with stated error. The truth is the theory's sum in exact arithmetic."},
{"property": "C197", "status": "proved", "theorems": ["Verif.Props.C197_linear", "Verif.Props.C197_func1", "Verif.Props.C197_example", "Verif.Props.C197_func1_example", "Verif.Props.C197_dates"], "note": "binary64 without overflow, every fusing allowed, each sum of the loop its own relation. The truth is the formula in exact arithmetic (C30 and C32 prove that it minimises the squares). Quadratic and Func3 are not included."},
{"property": "C198", "status": "partial", "theorems": ["Verif.Props.C198_correlation_violation", "Verif.Props.C198_correlation_partial", "Verif.Props.C198_example"], "note": "Refuted: for (0,0), (1,1), (2,2) every way of rounding gives a value above 1 (C198_correlation_violation). What holds is |r| <= 1 + 4k + 1e-15 when rounding errors of the three determinants are at most k <= 1/100 of the determinants and of the root of their product (C198_correlation_partial). math.Sqrt is rounded correctly."},
{"property": "C199", "status": "proved", "theorems": ["Verif.Props.C199_through", "Verif.Props.C199_error", "Verif.Props.C199_example"], "note": "binary64 without overflow (in the stated range the products stay below 2^891); the last addition of a round may be fused with its product. LagrangePoly is not included."},
{"property": "C200", "status": "partial", "theorems": ["Verif.Props.C200_phase_violation", "Verif.Props.C200_fraction_violation", "Verif.Props.C200_phase_partial", "Verif.Props.C200_fraction_partial", "Verif.Props.C200_example"], "note": "Refuted for r = 780310109/2^30, R = 1064580153/2^30, D = r + R (Venus in line behind the Sun): every way of rounding gives NaN for PhaseAngle (C200_phase_violation) and a fraction above 1 (C200_fraction_violation). What holds: both are close to the truth, and PhaseAngle is no NaN when cos i is further from -1 and 1 than 3e-15 (r^2 + D^2 + R^2)/(2 r D) + 2^-400. math.Acos is accurate to 1e-12. PhaseAngle2 and PhaseAngle3 are not included."},
{"property": "C201", "status": "proved", "theorems": ["Verif.Props.C201_mean", "Verif.Props.C201_inc_node", "Verif.Props.C201_example"], "note": "binary64, every fusing allowed. unit.AngleFromDeg is accurate to 5e-16 (relative), Angle.Mod1 to 1e-11 for arguments below 2^17; both are of package unit."},
{"property": "C202", "status": "partial", "theorems": ["Verif.Props.Parabolic64v.C202_after_partial", "Verif.Props.Parabolic64v.C202_before_partial", "Verif.Props.Parabolic64v.C202_violation", "Verif.Props.Parabolic64v.C202_example"], "note": "Refuted for q = 1/256 AU, 2420000 days before perihelion: G + sqrt(G^2+1) rounds to 0, 1/Y divides by zero and the distance is infinite, for every rounding (C202_violation); the true distance is below 3000 AU. What holds: from perihelion on 4e-14 rad and 3 parts in 10^14; before perihelion the same times 3(1+G^2), for |G| <= 10^6. math.Cbrt is accurate to 5e-16 (relative), math.Atan to 1e-15."},
{"property": "C203", "status": "partial", "theorems": ["Verif.Props.Length64v.C203_ends_partial", "Verif.Props.Length64v.C203_violation", "Verif.Props.Length64v.C203_length_partial", "Verif.Props.Length64v.C203_rounds_partial", "Verif.Props.Length64v.C203_example"], "note": "Refuted for eccentricities of 1 + 2^-10 and more: the square root is NaN, NaN differs from itself and the loop never ends (C203_violation). What holds: for 0 <= e <= 1 the loop ends after at most 131073 rounds, whatever is fused; for e < 1 the length is right to 1e-7, for e <= 0.99 to (22 n + 111) units of rounding after n rounds."},
{"property": "C204", "status": "proved", "theorems": ["Verif.Props.Speed64v.C204_apsides", "Verif.Props.Speed64v.C204_number", "Verif.Props.Speed64v.C204_error", "Verif.Props.Speed64v.C204_example"], "note": "Doubles with gradual underflow; a (and r for the error) at least 2^-100, a at most 2^100. The error of Velocity is ((2a+r)/(2a-r) + 5) units of rounding while that stays below 2^-4."},
{"property": "C205", "status": "partial", "theorems": ["Verif.Props.Circle64v.C205_plain_partial", "Verif.Props.Circle64v.C205_violation", "Verif.Props.Circle64v.C205_example"], "note": "Refuted when b*b is fused with the sum (as on arm64, ppc64, s390x the compiler may): for separations 1-2^-27, 1-2^-27, 2^-100 the code chooses type II and divides by zero (C205_violation). Without fusing (amd64) the statement holds for all separations (C205_plain_partial). The separations themselves are arguments."},
{"property": "C206", "status": "proved", "theorems": ["Verif.Props.Lengths64v.C206_length1", "Verif.Props.Lengths64v.C206_length2", "Verif.Props.Lengths64v.C206_example"], "note": "Together with C111 this bounds the distance from the true length. Every product used as a summand may be fused with the sum."},
{"property": "C207", "status": "proved", "theorems": ["Verif.Props.Stellar64v.C207_sum", "Verif.Props.Stellar64v.C207_order", "Verif.Props.Stellar64v.C207_ratio", "Verif.Props.Stellar64v.C207_sumN", "Verif.Props.Stellar64v.C207_perm", "Verif.Props.Stellar64v.C207_example"], "note": "binary64 without overflow. math.Pow(10, x) is accurate to 1e-14 (relative) up to |x| = 50, math.Log10 to 1e-15, relative or absolute (parameters). The truth is the same formula in exact arithmetic, which C74 shows to be the sum of the fluxes."},
{"property": "C208", "status": "proved", "theorems": ["Verif.Props.Zero64v.C208_zero", "Verif.Props.Zero64v.C208_extremum", "Verif.Props.Zero64v.C208_example", "Verif.Props.Zero64v.C208_extremum_example"], "note": "binary64 without overflow. An infinity or NaN in an iteration is none. That Zero reports success at all is not part of this statement (C22, C23)."}
]}
