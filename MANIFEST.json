{
 "claims": [
  {
   "property": "C01",
   "status": "proved",
   "theorems": [
    "Pal.Props.C01_intin_decodes"
   ],
   "note": ""
  },
  {
   "property": "C02",
   "status": "proved",
   "theorems": [
    "Pal.Props.C02_intin_list"
   ],
   "note": ""
  },
  {
   "property": "C03",
   "status": "partial",
   "theorems": [
    "Pal.Props.C03_intin_overflow_not_reported",
    "Pal.Props.C03_intin_overflow_partial"
   ],
   "note": "The property is false of the code: a value beyond int but within long is truncated silently (negation proved). Partial: jflag=2 for values beyond long; exact inside int."
  },
  {
   "property": "C04",
   "status": "proved",
   "theorems": [
    "Pal.Props.C04_intin_frame",
    "Pal.Props.C04_intin_nothing",
    "Pal.Props.C04_intin_status_one"
   ],
   "note": ""
  },
  {
   "property": "C05",
   "status": "proved",
   "theorems": [
    "Pal.Props.C05_dfltin_decodes"
   ],
   "note": ""
  },
  {
   "property": "C06",
   "status": "partial",
   "theorems": [
    "Pal.Props.C06_dfltin_truncates",
    "Pal.Props.C06_dfltin_local_partial"
   ],
   "note": "False of the code: fields are decoded from a fixed 256-byte buffer (negation proved). Partial: depends only on the field while it fits the buffer."
  },
  {
   "property": "C07",
   "status": "proved",
   "theorems": [
    "Pal.Props.C07_dafin_decodes",
    "Pal.Props.C07_dafin_table",
    "Pal.Props.C07_dafin_fault",
    "Pal.Props.C07_not_first_fault"
   ],
   "note": "C07_not_first_fault shows that the field named need not be the first one at fault, which is why the property orders the kinds of fault."
  },
  {
   "property": "C08",
   "status": "proved",
   "theorems": [
    "Pal.Props.C08_obs_by_number",
    "Pal.Props.C08_obs_by_name",
    "Pal.Props.C08_obs_number_name_agree"
   ],
   "note": ""
  },
  {
   "property": "C09",
   "status": "proved",
   "theorems": [
    "Pal.Props.C09_obs_miss",
    "Pal.Props.C09_obs_status"
   ],
   "note": ""
  },
  {
   "property": "C10",
   "status": "proved",
   "theorems": [
    "Pal.Props.C10_bounded_copy",
    "Pal.Props.C10_vers"
   ],
   "note": ""
  },
  {
   "property": "C11",
   "status": "proved",
   "theorems": [
    "Pal.Props.C11_table_valid"
   ],
   "note": ""
  },
  {
   "property": "C12",
   "status": "proved",
   "theorems": [
    "Pal.Props.C12_cldj_next_day",
    "Pal.Props.C12_cldj_day_count",
    "Pal.Props.C12_cldj_errors"
   ],
   "note": ""
  },
  {
   "property": "C13",
   "status": "proved",
   "theorems": [
    "Pal.Props.C13_djcl_cldj",
    "Pal.Props.C13_djcl_valid"
   ],
   "note": "Exact arithmetic; eraJd2cal modelled without its compensated summation."
  },
  {
   "property": "C14",
   "status": "proved",
   "theorems": [
    "Pal.Props.C14_caldj_century"
   ],
   "note": ""
  },
  {
   "property": "C15",
   "status": "partial",
   "theorems": [
    "Pal.Props.C15_djcal_no_carry",
    "Pal.Props.C15_djcal_nearest_partial",
    "Pal.Props.C15_djcal_defined"
   ],
   "note": "False of the code: the rounded fraction is not carried into the next day (negation proved for every ndp 0..9 and date). Partial: everything but the carry."
  },
  {
   "property": "C16",
   "status": "proved",
   "theorems": [
    "Pal.Props.C16_epochs_inverse",
    "Pal.Props.C16_epco"
   ],
   "note": ""
  },
  {
   "property": "C17",
   "status": "proved",
   "theorems": [
    "Pal.Props.C17_dt_models",
    "Pal.Props.C17_dt_continuous",
    "Pal.Props.C17_dt_min"
   ],
   "note": ""
  },
  {
   "property": "C18",
   "status": "proved",
   "theorems": [
    "Pal.Props.C18_dtt",
    "Pal.Props.C18_dtt_dat"
   ],
   "note": "eraDat is a parameter."
  },
  {
   "property": "C19",
   "status": "proved",
   "theorems": [
    "Pal.Props.C19_dmat_inverts"
   ],
   "note": "Any order n, any ordered field (exact arithmetic)."
  },
  {
   "property": "C20",
   "status": "proved",
   "theorems": [
    "Pal.Props.C20_dmat_singular"
   ],
   "note": ""
  },
  {
   "property": "C21",
   "status": "proved",
   "theorems": [
    "Pal.Props.C21_fitxy6_least_squares",
    "Pal.Props.C21_fitxy6_recovers"
   ],
   "note": ""
  },
  {
   "property": "C22",
   "status": "proved",
   "theorems": [
    "Pal.Props.C22_fitxy4_least_squares"
   ],
   "note": "For exactly two samples under the hypothesis that the returned scale is non-zero; see C23 for the excluded case."
  },
  {
   "property": "C23",
   "status": "partial",
   "theorems": [
    "Pal.Props.C23_fitxy_bad_input",
    "Pal.Props.C23_fitxy6_collinear",
    "Pal.Props.C23_fitxy4_coincident_partial",
    "Pal.Props.C23_fitxy4_two_coincident"
   ],
   "note": "False of the code for exactly two coinciding samples (status 0, zero model): negation proved. Everything else is proved."
  },
  {
   "property": "C24",
   "status": "proved",
   "theorems": [
    "Pal.Props.C24_invf_inverse",
    "Pal.Props.C24_invf_status"
   ],
   "note": ""
  },
  {
   "property": "C25",
   "status": "proved",
   "theorems": [
    "Pal.Props.C25_pxy"
   ],
   "note": ""
  },
  {
   "property": "C26",
   "status": "proved",
   "theorems": [
    "Pal.Props.C26_dcmpf"
   ],
   "note": "Non-degenerate models (non-zero scales after the sign choice, as hypothesised); the documentation of step 4 has a typo (y for x), the corrected step is used in the specification."
  },
  {
   "property": "C27",
   "status": "proved",
   "theorems": [
    "Pal.Props.C27_range"
   ],
   "note": ""
  },
  {
   "property": "C28",
   "status": "proved",
   "theorems": [
    "Pal.Props.C28_de2h_geometry",
    "Pal.Props.C28_de2h_dh2e",
    "Pal.Props.C28_roundtrip_exact"
   ],
   "note": ""
  },
  {
   "property": "C29",
   "status": "proved",
   "theorems": [
    "Pal.Props.C29_altaz_values",
    "Pal.Props.C29_altaz_zenith_differs",
    "Pal.Props.C29_altaz_rates"
   ],
   "note": "At the zenith/nadir the two parallactic angles differ (proved)."
  },
  {
   "property": "C30",
   "status": "proved",
   "theorems": [
    "Pal.Props.C30_dcs2c",
    "Pal.Props.C30_dcc2s",
    "Pal.Props.C30_roundtrip"
   ],
   "note": ""
  },
  {
   "property": "C31",
   "status": "proved",
   "theorems": [
    "Pal.Props.C31_dsepv",
    "Pal.Props.C31_dsep"
   ],
   "note": ""
  },
  {
   "property": "C32",
   "status": "proved",
   "theorems": [
    "Pal.Props.C32_ds2tp_status",
    "Pal.Props.C32_ds2tp_projects",
    "Pal.Props.C32_dtp2s_projects",
    "Pal.Props.C32_roundtrip"
   ],
   "note": ""
  },
  {
   "property": "C33",
   "status": "partial",
   "theorems": [
    "Pal.Props.C33_dtps2c_genuine_partial",
    "Pal.Props.C33_dtps2c_none",
    "Pal.Props.C33_dtps2c_one",
    "Pal.Props.C33_dtps2c_pole_refuted"
   ],
   "note": "Proved except for a star exactly at the pole with xi = 0, where the second solution is wrong (negation proved)."
  },
  {
   "property": "C34",
   "status": "proved",
   "theorems": [
    "Pal.Props.C34_deuler"
   ],
   "note": ""
  },
  {
   "property": "C35",
   "status": "proved",
   "theorems": [
    "Pal.Props.C35_eqecl",
    "Pal.Props.C35_ecliptic_inverse"
   ],
   "note": "eraPmat06 and eraObl06 are parameters, assumed only to give a rotation matrix."
  },
  {
   "property": "C36",
   "status": "proved",
   "theorems": [
    "Pal.Props.C36_galactic",
    "Pal.Props.C36_supergalactic",
    "Pal.Props.C36_via_b1950"
   ],
   "note": ""
  },
  {
   "property": "C37",
   "status": "proved",
   "theorems": [
    "Pal.Props.C37_pcd_unpcd",
    "Pal.Props.C37_unpcd_pcd"
   ],
   "note": ""
  },
  {
   "property": "C38",
   "status": "partial",
   "theorems": [
    "Pal.Props.C38_polmo",
    "Pal.Props.C38_polmo_zero",
    "Pal.Props.C38_polmo_pole"
   ],
   "note": "Proved for every site that is not exactly at the true pole; there the code divides by zero (proved), so the statement for all sites is false of the code."
  },
  {
   "property": "C39",
   "status": "proved",
   "theorems": [
    "Pal.Props.C39_etrms_vector",
    "Pal.Props.C39_etrms_size",
    "Pal.Props.C39_addet_subet",
    "Pal.Props.C39_inverse"
   ],
   "note": ""
  },
  {
   "property": "C40",
   "status": "proved",
   "theorems": [
    "Pal.Props.C40_antipodal",
    "Pal.Props.C40_speed",
    "Pal.Props.C40_galactic",
    "Pal.Props.C40_rverot",
    "Pal.Props.C40_lsrk"
   ],
   "note": ""
  },
  {
   "property": "C41",
   "status": "proved",
   "theorems": [
    "Pal.Props.C41_airmas"
   ],
   "note": ""
  },
  {
   "property": "C42",
   "status": "partial",
   "theorems": [
    "Pal.Props.C42_prec_rotation",
    "Pal.Props.C42_prec_maps_partial",
    "Pal.Props.C42_prec_iff",
    "Pal.Props.C42_prec_refuted"
   ],
   "note": "Rotation, transpose and identity (epochs other than 2000) proved; V(EP1)=RMATP*V(EP0) and composition are false of the code when neither epoch is 2000 (the two matrices are multiplied in the wrong order): negation proved, exact condition proved; partial when one epoch is 2000. palPrec(2000,2000) is the value of eraPmat06 at J2000, which includes the frame bias."
  },
  {
   "property": "C43",
   "status": "proved",
   "theorems": [
    "Pal.Props.C43_rotations",
    "Pal.Props.C43_prebn_same",
    "Pal.Props.C43_prebn_angles",
    "Pal.Props.C43_prebn_rates",
    "Pal.Props.C43_prebn_inverse",
    "Pal.Props.C43_prebn_ecliptic",
    "Pal.Props.C43_nut",
    "Pal.Props.C43_prenut"
   ],
   "note": "ERFA precession and nutation theories are parameters."
  },
  {
   "property": "C44",
   "status": "proved",
   "theorems": [
    "Pal.Props.C44_preces"
   ],
   "note": ""
  },
  {
   "property": "C45",
   "status": "partial",
   "theorems": [
    "Pal.Props.C45_mapqk_mapqkz_partial",
    "Pal.Props.C45_mapqk_mapqkz_refuted",
    "Pal.Props.C45_mapqk_mapqkz_close"
   ],
   "note": "Exact agreement is false of the code (aberration uses the direction before light deflection): negation proved; agreement within 600 gr2e v^2 proved, exact for gr2e=0."
  },
  {
   "property": "C46",
   "status": "proved",
   "theorems": [
    "Pal.Props.C46_map_amp",
    "Pal.Props.C46_amp_inverts_map",
    "Pal.Props.C46_exact",
    "Pal.Props.C46_mappa"
   ],
   "note": ""
  },
  {
   "property": "C47",
   "status": "proved",
   "theorems": [
    "Pal.Props.C47_evp",
    "Pal.Props.C47_evp_lengths"
   ],
   "note": "eraEpv00 and eraPmat06 are parameters."
  },
  {
   "property": "C48",
   "status": "proved",
   "theorems": [
    "Pal.Props.C48_pvobs"
   ],
   "note": ""
  },
  {
   "property": "C49",
   "status": "proved",
   "theorems": [
    "Pal.Props.C49_fk54z",
    "Pal.Props.C49_roundtrip",
    "Pal.Props.C49_fk524_rates",
    "Pal.Props.C49_epoch_roundtrip",
    "Pal.Props.C49_fk524_procedure",
    "Pal.Props.C49_eterms_sideways"
   ],
   "note": ""
  },
  {
   "property": "C50",
   "status": "proved",
   "theorems": [
    "Pal.Props.C50_refco",
    "Pal.Props.C50_sample_points"
   ],
   "note": ""
  },
  {
   "property": "C51",
   "status": "proved",
   "theorems": [
    "Pal.Props.C51_clamps",
    "Pal.Props.C51_odd",
    "Pal.Props.C51_zenith",
    "Pal.Props.C51_periodic",
    "Pal.Props.C51_beyond_93",
    "Pal.Props.C51_limit_is_93_degrees",
    "Pal.Props.C51_latitude",
    "Pal.Props.C51_vacuum"
   ],
   "note": "Periodicity holds away from the antipode of the zenith (|z| = pi exactly)."
  },
  {
   "property": "C52",
   "status": "proved",
   "theorems": [
    "Pal.Props.C52_segment_terminates",
    "Pal.Props.C52_refro_terminates",
    "Pal.Props.C52_simpson",
    "Pal.Props.C52_exact_for_cubics"
   ],
   "note": ""
  },
  {
   "property": "C53",
   "status": "proved",
   "theorems": [
    "Pal.Props.C53_temperature",
    "Pal.Props.C53_troposphere_derivative",
    "Pal.Props.C53_stratosphere",
    "Pal.Props.C53_observer",
    "Pal.Props.C53_hot_observer",
    "Pal.Props.C53_index_ge_one",
    "Pal.Props.C53_ray",
    "Pal.Props.C53_node",
    "Pal.Props.C53_node_constant_index",
    "Pal.Props.C53_hydrostatic",
    "Pal.Props.C53_bending"
   ],
   "note": "For an observer outside 200..320 K the model temperature at the observer is the clamped one (proved)."
  },
  {
   "property": "C54",
   "status": "proved",
   "theorems": [
    "Pal.Props.C54_no_atmosphere",
    "Pal.Props.C54_held_beyond_93",
    "Pal.Props.C54_inverts_model",
    "Pal.Props.C54_recovers",
    "Pal.Props.C54_continuous",
    "Pal.Props.C54_documented_agreement_false",
    "Pal.Props.C54_refv",
    "Pal.Props.C54_refv_azimuth",
    "Pal.Props.C54_refv_low",
    "Pal.Props.C54_refv_no_atmosphere",
    "Pal.Props.C54_refv_length"
   ],
   "note": "The documented 1e-11 arcsec at 80 degrees is not reached even with exact arithmetic (proved)."
  },
  {
   "property": "C55",
   "status": "proved",
   "theorems": [
    "Pal.Props.C55_radio",
    "Pal.Props.C55_same",
    "Pal.Props.C55_vacuum",
    "Pal.Props.C55_scaling",
    "Pal.Props.C55_bluer_is_larger",
    "Pal.Props.C55_transitive",
    "Pal.Props.C55_agrees_with_refro"
   ],
   "note": ""
  },
  {
   "property": "C56",
   "status": "proved",
   "theorems": [
    "Pal.Props.C56_aopqk",
    "Pal.Props.C56_outputs_agree",
    "Pal.Props.C56_types",
    "Pal.Props.C56_hour_angle_azimuth",
    "Pal.Props.C56_oapqk",
    "Pal.Props.C56_round_trip",
    "Pal.Props.C56_no_atmosphere"
   ],
   "note": ""
  },
  {
   "property": "C57",
   "status": "proved",
   "theorems": [
    "Pal.Props.C57_sidereal_time",
    "Pal.Props.C57_only_sidereal_time",
    "Pal.Props.C57_aoppa",
    "Pal.Props.C57_diurab_range",
    "Pal.Props.C57_no_polar_motion",
    "Pal.Props.C57_site_agrees_polmo",
    "Pal.Props.C57_update",
    "Pal.Props.C57_one_shot",
    "Pal.Props.C57_zero_pressure"
   ],
   "note": "The equation of the equinoxes is a parameter."
  },
  {
   "property": "C58",
   "status": "proved",
   "theorems": [
    "Pal.Props.C58_validation",
    "Pal.Props.C58_good_elements",
    "Pal.Props.C58_slow_planet",
    "Pal.Props.C58_total"
   ],
   "note": "Also proved: elements of form 1 whose daily motion is below that of a massless body are always rejected with -5."
  },
  {
   "property": "C59",
   "status": "proved",
   "theorems": [
    "Pal.Props.C59_terminates",
    "Pal.Props.C59_effects",
    "Pal.Props.C59_failures_occur"
   ],
   "note": ""
  },
  {
   "property": "C60",
   "status": "proved",
   "theorems": [
    "Pal.Props.C60_conservation",
    "Pal.Props.C60_at_epoch"
   ],
   "note": "Exact for an exact solution; in general the conservation error is expressed by the Kepler residual and the truncation error of the series (bounded)."
  },
  {
   "property": "C61",
   "status": "proved",
   "theorems": [
    "Pal.Props.C61_elements",
    "Pal.Props.C61_status",
    "Pal.Props.C61_round_trip"
   ],
   "note": ""
  },
  {
   "property": "C62",
   "status": "partial",
   "theorems": [
    "Pal.Props.C62_status",
    "Pal.Props.C62_form_partial",
    "Pal.Props.C62_near_parabola_refuted",
    "Pal.Props.C62_parabola_refuted"
   ],
   "note": "False of the code for (nearly) parabolic orbits: negations proved. Partial: eccentricity not within 1e-8 of one."
  },
  {
   "property": "C63",
   "status": "proved",
   "theorems": [
    "Pal.Props.C63_terminates",
    "Pal.Props.C63_uninitialised",
    "Pal.Props.C63_no_time",
    "Pal.Props.C63_status",
    "Pal.Props.C63_long_span",
    "Pal.Props.C63_epoch",
    "Pal.Props.C63_rectification",
    "Pal.Props.C63_planet_failure",
    "Pal.Props.C63_case"
   ],
   "note": "Planetary ephemeris a parameter; division by zero (body or planet exactly at the Sun) excluded. Also proved: the combined mass is reset to 1, uninitialised arrays do not matter, timespans over a century are never unreported."
  },
  {
   "property": "C64",
   "status": "partial",
   "theorems": [
    "Pal.Props.C64_acceleration_partial",
    "Pal.Props.C64_planets",
    "Pal.Props.C64_moon_refuted"
   ],
   "note": "False of the code: the loop over perturbing bodies stops before the Moon (negation proved: the result does not depend on the Moon). Partial: the acceleration applied is that of the Sun, the planets and, near the Earth, the Earth in place of the barycentre, without the Moon."
  },
  {
   "property": "C65",
   "status": "proved",
   "theorems": [
    "Pal.Props.C65_rejections",
    "Pal.Props.C65_statuses",
    "Pal.Props.C65_success",
    "Pal.Props.C65_same_date",
    "Pal.Props.C65_case"
   ],
   "note": "Division by zero excluded as in C63 and C62."
  },
  {
   "property": "C66",
   "status": "partial",
   "theorems": [
    "Pal.Props.C66_plantu_partial",
    "Pal.Props.C66_plantu_refuted",
    "Pal.Props.C66_plante"
   ],
   "note": "False of the code: palPlantu computes from an uninitialised array when palUe2pv fails (negation proved). Partial: when the prediction succeeds; palPlante is safe."
  },
  {
   "property": "C67",
   "status": "proved",
   "theorems": [
    "Pal.Props.C67_planet"
   ],
   "note": "eraPlan94 is a parameter."
  },
  {
   "property": "C68",
   "status": "proved",
   "theorems": [
    "Pal.Props.C68_sun",
    "Pal.Props.C68_rdplan"
   ],
   "note": "eraPlan94, palDmoon, precession and nutation are parameters; an observer inside the body is reported as failure (asin of a number above one)."
  },
  {
   "property": "C69",
   "status": "proved",
   "theorems": [
    "Pal.Props.C69_dfltin_frame",
    "Pal.Props.C69_dfltin_nothing"
   ],
   "note": ""
  },
  {
   "property": "C70",
   "status": "partial",
   "theorems": [
    "Pal.Props.C70_obs_space_never_matches",
    "Pal.Props.C70_obs_no_abbreviation"
   ],
   "note": "The documented behaviour is false of the code; the negation is proved."
  },
  {
   "property": "C71",
   "status": "partial",
   "theorems": [
    "Pal.Props.C71_dmat_small_rejected",
    "Pal.Props.C71_dmat_nonsingular_partial"
   ],
   "note": "False of the code: the threshold is absolute (negation proved). Partial: for every non-singular matrix the algorithm succeeds for any small enough threshold."
  },
  {
   "property": "C72",
   "status": "partial",
   "theorems": [
    "Pal.Props.C72_fitxy_small_units",
    "Pal.Props.C72_fitxy6_accepts_partial"
   ],
   "note": "False of the code: negation proved. Partial: succeeds for any small enough palDmat threshold (6 coefficients)."
  },
  {
   "property": "C73",
   "status": "partial",
   "theorems": [
    "Pal.Props.C73_dtps2c_useful_refuted",
    "Pal.Props.C73_dtps2c_useful_partial"
   ],
   "note": "False of the code: negation proved. Partial: both are useful when eta has the sign of the declination."
  },
  {
   "property": "C74",
   "status": "proved",
   "theorems": [
    "Pal.Props.C74_dav2m",
    "Pal.Props.C74_rotation",
    "Pal.Props.C74_dm2av_dav2m",
    "Pal.Props.C74_dav2m_dm2av",
    "Pal.Props.C74_half_turn"
   ],
   "note": ""
  },
  {
   "property": "C75",
   "status": "proved",
   "theorems": [
    "Pal.Props.C75_dbear",
    "Pal.Props.C75_dpav",
    "Pal.Props.C75_dpav_pole"
   ],
   "note": ""
  },
  {
   "property": "C76",
   "status": "proved",
   "theorems": [
    "Pal.Props.C76_ge50",
    "Pal.Props.C76_definition"
   ],
   "note": ""
  },
  {
   "property": "C77",
   "status": "partial",
   "theorems": [
    "Pal.Props.C77_evp_of_date_refuted",
    "Pal.Props.C77_evp_unrotated_partial"
   ],
   "note": "False of the code: for deqx<=0 no precession is applied. Negation proved."
  },
  {
   "property": "C78",
   "status": "proved",
   "theorems": [
    "Pal.Props.C78_geoc",
    "Pal.Props.C78_units"
   ],
   "note": ""
  },
  {
   "property": "C79",
   "status": "proved",
   "theorems": [
    "Pal.Props.C79_mapqk_motion",
    "Pal.Props.C79_mapqk_full"
   ],
   "note": ""
  },
  {
   "property": "C80",
   "status": "partial",
   "theorems": [
    "Pal.Props.C80_vapour_denominator_vanishes",
    "Pal.Props.C80_exponents_coincide",
    "Pal.Props.C80_denominators_partial"
   ],
   "note": "False of the code: negations proved (both denominators can vanish for accepted arguments). Partial: positive when the saturation pressure is below the ambient pressure."
  },
  {
   "property": "C81",
   "status": "partial",
   "theorems": [
    "Pal.Props.C81_quick_round_trip_partial",
    "Pal.Props.C81_round_trip_partial",
    "Pal.Props.C81_below_horizon_partial",
    "Pal.Props.C56_no_atmosphere",
    "Pal.Props.C56_round_trip"
   ],
   "note": "Proved up to 75 degrees topocentric zenith distance (realistic constants), where palRefro is frozen below 93 degrees, and without atmosphere. Missing: 75 to 93 degrees, where the bound is the residual of the numerical integration."
  },
  {
   "property": "C82",
   "status": "proved",
   "theorems": [
    "Pal.Props.C82_orbit_plane"
   ],
   "note": ""
  },
  {
   "property": "C83",
   "status": "proved",
   "theorems": [
    "Pal.Props.C83_perihelion"
   ],
   "note": ""
  },
  {
   "property": "C84",
   "status": "proved",
   "theorems": [
    "Pal.Props.C84_planel"
   ],
   "note": ""
  },
  {
   "property": "C85",
   "status": "proved",
   "theorems": [
    "Pal.Props.C85_ue2el"
   ],
   "note": ""
  },
  {
   "property": "C86",
   "status": "proved",
   "theorems": [
    "Pal.Props.C86_ellipse",
    "Pal.Props.C86_hyperbola",
    "Pal.Props.C86_parabola",
    "Pal.Props.C86_cases"
   ],
   "note": ""
  },
  {
   "property": "C87",
   "status": "proved",
   "theorems": [
    "Pal.Props.C87_position",
    "Pal.Props.C87_velocity",
    "Pal.Props.C87_velocity_close"
   ],
   "note": "The published series itself is taken as the specification."
  },
  {
   "property": "C88",
   "status": "proved",
   "theorems": [
    "Pal.Props.C88_parallax",
    "Pal.Props.C88_distance",
    "Pal.Props.C88_declination",
    "Pal.Props.C88_eastward"
   ],
   "note": ""
  },
  {
   "property": "C89",
   "status": "proved",
   "theorems": [
    "Pal.Props.C89_days",
    "Pal.Props.C89_time",
    "Pal.Props.C89_degrees",
    "Pal.Props.C89_unique",
    "Pal.Props.C89_overflow_places",
    "Pal.Props.C89_overflow_hours",
    "Pal.Props.C89_full_day"
   ],
   "note": "ERFA functions modelled from their published definition."
  },
  {
   "property": "C90",
   "status": "proved",
   "theorems": [
    "Pal.Props.C90_values",
    "Pal.Props.C90_status",
    "Pal.Props.C90_sign_dropped",
    "Pal.Props.C90_fields_back",
    "Pal.Props.C90_days_back"
   ],
   "note": "ERFA functions modelled from their published definition. The header of palDaf2r says status 2 for arcseconds out of range; the status is 3."
  },
  {
   "property": "C91",
   "status": "proved",
   "theorems": [
    "Pal.Props.C91_sidereal_time",
    "Pal.Props.C91_any_date",
    "Pal.Props.C91_textbook"
   ],
   "note": ""
  },
  {
   "property": "C92",
   "status": "proved",
   "theorems": [
    "Pal.Props.C92_smooth",
    "Pal.Props.C92_rate",
    "Pal.Props.C92_update"
   ],
   "note": ""
  },
  {
   "property": "C93",
   "status": "proved",
   "theorems": [
    "Pal.Props.C93_value",
    "Pal.Props.C93_agrees_aoppat",
    "Pal.Props.C93_rate"
   ],
   "note": "ERFA functions modelled from their published definition."
  },
  {
   "property": "C94",
   "status": "proved",
   "theorems": [
    "Pal.Props.C94_fk5hz",
    "Pal.Props.C94_hfk5z",
    "Pal.Props.C94_inverse",
    "Pal.Props.C94_inverse_coords",
    "Pal.Props.C94_proper_motion",
    "Pal.Props.C94_pole",
    "Pal.Props.C94_published"
   ],
   "note": "ERFA functions modelled from their published definition; the model reproduces the expected values of palTest.c."
  },
  {
   "property": "C95",
   "status": "proved",
   "theorems": [
    "Pal.Props.C95_light",
    "Pal.Props.C95_radio",
    "Pal.Props.C95_limits",
    "Pal.Props.C95_vacuum",
    "Pal.Props.C95_division_by_zero",
    "Pal.Props.C95_sign",
    "Pal.Props.C95_humidity",
    "Pal.Props.C95_wavelength",
    "Pal.Props.C95_atmdsp"
   ],
   "note": "ERFA function modelled from its published definition; the model reproduces the expected values of palTest.c."
  },
  {
   "property": "C96",
   "status": "proved",
   "theorems": [
    "Pal.Props.C96_track",
    "Pal.Props.C96_velocity",
    "Pal.Props.C96_rate",
    "Pal.Props.C96_same_epoch",
    "Pal.Props.C96_always",
    "Pal.Props.C96_ignored",
    "Pal.Props.C96_no_parallax",
    "Pal.Props.C96_unset"
   ],
   "note": "ERFA functions modelled from their published definition (the form of eraStarpv that combines the radial and transverse velocities); the model reproduces the expected value of palTest.c."
  },
  {
   "property": "C97",
   "status": "proved",
   "theorems": [
    "Pal.Props.C97_rotations",
    "Pal.Props.C97_ecliptic_inverse",
    "Pal.Props.C97_prenut_composition",
    "Pal.Props.C97_ecliptic_turn",
    "Pal.Props.C97_accuracy",
    "Pal.Props.C97_bias",
    "Pal.Props.C97_order_refuted",
    "Pal.Props.C97_prenut_epoch"
   ],
   "note": "ERFA precession modelled from its published definition; the model reproduces the expected matrix of palTest.c for palPrec."
  },
  {
   "property": "C98",
   "status": "proved",
   "theorems": [
    "Pal.Props.C98_shows",
    "Pal.Props.C98_roundtrip"
   ],
   "note": "About double-precision arithmetic (Verif/Model/Flt.lean), for every rounding to nearest; `ieee_rounding` shows that IEEE 754 binary64 rounding to nearest even is one. Nine places for degrees is not claimed."
  },
  {
   "property": "C99",
   "status": "proved",
   "theorems": [
    "Pal.Props.C99_drange",
    "Pal.Props.C99_dranrm",
    "Pal.Props.C99_dranrm_end",
    "Pal.Props.C99_single",
    "Pal.Props.C99_single_refuted"
   ],
   "note": "About double-precision arithmetic, for every rounding to nearest (C99_single_refuted: IEEE 754 to nearest even). The documented range 0 to 2pi of the single-precision palRanorm fails."
  },
  {
   "property": "C100",
   "status": "proved",
   "theorems": [
    "Pal.Props.C100_accuracy",
    "Pal.Props.C100_date_accuracy",
    "Pal.Props.C100_roundtrip",
    "Pal.Props.C100_epco",
    "Pal.Props.C100_monotone"
   ],
   "note": "About double-precision arithmetic, for every rounding to nearest."
  },
  {
   "property": "C101",
   "status": "proved",
   "theorems": [
    "Pal.Props.C101_frames",
    "Pal.Props.C101_round_trip"
   ],
   "note": "About double-precision arithmetic, for every rounding to nearest and every C library whose sin and cos are good to 2.3e-16 and whose atan2 is good to 4.5e-16 (LibmOK; roundedLibm_ok shows that a correctly rounded library qualifies)."
  },
  {
   "property": "C102",
   "status": "proved",
   "theorems": [
    "Pal.Props.C102_horizon",
    "Pal.Props.C102_round_trip"
   ],
   "note": "As C101."
  },
  {
   "property": "C103",
   "status": "proved",
   "theorems": [
    "Pal.Props.C103_dsep",
    "Pal.Props.C103_symmetric",
    "Pal.Props.C103_coincident"
   ],
   "note": "As C101; exact coincidence assumes that the library gives atan2(0,x)=0 for x>0 (the C standard requires it)."
  },
  {
   "property": "C104",
   "status": "proved",
   "theorems": [
    "Pal.Props.C104_dcc2s",
    "Pal.Props.C104_dvn",
    "Pal.Props.C104_dvn_underflow"
   ],
   "note": "As C101."
  },
  {
   "property": "C105",
   "status": "proved",
   "theorems": [
    "Pal.Props.C105_dat",
    "Pal.Props.C105_dat_leap",
    "Pal.Props.C105_tai_increasing",
    "Pal.Props.C105_tai_decreasing_1968"
   ],
   "note": "In exact arithmetic, for the ERFA release whose last leap second is that of 2017 January 1."
  },
  {
   "property": "C106",
   "status": "proved",
   "theorems": [
    "Pal.Props.C106_value",
    "Pal.Props.C106_size",
    "Pal.Props.C106_gast"
   ],
   "note": "Exact arithmetic; eraEe06a, eraGst06a, eraEors and the polynomial part of eraS06 from the published definitions; the nutation series and the periodic terms of eraS06 are parameters."
  },
  {
   "property": "C107",
   "status": "proved",
   "theorems": [
    "Pal.Props.C107_products",
    "Pal.Props.C107_euler",
    "Pal.Props.C107_euler_round_trip",
    "Pal.Props.C107_av2m"
   ],
   "note": "As C101."
  },
  {
   "property": "C108",
   "status": "proved",
   "theorems": [
    "Pal.Props.C108_aberration"
   ],
   "note": ""
  },
  {
   "property": "C109",
   "status": "proved",
   "theorems": [
    "Pal.Props.C109_deflection",
    "Pal.Props.C109_limb"
   ],
   "note": ""
  },
  {
   "property": "C110",
   "status": "proved",
   "theorems": [
    "Pal.Props.C110_order",
    "Pal.Props.C110_mappa"
   ],
   "note": "eraEpv00 and the precession-nutation theory are parameters."
  },
  {
   "property": "C111",
   "status": "proved",
   "theorems": [
    "Pal.Props.C111_motion",
    "Pal.Props.C111_ellipse",
    "Pal.Props.C111_parabola",
    "Pal.Props.C111_propagate"
   ],
   "note": "Hyperbolic orbits are outside the property: there the errors grow exponentially with the anomaly."
  },
  {
   "property": "C112",
   "status": "partial",
   "theorems": [
    "Pal.Props.C112_ellipse_partial",
    "Pal.Props.C112_parabola_partial",
    "Pal.Props.C112_hyperbola_partial",
    "Pal.Props.C112_hyperbola_refuted"
   ],
   "note": "Proved for ellipses (mu at most 1e18 a), parabolas, and hyperbolas near perihelion (error growing as cosh of e|M|/(e-1)); false of the code for hyperbolas far from perihelion: the secant step of palUe2pv, taken from a trial value where the universal functions are astronomically large, changes the anomaly by less than the tolerance and is mistaken for convergence (counterexample proved)."
  },
  {
   "property": "C113",
   "status": "proved",
   "theorems": [
    "Pal.Props.C113_ellipse",
    "Pal.Props.C113_round_trip",
    "Pal.Props.C113_parabola",
    "Pal.Props.C113_hyperbola"
   ],
   "note": "Ellipses: mean distance at least 1e-18 (1+mass); hyperbolas with the bound of C112, useless far from perihelion (C112_hyperbola_refuted). Motion on the axes of the ecliptic, brought to the equator with the matrix of the code."
  },
  {
   "property": "C114",
   "status": "proved",
   "theorems": [
    "Pal.Props.C114_refv",
    "Pal.Props.C114_invf",
    "Pal.Props.C114_dmxv",
    "Pal.Props.C114_dimxv",
    "Pal.Props.C114_dmxm",
    "Pal.Props.C114_dvxv",
    "Pal.Props.C114_dav2m",
    "Pal.Props.C114_dm2av",
    "Pal.Props.C114_dvn",
    "Pal.Props.C114_dvn_overlap",
    "Pal.Props.C114_pxy",
    "Pal.Props.C114_pxy_expected"
   ],
   "note": "The wrapped ERFA functions are modelled with the local copies their published source makes."
  },
  {
   "property": "C115",
   "status": "proved",
   "theorems": [
    "Pal.Props.C115_bearing_of_zenith",
    "Pal.Props.C115_components",
    "Pal.Props.C115_field_rotation",
    "Pal.Props.C115_signs_and_poles"
   ],
   "note": ""
  },
  {
   "property": "C116",
   "status": "proved",
   "theorems": [
    "Pal.Props.C116_dbear",
    "Pal.Props.C116_pa",
    "Pal.Props.C116_dpav"
   ],
   "note": "Rounding and library as in C101-C104."
  },
  {
   "property": "C117",
   "status": "proved",
   "theorems": [
    "Pal.Props.C117_mappa",
    "Pal.Props.C117_mapqk",
    "Pal.Props.C117_mapqkz",
    "Pal.Props.C117_ampqk",
    "Pal.Props.C117_map",
    "Pal.Props.C117_aoppa",
    "Pal.Props.C117_aoppat",
    "Pal.Props.C117_aopqk",
    "Pal.Props.C117_oapqk",
    "Pal.Props.C117_aop",
    "Pal.Props.C117_pv2ue",
    "Pal.Props.C117_ue2pv",
    "Pal.Props.C117_ue2el",
    "Pal.Props.C117_pertue"
   ],
   "note": "palUe2pv with overlapping arrays is not covered."
  },
  {
   "property": "C118",
   "status": "proved",
   "theorems": [
    "Pal.Props.C118_moon",
    "Pal.Props.C118_sun"
   ],
   "note": ""
  },
  {
   "property": "C119",
   "status": "proved",
   "theorems": [
    "Pal.Props.C119_ds2tp",
    "Pal.Props.C119_dtp2s",
    "Pal.Props.C119_round_trip"
   ],
   "note": "Rounding and library as in C101-C104."
  },
  {
   "property": "C120",
   "status": "proved",
   "theorems": [
    "Pal.Props.C120_speed",
    "Pal.Props.C120_parallax"
   ],
   "note": ""
  },
  {
   "property": "C121",
   "status": "proved",
   "theorems": [
    "Pal.Props.C121_memory",
    "Pal.Props.C121_solves"
   ],
   "note": "*d and *jf are taken to be variables apart from the arrays."
  },
  {
   "property": "C122",
   "status": "proved",
   "theorems": [
    "Pal.Props.C122_pincushion",
    "Pal.Props.C122_barrel",
    "Pal.Props.C122_pincushion_roundtrip",
    "Pal.Props.C122_barrel_roundtrip",
    "Pal.Props.C122_small_distance_lost"
   ],
   "note": "pow is a parameter good to 2.3e-16 relative; barrel distortion beyond 0.26/sqrt(-disco), where the roots approach each other, is outside the theorems."
  },
  {
   "property": "C123",
   "status": "proved",
   "theorems": [
    "Pal.Props.C123_mapqkz",
    "Pal.Props.C123_mapqk",
    "Pal.Props.C123_ampqk"
   ],
   "note": "The block is taken as given (an array of doubles); how palMappa computes it in double precision is not modelled. Within 3.7 degrees of the Sun palAmpqk is outside the theorem."
  },
  {
   "property": "C124",
   "status": "proved",
   "theorems": [
    "Pal.Props.C124_rv",
    "Pal.Props.C124_rverot",
    "Pal.Props.C124_airmas",
    "Pal.Props.C124_dt"
   ],
   "note": ""
  },
  {
   "property": "C125",
   "status": "proved",
   "theorems": [
    "Pal.Props.C125_refv",
    "Pal.Props.C125_refz"
   ],
   "note": ""
  },
  {
   "property": "C126",
   "status": "proved",
   "theorems": [
    "Pal.Props.C126_geoc",
    "Pal.Props.C126_pvobs"
   ],
   "note": ""
  },
  {
   "property": "C127",
   "status": "proved",
   "theorems": [
    "Pal.Props.C127_xy2xy",
    "Pal.Props.C127_singular",
    "Pal.Props.C127_missed",
    "Pal.Props.C127_invf",
    "Pal.Props.C127_roundtrip"
   ],
   "note": ""
  },
  {
   "property": "C128",
   "status": "proved",
   "theorems": [
    "Pal.Props.C128_pxy"
   ],
   "note": ""
  },
  {
   "property": "C129",
   "status": "proved",
   "theorems": [
    "Pal.Props.C129_gmst",
    "Pal.Props.C129_gmsta_whole",
    "Pal.Props.C129_gmsta"
   ],
   "note": ""
  },
  {
   "property": "C130",
   "status": "proved",
   "theorems": [
    "Pal.Props.C130_aopqk_consistent",
    "Pal.Props.C130_aopqk"
   ],
   "note": ""
  },
  {
   "property": "C131",
   "status": "proved",
   "theorems": [
    "Pal.Props.C131_oapqk"
   ],
   "note": ""
  },
  {
   "property": "C132",
   "status": "proved",
   "theorems": [
    "Pal.Props.C132_aoppat",
    "Pal.Props.C132_aoppa",
    "Pal.Props.C132_aop_consistent"
   ],
   "note": ""
  },
  {
   "property": "C133",
   "status": "proved",
   "theorems": [
    "Pal.Props.C133_aopqk",
    "Pal.Props.C133_round_trip"
   ],
   "note": ""
  },
  {
   "property": "C134",
   "status": "proved",
   "theorems": [
    "Pal.Props.C134_aop_oap"
   ],
   "note": ""
  },
  {
   "property": "C135",
   "status": "proved",
   "theorems": [
    "Pal.Props.C135_addet",
    "Pal.Props.C135_subet",
    "Pal.Props.C135_round_trips",
    "Pal.Props.C135_fk45z"
   ],
   "note": ""
  },
  {
   "property": "C136",
   "status": "proved",
   "theorems": [
    "Pal.Props.C136_fk524_place",
    "Pal.Props.C136_fk524_motions",
    "Pal.Props.C136_fk524_distance",
    "Pal.Props.C136_fk54z_1950",
    "Pal.Props.C136_fk54z",
    "Pal.Props.C136_roundtrip_1950",
    "Pal.Props.C136_roundtrip"
   ],
   "note": ""
  },
  {
   "property": "C137",
   "status": "proved",
   "theorems": [
    "Pal.Props.C137_matrices",
    "Pal.Props.C137_preces",
    "Pal.Props.C137_preces_round_trip",
    "Pal.Props.C137_ecliptic",
    "Pal.Props.C137_ge50"
   ],
   "note": ""
  },
  {
   "property": "C138",
   "status": "proved",
   "theorems": [
    "Pal.Props.C138_nutation",
    "Pal.Props.C138_composition",
    "Pal.Props.C138_evp",
    "Pal.Props.C138_mappa"
   ],
   "note": ""
  },
  {
   "property": "C139",
   "status": "proved",
   "theorems": [
    "Pal.Props.C139_mapqkz",
    "Pal.Props.C139_map",
    "Pal.Props.C139_amp",
    "Pal.Props.C139_round_trip"
   ],
   "note": ""
  },
  {
   "property": "C140",
   "status": "proved",
   "theorems": [
    "Pal.Props.C140_polmo"
   ],
   "note": ""
  },
  {
   "property": "C141",
   "status": "proved",
   "theorems": [
    "Pal.Props.C141_fk5hz",
    "Pal.Props.C141_hfk5z",
    "Pal.Props.C141_round_trip"
   ],
   "note": ""
  },
  {
   "property": "C142",
   "status": "proved",
   "theorems": [
    "Pal.Props.C142_altaz"
   ],
   "note": ""
  },
  {
   "property": "C143",
   "status": "proved",
   "theorems": [
    "Pal.Props.C143_halving",
    "Pal.Props.C143_status",
    "Pal.Props.C143_elements",
    "Pal.Props.C143_round_trip",
    "Pal.Props.C143_exact"
   ],
   "note": "The error of palUe2pv at other dates in double precision is not bounded; exact arithmetic is the subject of C61."
  },
  {
   "property": "C144",
   "status": "proved",
   "theorems": [
    "Pal.Props.C144_dm2av",
    "Pal.Props.C144_round_trip",
    "Pal.Props.C144_symmetric"
   ],
   "note": "palDav2m is that of C107 (null vector or length at least 1e-29)."
  },
  {
   "property": "C145",
   "status": "proved",
   "theorems": [
    "Pal.Props.C145_radio",
    "Pal.Props.C145_defined",
    "Pal.Props.C145_same",
    "Pal.Props.C145_vacuum",
    "Pal.Props.C145_accuracy"
   ],
   "note": "pow is a parameter with relative error 2.3e-16; accuracy against palAtmdsp in exact arithmetic"
  },
  {
   "property": "C146",
   "status": "proved",
   "theorems": [
    "Pal.Props.C146_accuracy",
    "Pal.Props.C146_distance"
   ],
   "note": "sin and cos are parameters with relative error 2.3e-16; fmod exact, no fused multiply-add; accuracy against palDmoon in exact arithmetic (C87, C88)"
  },
  {
   "property": "C147",
   "status": "proved",
   "theorems": [
    "Pal.Props.C147_count",
    "Pal.Props.C147_points",
    "Pal.Props.C147_project"
   ],
   "note": "sin, cos and atan2 are parameters with the absolute errors of LibmOK"
  },
  {
   "property": "C148",
   "status": "proved",
   "theorems": [
    "Pal.Props.C148_accuracy"
   ],
   "note": "sin, cos and atan2 are parameters with the absolute errors of LibmOK"
  },
  {
   "property": "C149",
   "status": "proved",
   "theorems": [
    "Pal.Props.C149_deltaT",
    "Pal.Props.C149_moon",
    "Pal.Props.C149_sun",
    "Pal.Props.C149_other",
    "Pal.Props.C149_planet"
   ],
   "note": "sin, cos, atan2 and asin are parameters with absolute errors; the numbers returned by eraNut06a and eraPlan94 are parameters"
  },
  {
   "property": "C150",
   "status": "proved",
   "theorems": [
    "Pal.Props.C150_model",
    "Pal.Props.C150_value"
   ],
   "note": "sin, cos and atan2 are parameters with absolute errors; the numbers returned by eraNut06a and the sum of the series inside eraS06 are parameters"
  },
  {
   "property": "C151",
   "status": "proved",
   "theorems": [
    "Pal.Props.C151_stratosphere",
    "Pal.Props.C151_troposphere"
   ],
   "note": "pow and exp of the library are parameters with a relative error of 2.3e-16"
  },
  {
   "property": "C152",
   "status": "proved",
   "theorems": [
    "Pal.Props.C152_points",
    "Pal.Props.C152_fit"
   ],
   "note": "the numbers returned by palRefro are a parameter"
  },
  {
   "property": "C153",
   "status": "proved",
   "theorems": [
    "Pal.Props.C153_decodes",
    "Pal.Props.C153_sixty"
   ],
   "note": "the statuses of the three fields are parameters (the parsing itself is modelled in Model/Parse.lean, C12-C15); strtod is taken to be correctly rounded"
  },
  {
   "property": "C154",
   "status": "proved",
   "theorems": [
    "Pal.Props.C154_djcl",
    "Pal.Props.C154_roundtrip",
    "Pal.Props.C154_djcal",
    "Pal.Props.C154_dat"
   ],
   "note": "eraJd2cal and eraDat follow the published source of ERFA, which is not in /repo; dates within one day of 1858 November 17 are not covered"
  },
  {
   "property": "C155",
   "status": "proved",
   "theorems": [
    "Pal.Props.C155_station_angles"
   ],
   "note": "the rows of the table themselves are in Model/ObsTable.lean (C11)"
  }
 ]
}