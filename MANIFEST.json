{
 "claims": [
  {
   "property": "C01",
   "status": "proved",
   "theorems": [
    "Geo.C01_new",
    "Geo.C01_rad_deg",
    "Geo.C01_operators"
   ],
   "note": ""
  },
  {
   "property": "C02",
   "status": "partial",
   "theorems": [
    "Geo.C02_range_partial",
    "Geo.C02_range_violated",
    "Geo.C02_azimuth_partial"
   ],
   "note": "Proved in f64: for |x| ≤ 17 PI the longitude, azimuth and normalised angle are in range and exactly x − n TAU (C02_range_partial, C02_azimuth_partial). The full statement is false: C02_range_violated shows the first double above 17 PI giving a longitude larger than PI, and 1.6369836687665635e19 giving 2048."
  },
  {
   "property": "C03",
   "status": "proved",
   "theorems": [
    "Geo.C03_range",
    "Geo.C03_idempotent",
    "Geo.C03_canonical"
   ],
   "note": ""
  },
  {
   "property": "C04",
   "status": "proved",
   "theorems": [
    "Geo.C04_diff_to",
    "Geo.C04_antisymmetric"
   ],
   "note": ""
  },
  {
   "property": "C05",
   "status": "proved",
   "theorems": [
    "Geo.C05_range",
    "Geo.C05_add_sub",
    "Geo.C05_sub_add",
    "Geo.C05_add_many"
   ],
   "note": ""
  },
  {
   "property": "C06",
   "status": "proved",
   "theorems": [
    "Geo.C06_latitude_invariant"
   ],
   "note": ""
  },
  {
   "property": "C07",
   "status": "proved",
   "theorems": [
    "Geo.C07_range",
    "Geo.C07_normalized"
   ],
   "note": ""
  },
  {
   "property": "C08",
   "status": "proved",
   "theorems": [
    "Geo.C08_new",
    "Geo.C08_monotone",
    "Geo.C08_operators"
   ],
   "note": ""
  },
  {
   "property": "C09",
   "status": "proved",
   "theorems": [
    "Geo.C09_angle",
    "Geo.C09_length",
    "Geo.C09_named_units",
    "Geo.C09_bits"
   ],
   "note": ""
  },
  {
   "property": "C10",
   "status": "partial",
   "theorems": [
    "Geo.C10_minutes_can_be_60",
    "Geo.C10_dms_partial"
   ],
   "note": "The code violates the property: C10_minutes_can_be_60 gives an angle whose dms() has minutes = 60. C10_dms_partial proves the rest (value recovered within the rounding threshold, ranges) when minutes do not round up to 60."
  },
  {
   "property": "C11",
   "status": "partial",
   "theorems": [
    "Geo.C11_value",
    "Geo.C11_debug_accepts",
    "Geo.C11_debug_misses_upper_bound"
   ],
   "note": "The value part is proved. The debug assertions of the macros test minutes instead of degrees: C11_debug_misses_upper_bound shows an out-of-range literal accepted in debug builds."
  },
  {
   "property": "C12",
   "status": "proved",
   "theorems": [
    "Geo.C12_new",
    "Geo.C12_classification",
    "Geo.C12_inverted",
    "Geo.C12_antimeridian_is_empty"
   ],
   "note": ""
  },
  {
   "property": "C13",
   "status": "proved",
   "theorems": [
    "Geo.C13_linear",
    "Geo.C13_circular",
    "Geo.C13_coordinates",
    "Geo.C13_relations_scalar",
    "Geo.C13_turns",
    "Geo.C13_relations_coordinates"
   ],
   "note": ""
  },
  {
   "property": "C14",
   "status": "proved",
   "theorems": [
    "Geo.C14_normalize_meaning",
    "Geo.C14_normalize_denormalize",
    "Geo.C14_denormalize_normalize",
    "Geo.C14_default"
   ],
   "note": ""
  },
  {
   "property": "C15",
   "status": "proved",
   "theorems": [
    "Geo.C15_geodetic_normalize",
    "Geo.C15_geodetic_denormalize",
    "Geo.C15_geocentric_normalize",
    "Geo.C15_geocentric_denormalize",
    "Geo.C15_projected_normalize",
    "Geo.C15_projected_denormalize"
   ],
   "note": ""
  },
  {
   "property": "C16",
   "status": "proved",
   "theorems": [
    "Geo.C16_geocentric",
    "Geo.C16_projected_normalize",
    "Geo.C16_projected_normalize_denormalize",
    "Geo.C16_projected_denormalize_normalize",
    "Geo.C16_geocentric_bits"
   ],
   "note": ""
  },
  {
   "property": "C17",
   "status": "proved",
   "theorems": [
    "Geo.C17_geodetic",
    "Geo.C17_projected",
    "Geo.C17_geocentric"
   ],
   "note": ""
  },
  {
   "property": "C18",
   "status": "proved",
   "theorems": [
    "Geo.C18_wrong_length",
    "Geo.C18_bad_dim",
    "Geo.C18_value",
    "Geo.C18_short_tol"
   ],
   "note": ""
  },
  {
   "property": "C19",
   "status": "proved",
   "theorems": [
    "Geo.C19_dist_to",
    "Geo.C19_crs_dist",
    "Geo.C19_wrong_length",
    "Geo.C19_metric",
    "Geo.C19_geographic_3d"
   ],
   "note": ""
  },
  {
   "property": "C20",
   "status": "partial",
   "theorems": [
    "Geo.C20_partial",
    "Geo.C20_geographic_2d_violated"
   ],
   "note": "True for geocentric, projected and 3D geographic CRSs (C20_partial). False for every 2D geographic CRS and every position: the Vincenty inverse divides 0 by 0 and reports non-convergence (C20_geographic_2d_violated)."
  },
  {
   "property": "C21",
   "status": "proved",
   "theorems": [
    "Geo.C21_from_ab",
    "Geo.C21_from_ainvf",
    "Geo.C21_nan",
    "Geo.C21_constructed",
    "Geo.C21_from_ab_f64",
    "Geo.C21_from_ainvf_f64",
    "Geo.C21_nan_f64",
    "Geo.C21_axes_f64"
   ],
   "note": ""
  },
  {
   "property": "C22",
   "status": "proved",
   "theorems": [
    "Geo.C22_from_ab",
    "Geo.C22_from_ainvf",
    "Geo.C22_same_ellipsoid"
   ],
   "note": ""
  },
  {
   "property": "C23",
   "status": "proved",
   "theorems": [
    "Geo.C23_bounds",
    "Geo.C23_ends",
    "Geo.C23_even_monotone"
   ],
   "note": ""
  },
  {
   "property": "C24",
   "status": "proved",
   "theorems": [
    "Geo.C24_meaning",
    "Geo.C24_order",
    "Geo.C24_poles"
   ],
   "note": ""
  },
  {
   "property": "C25",
   "status": "proved",
   "theorems": [
    "Geo.C25_ellipsoid",
    "Geo.C25_prime_meridian",
    "Geo.C25_datum"
   ],
   "note": ""
  },
  {
   "property": "C26",
   "status": "proved",
   "theorems": [
    "Geo.C26_on_ellipsoid_and_normal"
   ],
   "note": ""
  },
  {
   "property": "C27",
   "status": "proved",
   "theorems": [
    "Geo.C27_round_trip",
    "Geo.C27_round_trip_heights"
   ],
   "note": ""
  },
  {
   "property": "C28",
   "status": "proved",
   "theorems": [
    "Geo.C28_round_trip"
   ],
   "note": ""
  },
  {
   "property": "C29",
   "status": "proved",
   "theorems": [
    "Geo.C29_xyz_round_trip",
    "Geo.C29_llh_round_trip"
   ],
   "note": ""
  },
  {
   "property": "C30",
   "status": "partial",
   "theorems": [
    "Geo.C30_shift_partial",
    "Geo.C30_sphere_ignores_prime_meridian",
    "Geo.C30_sphere_violated",
    "Geo.C30_new"
   ],
   "note": "Holds on every non-spherical ellipsoid (C30_shift_partial, both directions). The code violates it on spheres: C30_sphere_ignores_prime_meridian (for all inputs) and C30_sphere_violated (witness)."
  },
  {
   "property": "C31",
   "status": "partial",
   "theorems": [
    "Geo.C31_finite_exactly_on",
    "Geo.C31_centre_violated",
    "Geo.C31_surface_violated",
    "Geo.C31_partial"
   ],
   "note": "The code violates the property: C31_centre_violated and C31_surface_violated give positions converted to NaN; C31_finite_exactly_on characterises exactly the positions that convert to finite coordinates; C31_partial proves the ranges there."
  },
  {
   "property": "C32",
   "status": "proved",
   "theorems": [
    "Geo.C32_unproj_proj",
    "Geo.C32_proj_unproj"
   ],
   "note": ""
  },
  {
   "property": "C33",
   "status": "proved",
   "theorems": [
    "Geo.C33_shape",
    "Geo.C33_origin",
    "Geo.C33_northing",
    "Geo.C33_poles"
   ],
   "note": ""
  },
  {
   "property": "C34",
   "status": "proved",
   "theorems": [
    "Geo.C34_lon_height",
    "Geo.C34_sphere",
    "Geo.C34_sphere_unproj_proj",
    "Geo.C34_latitude"
   ],
   "note": ""
  },
  {
   "property": "C35",
   "status": "proved",
   "theorems": [
    "Geo.C35_shape",
    "Geo.C35_standard_parallel",
    "Geo.C35_sign_of_parallel",
    "Geo.C35_conformal"
   ],
   "note": ""
  },
  {
   "property": "C36",
   "status": "proved",
   "theorems": [
    "Geo.C36_loop_terminates",
    "Geo.C36_unproj_terminates",
    "Geo.C36_nonfinite_diverges"
   ],
   "note": ""
  },
  {
   "property": "C37",
   "status": "proved",
   "theorems": [
    "Geo.C37_central_meridian",
    "Geo.C37_reflect_lon",
    "Geo.C37_reflect_lat",
    "Geo.C37_sphere_meridian"
   ],
   "note": ""
  },
  {
   "property": "C38",
   "status": "proved",
   "theorems": [
    "Geo.C38_round_trip",
    "Geo.C38_beyond_mirrored",
    "Geo.C38_unproj_proj"
   ],
   "note": ""
  },
  {
   "property": "C39",
   "status": "partial",
   "theorems": [
    "Geo.C39_violated",
    "Geo.C39_zones_partial",
    "Geo.C39_utm_zone_violated"
   ],
   "note": "Violated: utm_lon0 yields 6z-180 degrees, 3 degrees east of the standard, in every zone (C39_violated), and the (uncalled) utm_zone never returns the standard zone number (C39_utm_zone_violated). The partial theorem gives what holds: zones 6 degrees apart, 500000 on the meridian 6z-180."
  },
  {
   "property": "C40",
   "status": "proved",
   "theorems": [
    "Geo.C40_proj",
    "Geo.C40_unproj"
   ],
   "note": ""
  },
  {
   "property": "C41",
   "status": "proved",
   "theorems": [
    "Geo.C41_proj",
    "Geo.C41_unproj",
    "Geo.C41_unproj_ok"
   ],
   "note": ""
  },
  {
   "property": "C42",
   "status": "proved",
   "theorems": [
    "Geo.C42_bwd_eq_swapped_fwd",
    "Geo.C42_fwd_eq_swapped_bwd"
   ],
   "note": ""
  },
  {
   "property": "C43",
   "status": "proved",
   "theorems": [
    "Geo.C43_fwd",
    "Geo.C43_bwd",
    "Geo.C43_terminates"
   ],
   "note": ""
  },
  {
   "property": "C44",
   "status": "proved",
   "theorems": [
    "Geo.C44_round_trip"
   ],
   "note": ""
  },
  {
   "property": "C45",
   "status": "proved",
   "theorems": [
    "Geo.C45_translation"
   ],
   "note": ""
  },
  {
   "property": "C46",
   "status": "proved",
   "theorems": [
    "Geo.C46_to_ref",
    "Geo.C46_residual",
    "Geo.C46_pure_translation_exact",
    "Geo.C46_not_exact"
   ],
   "note": ""
  },
  {
   "property": "C47",
   "status": "proved",
   "theorems": [
    "Geo.C47_conventions",
    "Geo.C47_conventions_exact",
    "Geo.C47_f64"
   ],
   "note": ""
  },
  {
   "property": "C48",
   "status": "proved",
   "theorems": [
    "Geo.C48_eval_at",
    "Geo.C48_fast_eval_at",
    "Geo.C48_eval_at_complex"
   ],
   "note": ""
  },
  {
   "property": "C49",
   "status": "proved",
   "theorems": [
    "Geo.C49_clenshaw"
   ],
   "note": ""
  },
  {
   "property": "C50",
   "status": "proved",
   "theorems": [
    "Geo.C50_ring",
    "Geo.C50_polar",
    "Geo.C50_div"
   ],
   "note": ""
  },
  {
   "property": "C51",
   "status": "proved",
   "theorems": [
    "Geo.C51_two_sum",
    "Geo.C51_no_overflow"
   ],
   "note": ""
  },
  {
   "property": "C52",
   "status": "proved",
   "theorems": [
    "Geo.C52_point",
    "Geo.C52_dimensions",
    "Geo.C52_point_set"
   ],
   "note": ""
  },
  {
   "property": "C53",
   "status": "proved",
   "theorems": [
    "Geo.C53_crs_checks",
    "Geo.C53_line_string_builder",
    "Geo.C53_line_to_fails",
    "Geo.C53_with_line_fails"
   ],
   "note": ""
  },
  {
   "property": "C54",
   "status": "proved",
   "theorems": [
    "Geo.C54_close"
   ],
   "note": ""
  },
  {
   "property": "C55",
   "status": "proved",
   "theorems": [
    "Geo.C55_param",
    "Geo.C55_ends",
    "Geo.C55_panics",
    "Geo.C55_cartesian",
    "Geo.C55_arc_length"
   ],
   "note": ""
  },
  {
   "property": "C56",
   "status": "partial",
   "theorems": [
    "Geo.C56_start_partial",
    "Geo.C56_end_partial",
    "Geo.C56_end_violated",
    "Geo.C56_start_violated"
   ],
   "note": "False in f64: C56_end_violated (segments 0.1, 0.2, 0.3: param(length()) panics) and C56_start_violated (repeated first position: NaN). Proved: param(0) = start when the first length is positive (C56_start_partial); param(length) = end when the sums of lengths are exact (C56_end_partial)."
  },
  {
   "property": "C57",
   "status": "proved",
   "theorems": [
    "Geo.C57_curve_connected",
    "Geo.C57_append_outcome"
   ],
   "note": ""
  },
  {
   "property": "C58",
   "status": "partial",
   "theorems": [
    "Geo.C58_curve_dimension_violated",
    "Geo.C58_curve_dimension_partial",
    "Geo.C58_line_string_segment",
    "Geo.C58_only_first_can_differ"
   ],
   "note": "The code violates the property (C58_curve_dimension_violated): with_seg never compares the dimension of the first segment with the CRS. Holds when it matches (partial theorem)."
  },
  {
   "property": "C59",
   "status": "proved",
   "theorems": [
    "Geo.C59_boundary"
   ],
   "note": ""
  },
  {
   "property": "C60",
   "status": "proved",
   "theorems": [
    "Geo.C60_line_string_segment",
    "Geo.C60_param",
    "Geo.C60_ends",
    "Geo.C60_panics"
   ],
   "note": ""
  },
  {
   "property": "C61",
   "status": "proved",
   "theorems": [
    "Geo.C61_direct",
    "Geo.C61_inverse"
   ],
   "note": ""
  },
  {
   "property": "C62",
   "status": "proved",
   "theorems": [
    "Geo.C62_converged",
    "Geo.C62_symmetric"
   ],
   "note": ""
  },
  {
   "property": "C63",
   "status": "partial",
   "theorems": [
    "Geo.C63_vincenty",
    "Geo.C63_karney_partial",
    "Geo.C63_rapp_partial",
    "Geo.C63_rapp_violated",
    "Geo.C63_karney_ellipsoid_partial"
   ],
   "note": "Vincenty proved for a <= 2b. Rapp returns the start point but azimuth 0 (violated). Karney proved exactly on spheres; on every ellipsoid with n <= 1/100 it returns within 5 n^7 a of the start, which is the truncation error of its series."
  },
  {
   "property": "C64",
   "status": "proved",
   "theorems": [
    "Geo.C64_vincenty_direct",
    "Geo.C64_karney_direct",
    "Geo.C64_rapp_direct",
    "Geo.C64_inverse"
   ],
   "note": "Direct: all three solvers; inverse: Vincenty. The Karney inverse is unimplemented!() (C61)."
  },
  {
   "property": "C65",
   "status": "proved",
   "theorems": [
    "Geo.C65_vincenty",
    "Geo.C65_karney"
   ],
   "note": ""
  },
  {
   "property": "C66",
   "status": "proved",
   "theorems": [
    "Geo.C66_karney_inverse_always_panics",
    "Geo.C66_karney_inverse_never_ok"
   ],
   "note": ""
  },
  {
   "property": "C67",
   "status": "partial",
   "theorems": [
    "Geo.C67_direct_azimuth",
    "Geo.C67_inverse_azimuths",
    "Geo.C67_inverse_cos_lambda",
    "Geo.C67_direct_multiples",
    "Geo.C67_inverse_multiples_partial",
    "Geo.C67_cos_8_violated"
   ],
   "note": "Azimuth formulas and every multiple-angle term except cos_8_sigma_m are proved. cos_8_sigma_m of the inverse solver is wrong in the code: rapp.rs:210-212 uses sin_2_sigma (the sine of 2 sigma) where the expansion of cos 8 sigma_m needs the sine of 2 sigma_m. C67_cos_8_violated proves the disagreement."
  },
  {
   "property": "C68",
   "status": "proved",
   "theorems": [
    "Geo.C68_sampler"
   ],
   "note": ""
  },
  {
   "property": "C69",
   "status": "proved",
   "theorems": [
    "Geo.C69_iter_fn"
   ],
   "note": ""
  },
  {
   "property": "C70",
   "status": "partial",
   "theorems": [
    "Geo.C70_ellipsoids_partial",
    "Geo.C70_prime_meridians_partial",
    "Geo.C70_sphere_is_not_spherical",
    "Geo.C70_datums"
   ],
   "note": "The constant SPHERE violates the last clause (C70_sphere_is_not_spherical: it is built with a finite inverse flattening). The other clauses are proved for every named constant."
  },
  {
   "property": "C71",
   "status": "proved",
   "theorems": [
    "Geo.C71_equator"
   ],
   "note": ""
  },
  {
   "property": "C72",
   "status": "proved",
   "theorems": [
    "Geo.C72_vincenty_direct"
   ],
   "note": ""
  },
  {
   "property": "C73",
   "status": "partial",
   "theorems": [
    "Geo.C73_vincenty",
    "Geo.C73_karney",
    "Geo.C73_rapp_partial",
    "Geo.C73_rapp_violated"
   ],
   "note": "Proved for Vincenty and Karney. The Rapp solver reverses the azimuth when sin(s/a) < 0 (violated); proved for sin(s/a) > 0."
  },
  {
   "property": "C74",
   "status": "proved",
   "theorems": [
    "Geo.C74_karney_direct"
   ],
   "note": ""
  },
  {
   "property": "C75",
   "status": "proved",
   "theorems": [
    "Geo.C75_rapp_direct"
   ],
   "note": ""
  },
  {
   "property": "C76",
   "status": "proved",
   "theorems": [
    "Geo.C76_direct",
    "Geo.C76_inverse",
    "Geo.C76_nan_direct",
    "Geo.C76_nan_inverse"
   ],
   "note": ""
  },
  {
   "property": "C77",
   "status": "partial",
   "theorems": [
    "Geo.C77_coordinates",
    "Geo.C77_datums",
    "Geo.C77_geodesic_violated",
    "Geo.C77_geodesic_partial"
   ],
   "note": "Proved for all types except Geodesic, whose text prints the start longitude in place of the start latitude (C77_geodesic_violated); C77_geodesic_partial shows all other fields are determined. Formatting of one float is a parameter with the stated faithfulness contract."
  },
  {
   "property": "C78",
   "status": "proved",
   "theorems": [
    "Geo.C78_unique",
    "Geo.C78_karney_direct"
   ],
   "note": "Exact arithmetic. The specification (Spec/SurfaceGeodesic) is the differential-geometric definition of a geodesic and mentions no series. Existence is proved by Bessel's auxiliary sphere, uniqueness by the ODE theorem, the error bound by kernel-evaluated truncated series with explicit remainders. Starts at a pole are excluded (azimuth lost in exact arithmetic, see DESIGN 2.2)."
  },
  {
   "property": "C79",
   "status": "proved",
   "theorems": [
    "Geo.C79_vincenty_returns",
    "Geo.C79_vincenty_direct"
   ],
   "note": "Exact arithmetic. The loop is shown to end (contraction factor at most 1/50), so the solver never reports non-convergence; the result is compared with the differential-geometric geodesic of Spec/SurfaceGeodesic. Starts at a pole are excluded (azimuth lost in exact arithmetic, see DESIGN 2.2)."
  },
  {
   "property": "C80",
   "status": "proved",
   "theorems": [
    "Geo.C80_vincenty_returns",
    "Geo.C80_vincenty_inverse"
   ],
   "note": "Exact arithmetic. Convergence is proved on the domain where sigma0 + 4f <= M, 10 f M <= sin M (about 172 degrees of arc on WGS84); near-antipodal pairs are outside (the code may report non-convergence there). The second theorem needs no convergence hypothesis beyond the solver having returned. A first point at a pole is excluded from the geodesic statement."
  },
  {
   "property": "C81",
   "status": "proved",
   "theorems": [
    "Geo.C81_rapp_returns",
    "Geo.C81_rapp_direct"
   ],
   "note": "Exact arithmetic. The code uses the last arc for the latitude and the one before for the longitude and azimuth; the effect is bounded by 1e-14 a / cos(lat). A line that ends exactly at a pole divides 0 by 0 in exact arithmetic and gives a NaN longitude, which the statement shows as its first alternative. The azimuth claim is restricted to 1e-10 b <= s <= 3b because of C73."
  },
  {
   "property": "C82",
   "status": "partial",
   "theorems": [
    "Geo.C82_rapp_returns",
    "Geo.C82_rapp_distance",
    "Geo.C82_rapp_inverse_partial",
    "Geo.C82_wrong_pole_violated"
   ],
   "note": "Violated: for points on opposite meridians the code chooses the pole from the sign of the first latitude alone, so the azimuths can point over the wrong pole while the distance is that of the other line (C82_wrong_pole_violated). The _partial theorem excludes exactly these cases and end points at a pole. C82_rapp_returns and C82_rapp_distance need no such exclusion (the distance needs only the first point off the poles)."
  },
  {
   "property": "C83",
   "status": "proved",
   "theorems": [
    "Geo.C83_meridian_arc",
    "Geo.C83_meridian_scale"
   ],
   "note": ""
  },
  {
   "property": "C84",
   "status": "proved",
   "theorems": [
    "Geo.C84_transverse_mercator",
    "Geo.C84_central_meridian",
    "Geo.C84_mercator",
    "Geo.C84_web_mercator"
   ],
   "note": ""
  },
  {
   "property": "C85",
   "status": "proved",
   "theorems": [
    "Geo.C85_round_trip",
    "Geo.C85_round_trip_zone"
   ],
   "note": ""
  },
  {
   "property": "C86",
   "status": "proved",
   "theorems": [
    "Geo.C86_round_trip",
    "Geo.C86_round_trip_zone"
   ],
   "note": ""
  },
  {
   "property": "C87",
   "status": "partial",
   "theorems": [
    "Geo.C87_cartesian",
    "Geo.C87_projected",
    "Geo.C87_geodetic_partial",
    "Geo.C87_small_height_violated",
    "Geo.C87_defaults",
    "Geo.C87_nested"
   ],
   "note": "Violated in the height bound of GeodeticTolerance::small (C87_small_height_violated): documented 1e-3 m, coded 1e-4 m. Everything else holds: C87_cartesian, C87_projected, C87_geodetic_partial (with the height bound of the code), C87_defaults, and C87_nested in IEEE arithmetic."
  },
  {
   "property": "C88",
   "status": "proved",
   "theorems": [
    "Geo.C88_directions",
    "Geo.C88_azimuths"
   ],
   "note": ""
  },
  {
   "property": "C89",
   "status": "proved",
   "theorems": [
    "Geo.C89_new",
    "Geo.C89_positions",
    "Geo.C89_boundary"
   ],
   "note": ""
  },
  {
   "property": "C90",
   "status": "partial",
   "theorems": [
    "Geo.C90_transverse_mercator",
    "Geo.C90_transverse_mercator_inverse",
    "Geo.C90_utm",
    "Geo.C90_mercator",
    "Geo.C90_web_mercator_partial",
    "Geo.C90_web_mercator_violated"
   ],
   "note": "Violated by Web Mercator (C90_web_mercator_violated): lat0, documented as the latitude of the natural origin, is ignored. C90_web_mercator_partial is the case lat0 = 0; transverse Mercator (any lat0), UTM and both Mercator variants satisfy it."
  },
  {
   "property": "C91",
   "status": "proved",
   "theorems": [
    "Geo.C91_project",
    "Geo.C91_unproject",
    "Geo.C91_reproject",
    "Geo.C91_axes",
    "Geo.C91_meridian"
   ],
   "note": "Strictly between the poles, for heights above the evolute region (HighEnough), and for shifts (Identity or GeocentricTranslation) as the transformation to the reference. The change of prime meridian is proved for flattened ellipsoids; on a sphere it is false (see C30)."
  },
  {
   "property": "C92",
   "status": "proved",
   "theorems": [
    "Geo.C92_direct_longitude",
    "Geo.C92_inverse_turn",
    "Geo.C92_inverse_exchange",
    "Geo.C92_inverse_east_west",
    "Geo.C92_inverse_north_south",
    "Geo.C92_dist_exchange",
    "Geo.C92_dist_turn",
    "Geo.C92_dist_mirror"
   ],
   "note": "Turning around the axis holds for all solvers, in the direct problem even for f64. Exchange and mirrors are proved for the Vincenty inverse, which is what the distance of 2D geographic CRS uses. For two points of the same or opposite parallels the last auxiliary triangle may be degenerate, with all azimuths 0; this exception is in the statement."
  },
  {
   "property": "C93",
   "status": "proved",
   "theorems": [
    "Geo.C93_direct_after_inverse"
   ],
   "note": "For f <= 1/50, the first point off the poles and a returned length of at most 3 b (nearly antipodal points excluded, where the azimuth is ill-conditioned)."
  },
  {
   "property": "C94",
   "status": "proved",
   "theorems": [
    "Geo.C94_inverse_after_direct"
   ],
   "note": "For f <= 1/250 (all Earth ellipsoids), a start off the poles and 1e-12 b <= s <= 2.9 b. At zero distance the inverse solver fails (C20), near the antipode it does not converge (C62)."
  },
  {
   "property": "C95",
   "status": "proved",
   "theorems": [
    "Geo.C95_vincenty_karney",
    "Geo.C95_vincenty_rapp"
   ],
   "note": "Bounds are the sums of the truncation bounds of C78, C79 and C81. With the azimuth along a meridian the Rapp solver may return a longitude that is not a number (C81)."
  },
  {
   "property": "C96",
   "status": "proved",
   "theorems": [
    "Geo.C96_geodesics_shortest",
    "Geo.C96_vincenty_distance",
    "Geo.C96_vincenty_all",
    "Geo.C96_rapp_distance",
    "Geo.C96_rapp_all",
    "Geo.C96_inverse_agree",
    "Geo.C96_vincenty_direct",
    "Geo.C96_karney_direct",
    "Geo.C96_crs_dist",
    "Geo.C96_crs_all",
    "Geo.C96_crs_triangle"
   ],
   "note": "Stated with curves on the ellipsoid that do not move faster than 1; the bounds are the series errors of C78, C79, C80 and C82. Nearly antipodal points (more than 163 degrees apart) are outside the statement: there geodesics need not be shortest. The Rapp solver needs the first point off the poles."
  },
  {
   "property": "C97",
   "status": "proved",
   "theorems": [
    "Geo.C97_geocentric_error",
    "Geo.C97_geocentric_accuracy"
   ],
   "note": "In IEEE arithmetic; the library is a parameter with the stated error bounds (sqrt 2^-52 relative, sin, cos and powi(2) 2^-52 absolute), an example exhibits one. Prime meridian and sphere included."
  },
  {
   "property": "C98",
   "status": "proved",
   "theorems": [
    "Geo.C98_helmert_accuracy",
    "Geo.C98_translation_accuracy",
    "Geo.C98_round_trip",
    "Geo.C98_pipeline"
   ],
   "note": "In IEEE arithmetic, both directions and both rotation conventions; the comparison is with the exact transformation by the same parameters, so the approximate inverse of the Helmert transformation (C46) is not part of the bound."
  },
  {
   "property": "C99",
   "status": "proved",
   "theorems": [
    "Geo.C99_units",
    "Geo.C99_normalize",
    "Geo.C99_read",
    "Geo.C99_transform"
   ],
   "note": "In IEEE arithmetic; sources are geographic (all five systems of axes) and geocentric CRSs, destinations geocentric ones, shifts are the identity, translations and Helmert transformations. The exact transformation has the same semi-axes, prime meridian and shift parameters, with units of their exact sizes (pi/180 and so on)."
  },
  {
   "property": "C100",
   "status": "proved",
   "theorems": [
    "Geo.C100_geodetic_accuracy",
    "Geo.C100_geodetic_backward"
   ],
   "note": "In IEEE arithmetic, on flattened ellipsoids (flattening at most 1/200; the spherical branch is not covered). The mathematical library satisfies `AccurateInverse`: errors of at most 2^-52 (2^-51 for powi) for sqrt, hypot, cbrt, atan2, sin, cos. The exact triple is the one C28 characterises."
  },
  {
   "property": "C101",
   "status": "proved",
   "theorems": [
    "Geo.C101_round_trip_f64"
   ],
   "note": "In IEEE arithmetic, with the hypotheses of C100."
  },
  {
   "property": "C102",
   "status": "proved",
   "theorems": [
    "Geo.C102_conditioning"
   ],
   "note": "In exact arithmetic: what an error of geocentric coordinates does to geodetic ones."
  },
  {
   "property": "C103",
   "status": "proved",
   "theorems": [
    "Geo.C103_geodetic_error",
    "Geo.C103_round_trip_f64"
   ],
   "note": "In IEEE arithmetic, on flattened ellipsoids (flattening at most 1/200), with a library satisfying `AccurateInverse`. Longitudes are compared along the parallel, as they must be near the poles."
  },
  {
   "property": "C104",
   "status": "proved",
   "theorems": [
    "Geo.C104_denormalize",
    "Geo.C104_transform",
    "Geo.C104_transform_distance",
    "Geo.C104_geographic"
   ],
   "note": "In IEEE arithmetic, from geographic and geocentric CRSs (not from projected ones) to geographic CRSs on flattened ellipsoids, with the unit sizes of the crate; shifts as in C99."
  },
  {
   "property": "C105",
   "status": "proved",
   "theorems": [
    "Geo.C105_forward",
    "Geo.C105_utm"
   ],
   "note": "In IEEE arithmetic, forward direction, within about 28 degrees of the central meridian (or of its antimeridian, where the code mirrors points: see C38) and 85 degrees of the equator, with a library satisfying `AccurateProjection`. The comparison is with the exact value of the same formulas; for UTM with the code's own central meridians, which are 3 degrees off the standard ones (C39)."
  },
  {
   "property": "C106",
   "status": "proved",
   "theorems": [
    "Geo.C106_inverse",
    "Geo.C106_utm"
   ],
   "note": "In IEEE arithmetic, inverse direction, with a library satisfying `AccurateProjection`, flattening at most 1/200, for normalised eastings up to 0.54 and northings up to 1.48. Outside that range the loop is not proved to end in doubles."
  },
  {
   "property": "C107",
   "status": "proved",
   "theorems": [
    "Geo.C107_round_trip",
    "Geo.C107_utm"
   ],
   "note": "In IEEE arithmetic, both directions, with a library satisfying `AccurateProjection`. The term in n^5 is that of the truncated series (C85)."
  },
  {
   "property": "C108",
   "status": "partial",
   "theorems": [
    "Geo.C108_returns_violated",
    "Geo.C108_returns_partial",
    "Geo.C108_utm_violated",
    "Geo.C108_utm_partial"
   ],
   "note": "Violated: from an easting of 720000 km on, `unproj` never returns, proved for libraries satisfying `IeeeSpecial`. Proved: it returns up to 450000 km, northing up to 1e50 m."
  },
  {
   "property": "C109",
   "status": "proved",
   "theorems": [
    "Geo.C109_forward",
    "Geo.C109_inverse",
    "Geo.C109_round_trip"
   ],
   "note": "For libraries satisfying `AccurateProjection`; latitudes with cosine at least 1e-3 (up to 89.94 degrees)."
  },
  {
   "property": "C110",
   "status": "proved",
   "theorems": [
    "Geo.C110_forward",
    "Geo.C110_inverse",
    "Geo.C110_round_trip"
   ],
   "note": "For libraries satisfying `AccurateProjection`; scale factors between 0.5 and 2 or standard parallels up to 60 degrees; latitudes up to 89.94 degrees."
  },
  {
   "property": "C111",
   "status": "proved",
   "theorems": [
    "Geo.C111_normalize",
    "Geo.C111_read",
    "Geo.C111_to_geocentric",
    "Geo.C111_to_geographic",
    "Geo.C111_projected_to_geographic"
   ],
   "note": "For libraries satisfying `AccurateProjection` (and `AccurateInverse` to a geographic CRS); ranges of the plane coordinates in `ProjectsNear`."
  },
  {
   "property": "C112",
   "status": "proved",
   "theorems": [
    "Geo.C112_denormalize",
    "Geo.C112_to_projected",
    "Geo.C112_geographic_to_projected"
   ],
   "note": "For libraries satisfying `AccurateInverse` and `AccurateProjection`; ranges of the position in `WritesNear`."
  },
  {
   "property": "C113",
   "status": "proved",
   "theorems": [
    "Geo.C113_karney_direct"
   ],
   "note": "For libraries satisfying `AccurateGeodesic` (which `geodesicLibm`, a correctly rounded library, satisfies). The error is mixed: the returned end is near the end of an exact geodesic whose start and direction are near the given ones; C114 turns it into a forward error."
  },
  {
   "property": "C114",
   "status": "proved",
   "theorems": [
    "Geo.C114_karney_forward",
    "Geo.C114_karney_lipschitz"
   ],
   "note": "For libraries satisfying `AccurateGeodesic`. `C114_karney_forward`: error against the one geodesic of the given start and azimuth. `C114_karney_lipschitz`: response of the answer to a change of start and azimuth."
  },
  {
   "property": "C115",
   "status": "proved",
   "theorems": [
    "Geo.C115_karney_return"
   ],
   "note": "For libraries satisfying `AccurateGeodesic`. The end reached must have a latitude with cosine at least 0.1, as every start of C113."
  },
  {
   "property": "C116",
   "status": "proved",
   "theorems": [
    "Geo.C116_karney_stages"
   ],
   "note": "For libraries satisfying `AccurateGeodesic`. The distances of the stages need not add up exactly in doubles: what they miss is part of the bound."
  },
  {
   "property": "C117",
   "status": "proved",
   "theorems": [
    "Geo.C117_vincenty_direct"
   ],
   "note": "For libraries satisfying `AccurateVincenty` (Spec/AccurateVincenty.lean); `geodesicLibm` shows that there is one. Starts within 5.8 degrees of a pole are not covered. The bound on the azimuth is multiplied by the cosine of the returned latitude, as the azimuth has no meaning at a pole."
  },
  {
   "property": "C118",
   "status": "proved",
   "theorems": [
    "Geo.C118_direct_solvers_agree"
   ],
   "note": "For libraries satisfying `AccurateVincenty`. Starts within 5.8 degrees of a pole are not covered. The difference of the azimuths is multiplied by the smaller cosine of the two returned latitudes."
  },
  {
   "property": "C119",
   "status": "proved",
   "theorems": [
    "Geo.C119_vincenty_stages"
   ],
   "note": "For libraries satisfying `AccurateVincenty`. Starts and intermediate points within 5.8 degrees of a pole are not covered. With s2 = -s1 and s = 0 this is the way there and back."
  }
 ]
}