{"id": "C01", "title": "Longitude wrapping: range and congruence", "statement": "Lon::new(a) (and Lon::rad, Lon::deg, Lon +/- Angle, Lon * and / scalar) returns a longitude in [-pi, pi] whose angle differs from the requested angle by a whole number of turns, and leaves angles already in (-pi, pi) unchanged. Float operations are read as exact real arithmetic with NaN and infinities (no rounding).", "quantifier": "every finite angle, every finite scalar", "why_tests_cant": "the input set is a continuum; tests sample a handful of angles and never the turn boundaries of every winding number", "anchors": ["geokit/src/cs/geodetic.rs: Lon::new, Lon::rad, Lon::deg, Add/Sub/Mul/Div for Lon", "geokit/src/quantities/angle.rs: Angle::wrapped", "geokit/src/math/fp.rs: remainder"]}
{"id": "C02", "title": "Longitude range in IEEE arithmetic", "statement": "Lon::new(a) never yields a longitude outside [-PI, PI] for a finite f64 angle. Float operations are IEEE-754 binary64 with rounding, NaN, infinities and signed zero; libm functions arbitrary unless stated.", "quantifier": "every finite f64 angle", "why_tests_cant": "only a proof over the rounding semantics (or 2^64 runs) can settle it; the failing inputs are isolated doubles near odd multiples of pi and huge angles", "anchors": ["geokit/src/cs/geodetic.rs: Lon::new", "geokit/src/quantities/angle.rs: Angle::wrapped", "geokit/src/math/fp.rs: remainder"]}
{"id": "C03", "title": "Angle normalisation is a canonical form", "statement": "Angle::normalized maps every angle into (-pi, pi], differs from its input by whole turns, is idempotent, and two angles normalise to the same value exactly when they differ by a whole number of turns; the in-place Angle::normalize does the same. Float operations are read as exact real arithmetic with NaN and infinities (no rounding).", "quantifier": "every pair of finite angles", "why_tests_cant": "equivalence over all winding numbers cannot be enumerated", "anchors": ["geokit/src/quantities/angle.rs: Angle::normalized, Angle::normalize"]}
{"id": "C04", "title": "Oriented angle difference", "statement": "a.diff_to(b) is in (-pi, pi], adding it to a gives an angle equal to b up to whole turns, it is the smallest such rotation in absolute value, and b.diff_to(a) = -a.diff_to(b) unless a and b are opposite, when both are pi. Float operations are read as exact real arithmetic with NaN and infinities (no rounding).", "quantifier": "every pair of finite angles", "why_tests_cant": "all pairs of angles, including opposite directions and pairs many turns apart", "anchors": ["geokit/src/quantities/angle.rs: Angle::diff_to", "geokit/src/cs/geodetic.rs: Sub for Lon", "geokit/src/cs/azimuth.rs: Sub for Azimuth"]}
{"id": "C05", "title": "Azimuth arithmetic is the circle group", "statement": "Every Azimuth built by new/rad/deg/dms or by adding angles is in (-pi, pi]; (az + t) - az is t normalised; az2 + (az1 - az2) = az1; adding angles in sequence equals adding their sum. Float operations are read as exact real arithmetic with NaN and infinities (no rounding).", "quantifier": "every azimuth and every finite sequence of finite angles", "why_tests_cant": "sequences of operations of any length", "anchors": ["geokit/src/cs/azimuth.rs: Azimuth::new, Add<Angle>, Sub"]}
{"id": "C06", "title": "Latitude range is an invariant of the API in IEEE arithmetic", "statement": "Any Lat obtained from the constants, constructors and operators of the public API, composed in any order, is NaN or lies in [-FRAC_PI_2, FRAC_PI_2]. Float operations are IEEE-754 binary64 with rounding, NaN, infinities and signed zero; libm functions arbitrary unless stated.", "quantifier": "every finite sequence of public operations on latitudes with arbitrary f64 operands", "why_tests_cant": "op sequences and operands are unbounded; NaN and infinities are rarely exercised", "anchors": ["geokit/src/cs/geodetic.rs: Lat", "geokit/src/quantities/angle.rs: Angle::clamped"]}
{"id": "C07", "title": "Longitude range is an invariant of the API", "statement": "Any Lon obtained from constants, Lon::new/rad/deg/dms, negation, normalized and the arithmetic operators with finite operands, composed in any order, lies in [-pi, pi] and Lon::normalized of it lies in (-pi, pi]. Float operations are read as exact real arithmetic with NaN and infinities (no rounding).", "quantifier": "every finite sequence of public operations with finite operands", "why_tests_cant": "unbounded sequences of operations", "anchors": ["geokit/src/cs/geodetic.rs: Lon"]}
{"id": "C08", "title": "Latitude operations saturate", "statement": "Lat +/- Angle, Lat * and / scalar return the in-range latitude closest to the exact result; Lat::new is the identity on [-pi/2, pi/2] and is monotone. Float operations are read as exact real arithmetic with NaN and infinities (no rounding).", "quantifier": "every latitude and finite operand", "why_tests_cant": "continuum of operands around both clamping bounds", "anchors": ["geokit/src/cs/geodetic.rs: Lat::new, Add/Sub/Mul/Div for Lat", "geokit/src/quantities/angle.rs: Angle::clamped"]}
{"id": "C09", "title": "Unit conversion round trips", "statement": "For every angle unit and length unit with a non-zero ratio, Angle::new(v, u).val(u) = v and Length::new(v, u).val(u) = v, and val(u2) of a quantity given in u1 rescales by the ratio of the units. Float operations are read as exact real arithmetic with NaN and infinities (no rounding). In f64, metres and radians are stored and returned bit for bit.", "quantifier": "every finite value and every unit with non-zero numerator and denominator", "why_tests_cant": "all values and all user-defined units", "anchors": ["geokit/src/quantities/angle.rs: Angle::new, Angle::val", "geokit/src/quantities/length.rs: Length::new, Length::val", "geokit/src/units/angle.rs", "geokit/src/units/length.rs"]}
{"id": "C10", "title": "Degree-minute-second decomposition", "statement": "Angle::dms returns (d, m, s) with |d| the whole number of degrees, m whole minutes in [0, 59], s in [0, 60), such that |d| + m/60 + s/3600 is the magnitude of the angle in degrees to within 1e-8 minute and d carries the sign. Float operations are read as exact real arithmetic with NaN and infinities (no rounding).", "quantifier": "every finite angle", "why_tests_cant": "the rounding branch is taken on thin sets of angles around every whole minute", "anchors": ["geokit/src/quantities/angle.rs: Angle::dms, Dms"]}
{"id": "C11", "title": "DMS constructors", "statement": "Lon::dms, Lat::dms and Azimuth::dms return sign(d)*(|d| + m/60 + s/3600) degrees wrapped / clamped / normalised for every admissible d, m, s and, in debug builds, reject exactly the out-of-range components. Float operations are read as exact real arithmetic with NaN and infinities (no rounding).", "quantifier": "every triple (d, m, s)", "why_tests_cant": "three continuous parameters and two build modes", "anchors": ["geokit/src/cs/geodetic.rs: Lon::dms, Lat::dms", "geokit/src/cs/azimuth.rs: Azimuth::dms"]}
{"id": "C12", "title": "Circle intervals: classification and length", "statement": "Interval::new(lo, hi) has a length in [0, 2pi] congruent to hi - lo modulo 2pi; full and empty intervals are recognised exactly; singletons have length 0 and are neither empty nor full; an interval built by new never starts at -pi unless it is full; it is inverted exactly when walking along its length from the lower bound crosses the direction +-pi (the empty interval counts as inverted). Float operations are read as exact real arithmetic with NaN and infinities (no rounding).", "quantifier": "every pair of finite angles", "why_tests_cant": "all pairs of bounds, including equal and antipodal ones", "anchors": ["geokit/src/cs/s1.rs: Interval"]}
{"id": "C13", "title": "Approximate equality relations", "statement": "abs_diff_eq on Angle, Length, Lat, Lon and Azimuth and approx_eq on LLH, XYZ and ENH are reflexive for a non-negative tolerance, symmetric, monotone in the tolerance, and on Lon/Azimuth ignore whole turns. Float operations are read as exact real arithmetic with NaN and infinities (no rounding).", "quantifier": "every pair of values and every tolerance", "why_tests_cant": "all pairs", "anchors": ["geokit/src/quantities/angle.rs: AbsDiffEq", "geokit/src/quantities/length.rs: AbsDiffEq", "geokit/src/cs/geodetic.rs: AbsDiffEq, LLH::approx_eq", "geokit/src/cs/azimuth.rs: AbsDiffEq", "geokit/src/cs/cartesian/geocentric.rs: XYZ::approx_eq", "geokit/src/cs/cartesian/projected.rs: ENH::approx_eq"]}
{"id": "C14", "title": "Geodetic axes round trip", "statement": "For each of the five geodetic axis systems, normalize(denormalize(llh)) = llh (height replaced by 0 on 2D axes) and denormalize(normalize(c)) = c on in-range coordinates: no axis order, direction or unit is lost or swapped. Float operations are read as exact real arithmetic with NaN and infinities (no rounding).", "quantifier": "every axis system, every unit with non-zero ratio, every in-range coordinate", "why_tests_cant": "five variants times all units times all coordinates", "anchors": ["geokit/src/cs/geodetic.rs: GeodeticAxes::normalize, GeodeticAxes::denormalize"]}
{"id": "C15", "title": "Axis conversions touch exactly dim slots", "statement": "normalize of every axis system reads only the first dim() coordinates and denormalize overwrites exactly the first dim() slots of the caller's buffer, leaving the rest and the length unchanged; both panic exactly when the buffer is shorter than dim(). Holds whatever the float operations return, hence for f64 with any libm.", "quantifier": "every axis system, buffer of any length, any float semantics", "why_tests_cant": "buffers of every length", "anchors": ["geokit/src/cs/geodetic.rs: GeodeticAxes", "geokit/src/cs/cartesian/geocentric.rs: GeocentricAxes", "geokit/src/cs/cartesian/projected.rs: ProjectedAxes"]}
{"id": "C16", "title": "Geocentric and projected axes round trip", "statement": "normalize and denormalize of GeocentricAxes and ProjectedAxes are mutually inverse (height replaced by 0 on 2D projected axes). Float operations are read as exact real arithmetic with NaN and infinities (no rounding). For GeocentricAxes also bit for bit in f64.", "quantifier": "every axis system, unit and coordinate", "why_tests_cant": "all coordinates and units", "anchors": ["geokit/src/cs/cartesian/geocentric.rs", "geokit/src/cs/cartesian/projected.rs"]}
{"id": "C17", "title": "Denormalised tolerances line up with coordinates", "statement": "Comparing two positions with Crs::approx_eq under axes.denormalize_tol(tol) is the same as comparing longitude, latitude and height (or easting, northing, height, or x, y, z) differences with the matching component of tol, for every axis order and unit. Float operations are read as exact real arithmetic with NaN and infinities (no rounding).", "quantifier": "every axis system with positive units, every pair of positions, every tolerance", "why_tests_cant": "every axis permutation and unit; tests use one axis system", "anchors": ["geokit/src/cs/geodetic.rs: GeodeticAxes::denormalize_tol", "geokit/src/cs/cartesian/geocentric.rs: denormalize_tol", "geokit/src/cs/cartesian/projected.rs: denormalize_tol", "geokit/src/crs/mod.rs: Crs::approx_eq"]}
{"id": "C18", "title": "Crs::approx_eq contract", "statement": "Crs::approx_eq panics exactly when a or b does not have dim() coordinates or tol is consulted past its end, and otherwise returns whether every axis satisfies |a_i - b_i| <= tol_i; extra tolerances are ignored. Holds whatever the float operations return, hence for f64 with any libm.", "quantifier": "every slice a, b, tol and CRS dimension", "why_tests_cant": "slices of any length, NaN coordinates", "anchors": ["geokit/src/crs/mod.rs: Crs::approx_eq"]}
{"id": "C19", "title": "Cartesian distances are metrics", "statement": "dist on geocentric, projected (2D and 3D) and 3D geographic CRS, and XYZ/ENH::dist_to, equal the Euclidean distance in metres: non-negative, zero exactly for positions with the same normalised coordinates, symmetric and satisfying the triangle inequality; dist panics exactly on wrong-length inputs. Float operations are read as exact real arithmetic with NaN and infinities (no rounding).", "quantifier": "every triple of positions", "why_tests_cant": "triangle inequality over all triples", "anchors": ["geokit/src/cs/cartesian/geocentric.rs: XYZ::dist_to", "geokit/src/cs/cartesian/projected.rs: ENH::dist_to", "geokit/src/crs/geocentric.rs: dist", "geokit/src/crs/projected.rs: dist", "geokit/src/crs/geographic.rs: dist"]}
{"id": "C20", "title": "Distance of a point to itself", "statement": "crs.dist(a, a) = Ok(0) for every CRS and every valid position. Float operations are read as exact real arithmetic with NaN and infinities (no rounding).", "quantifier": "every CRS and position", "why_tests_cant": "all positions; the 2D geographic case goes through an iteration that divides by zero", "anchors": ["geokit/src/crs/geographic.rs: dist", "geokit/src/geodesy/geodesics/vincenty.rs: inverse"]}
{"id": "C21", "title": "Ellipsoid constructors accept exactly valid shapes", "statement": "Ellipsoid::from_ab panics unless b > 0 and a >= b; from_ainvf panics unless a > 0 and invf > 1 (NaN always panics); whenever construction succeeds with finite axes, 0 < b <= a, the flattening is in [0, 1) and e^2 is in [0, 1). Float operations are IEEE-754 binary64 with rounding, NaN, infinities and signed zero; libm functions arbitrary unless stated. (acceptance) / exact arithmetic (derived values).", "quantifier": "every pair of floats", "why_tests_cant": "all pairs, including NaN and infinities", "anchors": ["geokit/src/geodesy/ellipsoid.rs: Ellipsoid::from_ab, Ellipsoid::from_ainvf"]}
{"id": "C22", "title": "Ellipsoid parameters are mutually consistent", "statement": "For every constructed ellipsoid f = (a-b)/a, invf = a/(a-b) when a > b, n = f/(2-f), e^2 = f(2-f) = 1 - b^2/a^2, e'^2 = e^2/(1-e^2), and from_ab / from_ainvf of matching parameters give equal ellipsoids; is_spherical holds exactly when a = b. Float operations are read as exact real arithmetic with NaN and infinities (no rounding).", "quantifier": "every valid ellipsoid", "why_tests_cant": "two-parameter family", "anchors": ["geokit/src/geodesy/ellipsoid.rs: f, n, e_sq, e_prime_sq, is_spherical"]}
{"id": "C23", "title": "Radii of curvature", "statement": "prime_vertical_radius N and prime_meridional_radius M satisfy a <= N <= a^2/b, b^2/a <= M <= N with the end values at equator and poles, are even in latitude, non-decreasing in |lat|, and conformal_sphere_radius is sqrt(MN) between M and N. Float operations are read as exact real arithmetic with NaN and infinities (no rounding).", "quantifier": "every valid ellipsoid and latitude", "why_tests_cant": "continuum of latitudes and shapes", "anchors": ["geokit/src/geodesy/ellipsoid.rs: prime_vertical_radius, prime_meridional_radius, conformal_sphere_radius"]}
{"id": "C24", "title": "Auxiliary latitudes mean what they say", "statement": "For the surface point with geodetic latitude lat, its distance from the polar axis is a cos(beta) and its z is b sin(beta) for beta = reduced_latitude(lat), and z / axis distance = tan(geocentric_latitude(lat)); both are odd, strictly increasing, and |geocentric| <= |reduced| <= |lat|. Float operations are read as exact real arithmetic with NaN and infinities (no rounding).", "quantifier": "every valid ellipsoid and latitude strictly between the poles", "why_tests_cant": "continuum of latitudes and shapes", "anchors": ["geokit/src/geodesy/ellipsoid.rs: reduced_latitude, geocentric_latitude", "geokit/src/geodesy/geodetic_datum.rs: llh_to_xyz"]}
{"id": "C25", "title": "Equality of ellipsoids, prime meridians and datums", "statement": "Ellipsoid and PrimeMeridian equality ignore the name and compare the numbers; datum equality additionally requires the same id; each is symmetric and transitive, and reflexive when no component is NaN. Float operations are IEEE-754 binary64 with rounding, NaN, infinities and signed zero; libm functions arbitrary unless stated.", "quantifier": "every pair / triple of values", "why_tests_cant": "all values, including NaN parameters", "anchors": ["geokit/src/geodesy/ellipsoid.rs: PartialEq", "geokit/src/geodesy/prime_meridian.rs: PartialEq", "geokit/src/geodesy/geodetic_datum.rs: PartialEq"]}
{"id": "C26", "title": "Geodetic to geocentric conversion is the geometric one", "statement": "llh_to_xyz at height 0 lies on the datum's ellipsoid x^2/a^2 + y^2/a^2 + z^2/b^2 = 1, and at height h lies at h times the outward unit normal from that point, so at distance |h| from it. Float operations are read as exact real arithmetic with NaN and infinities (no rounding).", "quantifier": "every valid ellipsoid, longitude, latitude and height", "why_tests_cant": "continuum of positions and shapes", "anchors": ["geokit/src/geodesy/geodetic_datum.rs: llh_to_xyz"]}
{"id": "C27", "title": "Geodetic -> geocentric -> geodetic round trip", "statement": "xyz_to_llh(llh_to_xyz(llh)) returns the same latitude and height, and the same longitude up to whole turns when off the polar axis, for every position on the near side of the polar axis and equatorial plane (h > -(1-e^2)N) that maps outside the evolute, off the surface a^2 R^2 + b^2 z^2 = (a^2-b^2)^2 where the algorithm divides by zero; in particular at every height above -(1-2e^2)N. Float operations are read as exact real arithmetic with NaN and infinities (no rounding).", "quantifier": "every ellipsoid, prime meridian and position outside the evolute and off the degenerate surface", "why_tests_cant": "closed-form quartic solution; tests try a few points", "anchors": ["geokit/src/geodesy/geodetic_datum.rs: llh_to_xyz, xyz_to_llh"]}
{"id": "C28", "title": "Geocentric -> geodetic -> geocentric round trip", "statement": "llh_to_xyz(xyz_to_llh(p)) = p for every geocentric position on or outside the evolute of the ellipsoid, including the polar axis, except on the surface a^2 R^2 + b^2 z^2 = (a^2-b^2)^2 where the algorithm divides by zero. Float operations are read as exact real arithmetic with NaN and infinities (no rounding).", "quantifier": "every ellipsoid, prime meridian and position outside the evolute and off the degenerate surface", "why_tests_cant": "continuum of positions", "anchors": ["geokit/src/geodesy/geodetic_datum.rs: llh_to_xyz, xyz_to_llh"]}
{"id": "C29", "title": "Spherical datum round trips", "statement": "On a spherical datum both conversions are mutually inverse (every position but the centre; longitude up to whole turns and arbitrary at the poles). Float operations are read as exact real arithmetic with NaN and infinities (no rounding).", "quantifier": "every radius, position", "why_tests_cant": "continuum of positions", "anchors": ["geokit/src/geodesy/geodetic_datum.rs: llh_to_xyz, xyz_to_llh (spherical branch)"]}
{"id": "C30", "title": "Prime meridian shift", "statement": "llh_to_xyz on a datum with prime meridian lon0 equals llh_to_xyz on the same ellipsoid with Greenwich of the position with lon0 added to its longitude, as documented (EPSG 4.1.1). PrimeMeridian::new stores the longitude in (-180, 180] degrees without changing its direction. Float operations are read as exact real arithmetic with NaN and infinities (no rounding).", "quantifier": "every ellipsoid (spherical or not), prime meridian and position", "why_tests_cant": "all prime meridians; tests only use Greenwich on spheres", "anchors": ["geokit/src/geodesy/geodetic_datum.rs: llh_to_xyz, xyz_to_llh"]}
{"id": "C31", "title": "Geocentric conversion never yields NaN", "statement": "xyz_to_llh returns a finite height and an in-range latitude and longitude for every finite geocentric position. Float operations are read as exact real arithmetic with NaN and infinities (no rounding).", "quantifier": "every valid ellipsoid and finite position", "why_tests_cant": "the failing set is a thin region at the centre of the Earth", "anchors": ["geokit/src/geodesy/geodetic_datum.rs: xyz_to_llh"]}
{"id": "C32", "title": "Web Mercator round trips", "statement": "unproj(proj(llh)) = llh up to whole turns of longitude for every latitude strictly between the poles, and proj(unproj(enh)) = enh whenever the easting is within half a world width of the false easting. Float operations are read as exact real arithmetic with NaN and infinities (no rounding).", "quantifier": "every a > 0, lon0, false origin, position", "why_tests_cant": "continuum of positions", "anchors": ["geokit/src/projections/cyl/web_mercator.rs: WebMercator::proj, WebMercator::unproj"]}
{"id": "C33", "title": "Web Mercator shape", "statement": "proj maps the origin meridian to the false easting and the equator to the false northing, easting is linear in the longitude difference and northing is strictly increasing and odd in latitude. Float operations are read as exact real arithmetic with NaN and infinities (no rounding).", "quantifier": "every latitude and longitude", "why_tests_cant": "monotonicity over a continuum", "anchors": ["geokit/src/projections/cyl/web_mercator.rs"]}
{"id": "C34", "title": "Mercator round trips", "statement": "unproj(proj(llh)) = llh for Mercator 1SP/2SP: longitude and height exactly for every ellipsoid; latitude exactly on a sphere and with an error of at most 1.5 e^10 radians when e^2 <= 1/50 (2.1e-11 radians on WGS84). Float operations are read as exact real arithmetic with NaN and infinities (no rounding).", "quantifier": "every ellipsoid, standard parallel, false origin and position", "why_tests_cant": "continuum of positions and parameters", "anchors": ["geokit/src/projections/cyl/mercator.rs: Mercator::proj, Mercator::unproj, new_1_sp, new_2_sp"]}
{"id": "C35", "title": "Mercator shape and scale", "statement": "Mercator easting is linear in longitude difference, northing is strictly increasing and odd in latitude, the equator maps to the false northing; the 2SP variant has unit scale on its standard parallel (k0 * a = N(lat0) cos(lat0)) and does not depend on the sign of the standard parallel. Float operations are read as exact real arithmetic with NaN and infinities (no rounding).", "quantifier": "every ellipsoid and latitude", "why_tests_cant": "monotonicity and scale over continua", "anchors": ["geokit/src/projections/cyl/mercator.rs"]}
{"id": "C36", "title": "Transverse Mercator inverse terminates", "statement": "The fixed-point loop of unproj stops after finitely many steps for every finite easting and northing other than those of the poles, and the latitude it returns satisfies the defining equation of the conformal latitude to within e^2 * 1e-12 (in isometric latitude). On an easting or northing that is NaN or infinite the loop never ends. Float operations are read as exact real arithmetic with NaN and infinities (no rounding).", "quantifier": "every ellipsoid, origin, scale, easting and northing", "why_tests_cant": "unbounded loop: termination for all inputs is a liveness property", "anchors": ["geokit/src/projections/cyl/transverse_mercator.rs: unproj"]}
{"id": "C37", "title": "Transverse Mercator symmetry", "statement": "proj maps the central meridian to the false easting; reflecting the longitude about the central meridian negates easting offset and keeps northing; (for origin on the equator) reflecting the latitude negates the northing offset and keeps easting. Float operations are read as exact real arithmetic with NaN and infinities (no rounding).", "quantifier": "every ellipsoid, origin and position", "why_tests_cant": "continuum of positions", "anchors": ["geokit/src/projections/cyl/transverse_mercator.rs: proj"]}
{"id": "C38", "title": "Spherical transverse Mercator round trip", "statement": "On a sphere, unproj(proj(llh)) = llh for every position within 90 degrees of the central meridian (poles excluded), and proj(unproj(enh)) = enh for northings within a quarter meridian of the equator, for every origin and scale. Beyond 90 degrees the position comes back mirrored, without an error. Float operations are read as exact real arithmetic with NaN and infinities (no rounding).", "quantifier": "every radius, origin, scale, position", "why_tests_cant": "continuum of positions", "anchors": ["geokit/src/projections/cyl/transverse_mercator.rs: proj, unproj"]}
{"id": "C39", "title": "UTM zone geometry", "statement": "UTM zone z (1..60) has central meridian 6z - 183 degrees, as in the UTM standard, and the zone number of a longitude is the z whose central meridian is at most 3 degrees away. Float operations are read as exact real arithmetic with NaN and infinities (no rounding).", "quantifier": "every zone 1..60, every longitude", "why_tests_cant": "statement about the standard, for every zone", "anchors": ["geokit/src/projections/cyl/transverse_mercator.rs: utm_lon0, utm_zone, new_utm_north, new_utm_south"]}
{"id": "C40", "title": "UTM north and south differ only by the false northing", "statement": "For the same zone and ellipsoid, the southern projection yields the northern easting and height, and the northern northing plus 10 000 000 m; unproj undoes the same offset. Float operations are read as exact real arithmetic with NaN and infinities (no rounding).", "quantifier": "every zone, ellipsoid, position", "why_tests_cant": "all positions", "anchors": ["geokit/src/projections/cyl/transverse_mercator.rs: new_utm_north, new_utm_south", "geokit/src/projections/mod.rs: ProjectionSpec::applied_to"]}
{"id": "C41", "title": "Projections never report an error and pass the height through", "statement": "For every ProjectionSpec applied to any ellipsoid, proj never returns Err, unproj never returns Err, and both return the input height unchanged. Holds whatever the float operations return, hence for f64 with any libm.", "quantifier": "every spec, ellipsoid and input, including NaN", "why_tests_cant": "all inputs and all six variants", "anchors": ["geokit/src/projections/mod.rs: ProjectionSpec::applied_to", "geokit/src/projections/cyl/*.rs"]}
{"id": "C42", "title": "A coordinate transformation backwards is the swapped transformation forwards", "statement": "bwd of CrsXYZTransformation::new(src, dst, s, d) computes exactly fwd of new(dst, src, d, s): same output, same error, same panics. Holds whatever the float operations return, hence for f64 with any libm.", "quantifier": "every pair of CRS, transformation, input and output buffer", "why_tests_cant": "all pairs of CRS types", "anchors": ["geokit/src/transformations/xyz.rs: CrsXYZTransformation::fwd, CrsXYZTransformation::bwd"]}
{"id": "C43", "title": "Transformations write only the destination coordinates and never fail", "statement": "fwd/bwd with long enough buffers always return Ok, overwrite exactly the first dim() slots of the output, leave the rest unchanged, and depend only on the first dim() input coordinates; they panic exactly when a buffer is too short. Holds whatever the float operations return, hence for f64 with any libm. (The transverse Mercator inverse must terminate.)", "quantifier": "every CRS pair, buffers of any length", "why_tests_cant": "buffers of every length, all CRS combinations", "anchors": ["geokit/src/transformations/xyz.rs: ToXYZ, CrsXYZTransformation"]}
{"id": "C44", "title": "CRS transformation round trip", "statement": "With identity or translation datum shifts, bwd(fwd(c)) = c between geocentric, geographic and (spherical or Web) Mercator CRS on the domains of the individual conversions. Float operations are read as exact real arithmetic with NaN and infinities (no rounding).", "quantifier": "every CRS pair and in-domain position", "why_tests_cant": "composition over all CRS pairs", "anchors": ["geokit/src/transformations/xyz.rs: CrsXYZTransformation"]}
{"id": "C45", "title": "Geocentric translation is invertible", "statement": "from_ref(to_ref(p)) = p and to_ref(from_ref(p)) = p, and to_ref shifts every point by the same vector. Float operations are read as exact real arithmetic with NaN and infinities (no rounding).", "quantifier": "every translation and point", "why_tests_cant": "all points", "anchors": ["geokit/src/transformations/xyz.rs: GeocentricTranslation"]}
{"id": "C46", "title": "Helmert transformation: inverse and residual", "statement": "from_ref(to_ref(p)) = p for the 7-parameter transformation, up to a residual bounded by the square of the rotation and scale parameters times |p| plus their product with the translation; it is exact for a pure translation. Float operations are read as exact real arithmetic with NaN and infinities (no rounding).", "quantifier": "every rotation, translation, scale and point", "why_tests_cant": "seven real parameters and all points", "anchors": ["geokit/src/transformations/xyz.rs: Helmert7Params"]}
{"id": "C47", "title": "Rotation conventions are opposite", "statement": "Helmert7Params::new with CoordinateFrame and rotation r behaves identically to PositionVector with rotation -r, in both directions. Float operations are IEEE-754 binary64 with rounding, NaN, infinities and signed zero; libm functions arbitrary unless stated.", "quantifier": "every rotation, translation, scale, point", "why_tests_cant": "all parameters", "anchors": ["geokit/src/transformations/xyz.rs: RotationConvention, Helmert7Params::new"]}
{"id": "C48", "title": "Polynomial evaluation", "statement": "Polynomial::eval_at and fast_eval_at return sum c_i x^i for polynomials of any degree, over reals and over complex numbers. Float operations are read as exact real arithmetic with NaN and infinities (no rounding).", "quantifier": "every coefficient list and argument", "why_tests_cant": "all degrees", "anchors": ["geokit/src/math/polynomial.rs: eval_at, fast_eval_at"]}
{"id": "C49", "title": "Clenshaw summation", "statement": "clenshaw_sin_sum(c, x) = sum_k c_k sin(k x) for coefficient slices of any length. Float operations are read as exact real arithmetic with NaN and infinities (no rounding).", "quantifier": "every coefficient list and angle", "why_tests_cant": "all lengths", "anchors": ["geokit/src/math/fp.rs: clenshaw_sin_sum"]}
{"id": "C50", "title": "Complex arithmetic", "statement": "Complex +, -, *, conj, abs, arg, inv and / are the field operations of the complex numbers; inv and / return Err exactly for a zero divisor; arg is in (-pi, pi]. Float operations are read as exact real arithmetic with NaN and infinities (no rounding).", "quantifier": "every pair of complex numbers", "why_tests_cant": "all pairs", "anchors": ["geokit/src/math/complex.rs"]}
{"id": "C51", "title": "Two-sum is error free", "statement": "fp::sum(a, b) = (x, y) where x is the rounded sum and x + y = a + b exactly, whenever no intermediate overflows. Float operations are IEEE-754 binary64 with rounding, NaN, infinities and signed zero; libm functions arbitrary unless stated.", "quantifier": "every pair of finite f64 without overflow", "why_tests_cant": "2^128 pairs", "anchors": ["geokit/src/math/fp.rs: sum"]}
{"id": "C52", "title": "Point construction", "statement": "Point::new panics exactly for positions that do not have 2 or 3 coordinates; otherwise dereferencing returns exactly the coordinates given, and geometry_type / is_cycle / boundary report a 0-dimensional boundaryless geometry of that coordinate dimension. Holds whatever the float operations return, hence for f64 with any libm.", "quantifier": "every coordinate slice", "why_tests_cant": "slices of every length", "anchors": ["geokit/src/geometry/primitive/point.rs: Point"]}
{"id": "C53", "title": "Line string builder invariant", "statement": "After with_line and any sequence of line_to calls that return Ok, build() yields a line string whose control positions are the given positions in order, whose stored segment lengths are the CRS distances between consecutive positions, with one length less than positions; any failing call has a wrong coordinate count or a failing CRS distance. Holds whatever the float operations return, hence for f64 with any libm.", "quantifier": "every CRS, every finite sequence of line_to calls", "why_tests_cant": "sequences of any length", "anchors": ["geokit/src/geometry/coordinate/curve/line_string.rs: LineStringBuilder"]}
{"id": "C54", "title": "Closing a line string", "statement": "close() on a builder appends exactly the start position, so the result's end equals its start and all earlier positions are kept; it fails exactly when the CRS distance fails. Holds whatever the float operations return, hence for f64 with any libm.", "quantifier": "every builder state", "why_tests_cant": "builders of any size", "anchors": ["geokit/src/geometry/coordinate/curve/line_string.rs: close"]}
{"id": "C55", "title": "Arc-length parameterisation of line strings", "statement": "param(crs, 0) = start, param(crs, length) = end, param(s) lies on the segment reached after arc length s, and the distance along the line from start to param(s) is s in a Cartesian CRS; param panics exactly for s > length. Float operations are read as exact real arithmetic with NaN and infinities (no rounding).", "quantifier": "every line string with positive segment lengths and every s in [0, length]", "why_tests_cant": "all line strings of any number of segments and all parameters", "anchors": ["geokit/src/geometry/coordinate/curve/line_string.rs: param", "geokit/src/geometry/coordinate/curve/mod.rs: ParameterizedCurve"]}
{"id": "C56", "title": "Documented parameterisation contract in IEEE arithmetic", "statement": "For every line string, param(crs, 0) returns start() and param(crs, length()) returns end() (the trait's documented 'must hold'). Float operations are IEEE-754 binary64 with rounding, NaN, infinities and signed zero; libm functions arbitrary unless stated.", "quantifier": "every line string built by the public builder", "why_tests_cant": "depends on rounding of every partial sum of lengths and on zero-length segments", "anchors": ["geokit/src/geometry/coordinate/curve/line_string.rs: param", "geokit/src/geometry/coordinate/curve/mod.rs: ParameterizedCurve::param"]}
{"id": "C57", "title": "Curve builder keeps segments connected", "statement": "Every curve obtained from with_seg and any sequence of successful append_segment calls has each segment starting where the previous one ends; append_segment fails exactly for a dimension mismatch or a gap, and never drops or reorders segments. Holds whatever the float operations return, hence for f64 with any libm.", "quantifier": "every finite sequence of append_segment calls", "why_tests_cant": "sequences of any length", "anchors": ["geokit/src/geometry/primitive/curve.rs: CurveBuilder"]}
{"id": "C58", "title": "Curve dimension consistency", "statement": "The coordinate dimension reported by a built curve is the length of its start and end positions. Holds whatever the float operations return, hence for f64 with any libm.", "quantifier": "every curve built by the public builder", "why_tests_cant": "all builder histories and CRS/segment mismatches", "anchors": ["geokit/src/geometry/primitive/curve.rs: CurveBuilder::with_seg, Curve::coord_dim"]}
{"id": "C59", "title": "Curve boundary", "statement": "A curve is a cycle exactly when its first and last positions are equal; boundary() is None exactly for cycles and otherwise holds the start and end positions. Holds whatever the float operations return, hence for f64 with any libm.", "quantifier": "every curve", "why_tests_cant": "all curves", "anchors": ["geokit/src/geometry/primitive/curve.rs: is_cycle, boundary"]}
{"id": "C60", "title": "Curve length and parameterisation", "statement": "Curve::length is the sum of its segments' lengths; param dispatches s to the segment containing it, with param(0) = start and param(length) = end, and panics exactly for s > length. Float operations are read as exact real arithmetic with NaN and infinities (no rounding).", "quantifier": "every curve of positive-length segments and every s in [0, length]", "why_tests_cant": "curves with any number of segments", "anchors": ["geokit/src/geometry/primitive/curve.rs: Curve::length, Curve::param"]}
{"id": "C61", "title": "Geodesic solvers are bounded and echo their input", "statement": "Vincenty and Rapp direct/inverse perform at most 30 iterations and return either Err or a geodesic whose start point, and azimuth+length (direct) or end point (inverse), are bit for bit the arguments. Holds whatever the float operations return, hence for f64 with any libm.", "quantifier": "every ellipsoid and input, any float semantics", "why_tests_cant": "all inputs incl. NaN; termination", "anchors": ["geokit/src/geodesy/geodesics/vincenty.rs", "geokit/src/geodesy/geodesics/rapp.rs", "geokit/src/geodesy/geodesics/karney.rs"]}
{"id": "C62", "title": "Vincenty inverse converged result", "statement": "When the Vincenty inverse returns Ok, the last two longitude iterates differ by less than 1e-12 and are linked by Vincenty's equation (11), the returned length and azimuths are those of his equations (19)-(21) for them, and swapping the end points also returns Ok with the same distance. Float operations are read as exact real arithmetic with NaN and infinities (no rounding).", "quantifier": "every ellipsoid and pair of points", "why_tests_cant": "all pairs of points", "anchors": ["geokit/src/geodesy/geodesics/vincenty.rs: inverse"]}
{"id": "C63", "title": "Zero-length geodesic", "statement": "Direct solvers with s12 = 0 return the start point and the start azimuth. Float operations are read as exact real arithmetic with NaN and infinities (no rounding).", "quantifier": "every ellipsoid, start point off the poles, azimuth", "why_tests_cant": "continuum of inputs", "anchors": ["geokit/src/geodesy/geodesics/vincenty.rs: direct", "geokit/src/geodesy/geodesics/karney.rs: direct", "geokit/src/geodesy/geodesics/rapp.rs: direct"]}
{"id": "C64", "title": "Geodesics on a sphere are great circles", "statement": "On a spherical ellipsoid the direct solvers return the great-circle end point (unit vectors satisfy p2 = cos(s/a) p1 + sin(s/a) t; for the Rapp solver, if the end point is not a pole) and the Vincenty inverse returns a times the central angle for points that are neither equal nor antipodal. Float operations are read as exact real arithmetic with NaN and infinities (no rounding).", "quantifier": "every radius, start point off the poles, azimuth and distance", "why_tests_cant": "continuum of inputs", "anchors": ["geokit/src/geodesy/geodesics/vincenty.rs", "geokit/src/geodesy/geodesics/karney.rs", "geokit/src/geodesy/geodesics/rapp.rs"]}
{"id": "C65", "title": "Clairaut's relation", "statement": "Every direct geodesic returned by the Vincenty and Karney solvers satisfies cos(beta1) sin(alpha1) = cos(beta2) sin(alpha2) for the reduced latitudes beta. Float operations are read as exact real arithmetic with NaN and infinities (no rounding).", "quantifier": "every ellipsoid, start point off the poles, azimuth and distance", "why_tests_cant": "continuum of inputs", "anchors": ["geokit/src/geodesy/geodesics/vincenty.rs: direct", "geokit/src/geodesy/geodesics/karney.rs: direct"]}
{"id": "C66", "title": "Karney inverse is not available", "statement": "Every call of KarneyGeodesicSolver::solve_inverse panics (unimplemented!), although it is part of the GeodesicSolver interface; it never returns a geodesic nor an Err. Holds whatever the float operations return, hence for f64 with any libm.", "quantifier": "every input", "why_tests_cant": "absence of any succeeding input", "anchors": ["geokit/src/geodesy/geodesics/karney.rs: inverse"]}
{"id": "C67", "title": "Rapp solver internal formulas", "statement": "The short-line and long-line azimuth formulas of the Rapp solver agree for every line, and the multiple-angle terms are the cosines/sines of the multiples they name. Float operations are read as exact real arithmetic with NaN and infinities (no rounding).", "quantifier": "every line", "why_tests_cant": "all lines; thresholds at 1000 m and 10 000 m", "anchors": ["geokit/src/geodesy/geodesics/rapp.rs: direct, inverse"]}
{"id": "C68", "title": "Ellipsoid sampler", "statement": "s2_to_xyz maps unit vectors onto the ellipsoid and s2_to_ll returns the geodetic coordinates of that same point. Float operations are read as exact real arithmetic with NaN and infinities (no rounding).", "quantifier": "every unit vector, ellipsoid and unit", "why_tests_cant": "continuum of unit vectors", "anchors": ["geokit/src/bin/sample_s2.rs: s2_to_xyz, s2_to_ll"]}
{"id": "C69", "title": "Generic fixed-point helper", "statement": "If math::utils iteration returns, the last step changed every component by less than the tolerance and the result is the start plus the sum of the increments. Holds whatever the float operations return, hence for f64 with any libm.", "quantifier": "every function, start and tolerance", "why_tests_cant": "unbounded loop", "anchors": ["geokit/src/math/utils.rs: iter_fn"]}
{"id": "C70", "title": "Well-known constants are valid", "statement": "Every named ellipsoid satisfies the invariants of its constructor (0 < b <= a, invf > 1 and consistent), and every named prime meridian lies in (-180, 180] degrees; the one called a sphere is spherical. The named datums have the published semi-major axis and inverse flattening and count longitudes from Greenwich. Float operations are read as exact real arithmetic with NaN and infinities (no rounding).", "quantifier": "every named constant", "why_tests_cant": "constants bypass the checked constructors", "anchors": ["geokit/src/geodesy/ellipsoid.rs: consts", "geokit/src/geodesy/prime_meridian.rs: consts", "geokit/src/geodesy/geodetic_datum.rs: consts"]}
{"id": "C71", "title": "Distances along the equator", "statement": "For two points on the equator of an ellipsoid with f <= 1/3 whose longitudes differ by less than pi (1 - f), the Vincenty inverse converges and returns the semi-major axis times the longitude difference, within 1e-12 a. Float operations are read as exact real arithmetic with NaN and infinities (no rounding).", "quantifier": "every ellipsoid with f <= 1/3 and pair of equatorial points closer than the lift-off longitude", "why_tests_cant": "continuum of inputs; convergence within the iteration limit cannot be sampled", "anchors": ["geokit/src/geodesy/geodesics/vincenty.rs: inverse"]}
{"id": "C72", "title": "Vincenty direct solver: meaning of a returned geodesic", "statement": "Whenever the Vincenty direct solver returns, the end point and azimuth are those of the arc of great circle on the auxiliary sphere (latitudes are reduced latitudes) of a length sigma that satisfies Vincenty's equations (6) and (7) with an error below 1e-12, and the longitude is reduced by his equation (11). Float operations are read as exact real arithmetic with NaN and infinities (no rounding).", "quantifier": "every ellipsoid, start point off the poles, azimuth and distance", "why_tests_cant": "continuum of inputs and number of iterations", "anchors": ["geokit/src/geodesy/geodesics/vincenty.rs: direct"]}
{"id": "C73", "title": "Azimuth at the end is the direction of travel", "statement": "On a spherical ellipsoid the azimuth returned by the direct solvers is, at an end point off the poles, the direction of the great circle there, for distances of any length and sign. Float operations are read as exact real arithmetic with NaN and infinities (no rounding).", "quantifier": "every radius, start point off the poles, azimuth and distance", "why_tests_cant": "continuum of inputs", "anchors": ["geokit/src/geodesy/geodesics/vincenty.rs: direct", "geokit/src/geodesy/geodesics/karney.rs: direct", "geokit/src/geodesy/geodesics/rapp.rs: direct"]}
{"id": "C74", "title": "Karney direct solver: meaning of the returned geodesic", "statement": "The Karney direct solver returns the end of the arc of great circle on the auxiliary sphere whose length comes from the distance by the published series (15), (17), (18), (20), (21), with the longitude reduced by the series (23) to (25). Float operations are read as exact real arithmetic with NaN and infinities (no rounding).", "quantifier": "every ellipsoid, start point off the poles, azimuth and distance", "why_tests_cant": "continuum of inputs; 50 series coefficients", "anchors": ["geokit/src/geodesy/geodesics/karney.rs: direct, A1, I1, Sigma, A3, I3, solve_triangle_from_p, solve_triangle_from_e"]}
{"id": "C75", "title": "Rapp direct solver: meaning of a returned geodesic", "statement": "Whenever the Rapp direct solver returns, for an ellipsoid with a <= 2b and an end point off the poles, the end point has the reduced latitude of the arc sigma given by Rapp's series with an error below 0.5e-14, the longitude of that arc reduced by his series, and an azimuth along that arc up to the sign of sin(sigma). Float operations are read as exact real arithmetic with NaN and infinities (no rounding).", "quantifier": "every ellipsoid with a <= 2b, start point off the poles, azimuth and distance", "why_tests_cant": "continuum of inputs and number of iterations", "anchors": ["geokit/src/geodesy/geodesics/rapp.rs: direct"]}
{"id": "C76", "title": "Geodesic checks accept exactly the results within tolerance", "statement": "check_direct returns normally exactly when the end longitude and end azimuth differ, as directions on the circle, by at most their tolerances and the end latitude differs by at most its tolerance, and panics otherwise; check_inverse likewise for both azimuths (on the circle) and the length (exact arithmetic). In IEEE arithmetic a NaN in any compared number, computed or expected, always panics.", "quantifier": "every pair of geodesics and every tolerance; for the NaN part every f64 bit pattern of the other fields", "why_tests_cant": "the checks are themselves the test oracle: a check that lets wrong results pass makes every test green", "anchors": ["geokit/src/geodesy/geodesics/mod.rs: check_direct, check_inverse"]}
{"id": "C77", "title": "The text of a value shows its components", "statement": "Given a faithful formatting of single floats, equal Display texts of Length, Angle, Interval, LLH, XYZ, ENH mean equal numbers shown; Ellipsoid, PrimeMeridian, GeodeticDatum likewise for given names; the text of a Geodesic determines both end points, azimuths (to the precision of their degree-minute-second format), difference of longitudes and length. VIOLATED for Geodesic: the start longitude is printed in place of the start latitude.", "quantifier": "every value, every faithful float formatting", "why_tests_cant": "injectivity over all values; no test prints two geodesics that differ in one field only", "anchors": ["geokit/src/geodesy/geodesics/mod.rs:10", "geokit/src/cs/geodetic.rs: LLH Display", "geokit/src/quantities/angle.rs: Display"]}
{"id": "C78", "title": "Karney direct solver returns the end of the true geodesic", "statement": "For an oblate ellipsoid with n = (a-b)/(a+b) <= 1/100, a start that is not a pole, any azimuth and any signed distance s: there is exactly one unit-speed geodesic of the ellipsoid surface (a curve in space whose acceleration is normal to the surface) with this start and this initial direction, and the direct solver returns a surface point within n^7 (5 a + 14 |s|) of the point of that geodesic at distance s. The returned end azimuth, as a direction in space at the returned point, is within n^7 (5 + 14 |s|/a) of the velocity of the geodesic. For WGS84 and 10,000 km this is less than 1e-11 m. Exact arithmetic.", "quantifier": "all oblate ellipsoids with n <= 1/100, all starts off the poles, all azimuths and distances", "why_tests_cant": "Tests compare a few lines with published tables. That the series coefficients are right for every start, azimuth, length and flattening, relative to the definition of a geodesic and not to another series, needs a proof.", "anchors": ["geokit/src/geodesy/geodesics/karney.rs: direct, A1, I1, Sigma, A3, I3, solve_triangle_from_p, solve_triangle_from_e"]}
{"id": "C79", "title": "Vincenty direct solver always returns, and returns the end of the true geodesic", "statement": "For an oblate ellipsoid with flattening f <= 1/50, a start that is not a pole, any azimuth and any signed distance s: the Vincenty direct solver returns a result (never the non-convergence error), and the returned surface point is within f^4 (0.22 |s| + a/400) + 1e-12 f a of the point at distance s on the geodesic of the surface with this start and initial direction. The returned end azimuth, as a direction in space at the returned point, is within f^4 (0.22 |s|/a + 1/400) + 1e-12 f of the velocity of the geodesic. For WGS84 and 10,000 km this is less than 0.3 mm. Exact arithmetic.", "quantifier": "all oblate ellipsoids with f <= 1/50, all starts off the poles, all azimuths and distances", "why_tests_cant": "Tests compare a few lines with published tables; neither convergence for every input nor the accuracy relative to the definition of a geodesic can be sampled.", "anchors": ["geokit/src/geodesy/geodesics/vincenty.rs: direct"]}
{"id": "C80", "title": "Vincenty inverse solver returns for all distinct points not nearly antipodal, and returns a true geodesic between them", "statement": "For an oblate ellipsoid with flattening f <= 1/50 and two distinct points whose arc on the auxiliary sphere is at most M - 4f, where M < pi and 10 f M <= sin M (172 degrees on WGS84): the Vincenty inverse solver returns a result. Whenever it returns, from a first point that is not a pole, there is a geodesic of the surface that starts at the first point and after the returned distance s > 0 is within 0.22 f^4 s + 1e-12 a of the second point; for s <= 3b the returned azimuths agree with the directions of this geodesic at both ends to within 7e-11 b/s (plus 0.23 f^4 s/b + 1e-12 at the second). Exact arithmetic.", "quantifier": "all oblate ellipsoids with f <= 1/50, all pairs of points in the stated domain", "why_tests_cant": "Tests compare a few lines with published tables; neither convergence on a whole domain nor the accuracy relative to the definition of a geodesic can be sampled.", "anchors": ["geokit/src/geodesy/geodesics/vincenty.rs: inverse"]}
{"id": "C81", "title": "Rapp direct solver always returns, and returns the end of the true geodesic", "statement": "For an oblate ellipsoid with flattening f <= 1/50, a start that is not a pole, any azimuth and any signed distance s: the Rapp direct solver returns a result (never the non-convergence error). Unless the line ends exactly at a pole, the returned point is within f^4 (0.11 |s| + a/700) + 1.1e-14 a / cos(lat1) of the point at distance s on the geodesic of the surface with this start and initial direction. For 1e-10 b <= s <= 3b the returned end azimuth, as a direction in space, agrees with the velocity of that geodesic to f^4 (0.11 s/a + 1/700) plus rounding-tolerance terms of order 1e-13 b/(s cos(lat2)). Exact arithmetic.", "quantifier": "all oblate ellipsoids with f <= 1/50, all starts off the poles, all azimuths and distances", "why_tests_cant": "Tests compare a few lines with published tables; neither convergence for every input nor the accuracy relative to the definition of a geodesic can be sampled.", "anchors": ["geokit/src/geodesy/geodesics/rapp.rs: direct"]}
{"id": "C82", "title": "Rapp inverse solver converges away from the antipode and returns a true geodesic between its points", "statement": "For an oblate ellipsoid with flattening f <= 1/50 and distinct points: if the points are far enough from antipodal (there is M < pi with 10 f M <= sin M and spherical arc + 4 f <= M) the Rapp inverse solver returns a result; whenever it returns, some geodesic of the surface that starts at the first point is, after the returned distance s > 0, within 0.14 f^4 s + 0.5e-14 a of the second point; and (s <= 3b) the directions given by the returned azimuths agree with the velocity of that geodesic at its ends to 3.5e-13 b/s (+ 0.14 f^4 s/b + 0.5e-14 at the second). Exact arithmetic.", "quantifier": "all oblate ellipsoids with f <= 1/50, all pairs of distinct points off the poles satisfying the arc condition", "why_tests_cant": "Tests compare a few lines with published tables; no table contains a line over a pole whose end points lie on different sides of the equator, and convergence and accuracy for every pair cannot be sampled.", "anchors": ["geokit/src/geodesy/geodesics/rapp.rs: inverse"]}
{"id": "C83", "title": "Transverse Mercator northing on the central meridian is the scaled meridian arc", "statement": "For an oblate ellipsoid with e^2 <= 1/50, every origin, k0 and false origin, a position on the central meridian (poles included) projects to the false easting and to fn + k0 * (length of the meridian of the ellipsoid from the latitude of origin), within 23 |k0| a n^5 per radian of latitude (n the third flattening; under 2 micrometres on WGS84); and the derivative of the northing by latitude is k0 times the speed of the surface point, within 23 |k0| a n^5. The length is the integral of the speed of the surface point in space, not a series. Exact arithmetic.", "quantifier": "all oblate ellipsoids with e^2 <= 1/50, all origins, scale factors, false origins and latitudes", "why_tests_cant": "Tests compare a handful of published coordinates to a centimetre, which hides an error in a fourth-order coefficient; no test relates the northing to the true length of the meridian for every ellipsoid and latitude.", "anchors": ["geokit/src/projections/cyl/transverse_mercator.rs: proj"]}
{"id": "C84", "title": "Mercator and transverse Mercator are conformal, Web Mercator only on a sphere", "statement": "A point moving over the surface of the ellipsoid with unit velocity of azimuth alpha has, under proj, an image moving with a speed k and grid bearing alpha + gamma where k and gamma depend on the position alone: for transverse Mercator within 90 degrees of the central meridian (k > 0 within 45 degrees for e^2 <= 1/50; on the central meridian k = k0 up to 24 k0 n^5 and gamma = 0), for both Mercator variants (k > 0, gamma = 0). Web Mercator has this property if and only if the ellipsoid is a sphere. Poles excluded. Exact arithmetic.", "quantifier": "all oblate ellipsoids, all projection parameters, all positions off the poles in the stated range, all directions of motion", "why_tests_cant": "Conformality is a statement about derivatives in every direction at every position; tests compare finitely many coordinates.", "anchors": ["geokit/src/projections/cyl/transverse_mercator.rs: proj", "geokit/src/projections/cyl/web_mercator.rs", "geokit/src/projections/cyl/mercator.rs"]}
{"id": "C85", "title": "Ellipsoidal transverse Mercator round trip", "statement": "On every oblate ellipsoid with e^2 <= 1/50, for every origin, false origin and non-zero scale factor, unproj(proj(llh)) is a position with the same height whose point on the ellipsoid is within 275 a n^5 + 1.1e-12 a e^2 of the original one (n the third flattening) for positions within 30 degrees of the central meridian, and within 13 a n^5 + 1.1e-12 a e^2 (under 2 micrometres on WGS84) within 6.3 degrees; excluded is a neighbourhood of the poles of angular radius 320 n^5 (13 n^5). Exact arithmetic.", "quantifier": "all oblate ellipsoids with e^2 <= 1/50, all projection parameters, all positions in the stated strip", "why_tests_cant": "Forward and inverse use different series; a wrong coefficient in either shows up only as a discrepancy below the tolerance of a round-trip test at one point, or only far from the central meridian. No finite set of positions covers all ellipsoids.", "anchors": ["geokit/src/projections/cyl/transverse_mercator.rs: proj, unproj"]}
{"id": "C86", "title": "Transverse Mercator round trip from the plane", "statement": "On every oblate ellipsoid with e^2 <= 1/50, for every origin, false origin and non-zero scale factor k0, a plane point at most k0*a/2 east or west of the central meridian and with a northing strictly between those of the poles on the central meridian is accepted by unproj, and proj of the result is that point again within k0*a*(565 n^5 + 2e-12 e^2) in easting and in northing, with the same height; within k0*a/10 of the central meridian (638 km on Earth; a UTM zone is 334 km wide on each side) within k0*a*(30 n^5 + 2e-12 e^2), under 3 micrometres on WGS84. Exact arithmetic.", "quantifier": "all oblate ellipsoids with e^2 <= 1/50, all projection parameters, all plane points in the stated strip", "why_tests_cant": "Tests convert a few published points. An inverse that is accurate at those points can still return a position that projects elsewhere for other northings, scale factors or ellipsoids.", "anchors": ["geokit/src/projections/cyl/transverse_mercator.rs: proj, unproj"]}
{"id": "C87", "title": "Named tolerances mean what they document", "statement": "tiny() accepts geocentric and projected coordinates exactly when each differs by at most 1e-4 m, and then the points are less than a millimetre apart; small() exactly when each differs by at most 1e-3 m, and then they are less than a centimetre apart; for geodetic coordinates tiny() and small() accept exactly 1e-12 rad and 1e-9 rad in latitude and around the circle of longitudes, with the documented 1e-4 m and 1e-3 m in height. The default error bounds of the geodesic checks are 1e-12 rad and 1e-4 m. In IEEE arithmetic whatever is equal within tiny() is equal within small().", "quantifier": "all pairs of coordinates (real; doubles for the last sentence)", "why_tests_cant": "The tests use these tolerances to judge other code; none of them checks the tolerances themselves at their limit, across the date line or for NaN.", "anchors": ["geokit/src/cs/geodetic.rs: GeodeticTolerance::tiny, small", "geokit/src/cs/cartesian/mod.rs: CartesianTolerance", "geokit/src/cs/cartesian/projected.rs: ProjectedTolerance", "geokit/src/quantities/length.rs: TINY, SMALL", "geokit/src/quantities/angle.rs: TINY, SMALL", "geokit/src/geodesy/geodesics/mod.rs: DirectErrors, InverseErrors"]}
{"id": "C88", "title": "Azimuths point where they say", "statement": "NORTH, EAST, SOUTH and WEST are the north, east, south and west directions of the horizon plane at every longitude and latitude; Azimuth::deg and rad give the representative in (-pi, pi] of the given angle; deg(0), deg(90), deg(+-180), deg(-90) and deg(270) are the named azimuths; adding 180 degrees exchanges opposite ones; the difference with NORTH is the angle clockwise from it. Exact arithmetic.", "quantifier": "all positions, all angles", "why_tests_cant": "Tests compare a few numeric values; they do not relate the constants to directions on the surface nor cover all angles.", "anchors": ["geokit/src/cs/azimuth.rs: NORTH, EAST, SOUTH, WEST, rad, deg, Add, Sub"]}
{"id": "C89", "title": "Line strings from a coordinate buffer", "statement": "LineString::new succeeds exactly when the buffer is the concatenation of at least two complete positions of the given dimension with one length less than positions, and panics otherwise. The line string then has these positions in order through pos(n) and pos_iter, pos(n) panics beyond the last, start and end are the first and the last, the length is the sum of the lengths; curve_boundary holds the first and last positions in dimensions 2 and 3 and panics in others. Holds whatever the float operations return.", "quantifier": "all dimensions, buffers of any length and contents, all length lists", "why_tests_cant": "Tests build one or two short line strings; index arithmetic errors show up for other dimensions, lengths or positions.", "anchors": ["geokit/src/geometry/coordinate/curve/line_string.rs: LineString::new, len, pos, pos_iter, start, end, length, curve_boundary"]}
{"id": "C90", "title": "The natural origin is projected to the false origin", "statement": "For every projection the natural origin (lon0, lat0) is projected to (false easting, false northing) with unchanged height, exactly: transverse Mercator for every lat0 including the poles, UTM north and south, Mercator 1SP and 2SP (origin on the equator), Web Mercator; and for origins on the equator unprojecting the false origin returns the natural origin without error. Exact arithmetic.", "quantifier": "all ellipsoids with 0 < b <= a, all projection parameters and heights", "why_tests_cant": "Tests check a few published points of a few zones, none for every latitude of origin and scale factor.", "anchors": ["geokit/src/projections/cyl/transverse_mercator.rs: proj, unproj, M0", "geokit/src/projections/cyl/mercator.rs: proj, unproj", "geokit/src/projections/cyl/web_mercator.rs: proj, unproj"]}
{"id": "C91", "title": "Conversions within one datum only change the representation", "statement": "Between two CRS of the same datum, both linked to the reference by the same translation, CrsXYZTransformation::fwd does nothing but change the representation: from geographic to projected it writes the projection of the position, from projected to geographic the unprojected position, from projected to projected the projection of the unprojected position, from geographic to geographic the same position in the other axes and units. Between geographic CRS whose datums differ only by the prime meridian, latitude and height are kept and the longitude changes by exactly the difference of the meridians, modulo whole turns. Exact arithmetic.", "quantifier": "all datums with 0 < b <= a (0 < b < a for the prime meridian), all translations, axes, units, projections, and positions strictly between the poles", "why_tests_cant": "Tests convert a few points between a few CRS with a tolerance; they cannot show that the detour through geocentric coordinates and back loses nothing for every position.", "anchors": ["geokit/src/transformations/xyz.rs: CrsXYZTransformation::fwd, bwd, ToXYZ for GeographicCrs and ProjectedCrs", "geokit/src/geodesy/geodetic_datum.rs: llh_to_xyz, xyz_to_llh"]}
{"id": "C92", "title": "The symmetries of the ellipsoid are symmetries of the geodesic solvers", "statement": "The start longitude has no influence on the direct problem except that the end longitude is counted from it (every solver, any arithmetic). Adding one angle to both longitudes does not change the result of the inverse problem (every solver). With the Vincenty inverse, exchanging the points keeps the length and turns every azimuth by half a turn, mirroring both points in a meridian keeps the length and negates the azimuths, mirroring in the equator keeps the length and maps each azimuth A to pi - A. The distance of a 2D geographic CRS is the same value or the same error after exchanging the positions, turning both by one angle, or mirroring both. Exact arithmetic except for the first sentence.", "quantifier": "all ellipsoids with 0 < b <= a, all pairs of points, including poles and the date line", "why_tests_cant": "Tests compare a few tabulated lines; a sign or wrap-around mistake breaks a symmetry only for some quadrants, hemispheres or longitudes.", "anchors": ["geokit/src/geodesy/geodesics/vincenty.rs: direct, inverse", "geokit/src/geodesy/geodesics/rapp.rs: direct, inverse", "geokit/src/geodesy/geodesics/karney.rs: direct", "geokit/src/crs/geographic.rs: dist"]}
{"id": "C93", "title": "Following the geodesic found leads to the second point", "statement": "When the Vincenty inverse solver returns an azimuth and a length s <= 3b for two points, the Vincenty direct solver, started at the first point with this azimuth and this length, returns a point within 1e-11 a (0.07 mm on the Earth) of the second one on the surface. Exact arithmetic; the bound contains no truncation error because both solvers truncate the same series.", "quantifier": "all ellipsoids with 0 < b <= a and flattening at most 1/50, all pairs of points with the first off the poles", "why_tests_cant": "Tests solve tabulated lines one way; that the two solvers agree with each other to the tolerance of their loops for every pair of points cannot be sampled.", "anchors": ["geokit/src/geodesy/geodesics/vincenty.rs: direct, inverse"]}
{"id": "C94", "title": "The geodesic between two points connected by the direct solver is the one followed", "statement": "From a point off the poles, with any azimuth and a length s between 1e-12 b and 2.9 b, the Vincenty direct solver returns; for the point it returns the Vincenty inverse solver returns, with a length within 1e-11 b (0.07 mm on the Earth) of s, and with azimuths at both ends equal to those of the direct solver as unit tangent vectors up to 2e-11 b/s. Exact arithmetic.", "quantifier": "all ellipsoids with 0 < b <= a and flattening at most 1/250, all starts off the poles, all azimuths, all lengths in the interval", "why_tests_cant": "Tests solve tabulated lines; that the inverse solver converges for every end the direct solver can produce, and to the same line rather than to another solution, is a statement about a continuum.", "anchors": ["geokit/src/geodesy/geodesics/vincenty.rs: direct, inverse"]}
{"id": "C95", "title": "The direct solvers are interchangeable", "statement": "For every start off the poles, every azimuth and every signed distance, the Vincenty and the Karney direct solvers return end points at most f^4 (0.22 |s| + a/400) + 1e-12 f a + n^7 (5 a + 14 |s|) apart on the ellipsoid, with directions there that differ by at most the same bound divided by a; Rapp's solver returns an end point within f^4 (0.33 |s| + a/250) + 1e-12 f a + 1.1e-14 a / cos(lat) of Vincenty's, unless the azimuth is along a meridian and it returns NaN. Exact arithmetic.", "quantifier": "all ellipsoids with 0 < b <= a and flattening at most 1/51 (1/50 for Rapp), all starts off the poles, all azimuths, all signed distances", "why_tests_cant": "The tests compare each solver with a table on its own; agreement of three different algorithms over a continuum of lines needs that each follows the one geodesic there is.", "anchors": ["geokit/src/geodesy/geodesics/vincenty.rs: direct", "geokit/src/geodesy/geodesics/karney.rs: direct", "geokit/src/geodesy/geodesics/rapp.rs: direct"]}
{"id": "C96", "title": "The distances returned are the lengths of the shortest curves on the ellipsoid", "statement": "For two distinct points at most 1.98 b apart through space, the Vincenty inverse solver (and Rapp's, from a first point off the poles) returns, and the distance it returns is the infimum of the lengths of all curves on the ellipsoid between them, up to 0.23 f^4 s + 1.1e-12 a (Rapp: 0.15 f^4 s + 1e-14 a); so is the distance that a 2D geographic CRS returns for two positions, which therefore obeys the triangle inequality; the end that the Vincenty and Karney direct solvers return for a distance s <= 3 b is at that distance from the start; every geodesic is the shortest curve between points of it at most 3 b apart. Exact arithmetic.", "quantifier": "all ellipsoids with 0 < b <= a and flattening at most 1/250, all pairs of points, all curves on the ellipsoid between them, all starts off the poles, azimuths and distances between 0 and 3 b", "why_tests_cant": "The documentation promises the geodesic distance; no table of distances shows that no other curve between two points is shorter, since that quantifies over all curves on the ellipsoid.", "anchors": ["geokit/src/geodesy/geodesics/vincenty.rs: inverse, direct", "geokit/src/geodesy/geodesics/rapp.rs: inverse", "geokit/src/geodesy/geodesics/karney.rs: direct", "geokit/src/crs/geographic.rs: dist"]}
{"id": "C97", "title": "Rounding moves geocentric coordinates by less than 50 nanometres", "statement": "With doubles, every geocentric coordinate that llh_to_xyz returns is finite and differs by at most 5e-8 m from the coordinate obtained from the same longitude, latitude, height, semi-axes and prime meridian without rounding (which is the point of C26), if the mathematical library errs by at most 2^-52 in sin, cos, powi(2) and, relatively, sqrt. If longitude, latitude and height only approximate the intended ones, to within f, g (radians) and k (metres), the difference from the intended point is at most 1.9e7 f + 2.5e7 g + 1.01 k + 5e-8 m.", "quantifier": "all libraries with these error bounds, all ellipsoids with 6000 km <= b <= a <= 7000 km, all prime meridians and longitudes in [-PI, PI], all latitudes in that range, all heights of at most 10000 km above or below, all f, g <= 1e-9 and k <= 1", "why_tests_cant": "Tests compare a few points with printed values at a tolerance; they do not bound the rounding error over all doubles, nor show that no input makes an intermediate result cancel or overflow.", "anchors": ["geokit/src/geodesy/geodetic_datum.rs: llh_to_xyz", "geokit/src/geodesy/ellipsoid.rs: e_sq, prime_vertical_radius", "geokit/src/cs/geodetic.rs: Lon + Angle"]}
{"id": "C98", "title": "Rounding moves shifted coordinates by less than 25 nanometres", "statement": "With doubles, to_ref and from_ref of a 7-parameter Helmert transformation, with either rotation convention, return finite coordinates that differ by at most 1.01 e + 2.5e-8 m from the exact transformation, by the same parameters, of a point whose coordinates the argument approximates to within e; a geocentric translation adds at most 2.5e-9 m, and there and back ends within 5e-9 m of the start. Geographic coordinates taken to geocentric ones and then shifted end within 8e-8 m of the exact point.", "quantifier": "all parameters with rotations up to 1 mrad, translations up to 100 km and scales up to 1000 ppm, all points at most 20000 km from the coordinate planes (19900 km for the round trip), all e <= 1 mm; the last sentence for the inputs of C97", "why_tests_cant": "Tests shift a handful of points and compare at a tolerance; the error over all parameters and points, and its growth from the error of the argument, need a proof.", "anchors": ["geokit/src/transformations/xyz.rs: Helmert7Params, GeocentricTranslation"]}
{"id": "C99", "title": "A transformation to geocentric coordinates is accurate to 220 nanometres end to end", "statement": "With doubles, the size of every unit of the crate is within 1.7e-16, relatively, of the exact one; normalize on any geodetic axes succeeds and returns a longitude within 2.4e-15 rad (up to full turns), a latitude within 2.2e-15 rad and a height within 3e-9 m of the exact ones; to_xyz of a geographic or geocentric CRS is within 1.6e-7 m of the exact position; and fwd to a geocentric CRS (equally bwd from one) with any of the datum shifts writes coordinates within 2.2e-7 m of those of the exact transformation.", "quantifier": "all libraries as in C97, all ellipsoids and prime meridians as in C97, all five axes with units of that accuracy, all finite coordinates within 7 rad and 10000 km (18000 km for geocentric sources), all shift parameters as in C98, all destination buffers of length 3", "why_tests_cant": "Tests transform single points at a tolerance of millimetres or more; they cannot bound the accumulated error of unit conversion, wrapping, clamping, conversion and two datum shifts over all doubles.", "anchors": ["geokit/src/units/angle.rs", "geokit/src/units/length.rs", "geokit/src/cs/geodetic.rs: GeodeticAxes::normalize", "geokit/src/transformations/xyz.rs: CrsXYZTransformation::fwd, bwd"]}
{"id": "C100", "title": "The longitude, latitude and height computed from geocentric coordinates are accurate to 5e-15 rad, 1e-14 rad and 0.1 micrometre", "statement": "With doubles and a mathematical library with errors of at most one unit in the last place, xyz_to_llh of a point between 5000 km and 10000 km from the centre returns a longitude within 5e-15 rad (up to full turns), a latitude within 1e-14 rad and a height within 1e-7 m of the unique exact ones, that is of the triple whose exact geocentric coordinates are the given ones, on the axis and in the equatorial plane included. Points within 1e-40 m of the axis, where the longitude is not determined to that accuracy, get the coordinates of a point that close to them.", "quantifier": "all libraries with that accuracy, all ellipsoids with semi-axes between 6000 km and 7000 km and a flattening of at most 1/200, all prime meridians, all finite points between 5000 km and 10000 km from the centre: on the axis or at least 1e-40 m from it for the first bound, without restriction for the second (a point within 1e-39 m)", "why_tests_cant": "Tests compare a handful of points at 1e-9 rad and millimetres; the cancellations in Vermeille's formula (k, the height, points near the axis) can only be excluded for all doubles by an error analysis.", "anchors": ["geokit/src/geodesy/geodetic_datum.rs: GeodeticDatum::xyz_to_llh", "geokit/src/geodesy/ellipsoid.rs: Ellipsoid::e_sq"]}
{"id": "C101", "title": "Converting geocentric coordinates to geodetic ones and back moves a point by at most half a micrometre", "statement": "With doubles, llh_to_xyz(xyz_to_llh(P)) is finite and within 5e-7 m of P along each axis.", "quantifier": "all libraries, ellipsoids and prime meridians as in C100, all finite points between 5000 km and 10000 km from the centre", "why_tests_cant": "The round trip is tested on a few points at the tolerance of millimetres; the bound is for every representable point near the Earth's surface, poles included.", "anchors": ["geokit/src/geodesy/geodetic_datum.rs: GeodeticDatum::xyz_to_llh, llh_to_xyz"]}
{"id": "C102", "title": "Nearby points have nearby geodetic coordinates", "statement": "If llh_to_xyz sends two triples to points at most e apart, then the chord of their latitudes is at most e/r, the chord of their longitudes times the cosine of the latitude is at most 2e/r (with the geometric mean of the cosines: e/r), where r = 0.989 a plus the mean height, and their heights differ by at most e plus, below the ellipsoid, a term quadratic in e/r. In particular the geodetic coordinates of a point are unique.", "quantifier": "all ellipsoids with b <= a and a flattening of at most 1/200, all prime meridians, all longitudes, latitudes in [-90, 90] degrees, all pairs of heights for which r is positive, all e >= 0", "why_tests_cant": "It is a Lipschitz bound over all pairs of points, at any distance; tests sample points, not moduli of continuity.", "anchors": ["geokit/src/geodesy/geodetic_datum.rs: GeodeticDatum::llh_to_xyz"]}
{"id": "C103", "title": "Converting longitude, latitude and height to geocentric coordinates and back moves a position by less than half a micrometre", "statement": "With doubles, xyz_to_llh(llh_to_xyz(p)) is finite and has the longitude of p, up to full turns, to 5.6e-14 rad along the parallel, its latitude to 2.7e-14 rad and its height to 1.9e-7 m. More generally, if the geocentric coordinates are e off (at most 1 mm), xyz_to_llh returns the exact longitude to 1.01e-6 e + 5.01e-15 rad along the parallel, the exact latitude to 3.2e-7 e + 1.01e-14 rad and the exact height to 1.74 e + 1.01e-7 m (e in metres).", "quantifier": "all libraries with errors of at most one unit in the last place, all ellipsoids with semi-axes between 6000 km and 7000 km and a flattening of at most 1/200, all prime meridians, all longitudes in [-pi, pi], latitudes in [-pi/2, pi/2] and heights between -500 km and 2500 km", "why_tests_cant": "The crate's round-trip tests sample a few positions at tolerances of 1e-9 rad and more; near the poles and the antimeridian, where formulas degenerate, only a bound for all doubles tells that nothing goes wrong.", "anchors": ["geokit/src/geodesy/geodetic_datum.rs: GeodeticDatum::llh_to_xyz, xyz_to_llh"]}
{"id": "C104", "title": "Transformations to geographic coordinate reference systems are accurate to a few micrometres", "statement": "With doubles, transforming coordinates from a geographic or geocentric CRS to a geographic one through identity, translation or Helmert shifts succeeds and writes coordinates which agree with those that the exact transformation by the same parameters writes, up to full turns, to 2.3e-13 rad along the parallel, 8.2e-14 rad along the meridian and 4.9e-7 m in height; bwd of the reversed transformation writes the same doubles.", "quantifier": "all libraries with errors of at most one unit in the last place, all sources as in C99, all target ellipsoids of the size of the Earth with a flattening of at most 1/200, all five systems of axes, all units with sizes between 1e-10 and 1e10, all coordinates whose exact image is between 500 km below and 2500 km above the ellipsoid (in particular, between geographic CRSs whose shifts move positions by at most 100 km: all heights between -300 km and 2300 km)", "why_tests_cant": "Integration tests compare single positions with published ones at centimetres; the accumulated rounding error of the whole chain (units, ellipsoid, shift, Vermeille's inverse, units) is a statement about all doubles.", "anchors": ["geokit/src/transformations/xyz.rs: CrsXYZTransformation::fwd, bwd", "geokit/src/cs/geodetic.rs: GeodeticAxes::normalize, denormalize", "geokit/src/geodesy/geodetic_datum.rs: GeodeticDatum::llh_to_xyz, xyz_to_llh", "geokit/src/quantities/angle.rs: Angle::val", "geokit/src/quantities/length.rs: Length::val"]}
{"id": "C105", "title": "Transverse Mercator and UTM coordinates are computed to half a micrometre", "statement": "With doubles, proj of a transverse Mercator projection obtained from ProjectionSpec::TransverseMercator, UtmNorth or UtmSouth succeeds and returns a finite easting within 2.5e-7 m and a finite northing within 5e-7 m of those of the same projection in exact arithmetic, and the height it was given.", "quantifier": "all libraries with errors of at most two units in the last place (four for asinh and atanh), all ellipsoids with semi-axes between 6000 km and 7000 km, all longitudes in [-pi, pi] with |sin(lon - lon0)| <= 0.48, all latitudes and latitudes of origin up to 1.4836 rad (85 degrees), all scales up to 1.1, all false eastings and northings up to 20000 km, all 60 UTM zones", "why_tests_cant": "The tests compare a handful of points at tolerances of a millimetre or more; the cancellation of the conformal latitude, of the meridian arc and of the series can only be bounded, not sampled.", "anchors": ["geokit/src/projections/cyl/transverse_mercator.rs: TransverseMercator::new, proj, utm_lon0", "geokit/src/projections/mod.rs: ProjectionSpec::applied_to"]}
{"id": "C106", "title": "The inverse of transverse Mercator and UTM ends and is accurate to 2.2e-13 radians", "statement": "With doubles, unproj of a transverse Mercator projection obtained from ProjectionSpec::TransverseMercator, UtmNorth or UtmSouth ends, and returns a finite latitude within 2.2e-13 rad of that of the same projection in exact arithmetic, a finite longitude whose distance to the exact one, modulo a turn, multiplied by cos(lat)*cos(lon - lon0), is at most 2.5e-13 rad, and the height it was given.", "quantifier": "all libraries with errors of at most two units in the last place (four for asinh and atanh), all ellipsoids with semi-axes between 6000 km and 7000 km and flattening up to 1/200, all central meridians, latitudes of origin up to 1.4836 rad, scales between 0.9 and 1.1, finite false coordinates, all eastings up to 0.54 k0 b from the false easting and northings up to 1.48 k0 b from the equator (0.53 b and 1.48 b for UTM), all 60 UTM zones", "why_tests_cant": "The loop stops when two successive doubles differ by less than 1e-12; whether that happens for every input, and what error is left, depends on the rounding of every operation and cannot be sampled.", "anchors": ["geokit/src/projections/cyl/transverse_mercator.rs: TransverseMercator::unproj", "geokit/src/projections/mod.rs: ProjectionSpec::applied_to"]}
{"id": "C107", "title": "A position comes back from UTM within 5.2 micrometres in doubles", "statement": "With doubles, unproj applied to the coordinates returned by proj, for a projection obtained from ProjectionSpec::UtmNorth or UtmSouth, ends and returns the height unchanged and a finite position at most 5.2 micrometres away on the ellipsoid. For ProjectionSpec::TransverseMercator the distance is at most a(275 n^5 + 1.1e-12 e^2 + 5.1e-13), and a(13 n^5 + 1.1e-12 e^2 + 5.1e-13) within 6.3 degrees of the central meridian, n being the third flattening.", "quantifier": "all libraries with errors of at most two units in the last place (four for asinh and atanh), all ellipsoids with semi-axes between 6000 km and 7000 km and flattening up to 1/200 (1/286 for UTM), all central meridians, latitudes of origin up to 1.4836 rad, scales between 0.9 and 1.1, false coordinates up to 20000 km, all latitudes up to 84 degrees, all longitudes up to 28 degrees (6.3 for UTM) from the central meridian, all heights, all 60 UTM zones", "why_tests_cant": "Rounding errors of the forward direction are fed to the loop of the inverse direction; sampled round trips say nothing about the worst position or about a platform's mathematical library.", "anchors": ["geokit/src/projections/cyl/transverse_mercator.rs: TransverseMercator::proj, unproj", "geokit/src/projections/mod.rs: ProjectionSpec::applied_to"]}
{"id": "C108", "title": "Inverse transverse Mercator returns for every finite easting and northing", "statement": "With doubles, unproj of a transverse Mercator or UTM projection returns for every finite easting and northing, with the height unchanged and a latitude within 90 degrees.", "quantifier": "all libraries following IEEE 754 on special values, all ellipsoids with semi-axes between 6000 km and 7000 km, all central meridians, scales between 0.9 and 1.1, false coordinates up to 20000 km, all zones, all finite eastings and northings", "why_tests_cant": "A test cannot show that a loop never ends, and sampled coordinates do not show that it ends for all of them.", "anchors": ["geokit/src/projections/cyl/transverse_mercator.rs: TransverseMercator::unproj"]}
{"id": "C109", "title": "Web Mercator in doubles is accurate to nanometres and comes back", "statement": "In doubles, Web Mercator gives the easting within 20 nm (up to whole circumferences, none away from the antimeridian of the origin) and the northing within 50 nm + 7 nm / cos(lat) of the exact formulas; the inverse gives the latitude within 5e-15 rad and the longitude within 3e-15 rad; projecting and coming back moves the latitude by at most 1.6e-14 rad and the longitude by at most 9e-15 rad, up to whole turns.", "quantifier": "all accurate mathematical libraries, all ellipsoids with semi-axes between 6000 km and 7000 km, all longitudes, all latitudes up to 89.94 degrees, false coordinates up to 20000 km; inverse: all points with easting within 5 and northing within 9 semi-major axes of the origin", "why_tests_cant": "Samples do not bound the rounding error at every latitude: the tangent near the poles and the longitude difference near the antimeridian amplify it.", "anchors": ["geokit/src/projections/cyl/web_mercator.rs: WebMercator::proj", "geokit/src/projections/cyl/web_mercator.rs: WebMercator::unproj"]}
{"id": "C110", "title": "Mercator in doubles is accurate to a fraction of a micrometre and comes back", "statement": "In doubles, Mercator with one or two standard parallels gives the easting within 100 nm (up to whole circumferences, none away from the antimeridian of the origin) and the northing within 280 nm + 13 nm / cos(lat) of the exact formulas; the inverse gives the latitude within 5e-14 rad and the longitude within 1.9e-14 rad; projecting and coming back moves the latitude by at most 3/2 e^10 + 2.9e-14 rad and the longitude by at most 7e-15 rad, up to whole turns.", "quantifier": "all accurate mathematical libraries, all ellipsoids with semi-axes between 6000 km and 7000 km (round trip: e^2 at most 1/50), all scale factors between 0.5 and 2, all standard parallels up to 60 degrees, all longitudes, all latitudes up to 89.94 degrees, false coordinates up to 20000 km; inverse: all points with easting within 5 and northing within 9 scaled semi-major axes of the origin", "why_tests_cant": "Samples do not bound the rounding error at every latitude and for every ellipsoid and scale: logarithm, power and tangent amplify it differently.", "anchors": ["geokit/src/projections/cyl/mercator.rs: Mercator::new_1_sp", "geokit/src/projections/cyl/mercator.rs: Mercator::new_2_sp", "geokit/src/projections/cyl/mercator.rs: Mercator::proj", "geokit/src/projections/cyl/mercator.rs: Mercator::unproj"]}
{"id": "C111", "title": "Transforming projected coordinates in doubles loses micrometres", "statement": "In doubles, a transformation from a projected CRS (Web Mercator, Mercator with one or two standard parallels, transverse Mercator, UTM) reads a geocentric position within 0.5, 2.3, 13 (70 far from the central meridian) and 13 micrometres of the exact one; written to a geocentric CRS through translations or Helmert shifts the coordinates differ from those of the exact transformation by at most 1.03 times that and 51 nm, and written to a geographic CRS they stand for the same position to the corresponding angles, whatever the units and the axes, forward and backward.", "quantifier": "all accurate mathematical libraries, all datums with semi-axes between 6000 km and 7000 km and flattening at most 1/200, all projections and parameters in the ranges of C106, C109, C110, all finite coordinates up to 100000 km in any unit, all usual datum shifts; to a geographic CRS: all results between 500 km below and 2500 km above the ellipsoid", "why_tests_cant": "An error budget over reading units, inverse projection, datum shift and geodetic conversion for every point of every projection is not sampled by examples; near the poles of Web Mercator or the edge of a zone the errors grow.", "anchors": ["geokit/src/transformations/xyz.rs: ToXYZProvider for ProjectedCrs", "geokit/src/transformations/xyz.rs: CrsXYZTransformation::fwd", "geokit/src/transformations/xyz.rs: CrsXYZTransformation::bwd", "geokit/src/cs/cartesian/projected.rs: ProjectedAxes::normalize", "geokit/src/projections/mod.rs: ProjectionSpec::applied_to"]}
{"id": "C112", "title": "Writing projected coordinates in doubles loses micrometres", "statement": "In doubles, a transformation from any CRS (geocentric, geographic or projected) to a projected CRS succeeds and writes finite eastings, northings and heights that stand for nearly the place the exact transformation writes. If the geocentric position is read to ε metres the error is at most ka/cos φ (1.04e-6 ε + 5.7e-14) + 0.15 µm in easting and ka/cos φ (3.31e-7 ε + 3.1e-14) + 0.33 µm in northing for Web Mercator and Mercator, ka (1.74e-6 ε + 1.06e-13) + 0.3 and 0.55 µm for transverse Mercator and UTM, and 1.78 ε + 0.2 µm in height; only a place at the very edge of a Mercator map can be written at the opposite edge. A geographic position on the same datum is written in UTM coordinates to 3.1 and 3.4 µm.", "quantifier": "all accurate mathematical libraries, all datums with semi-axes between 6000 km and 7000 km and flattening at most 1/200, all units and axes, all sources and coordinates of C111, all usual datum shifts, all positions between 500 km below and 2500 km above the ellipsoid, up to latitude 89.94 degrees (cos φ ≥ 0.00101) for Web Mercator and Mercator, up to 84.99 degrees (1.4835 rad) and 28 degrees from the central meridian for transverse Mercator and UTM", "why_tests_cant": "Near the poles Mercator magnifies any error without bound and at the edge of the map the easting jumps; a bound for every position, parameter and datum shift needs the derivatives of the projections, not samples.", "anchors": ["geokit/src/transformations/xyz.rs: ToXYZProvider for ProjectedCrs", "geokit/src/transformations/xyz.rs: CrsXYZTransformation::fwd", "geokit/src/transformations/xyz.rs: CrsXYZTransformation::bwd", "geokit/src/cs/cartesian/projected.rs: ProjectedAxes::denormalize", "geokit/src/projections/mod.rs: ProjectionSpec::applied_to"]}
{"id": "C113", "title": "The Karney direct solver in doubles returns the end of a geodesic to two micrometres", "statement": "In doubles, the Karney direct solver succeeds and returns a point and an azimuth in range which are, to 2 micrometres and to 1e-12/cos(latitude) radians, the end and the final direction of a geodesic of the ellipsoid of the requested length; that geodesic starts less than 0.21 micrometres from the given point, with a direction less than 6e-13 from the given azimuth.", "quantifier": "all accurate mathematical libraries, all ellipsoids with semi-axes between 6000 km and 7000 km, flattening at most 1/200 and a stored flattening within 3e-16 of (a - b)/a, all longitudes, all latitudes with cosine at least 0.1 (84.2 degrees), all azimuths, all signed distances up to 21000 km", "why_tests_cant": "Equatorial, meridional and nearly polar geodesics make single angles of the auxiliary triangles arbitrarily ill-conditioned; that their errors always cancel in the returned point is a statement about every start, azimuth and distance, and tests only compare with tabulated geodesics.", "anchors": ["geokit/src/geodesy/geodesics/karney.rs: KarneyGeodesicSolver::direct", "geokit/src/geodesy/geodesics/karney.rs: solve_triangle_from_p", "geokit/src/geodesy/geodesics/karney.rs: solve_triangle_from_e", "geokit/src/geodesy/ellipsoid.rs: Ellipsoid::reduced_latitude"]}
{"id": "C114", "title": "The Karney direct solver in doubles is within eight micrometres of the geodesic of the given start and azimuth, and depends on them in a Lipschitz way", "statement": "In doubles, the point the Karney direct solver returns is within 8 micrometres of the point at the requested distance along the unique geodesic of the ellipsoid that leaves the given point with the given azimuth, and the returned azimuth is its direction there to 2e-12/cos(latitude). Two runs with the same distance return points at most 1.17 times the distance of their starts plus 1.17 times the semi-major axis times the difference of their directions apart, plus 16 micrometres.", "quantifier": "all accurate mathematical libraries, all ellipsoids with semi-axes between 6000 km and 7000 km, flattening at most 1/200 and a stored flattening within 3e-16 of (a - b)/a, all longitudes, all latitudes with cosine at least 0.1 (84.2 degrees), all azimuths, all signed distances up to 21000 km", "why_tests_cant": "The claim compares the answer with a curve defined by a differential equation, for every start, azimuth and length, and bounds the amplification of every input error; tests compare with finitely many tabulated geodesics computed by a similar program.", "anchors": ["geokit/src/geodesy/geodesics/karney.rs: KarneyGeodesicSolver::direct", "geokit/src/geodesy/geodesics/karney.rs: solve_triangle_from_p", "geokit/src/geodesy/geodesics/karney.rs: solve_triangle_from_e", "geokit/src/geodesy/ellipsoid.rs: Ellipsoid::reduced_latitude"]}
{"id": "C115", "title": "Following a geodesic back with the Karney direct solver in doubles returns to the start", "statement": "In doubles, solving the direct problem from the returned end, with the returned azimuth, over the opposite of the distance, succeeds and gives the original start to 2e-5/cos(latitude of the end) metres, so to 0.2 millimetres at worst, and the original azimuth to 5e-12 divided by the cosines of both latitudes.", "quantifier": "all accurate mathematical libraries, all ellipsoids with semi-axes between 6000 km and 7000 km, flattening at most 1/200 and a stored flattening within 3e-16 of (a - b)/a, all longitudes, all latitudes with cosine at least 0.1 (84.2 degrees), all azimuths, all signed distances up to 21000 km, such that the end reached has a latitude with cosine at least 0.1", "why_tests_cant": "The return trip starts from rounded values; that the rounding of the azimuth and of the point are never amplified, for every start, azimuth and distance, including the sign of the distance, cannot be checked by examples.", "anchors": ["geokit/src/geodesy/geodesics/karney.rs: KarneyGeodesicSolver::direct", "geokit/src/geodesy/geodesics/karney.rs: solve_triangle_from_p", "geokit/src/geodesy/geodesics/karney.rs: solve_triangle_from_e", "geokit/src/geodesy/ellipsoid.rs: Ellipsoid::reduced_latitude"]}
{"id": "C116", "title": "Going along a geodesic in stages with the Karney direct solver in doubles leads to the same point", "statement": "In doubles, solving the direct problem over a first distance and then, from the returned point with the returned azimuth, over a second one, gives the point that solving it at once over a third distance gives, to 5e-5/cos(latitude between the stages) metres plus the difference of the third distance and the exact sum of the first two.", "quantifier": "all accurate mathematical libraries, all ellipsoids with semi-axes between 6000 km and 7000 km, flattening at most 1/200 and a stored flattening within 3e-16 of (a - b)/a, all longitudes, all latitudes with cosine at least 0.1 (84.2 degrees), all azimuths, all three signed distances up to 21000 km, such that the point between the stages has a latitude with cosine at least 0.1", "why_tests_cant": "The group law of the geodesic flow holds for all splits of all geodesics; the second stage starts from rounded values, whose effect on every continuation cannot be sampled.", "anchors": ["geokit/src/geodesy/geodesics/karney.rs: KarneyGeodesicSolver::direct"]}
{"id": "C117", "title": "The Vincenty direct solver in doubles converges and returns the end of the geodesic", "statement": "In doubles the Vincenty direct solver never runs out of iterations; it returns a longitude, latitude and azimuth in their ranges which are the end, at the given distance, of the geodesic of the ellipsoid with exactly the given start and azimuth: the point up to the truncation error f^4 (0.22 |s| + a/400) of Vincenty's series and 0.7 micrometres, the azimuth up to f^4 (0.22 |s|/a + 1/400) and 4e-13, divided by the cosine of the returned latitude.", "quantifier": "all mathematical libraries meeting AccurateVincenty, all ellipsoids with semi-axes between 6000 km and 7000 km, flattening at most 1/200 and a stored flattening within 3e-16 of (a - b)/a, all longitudes, all latitudes with cosine at least 0.1 (84.2 degrees), all azimuths, all signed distances up to 21000 km", "why_tests_cant": "Convergence under rounding of a loop which stops at a difference of 1e-12, and the accuracy of its result, are claimed for all starts, azimuths and distances, including the nearly equatorial ones, where the arc from the node is undefined, and the ends near a pole, where two of the three results are.", "anchors": ["geokit/src/geodesy/geodesics/vincenty.rs: VincentyGeodesicSolver::direct"]}
{"id": "C118", "title": "The two direct solvers return the same end in doubles", "statement": "From the same start, with the same azimuth and over the same distance the Vincenty and the Karney direct solvers both return, and their end points differ by at most the truncation error f^4 (0.22 |s| + a/400) of Vincenty's series and 9 micrometres; by at most a millimetre if the flattening is at most 1/290, as it is for WGS 84. The returned azimuths are of the same direction up to f^4 (0.22 |s|/a + 1/400) and 2.4e-12, divided by the smaller cosine of the returned latitudes.", "quantifier": "all mathematical libraries meeting AccurateVincenty, all ellipsoids with semi-axes between 6000 km and 7000 km, flattening at most 1/200 and a stored flattening within 3e-16 of (a - b)/a, all longitudes, all latitudes with cosine at least 0.1 (84.2 degrees), all azimuths, all signed distances up to 21000 km", "why_tests_cant": "A caller can exchange one solver for the other at any start, azimuth and distance; the tests compare the solvers with published values at a few points.", "anchors": ["geokit/src/geodesy/geodesics/vincenty.rs: VincentyGeodesicSolver::direct", "geokit/src/geodesy/geodesics/karney.rs: KarneyGeodesicSolver::direct"]}
{"id": "C119", "title": "Going along a geodesic in stages with the Vincenty solver leads to the same point in doubles", "statement": "Solving the direct problem over s1 with the Vincenty solver and then, from the returned point with the returned azimuth, over s2, leads to the point returned for a distance s at once up to (2.34 T(s1) + 6e-6 m)/cos(phi2) + T(s2) + T(s) + |s1 + s2 - s|, where T(x) = f^4 (0.22 |x| + a/400) is the truncation error of Vincenty's series and phi2 the latitude of the intermediate point.", "quantifier": "all mathematical libraries meeting AccurateVincenty, all ellipsoids with semi-axes between 6000 km and 7000 km, flattening at most 1/200 and a stored flattening within 3e-16 of (a - b)/a, all longitudes, all latitudes with cosine at least 0.1 (84.2 degrees), all azimuths, all signed distances up to 21000 km; all three distances; all intermediate points with a cosine of the latitude of at least 0.1", "why_tests_cant": "Errors of position and azimuth at the intermediate point are magnified by the rest of the way; that they stay bounded concerns all pairs of distances and all starts.", "anchors": ["geokit/src/geodesy/geodesics/vincenty.rs: VincentyGeodesicSolver::direct"]}
