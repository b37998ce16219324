# Formal model of geokit: design

Target: `Applequist/geokit` (Rust), sources under `/repo/geokit/src`, read as text only.
Model and proofs: Lean 4.33 + Mathlib, Lake project in `/verif/lean`.
Properties: `/verif/properties.jsonl` (C01...). Status of each: `/verif/MANIFEST.json`.

## 1. How the code is modelled

### 1.1 One model, several arithmetics

geokit is numerical code. Every function of the model is written **once**, generically
over a type `F` with the operations the Rust code applies to `f64` (class `Flt`,
`Verif/Arith.lean`): `+ - * /`, comparisons, `abs`, `floor`, `round_ties_even`, `mul_add`,
`sqrt`, `sin`, `atan2`, ... `Flt` has *operations but no laws*. The model is then read in three ways:

| tag | interpretation of `F` | what a theorem means |
|---|---|---|
| **any** | an arbitrary `F` with arbitrary operations | the claim holds for the real program whatever the hardware/libm computes: NaN, infinities and rounding included |
| **f64** | `F64 L`: IEEE-754 binary64 numbers (`Verif/Sem/F64.lean`): every finite double is a rational `m*2^e`, plus -0, infinities and NaN; `+ - * / mul_add floor round...` correctly rounded (ties to even); transcendental functions are an arbitrary record `L : Libm` | the claim holds bit-for-bit for f64, for every libm (or every libm satisfying the contract stated in the theorem) |
| **exact** | `XR`: the reals extended with NaN, +inf, -inf (`Verif/Sem/XR.lean`); division by zero, `sqrt` of negatives, `asin` out of domain, `ln 0`, ... return NaN/infinity instead of Lean's junk values | the formulas of the code are mathematically right, including which inputs lead to NaN; rounding is not modelled |

The exact reading deliberately does *not* use Lean's total real operations directly: `0/0` is NaN,
`1/0` infinite, `sqrt (-1)` NaN, so a guard forgotten by the code shows up in the theorem.

### 1.2 Results, panics, loops

Rust functions that can return `Err`, panic (assert, slice index out of bounds, `unimplemented!`) or loop for ever
return `Res a = Except Fail a` with `Fail = err msg | panic msg | diverge`. Unbounded `loop`s are
modelled by the denotation "value at the first iteration that breaks, `diverge` if none does"
(`loopUntil`). Loops with an iteration cap are structural recursions. `debug_assert!` is controlled by
an explicit `debug : Bool` argument where it matters.
Slices (`&[Float]`, `&mut [Float]`) are lists; a mutated buffer is returned. Traits whose users only call methods
(`CurveSegment`, `Crs`, `ToXYZ`, `XYZTransformation`) are records of functions, so that theorems about their users cover
every implementor, also future ones; `Projection` and `GeodesicSolver` are inductive types over the implementors present in the crate.
Strings (names, ids) are Lean strings.

### 1.3 Layout

* `Verif/Arith.lean` operations, `Res`, loops.
* `Verif/Model/*.lean` the model; one Lean file per Rust module group; each definition cites file and lines.
* `Verif/Sem/*.lean` the arithmetics `XR` and `F64` (`Round.lean`: rounding of a rational to the nearest double, ties to even).
* `Verif/Spec/*.lean` small independent specifications: `Circle` (directions), `Coords` (Euclidean distance), `Ellipsoid`
  (radii, surface), `Geodesics` (great circles, Vincenty's equations as published), `Karney`, `Rapp` (published series),
  `TransverseMercator` (spherical formulas), `SurfaceGeodesic` (unit-speed curves on the ellipsoid whose acceleration is normal to it).
  They use Mathlib's reals and do not import the model.
* `Verif/Lemmas/*.lean` helper lemmas. `Lemmas/Series` is a calculus of truncated power series in a small parameter
  whose coefficients are trigonometric polynomials of an angle, with an explicit bound of the remainder. Its
  computations are over the rationals and are evaluated by the kernel (`decide +kernel`, no compiler).
* `Verif/Props/*.lean` property theorems only, with `example`s showing that hypotheses are satisfiable.

## 2. Trusted base

* Lean's kernel; each theorem depends only on `propext`, `Classical.choice`, `Quot.sound` (checked with `#print axioms`). No own axioms, no `sorry`, no `native_decide`/`bv_decide`.
* The transcription of the Rust source into `Verif/Model` (by reading).
* The semantics in `Verif/Sem`: `F64` is our own definition of binary64; `XR` is exact arithmetic.
* **exact** theorems do not speak about rounding: where a property is tagged exact in `properties.jsonl`, it is proved in that reading, and this is part of its statement.

Not modelled: the formatting of one float (`Display` of every value type is modelled with the float formatting as a parameter,
`Model/Report.lean`), `LowerExp`, `Debug`, `clone`, the printing helpers `approx_eq_llh/xyz` and what `check_direct/check_inverse`
print (their decision is modelled), the CLI argument parsing and random sampling of `sample_s2` (its two conversion functions are
modelled), `as_line_string` (`todo!()` in the code), `Polynomial::solve` (stub), memory layout, const evaluation, threading (there is none).

### 2.1 The arithmetic `F64`

A double is NaN (one value: payloads and the sign of NaN are not modelled), an infinity, -0, or a rational of the form `m * 2^e` with
`|m| < 2^53`, `-1074 <= e <= 971`. `+ - * /` and `mul_add` are the exact rational result rounded to nearest, ties to even (`rndQ`),
overflowing to infinity at `2^1024`; subnormals are included. `sqrt`, `hypot`, `sin`, ... are fields of an arbitrary record `L : Libm`;
a theorem that needs something of them says so in a hypothesis (`HypotAxis L` in C56; `Accurate L` of `Spec/Accuracy.lean` in
C97 onwards, met by the library `roundLibm` of `Lemmas/NearExists.lean`). `Lemmas/Near.lean` has the rules by which rounding errors
add up: `Near x r e` says that the double `x` is finite and within `e` of the real number `r`. C100 onwards use the contract
`AccurateInverse L`, which adds hypot, cbrt, atan2 and cubes, and `Lemmas/Rel.lean`: `Rel x r d e` says that `x` is within
`d |r| + e` of `r`. C105 onwards use `AccurateProjection L` of `Spec/AccurateProjection.lean`, which adds the inverse trigonometric, hyperbolic and
exponential functions, also met by `roundLibm`. C108 adds `IeeeSpecial L` of `Spec/IeeeSpecial.lean`, the special values of IEEE 754
(NaN, infinities, overflow of `cosh`); `specialLibm` of `Lemmas/NearSpecial.lean` meets both. Literals are rounded rationals.
C113 to C116 use `AccurateGeodesic L` of `Spec/AccurateGeodesic.lean`, which adds `sin` up to 100 rad, `hypot` not negative and `atan2` in all four quadrants
(either sign of π on the cut, not beyond `FRAC_PI_2` on the right half plane); `geodesicLibm` in `Lemmas/NearGeodesic.lean` shows that it can be met.
C117 to C119 use `AccurateVincenty L` of `Spec/AccurateVincenty.lean`, which adds that the relative error of `powi(2)` on [-1.25, 1.25] is at most 2⁻⁵² plus the
smallest double and that its value is not negative there; the same library meets it (`Lemmas/NearVincenty.lean`).

### 2.2 The arithmetic `XR` and its artefacts

`XR` has no signed zero, no rounding, overflow or underflow. Three consequences to keep in mind when reading exact theorems:

* The pole: `cos(pi/2)` is exactly 0 in `XR`, in f64 it is 6e-17. Transverse Mercator `unproj` of a pole diverges, Rapp's direct solver
  ending exactly at a pole returns NaN for the longitude, and Karney's direct solver starting exactly at a pole loses the azimuth: in `XR` only.
* Loops that stop at `1e-12` do so in `XR` by convergence; in f64 the iterates could oscillate above the tolerance. For the inverse of transverse Mercator, C106 and C108 exclude this in a stated range of coordinates; elsewhere it is not excluded by these theorems.
* Ranges such as `[-pi, pi]` use the real pi; in f64 the constant is the double below pi (C02).

## 3. Plan per property

| id | tag | modelled | how it is proved |
|---|---|---|---|
| C01 Longitude wrapping: range and congruence | exact | remainder, Angle::wrapped, Lon ops | rounding-to-nearest-integer lemma |x - rte x| <= 1/2, scaled by 2pi |
| C02 Longitude range in IEEE arithmetic | f64 | same code on F64 | negation by kernel evaluation of concrete doubles (just above 17 pi; huge angles); `_partial`: exact remainder for small quotients gives the range for bounded input |
| C03 Angle normalisation is a canonical form | exact | Angle::normalized/normalize | uniqueness of the representative in (-pi, pi] of a class mod 2pi |
| C04 Oriented angle difference | exact | Angle::diff_to | from C03 plus minimality of |x| among congruent values |
| C05 Azimuth arithmetic is the circle group | exact | Azimuth | from C03; sequences by induction on the list |
| C06 Latitude range is an invariant of the API in IEEE arithmetic | f64 | Lat and all its operators as an inductive reachability predicate | induction on the op sequence; order lemmas for F64 comparisons |
| C07 Longitude range is an invariant of the API | exact | Lon and its operators as reachability predicate | induction |
| C08 Latitude operations saturate | exact | Lat::new/ops | clamp is the metric projection on an interval |
| C09 Unit conversion round trips | exact+f64 | units, Angle/Length new/val | field_simp; in F64 x*1 = x and x/1 = x |
| C10 Degree-minute-second decomposition | exact | Angle::dms | floor arithmetic; negation of `m <= 59` by witness; `_partial` bounds |
| C11 DMS constructors | exact | Lon/Lat/Azimuth::dms with debug flag | unfold; case analysis of guards |
| C12 Circle intervals: classification and length | exact | Interval | case analysis on wrapped bounds |
| C13 Approximate equality relations | exact | abs_diff_eq, approx_eq | order lemmas on XR |
| C14 Geodetic axes round trip | exact | GeodeticAxes normalize/denormalize | case analysis over the five variants, from C09 |
| C15 Axis conversions touch exactly dim slots | any | all three axis types | list lemmas, no arithmetic |
| C16 Geocentric and projected axes round trip | exact+f64 | GeocentricAxes/ProjectedAxes | as C14 |
| C17 Denormalised tolerances line up with coordinates | exact | denormalize_tol + Crs::approx_eq | scaling an inequality by a positive unit |
| C18 Crs::approx_eq contract | any | Crs::approx_eq | case analysis |
| C19 Cartesian distances are metrics | exact | dist, dist_to | identify nested hypot with the norm of EuclideanSpace |
| C20 Distance of a point to itself | exact | GeographicCrs::dist, Vincenty inverse | 2D: NaN propagates through the iteration so the loop ends in Err (negation); other CRSs: `_partial` |
| C21 Ellipsoid constructors accept exactly valid shapes | f64+exact | from_ab/from_ainvf | case analysis; order lemmas |
| C22 Ellipsoid parameters are mutually consistent | exact | derived parameters | field_simp/ring |
| C23 Radii of curvature | exact | radii | monotonicity of 1 - e^2 sin^2 |
| C24 Auxiliary latitudes mean what they say | exact | reduced/geocentric latitude | arctan/tan algebra |
| C25 Equality of ellipsoids, prime meridians and datums | f64 | PartialEq impls | IEEE equality is a partial equivalence |
| C26 Geodetic to geocentric conversion is the geometric one | exact | llh_to_xyz | algebra with sin^2+cos^2=1 |
| C27 Geodetic -> geocentric -> geodetic round trip | exact | llh_to_xyz, xyz_to_llh | true k is the unique positive root of Vermeille's quartic; the code's k is a positive root; half-angle formulas |
| C28 Geocentric -> geodetic -> geocentric round trip | exact | same | from the quartic: rebuild R and Z from k |
| C29 Spherical datum round trips | exact | spherical branches | polar coordinates, Complex.arg |
| C30 Prime meridian shift | exact | llh_to_xyz | ellipsoidal: periodicity (`_partial`); spherical: negation by witness |
| C31 Geocentric conversion never yields NaN | exact | xyz_to_llh | negation: the centre gives NaN height; `_partial` outside the evolute |
| C32 Web Mercator round trips | exact | WebMercator | tan/ln/exp/atan inversion |
| C33 Web Mercator shape | exact | WebMercator | monotonicity of tan and log |
| C34 Mercator round trips | exact | Mercator | sphere exact; ellipsoid: longitude and height exact, latitude within 1.5 e^10 rad for e² ≤ 1/50 (truncated series with explicit remainder, `Lemmas/Series`) |
| C35 Mercator shape and scale | exact | Mercator | monotonicity, evenness |
| C36 Transverse Mercator inverse terminates | exact | TransverseMercator::unproj loop | contraction with factor e^2; NaN divergence recorded |
| C37 Transverse Mercator symmetry | exact | TransverseMercator::proj | parity of each function |
| C38 Spherical transverse Mercator round trip | exact | TransverseMercator on a sphere | spherical trigonometry identities |
| C39 UTM zone geometry | exact | utm_lon0, utm_zone | negation for every zone: the model is 6z-180; recorded as a defect |
| C40 UTM north and south differ only by the false northing | exact | new_utm_north/south | unfold |
| C41 Projections never report an error and pass the height through | any | all projections | case analysis |
| C42 A coordinate transformation backwards is the swapped transformation forwards | any | CrsXYZTransformation | unfold |
| C43 Transformations write only the destination coordinates and never fail | any | ToXYZ, CrsXYZTransformation | from C15, C41 |
| C44 CRS transformation round trip | exact | CrsXYZTransformation | composition of C14, C16, C27, C28, C32, C34, C45 |
| C45 Geocentric translation is invertible | exact | GeocentricTranslation | ring |
| C46 Helmert transformation: inverse and residual | exact | Helmert7Params | exact residual formula, norm bound, negation of exact inverse |
| C47 Rotation conventions are opposite | f64 | Helmert7Params::new | negation is an involution in IEEE |
| C48 Polynomial evaluation | exact | Polynomial | list induction (Horner) |
| C49 Clenshaw summation | exact | clenshaw_sin_sum | list induction with the Chebyshev recurrence |
| C50 Complex arithmetic | exact | Complex | transport to Mathlib's complex numbers |
| C51 Two-sum is error free | f64 | fp::sum | classical TwoSum argument (Sterbenz, error of a sum is a double) on the rounding function; overflow excluded by hypothesis, examples show it is needed |
| C52 Point construction | any | Point | list lemmas |
| C53 Line string builder invariant | any | LineStringBuilder | induction on the sequence of calls |
| C54 Closing a line string | any | close | from C53 |
| C55 Arc-length parameterisation of line strings | exact | LineString::param | induction on the list of lengths |
| C56 Documented parameterisation contract in IEEE arithmetic | f64 | LineString::param | negation: concrete line strings evaluated in the kernel, `_partial`: line strings whose partial sums are exact |
| C57 Curve builder keeps segments connected | any | CurveBuilder | induction on the sequence of calls |
| C58 Curve dimension consistency | any | CurveBuilder::with_seg | negation by witness; `_partial` when the first segment matches |
| C59 Curve boundary | any | Curve::is_cycle/boundary | unfold |
| C60 Curve length and parameterisation | exact | Curve::length/param | induction on segments, from C55 |
| C61 Geodesic solvers are bounded and echo their input | any | Vincenty, Rapp, Karney | structural recursion with fuel 30 |
| C62 Vincenty inverse converged result | exact | Vincenty inverse | loop invariant relating the two runs |
| C63 Zero-length geodesic | exact | Vincenty/Karney direct | evaluate at s = 0 |
| C64 Geodesics on a sphere are great circles | exact | Vincenty/Karney on f = 0 | spherical trigonometry |
| C65 Clairaut's relation | exact | Vincenty/Karney direct | atan2 identities |
| C66 Karney inverse | any | Karney inverse | unfold: always panics (negation of the property) |
| C67 Rapp solver internal formulas | exact | Rapp | trigonometric identities; negation for cos_8_sigma_m |
| C68 Ellipsoid sampler | exact | s2_to_xyz, s2_to_ll | half-angle free: atan2 with algebra |
| C69 Generic fixed-point helper | any | iter_fn | unfold loopUntil |
| C70 Well-known constants are valid | exact | const tables | check each constant; negation for SPHERE |
| C71 Distances along the equator | exact | Vincenty inverse | the iteration is affine on the equator |
| C72 Vincenty direct solver | exact | Vincenty direct | loop invariant; atan2 identities on the auxiliary sphere |
| C73 Azimuth at the end is the direction of travel | exact | Vincenty/Karney/Rapp direct | sphere; negation for Rapp with a concrete witness |
| C74 Karney direct solver | exact | Karney direct | Clenshaw sums = published series |
| C75 Rapp direct solver | exact | Rapp direct | loop invariant |
| C76 Geodesic checks | exact+f64 | check_direct/check_inverse | case analysis over C13; NaN propagation |
| C77 Texts | any | Display of every value type | reading texts back piece by piece; negation for Geodesic |
| C78 Karney direct and the true geodesic | exact | Karney direct | geodesics by Bessel's auxiliary sphere, uniqueness by ODE theory, series error by kernel-evaluated remainders |
| C79 Vincenty direct and the true geodesic | exact | Vincenty direct | contraction of the loop; series error of A, B, C by kernel-evaluated remainders |
| C80 Vincenty inverse and the true geodesic | exact | Vincenty inverse | contraction of the iteration on an invariant interval; same series bounds as C79 |
| C81 Rapp direct and the true geodesic | exact | Rapp direct | contraction of the loop; series error of A_i, B_i; effect of mixing the last two iterates |
| C82 Rapp inverse and the true geodesic | exact | Rapp inverse | contraction of the loop on an invariant interval; series error; azimuth formulas of both branches; counterexample over the pole |
| C83 Transverse Mercator true to scale on the central meridian | exact | transverse Mercator forward | conformal latitude in closed form; series in n computed by the kernel; mean value theorem up to the poles |
| C84 Mercator and transverse Mercator are conformal | exact | all projections, forward | rates on the surface from the frame north/east; formulas as a complex-analytic function of isometric latitude and longitude |
| C85 Transverse Mercator round trip on the ellipsoid | exact | transverse Mercator forward and inverse | the two series composed over the complex numbers by the kernel; distances carried from the plane to the conformal sphere and to the ellipsoid in closed form |
| C86 Transverse Mercator round trip from the plane | exact | transverse Mercator forward and inverse | the reverse composition of the two series by the kernel; the loop tolerance carried to the plane by the mean value inequality |
| C87 Named tolerances | any, exact | GeodeticTolerance, InverseErrors and DirectErrors constants | evaluation of the constants against their documentation; recorded as a defect |
| C88 Named azimuths | exact | azimuth constants, constructors, addition and difference | directions in the horizon plane of every point |
| C89 Line strings from coordinates | any | LineString::new, pos, pos_iter, start, end, length, curve_boundary | splitting a coordinate buffer into positions |
| C90 Projection origins | exact | projection specifications with their false origin | image of the natural origin for every projection; recorded as a defect |
| C91 Conversions within a datum | exact | CrsXYZTransformation::fwd between geographic and projected CRS of one datum; between prime meridians | geodetic round trip C29 with C42 and C43 |
| C92 Symmetries of geodesics | any, exact | direct and inverse solvers, distance of 2D geographic CRS | both runs of the loop step by step; argument of opposite and conjugate complex numbers |
| C93 Direct after inverse | exact | Vincenty direct and inverse | Lipschitz bounds of Vincenty's series in azimuth and arc; C62, C72, C79 |
| C94 Inverse after direct | exact | Vincenty direct and inverse | the direct solver's longitude difference is a fixed point of the inverse solver's contraction; C79, C80, C93 |
| C95 Direct solvers agree | exact | Vincenty, Karney and Rapp direct | uniqueness of geodesics (C78) and the bounds of C78, C79, C81 |
| C96 Distances are shortest | exact | Vincenty, Rapp inverse; Vincenty, Karney direct; `GeographicCrs::dist` | fields of geodesics (Clairaut, Bessel), action integral, Lipschitz curves on the ellipsoid |
| C97 Rounding error of geocentric coordinates | f64 | `llh_to_xyz`, `e_sq`, `prime_vertical_radius`, `Lon + Angle` | rounding error of each operation (`Near`), exact remainder of C02, contract `Accurate L` for sqrt, sin, cos, powi |
| C98 Rounding error of datum shifts | f64 | `Helmert7Params`, `GeocentricTranslation`, `PPM` | `Near`, C97, C47 |
| C99 Rounding error of transformations to geocentric CRSs | f64 | units, `GeodeticAxes::normalize`, `GeocentricAxes`, `CrsXYZTransformation` | C97, C98, `Near`, Lipschitz bound of the clamp |
| C100 Rounding error of geodetic coordinates | f64 | `xyz_to_llh`, `e_sq` | `Rel` (relative error calculus, `Lemmas/Rel`), error analysis of Vermeille's `k` (`Lemmas/VermeilleF64`), C28 |
| C101 Round trip of geocentric coordinates in doubles | f64 | `xyz_to_llh`, `llh_to_xyz` | C97, C100 |
| C102 Conditioning of geodetic coordinates | exact | `llh_to_xyz` | `Lemmas/Conditioning` (normals of two points of the ellipsoid), no calculus |
| C103 Geodetic coordinates of inaccurate positions, round trip of geodetic coordinates in doubles | f64 | `llh_to_xyz`, `xyz_to_llh` | C97, C100, C102 |
| C104 Rounding error of transformations to geographic CRSs | f64 | `CrsXYZTransformation::{fwd, bwd}`, `GeodeticAxes::denormalize`, `Angle::val`, `Length::val` | C99, C103 |
| C105 Rounding error of transverse Mercator and UTM, forward | f64 | `TransverseMercator::{new, meridian_arc, proj}`, `utm_lon0`, `applied_to` | `Near` through the series (`Lemmas/Transverse*`), contract `AccurateProjection L`; sixty central meridians by evaluation |
| C106 Rounding error and termination of inverse transverse Mercator and UTM | f64 | `TransverseMercator::{new, unproj}` with its loop, `utm_lon0`, `applied_to` | contraction of the rounded iteration, `Near` through series and conformal sphere (`Lemmas/Transverse{Loop,Plane,Sphere,Latitude}`) |
| C107 Round trip through transverse Mercator and UTM in doubles | f64 | `TransverseMercator::{new, proj, unproj}`, `utm_lon0`, `applied_to` | C105, C106 and C85 joined by the metric of the ellipsoid (`Lemmas/TransverseReturn`) |
| C108 Inverse transverse Mercator returns for finite coordinates | f64 | `TransverseMercator::{new, unproj}` with its loop | overflow of `cosh` traced to NaN; contraction for every latitude (`Lemmas/TransverseOverflow`); witness library `Lemmas/NearSpecial` |
| C109 Web Mercator in doubles | f64 | `WebMercator::{new, proj, unproj}`, `Lon` arithmetic, `Lat::tan` | logarithmic error calculus (`Lemmas/LogNear`), `Lemmas/CylindricalRound` |
| C110 Mercator in doubles | f64 | `Mercator::{new, new_1_sp, new_2_sp, proj, unproj}`, `Ellipsoid::{e, e_sq}` | `Lemmas/MercatorRound`: scale, isometric latitude and series in the calculus of `Near` and `LNear`; truncation error from C34 |
| C111 transformations from a projected CRS in doubles | f64 | `ProjectedAxes::normalize`, `ProjectedCrs` as `ToXYZProvider`, all of `ProjectionSpec::applied_to`, `CrsXYZTransformation::{fwd, bwd}` | `Lemmas/ProjectedRead`: the inverse projections of C106, C109, C110 after rounded reading; movement along the parallel; then C97, C98, C103, C104 |
| C112 transformations to a projected CRS in doubles | f64 | `ProjectedAxes::denormalize`, `ProjectedCrs` as `ToXYZProvider`, all of `ProjectionSpec::applied_to`, `CrsXYZTransformation::{fwd, bwd}` | `Lemmas/ProjectedWrite`, `Lemmas/TransverseWrite`: how fast each projection moves when the position moves, then the rounding of C105, C107, C109, C110 |
| C113 Karney direct solver in doubles | f64 | `KarneyGeodesicSolver::{direct, solve_triangle_from_p, solve_triangle_from_e, A1, I1, sigma, A3, I3}`, `Ellipsoid::reduced_latitude`, `Polynomial::fast_eval_at`, `clenshaw_sin_sum` | `Lemmas/Karney{Round,SeriesRound,Longitude,Triangle,Arc,End,EndRound,Close}`: the rounded equatorial azimuth and arc of the start are the exact ones of a start nearby (backward error); series, end triangle, latitude and longitude rounded forwards; then the exact C78 |
| C114 forward error of the Karney direct solver in doubles | f64 | as C113 | `Lemmas/SurfaceStable`: neighbouring geodesics of a nearly spherical ellipsoid separate by a factor of at most exp(4.2 e'^2 s/a) (Gronwall for the squared separation of the geodesic flow); with C113 and the uniqueness of C78 |
| C115 there and back with the Karney direct solver in doubles | f64 | as C113 | C113 twice, `IsGeodesic.close` and `IsGeodesic.shift` |
| C116 geodesics in stages with the Karney direct solver in doubles | f64 | as C113 | C114 three times, uniqueness of C78, `IsGeodesic.close`, `IsGeodesic.shift`, `IsGeodesic.chord` |
| C117 the Vincenty direct solver in doubles | f64 | as C113, with `powi(2)` of a small relative error | `vin_loop`, `vincenty_ideal`, `hyp2_near`, `polar_near_all`, the truncation bounds of C79 |
| C118 the Vincenty and Karney direct solvers agree in doubles | f64 | as C113 and C117 | C114, C117, uniqueness of C78 |
| C119 geodesics in stages with the Vincenty direct solver in doubles | f64 | as C117 | C117 three times, uniqueness of C78, `IsGeodesic.close`, `IsGeodesic.shift`, `IsGeodesic.chord` |

## 4. Disagreements between code and property

For each of these the full statement is kept in `properties.jsonl`, its negation is proved with a concrete witness
(`*_violated` or named in the note), and a `_partial` theorem covers what does hold.

| id | what the code does |
|---|---|
| C02 | `Lon::new` of a double just above 17 pi (or a huge one) gives more than PI in f64 |
| C10 | `dms` can give 60 minutes (angles just below a whole degree) |
| C11 | debug assertions of the dms constructors miss the upper bound of the degrees (500 degrees accepted) |
| C20 | Vincenty inverse of two equal points returns `Err`, so the 2D geographic distance of a point to itself is `Err` |
| C30 | spherical datums ignore the prime meridian |
| C31 | the centre of the Earth, and a surface about 43 km around it, give a NaN height |
| C39 | UTM central meridian is 6z - 180 degrees, 3 degrees off; zone numbers are not checked; utm_zone never returns the standard number |
| C56 | `LineString::param(0)` is NaN if the first segment has length 0; `param(length)` can panic by rounding (segments 0.1, 0.2, 0.3) |
| C58 | `CurveBuilder::with_seg` does not check the dimension of the first segment |
| C63 | Rapp direct with s12 = 0 returns azimuth 0 |
| C67 | Rapp's `cos_8_sigma_m` is not the cosine of the eightfold angle |
| C70 | the ellipsoid constant `SPHERE` is not spherical |
| C73 | Rapp direct reverses the azimuth when sin(sigma) < 0 |
| C77 | `Display` of `Geodesic` prints the start longitude in place of the start latitude |
| C82 | Rapp inverse between opposite meridians takes the pole from the sign of the first latitude alone: from 30 N to 60 S the azimuths point over the north pole, the distance is that over the south pole |
| C87 | `GeodeticTolerance::small` is documented with 1e-3 m in height and has 1e-4 m (`Length::TINY`) |
| C90 | Web Mercator ignores `lat0`, documented as the latitude of the natural origin: the natural origin is not sent to the false origin |
| C108 | `unproj` of transverse Mercator never returns on a finite easting of 720000 km or more: `cosh` overflows, the loop variable becomes NaN and never meets the tolerance |

Further observations without a property of their own: Helmert `from_ref` is not the exact inverse of `to_ref` (C46 gives the residual);
`Crs::approx_eq` compares longitudes without wrapping;
transverse Mercator beyond 90 degrees from the central meridian is silently mirrored and `unproj`
loops for ever on NaN; `LineStringBuilder::with_line` does not check position lengths; `Interval::new(-pi, -pi)` is empty;
`Ellipsoid::from_ab` accepts infinite axes.

## 5. Testing the theorems against wrong programs

`/verif/seeded/LOG.jsonl` records every attempt: a definition of the model is edited in a scratch copy as a realistic bug, the property
files are rebuilt, and the theorems that fail are listed. Surviving edits led to the tightened theorems named in the log.
