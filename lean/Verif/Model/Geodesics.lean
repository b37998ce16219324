import Verif.Model.Geodesy

/-! Model of `geokit/src/geodesy/geodesics/*.rs`. -/

namespace Geo
variable {F : Type} [Flt F]

/-- geodesy/geodesics/mod.rs:11-17 `Geodesic`. -/
structure Geodesic (F : Type) where
  p1 : Lon F × Lat F
  alpha1 : Azimuth F
  p2 : Lon F × Lat F
  alpha2 : Azimuth F
  s : Length F

/-! ### vincenty.rs -/

/-- geodesy/geodesics/vincenty.rs:12-14 `VincentyGeodesicSolver`. -/
structure VincentyGeodesicSolver (F : Type) where
  ellipsoid : Ellipsoid F

namespace VincentyGeodesicSolver

/-- geodesy/geodesics/vincenty.rs:17. -/
def MAX_ITERATIONS : Nat := 30

/-- Eq (3), geodesy/geodesics/vincenty.rs:46, 194 (Rust precedence: `(u_sq / 16384.) * (...)`). -/
def seriesA (u_sq : F) : F :=
  1 + u_sq / 16384 * (4096 + u_sq * (-768 + u_sq * (320 - 175 * u_sq)))
/-- Eq (4), geodesy/geodesics/vincenty.rs:47, 196. -/
def seriesB (u_sq : F) : F := u_sq / 1024 * (256 + u_sq * (-128 + u_sq * (74 - 47 * u_sq)))
/-- Eq (6), geodesy/geodesics/vincenty.rs:60-68, 199-207. -/
def deltaSigma (B sin_sigma cos_sigma cos_2_sigma_m : F) : F :=
  B * sin_sigma * (cos_2_sigma_m
    + B / 4 * (cos_sigma * (-1 + 2 * Flt.powi cos_2_sigma_m 2)
      - B / 6 * cos_2_sigma_m * (-3 + 4 * Flt.powi sin_sigma 2)
        * (-3 + 4 * Flt.powi cos_2_sigma_m 2)))
/-- Eq (10), geodesy/geodesics/vincenty.rs:96, 164. -/
def seriesC (f cos_alpha_sq : F) : F := f / 16 * cos_alpha_sq * (4 + f * (4 - 3 * cos_alpha_sq))

/-- Variables of the loop of `direct`, geodesy/geodesics/vincenty.rs:50-52, 57. -/
structure DirectState (F : Type) where
  sigma : Angle F
  sin_sigma : F
  cos_sigma : F
  cos_2_sigma_m : F
  sigma_prev : Angle F

/-- One iteration, geodesy/geodesics/vincenty.rs:57-72. -/
def directStep (B : F) (sigma1 sigma_0 : Angle F) (st : DirectState F) : DirectState F :=
  let sigma_prev := st.sigma
  let delta_sigma := deltaSigma B st.sin_sigma st.cos_sigma st.cos_2_sigma_m
  let sigma := sigma_0 + Angle.new delta_sigma RAD
  { sigma := sigma
    sin_sigma := sigma.sin
    cos_sigma := sigma.cos
    cos_2_sigma_m := ((2 : F) * sigma1 + sigma).cos
    sigma_prev := sigma_prev }

/-- Exit test, geodesy/geodesics/vincenty.rs:74. -/
def directDone (st : DirectState F) : Bool := (st.sigma - st.sigma_prev).abs.rad <. 1e-12

/-- geodesy/geodesics/vincenty.rs:24-118 `direct` (`solve_direct`, 230-). -/
def direct (self : VincentyGeodesicSolver F) (p1 : Lon F × Lat F) (alpha1 : Azimuth F)
    (s12 : Length F) : Res (Geodesic F) := do
  let f := self.ellipsoid.f
  let lon1 := p1.1
  let lat1 := p1.2
  let tan_beta1 := (1 - f) * lat1.tan
  let cos_beta1 := 1 / Flt.sqrt (1 + tan_beta1 * tan_beta1)
  let sin_beta1 := tan_beta1 * cos_beta1
  let sin_alpha1 := alpha1.sin
  let cos_alpha1 := alpha1.cos
  let sigma1 := Angle.new (Flt.atan2 tan_beta1 cos_alpha1) RAD
  let sin_alpha := cos_beta1 * sin_alpha1
  let cos_alpha_sq := 1 - Flt.powi sin_alpha 2
  let u_sq := cos_alpha_sq * self.ellipsoid.ePrimeSq
  let A := seriesA u_sq
  let B := seriesB u_sq
  let sigma_0 := (ArcLength.mk s12).divLength (self.ellipsoid.b * A)
  let st ← loopMax (directStep B sigma1 sigma_0) directDone
    "Direct geodesic computation is not converging!" MAX_ITERATIONS
    { sigma := sigma_0
      sin_sigma := sigma_0.sin
      cos_sigma := sigma_0.cos
      cos_2_sigma_m := ((2 : F) * sigma1 + sigma_0).cos
      sigma_prev := sigma_0 }
  let sigma := st.sigma
  let sin_sigma := st.sin_sigma
  let cos_sigma := st.cos_sigma
  let cos_2_sigma_m := st.cos_2_sigma_m
  let lat2 := Angle.new (Flt.atan2 (sin_beta1 * cos_sigma + cos_beta1 * sin_sigma * cos_alpha1)
    ((1 - f) * Flt.sqrt (Flt.powi sin_alpha 2
      + Flt.powi (sin_beta1 * sin_sigma - cos_beta1 * cos_sigma * cos_alpha1) 2))) RAD
  let lambda := Angle.new (Flt.atan2 (sin_sigma * sin_alpha1)
    (cos_beta1 * cos_sigma - sin_beta1 * sin_sigma * cos_alpha1)) RAD
  let C := seriesC f cos_alpha_sq
  let lambda_minus_L : Angle F := ((1 - C) * f * sin_alpha)
    * (sigma + Angle.new (C * sin_sigma
        * (cos_2_sigma_m + C * cos_sigma * (-1 + 2 * Flt.powi cos_2_sigma_m 2))) RAD)
  let L := lambda - lambda_minus_L
  let alpha2 := Angle.new
    (Flt.atan2 sin_alpha (-sin_beta1 * sin_sigma + cos_beta1 * cos_sigma * cos_alpha1)) RAD
  return { p1 := p1, alpha1 := alpha1, p2 := (lon1.addAngle L, Lat.new lat2)
           alpha2 := Azimuth.new alpha2, s := s12 }

/-- Variables of the loop of `inverse`, geodesy/geodesics/vincenty.rs:131-136, 177. -/
structure InverseState (F : Type) where
  lambda : F
  sin_lambda : F
  cos_lambda : F
  cos_alpha_sq : F
  sigma : F
  sin_sigma : F
  cos_sigma : F
  cos_2_sigma_m : F
  lambda_prev : F

/-- One iteration, geodesy/geodesics/vincenty.rs:140-179. -/
def inverseStep (f sin_beta1 cos_beta1 sin_beta2 cos_beta2 L : F) (st : InverseState F) :
    InverseState F :=
  let sin_lambda := st.sin_lambda
  let cos_lambda := st.cos_lambda
  let sin_sigma_sq := Flt.powi (cos_beta2 * sin_lambda) 2
    + Flt.powi (cos_beta1 * sin_beta2 - sin_beta1 * cos_beta2 * cos_lambda) 2
  let cos_sigma_i := sin_beta1 * sin_beta2 + cos_beta1 * cos_beta2 * cos_lambda
  let sigma := Flt.atan2 (Flt.sqrt sin_sigma_sq) cos_sigma_i
  let sin_sigma := Flt.sin sigma
  let cos_sigma := Flt.cos sigma
  let sin_alpha := cos_beta1 * cos_beta2 * sin_lambda / sin_sigma
  let cos_alpha_sq := 1 - Flt.powi sin_alpha 2
  let equatorial := cos_alpha_sq ==. 0
  let cos_2_sigma_m :=
    if equatorial then st.cos_2_sigma_m else cos_sigma - 2 * sin_beta1 * sin_beta2 / cos_alpha_sq
  let lambda_minus_L :=
    if equatorial then f * sin_alpha * sigma
    else
      let upper_c := seriesC f cos_alpha_sq
      (1 - upper_c) * f * sin_alpha
        * (sigma + upper_c * sin_sigma
            * (cos_2_sigma_m + upper_c * cos_sigma * (-1 + 2 * Flt.powi cos_2_sigma_m 2)))
  let lambda := lambda_minus_L + L
  { lambda := lambda, sin_lambda := Flt.sin lambda, cos_lambda := Flt.cos lambda
    cos_alpha_sq := cos_alpha_sq, sigma := sigma, sin_sigma := sin_sigma, cos_sigma := cos_sigma
    cos_2_sigma_m := cos_2_sigma_m, lambda_prev := st.lambda }

/-- Exit test, geodesy/geodesics/vincenty.rs:180. -/
def inverseDone (st : InverseState F) : Bool := Flt.abs (st.lambda - st.lambda_prev) <. 1e-12

/-- State before the loop, geodesy/geodesics/vincenty.rs:131-136; the variables left uninitialised in
Rust (always written before they are read) are given the value `0`. -/
def inverseInit (L : F) : InverseState F :=
  { lambda := L, sin_lambda := Flt.sin L, cos_lambda := Flt.cos L, cos_alpha_sq := 0, sigma := 0
    sin_sigma := 0, cos_sigma := 0, cos_2_sigma_m := 0, lambda_prev := L }

/-- geodesy/geodesics/vincenty.rs:188-211: the length of the geodesic. -/
def inverseLength (e : Ellipsoid F) (st : InverseState F) : Length F :=
  if st.cos_alpha_sq ==. 0 then Length.new (e.b.m * st.sigma) M
  else
    let u_sq := st.cos_alpha_sq * e.ePrimeSq
    let A := seriesA u_sq
    let B := seriesB u_sq
    let delta_sigma := deltaSigma B st.sin_sigma st.cos_sigma st.cos_2_sigma_m
    Length.new (e.b.m * A * (st.sigma - delta_sigma)) M

/-- geodesy/geodesics/vincenty.rs:120-227 `inverse` (`solve_inverse`). -/
def inverse (self : VincentyGeodesicSolver F) (p1 p2 : Lon F × Lat F) : Res (Geodesic F) := do
  let f := self.ellipsoid.f
  let beta1 := self.ellipsoid.reducedLatitude p1.2
  let beta2 := self.ellipsoid.reducedLatitude p2.2
  let sin_beta1 := beta1.sin
  let cos_beta1 := beta1.cos
  let sin_beta2 := beta2.sin
  let cos_beta2 := beta2.cos
  let L := (p2.1.sub p1.1).rad
  let st ← loopMax (inverseStep f sin_beta1 cos_beta1 sin_beta2 cos_beta2 L) inverseDone
    "Inverse geodesic computation is not converging!" MAX_ITERATIONS (inverseInit L)
  let s := inverseLength self.ellipsoid st
  let alpha1 := Flt.atan2 (cos_beta2 * st.sin_lambda)
    (cos_beta1 * sin_beta2 - sin_beta1 * cos_beta2 * st.cos_lambda)
  let alpha2 := Flt.atan2 (cos_beta1 * st.sin_lambda)
    (-sin_beta1 * cos_beta2 + cos_beta1 * sin_beta2 * st.cos_lambda)
  return { p1 := p1, alpha1 := Azimuth.new (Angle.new alpha1 RAD), p2 := p2
           alpha2 := Azimuth.new (Angle.new alpha2 RAD), s := s }

end VincentyGeodesicSolver

/-! ### rapp.rs -/

/-- geodesy/geodesics/rapp.rs:13-16 `RappIterativeGeodisicSolver`; the array `axs` is four fields. -/
structure RappSolver (F : Type) where
  ellipsoid : Ellipsoid F
  a0 : Polynomial F
  a2 : Polynomial F
  a4 : Polynomial F
  a6 : Polynomial F

namespace RappSolver

/-- geodesy/geodesics/rapp.rs:19. -/
def MAX_ITERATIONS : Nat := 30

/-- geodesy/geodesics/rapp.rs:21-50 `new`. -/
def new (ellipsoid : Ellipsoid F) : RappSolver F :=
  let f := ellipsoid.f
  { ellipsoid := ellipsoid
    a0 := ⟨[1, -(f / 4 * (1 + f * (1 + f))), 3 * f * f / 16 * (1 + 9 * f / 4), -25 * f * f * f / 128]⟩
    a2 := ⟨[0, f / 4 * (1 + f * (1 + f)), -f * f / 4 * (1 + 9 * f / 4), 75 * f * f * f / 256]⟩
    a4 := ⟨[0, 0, f * f / 32 * (1 + 9 * f / 4), -15 * f * f * f / 256]⟩
    a6 := ⟨[0, 0, 0, 5 * f * f * f / 768]⟩ }

/-- geodesy/geodesics/rapp.rs:66-67, 238-240. -/
def b0 (u_sq : F) : F :=
  1 + u_sq * (1 / 4 + u_sq * (-3 / 64 + u_sq * (5 / 256 + u_sq * -175 / 16384)))
/-- geodesy/geodesics/rapp.rs:68, 241-242. -/
def b2 (u_sq : F) : F :=
  u_sq * (-1 / 4 + u_sq * (1 / 16 + u_sq * (-15 / 512 + u_sq * 35 / 2048)))
/-- geodesy/geodesics/rapp.rs:69, 243. -/
def b4 (u_sq : F) : F := u_sq * u_sq * (-1 / 128 + u_sq * (3 / 512 + u_sq * -35 / 8192))
/-- geodesy/geodesics/rapp.rs:70, 244. -/
def b6 (u_sq : F) : F := u_sq * u_sq * u_sq * (-1 / 1536 + u_sq * 5 / 6144)
/-- geodesy/geodesics/rapp.rs:245. -/
def b8 (u_sq : F) : F := u_sq * u_sq * u_sq * u_sq * (-5 / 65536)

/-- Variables of the loop of `direct`, geodesy/geodesics/rapp.rs:74-81, 102. -/
structure DirectState (F : Type) where
  sigma : F
  sin_sigma : F
  cos_sigma : F
  sin_2_sigma : F
  sin_3_sigma : F
  sigma_1 : F
  cos_2_sigma_m : F
  cos_4_sigma_m : F
  cos_6_sigma_m : F
  sigma_old : F

/-- One iteration, geodesy/geodesics/rapp.rs:85-103. -/
def directStep (beta1 : Angle F) (cos_alpha1 u_sq sigma_0 : F) (st : DirectState F) :
    DirectState F :=
  let sigma := st.sigma
  let sin_sigma := Flt.sin sigma
  let cos_sigma := Flt.cos sigma
  let sin_2_sigma := 2 * sin_sigma * cos_sigma
  let sin_3_sigma := 3 * sin_sigma * Flt.powi cos_sigma 2 - Flt.powi sin_sigma 3
  let sigma_1 := Flt.atan2 beta1.tan cos_alpha1
  let two_sigma_m := 2 * sigma_1 + sigma
  let cos_2_sigma_m := Flt.cos two_sigma_m
  let cos_4_sigma_m := 2 * Flt.powi cos_2_sigma_m 2 - 1
  let cos_6_sigma_m :=
    Flt.powi cos_2_sigma_m 3 - 3 * cos_2_sigma_m * (1 - Flt.powi cos_2_sigma_m 2)
  let next_sigma := sigma_0
    - b2 u_sq / b0 u_sq * sin_sigma * cos_2_sigma_m
    - b4 u_sq / b0 u_sq * sin_2_sigma * cos_4_sigma_m
    - b6 u_sq / b0 u_sq * sin_3_sigma * cos_6_sigma_m
  { sigma := next_sigma, sin_sigma := sin_sigma, cos_sigma := cos_sigma
    sin_2_sigma := sin_2_sigma, sin_3_sigma := sin_3_sigma, sigma_1 := sigma_1
    cos_2_sigma_m := cos_2_sigma_m, cos_4_sigma_m := cos_4_sigma_m, cos_6_sigma_m := cos_6_sigma_m
    sigma_old := sigma }

/-- Exit test, geodesy/geodesics/rapp.rs:104. -/
def directDone (st : DirectState F) : Bool := Flt.abs (st.sigma - st.sigma_old) <. 0.5e-14

/-- geodesy/geodesics/rapp.rs:137-146: the azimuth at the end point. -/
def directAlpha2 (short : Bool) (beta1 beta2 : Angle F) (sin_lambda cos_lambda : F) : F :=
  if short then
    let sin_lambda_2_sq := (1 - cos_lambda) / 2
    Flt.atan2 (sin_lambda * beta1.cos)
      ((beta2 - beta1).sin - 2 * beta1.cos * beta2.sin * sin_lambda_2_sq)
  else
    Flt.atan2 (sin_lambda * beta1.cos) (beta2.sin * beta1.cos * cos_lambda - beta1.sin * beta2.cos)

/-- geodesy/geodesics/rapp.rs:52-155 `direct`.  `self.ellipsoid.b() * b0` is `Length * Float`. -/
def direct (self : RappSolver F) (p1 : Lon F × Lat F) (alpha1 : Azimuth F) (s12 : Length F) :
    Res (Geodesic F) := do
  let lon1 := p1.1
  let beta1 := self.ellipsoid.reducedLatitude p1.2
  let sin_beta1 := beta1.sin
  let cos_beta1 := beta1.cos
  let sin_alpha1 := alpha1.sin
  let cos_alpha1 := alpha1.cos
  let sin_alpha := sin_alpha1 * cos_beta1
  let cos_alpha_sq := 1 - Flt.powi sin_alpha 2
  let u_sq := self.ellipsoid.ePrimeSq * cos_alpha_sq
  let sigma_0 := s12.m / (self.ellipsoid.b * b0 u_sq).m
  let st ← loopMax (directStep beta1 cos_alpha1 u_sq sigma_0) directDone
    "Direct geodesic computation is not converging!" MAX_ITERATIONS
    { sigma := sigma_0, sin_sigma := 0, cos_sigma := 0, sin_2_sigma := 0, sin_3_sigma := 0
      sigma_1 := 0, cos_2_sigma_m := 0, cos_4_sigma_m := 0, cos_6_sigma_m := 0, sigma_old := 0 }
  let alpha := Flt.asin sin_alpha
  let beta2 := Angle.new (Flt.asin (Flt.sin (st.sigma_1 + st.sigma) * Flt.cos alpha)) RAD
  let sin_beta2 := beta2.sin
  let cos_beta2 := beta2.cos
  let lat2 := Flt.atan2 beta2.tan (1 - self.ellipsoid.f)
  let sin_lambda := st.sin_sigma * sin_alpha1 / cos_beta2
  let cos_lambda := (st.cos_sigma - sin_beta1 * sin_beta2) / (cos_beta1 * cos_beta2)
  let lambda := Flt.atan2 sin_lambda cos_lambda
  let f := self.ellipsoid.f
  let lambda_minus_L := f * sin_alpha
    * (self.a0.fastEvalAt cos_alpha_sq * st.sigma
      + self.a2.fastEvalAt cos_alpha_sq * st.sin_sigma * st.cos_2_sigma_m
      + self.a4.fastEvalAt cos_alpha_sq * st.sin_2_sigma * st.cos_4_sigma_m
      + self.a6.fastEvalAt cos_alpha_sq * st.sin_3_sigma * st.cos_6_sigma_m)
  let L := lambda - lambda_minus_L
  let alpha21 := directAlpha2 (s12.m <. 1000) beta1 beta2 sin_lambda cos_lambda
  return { p1 := p1, alpha1 := alpha1
           p2 := (lon1.addAngle (Angle.new L RAD), Lat.new (Angle.new lat2 RAD))
           alpha2 := Azimuth.new (Angle.new alpha21 RAD), s := s12 }

/-- Variables of the loop of `inverse`, geodesy/geodesics/rapp.rs:168-180, 222. -/
structure InverseState (F : Type) where
  lambda : F
  cos_lambda : F
  sigma : F
  sin_sigma : F
  sin_2_sigma : F
  sin_3_sigma : F
  sin_4_sigma : F
  sin_alpha : F
  cos_alpha_sq : F
  cos_2_sigma_m : F
  cos_4_sigma_m : F
  cos_6_sigma_m : F
  cos_8_sigma_m : F
  lambda_prev : F

/-- One iteration, geodesy/geodesics/rapp.rs:184-223. -/
def inverseStep (self : RappSolver F) (sin_beta1 cos_beta1 sin_beta2 cos_beta2 L : F)
    (st : InverseState F) : InverseState F :=
  let f := self.ellipsoid.f
  let sin_lambda := Flt.sin st.lambda
  let cos_lambda := Flt.cos st.lambda
  let cos_sigma := sin_beta1 * sin_beta2 + cos_beta1 * cos_beta2 * cos_lambda
  let sin_sigma := Flt.sqrt (Flt.powi (sin_lambda * cos_beta2) 2
    + Flt.powi (sin_beta2 * cos_beta1 - sin_beta1 * cos_beta2 * cos_lambda) 2)
  let sigma := Flt.atan2 sin_sigma cos_sigma
  let sin_2_sigma := 2 * sin_sigma * cos_sigma
  let sin_3_sigma := 3 * sin_sigma * Flt.powi cos_sigma 2 - Flt.powi sin_sigma 3
  let sin_4_sigma :=
    4 * sin_sigma * Flt.powi cos_sigma 3 - 4 * Flt.powi sin_sigma 3 * cos_sigma
  let sin_alpha := cos_beta1 * cos_beta2 * sin_lambda / sin_sigma
  let cos_alpha_sq := 1 - Flt.powi sin_alpha 2
  let equatorial := cos_alpha_sq ==. 0
  let cos_2_sigma_m :=
    if equatorial then st.cos_2_sigma_m else cos_sigma - 2 * sin_beta1 * sin_beta2 / cos_alpha_sq
  let cos_4_sigma_m :=
    if equatorial then st.cos_4_sigma_m else 2 * Flt.powi cos_2_sigma_m 2 - 1
  let cos_6_sigma_m :=
    if equatorial then st.cos_6_sigma_m
    else Flt.powi cos_2_sigma_m 3 - 3 * cos_2_sigma_m * (1 - Flt.powi cos_2_sigma_m 2)
  let cos_8_sigma_m :=
    if equatorial then st.cos_8_sigma_m
    else Flt.powi cos_2_sigma_m 4 - 6 * Flt.powi cos_2_sigma_m 2 * Flt.powi sin_2_sigma 2
      + Flt.powi sin_2_sigma 4
  let lambda_minus_L :=
    if equatorial then f * sin_alpha * sigma
    else f * sin_alpha
      * (self.a0.evalAt cos_alpha_sq * sigma
        + self.a2.evalAt cos_alpha_sq * sin_sigma * cos_2_sigma_m
        + self.a4.evalAt cos_alpha_sq * sin_2_sigma * cos_4_sigma_m
        + self.a6.evalAt cos_alpha_sq * sin_3_sigma * cos_6_sigma_m)
  { lambda := L + lambda_minus_L, cos_lambda := cos_lambda
    sigma := sigma, sin_sigma := sin_sigma
    sin_2_sigma := sin_2_sigma, sin_3_sigma := sin_3_sigma, sin_4_sigma := sin_4_sigma
    sin_alpha := sin_alpha, cos_alpha_sq := cos_alpha_sq, cos_2_sigma_m := cos_2_sigma_m
    cos_4_sigma_m := cos_4_sigma_m, cos_6_sigma_m := cos_6_sigma_m
    cos_8_sigma_m := cos_8_sigma_m, lambda_prev := st.lambda }

/-- Exit test, geodesy/geodesics/rapp.rs:224. -/
def inverseDone (st : InverseState F) : Bool := Flt.abs (st.lambda - st.lambda_prev) <. 0.5e-14

/-- State before the loop, geodesy/geodesics/rapp.rs:168-180; variables left uninitialised in Rust are
given the value `0`. -/
def inverseInit (L : F) : InverseState F :=
  { lambda := L, cos_lambda := 0, sigma := 0, sin_sigma := 0, sin_2_sigma := 0
    sin_3_sigma := 0, sin_4_sigma := 0, sin_alpha := 0, cos_alpha_sq := 0, cos_2_sigma_m := 0
    cos_4_sigma_m := 0, cos_6_sigma_m := 0, cos_8_sigma_m := 0, lambda_prev := 0 }

/-- geodesy/geodesics/rapp.rs:234-255: the length of the geodesic. -/
def inverseLength (e : Ellipsoid F) (st : InverseState F) : Length F :=
  if st.cos_alpha_sq ==. 0 then Length.new (e.b * st.sigma).m M
  else
    let u_sq := e.ePrimeSq * st.cos_alpha_sq
    let s_m := (e.b * (b0 u_sq * st.sigma
      + b2 u_sq * st.sin_sigma * st.cos_2_sigma_m
      + b4 u_sq * st.sin_2_sigma * st.cos_4_sigma_m
      + b6 u_sq * st.sin_3_sigma * st.cos_6_sigma_m
      + b8 u_sq * st.sin_4_sigma * st.cos_8_sigma_m)).m
    Length.new s_m M

/-- geodesy/geodesics/rapp.rs:278-296: `(tan_alpha12, tan_alpha21)`. -/
def inverseTans (short : Bool) (beta1 beta2 : Angle F) (lambda cos_lambda : F) : F × F :=
  if short then
    let sin_lambda_2_sq := (1 - cos_lambda) / 2
    (Flt.sin lambda * beta2.cos
        / ((beta2 - beta1).sin + 2 * beta1.sin * beta2.cos * sin_lambda_2_sq),
     Flt.sin lambda * beta1.cos
        / ((beta2 - beta1).sin - 2 * beta1.cos * beta2.sin * sin_lambda_2_sq))
  else
    (Flt.sin lambda * beta2.cos
        / (beta2.sin * beta1.cos - Flt.cos lambda * beta1.sin * beta2.cos),
     Flt.sin lambda * beta1.cos
        / (beta2.sin * beta1.cos * Flt.cos lambda - beta1.sin * beta2.cos))

/-- geodesy/geodesics/rapp.rs:157-310 `inverse`.  In the short-line formulas the Rust code uses the
`cos_lambda` of the last iteration, computed from the previous `lambda`. -/
def inverse (self : RappSolver F) (p1 p2 : Lon F × Lat F) : Res (Geodesic F) := do
  let lat1 := p1.2
  let lat2 := p2.2
  let beta1 := self.ellipsoid.reducedLatitude lat1
  let beta2 := self.ellipsoid.reducedLatitude lat2
  let sin_beta1 := beta1.sin
  let cos_beta1 := beta1.cos
  let sin_beta2 := beta2.sin
  let cos_beta2 := beta2.cos
  let L := (p2.1.sub p1.1).rad
  let st ← loopMax (inverseStep self sin_beta1 cos_beta1 sin_beta2 cos_beta2 L) inverseDone
    "Inverse geodesic computation is not converging!" MAX_ITERATIONS (inverseInit L)
  let s := inverseLength self.ellipsoid st
  let sin_alpha1 := st.sin_alpha / cos_beta1
  let sin_alpha2 := st.sin_alpha / cos_beta2
  let alphas : F × F :=
    if st.lambda ==. 0 then
      if lat1.lt lat2 then (0, 0) else (pi, pi)
    else if st.lambda ==. pi then
      if (Lat.ZERO : Lat F).le lat1 then (0, pi) else (pi, 0)
    else
      let tans := inverseTans (s.m <. 10000) beta1 beta2 st.lambda st.cos_lambda
      (Flt.atan2 sin_alpha1 (sin_alpha1 / tans.1), Flt.atan2 sin_alpha2 (sin_alpha2 / tans.2))
  return { p1 := p1, alpha1 := Azimuth.new (Angle.new alphas.1 RAD), p2 := p2
           alpha2 := Azimuth.new (Angle.new alphas.2 RAD), s := s }

end RappSolver

/-! ### karney.rs -/

/-- geodesy/geodesics/karney.rs:200-214 `Triangle`. -/
structure Triangle (F : Type) where
  alpha0 : Azimuth F
  alpha : Azimuth F
  beta : Angle F
  sigma : Angle F
  omega : Angle F

/-- geodesy/geodesics/karney.rs:219-245 `solve_triangle_from_p`. -/
def solveTriangleFromP (beta : Angle F) (alpha : Azimuth F) : Triangle F :=
  let sin_alpha := alpha.sin
  let cos_alpha := alpha.cos
  let sin_beta := beta.sin
  let cos_beta := beta.cos
  let alpha0 := (Cplx.mk (Cplx.mk cos_alpha (sin_alpha * sin_beta)).abs (sin_alpha * cos_beta)).arg
  let sigma := (Cplx.mk (cos_alpha * cos_beta) sin_beta).arg
  let sin_sigma := sigma.sin
  let cos_sigma := sigma.cos
  let sin_alpha0 := alpha0.sin
  let omega := (Cplx.mk cos_sigma (sin_alpha0 * sin_sigma)).arg
  { alpha0 := Azimuth.new alpha0, alpha := alpha, beta := beta, sigma := sigma, omega := omega }

/-- geodesy/geodesics/karney.rs:250-274 `solve_triangle_from_e`. -/
def solveTriangleFromE (alpha0 : Azimuth F) (sigma : Angle F) : Triangle F :=
  let sin_alpha0 := alpha0.sin
  let cos_alpha0 := alpha0.cos
  let sin_sigma := sigma.sin
  let cos_sigma := sigma.cos
  let alpha := (Cplx.mk (cos_alpha0 * cos_sigma) sin_alpha0).arg
  let beta := (Cplx.mk (Cplx.mk (cos_alpha0 * cos_sigma) sin_alpha0).abs (cos_alpha0 * sin_sigma)).arg
  let omega := (Cplx.mk cos_sigma (sin_alpha0 * sin_sigma)).arg
  { alpha0 := alpha0, alpha := Azimuth.new alpha, beta := beta, sigma := sigma, omega := omega }

/-- geodesy/geodesics/karney.rs:18-22 `KarneyGeodesicSolver`. -/
structure KarneyGeodesicSolver (F : Type) where
  ellipsoid : Ellipsoid F
  a3 : Polynomial F
  c3l : List (Polynomial F)

namespace KarneyGeodesicSolver

/-- geodesy/geodesics/karney.rs:26 `PA1`. -/
def PA1 : Polynomial F := ⟨[1, 0, 1 / 4, 0, 1 / 64, 0, 1 / 256]⟩
/-- geodesy/geodesics/karney.rs:28-36 `C1L`. -/
def C1L : List (Polynomial F) :=
  [⟨[0, 0, 0, 0, 0, 0, 0]⟩,
   ⟨[0, -0.5, 0, 3 / 16, 0, -1 / 32, 0]⟩,
   ⟨[0, 0, -1 / 16, 0, 1 / 32, 0, -9 / 2048]⟩,
   ⟨[0, 0, 0, -1 / 48, 0, 3 / 256, 0]⟩,
   ⟨[0, 0, 0, 0, -5 / 512, 0, 3 / 512]⟩,
   ⟨[0, 0, 0, 0, 0, -7 / 1280, 0]⟩,
   ⟨[0, 0, 0, 0, 0, 0, -7 / 2048]⟩]
/-- geodesy/geodesics/karney.rs:38-45 `CP1L`. -/
def CP1L : List (Polynomial F) :=
  [⟨[0, 1 / 2, 0, -9 / 32, 0, 205 / 1536, 0]⟩,
   ⟨[0, 0, 5 / 16, 0, -37 / 96, 0, 1335 / 4096]⟩,
   ⟨[0, 0, 0, 29 / 96, 0, -75 / 128, 0]⟩,
   ⟨[0, 0, 0, 0, 539 / 1536, 0, -2391 / 2560]⟩,
   ⟨[0, 0, 0, 0, 0, 3467 / 7680, 0]⟩,
   ⟨[0, 0, 0, 0, 0, 0, 38081 / 61440]⟩]

/-- geodesy/geodesics/karney.rs:48-102 `new`. -/
def new (ellipsoid : Ellipsoid F) : KarneyGeodesicSolver F :=
  let n := ellipsoid.n
  let poly (c : List F) : F := (Polynomial.mk c).fastEvalAt n
  { ellipsoid := ellipsoid
    a3 := ⟨[1, -poly [1 / 2, -1 / 2], -poly [1 / 4, 1 / 8, -3 / 8], -poly [1 / 16, 3 / 16, 1 / 16],
      -poly [3 / 64, 1 / 32], -3 / 128]⟩
    c3l :=
      [⟨[0, 0, 0, 0, 0, 0]⟩,
       ⟨[0, poly [1 / 4, -1 / 4], poly [1 / 8, 0, -1 / 8], poly [3 / 64, 3 / 64, -1 / 64],
          poly [5 / 128, 1 / 64], 3 / 128]⟩,
       ⟨[0, 0, poly [1 / 16, -3 / 32, 1 / 32], poly [3 / 64, -1 / 32, -3 / 64],
          poly [3 / 128, 1 / 128], 5 / 256]⟩,
       ⟨[0, 0, 0, poly [5 / 192, -3 / 64, 5 / 192], poly [3 / 128, -5 / 192], 7 / 512]⟩,
       ⟨[0, 0, 0, 0, poly [7 / 512, -7 / 256], 7 / 512]⟩,
       ⟨[0, 0, 0, 0, 0, 21 / 2560]⟩] }

/-- geodesy/geodesics/karney.rs:156-158 `A1`. -/
def A1 (epsilon : F) : F := PA1.fastEvalAt epsilon / (1 - epsilon)

/-- geodesy/geodesics/karney.rs:162-165 `I1`. -/
def I1 (epsilon A1 : F) (sigma : Angle F) : F :=
  let C1L := C1L.map (fun p => p.fastEvalAt epsilon)
  A1 * (sigma.rad + clenshawSinSum C1L (2 * sigma.rad))

/-- geodesy/geodesics/karney.rs:169-178 `Sigma`. -/
def Sigma (epsilon : F) (tau : Angle F) : Angle F :=
  let cp1xs : List F := CP1L.map (fun p => p.fastEvalAt epsilon)
  tau + Angle.new (fsum (cp1xs.zipIdx.map
    (fun p => p.1 * ((2 : F) * tau * (lit ((p.2 + 1 : Nat) : Rat) : F)).sin))) RAD

/-- geodesy/geodesics/karney.rs:181-183 `A3`. -/
def A3 (self : KarneyGeodesicSolver F) (epsilon : F) : F := self.a3.fastEvalAt epsilon

/-- geodesy/geodesics/karney.rs:187-190 `I3`. -/
def I3 (self : KarneyGeodesicSolver F) (A3 epsilon : F) (sigma : Angle F) : F :=
  let C3L := self.c3l.map (fun p => p.fastEvalAt epsilon)
  A3 * (sigma.rad + clenshawSinSum C3L (2 * sigma.rad))

/-- geodesy/geodesics/karney.rs:104-147 `direct` (`solve_direct` wraps it in `Ok`, 277-284). -/
def direct (self : KarneyGeodesicSolver F) (p1 : Lon F × Lat F) (alpha1 : Azimuth F)
    (s12 : Length F) : Geodesic F :=
  let lon1 := p1.1
  let beta1 := self.ellipsoid.reducedLatitude p1.2
  let nep1 := solveTriangleFromP beta1 alpha1
  let sin_alpha0 := nep1.alpha0.sin
  let cos_alpha0 := nep1.alpha0.cos
  let k2 := self.ellipsoid.ePrimeSq * cos_alpha0 * cos_alpha0
  let t := Flt.sqrt (1 + k2)
  let epsilon := (t - 1) / (t + 1)
  let A1 := A1 epsilon
  let I1_sigma1 := I1 epsilon A1 nep1.sigma
  let s1 : Length F := self.ellipsoid.b * I1_sigma1
  let s2 := s1 + s12
  let tau2 := (ArcLength.mk s2).divLength (self.ellipsoid.b * A1)
  let sigma2 := Sigma epsilon tau2
  let nep2 := solveTriangleFromE nep1.alpha0 sigma2
  let A3 := self.A3 epsilon
  let I3_sigma1 := self.I3 A3 epsilon nep1.sigma
  let I3_sigma2 := self.I3 A3 epsilon nep2.sigma
  let lambda1 := nep1.omega - Angle.new (self.ellipsoid.f * sin_alpha0 * I3_sigma1) RAD
  let lambda2 := nep2.omega - Angle.new (self.ellipsoid.f * sin_alpha0 * I3_sigma2) RAD
  let lambda12 := lambda2 - lambda1
  let lat2 := Angle.new (Flt.atan (nep2.beta.tan / (1 - self.ellipsoid.f))) RAD
  { p1 := p1, alpha1 := alpha1, p2 := (lon1.addAngle lambda12, Lat.new lat2)
    alpha2 := nep2.alpha, s := s12 }

/-- geodesy/geodesics/karney.rs:149-152 `inverse`: `unimplemented!()`. -/
def inverse (_self : KarneyGeodesicSolver F) (_p1 _p2 : Lon F × Lat F) : Res (Geodesic F) :=
  .error (.panic "not implemented")

end KarneyGeodesicSolver

/-- geodesy/geodesics/mod.rs:31-55 trait `GeodesicSolver` (`&dyn GeodesicSolver`): one case per
implementor in the crate. -/
inductive GeodesicSolver (F : Type) where
  | vincenty (s : VincentyGeodesicSolver F)
  | rapp (s : RappSolver F)
  | karney (s : KarneyGeodesicSolver F)

namespace GeodesicSolver

/-- `solve_direct`: vincenty.rs:231-238, rapp.rs:314-321, karney.rs:277-284. -/
def solveDirect (self : GeodesicSolver F) (p1 : Lon F × Lat F) (alpha1 : Azimuth F)
    (s12 : Length F) : Res (Geodesic F) :=
  match self with
  | .vincenty s => s.direct p1 alpha1 s12
  | .rapp s => s.direct p1 alpha1 s12
  | .karney s => .ok (s.direct p1 alpha1 s12)

/-- `solve_inverse`: vincenty.rs:240-242, rapp.rs:323-325, karney.rs:286-288. -/
def solveInverse (self : GeodesicSolver F) (p1 p2 : Lon F × Lat F) : Res (Geodesic F) :=
  match self with
  | .vincenty s => s.inverse p1 p2
  | .rapp s => s.inverse p1 p2
  | .karney s => s.inverse p1 p2

end GeodesicSolver

end Geo
