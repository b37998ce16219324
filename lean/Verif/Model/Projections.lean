import Verif.Model.Geodesy

/-! Model of `geokit/src/projections/**.rs`. -/

namespace Geo
variable {F : Type} [Flt F]

/-- `Polynomial::new(coef).fast_eval_at(x)`, as used by the constructors of this module. -/
def fastPoly (coef : List F) (x : F) : F := (Polynomial.mk coef).fastEvalAt x

/-! ### cyl/web_mercator.rs -/

/-- projections/cyl/web_mercator.rs:20-30 `WebMercator`. -/
structure WebMercator (F : Type) where
  a : Length F
  lon0 : Lon F
  lat0 : Lat F
  false_easting : Length F
  false_northing : Length F

namespace WebMercator

/-- projections/cyl/web_mercator.rs:34-48 `new`. -/
def new (ellipsoid : Ellipsoid F) (lon0 : Lon F) (lat0 : Lat F) (false_easting false_northing : Length F) :
    WebMercator F :=
  { a := ellipsoid.a, lon0 := lon0, lat0 := lat0, false_easting := false_easting
    false_northing := false_northing }

/-- projections/cyl/web_mercator.rs:52-58 `proj`.  `input.lat / 2.0 + PI_4 * RAD` is a `Lat`. -/
def proj (self : WebMercator F) (input : LLH F) : Res (ENH F) :=
  .ok
    { easting := self.false_easting + (self.a.mulAngle (input.lon.sub self.lon0)).length
      northing := self.false_northing
        + self.a * Flt.ln ((input.lat.divF 2.0).addAngle (Angle.new pi_4 RAD)).tan
      height := input.height }

/-- projections/cyl/web_mercator.rs:60-68 `unproj`. -/
def unproj (self : WebMercator F) (input : ENH F) : Res (LLH F) :=
  let d : F := (self.false_northing - input.northing) / self.a
  .ok
    { lon := self.lon0.addAngle ((ArcLength.mk (input.easting - self.false_easting)).divLength self.a)
      lat := Lat.new (Angle.PI_2 - Angle.new (2.0 * Flt.atan (Flt.exp d)) RAD)
      height := input.height }

end WebMercator

/-! ### cyl/mercator.rs -/

/-- projections/cyl/mercator.rs:22-32 `Mercator`; the array `c_sin_nxi` is four fields. -/
structure Mercator (F : Type) where
  a : Length F
  e : F
  e2 : F
  lon0 : Lon F
  lat0 : Lat F
  k0 : F
  false_easting : Length F
  false_northing : Length F
  c0 : F
  c1 : F
  c2 : F
  c3 : F

namespace Mercator

/-- projections/cyl/mercator.rs:92-118 `new`. -/
def new (ellipsoid : Ellipsoid F) (lon0 : Lon F) (lat0 : Lat F) (k0 : F)
    (false_easting false_northing : Length F) : Mercator F :=
  let e2 := ellipsoid.eSq
  { a := ellipsoid.a
    e := ellipsoid.e
    e2 := e2
    lon0 := lon0
    lat0 := lat0.abs
    k0 := k0
    false_easting := false_easting
    false_northing := false_northing
    c0 := fastPoly [0, 0.5, 5 / 24, 1 / 12, 13 / 360] e2
    c1 := fastPoly [0, 0, 7 / 48, 29 / 240, 811 / 11520] e2
    c2 := fastPoly [0, 0, 0, 7 / 120, 81 / 1120] e2
    c3 := fastPoly [0, 0, 0, 0, 4279 / 161280] e2 }

/-- projections/cyl/mercator.rs:48-63 `new_1_sp`. -/
def new1Sp (ellipsoid : Ellipsoid F) (lon0 : Lon F) (k0 : F)
    (false_easting false_northing : Length F) : Mercator F :=
  new ellipsoid lon0 Lat.ZERO k0 false_easting false_northing

/-- projections/cyl/mercator.rs:79-90 `new_2_sp`. -/
def new2Sp (ellipsoid : Ellipsoid F) (lon0 : Lon F) (lat0 : Lat F)
    (false_easting false_northing : Length F) : Mercator F :=
  let sin_lat1 := lat0.abs.sin
  let cos_lat1 := lat0.abs.cos
  let e2 := ellipsoid.eSq
  let k0 := cos_lat1 / Flt.sqrt (1.0 - e2 * sin_lat1 * sin_lat1)
  new ellipsoid lon0 lat0 k0 false_easting false_northing

/-- projections/cyl/mercator.rs:122-133 `proj`. -/
def proj (self : Mercator F) (input : LLH F) : Res (ENH F) :=
  let sin_lat := input.lat.sin
  let e_sin_lat := self.e * sin_lat
  let lat1 := (input.lat.divF 2.0).addAngle (Angle.new pi_4 RAD)
  let R := Flt.powf ((1.0 - e_sin_lat) / (1.0 + e_sin_lat)) (self.e / 2.0)
  .ok
    { easting := self.false_easting + ((self.a * self.k0).mulAngle (input.lon.sub self.lon0)).length
      northing := self.false_northing + self.a * self.k0 * Flt.ln (lat1.tan * R)
      height := input.height }

/-- projections/cyl/mercator.rs:135-154 `unproj`. -/
def unproj (self : Mercator F) (input : ENH F) : Res (LLH F) :=
  let d : F := (self.false_northing - input.northing) / (self.a * self.k0)
  let t := Flt.exp d
  let xi := pi_2 - 2.0 * Flt.atan t
  let sin_2xi := Flt.sin (2.0 * xi)
  let sin_4xi := Flt.sin (4.0 * xi)
  let sin_6xi := Flt.sin (6.0 * xi)
  let sin_8xi := Flt.sin (8.0 * xi)
  let x := xi + self.c0 * sin_2xi + self.c1 * sin_4xi + self.c2 * sin_6xi + self.c3 * sin_8xi
  .ok
    { lon := self.lon0.addAngle
        ((ArcLength.mk (input.easting - self.false_easting)).divLength (self.a * self.k0))
      lat := Lat.new (Angle.new x RAD)
      height := input.height }

end Mercator

/-! ### cyl/transverse_mercator.rs -/

/-- projections/cyl/transverse_mercator.rs:24-34 `TransverseMercator`; the arrays `h`, `h_p` are four
fields each. -/
structure TransverseMercator (F : Type) where
  e : F
  lon0 : Lon F
  k0 : F
  false_easting : Length F
  false_northing : Length F
  B : Length F
  h0 : F
  h1 : F
  h2 : F
  h3 : F
  hp0 : F
  hp1 : F
  hp2 : F
  hp3 : F
  M0 : Length F

namespace TransverseMercator

/-- projections/cyl/transverse_mercator.rs:213-215 `Q`. -/
def Q (e : F) (lat : Lat F) : F := Flt.asinh lat.tan - e * Flt.atanh (e * lat.sin)

/-- projections/cyl/transverse_mercator.rs:217-219 `beta`. -/
def beta (Q : F) : F := Flt.atan (Flt.sinh Q)

/-- projections/cyl/transverse_mercator.rs:221-240 `M0`. -/
def meridianArc (lat0 : Lat F) (B : Length F) (e h0 h1 h2 h3 : F) : Length F :=
  if lat0.beq Lat.ZERO then Length.new 0.0 M
  else if lat0.abs.beq Lat.MAX then B * lat0.angle.rad
  else
    let Q0 := Q e lat0
    let beta0 := beta Q0
    let xi_o0 := beta0
    let xi_os := [xi_o0, h0 * Flt.sin (2.0 * xi_o0), h1 * Flt.sin (4.0 * xi_o0),
      h2 * Flt.sin (6.0 * xi_o0), h3 * Flt.sin (8.0 * xi_o0)]
    B * fsum xi_os

/-- projections/cyl/transverse_mercator.rs:59-98 `new`. -/
def new (ellipsoid : Ellipsoid F) (lon0 : Lon F) (lat0 : Lat F) (k0 : F)
    (false_easting false_northing : Length F) : TransverseMercator F :=
  let e := ellipsoid.e
  let n := ellipsoid.n
  let B : Length F := ellipsoid.a / (1.0 + n) * fastPoly [1, 0, 0.25, 0, 1 / 64] n
  let h0 := fastPoly [0, 0.5, -2 / 3, 5 / 16, 41 / 180] n
  let h1 := fastPoly [0, 0, 13 / 48, -3 / 5, 557 / 1440] n
  let h2 := fastPoly [0, 0, 0, 61 / 240, -103 / 140] n
  let h3 := fastPoly [0, 0, 0, 0, 49561 / 161280] n
  { e := e
    lon0 := lon0
    k0 := k0
    false_easting := false_easting
    false_northing := false_northing
    B := B
    h0 := h0
    h1 := h1
    h2 := h2
    h3 := h3
    hp0 := fastPoly [0, 0.5, -2 / 3, 37 / 96, -1 / 360] n
    hp1 := fastPoly [0, 0, 1 / 48, 1 / 15, -437 / 1440] n
    hp2 := fastPoly [0, 0, 0, 17 / 480, -37 / 840] n
    hp3 := fastPoly [0, 0, 0, 0, 4397 / 161280] n
    M0 := meridianArc lat0 B e h0 h1 h2 h3 }

/-- projections/cyl/transverse_mercator.rs:185-192. -/
def UTM_ZONE_WIDTH_DEG : F := 6
def UTM_ZONE_COUNT : F := 360 / UTM_ZONE_WIDTH_DEG
def UTM_ZONE_1_WEST_LIMIT_DEG : F := -177
def UTM_LAT0 : Lat F := Lat.ZERO
def UTM_K0 : F := 0.9996
def UTM_FE : Length F := Length.new 500000 M
def UTM_FN_NORTH : Length F := Length.ZERO
def UTM_FN_SOUTH : Length F := Length.new 10000000 M

/-- projections/cyl/transverse_mercator.rs:195-200 `utm_zone`, without the final cast `z as u8`
(the function has no caller in the crate). -/
def utmZone (lon : Lon F) : F :=
  let lon_deg := lon.angle.val DEG
  let delta_lon := Flt.floor ((lon_deg - UTM_ZONE_1_WEST_LIMIT_DEG) / UTM_ZONE_WIDTH_DEG)
  delta_lon - Flt.floor (delta_lon / UTM_ZONE_COUNT) * UTM_ZONE_COUNT

/-- projections/cyl/transverse_mercator.rs:203-207 `utm_lon0`; the zone is a `u8`, here a natural. -/
def utmLon0 (zone : Nat) : Lon F :=
  let lon0_deg : F := UTM_ZONE_1_WEST_LIMIT_DEG + lit (zone : Rat) * UTM_ZONE_WIDTH_DEG
    - UTM_ZONE_WIDTH_DEG / 2
  Lon.new (Angle.new lon0_deg DEG)

/-- projections/cyl/transverse_mercator.rs:37-46 `new_utm_north`. -/
def newUtmNorth (ellipsoid : Ellipsoid F) (zone : Nat) : TransverseMercator F :=
  new ellipsoid (utmLon0 zone) UTM_LAT0 UTM_K0 UTM_FE UTM_FN_NORTH

/-- projections/cyl/transverse_mercator.rs:48-57 `new_utm_south`. -/
def newUtmSouth (ellipsoid : Ellipsoid F) (zone : Nat) : TransverseMercator F :=
  new ellipsoid (utmLon0 zone) UTM_LAT0 UTM_K0 UTM_FE UTM_FN_SOUTH

/-- projections/cyl/transverse_mercator.rs:112-118, 139-145: the sum over `2j` of
`h_j * sin(2j xi) * cosh(2j eta)`. -/
def sumSinCosh (h0 h1 h2 h3 xi eta : F) : F :=
  fsum [h0 * Flt.sin (2.0 * xi) * Flt.cosh (2.0 * eta),
        h1 * Flt.sin (4.0 * xi) * Flt.cosh (4.0 * eta),
        h2 * Flt.sin (6.0 * xi) * Flt.cosh (6.0 * eta),
        h3 * Flt.sin (8.0 * xi) * Flt.cosh (8.0 * eta)]

/-- projections/cyl/transverse_mercator.rs:120-126, 147-153: the sum over `2j` of
`h_j * cos(2j xi) * sinh(2j eta)`. -/
def sumCosSinh (h0 h1 h2 h3 xi eta : F) : F :=
  fsum [h0 * Flt.cos (2.0 * xi) * Flt.sinh (2.0 * eta),
        h1 * Flt.cos (4.0 * xi) * Flt.sinh (4.0 * eta),
        h2 * Flt.cos (6.0 * xi) * Flt.sinh (6.0 * eta),
        h3 * Flt.cos (8.0 * xi) * Flt.sinh (8.0 * eta)]

/-- projections/cyl/transverse_mercator.rs:102-133 `proj`. -/
def proj (self : TransverseMercator F) (input : LLH F) : Res (ENH F) :=
  let Q := Q self.e input.lat
  let beta := beta Q
  let eta_0 := Flt.atanh (Flt.cos beta * (input.lon.sub self.lon0).sin)
  let xi_0 := Flt.asin (Flt.sin beta * Flt.cosh eta_0)
  let xi := xi_0 + sumSinCosh self.h0 self.h1 self.h2 self.h3 xi_0 eta_0
  let eta := eta_0 + sumCosSinh self.h0 self.h1 self.h2 self.h3 xi_0 eta_0
  .ok
    { easting := self.false_easting + self.k0 * self.B * eta
      northing := self.false_northing + self.k0 * (self.B * xi - self.M0)
      height := input.height }

/-- projections/cyl/transverse_mercator.rs:158-160, the local function `iter_fn`. -/
def iterQ (e Q_p Q_pp : F) : F := Q_p + e * Flt.atanh (e * Flt.tanh Q_pp)

/-- projections/cyl/transverse_mercator.rs:162-169: the loop on `Q_pp`; state `(Q_pp, old_Q_pp)`. -/
noncomputable def solveQ (e Q_p : F) : Res F := do
  let q0 := iterQ e Q_p Q_p
  let st ← loopUntil (fun st : F × F => (iterQ e Q_p st.1, st.1))
    (fun st => Flt.abs (st.1 - st.2) <. 1e-12) (q0, q0)
  return st.1

/-- projections/cyl/transverse_mercator.rs:135-176 `unproj`. -/
noncomputable def unproj (self : TransverseMercator F) (input : ENH F) : Res (LLH F) := do
  let eta_p : F := (input.easting - self.false_easting) / (self.B * self.k0)
  let xi_p : F := (input.northing - self.false_northing + self.k0 * self.M0) / (self.B * self.k0)
  let xi_p0 := xi_p - sumSinCosh self.hp0 self.hp1 self.hp2 self.hp3 xi_p eta_p
  let eta_p0 := eta_p - sumCosSinh self.hp0 self.hp1 self.hp2 self.hp3 xi_p eta_p
  let beta_p := Flt.asin (Flt.sin xi_p0 / Flt.cosh eta_p0)
  let Q_p := Flt.asinh (Flt.tan beta_p)
  let Q_pp ← solveQ self.e Q_p
  return {
    lon := self.lon0.addAngle (Angle.new (Flt.asin (Flt.tanh eta_p0 / Flt.cos beta_p)) RAD)
    lat := Lat.new (Angle.new (Flt.atan (Flt.sinh Q_pp)) RAD)
    height := input.height }

end TransverseMercator

/-! ### mod.rs -/

/-- projections/mod.rs:20-23 `dyn Projection`: one case per implementor. -/
inductive Projection (F : Type) where
  | mercator (p : Mercator F)
  | transverseMercator (p : TransverseMercator F)
  | webMercator (p : WebMercator F)

namespace Projection

/-- projections/mod.rs:21 `proj`, dynamic dispatch. -/
def proj (self : Projection F) (llh : LLH F) : Res (ENH F) :=
  match self with
  | .mercator p => p.proj llh
  | .transverseMercator p => p.proj llh
  | .webMercator p => p.proj llh

/-- projections/mod.rs:22 `unproj`, dynamic dispatch. -/
noncomputable def unproj (self : Projection F) (enh : ENH F) : Res (LLH F) :=
  match self with
  | .mercator p => p.unproj enh
  | .transverseMercator p => p.unproj enh
  | .webMercator p => p.unproj enh

end Projection

/-- projections/mod.rs:26-58 `ProjectionSpec`. -/
inductive ProjectionSpec (F : Type) where
  | mercator1SP (lon0 : Lon F) (k0 : F) (false_easting false_northing : Length F)
  | mercator2SP (lon0 : Lon F) (lat0 : Lat F) (false_easting false_northing : Length F)
  | utmNorth (zone : Nat)
  | utmSouth (zone : Nat)
  | transverseMercator (lon0 : Lon F) (lat0 : Lat F) (k0 : F) (false_easting false_northing : Length F)
  | webMercator (lon0 : Lon F) (lat0 : Lat F) (false_easting false_northing : Length F)

/-- projections/mod.rs:63-118 `applied_to`. -/
def ProjectionSpec.appliedTo (self : ProjectionSpec F) (ellipsoid : Ellipsoid F) : Projection F :=
  match self with
  | .mercator1SP lon0 k0 fe fn => .mercator (Mercator.new1Sp ellipsoid lon0 k0 fe fn)
  | .mercator2SP lon0 lat0 fe fn => .mercator (Mercator.new2Sp ellipsoid lon0 lat0 fe fn)
  | .utmNorth zone => .transverseMercator (TransverseMercator.newUtmNorth ellipsoid zone)
  | .utmSouth zone => .transverseMercator (TransverseMercator.newUtmSouth ellipsoid zone)
  | .transverseMercator lon0 lat0 k0 fe fn =>
    .transverseMercator (TransverseMercator.new ellipsoid lon0 lat0 k0 fe fn)
  | .webMercator lon0 lat0 fe fn => .webMercator (WebMercator.new ellipsoid lon0 lat0 fe fn)

end Geo
