import Verif.Model.Geodesics

/-! Model of the checking functions of `geokit/src/geodesy/geodesics/mod.rs` and of the `Display` implementations. -/

namespace Geo
variable {F : Type} [Flt F]

/-! ### Checks -/

/-- geodesy/geodesics/mod.rs:19-29 `Geodesic::default`. -/
def Geodesic.default : Geodesic F :=
  { p1 := (Lon.ZERO, Lat.ZERO), alpha1 := Azimuth.NORTH, p2 := (Lon.ZERO, Lat.ZERO), alpha2 := Azimuth.NORTH
    s := Length.ZERO }

/-- geodesy/geodesics/mod.rs:58-65 `DirectErrors`. -/
structure DirectErrors (F : Type) where
  lon : Angle F
  lat : Angle F
  alpha : Angle F

/-- geodesy/geodesics/mod.rs:67-75; `Angle::default_epsilon()` is `TINY` (quantities/angle.rs:50-53). -/
def DirectErrors.default : DirectErrors F := ⟨Angle.TINY, Angle.TINY, Angle.TINY⟩

/-- geodesy/geodesics/mod.rs:78-85 `InverseErrors`. -/
structure InverseErrors (F : Type) where
  alpha1 : Angle F
  alpha2 : Angle F
  s : Length F

/-- geodesy/geodesics/mod.rs:87-95; `Length::default_epsilon()` is `TINY` (quantities/length.rs:58-60). -/
def InverseErrors.default : InverseErrors F := ⟨Angle.TINY, Angle.TINY, Length.TINY⟩

/-- geodesy/geodesics/mod.rs:99-156 `check_direct`; what is printed before the panic is not modelled. -/
def checkDirect (computed expected : Geodesic F) (err : DirectErrors F) : Res Unit :=
  let has_lon_error := !computed.p2.1.absDiffEq expected.p2.1 err.lon
  let has_lat_error := !computed.p2.2.absDiffEq expected.p2.2 err.lat
  let has_az_error := !computed.alpha2.absDiffEq expected.alpha2 err.alpha
  if has_lon_error || has_lat_error || has_az_error then .error (.panic "assertion failed: false") else .ok ()

/-- geodesy/geodesics/mod.rs:160-217 `check_inverse`. -/
def checkInverse (computed expected : Geodesic F) (err : InverseErrors F) : Res Unit :=
  let has_alpha1_err := !computed.alpha1.absDiffEq expected.alpha1 err.alpha1
  let has_alpha2_err := !computed.alpha2.absDiffEq expected.alpha2 err.alpha2
  let has_s_err := !computed.s.absDiffEq expected.s err.s
  if has_alpha1_err || has_alpha2_err || has_s_err then .error (.panic "assertion failed: false") else .ok ()

/-! ### `Display`

The formatting of one float is a parameter; what is modelled is which numbers are printed, and where. -/

/-- The formatting of floats by `std`: `{}`, `{:4}`, `{:02}`, `{:011.8}`. -/
structure FloatFmt (F : Type) where
  plain : F → String
  w4 : F → String
  w02 : F → String
  w011_8 : F → String

variable (fm : FloatFmt F)

/-- quantities/length.rs:47. -/
def Length.display (l : Length F) : String := fm.plain l.m ++ " m"
/-- quantities/angle.rs:31. -/
def Angle.display (a : Angle F) : String := fm.plain a.rad ++ " rad"
/-- quantities/angle.rs:177-179, 286: `Angle::deg` and its text. -/
def Angle.displayDeg (a : Angle F) : String := fm.plain (a.val DEG) ++ " deg"
/-- quantities/angle.rs:300. -/
def Dms.display (d : Dms F) : String := fm.w4 d.deg ++ "° " ++ fm.w02 d.min ++ "′ " ++ fm.w011_8 d.sec ++ "″"
/-- cs/s1.rs:30. -/
def Interval.display (i : Interval F) : String := "lo = " ++ i.lo.display fm ++ ", hi = " ++ i.hi.display fm
/-- cs/azimuth.rs:17. -/
def Azimuth.display (a : Azimuth F) : String := a.angle.dms.display fm
/-- cs/geodetic.rs:356. -/
def Lon.display (l : Lon F) : String := l.angle.displayDeg fm
/-- cs/geodetic.rs:587. -/
def Lat.display (l : Lat F) : String := l.angle.displayDeg fm
/-- cs/geodetic.rs:255. -/
def LLH.display (p : LLH F) : String :=
  "(lon = " ++ p.lon.display fm ++ ", lat = " ++ p.lat.display fm ++ ", h = " ++ p.height.display fm ++ ")"
/-- cs/cartesian/geocentric.rs:57. -/
def XYZ.display (p : XYZ F) : String :=
  "(" ++ p.x.display fm ++ ", " ++ p.y.display fm ++ ", " ++ p.z.display fm ++ ")"
/-- cs/cartesian/projected.rs:130. -/
def ENH.display (p : ENH F) : String :=
  "(e = " ++ p.easting.display fm ++ ", n = " ++ p.northing.display fm ++ ", h = " ++ p.height.display fm ++ ")"
/-- geodesy/ellipsoid.rs:15. -/
def Ellipsoid.display (e : Ellipsoid F) : String :=
  "(name = " ++ e.name ++ ", a = " ++ e.a.display fm ++ ", b = " ++ e.b.display fm ++ ", inv_f = " ++ fm.plain e.invf ++ ")"
/-- geodesy/prime_meridian.rs:9. -/
def PrimeMeridian.display (m : PrimeMeridian F) : String :=
  "(name = " ++ m.name ++ ", lon = " ++ m.lon.angle.dms.display fm ++ ")"
/-- geodesy/geodetic_datum.rs:24. -/
def GeodeticDatum.display (d : GeodeticDatum F) : String :=
  "(id = " ++ d.id ++ ", ellps = " ++ d.ellipsoid.display fm ++ ", pm = " ++ d.primeMeridian.display fm ++ ")"
/-- geodesy/geodesics/mod.rs:10.  The second argument is `p1.0` again. -/
def Geodesic.display (g : Geodesic F) : String :=
  "From: (lon: " ++ g.p1.1.display fm ++ ", lat: " ++ g.p1.1.display fm ++ ", az: " ++ g.alpha1.display fm ++ ")\nTo:   (lon: "
    ++ g.p2.1.display fm ++ ", lat: " ++ g.p2.2.display fm ++ ", az: " ++ g.alpha2.display fm ++ ")\nL:   "
    ++ (g.p2.1.sub g.p1.1).display fm ++ "\ns:   " ++ g.s.display fm

end Geo
