import Verif.Model.Quantities

/-! Model of `geokit/src/cs/**.rs`: intervals on the circle, azimuths, longitudes, latitudes, systems of
axes and normalized coordinates. -/

namespace Geo
variable {F : Type} [Flt F]

/-! ### cs/s1.rs -/

/-- cs/s1.rs:31-34 `Interval`. -/
structure Interval (F : Type) where
  lo : Angle F
  hi : Angle F

namespace Interval

/-- cs/s1.rs:38-43 `empty`. -/
def empty : Interval F := ⟨Angle.PI, Angle.M_PI⟩
/-- cs/s1.rs:46-49 `singleton`. -/
def singleton (p : Angle F) : Interval F := ⟨p.normalized, p.normalized⟩
/-- cs/s1.rs:52-57 `full`. -/
def full : Interval F := ⟨Angle.M_PI, Angle.PI⟩
/-- cs/s1.rs:67-74 `new`. -/
def new (lo hi : Angle F) : Interval F :=
  let low := lo.wrapped
  let hig := hi.wrapped
  if low.beq Angle.M_PI && !hig.beq Angle.PI then ⟨Angle.PI, hig⟩ else ⟨low, hig⟩
/-- cs/s1.rs:76-78 `is_empty`. -/
def isEmpty (i : Interval F) : Bool := i.lo.beq Angle.PI && i.hi.beq Angle.M_PI
/-- cs/s1.rs:80-82 `is_full`. -/
def isFull (i : Interval F) : Bool := i.lo.beq Angle.M_PI && i.hi.beq Angle.PI
/-- cs/s1.rs:84-86 `is_inverted`. -/
def isInverted (i : Interval F) : Bool := i.hi.lt i.lo
/-- cs/s1.rs:91-98 `length`; `debug` tells whether debug assertions are compiled in. -/
def length (debug : Bool) (i : Interval F) : Res (Angle F) := do
  let length := i.hi - i.lo
  let length := if length.lt Angle.ZERO then length + (2 : F) * (Angle.PI : Angle F) else length
  rassert (!debug || (Angle.ZERO : Angle F).le length) "assertion failed: length >= Angle::ZERO"
  return length

end Interval

/-! ### Degrees, minutes, seconds -/

/-- Body shared by `Azimuth::dms`, `Lon::dms`, `Lat::dms`: `f * deg * DEG` with
`deg = d.abs() + m / 60. + s / 3600.` (cs/azimuth.rs:64-66, cs/geodetic.rs:412-414, 630-632). -/
def dmsAngle (d m s : F) : Angle F :=
  let f := Flt.signum d
  let deg := Flt.abs d + m / 60 + s / 3600
  Angle.new (f * deg) DEG

/-! ### cs/azimuth.rs -/

/-- cs/azimuth.rs:18 `Azimuth(Angle)`; `angle` is also the accessor of lines 69-73. -/
@[ext] structure Azimuth (F : Type) where
  angle : Angle F

namespace Azimuth

/-- cs/azimuth.rs:22-28. -/
def NORTH : Azimuth F := ⟨Angle.ZERO⟩
def EAST : Azimuth F := ⟨Angle.PI_2⟩
def SOUTH : Azimuth F := ⟨Angle.PI⟩
def WEST : Azimuth F := ⟨Angle.M_PI_2⟩

/-- cs/azimuth.rs:33-35 `new`. -/
def new (val : Angle F) : Azimuth F := ⟨val.normalized⟩
/-- cs/azimuth.rs:40-42 `rad`. -/
def rad (val_rad : F) : Azimuth F := new (Angle.new val_rad RAD)
/-- cs/azimuth.rs:47-49 `deg`. -/
def deg (val_deg : F) : Azimuth F := new (Angle.new val_deg DEG)

/-- The debug assertions of `Azimuth::dms` and `Lon::dms`, cs/azimuth.rs:61-63, cs/geodetic.rs:409-411. -/
def dmsAsserts (d m s : F) : Res Unit := do
  rassert ((d >. -180) && (m <=. 180)) "degrees must be in (-180..180]"
  rassert ((m >=. 0) && (m <=. 59)) "minutes must be in [0..59]"
  rassert ((s >=. 0) && (s <. 60)) "seconds must be in [0..60)"

/-- cs/azimuth.rs:60-67 `dms`. -/
def dms (debug : Bool) (d m s : F) : Res (Azimuth F) := do
  if debug then dmsAsserts d m s
  return new (dmsAngle d m s)

/-- cs/azimuth.rs:75-93 `sin`, `cos`, `tan`. -/
def sin (a : Azimuth F) : F := a.angle.sin
def cos (a : Azimuth F) : F := a.angle.cos
def tan (a : Azimuth F) : F := a.angle.tan

/-- cs/azimuth.rs:110-112 `Azimuth + Angle`; also 119-121 `Angle + Azimuth`. -/
def addAngle (self : Azimuth F) (rhs : Angle F) : Azimuth F := new (self.angle + rhs)
/-- cs/azimuth.rs:142-144 `Azimuth - Azimuth`. -/
def sub (self rhs : Azimuth F) : Angle F := (rhs.angle.diffTo self.angle).normalized
/-- cs/azimuth.rs:154-156 `abs_diff_eq`. -/
def absDiffEq (self other : Azimuth F) (epsilon : Angle F) : Bool := (self.sub other).abs.le epsilon

end Azimuth

/-! ### cs/geodetic.rs: `Lon` -/

/-- cs/geodetic.rs:357 `Lon(Angle)`; `angle` is also the accessor of lines 424-427. -/
@[ext] structure Lon (F : Type) where
  angle : Angle F

namespace Lon

/-- cs/geodetic.rs:361-364. -/
def MIN : Lon F := ⟨Angle.M_PI⟩
def ZERO : Lon F := ⟨Angle.ZERO⟩
def MAX : Lon F := ⟨Angle.PI⟩
/-- cs/geodetic.rs:369-371 `new`. -/
def new (val : Angle F) : Lon F := ⟨val.wrapped⟩
/-- cs/geodetic.rs:374-376 `const_new`: no wrapping. -/
def constNew (val : Angle F) : Lon F := ⟨val⟩
/-- cs/geodetic.rs:381-383 `rad`. -/
def rad (val_rad : F) : Lon F := new (Angle.new val_rad RAD)
/-- cs/geodetic.rs:388-390 `deg`. -/
def deg (val_deg : F) : Lon F := new (Angle.new val_deg DEG)
/-- cs/geodetic.rs:408-415 `dms`. -/
def dms (debug : Bool) (d m s : F) : Res (Lon F) := do
  if debug then Azimuth.dmsAsserts d m s
  return new (dmsAngle d m s)
/-- derived `PartialOrd`, `PartialEq`, cs/geodetic.rs:355. -/
def le (a b : Lon F) : Bool := a.angle.le b.angle
def beq (a b : Lon F) : Bool := a.angle.beq b.angle
/-- derived `Neg`, cs/geodetic.rs:355: no wrapping. -/
instance : Neg (Lon F) := ⟨fun l => ⟨-l.angle⟩⟩
/-- cs/geodetic.rs:419-421 `normalized`. -/
def normalized (l : Lon F) : Lon F := if l.le MIN then MAX else l
/-- cs/geodetic.rs:429-451. -/
def sin (l : Lon F) : F := l.angle.sin
def cos (l : Lon F) : F := l.angle.cos
def tan (l : Lon F) : F := l.angle.tan
def signum (l : Lon F) : F := l.angle.signum
/-- cs/geodetic.rs:459-461 `Lon + Angle`; also 469-471 `Angle + Lon`. -/
def addAngle (self : Lon F) (rhs : Angle F) : Lon F := new (self.angle + rhs)
/-- cs/geodetic.rs:477-479 `Lon += Angle`. -/
def addAssign (self : Lon F) (rhs : Angle F) : Lon F := ⟨(self.angle + rhs).wrapped⟩
/-- cs/geodetic.rs:498-500 `Lon - Lon`. -/
def sub (self rhs : Lon F) : Angle F := rhs.angle.diffTo self.angle
/-- cs/geodetic.rs:508-511 `Lon - Angle`. -/
def subAngle (self : Lon F) (rhs : Angle F) : Lon F := new (self.angle - rhs)
/-- cs/geodetic.rs:517-519 `Lon -= Angle`. -/
def subAssign (self : Lon F) (rhs : Angle F) : Lon F := ⟨(self.angle - rhs).wrapped⟩
/-- cs/geodetic.rs:527-529 `Lon * Float`; also 537-539 `Float * Lon`. -/
def mulF (self : Lon F) (rhs : F) : Lon F := new (self.angle * rhs)
/-- cs/geodetic.rs:545-547 `Lon *= Float`. -/
def mulAssign (self : Lon F) (rhs : F) : Lon F := ⟨(self.angle * rhs).wrapped⟩
/-- cs/geodetic.rs:555-557 `Lon / Float`. -/
def divF (self : Lon F) (rhs : F) : Lon F := new (self.angle / rhs)
/-- cs/geodetic.rs:563-565 `Lon /= Float`. -/
def divAssign (self : Lon F) (rhs : F) : Lon F := ⟨(self.angle / rhs).wrapped⟩
/-- cs/geodetic.rs:575-577 `abs_diff_eq`. -/
def absDiffEq (self other : Lon F) (epsilon : Angle F) : Bool := (self.sub other).abs.le epsilon

end Lon

/-! ### cs/geodetic.rs: `Lat` -/

/-- cs/geodetic.rs:588 `Lat(Angle)`; `angle` is also the accessor of lines 640-644. -/
@[ext] structure Lat (F : Type) where
  angle : Angle F

namespace Lat

/-- cs/geodetic.rs:591-593. -/
def MIN : Lat F := ⟨Angle.M_PI_2⟩
def ZERO : Lat F := ⟨Angle.ZERO⟩
def MAX : Lat F := ⟨Angle.PI_2⟩
/-- cs/geodetic.rs:598-600 `new`. -/
def new (val : Angle F) : Lat F := ⟨val.clamped Angle.M_PI_2 Angle.PI_2⟩
/-- cs/geodetic.rs:605-607 `deg`. -/
def deg (val_deg : F) : Lat F := new (Angle.new val_deg DEG)
/-- The debug assertions of `Lat::dms`, cs/geodetic.rs:627-629. -/
def dmsAsserts (d m s : F) : Res Unit := do
  rassert ((d >=. -90) && (m <=. 90)) "degrees must be in [-90..90]"
  rassert ((m >=. 0) && (m <=. 59)) "minutes must be in [0..59]"
  rassert ((s >=. 0) && (s <. 60)) "seconds must be in [0..60)"
/-- cs/geodetic.rs:626-633 `dms`. -/
def dms (debug : Bool) (d m s : F) : Res (Lat F) := do
  if debug then dmsAsserts d m s
  return new (dmsAngle d m s)
/-- cs/geodetic.rs:636-638 `abs`. -/
def abs (l : Lat F) : Lat F := ⟨l.angle.abs⟩
/-- derived `PartialOrd`, `PartialEq`, cs/geodetic.rs:586. -/
def lt (a b : Lat F) : Bool := a.angle.lt b.angle
def le (a b : Lat F) : Bool := a.angle.le b.angle
def beq (a b : Lat F) : Bool := a.angle.beq b.angle
/-- derived `Neg`, cs/geodetic.rs:586. -/
instance : Neg (Lat F) := ⟨fun l => ⟨-l.angle⟩⟩
/-- cs/geodetic.rs:646-668. -/
def sin (l : Lat F) : F := l.angle.sin
def cos (l : Lat F) : F := l.angle.cos
def tan (l : Lat F) : F := l.angle.tan
def signum (l : Lat F) : F := l.angle.signum
/-- cs/geodetic.rs:676-678 `Lat + Angle`; also 686-688 `Angle + Lat`. -/
def addAngle (self : Lat F) (rhs : Angle F) : Lat F := new (self.angle + rhs)
/-- cs/geodetic.rs:694-696 `Lat += Angle`. -/
def addAssign (self : Lat F) (rhs : Angle F) : Lat F :=
  ⟨(self.angle + rhs).clamped Angle.M_PI_2 Angle.PI_2⟩
/-- cs/geodetic.rs:703-705 `Lat - Lat`. -/
def sub (self rhs : Lat F) : Angle F := self.angle - rhs.angle
/-- cs/geodetic.rs:713-715 `Lat - Angle`. -/
def subAngle (self : Lat F) (rhs : Angle F) : Lat F := new (self.angle - rhs)
/-- cs/geodetic.rs:721-723 `Lat -= Angle`. -/
def subAssign (self : Lat F) (rhs : Angle F) : Lat F :=
  ⟨(self.angle - rhs).clamped Angle.M_PI_2 Angle.PI_2⟩
/-- cs/geodetic.rs:731-733 `Lat * Float`; also 741-743 `Float * Lat`. -/
def mulF (self : Lat F) (rhs : F) : Lat F := new (self.angle * rhs)
/-- cs/geodetic.rs:749-751 `Lat *= Float`. -/
def mulAssign (self : Lat F) (rhs : F) : Lat F :=
  ⟨(self.angle * rhs).clamped Angle.M_PI_2 Angle.PI_2⟩
/-- cs/geodetic.rs:759-761 `Lat / Float`. -/
def divF (self : Lat F) (rhs : F) : Lat F := new (self.angle / rhs)
/-- cs/geodetic.rs:767-769 `Lat /= Float`. -/
def divAssign (self : Lat F) (rhs : F) : Lat F :=
  ⟨(self.angle / rhs).clamped Angle.M_PI_2 Angle.PI_2⟩
/-- cs/geodetic.rs:779-781 `abs_diff_eq`. -/
def absDiffEq (self other : Lat F) (epsilon : Angle F) : Bool := (self.sub other).abs.le epsilon

end Lat

/-! ### cs/geodetic.rs: `LLH`, `GeodeticTolerance`, `GeodeticAxes` -/

/-- cs/geodetic.rs:256-260 `LLH` (`Height` is `Length`, line 785). -/
@[ext] structure LLH (F : Type) where
  lon : Lon F
  lat : Lat F
  height : Length F

/-- cs/geodetic.rs:214-218 `GeodeticTolerance`. -/
structure GeodeticTolerance (F : Type) where
  lon : Angle F
  lat : Angle F
  height : Length F

/-- cs/geodetic.rs:223-229 `tiny`. -/
def GeodeticTolerance.tiny : GeodeticTolerance F := ⟨Angle.TINY, Angle.TINY, Length.TINY⟩
/-- cs/geodetic.rs:233-239 `small` (height: `TINY`). -/
def GeodeticTolerance.small : GeodeticTolerance F := ⟨Angle.SMALL, Angle.SMALL, Length.TINY⟩

/-- cs/geodetic.rs:271-275 `LLH::approx_eq`; also the value of `approx_eq_llh`, lines 282-341. -/
def LLH.approxEq (self other : LLH F) (tol : GeodeticTolerance F) : Bool :=
  self.lon.absDiffEq other.lon tol.lon
    && self.lat.absDiffEq other.lat tol.lat
    && self.height.absDiffEq other.height tol.height

/-- cs/geodetic.rs:26-75 `GeodeticAxes`. -/
inductive GeodeticAxes (F : Type) where
  | eastNorthUp (angle_unit : AngleUnit F) (height_unit : LengthUnit F)
  | eastNorth (angle_unit : AngleUnit F)
  | northEastUp (angle_unit : AngleUnit F) (height_unit : LengthUnit F)
  | northEast (angle_unit : AngleUnit F)
  | northWest (angle_unit : AngleUnit F)

namespace GeodeticAxes

/-- cs/geodetic.rs:202-207 `default`. -/
def default : GeodeticAxes F := .eastNorthUp RAD M

/-- cs/geodetic.rs:79-93 `dim`. -/
def dim : GeodeticAxes F → Nat
  | .eastNorthUp _ _ | .northEastUp _ _ => 3
  | .eastNorth _ | .northEast _ | .northWest _ => 2

/-- cs/geodetic.rs:97-131 `normalize`. -/
def normalize (axes : GeodeticAxes F) (coords : List F) : Res (LLH F) :=
  match axes with
  | .eastNorthUp angle_unit height_unit => do
    let lon := Lon.new (Angle.new (← idx coords 0) angle_unit)
    let lat := Lat.new (Angle.new (← idx coords 1) angle_unit)
    let height := Length.new (← idx coords 2) height_unit
    return ⟨lon, lat, height⟩
  | .eastNorth angle_unit => do
    let lon := Lon.new (Angle.new (← idx coords 0) angle_unit)
    let lat := Lat.new (Angle.new (← idx coords 1) angle_unit)
    return ⟨lon, lat, Length.ZERO⟩
  | .northEastUp angle_unit height_unit => do
    let lon := Lon.new (Angle.new (← idx coords 1) angle_unit)
    let lat := Lat.new (Angle.new (← idx coords 0) angle_unit)
    let height := Length.new (← idx coords 2) height_unit
    return ⟨lon, lat, height⟩
  | .northEast angle_unit => do
    let lon := Lon.new (Angle.new (← idx coords 1) angle_unit)
    let lat := Lat.new (Angle.new (← idx coords 0) angle_unit)
    return ⟨lon, lat, Length.ZERO⟩
  | .northWest angle_unit => do
    let lon := Lon.new (Angle.new (-(← idx coords 1)) angle_unit)
    let lat := Lat.new (Angle.new (← idx coords 0) angle_unit)
    return ⟨lon, lat, Length.ZERO⟩

/-- cs/geodetic.rs:135-166 `denormalize`: returns the new content of `coords`. -/
def denormalize (axes : GeodeticAxes F) (llh : LLH F) (coords : List F) : Res (List F) :=
  match axes with
  | .eastNorthUp angle_unit height_unit => do
    let coords ← setIdx coords 0 (llh.lon.angle.val angle_unit)
    let coords ← setIdx coords 1 (llh.lat.angle.val angle_unit)
    setIdx coords 2 (llh.height.val height_unit)
  | .eastNorth angle_unit => do
    let coords ← setIdx coords 0 (llh.lon.angle.val angle_unit)
    setIdx coords 1 (llh.lat.angle.val angle_unit)
  | .northEastUp angle_unit height_unit => do
    let coords ← setIdx coords 0 (llh.lat.angle.val angle_unit)
    let coords ← setIdx coords 1 (llh.lon.angle.val angle_unit)
    setIdx coords 2 (llh.height.val height_unit)
  | .northEast angle_unit => do
    let coords ← setIdx coords 0 (llh.lat.angle.val angle_unit)
    setIdx coords 1 (llh.lon.angle.val angle_unit)
  | .northWest angle_unit => do
    let coords ← setIdx coords 0 (llh.lat.angle.val angle_unit)
    setIdx coords 1 (-(llh.lon.angle.val angle_unit))

/-- cs/geodetic.rs:168-197 `denormalize_tol`. -/
def denormalizeTol (axes : GeodeticAxes F) (tol : GeodeticTolerance F) : List F :=
  match axes with
  | .eastNorthUp angle_unit height_unit =>
    [tol.lon.val angle_unit, tol.lat.val angle_unit, tol.height.val height_unit]
  | .eastNorth angle_unit => [tol.lon.val angle_unit, tol.lat.val angle_unit]
  | .northEastUp angle_unit height_unit =>
    [tol.lat.val angle_unit, tol.lon.val angle_unit, tol.height.val height_unit]
  | .northEast angle_unit | .northWest angle_unit =>
    [tol.lat.val angle_unit, tol.lon.val angle_unit]

end GeodeticAxes

/-! ### cs/cartesian -/

/-- cs/cartesian/mod.rs:7-9 `CartesianTolerance`. -/
structure CartesianTolerance (F : Type) where
  all : Length F

/-- cs/cartesian/mod.rs:14-22 `tiny`, `small`. -/
def CartesianTolerance.tiny : CartesianTolerance F := ⟨Length.TINY⟩
def CartesianTolerance.small : CartesianTolerance F := ⟨Length.SMALL⟩

/-- cs/cartesian/geocentric.rs:58-62 `XYZ`. -/
@[ext] structure XYZ (F : Type) where
  x : Length F
  y : Length F
  z : Length F

namespace XYZ

/-- cs/cartesian/geocentric.rs:66-70 `dist_to`. -/
def distTo (self other : XYZ F) : Length F :=
  ((self.x - other.x).hypot (self.y - other.y)).hypot (self.z - other.z)

/-- cs/cartesian/geocentric.rs:74-78 `approx_eq`; also the value of `approx_eq_xyz`, lines 85-124. -/
def approxEq (self other : XYZ F) (tol : CartesianTolerance F) : Bool :=
  self.x.absDiffEq other.x tol.all
    && self.y.absDiffEq other.y tol.all
    && self.z.absDiffEq other.z tol.all

end XYZ

/-- cs/cartesian/geocentric.rs:21-28 `GeocentricAxes`. -/
inductive GeocentricAxes where
  | xyz

namespace GeocentricAxes

/-- cs/cartesian/geocentric.rs:32-34 `dim`. -/
def dim (_ : GeocentricAxes) : Nat := 3

/-- cs/cartesian/geocentric.rs:36-42 `normalize`. -/
def normalize (_ : GeocentricAxes) (coords : List F) : Res (XYZ F) := do
  let x := Length.new (← idx coords 0) M
  let y := Length.new (← idx coords 1) M
  let z := Length.new (← idx coords 2) M
  return ⟨x, y, z⟩

/-- cs/cartesian/geocentric.rs:44-48 `denormalize`. -/
def denormalize (_ : GeocentricAxes) (xyz : XYZ F) (coords : List F) : Res (List F) := do
  let coords ← setIdx coords 0 xyz.x.m
  let coords ← setIdx coords 1 xyz.y.m
  setIdx coords 2 xyz.z.m

/-- cs/cartesian/geocentric.rs:50-52 `denormalize_tol`. -/
def denormalizeTol (_ : GeocentricAxes) (tol : CartesianTolerance F) : List F :=
  List.replicate 3 tol.all.m

end GeocentricAxes

/-- cs/cartesian/projected.rs:101-104 `ProjectedTolerance`. -/
structure ProjectedTolerance (F : Type) where
  horiz : Length F
  height : Length F

/-- cs/cartesian/projected.rs:110-125 `tiny`, `small`. -/
def ProjectedTolerance.tiny : ProjectedTolerance F := ⟨Length.TINY, Length.TINY⟩
def ProjectedTolerance.small : ProjectedTolerance F := ⟨Length.SMALL, Length.SMALL⟩

/-- cs/cartesian/projected.rs:131-135 `ENH`. -/
@[ext] structure ENH (F : Type) where
  easting : Length F
  northing : Length F
  height : Length F

namespace ENH

/-- cs/cartesian/projected.rs:139-143 `dist_to`. -/
def distTo (self other : ENH F) : Length F :=
  ((self.easting - other.easting).hypot (self.northing - other.northing)).hypot
    (self.height - other.height)

/-- cs/cartesian/projected.rs:147-151 `approx_eq`. -/
def approxEq (self other : ENH F) (tol : ProjectedTolerance F) : Bool :=
  self.easting.absDiffEq other.easting tol.horiz
    && self.northing.absDiffEq other.northing tol.horiz
    && self.height.absDiffEq other.height tol.height

end ENH

/-- cs/cartesian/projected.rs:12-33 `ProjectedAxes`. -/
inductive ProjectedAxes (F : Type) where
  | eastNorthUp (horiz_unit height_unit : LengthUnit F)
  | eastNorth (horiz_unit : LengthUnit F)

namespace ProjectedAxes

/-- cs/cartesian/projected.rs:36-44 `dim`. -/
def dim : ProjectedAxes F → Nat
  | .eastNorthUp _ _ => 3
  | .eastNorth _ => 2

/-- cs/cartesian/projected.rs:46-62 `normalize`. -/
def normalize (axes : ProjectedAxes F) (coords : List F) : Res (ENH F) :=
  match axes with
  | .eastNorthUp horiz_unit height_unit => do
    let easting := Length.new (← idx coords 0) horiz_unit
    let northing := Length.new (← idx coords 1) horiz_unit
    let height := Length.new (← idx coords 2) height_unit
    return ⟨easting, northing, height⟩
  | .eastNorth horiz_unit => do
    let easting := Length.new (← idx coords 0) horiz_unit
    let northing := Length.new (← idx coords 1) horiz_unit
    return ⟨easting, northing, Length.ZERO⟩

/-- cs/cartesian/projected.rs:64-79 `denormalize`. -/
def denormalize (axes : ProjectedAxes F) (enh : ENH F) (coords : List F) : Res (List F) :=
  match axes with
  | .eastNorthUp horiz_unit height_unit => do
    let coords ← setIdx coords 0 (enh.easting.val horiz_unit)
    let coords ← setIdx coords 1 (enh.northing.val horiz_unit)
    setIdx coords 2 (enh.height.val height_unit)
  | .eastNorth horiz_unit => do
    let coords ← setIdx coords 0 (enh.easting.val horiz_unit)
    setIdx coords 1 (enh.northing.val horiz_unit)

/-- cs/cartesian/projected.rs:81-97 `denormalize_tol`. -/
def denormalizeTol (axes : ProjectedAxes F) (tol : ProjectedTolerance F) : List F :=
  match axes with
  | .eastNorthUp horiz_unit height_unit =>
    [tol.horiz.val horiz_unit, tol.horiz.val horiz_unit, tol.height.val height_unit]
  | .eastNorth horiz_unit => List.replicate 2 (tol.horiz.val horiz_unit)

end ProjectedAxes

end Geo
