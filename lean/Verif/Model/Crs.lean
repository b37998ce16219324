import Verif.Model.Geodesics
import Verif.Model.Projections

/-! Model of `geokit/src/crs/*.rs`. -/

namespace Geo
variable {F : Type} [Flt F]

/-- crs/mod.rs:12-50 trait `Crs`, seen as `&dyn Crs`: the record of the required methods.  The default
method `approx_eq` is defined below. -/
structure Crs (F : Type) where
  id : String
  dim : Nat
  dist : List F → List F → Res (Length F)

/-- `f64::abs_diff_eq` of the `approx` crate (dependency): `f64::abs(self - other) <= epsilon`. -/
def floatAbsDiffEq (a b epsilon : F) : Bool := Flt.abs (a - b) <=. epsilon

/-- Rust's `b && e`: `e` is evaluated (and may panic) only when `b` holds. -/
def and1 (b : Bool) (e : Res Bool) : Res Bool := if b then e else .ok false

/-- crs/mod.rs:29-38 `approx_eq`.  The second conjunct is only indexed when the first holds, as in Rust. -/
def Crs.approxEq (self : Crs F) (a b tol : List F) : Res Bool := do
  rassert (a.length == self.dim) "assert_eq!(a.len(), self.dim())"
  rassert (b.length == self.dim) "assert_eq!(b.len(), self.dim())"
  let in0 := floatAbsDiffEq (← idx a 0) (← idx b 0) (← idx tol 0)
  let in2d ← and1 in0 (do pure (floatAbsDiffEq (← idx a 1) (← idx b 1) (← idx tol 1)))
  if self.dim == 2 then return in2d
  else if self.dim == 3 then
    and1 in2d (do pure (floatAbsDiffEq (← idx a 2) (← idx b 2) (← idx tol 2)))
  else .error (.panic "unreachable")

/-- crs/geocentric.rs:15-19 `GeocentricCrs`. -/
structure GeocentricCrs (F : Type) where
  id : String
  datum : GeodeticDatum F
  axes : GeocentricAxes

/-- crs/geocentric.rs:33-39 `dist`. -/
def GeocentricCrs.dist (self : GeocentricCrs F) (a b : List F) : Res (Length F) := do
  rassert (a.length == self.axes.dim) "assert_eq!(a.len(), self.dim())"
  rassert (b.length == self.axes.dim) "assert_eq!(b.len(), self.dim())"
  let na ← self.axes.normalize a
  let nb ← self.axes.normalize b
  return na.distTo nb

/-- crs/geocentric.rs:21-40 `impl Crs for GeocentricCrs`. -/
def GeocentricCrs.toCrs (self : GeocentricCrs F) : Crs F :=
  { id := self.id, dim := self.axes.dim, dist := self.dist }

/-- crs/projected.rs:13-18 `ProjectedCrs`. -/
structure ProjectedCrs (F : Type) where
  id : String
  datum : GeodeticDatum F
  axes : ProjectedAxes F
  projection : ProjectionSpec F

/-- crs/projected.rs:29-35 `dist`. -/
def ProjectedCrs.dist (self : ProjectedCrs F) (a b : List F) : Res (Length F) := do
  rassert (a.length == self.axes.dim) "assert_eq!(a.len(), self.dim())"
  rassert (b.length == self.axes.dim) "assert_eq!(b.len(), self.dim())"
  let na ← self.axes.normalize a
  let nb ← self.axes.normalize b
  return na.distTo nb

/-- crs/projected.rs:20-36 `impl Crs for ProjectedCrs`. -/
def ProjectedCrs.toCrs (self : ProjectedCrs F) : Crs F :=
  { id := self.id, dim := self.axes.dim, dist := self.dist }

/-- crs/geographic.rs:16-20 `GeographicCrs`. -/
structure GeographicCrs (F : Type) where
  id : String
  datum : GeodeticDatum F
  axes : GeodeticAxes F

/-- crs/geographic.rs:36-51 `dist`. -/
def GeographicCrs.dist (self : GeographicCrs F) (a b : List F) : Res (Length F) := do
  rassert (a.length == self.axes.dim) "assert_eq!(a.len(), self.dim())"
  rassert (b.length == self.axes.dim) "assert_eq!(b.len(), self.dim())"
  let llha ← self.axes.normalize a
  let llhb ← self.axes.normalize b
  if self.axes.dim == 2 then
    let solver := VincentyGeodesicSolver.mk self.datum.ellipsoid
    let g ← solver.inverse (llha.lon, llha.lat) (llhb.lon, llhb.lat)
    return g.s
  else
    let xyza := self.datum.llhToXyz llha
    let xyzb := self.datum.llhToXyz llhb
    return xyza.distTo xyzb

/-- crs/geographic.rs:22-52 `impl Crs for GeographicCrs`. -/
def GeographicCrs.toCrs (self : GeographicCrs F) : Crs F :=
  { id := self.id, dim := self.axes.dim, dist := self.dist }

end Geo
