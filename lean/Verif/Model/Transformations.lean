import Verif.Model.Crs

/-! Model of `geokit/src/transformations/xyz.rs`. -/

namespace Geo
variable {F : Type} [Flt F]

/-- transformations/xyz.rs:68-71 `dyn ToXYZ`: the record of its methods.  `from_xyz` returns the new
content of `coords`. -/
structure ToXYZ (F : Type) where
  toXyz : List F → Res (XYZ F)
  fromXyz : XYZ F → List F → Res (List F)

/-- transformations/xyz.rs:155-158 `dyn XYZTransformation`: the record of its methods. -/
structure XYZTransformation (F : Type) where
  toRef : XYZ F → XYZ F
  fromRef : XYZ F → XYZ F

/-- transformations/xyz.rs:83-97. -/
def GeocentricCrs.toXyzTransformation (self : GeocentricCrs F) : ToXYZ F :=
  { toXyz := fun coords => self.axes.normalize coords
    fromXyz := fun xyz coords => self.axes.denormalize xyz coords }

/-- transformations/xyz.rs:99-115. -/
def GeographicCrs.toXyzTransformation (self : GeographicCrs F) : ToXYZ F :=
  { toXyz := fun coords => do
      let llh ← self.axes.normalize coords
      return self.datum.llhToXyz llh
    fromXyz := fun xyz coords => self.axes.denormalize (self.datum.xyzToLlh xyz) coords }

/-- transformations/xyz.rs:117-152. -/
noncomputable def ProjectedCrs.toXyzTransformation (self : ProjectedCrs F) : ToXYZ F :=
  let projection := self.projection.appliedTo self.datum.ellipsoid
  { toXyz := fun coords => do
      let enh ← self.axes.normalize coords
      let llh ← projection.unproj enh
      return self.datum.llhToXyz llh
    fromXyz := fun xyz coords => do
      let llh := self.datum.xyzToLlh xyz
      let enh ← projection.proj llh
      self.axes.denormalize enh coords }

/-- transformations/xyz.rs:27-32 `CrsXYZTransformation`. -/
structure CrsXYZTransformation (F : Type) where
  srcToXyz : ToXYZ F
  srcXyzToRefXyz : XYZTransformation F
  dstXyzToRefXyz : XYZTransformation F
  dstToXyz : ToXYZ F

namespace CrsXYZTransformation

/-- transformations/xyz.rs:35-47 `new`; `src`, `dst` are given by their `to_xyz_transformation()`. -/
def new (src dst : ToXYZ F) (src_to_ref dst_to_ref : XYZTransformation F) : CrsXYZTransformation F :=
  { srcToXyz := src, srcXyzToRefXyz := src_to_ref, dstXyzToRefXyz := dst_to_ref, dstToXyz := dst }

/-- transformations/xyz.rs:51-56 `fwd`: new content of `dst`. -/
def fwd (self : CrsXYZTransformation F) (src dst : List F) : Res (List F) := do
  let src_xyz ← self.srcToXyz.toXyz src
  let ref_xyz := self.srcXyzToRefXyz.toRef src_xyz
  let dst_xyz := self.dstXyzToRefXyz.fromRef ref_xyz
  self.dstToXyz.fromXyz dst_xyz dst

/-- transformations/xyz.rs:58-63 `bwd`: new content of `src`. -/
def bwd (self : CrsXYZTransformation F) (dst src : List F) : Res (List F) := do
  let dst_xyz ← self.dstToXyz.toXyz dst
  let ref_xyz := self.dstXyzToRefXyz.toRef dst_xyz
  let src_xyz := self.srcXyzToRefXyz.fromRef ref_xyz
  self.srcToXyz.fromXyz src_xyz src

end CrsXYZTransformation

/-- transformations/xyz.rs:161-171 `XYZIdentity`. -/
def XYZIdentity : XYZTransformation F := { toRef := fun src => src, fromRef := fun dst => dst }

/-- transformations/xyz.rs:179-183 `GeocentricTranslation`. -/
structure GeocentricTranslation (F : Type) where
  tx : Length F
  ty : Length F
  tz : Length F

/-- transformations/xyz.rs:199-205 `to_ref`. -/
def GeocentricTranslation.toRef (self : GeocentricTranslation F) (src : XYZ F) : XYZ F :=
  { x := src.x + self.tx, y := src.y + self.ty, z := src.z + self.tz }
/-- transformations/xyz.rs:207-213 `from_ref`. -/
def GeocentricTranslation.fromRef (self : GeocentricTranslation F) (dst : XYZ F) : XYZ F :=
  { x := dst.x - self.tx, y := dst.y - self.ty, z := dst.z - self.tz }
/-- transformations/xyz.rs:198-214. -/
def GeocentricTranslation.toTransformation (self : GeocentricTranslation F) : XYZTransformation F :=
  { toRef := self.toRef, fromRef := self.fromRef }

/-- transformations/xyz.rs:217-225 `RotationConvention`. -/
inductive RotationConvention where
  | positionVector
  | coordinateFrame

/-- nalgebra `Vector3<Float>`. -/
structure Vec3 (F : Type) where
  x : F
  y : F
  z : F

/-- nalgebra `Matrix3<Float>`, entries in the (row-major) order of `Matrix3::new`. -/
structure Mat3 (F : Type) where
  m11 : F
  m12 : F
  m13 : F
  m21 : F
  m22 : F
  m23 : F
  m31 : F
  m32 : F
  m33 : F

namespace Mat3

/-- `Matrix3::identity()`. -/
def identity : Mat3 F := ⟨1, 0, 0, 0, 1, 0, 0, 0, 1⟩
/-- Componentwise `+`. -/
def add (a b : Mat3 F) : Mat3 F :=
  ⟨a.m11 + b.m11, a.m12 + b.m12, a.m13 + b.m13, a.m21 + b.m21, a.m22 + b.m22, a.m23 + b.m23,
   a.m31 + b.m31, a.m32 + b.m32, a.m33 + b.m33⟩
/-- Componentwise `-`. -/
def sub (a b : Mat3 F) : Mat3 F :=
  ⟨a.m11 - b.m11, a.m12 - b.m12, a.m13 - b.m13, a.m21 - b.m21, a.m22 - b.m22, a.m23 - b.m23,
   a.m31 - b.m31, a.m32 - b.m32, a.m33 - b.m33⟩
/-- `Matrix3 * Float`. -/
def mulF (a : Mat3 F) (k : F) : Mat3 F :=
  ⟨a.m11 * k, a.m12 * k, a.m13 * k, a.m21 * k, a.m22 * k, a.m23 * k, a.m31 * k, a.m32 * k, a.m33 * k⟩
/-- `Matrix3 * Vector3`; sums are associated to the left (nalgebra's order is not specified). -/
def mulVec (a : Mat3 F) (v : Vec3 F) : Vec3 F :=
  ⟨a.m11 * v.x + a.m12 * v.y + a.m13 * v.z, a.m21 * v.x + a.m22 * v.y + a.m23 * v.z,
   a.m31 * v.x + a.m32 * v.y + a.m33 * v.z⟩

end Mat3

/-- Componentwise `+` and `-` of `Vector3`. -/
def Vec3.add (a b : Vec3 F) : Vec3 F := ⟨a.x + b.x, a.y + b.y, a.z + b.z⟩
def Vec3.sub (a b : Vec3 F) : Vec3 F := ⟨a.x - b.x, a.y - b.y, a.z - b.z⟩

/-- transformations/xyz.rs:234-239 `Helmert7Params`. -/
structure Helmert7Params (F : Type) where
  rot : Mat3 F
  invRot : Mat3 F
  t : Vec3 F
  ppm : PPM F

namespace Helmert7Params

/-- transformations/xyz.rs:243-266 `new`; the arrays `rotation`, `translation` are given by their
components. -/
def new (conv : RotationConvention) (arx ary arz : Angle F) (ltx lty ltz : Length F) (ppm : PPM F) :
    Helmert7Params F :=
  let rx := arx.rad
  let ry := ary.rad
  let rz := arz.rad
  let rot : Mat3 F :=
    match conv with
    | .positionVector => ⟨0, -rz, ry, rz, 0, -rx, -ry, rx, 0⟩
    | .coordinateFrame => ⟨0, rz, -ry, -rz, 0, rx, ry, -rx, 0⟩
  { rot := Mat3.identity.add rot, invRot := Mat3.identity.sub rot
    t := ⟨ltx.m, lty.m, ltz.m⟩, ppm := ppm }

/-- transformations/xyz.rs:270-279 `to_ref`. -/
def toRef (self : Helmert7Params F) (src : XYZ F) : XYZ F :=
  let s : Vec3 F := ⟨src.x.m, src.y.m, src.z.m⟩
  let x := ((self.rot.mulF self.ppm.factor).mulVec s).add self.t
  { x := Length.new x.x M, y := Length.new x.y M, z := Length.new x.z M }

/-- transformations/xyz.rs:281-290 `from_ref`. -/
def fromRef (self : Helmert7Params F) (dst : XYZ F) : XYZ F :=
  let t : Vec3 F := ⟨dst.x.m, dst.y.m, dst.z.m⟩
  let s := ((self.invRot.mulF self.ppm.invFactor).mulVec t).sub self.t
  { x := Length.new s.x M, y := Length.new s.y M, z := Length.new s.z M }

/-- transformations/xyz.rs:269-291. -/
def toTransformation (self : Helmert7Params F) : XYZTransformation F :=
  { toRef := self.toRef, fromRef := self.fromRef }

end Helmert7Params

end Geo
