import Verif.Model.Math

/-! Model of `geokit/src/units/*.rs` and `geokit/src/quantities/*.rs`. -/

namespace Geo
variable {F : Type} [Flt F]

/-- units/angle.rs:13 `AngleUnit(pub Float, pub Float)`: numerator and denominator of radians per unit. -/
structure AngleUnit (F : Type) where
  num : F
  den : F

/-- units/angle.rs:17-19 `rad_per_unit`. -/
def AngleUnit.radPerUnit (u : AngleUnit F) : F := u.num / u.den

/-- units/angle.rs:22-25. -/
def RAD : AngleUnit F := ⟨1, 1⟩
def DEG : AngleUnit F := ⟨pi, 180⟩
def GRAD : AngleUnit F := ⟨pi, 200⟩
def SEC : AngleUnit F := ⟨pi, 648000⟩

/-- units/length.rs:12 `LengthUnit`. -/
structure LengthUnit (F : Type) where
  num : F
  den : F

/-- units/length.rs:16-18 `m_per_unit`. -/
def LengthUnit.mPerUnit (u : LengthUnit F) : F := u.num / u.den

/-- units/length.rs:22-31. -/
def M : LengthUnit F := ⟨1, 1⟩
def FT : LengthUnit F := ⟨0.3048, 1⟩
def US_FT : LengthUnit F := ⟨1200, 3937⟩

/-- quantities/angle.rs:32 `Angle(Float)`, in radians; `rad` is also the accessor of lines 125-129. -/
@[ext] structure Angle (F : Type) where
  rad : F

namespace Angle

/-- quantities/angle.rs:56-58 `Angle::new`; also `Float * AngleUnit` (lines 261-275). -/
def new (qty : F) (unit : AngleUnit F) : Angle F := ⟨qty * unit.radPerUnit⟩

/-- quantities/angle.rs:37, 41, 43-48. -/
def TINY : Angle F := new 1e-12 RAD
def SMALL : Angle F := new 1e-9 RAD
def ZERO : Angle F := ⟨0⟩
def PI_2 : Angle F := ⟨pi_2⟩
def PI : Angle F := ⟨pi⟩
def TWO_PI : Angle F := ⟨tau⟩
def M_PI_2 : Angle F := ⟨-pi_2⟩
def M_PI : Angle F := ⟨-pi⟩

/-- derive_more `Add`, `Sub`, `Neg`, quantities/angle.rs:28-30. -/
instance : Add (Angle F) := ⟨fun a b => ⟨a.rad + b.rad⟩⟩
instance : Sub (Angle F) := ⟨fun a b => ⟨a.rad - b.rad⟩⟩
instance : Neg (Angle F) := ⟨fun a => ⟨-a.rad⟩⟩

/-- quantities/angle.rs:213-219 `Float * Angle`. -/
instance : HMul F (Angle F) (Angle F) := ⟨fun k a => ⟨k * a.rad⟩⟩
/-- quantities/angle.rs:221-227 `Angle * Float`. -/
instance : HMul (Angle F) F (Angle F) := ⟨fun a k => ⟨a.rad * k⟩⟩
/-- quantities/angle.rs:235-241 `Angle / Float`. -/
instance : HDiv (Angle F) F (Angle F) := ⟨fun a k => ⟨a.rad / k⟩⟩

/-- derived `PartialEq`/`PartialOrd`, quantities/angle.rs:29: comparison of the float. -/
def lt (a b : Angle F) : Bool := a.rad <. b.rad
def le (a b : Angle F) : Bool := a.rad <=. b.rad
def beq (a b : Angle F) : Bool := a.rad ==. b.rad

/-- quantities/angle.rs:62-70 `clamped` (the debug assertion compares constants and never fires). -/
def clamped (a min max : Angle F) : Angle F := ⟨clamp a.rad min.rad max.rad⟩

/-- quantities/angle.rs:73-79 `wrapped`. -/
def wrapped (x : Angle F) : Angle F :=
  let a := remainder x.rad tau
  ⟨if a <. -pi then pi else a⟩

/-- quantities/angle.rs:90-96 `normalized`. -/
def normalized (x : Angle F) : Angle F :=
  let a := remainder x.rad tau
  ⟨if a <=. -pi then pi else a⟩

/-- quantities/angle.rs:99-105 `normalize` (in place: returns the new value of `self`). -/
def normalize (x : Angle F) : Angle F :=
  let a := remainder x.rad tau
  ⟨if a <=. -pi then pi else a⟩

/-- quantities/angle.rs:116-118 `val`. -/
def val (a : Angle F) (unit : AngleUnit F) : F := a.rad * unit.den / unit.num

/-- quantities/angle.rs:121-123 `abs`. -/
def abs (a : Angle F) : Angle F := ⟨Flt.abs a.rad⟩

/-- quantities/angle.rs:131-149 `sin`, `cos`, `tan`. -/
def sin (a : Angle F) : F := Flt.sin a.rad
def cos (a : Angle F) : F := Flt.cos a.rad
def tan (a : Angle F) : F := Flt.tan a.rad

/-- quantities/angle.rs:164-166 `diff_to`. -/
def diffTo (self other : Angle F) : Angle F := (other - self).normalized

/-- quantities/angle.rs:208-210 `signum`. -/
def signum (a : Angle F) : F := Flt.signum a.rad

/-- quantities/angle.rs:256-258 `abs_diff_eq`. -/
def absDiffEq (a b epsilon : Angle F) : Bool := (a - b).abs.le epsilon

end Angle

/-- quantities/angle.rs:301 `Dms(Float, Float, Float)` with accessors `deg`, `min`, `sec` (303-318). -/
structure Dms (F : Type) where
  deg : F
  min : F
  sec : F

/-- quantities/angle.rs:190-206 `dms`. -/
def Angle.dms (x : Angle F) : Dms F :=
  let rad := x.rad
  let sgn := Flt.signum rad
  let deg := toDegrees (Flt.abs rad)
  let d := Flt.floor deg
  let deg := 60 * fract deg
  if Flt.abs (deg - Flt.round deg) <. 1e-8 then
    ⟨sgn * d, Flt.round deg, 0⟩
  else
    ⟨sgn * d, Flt.floor deg, 60 * fract deg⟩

/-- quantities/length.rs:48 `Length(Float)`, in metres; `m` is also the accessor of lines 83-86. -/
@[ext] structure Length (F : Type) where
  m : F

namespace Length

/-- quantities/length.rs:64-66 `Length::new`; also `Float * LengthUnit` (lines 100-116). -/
def new (qty : F) (unit : LengthUnit F) : Length F := ⟨qty * unit.mPerUnit⟩

/-- quantities/length.rs:52, 54, 56. -/
def TINY : Length F := new 1e-4 M
def SMALL : Length F := new 1e-3 M
def ZERO : Length F := ⟨0⟩

/-- quantities/length.rs:78-80 `val`. -/
def val (l : Length F) (unit : LengthUnit F) : F := l.m / unit.mPerUnit

/-- quantities/length.rs:88-90 `abs`. -/
def abs (l : Length F) : Length F := ⟨Flt.abs l.m⟩
/-- quantities/length.rs:92-94 `atan2`. -/
def atan2 (self other : Length F) : Angle F := Angle.new (Flt.atan2 self.m other.m) RAD
/-- quantities/length.rs:96-98 `hypot`. -/
def hypot (self other : Length F) : Length F := ⟨Flt.hypot self.m other.m⟩

/-- derive_more `Add`, `Sub`, quantities/length.rs:46. -/
instance : Add (Length F) := ⟨fun a b => ⟨a.m + b.m⟩⟩
instance : Sub (Length F) := ⟨fun a b => ⟨a.m - b.m⟩⟩
/-- quantities/length.rs:118-125 `Float * Length`. -/
instance : HMul F (Length F) (Length F) := ⟨fun k l => ⟨k * l.m⟩⟩
/-- quantities/length.rs:127-134 `Length * Float` (defined as `rhs * self`). -/
instance : HMul (Length F) F (Length F) := ⟨fun l k => k * l⟩
/-- quantities/length.rs:143-150 `Length / Float`. -/
instance : HDiv (Length F) F (Length F) := ⟨fun l k => ⟨l.m / k⟩⟩
/-- quantities/length.rs:159-166 `Length / Length`. -/
instance : HDiv (Length F) (Length F) F := ⟨fun a b => a.m / b.m⟩

/-- derived `PartialEq`/`PartialOrd`, quantities/length.rs:46. -/
def lt (a b : Length F) : Bool := a.m <. b.m
def le (a b : Length F) : Bool := a.m <=. b.m
def beq (a b : Length F) : Bool := a.m ==. b.m

/-- quantities/length.rs:175-177 `abs_diff_eq`. -/
def absDiffEq (a b epsilon : Length F) : Bool := (a - b).abs.le epsilon

end Length

/-- quantities/length.rs:186 `ArcLength(pub Length)`. -/
structure ArcLength (F : Type) where
  length : Length F

/-- quantities/length.rs:195-202 `Length * Angle` (and 204-210 `Angle * Length`). -/
def Length.mulAngle (l : Length F) (a : Angle F) : ArcLength F := ⟨l * a.rad⟩

/-- quantities/length.rs:212-218 `ArcLength / Length`. -/
def ArcLength.divLength (s : ArcLength F) (l : Length F) : Angle F :=
  Angle.new (s.length / l) RAD

/-- quantities/scale.rs:3 `PPM(pub f64)`. -/
structure PPM (F : Type) where
  ppm : F

/-- quantities/scale.rs:8-10 `factor`. -/
def PPM.factor (p : PPM F) : F := 1.0 + p.ppm * 1e-6
/-- quantities/scale.rs:14-16 `inv_factor`. -/
def PPM.invFactor (p : PPM F) : F := 1.0 - p.ppm * 1e-6

/-- math/complex.rs:37-40 `arg`. -/
def Cplx.arg (z : Cplx F) : Angle F := Angle.new (Flt.atan2 z.im z.re) RAD

end Geo
