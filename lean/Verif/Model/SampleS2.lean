import Verif.Arith

/-! Model of the pure functions of `geokit/src/bin/sample_s2.rs`. -/

namespace Geo
variable {F : Type} [Flt F]

/-- bin/sample_s2.rs:102-109 `s2_to_xyz`. -/
def s2ToXyz (a inverse_flattening meter_per_unit x y z : F) : F × F × F :=
  (a * x / meter_per_unit, a * y / meter_per_unit,
   (a - a / inverse_flattening) * z / meter_per_unit)

/-- bin/sample_s2.rs:111-116 `s2_to_ll`. -/
def s2ToLl (inverse_flattening rad_per_unit x y z : F) : F × F :=
  (Flt.atan2 y x / rad_per_unit,
   Flt.atan2 z ((1 - 1 / inverse_flattening) * Flt.sqrt ((1 - z) * (1 + z))) / rad_per_unit)

end Geo
