import Verif.Sem.F64
import Mathlib.Analysis.SpecialFunctions.Trigonometric.Basic
import Mathlib.Analysis.SpecialFunctions.Complex.Arg

/-! What it means for a double to approximate a real number, and for the mathematical library to be accurate. -/

namespace Geo.Spec
variable {L : Libm}

/-- `x` is finite and within `ε` of the real number `r`. -/
structure Near (x : F64 L) (r ε : ℝ) : Prop where
  finite : x.isFinite
  near : |(x.toQ : ℝ) - r| ≤ ε

/-- The functions of the mathematical library used by the conversion to geocentric coordinates are accurate: the relative
error of `sqrt` is at most `2⁻⁵²`, plus the smallest double (IEEE 754 demands half of it), and the error of `powi(2)` on `[-1.25, 1.25]` and of `sin` and
`cos` on `[-4, 4]` is at most `2⁻⁵²`, one unit in the last place of 1. -/
structure Accurate (L : Libm) : Prop where
  sqrt : ∀ x : F64 L, x.isFinite → 0 ≤ x.toQ → Near (Flt.sqrt x) (Real.sqrt x.toQ) (2⁻¹ ^ 52 * Real.sqrt x.toQ + 2⁻¹ ^ 1074)
  sq : ∀ x : F64 L, x.isFinite → |x.toQ| ≤ 5 / 4 → Near (Flt.powi x 2) ((x.toQ : ℝ) ^ 2) (2⁻¹ ^ 52)
  sin : ∀ x : F64 L, x.isFinite → |x.toQ| ≤ 4 → Near (Flt.sin x) (Real.sin x.toQ) (2⁻¹ ^ 52)
  cos : ∀ x : F64 L, x.isFinite → |x.toQ| ≤ 4 → Near (Flt.cos x) (Real.cos x.toQ) (2⁻¹ ^ 52)

/-- The functions used by the conversion from geocentric coordinates are accurate too: the relative error of `hypot`,
`cbrt` and `atan2` is at most `2⁻⁵²`, plus the smallest double, and that of `powi(3)` at most `2⁻⁵¹`.  `atan2` is only
constrained on the half plane where it has no jump. -/
structure AccurateInverse (L : Libm) : Prop extends Accurate L where
  hypot : ∀ x y : F64 L, x.isFinite → y.isFinite → |x.toQ| ≤ 1e30 → |y.toQ| ≤ 1e30 →
    Near (Flt.hypot x y) (Real.sqrt (x.toQ ^ 2 + y.toQ ^ 2)) (2⁻¹ ^ 52 * Real.sqrt (x.toQ ^ 2 + y.toQ ^ 2) + 2⁻¹ ^ 1074)
  cbrt : ∀ x : F64 L, x.isFinite → 0 ≤ x.toQ →
    ∃ r : ℝ, r ^ 3 = x.toQ ∧ Near (Flt.cbrt x) r (2⁻¹ ^ 52 * |r| + 2⁻¹ ^ 1074)
  cube : ∀ x : F64 L, x.isFinite → 1e-3 ≤ x.toQ → x.toQ ≤ 1e3 →
    Near (Flt.powi x 3) ((x.toQ : ℝ) ^ 3) (2⁻¹ ^ 51 * (x.toQ : ℝ) ^ 3)
  atan2 : ∀ x y : F64 L, x.isFinite → y.isFinite → 0 ≤ x.toQ → (0 < x.toQ ∨ y.toQ ≠ 0) →
    Near (Flt.atan2 y x) (Complex.arg ⟨x.toQ, y.toQ⟩) (2⁻¹ ^ 52 * |Complex.arg ⟨x.toQ, y.toQ⟩| + 2⁻¹ ^ 1074)

end Geo.Spec
