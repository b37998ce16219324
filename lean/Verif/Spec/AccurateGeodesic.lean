import Verif.Spec.AccurateProjection

/-! What it means for the functions used by the geodesic solvers to be accurate. -/

namespace Geo.Spec

/-- The functions of the mathematical library used by the geodesic solvers are accurate: `sin` is within `2⁻⁵²` on `[-100, 100]`;
`hypot` is not negative; `atan2` is, with a relative error of at most `2⁻⁵²` plus the smallest double, a polar angle of the
point in `[-π, π]`, whichever of the two the sign of a zero selects on the cut, and it does not exceed the double `FRAC_PI_2` on
the right half plane. -/
structure AccurateGeodesic (L : Libm) : Prop extends AccurateProjection L, AccurateInverse L where
  sin_far : ∀ x : F64 L, x.isFinite → |x.toQ| ≤ 100 → Near (Flt.sin x) (Real.sin x.toQ) (2⁻¹ ^ 52)
  hypot_nonneg : ∀ x y : F64 L, x.isFinite → y.isFinite → 0 ≤ (Flt.hypot x y).toQ
  atan2_all : ∀ x y : F64 L, x.isFinite → y.isFinite → ∃ θ : ℝ, |θ| ≤ Real.pi ∧
    Real.sqrt (x.toQ ^ 2 + y.toQ ^ 2) * Real.cos θ = x.toQ ∧ Real.sqrt (x.toQ ^ 2 + y.toQ ^ 2) * Real.sin θ = y.toQ ∧
    Near (Flt.atan2 y x) θ (2⁻¹ ^ 52 * |θ| + 2⁻¹ ^ 1074)
  atan2_right : ∀ x y : F64 L, x.isFinite → y.isFinite → 0 ≤ x.toQ → (0 < x.toQ ∨ y.toQ ≠ 0) →
    |(Flt.atan2 y x).toQ| ≤ (Flt.pi_2 : F64 L).toQ

end Geo.Spec
