import Verif.Spec.AccurateGeodesic

/-! What it means for the functions used by the Vincenty solver to be accurate. -/

namespace Geo.Spec

/-- The functions of the mathematical library used by the Vincenty solver are accurate: in addition to `AccurateGeodesic`, the
relative error of `powi(2)` on `[-1.25, 1.25]` is at most `2⁻⁵²`, plus the smallest double, and its value there is not negative. -/
structure AccurateVincenty (L : Libm) : Prop extends AccurateGeodesic L where
  sq_rel : ∀ x : F64 L, x.isFinite → |x.toQ| ≤ 5 / 4 →
    Near (Flt.powi x 2) ((x.toQ : ℝ) ^ 2) (2⁻¹ ^ 52 * (x.toQ : ℝ) ^ 2 + 2⁻¹ ^ 1074)
  sq_nonneg : ∀ x : F64 L, x.isFinite → |x.toQ| ≤ 5 / 4 → 0 ≤ (Flt.powi x 2 : F64 L).toQ

end Geo.Spec
