import Verif.Spec.Accuracy

/-! What the mathematical library returns on NaN, on infinities and beyond the range of the doubles. -/

namespace Geo.Spec

/-- The special cases of IEEE 754 (clause 9.2.1) and C (annex F) for the functions used by the inverse of the transverse
Mercator projection, with bounds on their values: the sine of an infinity or NaN is NaN; NaN is propagated; `cosh`
overflows to `+∞` from 711 on (the largest double is `cosh 710.4758…`), and neither `sinh` nor `cosh` exceeds `2¹⁰²³`
up to 709; `sin` and `cos` stay in `[-1, 1]`, `cosh` is at least 1 and `asin` stays in `[-FRAC_PI_2, FRAC_PI_2]`. -/
structure IeeeSpecial (L : Libm) : Prop where
  sin_nonfinite : ∀ x : B64, x.isFinite = false → L.sin x = .nan
  asin_nan : L.asin .nan = .nan
  tan_nan : L.tan .nan = .nan
  asinh_nan : L.asinh .nan = .nan
  cosh_overflow : ∀ x : B64, x ≠ .nan → (x.isFinite = true → 711 ≤ |x.toQ|) → L.cosh x = .inf false
  cosh_ge_one : ∀ x : B64, x ≠ .nan → L.cosh x = .inf false ∨ (L.cosh x).isFinite = true ∧ 1 ≤ (L.cosh x).toQ
  cosh_range : ∀ x : B64, x.isFinite = true → |x.toQ| ≤ 709 → (L.cosh x).isFinite = true ∧ |(L.cosh x).toQ| ≤ 2 ^ (1023 : ℤ)
  sinh_range : ∀ x : B64, x.isFinite = true → |x.toQ| ≤ 709 → (L.sinh x).isFinite = true ∧ |(L.sinh x).toQ| ≤ 2 ^ (1023 : ℤ)
  sin_le_one : ∀ x : B64, x.isFinite = true → (L.sin x).isFinite = true ∧ |(L.sin x).toQ| ≤ 1
  cos_le_one : ∀ x : B64, x.isFinite = true → (L.cos x).isFinite = true ∧ |(L.cos x).toQ| ≤ 1
  asin_le : ∀ x : B64, x.isFinite = true → |x.toQ| ≤ 1 → |(L.asin x).toQ| ≤ B64.pi_2.toQ

end Geo.Spec
