import Verif.Spec.Accuracy
import Mathlib.Analysis.SpecialFunctions.Arsinh
import Mathlib.Analysis.SpecialFunctions.Artanh
import Mathlib.Analysis.SpecialFunctions.Trigonometric.Arctan
import Mathlib.Analysis.SpecialFunctions.Trigonometric.Inverse
import Mathlib.Analysis.SpecialFunctions.Pow.Real

/-! What it means for the functions used by the map projections to be accurate. -/

namespace Geo.Spec

/-- The functions of the mathematical library used by the map projections are accurate: `sin` and `cos` are within `2⁻⁵²`
on `[-32, 32]`, and the relative error of the others, plus the smallest double, is at most `2⁻⁵¹`, which is at least two units in the last place, or
`2⁻⁵⁰` for `asinh` and `atanh`, which Rust computes itself from `ln_1p`. -/
structure AccurateProjection (L : Libm) : Prop extends Accurate L where
  sin_wide : ∀ x : F64 L, x.isFinite → |x.toQ| ≤ 32 → Near (Flt.sin x) (Real.sin x.toQ) (2⁻¹ ^ 52)
  cos_wide : ∀ x : F64 L, x.isFinite → |x.toQ| ≤ 32 → Near (Flt.cos x) (Real.cos x.toQ) (2⁻¹ ^ 52)
  tan : ∀ x : F64 L, x.isFinite → |x.toQ| ≤ (Flt.pi_2 : F64 L).toQ →
    Near (Flt.tan x) (Real.tan x.toQ) (2⁻¹ ^ 51 * |Real.tan x.toQ| + 2⁻¹ ^ 1074)
  asin : ∀ x : F64 L, x.isFinite → |x.toQ| ≤ 1 →
    Near (Flt.asin x) (Real.arcsin x.toQ) (2⁻¹ ^ 51 * |Real.arcsin x.toQ| + 2⁻¹ ^ 1074)
  atan : ∀ x : F64 L, x.isFinite →
    Near (Flt.atan x) (Real.arctan x.toQ) (2⁻¹ ^ 51 * |Real.arctan x.toQ| + 2⁻¹ ^ 1074)
  sinh : ∀ x : F64 L, x.isFinite → |x.toQ| ≤ 32 →
    Near (Flt.sinh x) (Real.sinh x.toQ) (2⁻¹ ^ 51 * |Real.sinh x.toQ| + 2⁻¹ ^ 1074)
  cosh : ∀ x : F64 L, x.isFinite → |x.toQ| ≤ 32 →
    Near (Flt.cosh x) (Real.cosh x.toQ) (2⁻¹ ^ 51 * |Real.cosh x.toQ| + 2⁻¹ ^ 1074)
  tanh : ∀ x : F64 L, x.isFinite →
    Near (Flt.tanh x) (Real.tanh x.toQ) (2⁻¹ ^ 51 * |Real.tanh x.toQ| + 2⁻¹ ^ 1074)
  asinh : ∀ x : F64 L, x.isFinite → |x.toQ| ≤ 1e20 →
    Near (Flt.asinh x) (Real.arsinh x.toQ) (2⁻¹ ^ 50 * |Real.arsinh x.toQ| + 2⁻¹ ^ 1074)
  atanh : ∀ x : F64 L, x.isFinite → |x.toQ| ≤ 0.99 →
    Near (Flt.atanh x) (Real.artanh x.toQ) (2⁻¹ ^ 50 * |Real.artanh x.toQ| + 2⁻¹ ^ 1074)
  exp : ∀ x : F64 L, x.isFinite → |x.toQ| ≤ 32 →
    Near (Flt.exp x) (Real.exp x.toQ) (2⁻¹ ^ 51 * |Real.exp x.toQ| + 2⁻¹ ^ 1074)
  ln : ∀ x : F64 L, x.isFinite → 1e-20 ≤ x.toQ → x.toQ ≤ 1e20 →
    Near (Flt.ln x) (Real.log x.toQ) (2⁻¹ ^ 51 * |Real.log x.toQ| + 2⁻¹ ^ 1074)
  powf : ∀ x y : F64 L, x.isFinite → y.isFinite → 0.01 ≤ x.toQ → x.toQ ≤ 100 → |y.toQ| ≤ 2 →
    Near (Flt.powf x y) ((x.toQ : ℝ) ^ (y.toQ : ℝ)) (2⁻¹ ^ 51 * |(x.toQ : ℝ) ^ (y.toQ : ℝ)| + 2⁻¹ ^ 1074)

end Geo.Spec
