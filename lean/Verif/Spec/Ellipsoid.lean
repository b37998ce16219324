import Mathlib.Analysis.SpecialFunctions.Pow.Real
import Mathlib.Analysis.SpecialFunctions.Trigonometric.Basic

/-! Geometry of the ellipsoid of revolution with semi-axes `a ≥ b`, independent of the model. -/

namespace Geo.Spec

/-- The point is on the ellipsoid. -/
def OnEllipsoid (a b x y z : ℝ) : Prop := x ^ 2 / a ^ 2 + y ^ 2 / a ^ 2 + z ^ 2 / b ^ 2 = 1

/-- `n` is the outward unit normal of the ellipsoid at the surface point `p`: a unit vector, positive multiple
of the gradient. -/
def OutwardNormal (a b : ℝ) (p n : ℝ × ℝ × ℝ) : Prop :=
  n.1 ^ 2 + n.2.1 ^ 2 + n.2.2 ^ 2 = 1 ∧
  ∃ c : ℝ, 0 < c ∧ n.1 = c * (p.1 / a ^ 2) ∧ n.2.1 = c * (p.2.1 / a ^ 2) ∧ n.2.2 = c * (p.2.2 / b ^ 2)

/-- On or outside the evolute of the meridian ellipse, at distance `R` from the axis and height `z` above the
equatorial plane. -/
def OutsideEvolute (a b R z : ℝ) : Prop :=
  (a ^ 2 - b ^ 2) ^ (2 / 3 : ℝ) ≤ (a * R) ^ (2 / 3 : ℝ) + (b * |z|) ^ (2 / 3 : ℝ)

/-- The positions the conversion handles: on or outside the evolute or on the polar axis; not on the surface
`a² R² + b² z² = (a² - b²)²` (where it divides by zero), nor on the equatorial disk bounded by the evolute. -/
def Convertible (a b x y z : ℝ) : Prop :=
  let R := Real.sqrt (x ^ 2 + y ^ 2)
  a ^ 2 * R ^ 2 + b ^ 2 * z ^ 2 ≠ (a ^ 2 - b ^ 2) ^ 2 ∧
  (OutsideEvolute a b R z ∨ R = 0) ∧
  ¬ (z = 0 ∧ a * R ≤ a ^ 2 - b ^ 2)

end Geo.Spec
