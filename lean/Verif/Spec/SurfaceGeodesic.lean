import Verif.Spec.Ellipsoid
import Mathlib.Analysis.InnerProductSpace.PiL2
import Mathlib.Analysis.Calculus.Deriv.Basic

/-! Geodesics of the ellipsoid of revolution, independent of the model and of any method of computing them. -/

namespace Geo.Spec

/-- Space. -/
abbrev E3 := EuclideanSpace ℝ (Fin 3)

/-- A curve on the ellipsoid, run through at unit speed, whose acceleration is normal to the surface (a multiple of the
gradient of `x²/a² + y²/a² + z²/b²`). -/
structure IsGeodesic (a b : ℝ) (γ : ℝ → E3) : Prop where
  surface : ∀ t, OnEllipsoid a b (γ t 0) (γ t 1) (γ t 2)
  differentiable : Differentiable ℝ γ
  unit_speed : ∀ t, ‖deriv γ t‖ = 1
  differentiable' : Differentiable ℝ (deriv γ)
  normal : ∀ t, ∃ μ : ℝ, deriv (deriv γ) t = μ • !₂[γ t 0 / a ^ 2, γ t 1 / a ^ 2, γ t 2 / b ^ 2]

/-- The point of the ellipsoid at longitude `l` and geodetic latitude `φ`. -/
noncomputable def surfacePoint (a b l φ : ℝ) : E3 :=
  let N := a ^ 2 / Real.sqrt (a ^ 2 * Real.cos φ ^ 2 + b ^ 2 * Real.sin φ ^ 2)
  !₂[N * Real.cos φ * Real.cos l, N * Real.cos φ * Real.sin l, b ^ 2 / a ^ 2 * N * Real.sin φ]

/-- The unit vector of azimuth `α` (from north towards east) in the horizon plane at longitude `l`, latitude `φ`. -/
noncomputable def direction (l φ α : ℝ) : E3 :=
  Real.cos α • !₂[-Real.sin φ * Real.cos l, -Real.sin φ * Real.sin l, Real.cos φ] +
    Real.sin α • !₂[-Real.sin l, Real.cos l, 0]

end Geo.Spec
