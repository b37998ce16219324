import Verif.Spec.SurfaceGeodesic

/-! # Conformal maps of the ellipsoid to the plane -/

namespace Geo.Spec

/-- The map `(l, φ) ↦ (E, N)` is conformal at longitude `l`, latitude `φ`, with scale `k` and convergence `γ`: whatever the
azimuth `α`, a point that moves over the surface of the ellipsoid of semi-axes `a`, `b` with unit velocity of azimuth `α`
has an image that moves over the plane with speed `k` and grid bearing `α + γ`. -/
def ConformalAt (a b : ℝ) (E N : ℝ → ℝ → ℝ) (l φ k γ : ℝ) : Prop :=
  ∀ (lc φc : ℝ → ℝ) (α : ℝ), lc 0 = l → φc 0 = φ → DifferentiableAt ℝ lc 0 → DifferentiableAt ℝ φc 0 →
    HasDerivAt (fun t => surfacePoint a b (lc t) (φc t)) (direction l φ α) 0 →
    HasDerivAt (fun t => E (lc t) (φc t)) (k * Real.sin (α + γ)) 0 ∧
      HasDerivAt (fun t => N (lc t) (φc t)) (k * Real.cos (α + γ)) 0

end Geo.Spec
