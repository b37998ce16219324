import Verif.Spec.SurfaceGeodesic
import Mathlib.Order.Bounds.Defs

/-! Curves on the ellipsoid and their lengths, independent of the model and of any geodesic. -/

namespace Geo.Spec

/-- `c` runs on the ellipsoid from `p` to `q` in the time `T`, at a speed of at most one: every curve of length `T` on
the ellipsoid is one when it is run through at unit speed. It need not be differentiable. -/
structure IsSurfacePath (a b : ℝ) (p q : E3) (T : ℝ) (c : ℝ → E3) : Prop where
  nonneg : 0 ≤ T
  surface : ∀ t, 0 ≤ t → t ≤ T → OnEllipsoid a b (c t 0) (c t 1) (c t 2)
  speed : ∀ t u, 0 ≤ t → t ≤ T → 0 ≤ u → u ≤ T → ‖c u - c t‖ ≤ |u - t|
  start : c 0 = p
  arrive : c T = q

/-- `d` is the distance of `p` and `q` on the ellipsoid: the greatest lower bound of the lengths of the curves on it that
lead from `p` to `q`. -/
def IsSurfaceDistance (a b : ℝ) (p q : E3) (d : ℝ) : Prop := IsGLB {T | ∃ c, IsSurfacePath a b p q T c} d

end Geo.Spec
