import Mathlib.Analysis.Real.Pi.Bounds

/-! Specification vocabulary: angles on the circle, as real numbers of radians. -/

namespace Geo.Spec

/-- `a` and `b` differ by a whole number of turns. -/
def SameDirection (a b : ℝ) : Prop := ∃ k : ℤ, a = b + k * (2 * Real.pi)

/-- `r` is a representative of `x` in `[-π, π]`, and is `x` itself when `x` is already there. -/
def WrapsTo (r x : ℝ) : Prop :=
  -Real.pi ≤ r ∧ r ≤ Real.pi ∧ SameDirection r x ∧ (-Real.pi ≤ x → x ≤ Real.pi → r = x)

/-- `r` is the representative of `x` in `(-π, π]`. -/
def NormalizesTo (r x : ℝ) : Prop := -Real.pi < r ∧ r ≤ Real.pi ∧ SameDirection r x

end Geo.Spec
