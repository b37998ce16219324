import Mathlib.Analysis.SpecialFunctions.Trigonometric.Basic

/-! The series of R. H. Rapp, *Geometric Geodesy, Part II* (1993), section 1, over the reals and independent of the
model: the arc from the distance, and the excess of the longitude on the auxiliary sphere. -/

namespace Geo.Spec

noncomputable def rappB0 (u : ℝ) : ℝ := 1 + u / 4 - 3 * u ^ 2 / 64 + 5 * u ^ 3 / 256 - 175 * u ^ 4 / 16384
noncomputable def rappB2 (u : ℝ) : ℝ := -u / 4 + u ^ 2 / 16 - 15 * u ^ 3 / 512 + 35 * u ^ 4 / 2048
noncomputable def rappB4 (u : ℝ) : ℝ := -u ^ 2 / 128 + 3 * u ^ 3 / 512 - 35 * u ^ 4 / 8192
noncomputable def rappB6 (u : ℝ) : ℝ := -u ^ 3 / 1536 + 5 * u ^ 4 / 6144

noncomputable def rappA0 (f c : ℝ) : ℝ :=
  1 - f / 4 * (1 + f + f ^ 2) * c + 3 * f ^ 2 / 16 * (1 + 9 * f / 4) * c ^ 2 - 25 * f ^ 3 / 128 * c ^ 3
noncomputable def rappA2 (f c : ℝ) : ℝ :=
  f / 4 * (1 + f + f ^ 2) * c - f ^ 2 / 4 * (1 + 9 * f / 4) * c ^ 2 + 75 * f ^ 3 / 256 * c ^ 3
noncomputable def rappA4 (f c : ℝ) : ℝ := f ^ 2 / 32 * (1 + 9 * f / 4) * c ^ 2 - 15 * f ^ 3 / 256 * c ^ 3
noncomputable def rappA6 (f c : ℝ) : ℝ := 5 * f ^ 3 / 768 * c ^ 3

/-- The arc after one iteration from `q`; `σ₀` is the distance over `b B₀`, `m` the arc from the node to the start. -/
noncomputable def rappSigma (u m σ₀ q : ℝ) : ℝ :=
  σ₀ - rappB2 u / rappB0 u * Real.sin q * Real.cos (2 * m + q)
    - rappB4 u / rappB0 u * Real.sin (2 * q) * Real.cos (2 * (2 * m + q))
    - rappB6 u / rappB0 u * Real.sin (3 * q) * Real.cos (3 * (2 * m + q))

/-- The excess `λ - L` of the longitude; the periodic terms at the arc `q`, the secular one at `σ`. -/
noncomputable def rappExcess (f sa m σ q : ℝ) : ℝ :=
  f * sa * (rappA0 f (1 - sa ^ 2) * σ + rappA2 f (1 - sa ^ 2) * Real.sin q * Real.cos (2 * m + q)
    + rappA4 f (1 - sa ^ 2) * Real.sin (2 * q) * Real.cos (2 * (2 * m + q))
    + rappA6 f (1 - sa ^ 2) * Real.sin (3 * q) * Real.cos (3 * (2 * m + q)))

end Geo.Spec
