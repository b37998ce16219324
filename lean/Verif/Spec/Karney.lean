import Mathlib.Analysis.SpecialFunctions.Trigonometric.Basic

/-! The series of C. F. F. Karney, *Algorithms for geodesics*, J. Geodesy 87 (2013), over the reals and independent of
the model.  Numbers in parentheses are those of the paper. -/

namespace Geo.Spec

/-- The sum `∑ c k sin 2kx`, for `k` from 1 to 6. -/
noncomputable def sineSum (c : ℕ → ℝ) (x : ℝ) : ℝ := ∑ k ∈ Finset.range 6, c (k + 1) * Real.sin (2 * (k + 1) * x)

/-- (17). -/
noncomputable def karneyA1 (ε : ℝ) : ℝ := (1 + ε ^ 2 / 4 + ε ^ 4 / 64 + ε ^ 6 / 256) / (1 - ε)

/-- (18). -/
noncomputable def karneyC1 (ε : ℝ) : ℕ → ℝ
  | 1 => -ε / 2 + 3 * ε ^ 3 / 16 - ε ^ 5 / 32
  | 2 => -ε ^ 2 / 16 + ε ^ 4 / 32 - 9 * ε ^ 6 / 2048
  | 3 => -ε ^ 3 / 48 + 3 * ε ^ 5 / 256
  | 4 => -5 * ε ^ 4 / 512 + 3 * ε ^ 6 / 512
  | 5 => -7 * ε ^ 5 / 1280
  | 6 => -7 * ε ^ 6 / 2048
  | _ => 0

/-- (15): the distance from the node, in units of `b`, after an arc `σ`. -/
noncomputable def karneyI1 (ε σ : ℝ) : ℝ := karneyA1 ε * (σ + sineSum (karneyC1 ε) σ)

/-- (21). -/
noncomputable def karneyC1' (ε : ℝ) : ℕ → ℝ
  | 1 => ε / 2 - 9 * ε ^ 3 / 32 + 205 * ε ^ 5 / 1536
  | 2 => 5 * ε ^ 2 / 16 - 37 * ε ^ 4 / 96 + 1335 * ε ^ 6 / 4096
  | 3 => 29 * ε ^ 3 / 96 - 75 * ε ^ 5 / 128
  | 4 => 539 * ε ^ 4 / 1536 - 2391 * ε ^ 6 / 2560
  | 5 => 3467 * ε ^ 5 / 7680
  | 6 => 38081 * ε ^ 6 / 61440
  | _ => 0

/-- (20): the arc from the normalised distance. -/
noncomputable def karneySigma (ε τ : ℝ) : ℝ := τ + sineSum (karneyC1' ε) τ

/-- (24). -/
noncomputable def karneyA3 (n ε : ℝ) : ℝ :=
  1 - (1 / 2 - n / 2) * ε - (1 / 4 + n / 8 - 3 * n ^ 2 / 8) * ε ^ 2 - (1 / 16 + 3 * n / 16 + n ^ 2 / 16) * ε ^ 3
    - (3 / 64 + n / 32) * ε ^ 4 - 3 / 128 * ε ^ 5

/-- (25). -/
noncomputable def karneyC3 (n ε : ℝ) : ℕ → ℝ
  | 1 => (1 / 4 - n / 4) * ε + (1 / 8 - n ^ 2 / 8) * ε ^ 2 + (3 / 64 + 3 * n / 64 - n ^ 2 / 64) * ε ^ 3
      + (5 / 128 + n / 64) * ε ^ 4 + 3 / 128 * ε ^ 5
  | 2 => (1 / 16 - 3 * n / 32 + n ^ 2 / 32) * ε ^ 2 + (3 / 64 - n / 32 - 3 * n ^ 2 / 64) * ε ^ 3
      + (3 / 128 + n / 128) * ε ^ 4 + 5 / 256 * ε ^ 5
  | 3 => (5 / 192 - 3 * n / 64 + 5 * n ^ 2 / 192) * ε ^ 3 + (3 / 128 - 5 * n / 192) * ε ^ 4 + 7 / 512 * ε ^ 5
  | 4 => (7 / 512 - 7 * n / 256) * ε ^ 4 + 7 / 512 * ε ^ 5
  | 5 => 21 / 2560 * ε ^ 5
  | _ => 0

/-- (23): the longitude integral. -/
noncomputable def karneyI3 (n ε σ : ℝ) : ℝ := karneyA3 n ε * (σ + sineSum (karneyC3 n ε) σ)

end Geo.Spec
