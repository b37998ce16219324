import Mathlib.Analysis.SpecialFunctions.Arsinh
import Mathlib.Analysis.SpecialFunctions.Artanh
import Mathlib.Analysis.SpecialFunctions.Trigonometric.Arctan
import Mathlib.Analysis.SpecialFunctions.Trigonometric.Inverse

/-! # Transverse Mercator, as published

The formulas of the EPSG guidance note 7-2 (method 9807, "JHS formulas"), over the reals, with the coefficients that
note lists. `a`, `b` are the semi-axes, `e` the eccentricity, `φ0` the latitude of origin. -/

namespace Geo

/-- Third flattening. -/
noncomputable def nR (a b : ℝ) : ℝ := (a - b) / (a + b)

noncomputable def tmB (a b : ℝ) : ℝ := a / (1 + nR a b) * (1 + nR a b ^ 2 / 4 + nR a b ^ 4 / 64)
noncomputable def tmh0 (n : ℝ) : ℝ := n / 2 - 2 / 3 * n ^ 2 + 5 / 16 * n ^ 3 + 41 / 180 * n ^ 4
noncomputable def tmh1 (n : ℝ) : ℝ := 13 / 48 * n ^ 2 - 3 / 5 * n ^ 3 + 557 / 1440 * n ^ 4
noncomputable def tmh2 (n : ℝ) : ℝ := 61 / 240 * n ^ 3 - 103 / 140 * n ^ 4
noncomputable def tmh3 (n : ℝ) : ℝ := 49561 / 161280 * n ^ 4
noncomputable def tmp0 (n : ℝ) : ℝ := n / 2 - 2 / 3 * n ^ 2 + 37 / 96 * n ^ 3 - 1 / 360 * n ^ 4
noncomputable def tmp1 (n : ℝ) : ℝ := 1 / 48 * n ^ 2 + 1 / 15 * n ^ 3 - 437 / 1440 * n ^ 4
noncomputable def tmp2 (n : ℝ) : ℝ := 17 / 480 * n ^ 3 - 37 / 840 * n ^ 4
noncomputable def tmp3 (n : ℝ) : ℝ := 4397 / 161280 * n ^ 4

/-- Conformal latitude. -/
noncomputable def confR (e φ : ℝ) : ℝ :=
  if Real.cos φ = 0 then φ else Real.arctan (Real.sinh (Real.arsinh (Real.tan φ) - e * Real.artanh (e * Real.sin φ)))

/-- Meridian arc of the origin latitude. -/
noncomputable def tmM0 (a b φ0 : ℝ) : ℝ :=
  if φ0 = 0 then 0
  else if |φ0| = Real.pi / 2 then tmB a b * φ0
  else
    let β := confR (Real.sqrt ((a - b) * (a + b) / (a * a))) φ0
    let n := nR a b
    tmB a b * (β + tmh0 n * Real.sin (2 * β) + tmh1 n * Real.sin (4 * β) + tmh2 n * Real.sin (6 * β)
      + tmh3 n * Real.sin (8 * β))

/-- Real part of `h0 sin 2z + h1 sin 4z + h2 sin 6z + h3 sin 8z` at `z = x + i y`; `sCS` is the imaginary part. -/
noncomputable def sSC (h0 h1 h2 h3 x y : ℝ) : ℝ :=
  h0 * Real.sin (2 * x) * Real.cosh (2 * y) + h1 * Real.sin (4 * x) * Real.cosh (4 * y)
    + h2 * Real.sin (6 * x) * Real.cosh (6 * y) + h3 * Real.sin (8 * x) * Real.cosh (8 * y)
noncomputable def sCS (h0 h1 h2 h3 x y : ℝ) : ℝ :=
  h0 * Real.cos (2 * x) * Real.sinh (2 * y) + h1 * Real.cos (4 * x) * Real.sinh (4 * y)
    + h2 * Real.cos (6 * x) * Real.sinh (6 * y) + h3 * Real.cos (8 * x) * Real.sinh (8 * y)

/-- Normalised northing and easting of the inverse, before the correction series. -/
noncomputable def tmXi' (a b φ0 k0 fn N : ℝ) : ℝ := (N - fn + k0 * tmM0 a b φ0) / (k0 * tmB a b)
noncomputable def tmEta' (a b k0 fe E : ℝ) : ℝ := (E - fe) / (k0 * tmB a b)

/-- Normalised northing and easting of the inverse, after the correction series: the coordinates on the conformal
sphere. -/
noncomputable def tmXi (a b φ0 k0 fe fn E N : ℝ) : ℝ :=
  tmXi' a b φ0 k0 fn N - sSC (tmp0 (nR a b)) (tmp1 (nR a b)) (tmp2 (nR a b)) (tmp3 (nR a b)) (tmXi' a b φ0 k0 fn N)
    (tmEta' a b k0 fe E)
noncomputable def tmEta (a b φ0 k0 fe fn E N : ℝ) : ℝ :=
  tmEta' a b k0 fe E - sCS (tmp0 (nR a b)) (tmp1 (nR a b)) (tmp2 (nR a b)) (tmp3 (nR a b)) (tmXi' a b φ0 k0 fn N)
    (tmEta' a b k0 fe E)

end Geo
