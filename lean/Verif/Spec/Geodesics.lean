import Mathlib.Analysis.SpecialFunctions.Trigonometric.Basic

/-! Vincenty's published equations (Survey Review XXII, 176, 1975), over the reals and independent of the model.
Numbers in parentheses are those of the paper. -/

namespace Geo.Spec

/-- (3), (4), (10): the coefficients, `u² = cos²α (a² - b²) / b²`. -/
noncomputable def vincentyA (u2 : ℝ) : ℝ := 1 + u2 / 16384 * (4096 + u2 * (-768 + u2 * (320 - 175 * u2)))
noncomputable def vincentyB (u2 : ℝ) : ℝ := u2 / 1024 * (256 + u2 * (-128 + u2 * (74 - 47 * u2)))
noncomputable def vincentyC (f ca2 : ℝ) : ℝ := f / 16 * ca2 * (4 + f * (4 - 3 * ca2))

/-- (6): `Δσ`; `c = cos 2σₘ`. -/
noncomputable def vincentyDeltaSigma (B σ c : ℝ) : ℝ :=
  B * Real.sin σ * (c + B / 4 * (Real.cos σ * (-1 + 2 * c ^ 2) -
    B / 6 * c * (-3 + 4 * Real.sin σ ^ 2) * (-3 + 4 * c ^ 2)))

/-- (11): the excess `λ - L` of the longitude on the auxiliary sphere. -/
noncomputable def vincentyExcess (f sa σ c : ℝ) : ℝ :=
  let C := vincentyC f (1 - sa ^ 2)
  (1 - C) * f * sa * (σ + C * Real.sin σ * (c + C * Real.cos σ * (-1 + 2 * c ^ 2)))

/-- The auxiliary spherical triangle of two points at reduced latitudes `β₁, β₂` and longitude difference `l`: arc
`σ`, sine `sa` of the azimuth at the equator (17), and `c = cos 2σₘ` (18), which an equatorial line leaves free. -/
structure AuxTriangle (β₁ β₂ l σ sa c : ℝ) : Prop where
  nonneg : 0 ≤ σ
  le_pi : σ ≤ Real.pi
  cos_arc : Real.cos σ = Real.sin β₁ * Real.sin β₂ + Real.cos β₁ * Real.cos β₂ * Real.cos l
  distinct : Real.sin σ ≠ 0
  sine : sa * Real.sin σ = Real.cos β₁ * Real.cos β₂ * Real.sin l
  mid : 1 - sa ^ 2 ≠ 0 → c = Real.cos σ - 2 * Real.sin β₁ * Real.sin β₂ / (1 - sa ^ 2)

/-- (19): the length of the geodesic. -/
noncomputable def vincentyLength (a b sa σ c : ℝ) : ℝ :=
  let u2 := (1 - sa ^ 2) * ((a ^ 2 - b ^ 2) / b ^ 2)
  b * vincentyA u2 * (σ - vincentyDeltaSigma (vincentyB u2) σ c)

/-- The end of the great-circle arc of length `σ` that starts at latitude `β₁` with azimuth `α₁`, on the unit sphere:
latitude `β₂`, longitude `l` from the start, azimuth `α₂` (`l` and `α₂` are free at a pole). -/
structure ArcEnd (β₁ α₁ σ β₂ l α₂ : ℝ) : Prop where
  cos_nonneg : 0 ≤ Real.cos β₂
  height : Real.sin β₂ = Real.sin β₁ * Real.cos σ + Real.cos β₁ * Real.sin σ * Real.cos α₁
  east : Real.cos β₂ * Real.sin l = Real.sin σ * Real.sin α₁
  outward : Real.cos β₂ * Real.cos l = Real.cos β₁ * Real.cos σ - Real.sin β₁ * Real.sin σ * Real.cos α₁
  clairaut : Real.cos β₂ * Real.sin α₂ = Real.cos β₁ * Real.sin α₁
  north : Real.cos β₂ * Real.cos α₂ = Real.cos β₁ * Real.cos σ * Real.cos α₁ - Real.sin β₁ * Real.sin σ

end Geo.Spec
