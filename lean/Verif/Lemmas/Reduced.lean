import Verif.Lemmas.Ellipsoid

/-! The geodetic latitude of the point of the meridian ellipse `(a R, b Z)`, `(R, Z)` on the unit circle. -/

namespace Geo
open XR

theorem polar (x y : ℝ) : Real.sqrt (x ^ 2 + y ^ 2) * Real.cos (Complex.arg ⟨x, y⟩) = x ∧
    Real.sqrt (x ^ 2 + y ^ 2) * Real.sin (Complex.arg ⟨x, y⟩) = y := by
  have hn : ‖(⟨x, y⟩ : ℂ)‖ = Real.sqrt (x ^ 2 + y ^ 2) := by
    rw [Complex.norm_eq_sqrt_sq_add_sq]
  rw [← hn]
  exact ⟨Complex.norm_mul_cos_arg _, Complex.norm_mul_sin_arg _⟩

section
variable {a b : ℝ} (hb : 0 < b) (hab : b ≤ a) {R Z : ℝ} (hR : 0 ≤ R) (h1 : R ^ 2 + Z ^ 2 = 1)
include hb hab hR h1

/-- The latitude of that point. -/
theorem geodetic_of_reduced :
    -(Real.pi / 2) ≤ Complex.arg ⟨b / a * R, Z⟩ ∧ Complex.arg ⟨b / a * R, Z⟩ ≤ Real.pi / 2 ∧
    pvr a b (Complex.arg ⟨b / a * R, Z⟩) * Real.cos (Complex.arg ⟨b / a * R, Z⟩) = a * R ∧
    pvr a b (Complex.arg ⟨b / a * R, Z⟩) * (1 - ecc2 a b) * Real.sin (Complex.arg ⟨b / a * R, Z⟩) = b * Z := by
  have ha : 0 < a := lt_of_lt_of_le hb hab
  obtain ⟨hc, hs⟩ := polar (b / a * R) Z
  set φ := Complex.arg ⟨b / a * R, Z⟩ with hφ
  set D := Real.sqrt ((b / a * R) ^ 2 + Z ^ 2) with hD
  have hD2 : D ^ 2 = (b / a * R) ^ 2 + Z ^ 2 := Real.sq_sqrt (by positivity)
  have hpos : 0 < (b / a * R) ^ 2 + Z ^ 2 := by
    by_cases hZ : Z = 0
    · have : R ≠ 0 := by rintro rfl; simp [hZ] at h1
      have : 0 < (b / a * R) ^ 2 := by positivity
      nlinarith [sq_nonneg Z]
    · have : 0 < Z ^ 2 := by positivity
      nlinarith [sq_nonneg (b / a * R)]
  have hDp : 0 < D := Real.sqrt_pos.2 hpos
  have hw : wf a b φ = (b / a / D) ^ 2 := by
    have e1 : Real.cos φ = b / a * R / D := by rw [← hc]; field_simp
    have e2 : Real.sin φ = Z / D := by rw [← hs]; field_simp
    rw [wf_eq hb hab, e1, e2]
    have : b ^ 2 * (R ^ 2 + Z ^ 2) = b ^ 2 := by rw [h1, mul_one]
    field_simp
    linarith
  have hN : pvr a b φ = a * D * (a / b) := by
    rw [pvr, hw, Real.sqrt_sq (by positivity)]
    field_simp
  have habs : |φ| ≤ Real.pi / 2 := by
    rw [hφ, Complex.abs_arg_le_pi_div_two_iff]
    positivity
  refine ⟨(abs_le.1 habs).1, (abs_le.1 habs).2, ?_, ?_⟩
  · rw [hN, show a * D * (a / b) * Real.cos φ = a * (a / b) * (D * Real.cos φ) by ring, hc]
    field_simp
  · rw [hN, one_sub_ecc2 hb hab, show a * D * (a / b) * (b ^ 2 / a ^ 2) * Real.sin φ =
      a * (a / b) * (b ^ 2 / a ^ 2) * (D * Real.sin φ) by ring, hs]
    field_simp

end
end Geo
