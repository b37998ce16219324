import Verif.Lemmas.Reduced

/-! The spherical triangle of two points at latitudes `β₁, β₂` and longitude difference `l`. -/

namespace Geo
open XR

/-- Square of the sine, and cosine, of the arc. -/
noncomputable def ssq (β₁ β₂ l : ℝ) : ℝ :=
  (Real.cos β₂ * Real.sin l) ^ 2 + (Real.cos β₁ * Real.sin β₂ - Real.sin β₁ * Real.cos β₂ * Real.cos l) ^ 2
noncomputable def csig (β₁ β₂ l : ℝ) : ℝ := Real.sin β₁ * Real.sin β₂ + Real.cos β₁ * Real.cos β₂ * Real.cos l
/-- The arc. -/
noncomputable def arc (β₁ β₂ l : ℝ) : ℝ := Complex.arg ⟨csig β₁ β₂ l, Real.sqrt (ssq β₁ β₂ l)⟩

variable (β₁ β₂ l : ℝ)

theorem ssq_nonneg : 0 ≤ ssq β₁ β₂ l := by unfold ssq; positivity

theorem ssq_add : ssq β₁ β₂ l + csig β₁ β₂ l ^ 2 = 1 := by
  have h1 := Real.sin_sq_add_cos_sq β₁
  have h2 := Real.sin_sq_add_cos_sq β₂
  have h3 := Real.sin_sq_add_cos_sq l
  unfold ssq csig
  linear_combination (Real.sin β₂ ^ 2 + Real.cos β₂ ^ 2 * Real.cos l ^ 2) * h1 + h2 +
    (Real.cos β₂ ^ 2) * h3

theorem ssq_comm : ssq β₂ β₁ l = ssq β₁ β₂ l := by
  have h1 := ssq_add β₁ β₂ l
  have h2 := ssq_add β₂ β₁ l
  have : csig β₂ β₁ l = csig β₁ β₂ l := by unfold csig; ring
  rw [this] at h2
  linarith

theorem csig_comm : csig β₂ β₁ l = csig β₁ β₂ l := by unfold csig; ring

theorem ssq_neg : ssq β₁ β₂ (-l) = ssq β₁ β₂ l := by unfold ssq; simp
theorem csig_neg : csig β₁ β₂ (-l) = csig β₁ β₂ l := by unfold csig; simp

theorem arc_comm : arc β₂ β₁ l = arc β₁ β₂ l := by rw [arc, ssq_comm, csig_comm, arc]
theorem arc_neg : arc β₁ β₂ (-l) = arc β₁ β₂ l := by rw [arc, ssq_neg, csig_neg, arc]

theorem sin_arc : Real.sin (arc β₁ β₂ l) = Real.sqrt (ssq β₁ β₂ l) := by
  have h := (polar (csig β₁ β₂ l) (Real.sqrt (ssq β₁ β₂ l))).2
  rw [Real.sq_sqrt (ssq_nonneg _ _ _), add_comm, ssq_add, Real.sqrt_one, one_mul] at h
  exact h

theorem cos_arc : Real.cos (arc β₁ β₂ l) = csig β₁ β₂ l := by
  have h := (polar (csig β₁ β₂ l) (Real.sqrt (ssq β₁ β₂ l))).1
  rw [Real.sq_sqrt (ssq_nonneg _ _ _), add_comm (csig β₁ β₂ l ^ 2), ssq_add, Real.sqrt_one, one_mul] at h
  exact h

theorem arc_nonneg : 0 ≤ arc β₁ β₂ l := Complex.arg_nonneg_iff.2 (Real.sqrt_nonneg _)
theorem arc_le_pi : arc β₁ β₂ l ≤ Real.pi := Complex.arg_le_pi _

/-- The arc is the angle between the two unit vectors. -/
theorem arc_eq_arccos : arc β₁ β₂ l = Real.arccos (csig β₁ β₂ l) := by
  rw [← cos_arc, Real.arccos_cos (arc_nonneg _ _ _) (arc_le_pi _ _ _)]

theorem sin_arc_sq : Real.sin (arc β₁ β₂ l) ^ 2 = ssq β₁ β₂ l := by
  rw [sin_arc, Real.sq_sqrt (ssq_nonneg _ _ _)]

/-- Sine of the azimuth at the equator. -/
noncomputable def salpha (β₁ β₂ l : ℝ) : ℝ := Real.cos β₁ * Real.cos β₂ * Real.sin l / Real.sin (arc β₁ β₂ l)

/-- The heights of the two points above the equator, in the plane of the great circle. -/
theorem heights (h : Real.sin (arc β₁ β₂ l) ≠ 0) :
    (1 - salpha β₁ β₂ l ^ 2) * Real.sin (arc β₁ β₂ l) ^ 2 =
      Real.sin β₁ ^ 2 + Real.sin β₂ ^ 2 - 2 * Real.sin β₁ * Real.sin β₂ * Real.cos (arc β₁ β₂ l) := by
  have e : salpha β₁ β₂ l ^ 2 * Real.sin (arc β₁ β₂ l) ^ 2 = (Real.cos β₁ * Real.cos β₂ * Real.sin l) ^ 2 := by
    rw [salpha, div_pow, div_mul_cancel₀ _ (pow_ne_zero 2 h)]
  rw [sub_mul, e, one_mul, sin_arc_sq, cos_arc]
  have h1 := Real.sin_sq_add_cos_sq β₁
  have h2 := Real.sin_sq_add_cos_sq β₂
  have h3 := Real.sin_sq_add_cos_sq l
  have h4 := ssq_add β₁ β₂ l
  unfold csig at *
  linear_combination h4 - (Real.cos β₁ * Real.cos β₂) ^ 2 * h3 - (Real.cos β₂ ^ 2) * h1 - h2 + Real.sin β₁ ^ 2 * h2

theorem salpha_sq_le (h : Real.sin (arc β₁ β₂ l) ≠ 0) : salpha β₁ β₂ l ^ 2 ≤ 1 := by
  have h1 := heights β₁ β₂ l h
  have h2 : 0 < Real.sin (arc β₁ β₂ l) ^ 2 := by positivity
  have h3 := Real.abs_cos_le_one (arc β₁ β₂ l)
  obtain ⟨h4, h5⟩ := abs_le.1 h3
  by_contra hc
  push Not at hc
  nlinarith [sq_nonneg (Real.sin β₁ + Real.sin β₂), sq_nonneg (Real.sin β₁ - Real.sin β₂)]

/-- `cos 2σₘ` as computed by the solvers is a cosine. -/
theorem two_sigma_m (h : Real.sin (arc β₁ β₂ l) ≠ 0) (hα : 1 - salpha β₁ β₂ l ^ 2 ≠ 0) :
    |Real.cos (arc β₁ β₂ l) - 2 * Real.sin β₁ * Real.sin β₂ / (1 - salpha β₁ β₂ l ^ 2)| ≤ 1 := by
  have hK : 0 < 1 - salpha β₁ β₂ l ^ 2 :=
    lt_of_le_of_ne (sub_nonneg.2 (salpha_sq_le β₁ β₂ l h)) (Ne.symm hα)
  have h1 := heights β₁ β₂ l h
  set K := 1 - salpha β₁ β₂ l ^ 2
  have hsc := Real.sin_sq_add_cos_sq (arc β₁ β₂ l)
  set s := Real.sin (arc β₁ β₂ l)
  set c := Real.cos (arc β₁ β₂ l)
  have hs2 : 0 < s ^ 2 := by positivity
  have hc1 : -1 < c := by nlinarith
  have hc2 : c < 1 := by nlinarith
  set A := Real.sin β₁
  set B := Real.sin β₂
  have e : c - 2 * A * B / K = (c * K - 2 * A * B) / K := by field_simp
  rw [e, abs_le, le_div_iff₀ hK, div_le_iff₀ hK]
  constructor
  · have : 0 ≤ (1 - c) * (K * (1 + c) - 2 * A * B) := by
      have : (1 - c) * (K * (1 + c) - 2 * A * B) = (A - B) ^ 2 := by
        linear_combination h1 - K * hsc
      rw [this]; positivity
    have := nonneg_of_mul_nonneg_right this (by linarith)
    linarith
  · have : 0 ≤ (1 + c) * (K * (1 - c) + 2 * A * B) := by
      have : (1 + c) * (K * (1 - c) + 2 * A * B) = (A + B) ^ 2 := by
        linear_combination h1 - K * hsc
      rw [this]; positivity
    have := nonneg_of_mul_nonneg_right this (by linarith)
    linarith

end Geo
