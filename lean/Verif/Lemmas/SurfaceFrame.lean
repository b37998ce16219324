import Verif.Lemmas.Bessel

/-!
The partial derivatives of a surface point by latitude and by longitude: the radii of curvature of the ellipsoid times the
directions north and east.
-/

namespace Geo.Frame
open Geo.Spec

/-- Radius of curvature of the meridian. -/
noncomputable def rho (a b φ : ℝ) : ℝ :=
  a ^ 2 * b ^ 2 / Real.sqrt (a ^ 2 * Real.cos φ ^ 2 + b ^ 2 * Real.sin φ ^ 2) ^ 3
/-- Radius of the parallel. -/
noncomputable def rpar (a b φ : ℝ) : ℝ :=
  a ^ 2 / Real.sqrt (a ^ 2 * Real.cos φ ^ 2 + b ^ 2 * Real.sin φ ^ 2) * Real.cos φ

theorem q_pos {a b : ℝ} (ha : 0 < a) (hb : 0 < b) (φ : ℝ) : 0 < a ^ 2 * Real.cos φ ^ 2 + b ^ 2 * Real.sin φ ^ 2 := by
  have h := Real.sin_sq_add_cos_sq φ
  rcases eq_or_ne (Real.cos φ) 0 with hc | hc
  · have : Real.sin φ ^ 2 = 1 := by rw [hc] at h; linarith
    rw [this, hc]; positivity
  · positivity

theorem rho_pos {a b : ℝ} (ha : 0 < a) (hb : 0 < b) (φ : ℝ) : 0 < rho a b φ := by
  have := Real.sqrt_pos.2 (q_pos ha hb φ)
  unfold rho; positivity

theorem deriv_lat {a b : ℝ} (ha : 0 < a) (hb : 0 < b) (l φ : ℝ) :
    HasDerivAt (fun t => surfacePoint a b l t) (rho a b φ • direction l φ 0) φ := by
  have hq := q_pos ha hb φ
  have ds := Real.hasDerivAt_sin φ
  have dc := Real.hasDerivAt_cos φ
  have dq := ((dc.pow 2).const_mul (a ^ 2)).add ((ds.pow 2).const_mul (b ^ 2))
  have dr := dq.sqrt hq.ne'
  have hr : Real.sqrt (a ^ 2 * Real.cos φ ^ 2 + b ^ 2 * Real.sin φ ^ 2) ≠ 0 := (Real.sqrt_pos.2 hq).ne'
  have hr2 := Real.sq_sqrt hq.le
  have dN := (hasDerivAt_const φ (a ^ 2)).div dr hr
  have d := Bessel.hasDerivAt_vec3 ((dN.mul dc).mul_const (Real.cos l)) ((dN.mul dc).mul_const (Real.sin l))
    ((dN.const_mul (b ^ 2 / a ^ 2)).mul ds)
  refine HasDerivAt.congr_deriv (f := fun t => surfacePoint a b l t) d ?_
  simp only [Pi.add_apply, Pi.mul_apply, Pi.pow_apply, Pi.div_apply]
  simp only [rho, direction, Real.cos_zero, Real.sin_zero]
  set r := Real.sqrt (a ^ 2 * Real.cos φ ^ 2 + b ^ 2 * Real.sin φ ^ 2)
  have hsc := Real.sin_sq_add_cos_sq φ
  set s := Real.sin φ
  set c := Real.cos φ
  ext i
  fin_cases i
  · simp
    field_simp
    rw [hr2]
    linear_combination (-(s * b ^ 2 * Real.cos l)) * hsc
  · simp
    field_simp
    rw [hr2]
    linear_combination (-(s * b ^ 2 * Real.sin l)) * hsc
  · simp
    field_simp
    rw [hr2]
    linear_combination (a ^ 2 * c) * hsc

theorem deriv_lon (a b l φ : ℝ) :
    HasDerivAt (fun t => surfacePoint a b t φ) (rpar a b φ • direction l φ (Real.pi / 2)) l := by
  have d := Bessel.hasDerivAt_vec3 ((Real.hasDerivAt_cos l).const_mul (rpar a b φ))
    ((Real.hasDerivAt_sin l).const_mul (rpar a b φ))
    (hasDerivAt_const l (b ^ 2 / a ^ 2 * (a ^ 2 / Real.sqrt (a ^ 2 * Real.cos φ ^ 2 + b ^ 2 * Real.sin φ ^ 2)) * Real.sin φ))
  refine HasDerivAt.congr_deriv (f := fun t => surfacePoint a b t φ) d ?_
  ext i
  fin_cases i <;> simp [direction]

theorem norm_direction_zero (l φ : ℝ) : ‖direction l φ 0‖ = 1 := by
  rw [EuclideanSpace.norm_eq, Real.sqrt_eq_one]
  simp [direction, Fin.sum_univ_three]
  nlinarith [Real.sin_sq_add_cos_sq φ, Real.sin_sq_add_cos_sq l]

theorem norm_deriv_lat {a b : ℝ} (ha : 0 < a) (hb : 0 < b) (l φ : ℝ) :
    ‖deriv (fun t => surfacePoint a b l t) φ‖ = rho a b φ := by
  rw [(deriv_lat ha hb l φ).deriv, norm_smul, norm_direction_zero, mul_one, Real.norm_eq_abs,
    abs_of_pos (rho_pos ha hb φ)]

theorem continuous_rho {a b : ℝ} (ha : 0 < a) (hb : 0 < b) : Continuous (rho a b) := by
  unfold rho
  refine Continuous.div continuous_const ?_ fun φ => pow_ne_zero _ (Real.sqrt_pos.2 (q_pos ha hb φ)).ne'
  fun_prop

end Geo.Frame
