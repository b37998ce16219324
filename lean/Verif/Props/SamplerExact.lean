import Verif.Model.SampleS2
import Verif.Lemmas.Reduced
import Verif.Props.DatumExact

/-! # C68: the ellipsoid sampler, in exact arithmetic -/

namespace Geo
open XR

/-- **C68**: `s2_to_xyz` maps unit vectors onto the ellipsoid, and `s2_to_ll` returns longitude and latitude of that
same point: the conversion of the crate takes them (at height 0) to it. -/
theorem C68_sampler {a rf mpu rpu : ℝ} (ha : 0 < a) (hrf : 1 < rf) (hm : 0 < mpu) (hr : 0 < rpu) (x y z : ℝ)
    (hu : x ^ 2 + y ^ 2 + z ^ 2 = 1) (id n pn : String) :
    ∃ X Y Z lon lat : ℝ,
      s2ToXyz (fin a) (fin rf) (fin mpu) (fin x) (fin y) (fin z) = (fin X, fin Y, fin Z) ∧
      Spec.OnEllipsoid a (a - a / rf) (X * mpu) (Y * mpu) (Z * mpu) ∧
      s2ToLl (fin rf) (fin rpu) (fin x) (fin y) (fin z) = (fin lon, fin lat) ∧
      -Real.pi < lon * rpu ∧ lon * rpu ≤ Real.pi ∧ |lat * rpu| ≤ Real.pi / 2 ∧
      (dat id n pn a (a - a / rf) 0).llhToXyz (llh (lon * rpu) (lat * rpu) 0) =
        xyz (X * mpu) (Y * mpu) (Z * mpu) := by
  have hrf0 : 0 < rf := by linarith
  have hf : a / rf < a := by rw [div_lt_iff₀ hrf0]; nlinarith
  have hf0 : 0 < a / rf := by positivity
  set b := a - a / rf with hbd
  have hb : 0 < b := by linarith
  have hab : b < a := by linarith
  have hba : 1 - 1 / rf = b / a := by rw [hbd]; field_simp
  set R := Real.sqrt ((1 - z) * (1 + z)) with hRd
  have hz : 0 ≤ (1 - z) * (1 + z) := by nlinarith [sq_nonneg x, sq_nonneg y]
  have hR0 : 0 ≤ R := Real.sqrt_nonneg _
  have hR2 : R ^ 2 + z ^ 2 = 1 := by rw [hRd, Real.sq_sqrt hz]; ring
  have hRxy : Real.sqrt (x ^ 2 + y ^ 2) = R := by rw [hRd]; congr 1; linarith
  obtain ⟨p1, p2⟩ := polar x y
  rw [hRxy] at p1 p2
  obtain ⟨g1, g2, g3, g4⟩ := geodetic_of_reduced hb hab.le hR0 hR2
  refine ⟨a * x / mpu, a * y / mpu, b * z / mpu, Complex.arg ⟨x, y⟩ / rpu, Complex.arg ⟨b / a * R, z⟩ / rpu, ?_, ?_,
    ?_, ?_, ?_, ?_, ?_⟩
  · simp [s2ToXyz, div_fin _ hrf0.ne', div_fin _ hm.ne', hbd]
  · unfold Spec.OnEllipsoid
    field_simp
    linarith
  · simp [s2ToLl, div_fin _ hrf0.ne', div_fin _ hr.ne', sqrt_fin hz, ← hRd, ← hba]
  · rw [div_mul_cancel₀ _ hr.ne']; exact Complex.neg_pi_lt_arg _
  · rw [div_mul_cancel₀ _ hr.ne']; exact Complex.arg_le_pi _
  · rw [div_mul_cancel₀ _ hr.ne']; exact abs_le.2 ⟨g1, g2⟩
  · rw [div_mul_cancel₀ _ hr.ne', div_mul_cancel₀ _ hr.ne', div_mul_cancel₀ _ hm.ne', div_mul_cancel₀ _ hm.ne',
      div_mul_cancel₀ _ hm.ne', llhToXyz_fin hb hab, geo, add_zero, add_zero, add_zero, g3, g4, mul_assoc, p1,
      mul_assoc, p2]

/-- The hypotheses are met by the defaults of the command line tool and a direction. -/
example : (0:ℝ) < 6378137 ∧ (1:ℝ) < 298.257223563 ∧ (2 / 3 : ℝ) ^ 2 + (1 / 3) ^ 2 + (2 / 3) ^ 2 = 1 := by norm_num

end Geo
