import Verif.Lemmas.NearGeodesic
import Verif.Spec.AccurateVincenty

/-! There is a mathematical library that meets `AccurateVincenty`. -/

namespace Geo
open Spec

theorem roundReal_nonneg {r : ℝ} (h : 0 ≤ r) (hf : (roundReal r).isFinite = true) : 0 ≤ (roundReal r).toQ := by
  have e : (roundReal r).toQ = rndQ (ratNear r) := B64.ofQ_toQ hf
  rw [e]
  refine rndQ_nonneg ?_
  have k := (abs_le.1 (ratNear_spec r)).1
  rw [abs_of_nonneg h] at k
  have : (0 : ℝ) ≤ ratNear r := by
    have : (2⁻¹ : ℝ) ^ 60 * r ≤ 1 * r := mul_le_mul_of_nonneg_right (by norm_num) h
    linarith
  exact_mod_cast this

/-- `AccurateVincenty` is met by a library. -/
theorem geodesicLibm_accurateVincenty : AccurateVincenty geodesicLibm := by
  have small : ∀ x : F64 geodesicLibm, |x.toQ| ≤ 5 / 4 → |(x.toQ : ℝ) ^ 2| ≤ 1e60 := fun x h => by
    have := cast_abs_le h
    push_cast at this
    rw [abs_pow]
    exact (pow_le_pow_left₀ (abs_nonneg _) this 2).trans (by norm_num)
  refine { toAccurateGeodesic := geodesicLibm_accurate, sq_rel := fun x _ h => ?_, sq_nonneg := fun x _ h => ?_ }
  · have := near_roundReal_rel (L := geodesicLibm) (two_zpow_ge (small x h))
    rw [abs_of_nonneg (sq_nonneg (x.toQ : ℝ))] at this
    exact this
  · exact roundReal_nonneg (sq_nonneg (x.toQ : ℝ)) (finite_999 (small x h))

end Geo
