import Verif.Lemmas.NearSpecial
import Verif.Spec.AccurateGeodesic

/-! There is a mathematical library that meets `AccurateGeodesic`. -/

namespace Geo
open Spec
open Classical in
/-- The library `roundLibm`, with `hypot` and `atan2` forced into their ranges. -/
noncomputable def geodesicLibm : Libm :=
  { roundLibm with
    hypot := fun x y => clampB (B64.lit 0) (B64.lit (2 ^ 1023)) (if (roundLibm.hypot x y).isFinite then roundLibm.hypot x y else B64.lit 0)
    atan2 := fun y x => if 0 ≤ x.toQ ∧ (0 < x.toQ ∨ y.toQ ≠ 0) then
        clampB (B64.neg B64.pi_2) B64.pi_2 (roundReal (Complex.arg ⟨x.toQ, y.toQ⟩))
      else roundReal (Complex.arg ⟨x.toQ, y.toQ⟩) }

theorem lit0_fin : (B64.lit 0).isFinite = true ∧ (B64.lit 0).toQ = 0 := by decide +kernel

theorem arg_round (z : ℂ) : |Complex.arg z| ≤ 1e60 := (Complex.abs_arg_le_pi _).trans (Real.pi_le_four.trans (by norm_num))

theorem near_arg_round {L : Libm} (z : ℂ) : Near (L := L) (roundReal z.arg) z.arg (2⁻¹ ^ 52 * |z.arg| + 2⁻¹ ^ 1074) :=
  near_roundReal_rel (two_zpow_ge (arg_round z))

theorem near_arg_clamp {L : Libm} {x y : ℚ} (h : 0 ≤ x) :
    Near (L := L) (clampB (B64.neg B64.pi_2) B64.pi_2 (roundReal (Complex.arg ⟨x, y⟩))) (Complex.arg ⟨x, y⟩)
      (2⁻¹ ^ 52 * |Complex.arg ⟨x, y⟩| + 2⁻¹ ^ 1074) := by
  have d1 := clamp_consts.2.2.2
  have h' : (0 : ℝ) ≤ x := by exact_mod_cast h
  obtain ⟨hp1, hp2⟩ := abs_le.1 (Complex.abs_arg_le_pi_div_two_iff.2 (show 0 ≤ (⟨x, y⟩ : ℂ).re from h'))
  obtain ⟨p1, p2⟩ := pi_2_real
  have n := near_arg_round (L := L) ⟨x, y⟩
  generalize Complex.arg ⟨x, y⟩ = r at *
  by_cases k : |r| ≤ ((B64.pi_2.toQ : ℚ) : ℝ)
  · obtain ⟨k1, k2⟩ := abs_le.1 k
    refine clampB_near (δ := 0) d1 pi_2_fin.1 n ?_ ?_ (by positivity)
    · rw [B64.neg_toQ]; push_cast; linarith
    · linarith
  · have g : (6.2e-17 : ℝ) ≤ 2⁻¹ ^ 52 * |r| := by
      have k' := not_le.1 k
      have := Real.pi_gt_three
      have h1 : 1 ≤ |r| := by norm_num at p1; linarith
      calc (6.2e-17 : ℝ) ≤ 2⁻¹ ^ 52 * 1 := by norm_num
        _ ≤ _ := mul_le_mul_of_nonneg_left h1 (by norm_num)
    refine clampB_near (δ := 6.2e-17) d1 pi_2_fin.1 n ?_ ?_ (g.trans (le_add_of_nonneg_right (by positivity)))
    · rw [B64.neg_toQ]; push_cast; norm_num at p1 ⊢; linarith
    · norm_num at p1 ⊢; linarith

set_option maxHeartbeats 1000000 in
/-- `AccurateGeodesic` is met by a library. -/
theorem geodesicLibm_accurate : AccurateGeodesic geodesicLibm := by
  obtain ⟨⟨a1, a2⟩, ⟨b1, b2⟩, ⟨c1, c2⟩, d1⟩ := clamp_consts
  obtain ⟨z1, z2⟩ := lit0_fin
  have R := roundLibm_accurateProjection
  have I := roundLibm_accurateInverse
  refine {
    sqrt := fun x h k => Near.relib (R.sqrt x h k)
    sq := fun x h k => Near.relib (R.sq x h k)
    sin := fun x h k => Near.relib (R.sin x h k)
    cos := fun x h k => Near.relib (R.cos x h k)
    sin_wide := fun x h k => Near.relib (R.sin_wide x h k)
    cos_wide := fun x h k => Near.relib (R.cos_wide x h k)
    tan := fun x h k => Near.relib (R.tan x h k)
    asin := fun x h k => Near.relib (R.asin x h k)
    asinh := fun x h k => Near.relib (R.asinh x h k)
    sinh := fun x h k => Near.relib (R.sinh x h k)
    cosh := fun x h k => Near.relib (R.cosh x h k)
    atan := fun x h => Near.relib (R.atan x h)
    tanh := fun x h => Near.relib (R.tanh x h)
    atanh := fun x h k => Near.relib (R.atanh x h k)
    exp := fun x h k => Near.relib (R.exp x h k)
    ln := fun x h k l => Near.relib (R.ln x h k l)
    powf := fun x y h k l m n => Near.relib (R.powf x y h k l m n)
    cbrt := fun x h k => by
      obtain ⟨r, r1, r2⟩ := I.cbrt x h k
      exact ⟨r, r1, Near.relib r2⟩
    cube := fun x h k l => Near.relib (I.cube x h k l)
    sin_far := fun x _ _ => near_roundReal ((Real.abs_sin_le_one _).trans (by norm_num))
    hypot := ?_
    hypot_nonneg := ?_
    atan2 := ?_
    atan2_all := ?_
    atan2_right := ?_ }
  · intro x y hx hy h1 h2
    have n := I.hypot x y hx hy h1 h2
    have e : (Flt.hypot x y : F64 geodesicLibm) = clampB (B64.lit 0) (B64.lit (2 ^ 1023)) (roundLibm.hypot x y) := by
      show clampB _ _ (if (roundLibm.hypot x y).isFinite then _ else _) = _
      rw [if_pos (show (roundLibm.hypot x y).isFinite = true from n.1)]
    rw [e]
    refine clampB_near (δ := 0) z1 c1 (Near.relib n) ?_ ?_ (by positivity)
    · rw [z2]; push_cast; linarith [Real.sqrt_nonneg ((x.toQ : ℝ) ^ 2 + (y.toQ : ℝ) ^ 2)]
    · rw [c2, add_zero]
      have k1 := (Rat.cast_le (K := ℝ)).2 h1
      have k2 := (Rat.cast_le (K := ℝ)).2 h2
      push_cast at k1 k2
      have k3 := pow_le_pow_left₀ (abs_nonneg _) k1 2
      have k4 := pow_le_pow_left₀ (abs_nonneg _) k2 2
      rw [sq_abs] at k3 k4
      have : Real.sqrt ((x.toQ : ℝ) ^ 2 + (y.toQ : ℝ) ^ 2) ≤ 1e32 :=
        Real.sqrt_le_iff.2 ⟨by norm_num, (add_le_add k3 k4).trans (by norm_num)⟩
      refine this.trans ?_
      push_cast
      exact le_trans (by norm_num) (pow_le_pow_right₀ (by norm_num) (by norm_num : 200 ≤ 1023))
  · intro x y hx hy h0 h1
    have e : (Flt.atan2 y x : F64 geodesicLibm) = clampB (B64.neg B64.pi_2) B64.pi_2 (roundReal (Complex.arg ⟨x.toQ, y.toQ⟩)) := if_pos ⟨h0, h1⟩
    rw [e]
    exact near_arg_clamp h0
  · intro x y hx hy
    have : (B64.lit 0).toQ ≤ (clampB (B64.lit 0) (B64.lit (2 ^ 1023)) (if (roundLibm.hypot x y).isFinite then roundLibm.hypot x y else B64.lit 0)).toQ := by
      refine (clampB_range z1 c1 ?_ ?_).2.1
      · split_ifs with h
        · exact h
        · exact z1
      · rw [z2, c2]; positivity
    rw [z2] at this
    exact this
  · intro x y hx hy
    refine ⟨Complex.arg ⟨x.toQ, y.toQ⟩, Complex.abs_arg_le_pi _, ?_, ?_, ?_⟩
    · have := Complex.norm_mul_cos_arg ⟨(x.toQ : ℝ), (y.toQ : ℝ)⟩
      rwa [Complex.norm_def, Complex.normSq_mk, ← pow_two, ← pow_two] at this
    · have := Complex.norm_mul_sin_arg ⟨(x.toQ : ℝ), (y.toQ : ℝ)⟩
      rwa [Complex.norm_def, Complex.normSq_mk, ← pow_two, ← pow_two] at this
    · by_cases h : 0 ≤ x.toQ ∧ (0 < x.toQ ∨ y.toQ ≠ 0)
      · have e : (Flt.atan2 y x : F64 geodesicLibm) = clampB (B64.neg B64.pi_2) B64.pi_2 (roundReal (Complex.arg ⟨x.toQ, y.toQ⟩)) := if_pos h
        rw [e]
        exact near_arg_clamp h.1
      · have e : (Flt.atan2 y x : F64 geodesicLibm) = roundReal (Complex.arg ⟨x.toQ, y.toQ⟩) := if_neg h
        rw [e]
        exact near_arg_round _
  · intro x y hx hy h0 h1
    have e : (Flt.atan2 y x : F64 geodesicLibm) = clampB (B64.neg B64.pi_2) B64.pi_2 (roundReal (Complex.arg ⟨x.toQ, y.toQ⟩)) := if_pos ⟨h0, h1⟩
    rw [e]
    have p0 : 0 ≤ B64.pi_2.toQ := by rw [pi_2_fin.2]; norm_num
    have k := clampB_range (x := roundReal (Complex.arg ⟨x.toQ, y.toQ⟩)) d1 pi_2_fin.1 (finite_999 (arg_round _)) (by rw [B64.neg_toQ]; linarith)
    rw [B64.neg_toQ] at k
    exact abs_le.2 ⟨k.2.1, k.2.2⟩

end Geo
