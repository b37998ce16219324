import Verif.Lemmas.Near
import Verif.Spec.AccurateProjection
import Mathlib.Analysis.SpecialFunctions.Pow.Real
import Mathlib.Analysis.Complex.ExponentialBounds
import Mathlib.Analysis.Real.Pi.Bounds

/-! There is an accurate mathematical library: it rounds rational approximations of the real functions. -/

namespace Geo
open Spec

theorem exists_rat_near (r : ℝ) : ∃ q : ℚ, |(q : ℝ) - r| ≤ 2⁻¹ ^ 60 * |r| := by
  rcases eq_or_ne r 0 with rfl | h
  · exact ⟨0, by simp⟩
  · have hp : (0 : ℝ) < 2⁻¹ ^ 60 * |r| := mul_pos (by positivity) (abs_pos.2 h)
    obtain ⟨q, h1, h2⟩ := exists_rat_btwn (show r < r + 2⁻¹ ^ 60 * |r| by linarith)
    exact ⟨q, by rw [abs_of_nonneg (by linarith)]; linarith⟩

/-- A rational approximation. -/
noncomputable def ratNear (r : ℝ) : ℚ := (exists_rat_near r).choose

theorem ratNear_spec (r : ℝ) : |(ratNear r : ℝ) - r| ≤ 2⁻¹ ^ 60 * |r| := (exists_rat_near r).choose_spec

/-- A double close to a real number. -/
noncomputable def roundReal (r : ℝ) : B64 := B64.ofQ false (ratNear r)

theorem ratNear_abs (r : ℝ) : |(ratNear r : ℝ)| ≤ 2 * |r| := by
  have := ratNear_spec r
  have h2 := abs_add_le ((ratNear r : ℝ) - r) r
  rw [sub_add_cancel] at h2
  have : (2⁻¹ : ℝ) ^ 60 * |r| ≤ 1 * |r| := mul_le_mul_of_nonneg_right (by norm_num) (abs_nonneg r)
  linarith

theorem roundReal_spec {r : ℝ} (h : |r| ≤ 2 ^ (999 : ℤ)) :
    (roundReal r).isFinite = true ∧
      |((roundReal r).toQ : ℝ) - r| ≤ 1.01 * 2⁻¹ ^ 53 * |r| + 2⁻¹ ^ 1075 := by
  have h1 : |ratNear r| ≤ 2 ^ (1000 : ℤ) := by
    have h2 := ratNear_abs r
    have h3 : |(ratNear r : ℝ)| ≤ 2 ^ (1000 : ℤ) := by
      rw [show (1000 : ℤ) = 1 + 999 by norm_num, zpow_add₀ (by norm_num), zpow_one]
      linarith
    have h4 : ((|ratNear r| : ℚ) : ℝ) ≤ ((2 ^ (1000 : ℤ) : ℚ) : ℝ) := by
      rw [Rat.cast_abs, Rat.cast_zpow]
      exact h3
    exact Rat.cast_le.1 h4
  have hrep : Rep (2 ^ (1000 : ℤ)) := ⟨1, 1000, by rw [Int.cast_one, one_mul], by norm_num, by norm_num⟩
  have hf : |rndQ (ratNear r)| < huge := by
    rw [abs_rndQ]
    exact lt_of_le_of_lt (rndQ_le hrep h1) (two_zpow_lt (by norm_num))
  have f : (roundReal r).isFinite = true := (B64.ofQ_finite _ _).2 hf
  refine ⟨f, ?_⟩
  rw [show (roundReal r).toQ = rndQ (ratNear r) from B64.ofQ_toQ f]
  have k : |((rndQ (ratNear r) : ℚ) : ℝ) - ratNear r| ≤ 2⁻¹ ^ 53 * |(ratNear r : ℝ)| + 2⁻¹ ^ 1075 := by
    have := (Rat.cast_le (K := ℝ)).2 (rndQ_rel (ratNear r))
    rw [Rat.cast_abs, Rat.cast_sub, Rat.cast_add, Rat.cast_mul, Rat.cast_abs, Rat.cast_pow, Rat.cast_pow, Rat.cast_inv,
      Rat.cast_ofNat] at this
    exact this
  have k2 := ratNear_spec r
  have k3 := abs_sub_le ((rndQ (ratNear r) : ℚ) : ℝ) (ratNear r) r
  have k4 : |(ratNear r : ℝ)| ≤ 2⁻¹ ^ 60 * |r| + |r| := by
    have h2 := abs_add_le ((ratNear r : ℝ) - r) r
    rw [sub_add_cancel] at h2
    linarith
  generalize (2⁻¹ : ℝ) ^ 1075 = t at *
  have hR := abs_nonneg r
  generalize |r| = R at *
  have k5 : (2⁻¹ : ℝ) ^ 53 * |(ratNear r : ℝ)| ≤ 2⁻¹ ^ 53 * (2⁻¹ ^ 60 * R + R) := mul_le_mul_of_nonneg_left k4 (by positivity)
  have k6 : (2⁻¹ : ℝ) ^ 53 * (2⁻¹ ^ 60 * R + R) + 2⁻¹ ^ 60 * R ≤ 1.01 * 2⁻¹ ^ 53 * R := by
    rw [← sub_nonneg]
    have : 1.01 * 2⁻¹ ^ 53 * R - (2⁻¹ ^ 53 * (2⁻¹ ^ 60 * R + R) + 2⁻¹ ^ 60 * R) =
      (1.01 * 2⁻¹ ^ 53 - 2⁻¹ ^ 53 * (2⁻¹ ^ 60 + 1) - 2⁻¹ ^ 60) * R := by ring
    rw [this]
    exact mul_nonneg (by norm_num) hR
  linarith

theorem exists_cbrt (r : ℝ) (h : 0 ≤ r) : ∃ s : ℝ, 0 ≤ s ∧ s ^ 3 = r :=
  ⟨r ^ (1 / 3 : ℝ), by positivity, by rw [← Real.rpow_natCast, ← Real.rpow_mul h]; norm_num⟩

open Classical in
/-- A library that rounds: every function returns a double close to the real value. -/
noncomputable def roundLibm : Libm where
  sqrt x := roundReal (Real.sqrt x.toQ)
  cbrt x := if h : 0 ≤ (x.toQ : ℝ) then roundReal (exists_cbrt x.toQ h).choose else x
  hypot x y := roundReal (Real.sqrt (x.toQ ^ 2 + y.toQ ^ 2))
  powi x n := roundReal ((x.toQ : ℝ) ^ n)
  powf x y := roundReal ((x.toQ : ℝ) ^ (y.toQ : ℝ))
  exp x := roundReal (Real.exp x.toQ)
  ln x := roundReal (Real.log x.toQ)
  sin x := roundReal (Real.sin x.toQ)
  cos x := roundReal (Real.cos x.toQ)
  tan x := roundReal (Real.tan x.toQ)
  asin x := roundReal (Real.arcsin x.toQ)
  atan x := roundReal (Real.arctan x.toQ)
  atan2 y x := roundReal (Complex.arg ⟨x.toQ, y.toQ⟩)
  sinh x := roundReal (Real.sinh x.toQ)
  cosh x := roundReal (Real.cosh x.toQ)
  tanh x := roundReal (Real.tanh x.toQ)
  asinh x := roundReal (Real.arsinh x.toQ)
  atanh x := roundReal (Real.artanh x.toQ)

theorem roundReal_small {r : ℝ} (h : |r| ≤ 1.6) :
    (roundReal r).isFinite = true ∧ |((roundReal r).toQ : ℝ) - r| ≤ 2⁻¹ ^ 52 := by
  have h1 : |r| ≤ 2 ^ (999 : ℤ) := by
    refine h.trans (le_trans (b := (2 : ℝ) ^ (1 : ℤ)) (by norm_num) ?_)
    exact zpow_le_zpow_right₀ (by norm_num) (by norm_num)
  obtain ⟨f, k⟩ := roundReal_spec h1
  refine ⟨f, k.trans ?_⟩
  have h2 : (2⁻¹ : ℝ) ^ 1075 ≤ 2⁻¹ ^ 60 := pow_le_pow_of_le_one (by norm_num) (by norm_num) (by norm_num)
  have h3 : 1.01 * (2⁻¹ : ℝ) ^ 53 * |r| ≤ 1.01 * 2⁻¹ ^ 53 * 1.6 := mul_le_mul_of_nonneg_left h (by norm_num)
  have h4 : 1.01 * (2⁻¹ : ℝ) ^ 53 * 1.6 + 2⁻¹ ^ 60 ≤ 2⁻¹ ^ 52 := by norm_num
  exact (add_le_add h3 h2).trans h4

theorem near_roundReal {L : Libm} {r : ℝ} (h : |r| ≤ 1.6) : Near (L := L) (roundReal r) r (2⁻¹ ^ 52) :=
  ⟨(roundReal_small h).1, (roundReal_small h).2⟩

theorem sqrt_toQ_le (x : B64) : Real.sqrt x.toQ ≤ 2 ^ (999 : ℤ) := by
  have h : (x.toQ : ℝ) ≤ (2 ^ (999 : ℤ)) ^ 2 := by
    have h1 : x.toQ ≤ 2 ^ (1998 : ℤ) := by
      have := (B64.toQ_isDouble x).abs_lt
      refine (le_abs_self _).trans (this.le.trans ?_)
      exact zpow_le_zpow_right₀ (by norm_num) (by norm_num)
    have h2 := (Rat.cast_le (K := ℝ)).2 h1
    rw [Rat.cast_zpow, Rat.cast_ofNat, show (1998 : ℤ) = 999 + 999 by norm_num, zpow_add₀ (by norm_num), ← pow_two] at h2
    exact h2
  exact Real.sqrt_le_iff.2 ⟨by positivity, h⟩

/-- `Accurate` is met by a library. -/
theorem roundLibm_accurate : Accurate roundLibm where
  sqrt x hf h0 := by
    have h1 : |Real.sqrt x.toQ| ≤ 2 ^ (999 : ℤ) := by
      rw [abs_of_nonneg (Real.sqrt_nonneg _)]
      exact sqrt_toQ_le x
    obtain ⟨f, k⟩ := roundReal_spec h1
    refine ⟨f, ?_⟩
    rw [abs_of_nonneg (Real.sqrt_nonneg _)] at k
    refine k.trans (add_le_add (mul_le_mul_of_nonneg_right (by norm_num) (Real.sqrt_nonneg _)) ?_)
    exact pow_le_pow_of_le_one (by norm_num) (by norm_num) (by norm_num)
  sq x hf h := by
    have h1 : |(x.toQ : ℝ)| ≤ 5 / 4 := by
      have := (Rat.cast_le (K := ℝ)).2 h
      push_cast at this
      exact this
    refine near_roundReal (r := (x.toQ : ℝ) ^ 2) ?_
    rw [abs_pow]
    exact (pow_le_pow_left₀ (abs_nonneg _) h1 2).trans (by norm_num)
  sin x _ _ := near_roundReal ((Real.abs_sin_le_one _).trans (by norm_num))
  cos x _ _ := near_roundReal ((Real.abs_cos_le_one _).trans (by norm_num))

theorem two_zpow_ge {r : ℝ} (h : r ≤ 1e60) : r ≤ 2 ^ (999 : ℤ) := by
  refine h.trans (le_trans (b := (2 : ℝ) ^ (200 : ℤ)) (by norm_num) ?_)
  exact zpow_le_zpow_right₀ (by norm_num) (by norm_num)

theorem near_roundReal_rel {L : Libm} {r : ℝ} (h : |r| ≤ 2 ^ (999 : ℤ)) :
    Near (L := L) (roundReal r) r (2⁻¹ ^ 52 * |r| + 2⁻¹ ^ 1074) := by
  obtain ⟨f, k⟩ := roundReal_spec h
  refine ⟨f, k.trans (add_le_add (mul_le_mul_of_nonneg_right (by norm_num) (abs_nonneg _)) ?_)⟩
  exact pow_le_pow_of_le_one (by norm_num) (by norm_num) (by norm_num)

/-- `AccurateInverse` is met by a library. -/
theorem roundLibm_accurateInverse : AccurateInverse roundLibm where
  toAccurate := roundLibm_accurate
  hypot x y hx hy h1 h2 := by
    have h : |Real.sqrt ((x.toQ : ℝ) ^ 2 + (y.toQ : ℝ) ^ 2)| ≤ 2 ^ (999 : ℤ) := by
      rw [abs_of_nonneg (Real.sqrt_nonneg _)]
      refine two_zpow_ge (Real.sqrt_le_iff.2 ⟨by norm_num, ?_⟩)
      have k1 := (Rat.cast_le (K := ℝ)).2 h1
      have k2 := (Rat.cast_le (K := ℝ)).2 h2
      push_cast at k1 k2
      have k3 := pow_le_pow_left₀ (abs_nonneg _) k1 2
      have k4 := pow_le_pow_left₀ (abs_nonneg _) k2 2
      rw [sq_abs] at k3 k4
      refine (add_le_add k3 k4).trans ?_
      norm_num
    have k := near_roundReal_rel (L := roundLibm) h
    rw [abs_of_nonneg (Real.sqrt_nonneg _)] at k
    exact ⟨k.1, k.2⟩
  cbrt x hx h0 := by
    have h : (0 : ℝ) ≤ x.toQ := by exact_mod_cast h0
    obtain ⟨s0, s3⟩ := (exists_cbrt x.toQ h).choose_spec
    refine ⟨(exists_cbrt x.toQ h).choose, s3, ?_⟩
    have e : (Flt.cbrt x : F64 roundLibm) = roundReal (exists_cbrt x.toQ h).choose := dif_pos h
    rw [e]
    refine near_roundReal_rel ?_
    rw [abs_of_nonneg s0]
    set s := (exists_cbrt x.toQ h).choose
    by_contra hc
    push Not at hc
    have k := pow_lt_pow_left₀ hc (by positivity) (show 3 ≠ 0 by norm_num)
    rw [s3] at k
    have h1 : (x.toQ : ℝ) ≤ (2 ^ (999 : ℤ)) ^ 3 := by
      have h1 : x.toQ ≤ 2 ^ (2997 : ℤ) := by
        have := (B64.toQ_isDouble x).abs_lt
        refine (le_abs_self _).trans (this.le.trans ?_)
        exact zpow_le_zpow_right₀ (by norm_num) (by norm_num)
      have h2 := (Rat.cast_le (K := ℝ)).2 h1
      rw [Rat.cast_zpow, Rat.cast_ofNat, show (2997 : ℤ) = 999 * (3 : ℕ) by norm_num, zpow_mul, zpow_natCast] at h2
      exact h2
    exact absurd k (not_lt.2 h1)
  cube x hx h1 h2 := by
    have k1 := (Rat.cast_le (K := ℝ)).2 h1
    have k2 := (Rat.cast_le (K := ℝ)).2 h2
    push_cast at k1 k2
    have p0 : (0 : ℝ) ≤ x.toQ := le_trans (by norm_num) k1
    have l1 : (1e-9 : ℝ) ≤ (x.toQ : ℝ) ^ 3 := le_trans (by norm_num) (pow_le_pow_left₀ (by norm_num) k1 3)
    have l2 : (x.toQ : ℝ) ^ 3 ≤ 1e9 := le_trans (pow_le_pow_left₀ p0 k2 3) (by norm_num)
    have k := near_roundReal_rel (L := roundLibm) (r := (x.toQ : ℝ) ^ 3)
      (by rw [abs_of_nonneg (by positivity)]; exact two_zpow_ge (by linarith))
    refine ⟨k.1, k.2.trans ?_⟩
    rw [abs_of_nonneg (by positivity)]
    have : (2⁻¹ : ℝ) ^ 1074 ≤ 2⁻¹ ^ 52 * 1e-9 :=
      (pow_le_pow_of_le_one (by norm_num) (by norm_num) (show 100 ≤ 1074 by norm_num)).trans (by norm_num)
    have e : (2⁻¹ : ℝ) ^ 51 = 2 * 2⁻¹ ^ 52 := by norm_num
    rw [e]
    generalize (2⁻¹ : ℝ) ^ 1074 = t at *
    generalize (x.toQ : ℝ) ^ 3 = q at *
    have := mul_le_mul_of_nonneg_left l1 (show (0 : ℝ) ≤ 2⁻¹ ^ 52 by positivity)
    linarith
  atan2 x y hx hy _ _ := by
    refine near_roundReal_rel (r := Complex.arg ⟨x.toQ, y.toQ⟩) (two_zpow_ge ?_)
    refine (Complex.abs_arg_le_pi _).trans (Real.pi_le_four.trans (by norm_num))

theorem near_roundReal_51 {L : Libm} {r : ℝ} (h : |r| ≤ 1e60) : Near (L := L) (roundReal r) r (2⁻¹ ^ 51 * |r| + 2⁻¹ ^ 1074) := by
  refine ⟨(near_roundReal_rel (L := L) (two_zpow_ge h)).1, (near_roundReal_rel (L := L) (two_zpow_ge h)).2.trans ?_⟩
  exact add_le_add (mul_le_mul_of_nonneg_right (by norm_num) (abs_nonneg _)) le_rfl

theorem near_roundReal_50 {L : Libm} {r : ℝ} (h : |r| ≤ 1e60) : Near (L := L) (roundReal r) r (2⁻¹ ^ 50 * |r| + 2⁻¹ ^ 1074) := by
  refine ⟨(near_roundReal_rel (L := L) (two_zpow_ge h)).1, (near_roundReal_rel (L := L) (two_zpow_ge h)).2.trans ?_⟩
  exact add_le_add (mul_le_mul_of_nonneg_right (by norm_num) (abs_nonneg _)) le_rfl

theorem cast_abs_le {q b : ℚ} (h : |q| ≤ b) : |(q : ℝ)| ≤ b := by
  rw [← Rat.cast_abs]; exact Rat.cast_le.2 h

theorem exp_32 {x : ℝ} (h : |x| ≤ 32) : Real.exp x ≤ 1e30 := by
  have h1 := Real.exp_one_lt_d9
  have h2 : Real.exp x ≤ Real.exp 1 ^ 32 := by
    rw [← Real.exp_nat_mul]
    exact Real.exp_le_exp.2 (by push_cast; linarith [(abs_le.1 h).2])
  have h3 : Real.exp 1 ^ 32 ≤ 3 ^ 32 := pow_le_pow_left₀ (Real.exp_pos 1).le (by linarith) 32
  exact h2.trans (h3.trans (by norm_num))

theorem cosh_32 {x : ℝ} (h : |x| ≤ 32) : Real.cosh x ≤ 1e30 := by
  rw [Real.cosh_eq]
  have := exp_32 h
  have := exp_32 (x := -x) (by rwa [abs_neg])
  linarith

theorem abs_sinh_le_cosh (x : ℝ) : |Real.sinh x| ≤ Real.cosh x := by
  apply abs_le_of_sq_le_sq _ (Real.cosh_pos x).le
  rw [Real.cosh_sq]
  linarith

theorem tan_big {x : ℝ} (hx : |x| ≤ 1.5707963267948966) : |Real.tan x| ≤ 1e60 := by
  have hp := Real.pi_gt_d20
  have hp4 := Real.pi_le_four
  have hc : 1e-20 ≤ Real.cos x := by
    have h1 := Real.one_sub_mul_le_cos (abs_nonneg x) (by norm_num at *; linarith)
    rw [Real.cos_abs] at h1
    refine le_trans ?_ h1
    have h2 : 2 / Real.pi * |x| ≤ 2 / Real.pi * 1.5707963267948966 := mul_le_mul_of_nonneg_left hx (by positivity)
    have h3 : 2 / Real.pi * 1.5707963267948966 ≤ 1 - 1e-20 := by
      rw [div_mul_eq_mul_div, div_le_iff₀ Real.pi_pos]
      norm_num at *
      linarith
    linarith
  have hc0 : 0 < Real.cos x := lt_of_lt_of_le (by norm_num) hc
  rw [Real.tan_eq_sin_div_cos, abs_div, abs_of_pos hc0, div_le_iff₀ hc0]
  have := Real.abs_sin_le_one x
  norm_num at *
  linarith

theorem tan_pi_2 {x : B64} (h : |x.toQ| ≤ B64.pi_2.toQ) : |Real.tan x.toQ| ≤ 1e60 := by
  refine tan_big ?_
  have h1 : |x.toQ| ≤ 1.5707963267948966 := by
    refine h.trans ?_
    rw [show B64.pi_2.toQ = 884279719003555 / 2 ^ 49 by decide +kernel]
    norm_num
  have := cast_abs_le h1
  push_cast at this
  exact this

theorem arcsin_big (x : ℝ) : |Real.arcsin x| ≤ 1e60 := by
  have := Real.pi_le_four
  have h1 := Real.neg_pi_div_two_le_arcsin x
  have h2 := Real.arcsin_le_pi_div_two x
  rw [abs_le]
  constructor <;> linarith

theorem arctan_big (x : ℝ) : |Real.arctan x| ≤ 1e60 := by
  have := Real.pi_le_four
  have h1 := Real.neg_pi_div_two_lt_arctan x
  have h2 := Real.arctan_lt_pi_div_two x
  rw [abs_le]
  constructor <;> linarith

theorem abs_tanh_le_one (x : ℝ) : |Real.tanh x| ≤ 1 := by
  rw [Real.tanh_eq_sinh_div_cosh, abs_div, abs_of_pos (Real.cosh_pos _), div_le_one (Real.cosh_pos _)]
  exact abs_sinh_le_cosh x

theorem log_big {x : ℝ} (h1 : 1e-20 ≤ x) (h2 : x ≤ 1e20) : |Real.log x| ≤ 1e20 := by
  have h0 : 0 < x := lt_of_lt_of_le (by norm_num) h1
  rw [abs_le]
  constructor
  · have := Real.one_sub_inv_le_log_of_pos h0
    have : x⁻¹ ≤ 1e20 := by
      rw [inv_le_comm₀ h0 (by norm_num)]
      norm_num at *
      exact h1
    norm_num at *
    linarith
  · have := Real.log_le_sub_one_of_pos h0
    linarith

theorem artanh_big {x : ℝ} (h : |x| ≤ 0.99) : |Real.artanh x| ≤ 1e60 := by
  obtain ⟨h1, h2⟩ := abs_le.1 h
  norm_num at h1 h2
  rw [Real.artanh_eq_half_log ⟨by linarith, by linarith⟩, abs_mul]
  have k : |Real.log ((1 + x) / (1 - x))| ≤ 1e20 := by
    have hx : 0 < 1 - x := by linarith
    refine log_big ?_ ?_
    · rw [le_div_iff₀ hx]; norm_num; linarith
    · rw [div_le_iff₀ hx]; norm_num; linarith
  norm_num at *
  linarith

theorem arsinh_big {x : ℝ} (h : |x| ≤ 1e20) : |Real.arsinh x| ≤ 1e60 := by
  have key : ∀ y : ℝ, y ≤ 1e20 → Real.arsinh y ≤ 1e60 := by
    intro y hy
    rw [← Real.sinh_le_sinh, Real.sinh_arsinh]
    have : (1e60 : ℝ) ≤ Real.sinh 1e60 := Real.self_le_sinh_iff.2 (by norm_num)
    linarith
  rw [abs_le] at *
  constructor
  · have := key (-x) (by linarith)
    rw [Real.arsinh_neg] at this
    linarith
  · exact key x h.2

theorem rpow_big {x y : ℝ} (h1 : 0.01 ≤ x) (h2 : x ≤ 100) (h3 : |y| ≤ 2) : |x ^ y| ≤ 1e60 := by
  have h0 : 0 < x := lt_of_lt_of_le (by norm_num) h1
  rw [Real.rpow_def_of_pos h0, abs_of_pos (Real.exp_pos _)]
  have hl : |Real.log x| ≤ 5 := by
    have h5 : Real.log 100 ≤ 5 := by
      rw [Real.log_le_iff_le_exp (by norm_num)]
      have := Real.exp_one_gt_d9
      have h2 : Real.exp 5 = Real.exp 1 ^ 5 := by rw [← Real.exp_nat_mul]; norm_num
      rw [h2]
      exact le_trans (by norm_num) (pow_le_pow_left₀ (by norm_num) this.le 5)
    rw [abs_le]
    constructor
    · have := Real.log_le_log (by norm_num : (0 : ℝ) < 0.01) h1
      have e : Real.log 0.01 = -Real.log 100 := by rw [← Real.log_inv]; norm_num
      linarith
    · exact (Real.log_le_log h0 h2).trans h5
  have : |Real.log x * y| ≤ 32 := by
    rw [abs_mul]
    have := mul_le_mul hl h3 (abs_nonneg _) (by norm_num)
    linarith
  have := exp_32 this
  norm_num at *
  linarith

/-- `AccurateProjection` is met by a library. -/
theorem roundLibm_accurateProjection : AccurateProjection roundLibm where
  toAccurate := roundLibm_accurate
  sin_wide x _ _ := near_roundReal ((Real.abs_sin_le_one _).trans (by norm_num))
  cos_wide x _ _ := near_roundReal ((Real.abs_cos_le_one _).trans (by norm_num))
  tan x _ h := near_roundReal_51 (tan_pi_2 h)
  asin x _ _ := near_roundReal_51 (arcsin_big _)
  atan x _ := near_roundReal_51 (arctan_big _)
  sinh x _ h := near_roundReal_51 ((abs_sinh_le_cosh _).trans ((cosh_32 (by have := cast_abs_le h; push_cast at this; exact this)).trans (by norm_num)))
  cosh x _ h := near_roundReal_51 ((abs_of_pos (Real.cosh_pos _)).le.trans
    ((cosh_32 (by have := cast_abs_le h; push_cast at this; exact this)).trans (by norm_num)))
  tanh x _ := near_roundReal_51 ((abs_tanh_le_one _).trans (by norm_num))
  asinh x _ h := near_roundReal_50 (arsinh_big (by
    have := cast_abs_le h
    push_cast at this
    exact this))
  atanh x _ h := near_roundReal_50 (artanh_big (by
    have := cast_abs_le h
    push_cast at this
    exact this))
  exp x _ h := near_roundReal_51 ((abs_of_pos (Real.exp_pos _)).le.trans
    ((exp_32 (by have := cast_abs_le h; push_cast at this; exact this)).trans (by norm_num)))
  ln x _ h1 h2 := near_roundReal_51 ((log_big (by
    have := (Rat.cast_le (K := ℝ)).2 h1
    push_cast at this
    exact this) (by
    have := (Rat.cast_le (K := ℝ)).2 h2
    push_cast at this
    exact this)).trans (by norm_num))
  powf x y _ _ h1 h2 h3 := near_roundReal_51 (rpow_big (by
    have := (Rat.cast_le (K := ℝ)).2 h1
    push_cast at this
    exact this) (by
    have := (Rat.cast_le (K := ℝ)).2 h2
    push_cast at this
    exact this) (by have := cast_abs_le h3; push_cast at this; exact this))

end Geo
