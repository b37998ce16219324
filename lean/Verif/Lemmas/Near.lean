import Verif.Lemmas.F64
import Verif.Spec.Accuracy
import Mathlib.Analysis.SpecialFunctions.Trigonometric.Bounds

/-! Rules for the rounding errors of `+ - * /` and `sqrt`. -/

namespace Geo
open Spec
variable {L : Libm}

theorem rndQ_rel (q : ℚ) : |rndQ q - q| ≤ 2⁻¹ ^ 53 * |q| + 2⁻¹ ^ 1075 := by
  have h := rndQ_err q
  rcases (expo_min q).eq_or_lt with e | e
  · rw [← e] at h
    have : (2 : ℚ) ^ (-1074 : ℤ) / 2 = 2⁻¹ ^ 1075 := by
      rw [zpow_neg, inv_pow, pow_succ, mul_inv]
      norm_cast
    rw [this] at h
    exact h.trans (le_add_of_nonneg_left (by positivity))
  · have h2 := le_of_expo e
    rw [two_zpow_add] at h2
    have h3 := two_zpow_pos (expo q)
    have e1 : (2 : ℚ) ^ expo q / 2 = 2⁻¹ ^ 53 * (2 ^ expo q * 2 ^ (52 : ℤ)) := by norm_num; ring
    rw [e1] at h
    exact (h.trans (mul_le_mul_of_nonneg_left h2 (by positivity))).trans (le_add_of_nonneg_right (by positivity))

theorem rndQ_rel' (q : ℚ) : |rndQ q - q| ≤ 1.12e-16 * |q| + 1e-70 := by
  refine (rndQ_rel q).trans (add_le_add (mul_le_mul_of_nonneg_right (by norm_num) (abs_nonneg q)) ?_)
  exact (pow_le_pow_of_le_one (by norm_num) (by norm_num) (show 250 ≤ 1075 by norm_num)).trans (by norm_num)

theorem le_huge {q : ℚ} (h : |q| ≤ 1e60) : |rndQ q| < huge := by
  have h1 := rndQ_rel' q
  have h2 : |rndQ q| ≤ |rndQ q - q| + |q| := by
    have := abs_add_le (rndQ q - q) q
    rwa [sub_add_cancel] at this
  have h6 : (1e61 : ℚ) < huge := by
    rw [huge, show (1024 : ℤ) = ((1024 : ℕ) : ℤ) from rfl, zpow_natCast]
    exact lt_of_lt_of_le (by norm_num) (pow_le_pow_right₀ (by norm_num : (1 : ℚ) ≤ 2) (show 250 ≤ 1024 by norm_num))
  refine lt_of_le_of_lt ?_ h6
  norm_num at *
  linarith

theorem round_near {q : ℚ} {r ε R E : ℝ} (h : |(q : ℝ) - r| ≤ ε) (hR : |r| + ε ≤ R) (h1 : 1e-50 ≤ R) (h2 : R ≤ 1e60)
    (hE : ε + 1.2e-16 * R ≤ E) : |rndQ q| < huge ∧ |((rndQ q : ℚ) : ℝ) - r| ≤ E := by
  have hq : |(q : ℝ)| ≤ R := by
    have := abs_add_le ((q : ℝ) - r) r
    rw [sub_add_cancel] at this
    linarith
  refine ⟨le_huge ?_, ?_⟩
  · have : |(q : ℝ)| ≤ ((1e60 : ℚ) : ℝ) := hq.trans (h2.trans (by norm_num))
    rw [← Rat.cast_abs] at this
    exact Rat.cast_le.1 this
  · have k : |((rndQ q : ℚ) : ℝ) - q| ≤ 1.12e-16 * |(q : ℝ)| + 1e-70 := by
      have := (Rat.cast_le (K := ℝ)).2 (rndQ_rel' q)
      push_cast at this
      exact this
    have k3 := abs_sub_le ((rndQ q : ℚ) : ℝ) q r
    norm_num at *
    linarith

end Geo
namespace Geo.Spec
open Geo
variable {L : Libm} {x y : F64 L} {r s ε δ E R A B : ℝ}

theorem Near.mono (h : Near x r ε) (h' : ε ≤ E) : Near x r E := ⟨h.1, h.2.trans h'⟩

theorem Near.exact (h : x.isFinite) : Near x (x.toQ : ℝ) 0 := ⟨h, by simp⟩

theorem Near.nonneg (h : Near x r ε) : 0 ≤ ε := (abs_nonneg _).trans h.2

theorem Near.add (hx : Near x r ε) (hy : Near y s δ) (hR : |r + s| + (ε + δ) ≤ R) (h1 : 1e-50 ≤ R) (h2 : R ≤ 1e60)
    (hE : ε + δ + 1.2e-16 * R ≤ E) : Near (x + y) (r + s) E := by
  have h : |((x.toQ + y.toQ : ℚ) : ℝ) - (r + s)| ≤ ε + δ := by
    push_cast
    rw [add_sub_add_comm]
    exact (abs_add_le _ _).trans (add_le_add hx.2 hy.2)
  obtain ⟨k1, k2⟩ := round_near h hR h1 h2 hE
  have f := B64.add_finite_of hx.1 hy.1 k1
  exact ⟨f, by rw [show (x + y).toQ = _ from (B64.add_finite f).2.2]; exact k2⟩

theorem Near.sub (hx : Near x r ε) (hy : Near y s δ) (hR : |r - s| + (ε + δ) ≤ R) (h1 : 1e-50 ≤ R) (h2 : R ≤ 1e60)
    (hE : ε + δ + 1.2e-16 * R ≤ E) : Near (x - y) (r - s) E := by
  have h : |((x.toQ - y.toQ : ℚ) : ℝ) - (r - s)| ≤ ε + δ := by
    push_cast
    rw [sub_sub_sub_comm]
    exact (abs_sub _ _).trans (add_le_add hx.2 hy.2)
  obtain ⟨k1, k2⟩ := round_near h hR h1 h2 hE
  have f := B64.sub_finite_of hx.1 hy.1 k1
  exact ⟨f, by rw [show (x - y).toQ = _ from (B64.sub_finite f).2.2]; exact k2⟩

theorem mul_near {x y r s ε δ A B : ℝ} (hx : |x - r| ≤ ε) (hy : |y - s| ≤ δ) (hA : |r| ≤ A) (hB : |s| ≤ B) :
    |x * y - r * s| ≤ A * δ + B * ε + ε * δ := by
  have e : x * y - r * s = r * (y - s) + s * (x - r) + (x - r) * (y - s) := by ring
  rw [e]
  refine (abs_add_three _ _ _).trans ?_
  rw [abs_mul, abs_mul, abs_mul]
  have := abs_nonneg (x - r)
  have := abs_nonneg (y - s)
  have := (abs_nonneg r).trans hA
  have := (abs_nonneg s).trans hB
  have := (abs_nonneg _).trans hx
  gcongr

theorem Near.mul (hx : Near x r ε) (hy : Near y s δ) (hA : |r| ≤ A) (hB : |s| ≤ B)
    (hR : A * B + (A * δ + B * ε + ε * δ) ≤ R) (h1 : 1e-50 ≤ R) (h2 : R ≤ 1e60)
    (hE : A * δ + B * ε + ε * δ + 1.2e-16 * R ≤ E) : Near (x * y) (r * s) E := by
  have h : |((x.toQ * y.toQ : ℚ) : ℝ) - r * s| ≤ A * δ + B * ε + ε * δ := by
    push_cast
    exact mul_near hx.2 hy.2 hA hB
  have h0 : |r * s| ≤ A * B := by
    rw [abs_mul]; exact mul_le_mul hA hB (abs_nonneg _) ((abs_nonneg _).trans hA)
  obtain ⟨k1, k2⟩ := round_near h (le_trans (by linarith) hR) h1 h2 hE
  have f := B64.mul_finite_of hx.1 hy.1 k1
  exact ⟨f, by rw [show (x * y).toQ = _ from (B64.mul_finite f).2.2]; exact k2⟩

theorem div_near {x y r s ε δ A B : ℝ} (hx : |x - r| ≤ ε) (hy : |y - s| ≤ δ) (hA : |r| ≤ A * s) (hB : B ≤ s) (hd : δ < B) :
    |x / y - r / s| ≤ (ε + A * δ) / (B - δ) := by
  have hy0 : B - δ ≤ y := by have := (abs_le.1 hy).1; linarith
  have hδ : 0 ≤ δ := (abs_nonneg _).trans hy
  have hs : 0 < s := lt_of_lt_of_le (by linarith) hB
  have hyp : 0 < y := lt_of_lt_of_le (by linarith) hy0
  have e : x / y - r / s = ((x - r) - r / s * (y - s)) / y := by field_simp; ring
  rw [e, abs_div, abs_of_pos hyp]
  have hrs : |r / s| ≤ A := by rw [abs_div, abs_of_pos hs, div_le_iff₀ hs]; exact hA
  have hn : |(x - r) - r / s * (y - s)| ≤ ε + A * δ := by
    refine (abs_sub _ _).trans (add_le_add hx ?_)
    rw [abs_mul]
    exact mul_le_mul hrs hy (abs_nonneg _) ((abs_nonneg _).trans hrs)
  have h0 : 0 ≤ ε + A * δ := (abs_nonneg _).trans hn
  exact div_le_div₀ h0 hn (by linarith) hy0

/-- `A` bounds the quotient, `B` bounds the divisor from below. -/
theorem Near.div (hx : Near x r ε) (hy : Near y s δ) (hA : |r| ≤ A * s) (hB : B ≤ s) (hd : δ < B)
    (hR : A + (ε + A * δ) / (B - δ) ≤ R) (h1 : 1e-50 ≤ R) (h2 : R ≤ 1e60)
    (hE : (ε + A * δ) / (B - δ) + 1.2e-16 * R ≤ E) : Near (x / y) (r / s) E := by
  have hs : 0 < s := lt_of_lt_of_le (lt_of_le_of_lt hy.nonneg hd) hB
  have h : |((x.toQ / y.toQ : ℚ) : ℝ) - r / s| ≤ (ε + A * δ) / (B - δ) := by
    push_cast
    exact div_near hx.2 hy.2 hA hB hd
  have hy0 : y.toQ ≠ 0 := by
    intro h0
    have := (abs_le.1 hy.2).1
    rw [h0] at this
    push_cast at this
    linarith
  have hrs : |r / s| ≤ A := by rw [abs_div, abs_of_pos hs, div_le_iff₀ hs]; exact hA
  obtain ⟨k1, k2⟩ := round_near h (le_trans (by linarith) hR) h1 h2 hE
  obtain ⟨f, e⟩ := B64.div_finite_of hx.1 hy.1 hy0 k1
  exact ⟨f, by rw [show (x / y).toQ = _ from e]; exact k2⟩

theorem sqrt_near {x r ε B : ℝ} (hx : |x - r| ≤ ε) (hx0 : 0 ≤ x) (hB : 0 < B) (hr : B ^ 2 ≤ r) :
    |Real.sqrt x - Real.sqrt r| ≤ ε / B := by
  have hr0 : 0 ≤ r := (sq_nonneg B).trans hr
  have h1 : B ≤ Real.sqrt r := Real.le_sqrt_of_sq_le hr
  have h2 := Real.sqrt_nonneg x
  rw [le_div_iff₀ hB]
  have e : (Real.sqrt x - Real.sqrt r) * (Real.sqrt x + Real.sqrt r) = x - r := by
    linear_combination Real.mul_self_sqrt hx0 - Real.mul_self_sqrt hr0
  rw [← e, abs_mul, abs_of_nonneg (by linarith : 0 ≤ Real.sqrt x + Real.sqrt r)] at hx
  exact le_trans (mul_le_mul_of_nonneg_left (by linarith) (abs_nonneg _)) hx

/-- `B ^ 2` bounds the argument from below, `A` its root from above. -/
theorem Near.sqrt (hL : Accurate L) (hx : Near x r ε) (hB : 0 < B) (hr : B ^ 2 ≤ r) (hε : ε ≤ B ^ 2) (hA : Real.sqrt r ≤ A)
    (hE : ε / B + 2.3e-16 * (A + ε / B) + 1e-70 ≤ E) : Near (Flt.sqrt x) (Real.sqrt r) E := by
  have hx0 : (0 : ℝ) ≤ x.toQ := by have := (abs_le.1 hx.2).1; linarith
  have hx0' : 0 ≤ x.toQ := by exact_mod_cast hx0
  obtain ⟨f, k⟩ := hL.sqrt x hx.1 hx0'
  refine ⟨f, ?_⟩
  have h1 := sqrt_near hx.2 hx0 hB hr
  have h2 := abs_sub_le ((Flt.sqrt x : F64 L).toQ : ℝ) (Real.sqrt x.toQ) (Real.sqrt r)
  have h3 : Real.sqrt x.toQ ≤ A + ε / B := by linarith [(abs_le.1 h1).2]
  have h4 : (2⁻¹ : ℝ) ^ 52 * Real.sqrt x.toQ ≤ 2.3e-16 * (A + ε / B) :=
    mul_le_mul (by norm_num) h3 (Real.sqrt_nonneg _) (by norm_num)
  have h5 : (2⁻¹ : ℝ) ^ 1074 ≤ 1e-70 :=
    (pow_le_pow_of_le_one (by norm_num) (by norm_num) (show 250 ≤ 1074 by norm_num)).trans (by norm_num)
  generalize (2⁻¹ : ℝ) ^ 1074 = t at *
  linarith

end Geo.Spec

namespace Geo.Spec
open Geo
variable {L : Libm} {x y : F64 L} {r s ε δ E R A B : ℝ}

theorem Near.abs_le (h : Near x r ε) : |(x.toQ : ℝ)| ≤ |r| + ε := by
  have := abs_add_le ((x.toQ : ℝ) - r) r
  rw [sub_add_cancel] at this
  linarith [h.2]

theorem Near.abs_le_rat (h : Near x r ε) {q : ℚ} (hq : |r| + ε ≤ q) : |x.toQ| ≤ q := by
  have := h.abs_le.trans hq
  rw [← Rat.cast_abs] at this
  exact Rat.cast_le.1 this

theorem abs_sin_sub_le (x y : ℝ) : |Real.sin x - Real.sin y| ≤ |x - y| := by
  rw [Real.sin_sub_sin, abs_mul, abs_mul]
  have h1 := Real.abs_sin_le_abs (x := (x - y) / 2)
  have h2 := Real.abs_cos_le_one ((x + y) / 2)
  rw [abs_div] at h1
  norm_num at h1 ⊢
  have := abs_nonneg (Real.sin ((x - y) / 2))
  nlinarith [abs_nonneg (x - y)]

theorem abs_cos_sub_le (x y : ℝ) : |Real.cos x - Real.cos y| ≤ |x - y| := by
  have := abs_sin_sub_le (x + Real.pi / 2) (y + Real.pi / 2)
  rwa [Real.sin_add_pi_div_two, Real.sin_add_pi_div_two, add_sub_add_right_eq_sub] at this

theorem Near.sin (hL : Accurate L) (h : Near x r ε) (hr : |x.toQ| ≤ 4) (hE : ε + 2.3e-16 ≤ E) :
    Near (Flt.sin x) (Real.sin r) E := by
  obtain ⟨f, k⟩ := hL.sin x h.1 hr
  refine ⟨f, ?_⟩
  have := abs_sub_le ((Flt.sin x : F64 L).toQ : ℝ) (Real.sin x.toQ) (Real.sin r)
  have := (abs_sin_sub_le x.toQ r).trans h.2
  have : (2⁻¹ : ℝ) ^ 52 ≤ 2.3e-16 := by norm_num
  linarith

theorem Near.cos (hL : Accurate L) (h : Near x r ε) (hr : |x.toQ| ≤ 4) (hE : ε + 2.3e-16 ≤ E) :
    Near (Flt.cos x) (Real.cos r) E := by
  obtain ⟨f, k⟩ := hL.cos x h.1 hr
  refine ⟨f, ?_⟩
  have := abs_sub_le ((Flt.cos x : F64 L).toQ : ℝ) (Real.cos x.toQ) (Real.cos r)
  have := (abs_cos_sub_le x.toQ r).trans h.2
  have : (2⁻¹ : ℝ) ^ 52 ≤ 2.3e-16 := by norm_num
  linarith

theorem Near.powi2 (hL : Accurate L) (h : Near x r ε) (hA : |r| ≤ A) (hr : A + ε ≤ 5 / 4)
    (hE : 2 * A * ε + ε * ε + 2.3e-16 ≤ E) : Near (Flt.powi x 2) (r ^ 2) E := by
  obtain ⟨f, k⟩ := hL.sq x h.1 (h.abs_le_rat (by push_cast; linarith))
  refine ⟨f, ?_⟩
  have := abs_sub_le ((Flt.powi x 2 : F64 L).toQ : ℝ) ((x.toQ : ℝ) ^ 2) (r ^ 2)
  have h2 := mul_near h.2 h.2 hA hA
  rw [← pow_two, ← pow_two] at h2
  have : (2⁻¹ : ℝ) ^ 52 ≤ 2.3e-16 := by norm_num
  linarith

/-- `Near.div` with a lower bound `C` of the divisor computed. -/
theorem Near.div' {C : ℝ} (hx : Near x r ε) (hy : Near y s δ) (hA : |r| ≤ A * s) (hA0 : 0 ≤ A) (hB : B ≤ s) (hC0 : 0 < C)
    (hC : C ≤ B - δ) (hR : A + (ε + A * δ) / C ≤ R) (h1 : 1e-50 ≤ R) (h2 : R ≤ 1e60)
    (hE : (ε + A * δ) / C + 1.2e-16 * R ≤ E) : Near (x / y) (r / s) E := by
  have hδ := hy.nonneg
  have h0 : 0 ≤ ε + A * δ := add_nonneg hx.nonneg (mul_nonneg hA0 hδ)
  have : (ε + A * δ) / (B - δ) ≤ (ε + A * δ) / C := div_le_div_of_nonneg_left h0 hC0 hC
  exact Near.div hx hy hA hB (by linarith) (by linarith) h1 h2 (by linarith)

theorem Near.neg (h : Near x r ε) : Near (-x) (-r) ε := by
  refine ⟨(B64.neg_finite x).trans h.1, ?_⟩
  have e : (-x).toQ = -x.toQ := B64.neg_toQ _
  rw [e]
  push_cast
  rw [← neg_sub', abs_neg]
  exact h.2

theorem Near.congr (h : Near x r ε) (e : r = s) : Near x s ε := e ▸ h

end Geo.Spec
