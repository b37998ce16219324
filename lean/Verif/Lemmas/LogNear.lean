import Verif.Lemmas.NearFns
import Verif.Lemmas.NearExists
import Verif.Lemmas.Isometric

/-! Rounding errors of products, powers, tangents and logarithms of positive numbers, measured on their logarithms. -/

namespace Geo.Spec
open Geo
variable {L : Libm}

/-- `x` is finite and positive, and its logarithm is within `ε` of `r`. -/
structure LNear (x : F64 L) (r ε : ℝ) : Prop where
  finite : x.isFinite
  pos : (0 : ℝ) < x.toQ
  near : |Real.log x.toQ - r| ≤ ε

variable {x y : F64 L} {r s ε δ E A S : ℝ}

theorem log_rel {x r δ : ℝ} (hr : 0 < r) (h : |x - r| ≤ δ * r) (hδ : δ ≤ 1e-3) :
    0 < x ∧ |Real.log x - Real.log r| ≤ 1.002 * δ := by
  obtain ⟨h1, h2⟩ := _root_.abs_le.1 h
  have hδ0 : 0 ≤ δ := by
    have := (abs_nonneg _).trans h
    exact nonneg_of_mul_nonneg_left this hr
  have hx : 0 < x := by norm_num at hδ; nlinarith
  refine ⟨hx, ?_⟩
  rw [← Real.log_div hx.ne' hr.ne']
  have hu : 0 < x / r := div_pos hx hr
  have l1 := Real.log_le_sub_one_of_pos hu
  have l2 := Real.one_sub_inv_le_log_of_pos hu
  have u1 : x / r ≤ 1 + δ := by rw [div_le_iff₀ hr]; linarith
  have u2 : 1 - δ ≤ x / r := by rw [le_div_iff₀ hr]; linarith
  have u3 : (x / r)⁻¹ ≤ 1 + 1.002 * δ := by
    rw [inv_le_iff_one_le_mul₀ hu]
    norm_num at hδ ⊢
    nlinarith
  rw [_root_.abs_le]
  norm_num at *
  constructor <;> linarith

theorem LNear.mono (h : LNear x r ε) (h' : ε ≤ E) : LNear x r E := ⟨h.1, h.2, h.3.trans h'⟩
theorem LNear.congr (h : LNear x r ε) (e : r = s) : LNear x s ε := e ▸ h
theorem LNear.nonneg (h : LNear x r ε) : 0 ≤ ε := (abs_nonneg _).trans h.3

theorem LNear.log_le (h : LNear x r ε) (hA : |r| + ε ≤ A) : |Real.log x.toQ| ≤ A := by
  have := abs_add_le (Real.log x.toQ - r) r
  rw [sub_add_cancel] at this
  linarith [h.3]

theorem LNear.bounds (h : LNear x r ε) (hA : |r| + ε ≤ A) : Real.exp (-A) ≤ x.toQ ∧ (x.toQ : ℝ) ≤ Real.exp A := by
  obtain ⟨h1, h2⟩ := _root_.abs_le.1 (h.log_le hA)
  exact ⟨(Real.le_log_iff_exp_le h.pos).1 h1, (Real.log_le_iff_le_exp h.pos).1 h2⟩

/-- A positive number with a small relative error. -/
theorem Near.log {B : ℝ} (h : Near x s ε) (hB : 0 < B) (hs : B ≤ s) (hε : ε ≤ δ * B) (hδ : δ ≤ 1e-3) (h0 : 0 ≤ δ) (hE : 1.002 * δ ≤ E) :
    LNear x (Real.log s) E := by
  obtain ⟨k1, k2⟩ := log_rel (lt_of_lt_of_le hB hs) (h.2.trans (hε.trans (mul_le_mul_of_nonneg_left hs h0))) hδ
  exact ⟨h.1, k1, k2.trans hE⟩

theorem exp_40 {x : ℝ} (h : x ≤ 40) : Real.exp x ≤ 1e20 := by
  have h1 := Real.exp_one_lt_d9
  have h2 := Real.exp_le_exp.2 h
  refine h2.trans ?_
  rw [show (40 : ℝ) = ((40 : ℕ) : ℝ) * 1 by norm_num, Real.exp_nat_mul]
  exact (pow_le_pow_left₀ (Real.exp_pos 1).le h1.le 40).trans (by norm_num)

theorem exp_neg_40 {x : ℝ} (h : -40 ≤ x) : 1e-20 ≤ Real.exp x := by
  have := exp_40 (x := -x) (by linarith)
  rw [Real.exp_neg] at this
  have h2 := (inv_le_comm₀ (Real.exp_pos x) (by norm_num)).1 this
  norm_num at h2 ⊢
  exact h2

theorem LNear.mul (hx : LNear x r ε) (hy : LNear y s δ) (hr : |r| + ε ≤ 20) (hs : |s| + δ ≤ 20) (hE : ε + δ + 1.2e-16 ≤ E) :
    LNear (x * y) (r + s) E := by
  have h1 := hx.log_le hr
  have h2 := hy.log_le hs
  have hp : (0 : ℝ) < x.toQ * y.toQ := mul_pos hx.pos hy.pos
  have hl : Real.log ((x.toQ : ℝ) * y.toQ) = Real.log x.toQ + Real.log y.toQ := Real.log_mul hx.pos.ne' hy.pos.ne'
  obtain ⟨a1, a2⟩ := _root_.abs_le.1 h1
  obtain ⟨b1, b2⟩ := _root_.abs_le.1 h2
  have u : (x.toQ : ℝ) * y.toQ ≤ 1e20 := by
    rw [← Real.exp_log hp, hl]; exact exp_40 (by linarith)
  have l : 1e-20 ≤ (x.toQ : ℝ) * y.toQ := by
    rw [← Real.exp_log hp, hl]; exact exp_neg_40 (by linarith)
  have k1 : |rndQ (x.toQ * y.toQ)| < huge := le_huge (by
    have : |((x.toQ * y.toQ : ℚ) : ℝ)| ≤ ((1e60 : ℚ) : ℝ) := by
      push_cast
      rw [abs_of_pos hp]
      norm_num at u ⊢
      linarith
    rw [← Rat.cast_abs] at this
    exact Rat.cast_le.1 this)
  have k2 : |((rndQ (x.toQ * y.toQ) : ℚ) : ℝ) - x.toQ * y.toQ| ≤ 1.13e-16 * (x.toQ * y.toQ) := by
    have := (Rat.cast_le (K := ℝ)).2 (rndQ_rel' (x.toQ * y.toQ))
    push_cast at this
    rw [abs_mul, abs_of_pos hx.pos, abs_of_pos hy.pos] at this
    norm_num at *
    linarith
  have f := B64.mul_finite_of hx.1 hy.1 k1
  obtain ⟨m1, m2⟩ := log_rel hp k2 (by norm_num)
  have e' : (x * y).toQ = rndQ (x.toQ * y.toQ) := (B64.mul_finite f).2.2
  refine ⟨f, by rw [e']; exact m1, ?_⟩
  rw [e']
  rw [hl] at m2
  have n1 := hx.3
  have n2 := hy.3
  rw [_root_.abs_le] at *
  norm_num at *
  constructor <;> linarith

/-- Division. -/
theorem LNear.div (hx : LNear x r ε) (hy : LNear y s δ) (hr : |r| + ε ≤ 20) (hs : |s| + δ ≤ 20) (hE : ε + δ + 1.2e-16 ≤ E) :
    LNear (x / y) (r - s) E := by
  have h1 := hx.log_le hr
  have h2 := hy.log_le hs
  have hp : (0 : ℝ) < x.toQ / y.toQ := div_pos hx.pos hy.pos
  have hl : Real.log ((x.toQ : ℝ) / y.toQ) = Real.log x.toQ - Real.log y.toQ := Real.log_div hx.pos.ne' hy.pos.ne'
  obtain ⟨a1, a2⟩ := _root_.abs_le.1 h1
  obtain ⟨b1, b2⟩ := _root_.abs_le.1 h2
  have u : (x.toQ : ℝ) / y.toQ ≤ 1e20 := by
    rw [← Real.exp_log hp, hl]; exact exp_40 (by linarith)
  have l : 1e-20 ≤ (x.toQ : ℝ) / y.toQ := by
    rw [← Real.exp_log hp, hl]; exact exp_neg_40 (by linarith)
  have k1 : |rndQ (x.toQ / y.toQ)| < huge := le_huge (by
    have : |((x.toQ / y.toQ : ℚ) : ℝ)| ≤ ((1e60 : ℚ) : ℝ) := by
      push_cast
      rw [abs_of_pos hp]
      norm_num at u ⊢
      linarith
    rw [← Rat.cast_abs] at this
    exact Rat.cast_le.1 this)
  have k2 : |((rndQ (x.toQ / y.toQ) : ℚ) : ℝ) - x.toQ / y.toQ| ≤ 1.13e-16 * (x.toQ / y.toQ) := by
    have := (Rat.cast_le (K := ℝ)).2 (rndQ_rel' (x.toQ / y.toQ))
    push_cast at this
    rw [abs_div, abs_of_pos hx.pos, abs_of_pos hy.pos] at this
    generalize (x.toQ : ℝ) / y.toQ = q at *
    norm_num at *
    linarith
  have y0 : y.toQ ≠ 0 := by have := hy.pos.ne'; exact_mod_cast this
  obtain ⟨f, e'⟩ := B64.div_finite_of hx.1 hy.1 y0 k1
  obtain ⟨m1, m2⟩ := log_rel hp k2 (by norm_num)
  have e' : (x / y).toQ = rndQ (x.toQ / y.toQ) := e'
  refine ⟨f, by rw [e']; exact m1, ?_⟩
  rw [e']
  rw [hl] at m2
  have n1 := hx.3
  have n2 := hy.3
  rw [_root_.abs_le] at *
  norm_num at *
  constructor <;> linarith

/-- `powf`. -/
theorem LNear.powf (hL : AccurateProjection L) (hx : LNear x r ε) (hy : Near y s δ) (hr : |r| + ε ≤ 4) (hs : |s| + δ ≤ S) (hS : S ≤ 2) (hA : |r| ≤ A)
    (hE : S * ε + A * δ + 4.6e-16 ≤ E) : LNear (Flt.powf x y) (s * r) E := by
  obtain ⟨b1, b2⟩ := hx.bounds hr
  have e1 : Real.exp 4 ≤ 100 := by
    have h1 := Real.exp_one_lt_d9
    rw [show (4 : ℝ) = ((4 : ℕ) : ℝ) * 1 by norm_num, Real.exp_nat_mul]
    exact (pow_le_pow_left₀ (Real.exp_pos 1).le h1.le 4).trans (by norm_num)
  have e2 : 0.01 ≤ Real.exp (-4) := by
    rw [Real.exp_neg, le_inv_comm₀ (by norm_num) (Real.exp_pos 4)]
    norm_num; exact e1
  have q1 : (0.01 : ℚ) ≤ x.toQ := by
    have : ((0.01 : ℚ) : ℝ) ≤ x.toQ := by norm_num at e2 ⊢; linarith
    exact Rat.cast_le.1 this
  have q2 : x.toQ ≤ (100 : ℚ) := by
    have : (x.toQ : ℝ) ≤ ((100 : ℚ) : ℝ) := by norm_num; linarith
    exact Rat.cast_le.1 this
  have q3 : |y.toQ| ≤ 2 := hy.abs_le_rat (by push_cast; exact hs.trans hS)
  have q3' : |(y.toQ : ℝ)| ≤ S := hy.abs_le.trans hs
  have k := hL.powf x y hx.1 hy.1 q1 q2 q3
  have hp : 0 < (x.toQ : ℝ) ^ (y.toQ : ℝ) := Real.rpow_pos_of_pos hx.pos _
  have hlog : Real.log ((x.toQ : ℝ) ^ (y.toQ : ℝ)) = y.toQ * Real.log x.toQ := Real.log_rpow hx.pos _
  have hl : |(y.toQ : ℝ) * Real.log x.toQ| ≤ 8 := by
    rw [abs_mul]
    refine (mul_le_mul (q3'.trans hS) (hx.log_le hr) (abs_nonneg _) (by norm_num)).trans (by norm_num)
  have hlow : 1e-20 ≤ (x.toQ : ℝ) ^ (y.toQ : ℝ) := by
    rw [← Real.exp_log hp, hlog]; exact exp_neg_40 (by linarith [(_root_.abs_le.1 hl).1])
  have k2 : |((Flt.powf x y : F64 L).toQ : ℝ) - (x.toQ : ℝ) ^ (y.toQ : ℝ)| ≤ 4.5e-16 * (x.toQ : ℝ) ^ (y.toQ : ℝ) := by
    refine k.2.trans ?_
    rw [abs_of_pos hp]
    have := tiny_le
    generalize (2⁻¹ : ℝ) ^ 1074 = t at *
    norm_num at *
    linarith
  obtain ⟨m1, m2⟩ := log_rel hp k2 (by norm_num)
  refine ⟨k.1, m1, ?_⟩
  rw [hlog] at m2
  have c1 : |(y.toQ : ℝ) * Real.log x.toQ - s * r| ≤ S * ε + A * δ := by
    rw [show (y.toQ : ℝ) * Real.log x.toQ - s * r = y.toQ * (Real.log x.toQ - r) + (y.toQ - s) * r by ring]
    refine (abs_add_le _ _).trans (add_le_add ?_ ?_)
    · rw [abs_mul]; exact mul_le_mul q3' hx.3 (abs_nonneg _) ((abs_nonneg _).trans q3')
    · rw [abs_mul, mul_comm A]; exact mul_le_mul hy.2 hA (abs_nonneg _) hy.nonneg
  have := abs_sub_le (Real.log (Flt.powf x y : F64 L).toQ) (y.toQ * Real.log x.toQ) (s * r)
  norm_num at *
  linarith

/-- `ln`. -/
theorem LNear.ln (hL : AccurateProjection L) (hx : LNear x r ε) (hr : |r| + ε ≤ 40) (hA : |r| ≤ A)
    (hE : ε + 4.5e-16 * (A + ε) + 1e-70 ≤ E) : Near (Flt.ln x) r E := by
  obtain ⟨b1, b2⟩ := hx.bounds hr
  have q1 : (1e-20 : ℚ) ≤ x.toQ := by
    have : ((1e-20 : ℚ) : ℝ) ≤ x.toQ := by
      have := exp_neg_40 (x := -40) le_rfl
      norm_num at this ⊢; linarith
    exact Rat.cast_le.1 this
  have q2 : x.toQ ≤ (1e20 : ℚ) := by
    have : (x.toQ : ℝ) ≤ ((1e20 : ℚ) : ℝ) := by
      have := exp_40 (x := 40) le_rfl
      norm_num at this ⊢; linarith
    exact Rat.cast_le.1 this
  have k := hL.ln x hx.1 q1 q2
  refine ⟨k.1, ?_⟩
  have h1 := abs_sub_le ((Flt.ln x : F64 L).toQ : ℝ) (Real.log x.toQ) r
  have h2 := hx.log_le (A := A + ε) (by linarith)
  have h3 : (2⁻¹ : ℝ) ^ 51 * |Real.log x.toQ| ≤ 4.5e-16 * (A + ε) := mul_le_mul (by norm_num) h2 (abs_nonneg _) (by norm_num)
  have h4 := tiny_le
  have h5 := k.2
  have h6 := hx.3
  generalize (2⁻¹ : ℝ) ^ 1074 = t at *
  generalize (2⁻¹ : ℝ) ^ 51 * |Real.log x.toQ| = w at *
  norm_num at *
  linarith

/-- `exp`. -/
theorem Near.exp (hL : AccurateProjection L) (h : Near x r ε) (hr : |r| + ε ≤ 32) (hE : ε + 4.6e-16 ≤ E) : LNear (Flt.exp x) r E := by
  have q : |x.toQ| ≤ 32 := h.abs_le_rat (by push_cast; exact hr)
  have q' : |(x.toQ : ℝ)| ≤ 32 := by have := cast_abs_le q; push_cast at this; exact this
  have k := hL.exp x h.1 q
  have hp := Real.exp_pos (x.toQ : ℝ)
  have hlow := exp_neg_40 (x := x.toQ) (by linarith [(_root_.abs_le.1 q').1])
  have k2 : |((Flt.exp x : F64 L).toQ : ℝ) - Real.exp x.toQ| ≤ 4.5e-16 * Real.exp x.toQ := by
    refine k.2.trans ?_
    rw [abs_of_pos hp]
    have := tiny_le
    generalize (2⁻¹ : ℝ) ^ 1074 = t at *
    norm_num at *
    linarith
  obtain ⟨m1, m2⟩ := log_rel hp k2 (by norm_num)
  rw [Real.log_exp] at m2
  refine ⟨k.1, m1, ?_⟩
  have := abs_sub_le (Real.log (Flt.exp x : F64 L).toQ) x.toQ r
  have := h.2
  norm_num at *
  linarith

/-- The arc tangent of an exponential moves half as much as the exponent. -/
theorem arctan_exp_lip (x y : ℝ) : |Real.arctan (Real.exp x) - Real.arctan (Real.exp y)| ≤ 1 / 2 * |x - y| :=
  lip_of_deriv convex_univ (fun z _ => (Real.hasDerivAt_exp z).arctan) (fun z _ => by
    have h := Real.exp_pos z
    rw [abs_of_nonneg (by positivity), one_div, inv_mul_le_iff₀ (by positivity)]
    nlinarith [sq_nonneg (Real.exp z - 1)]) (Set.mem_univ _) (Set.mem_univ _)

/-- `atan`. -/
theorem LNear.atan (hL : AccurateProjection L) (hx : LNear x r ε) (hE : ε / 2 + 4.5e-16 * 1.5708 + 1e-70 ≤ E) :
    Near (Flt.atan x) (Real.arctan (Real.exp r)) E := by
  have k := hL.atan x hx.1
  refine ⟨k.1, ?_⟩
  have h1 := abs_sub_le ((Flt.atan x : F64 L).toQ : ℝ) (Real.arctan x.toQ) (Real.arctan (Real.exp r))
  have h2 : |Real.arctan x.toQ - Real.arctan (Real.exp r)| ≤ 1 / 2 * ε := by
    have := arctan_exp_lip (Real.log x.toQ) r
    rw [Real.exp_log hx.pos] at this
    exact this.trans (mul_le_mul_of_nonneg_left hx.3 (by norm_num))
  have h3 : |Real.arctan (x.toQ : ℝ)| ≤ 1.5708 := by
    have := Real.pi_lt_d4
    have a := Real.neg_pi_div_two_lt_arctan (x.toQ : ℝ)
    have b := Real.arctan_lt_pi_div_two (x.toQ : ℝ)
    rw [_root_.abs_le]
    norm_num at *
    constructor <;> linarith
  have h4 : (2⁻¹ : ℝ) ^ 51 * |Real.arctan x.toQ| ≤ 4.5e-16 * 1.5708 := mul_le_mul (by norm_num) h3 (abs_nonneg _) (by norm_num)
  have h5 := tiny_le
  have h6 := k.2
  generalize (2⁻¹ : ℝ) ^ 1074 = t at *
  generalize (2⁻¹ : ℝ) ^ 51 * |Real.arctan (x.toQ : ℝ)| = w at *
  norm_num at *
  linarith

/-- The isometric latitude of the sphere, near a latitude. -/
theorem iso_sphere_lip {x φ ε c : ℝ} (hc0 : 0 < c) (hc : c ≤ Real.cos φ) (h1 : -(Real.pi / 2) < φ) (h2 : φ < Real.pi / 2) (h : |x - φ| ≤ ε)
    (hε : ε ≤ 1e-3 * c) :
    -(Real.pi / 2) < x ∧ x < Real.pi / 2 ∧
      |Real.arsinh (Real.tan x) - Real.arsinh (Real.tan φ)| ≤ 1.002 / Real.cos φ * ε := by
  have hcφ : 0 < Real.cos φ := lt_of_lt_of_le hc0 hc
  have hε0 := (abs_nonneg _).trans h
  have key : ∀ z, |z - φ| ≤ ε → 0.999 * Real.cos φ ≤ Real.cos z := fun z hz => by
    have k1 := abs_cos_sub_le z φ
    have k2 := (_root_.abs_le.1 (k1.trans hz)).1
    norm_num at *
    linarith
  have hin : ∀ z, |z - φ| ≤ ε → -(Real.pi / 2) < z ∧ z < Real.pi / 2 := fun z hz => by
    have g1 : Real.cos φ ≤ φ + Real.pi / 2 := by
      rw [← Real.sin_add_pi_div_two]; exact Real.sin_le (by linarith)
    have g2 : Real.cos φ ≤ Real.pi / 2 - φ := by
      rw [← Real.sin_pi_div_two_sub]; exact Real.sin_le (by linarith)
    obtain ⟨z1, z2⟩ := _root_.abs_le.1 hz
    norm_num at hε
    constructor <;> nlinarith
  obtain ⟨i1, i2⟩ := hin x h
  refine ⟨i1, i2, ?_⟩
  have := lip_of_deriv (f := fun z => Real.arsinh (Real.tan z)) (f' := fun z => (1 / Real.cos z)) (s := Set.Icc (φ - ε) (φ + ε))
    (C := 1.002 / Real.cos φ) (x := x) (y := φ) (convex_Icc _ _) (fun z hz => by
      have hz' : |z - φ| ≤ ε := by rw [_root_.abs_le]; constructor <;> linarith [hz.1, hz.2]
      obtain ⟨j1, j2⟩ := hin z hz'
      have hcz := cos_pos_of_lat j1 j2
      refine ((Real.hasDerivAt_tan hcz.ne').arsinh).congr_deriv ?_
      have e : Real.sqrt (1 + Real.tan z ^ 2) = 1 / Real.cos z := by
        rw [Real.sqrt_eq_iff_mul_self_eq (by positivity) (by positivity), Real.tan_eq_sin_div_cos]
        field_simp
        linarith [Real.sin_sq_add_cos_sq z]
      rw [e]
      simp
      field_simp)
    (fun z hz => by
      have hz' : |z - φ| ≤ ε := by rw [_root_.abs_le]; constructor <;> linarith [hz.1, hz.2]
      have hk := key z hz'
      have hcz : 0 < Real.cos z := lt_of_lt_of_le (by positivity) hk
      rw [abs_of_pos (by positivity), div_le_div_iff₀ hcz hcφ]
      norm_num at *
      linarith)
    ⟨by linarith [(_root_.abs_le.1 h).1], by linarith [(_root_.abs_le.1 h).2]⟩ ⟨by linarith, by linarith⟩
  exact this.trans (mul_le_mul_of_nonneg_left h (by positivity))

end Geo.Spec
