import Verif.Lemmas.SurfaceGeodesic
import Mathlib.Analysis.Calculus.Deriv.MeanValue
import Mathlib.Analysis.SpecialFunctions.ExpDeriv
import Mathlib.Analysis.Complex.ExponentialBounds

/-! Geodesics with nearby starts and nearby directions stay near. -/

namespace Geo.Spec

theorem dot_sq_le (a b c p q r : ℝ) : (a * p + b * q + c * r) ^ 2 ≤ (a ^ 2 + b ^ 2 + c ^ 2) * (p ^ 2 + q ^ 2 + r ^ 2) := by
  have : (a ^ 2 + b ^ 2 + c ^ 2) * (p ^ 2 + q ^ 2 + r ^ 2) - (a * p + b * q + c * r) ^ 2 =
      (a * q - b * p) ^ 2 + (a * r - c * p) ^ 2 + (b * r - c * q) ^ 2 := by ring
  have : 0 ≤ (a * q - b * p) ^ 2 + (a * r - c * p) ^ 2 + (b * r - c * q) ^ 2 := by positivity
  linarith

theorem comp_le {δ p q r : ℝ} (h0 : 0 ≤ δ) (h : p ^ 2 + q ^ 2 + (1 + δ) * r ^ 2 = 1) : r ^ 2 ≤ 1 ∧ p ^ 2 + q ^ 2 + r ^ 2 ≤ 1 := by
  have := mul_nonneg h0 (sq_nonneg r)
  have := sq_nonneg p
  have := sq_nonneg q
  constructor <;> linarith

theorem stable_sum {δ X Y p q r s : ℝ} (h0 : 0 ≤ δ) (t1 : |p| ≤ 1.0103 * δ * (X * Y))
    (t2 : |q| ≤ (2 * δ * Y + 2.07 * δ * X) * Y) (t3 : |r| ≤ δ * (1.0103 * X * Y))
    (t4 : |s| ≤ 0.0103 * ((2 * δ * Y + 2.07 * δ * X) * 1 * Y)) : |p + q + r + s| ≤ 4.2 * δ * (X ^ 2 + Y ^ 2) := by
  have t5 := abs_add_le (p + q + r) s
  have t6 := abs_add_le (p + q) r
  have t7 := abs_add_le p q
  have t8 : 2 * (δ * (X * Y)) ≤ δ * (X ^ 2 + Y ^ 2) := by
    rw [← sub_nonneg, show δ * (X ^ 2 + Y ^ 2) - 2 * (δ * (X * Y)) = δ * (X - Y) ^ 2 by ring]; positivity
  have t9 : 0 ≤ δ * X ^ 2 := by positivity
  have t10 : 0 ≤ δ * Y ^ 2 := by positivity
  have e2 : (2 * δ * Y + 2.07 * δ * X) * Y = 2 * (δ * Y ^ 2) + 2.07 * (δ * (X * Y)) := by ring
  rw [e2] at t2
  rw [mul_one, e2] at t4
  rw [show 4.2 * δ * (X ^ 2 + Y ^ 2) = 4.2 * (δ * X ^ 2) + 4.2 * (δ * Y ^ 2) by ring]
  rw [show δ * (1.0103 * X * Y) = 1.0103 * (δ * (X * Y)) by ring] at t3
  rw [mul_assoc] at t1
  rw [mul_add] at t8
  norm_num at t1 t2 t3 t4 ⊢
  linarith

theorem stable_factor {δ x2 y2 u2 w2 κ K X Y : ℝ} (h0 : 0 ≤ δ) (h1 : δ ≤ 0.0103)
    (bx : x2 ^ 2 ≤ 1) (by2 : y2 ^ 2 ≤ 1) (bu : u2 ^ 2 ≤ 1) (bw : w2 ^ 2 ≤ 1) (d2 : |x2 - y2| ≤ X) (e2 : |u2 - w2| ≤ Y)
    (hκ : κ = (1 + δ * u2 ^ 2) / (1 + δ * (1 + δ) * x2 ^ 2)) (hK : K = (1 + δ * w2 ^ 2) / (1 + δ * (1 + δ) * y2 ^ 2)) :
    |κ - 1| ≤ 1.0103 * δ ∧ |κ| ≤ 1.0103 ∧ |κ - K| ≤ 2 * δ * Y + 2.07 * δ * X := by
  have X0 : 0 ≤ X := (abs_nonneg _).trans d2
  have ax : |x2| ≤ 1 := abs_le_one_iff_mul_self_le_one.2 (by rw [← pow_two]; assumption)
  have ay : |y2| ≤ 1 := abs_le_one_iff_mul_self_le_one.2 (by rw [← pow_two]; assumption)
  have au : |u2| ≤ 1 := abs_le_one_iff_mul_self_le_one.2 (by rw [← pow_two]; assumption)
  have aw : |w2| ≤ 1 := abs_le_one_iff_mul_self_le_one.2 (by rw [← pow_two]; assumption)
  set δ' := δ * (1 + δ) with hδ'
  have hδ0 : 0 ≤ δ' := by positivity
  have hδ1 : δ' ≤ 1.0103 * δ := by rw [hδ']; nlinarith
  have D1 : 1 ≤ 1 + δ' * x2 ^ 2 := by nlinarith [mul_nonneg hδ0 (sq_nonneg x2)]
  have D2 : 1 ≤ 1 + δ' * y2 ^ 2 := by nlinarith [mul_nonneg hδ0 (sq_nonneg y2)]
  have D1' : 1 + δ' * x2 ^ 2 ≤ 1 + 1.0103 * δ := by nlinarith [mul_le_mul_of_nonneg_left bx hδ0]
  have N1 : 1 ≤ 1 + δ * u2 ^ 2 := by nlinarith [mul_nonneg h0 (sq_nonneg u2)]
  have N1' : 1 + δ * u2 ^ 2 ≤ 1 + δ := by nlinarith [mul_le_mul_of_nonneg_left bu h0]
  have N2 : 1 ≤ 1 + δ * w2 ^ 2 := by nlinarith [mul_nonneg h0 (sq_nonneg w2)]
  have N2' : 1 + δ * w2 ^ 2 ≤ 1 + δ := by nlinarith [mul_le_mul_of_nonneg_left bw h0]
  have k1 : |κ - 1| ≤ 1.0103 * δ := by
    have e : κ - 1 = ((1 + δ * u2 ^ 2) - (1 + δ' * x2 ^ 2)) / (1 + δ' * x2 ^ 2) := by rw [hκ]; field_simp
    rw [e, abs_div, abs_of_pos (by linarith : 0 < 1 + δ' * x2 ^ 2), div_le_iff₀ (by linarith)]
    have : |(1 + δ * u2 ^ 2) - (1 + δ' * x2 ^ 2)| ≤ 1.0103 * δ := by
      rw [abs_le]; constructor <;> norm_num at D1' ⊢ <;> linarith
    have := mul_le_mul_of_nonneg_left D1 (show 0 ≤ 1.0103 * δ by positivity)
    linarith
  have kκ : |κ| ≤ 1.0103 := by
    have p : 0 ≤ κ := by rw [hκ]; exact div_nonneg (by linarith) (by linarith)
    rw [abs_of_nonneg p, hκ, div_le_iff₀ (by linarith)]
    norm_num at h1 ⊢
    linarith
  have k2 : |κ - K| ≤ 2 * δ * Y + 2.07 * δ * X := by
    have e : κ - K = ((1 + δ * u2 ^ 2) - (1 + δ * w2 ^ 2)) / (1 + δ' * x2 ^ 2) +
        (1 + δ * w2 ^ 2) / (1 + δ' * y2 ^ 2) * (((1 + δ' * y2 ^ 2) - (1 + δ' * x2 ^ 2)) / (1 + δ' * x2 ^ 2)) := by
      have z1 : (1 + δ' * x2 ^ 2) ≠ 0 := by linarith
      have z2 : (1 + δ' * y2 ^ 2) ≠ 0 := by linarith
      rw [hκ, hK]; field_simp; ring
    have q1 : |((1 + δ * u2 ^ 2) - (1 + δ * w2 ^ 2)) / (1 + δ' * x2 ^ 2)| ≤ 2 * δ * Y := by
      rw [abs_div, abs_of_pos (by linarith : 0 < 1 + δ' * x2 ^ 2)]
      refine (div_le_self (abs_nonneg _) D1).trans ?_
      rw [show (1 + δ * u2 ^ 2) - (1 + δ * w2 ^ 2) = δ * ((u2 + w2) * (u2 - w2)) by ring, abs_mul, abs_of_nonneg h0, abs_mul]
      have := mul_le_mul ((abs_add_le u2 w2).trans (add_le_add au aw)) e2 (abs_nonneg _) (by norm_num)
      have := mul_le_mul_of_nonneg_left this h0
      linarith
    have q2 : |((1 + δ' * y2 ^ 2) - (1 + δ' * x2 ^ 2)) / (1 + δ' * x2 ^ 2)| ≤ 2 * (1.0103 * δ) * X := by
      rw [abs_div, abs_of_pos (by linarith : 0 < 1 + δ' * x2 ^ 2)]
      refine (div_le_self (abs_nonneg _) D1).trans ?_
      rw [show (1 + δ' * y2 ^ 2) - (1 + δ' * x2 ^ 2) = -(δ' * ((x2 + y2) * (x2 - y2))) by ring, abs_neg, abs_mul, abs_of_nonneg hδ0, abs_mul]
      have s := mul_le_mul ((abs_add_le x2 y2).trans (add_le_add ax ay)) d2 (abs_nonneg _) (by norm_num)
      have := mul_le_mul hδ1 s (by positivity) (by positivity)
      linarith
    have q3 : |(1 + δ * w2 ^ 2) / (1 + δ' * y2 ^ 2)| ≤ 1.0103 := by
      rw [abs_of_nonneg (div_nonneg (by linarith) (by linarith)), div_le_iff₀ (by linarith)]
      norm_num at h1 ⊢
      linarith
    rw [e]
    refine (abs_add_le _ _).trans ?_
    rw [abs_mul]
    have q4 := mul_le_mul q3 q2 (abs_nonneg _) (by norm_num)
    have q5 : 0 ≤ δ * X := by positivity
    refine (add_le_add q1 q4).trans ?_
    rw [show 2 * δ * Y + 1.0103 * (2 * (1.0103 * δ) * X) = 2 * δ * Y + 2.04141218 * (δ * X) by ring, mul_assoc 2.07]
    gcongr
    norm_num
  exact ⟨k1, kκ, k2⟩

theorem stable_alg {δ x0 x1 x2 y0 y1 y2 u0 u1 u2 w0 w1 w2 κ K X Y : ℝ} (h0 : 0 ≤ δ) (h1 : δ ≤ 0.0103)
    (hx : x0 ^ 2 + x1 ^ 2 + (1 + δ) * x2 ^ 2 = 1) (hy : y0 ^ 2 + y1 ^ 2 + (1 + δ) * y2 ^ 2 = 1)
    (hu : u0 ^ 2 + u1 ^ 2 + u2 ^ 2 = 1) (hw : w0 ^ 2 + w1 ^ 2 + w2 ^ 2 = 1)
    (hκ : κ = (1 + δ * u2 ^ 2) / (1 + δ * (1 + δ) * x2 ^ 2)) (hK : K = (1 + δ * w2 ^ 2) / (1 + δ * (1 + δ) * y2 ^ 2))
    (X0 : 0 ≤ X) (hX : X ^ 2 = (x0 - y0) ^ 2 + (x1 - y1) ^ 2 + (x2 - y2) ^ 2) (Y0 : 0 ≤ Y)
    (hY : Y ^ 2 = (u0 - w0) ^ 2 + (u1 - w1) ^ 2 + (u2 - w2) ^ 2) :
    |(u0 - w0) * (κ * x0 - K * y0 - (x0 - y0)) + (u1 - w1) * (κ * x1 - K * y1 - (x1 - y1)) +
      (u2 - w2) * ((1 + δ) * (κ * x2 - K * y2) - (x2 - y2))| ≤ 4.2 * δ * (X ^ 2 + Y ^ 2) := by
  have bx := (comp_le h0 hx).1
  have by2 := (comp_le h0 hy).1
  have bu := (comp_le (δ := 0) le_rfl (by simpa using hu)).1
  have bw := (comp_le (δ := 0) le_rfl (by simpa using hw)).1
  have ay : |y2| ≤ 1 := abs_le_one_iff_mul_self_le_one.2 (by rw [← pow_two]; exact by2)
  have d2 : |x2 - y2| ≤ X := by
    refine abs_le_of_sq_le_sq ?_ X0
    rw [hX]; exact le_add_of_nonneg_left (by positivity)
  have e2 : |u2 - w2| ≤ Y := by
    refine abs_le_of_sq_le_sq ?_ Y0
    rw [hY]; exact le_add_of_nonneg_left (by positivity)
  have S1 : |(x0 - y0) * (u0 - w0) + (x1 - y1) * (u1 - w1) + (x2 - y2) * (u2 - w2)| ≤ X * Y := by
    refine abs_le_of_sq_le_sq ?_ (by positivity)
    rw [mul_pow, hX, hY]
    exact dot_sq_le _ _ _ _ _ _
  have S2 : |y0 * (u0 - w0) + y1 * (u1 - w1) + y2 * (u2 - w2)| ≤ Y := by
    refine abs_le_of_sq_le_sq ?_ Y0
    have c : (y0 * (u0 - w0) + y1 * (u1 - w1) + y2 * (u2 - w2)) ^ 2 ≤ (y0 ^ 2 + y1 ^ 2 + y2 ^ 2) * Y ^ 2 := by
      rw [hY]
      exact dot_sq_le _ _ _ _ _ _
    exact c.trans (mul_le_of_le_one_left (sq_nonneg Y) (comp_le h0 hy).2)
  obtain ⟨k1, kκ, k2⟩ := stable_factor h0 h1 bx by2 bu bw d2 e2 hκ hK
  have e : (u0 - w0) * (κ * x0 - K * y0 - (x0 - y0)) + (u1 - w1) * (κ * x1 - K * y1 - (x1 - y1)) +
      (u2 - w2) * ((1 + δ) * (κ * x2 - K * y2) - (x2 - y2)) =
      (κ - 1) * ((x0 - y0) * (u0 - w0) + (x1 - y1) * (u1 - w1) + (x2 - y2) * (u2 - w2)) +
      (κ - K) * (y0 * (u0 - w0) + y1 * (u1 - w1) + y2 * (u2 - w2)) +
      δ * ((κ * (x2 - y2)) * (u2 - w2)) + δ * (((κ - K) * y2) * (u2 - w2)) := by ring
  rw [e]
  have t1 : |(κ - 1) * ((x0 - y0) * (u0 - w0) + (x1 - y1) * (u1 - w1) + (x2 - y2) * (u2 - w2))| ≤ 1.0103 * δ * (X * Y) := by
    rw [abs_mul]; exact mul_le_mul k1 S1 (abs_nonneg _) (by positivity)
  have t2 : |(κ - K) * (y0 * (u0 - w0) + y1 * (u1 - w1) + y2 * (u2 - w2))| ≤ (2 * δ * Y + 2.07 * δ * X) * Y := by
    rw [abs_mul]; exact mul_le_mul k2 S2 (abs_nonneg _) (by positivity)
  have t3 : |δ * ((κ * (x2 - y2)) * (u2 - w2))| ≤ δ * (1.0103 * X * Y) := by
    rw [abs_mul, abs_of_nonneg h0, abs_mul, abs_mul]
    exact mul_le_mul_of_nonneg_left (mul_le_mul (mul_le_mul kκ d2 (abs_nonneg _) (by norm_num)) e2 (abs_nonneg _) (by positivity)) h0
  have t4 : |δ * (((κ - K) * y2) * (u2 - w2))| ≤ 0.0103 * ((2 * δ * Y + 2.07 * δ * X) * 1 * Y) := by
    rw [abs_mul, abs_of_nonneg h0, abs_mul, abs_mul]
    exact mul_le_mul h1 (mul_le_mul (mul_le_mul k2 ay (abs_nonneg _) (by positivity)) e2 (abs_nonneg _) (by positivity)) (by positivity) (by norm_num)
  exact stable_sum h0 t1 t2 t3 t4

/-- The growth of a quantity that changes at most at the rate `c`. -/
theorem growth {E E' : ℝ → ℝ} {c : ℝ} (h : ∀ t, HasDerivAt E (E' t) t) (hE : ∀ t, |E' t| ≤ c * E t) (t : ℝ) :
    E t ≤ E 0 * Real.exp (c * |t|) := by
  rcases le_total 0 t with h0 | h0
  · have d : ∀ t, HasDerivAt (fun t => E t * Real.exp (-c * t)) ((E' t - c * E t) * Real.exp (-c * t)) t := fun t => by
      have := (h t).mul (((hasDerivAt_id t).const_mul (-c)).exp)
      exact this.congr_deriv (by simp only [id]; ring)
    have a := antitone_of_deriv_nonpos (fun t => (d t).differentiableAt) (fun t => by
      rw [(d t).deriv]
      exact mul_nonpos_of_nonpos_of_nonneg (by linarith [(abs_le.1 (hE t)).2]) (Real.exp_pos _).le) h0
    simp only [mul_zero, Real.exp_zero, mul_one] at a
    rw [abs_of_nonneg h0]
    calc E t = E t * Real.exp (-c * t) * Real.exp (c * t) := by rw [mul_assoc, ← Real.exp_add]; simp
      _ ≤ _ := mul_le_mul_of_nonneg_right a (Real.exp_pos _).le
  · have d : ∀ t, HasDerivAt (fun t => E t * Real.exp (c * t)) ((E' t + c * E t) * Real.exp (c * t)) t := fun t => by
      have := (h t).mul (((hasDerivAt_id t).const_mul c).exp)
      exact this.congr_deriv (by simp only [id]; ring)
    have a := monotone_of_deriv_nonneg (fun t => (d t).differentiableAt) (fun t => by
      rw [(d t).deriv]
      exact mul_nonneg (by linarith [(abs_le.1 (hE t)).1]) (Real.exp_pos _).le) h0
    simp only [mul_zero, Real.exp_zero, mul_one] at a
    rw [abs_of_nonpos h0]
    calc E t = E t * Real.exp (c * t) * Real.exp (c * -t) := by rw [mul_assoc, ← Real.exp_add]; simp
      _ ≤ _ := mul_le_mul_of_nonneg_right a (Real.exp_pos _).le

/-- Two geodesics of a nearly spherical ellipsoid separate, along their whole length, at most by a factor near one. -/
theorem IsGeodesic.stable {a b : ℝ} (hb : 0 < b) (hab : b ≤ a) (hfl : a ^ 2 / b ^ 2 - 1 ≤ 0.0103) {γ η : ℝ → E3} (h : IsGeodesic a b γ)
    (k : IsGeodesic a b η) (t : ℝ) :
    ‖γ t - η t‖ ^ 2 / a ^ 2 + ‖deriv γ t - deriv η t‖ ^ 2 ≤
      (‖γ 0 - η 0‖ ^ 2 / a ^ 2 + ‖deriv γ 0 - deriv η 0‖ ^ 2) * Real.exp (8.4 * (a ^ 2 / b ^ 2 - 1) / a * |t|) := by
  have ha : 0 < a := lt_of_lt_of_le hb hab
  set δ := a ^ 2 / b ^ 2 - 1 with hδ
  have hδ0 : 0 ≤ δ := by
    rw [hδ, sub_nonneg, one_le_div (by positivity)]
    exact pow_le_pow_left₀ hb.le hab 2
  have hab2 : a ^ 2 = (1 + δ) * b ^ 2 := by rw [hδ]; field_simp; ring
  have acc : ∀ {γ : ℝ → E3}, IsGeodesic a b γ → ∀ t,
      (γ t 0 / a) ^ 2 + (γ t 1 / a) ^ 2 + (1 + δ) * (γ t 2 / a) ^ 2 = 1 ∧ deriv γ t 0 ^ 2 + deriv γ t 1 ^ 2 + deriv γ t 2 ^ 2 = 1 ∧
      deriv (deriv γ) t 0 = -((1 + δ * deriv γ t 2 ^ 2) / (1 + δ * (1 + δ) * (γ t 2 / a) ^ 2) * (γ t 0 / a)) / a ∧
      deriv (deriv γ) t 1 = -((1 + δ * deriv γ t 2 ^ 2) / (1 + δ * (1 + δ) * (γ t 2 / a) ^ 2) * (γ t 1 / a)) / a ∧
      deriv (deriv γ) t 2 = -((1 + δ) * ((1 + δ * deriv γ t 2 ^ 2) / (1 + δ * (1 + δ) * (γ t 2 / a) ^ 2) * (γ t 2 / a))) / a := by
    intro γ h t
    have hs : (γ t 0 / a) ^ 2 + (γ t 1 / a) ^ 2 + (1 + δ) * (γ t 2 / a) ^ 2 = 1 := by
      have := h.surface t
      unfold OnEllipsoid at this
      refine Eq.trans ?_ this
      rw [hδ]; field_simp; ring
    have hv : deriv γ t 0 ^ 2 + deriv γ t 1 ^ 2 + deriv γ t 2 ^ 2 = 1 := by rw [← norm_sq3, h.unit_speed, one_pow]
    have f1 : form a b (deriv γ t) = (1 + δ * deriv γ t 2 ^ 2) / a ^ 2 := by
      rw [← hv, form, show deriv γ t 2 ^ 2 / b ^ 2 = (1 + δ) * deriv γ t 2 ^ 2 / a ^ 2 by rw [hδ]; field_simp; ring]
      ring
    have f2 : ‖half_grad a b (γ t)‖ ^ 2 = (1 + δ * (1 + δ) * (γ t 2 / a) ^ 2) / a ^ 2 := by
      have : 1 + δ * (1 + δ) * (γ t 2 / a) ^ 2 = (γ t 0 / a) ^ 2 + (γ t 1 / a) ^ 2 + (1 + δ) ^ 2 * (γ t 2 / a) ^ 2 := by linear_combination -hs
      rw [norm_half_grad, this, hδ]; field_simp; ring
    have hacc := h.accel hb hab t
    rw [f1, f2, div_div_div_cancel_right₀ (by positivity)] at hacc
    refine ⟨hs, hv, ?_, ?_, ?_⟩
    · rw [hacc]; simp [half_grad]; ring
    · rw [hacc]; simp [half_grad]; ring
    · rw [hacc]; simp only [half_grad]; simp
      rw [show γ t 2 / b ^ 2 = (1 + δ) * γ t 2 / a ^ 2 by rw [hδ]; field_simp; ring]
      ring
  set E : ℝ → ℝ := fun t => ‖γ t - η t‖ ^ 2 / a ^ 2 + ‖deriv γ t - deriv η t‖ ^ 2 with hE
  have hEc : E = fun t => ((γ t 0 - η t 0) ^ 2 + (γ t 1 - η t 1) ^ 2 + (γ t 2 - η t 2) ^ 2) / a ^ 2 +
      ((deriv γ t 0 - deriv η t 0) ^ 2 + (deriv γ t 1 - deriv η t 1) ^ 2 + (deriv γ t 2 - deriv η t 2) ^ 2) := by
    funext t
    simp only [hE, norm_sq3]
    simp
  refine growth (E := E) (E' := fun t => (2 * (γ t 0 - η t 0) * (deriv γ t 0 - deriv η t 0) + 2 * (γ t 1 - η t 1) * (deriv γ t 1 - deriv η t 1) +
      2 * (γ t 2 - η t 2) * (deriv γ t 2 - deriv η t 2)) / a ^ 2 +
      (2 * (deriv γ t 0 - deriv η t 0) * (deriv (deriv γ) t 0 - deriv (deriv η) t 0) +
      2 * (deriv γ t 1 - deriv η t 1) * (deriv (deriv γ) t 1 - deriv (deriv η) t 1) +
      2 * (deriv γ t 2 - deriv η t 2) * (deriv (deriv γ) t 2 - deriv (deriv η) t 2))) (fun t => ?_) (fun t => ?_) t
  · rw [hEc]
    have g := fun i => hasDerivAt_coord (h.differentiable t).hasDerivAt i
    have g' := fun i => hasDerivAt_coord (k.differentiable t).hasDerivAt i
    have f := fun i => hasDerivAt_coord (h.differentiable' t).hasDerivAt i
    have f' := fun i => hasDerivAt_coord (k.differentiable' t).hasDerivAt i
    have d := (((((g 0).sub (g' 0)).pow 2).add (((g 1).sub (g' 1)).pow 2)).add (((g 2).sub (g' 2)).pow 2)).div_const (a ^ 2) |>.add
      (((((f 0).sub (f' 0)).pow 2).add (((f 1).sub (f' 1)).pow 2)).add (((f 2).sub (f' 2)).pow 2))
    refine d.congr_deriv ?_
    simp
  · obtain ⟨a1, a2, a3, a4, a5⟩ := acc h t
    obtain ⟨b1, b2, b3, b4, b5⟩ := acc k t
    have Xs : ((‖γ t - η t‖ / a)) ^ 2 = (γ t 0 / a - η t 0 / a) ^ 2 + (γ t 1 / a - η t 1 / a) ^ 2 + (γ t 2 / a - η t 2 / a) ^ 2 := by
      rw [div_pow, norm_sq3]; simp; field_simp
    have Ys : ‖deriv γ t - deriv η t‖ ^ 2 = (deriv γ t 0 - deriv η t 0) ^ 2 + (deriv γ t 1 - deriv η t 1) ^ 2 + (deriv γ t 2 - deriv η t 2) ^ 2 := by
      rw [norm_sq3]; simp
    have key := stable_alg hδ0 hfl a1 b1 a2 b2 rfl rfl (by positivity) Xs (norm_nonneg _) Ys
    rw [a3, a4, a5, b3, b4, b5]
    rw [div_pow ‖γ t - η t‖] at key
    set κ := (1 + δ * deriv γ t 2 ^ 2) / (1 + δ * (1 + δ) * (γ t 2 / a) ^ 2) with hκ
    set K := (1 + δ * deriv η t 2 ^ 2) / (1 + δ * (1 + δ) * (η t 2 / a) ^ 2) with hK
    have e : 8.4 * δ / a * E t = 2 / a * (4.2 * δ * (‖γ t - η t‖ ^ 2 / a ^ 2 + ‖deriv γ t - deriv η t‖ ^ 2)) := by
      simp only [hE]; ring
    rw [e]
    refine le_trans (le_of_eq ?_) (mul_le_mul_of_nonneg_left key (by positivity))
    have e2 : ∀ z, 2 / a * |z| = |2 / a * z| := fun z => by rw [abs_mul, abs_of_nonneg (show 0 ≤ 2 / a by positivity)]
    rw [e2, ← abs_neg]
    congr 1
    field_simp
    ring

/-- On an ellipsoid flattened at most by one half percent, over a distance of at most three and a half times the semi-major axis. -/
theorem IsGeodesic.close {a b : ℝ} (hb : 0 < b) (hab : b ≤ a) (hfl : 0.995 ≤ b / a) {γ η : ℝ → E3} (h : IsGeodesic a b γ)
    (k : IsGeodesic a b η) {x y : ℝ} (hx : ‖γ 0 - η 0‖ ≤ x * a) (hy : ‖deriv γ 0 - deriv η 0‖ ≤ y) {t : ℝ} (ht : |t| ≤ 3.5 * a) :
    ‖γ t - η t‖ ≤ 1.17 * (x + y) * a ∧ ‖deriv γ t - deriv η t‖ ≤ 1.17 * (x + y) := by
  have ha : 0 < a := lt_of_lt_of_le hb hab
  have hx0 : 0 ≤ x := by
    by_contra hc
    have := (norm_nonneg _).trans hx
    nlinarith
  have hy0 : 0 ≤ y := (norm_nonneg _).trans hy
  have hδ : a ^ 2 / b ^ 2 - 1 ≤ 0.01008 := by
    rw [le_div_iff₀ ha] at hfl
    rw [sub_le_iff_le_add, div_le_iff₀ (by positivity)]
    have := pow_le_pow_left₀ (by positivity) hfl 2
    rw [mul_pow] at this
    norm_num at this ⊢
    nlinarith [sq_nonneg a]
  have hδ0 : 0 ≤ a ^ 2 / b ^ 2 - 1 := by
    rw [sub_nonneg, one_le_div (by positivity)]
    exact pow_le_pow_left₀ hb.le hab 2
  have hs := h.stable hb hab (hδ.trans (by norm_num)) k t
  have hexp : Real.exp (8.4 * (a ^ 2 / b ^ 2 - 1) / a * |t|) ≤ 1.17 ^ 2 := by
    have h1 : 8.4 * (a ^ 2 / b ^ 2 - 1) / a * |t| ≤ 0.3 := by
      have h2 : |t| / a ≤ 3.5 := by rwa [div_le_iff₀ ha]
      have h3 := mul_le_mul hδ h2 (by positivity) (by norm_num)
      rw [show 8.4 * (a ^ 2 / b ^ 2 - 1) / a * |t| = 8.4 * ((a ^ 2 / b ^ 2 - 1) * (|t| / a)) by ring]
      norm_num at h3 ⊢
      linarith
    refine (Real.exp_le_exp.2 h1).trans ?_
    refine le_of_pow_le_pow_left₀ (n := 10) (by norm_num) (by norm_num) ?_
    rw [← Real.exp_nat_mul, show ((10 : ℕ) : ℝ) * 0.3 = (3 : ℕ) * 1 by norm_num, Real.exp_nat_mul]
    refine (pow_le_pow_left₀ (Real.exp_pos _).le Real.exp_one_lt_d9.le 3).trans ?_
    norm_num
  have h0 : ‖γ 0 - η 0‖ ^ 2 / a ^ 2 + ‖deriv γ 0 - deriv η 0‖ ^ 2 ≤ (x + y) ^ 2 := by
    have h1 : ‖γ 0 - η 0‖ ^ 2 / a ^ 2 ≤ x ^ 2 := by
      rw [div_le_iff₀ (by positivity), ← mul_pow]
      exact pow_le_pow_left₀ (norm_nonneg _) hx 2
    have h2 := pow_le_pow_left₀ (norm_nonneg _) hy 2
    nlinarith [mul_nonneg hx0 hy0]
  have hE : ‖γ t - η t‖ ^ 2 / a ^ 2 + ‖deriv γ t - deriv η t‖ ^ 2 ≤ (1.17 * (x + y)) ^ 2 := by
    refine hs.trans ((mul_le_mul h0 hexp (Real.exp_pos _).le (by positivity)).trans (le_of_eq ?_))
    ring
  have p1 : 0 ≤ ‖γ t - η t‖ ^ 2 / a ^ 2 := by positivity
  have p2 : 0 ≤ ‖deriv γ t - deriv η t‖ ^ 2 := by positivity
  constructor
  · refine le_of_sq_le_sq ?_ (by positivity)
    rw [mul_pow, ← div_le_iff₀ (by positivity)]
    linarith
  · exact le_of_sq_le_sq (by linarith) (by positivity)

end Geo.Spec
