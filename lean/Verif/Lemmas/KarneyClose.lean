import Verif.Lemmas.KarneyEndRound
import Verif.Lemmas.TransverseReturn

/-! Distances between the geodesic of the Karney solver in IEEE arithmetic and its start and its end. -/

namespace Geo
open XR Spec Geo.Frame

theorem arg_reduced {a b φ : ℝ} (hb : 0 < b) (hab : b ≤ a) (h1 : -(Real.pi / 2) < φ) (h2 : φ < Real.pi / 2) :
    Complex.arg ⟨b / a * Real.cos (Real.arctan (b / a * Real.tan φ)), Real.sin (Real.arctan (b / a * Real.tan φ))⟩ = φ := by
  have ha : 0 < a := lt_of_lt_of_le hb hab
  have hba : 0 < b / a := by positivity
  have hc : 0 < Real.cos (Real.arctan (b / a * Real.tan φ)) := Real.cos_arctan_pos _
  have := lat_of_tan hb ha hc.le
  rw [tan_fin hc.ne', div_fin _ hba.ne', atan_fin] at this
  rw [← XR.fin.inj this, Real.tan_arctan, mul_div_cancel_left₀ _ hba.ne', Real.arctan_tan h1 h2]

theorem cos_reduced {a b φ : ℝ} (hb : 0 < b) (hab : b ≤ a) (hc : 0 < Real.cos φ) :
    Real.cos φ ≤ Real.cos (Real.arctan (b / a * Real.tan φ)) := by
  have ha : 0 < a := lt_of_lt_of_le hb hab
  rw [Real.cos_arctan, le_div_iff₀ (by positivity), Real.tan_eq_sin_div_cos]
  have hba : (b / a) ^ 2 ≤ 1 := pow_le_one₀ (by positivity) ((div_le_one ha).2 hab)
  have q := Real.sin_sq_add_cos_sq φ
  nth_rw 1 [← abs_of_pos hc]
  rw [← Real.sqrt_sq_eq_abs, ← Real.sqrt_mul (sq_nonneg _)]
  refine Real.sqrt_le_one.2 ?_
  rw [show Real.cos φ ^ 2 * (1 + (b / a * (Real.sin φ / Real.cos φ)) ^ 2) = Real.cos φ ^ 2 + (b / a) ^ 2 * Real.sin φ ^ 2 by field_simp]
  nlinarith [sq_nonneg (Real.sin φ)]

/-- The geodetic latitude has the smaller cosine. -/
theorem Bessel.Reduced.cos_le {a b φ β : ℝ} (hb : 0 < b) (hab : b ≤ a) (h : Bessel.Reduced a b φ β) (hc : 0 ≤ Real.cos φ) :
    Real.cos φ ≤ Real.cos β := by
  have ha : 0 < a := lt_of_lt_of_le hb hab
  have q := Real.sin_sq_add_cos_sq φ
  have h2 : b ^ 2 ≤ a ^ 2 := pow_le_pow_left₀ hb.le hab 2
  have hp : 0 < a ^ 2 * Real.cos φ ^ 2 + b ^ 2 * Real.sin φ ^ 2 := q_pos ha hb φ
  have hs : Real.sqrt (a ^ 2 * Real.cos φ ^ 2 + b ^ 2 * Real.sin φ ^ 2) ≤ a := by
    refine Real.sqrt_le_iff.2 ⟨ha.le, ?_⟩
    nlinarith [mul_le_mul_of_nonneg_right h2 (sq_nonneg (Real.sin φ))]
  have h1 := h.1
  set S := Real.sqrt (a ^ 2 * Real.cos φ ^ 2 + b ^ 2 * Real.sin φ ^ 2) with hS
  have hS0 : 0 < S := Real.sqrt_pos.2 hp
  have : a ≤ a ^ 2 / S := by rw [le_div_iff₀ hS0]; nlinarith
  have := mul_le_mul_of_nonneg_right this hc
  rw [h1] at this
  exact le_of_mul_le_mul_left this ha

theorem arg_lat_near {r β β' d d' σ E : ℝ} (h0 : 0.995 ≤ r) (h1 : r ≤ 1) (hc : 0 ≤ Real.cos β) (hc' : 0 ≤ Real.cos β')
    (kc : |Real.cos β' - Real.cos β| ≤ d) (ks : |Real.sin β' - Real.sin β| ≤ d') (hd : d ^ 2 + d' ^ 2 ≤ (σ * 0.995) ^ 2) (hσ : 0 ≤ σ)
    (hσ1 : σ ≤ 1e-6) (hE : 1.001 * σ ≤ E) :
    |Complex.arg ⟨r * Real.cos β', Real.sin β'⟩ - Complex.arg ⟨r * Real.cos β, Real.sin β⟩| ≤ E := by
  have q := Real.sin_sq_add_cos_sq β
  have r0 : 0 ≤ r := le_trans (by norm_num) h0
  have r2 : (0.995 : ℝ) ^ 2 ≤ r ^ 2 := pow_le_pow_left₀ (by norm_num) h0 2
  have r3 : r ^ 2 ≤ 1 := pow_le_one₀ r0 h1
  refine (arg_near (N := 0.995) (σ := σ) (mul_nonneg r0 hc) (mul_nonneg r0 hc') (by norm_num) ?_ ?_ hσ hσ1).1.trans hE
  · rw [mul_pow]
    nlinarith [sq_nonneg (Real.cos β), sq_nonneg (Real.sin β)]
  · refine le_trans ?_ hd
    have q1 : (Real.cos β' - Real.cos β) ^ 2 ≤ d ^ 2 := by rw [← sq_abs]; exact pow_le_pow_left₀ (abs_nonneg _) kc 2
    have q2 : (Real.sin β' - Real.sin β) ^ 2 ≤ d' ^ 2 := by rw [← sq_abs]; exact pow_le_pow_left₀ (abs_nonneg _) ks 2
    rw [← mul_sub, mul_pow]
    nlinarith [sq_nonneg (Real.cos β' - Real.cos β)]

theorem unit_le {x y c s : ℝ} (h : s ^ 2 + c ^ 2 = 1) {d e : ℝ} (hx : |x| ≤ d) (hy : |y| ≤ e) : x * s + y * c ≤ d + e := by
  have hs : |s| ≤ 1 := abs_le_one_iff_mul_self_le_one.2 (by nlinarith [sq_nonneg c])
  have hc : |c| ≤ 1 := abs_le_one_iff_mul_self_le_one.2 (by nlinarith [sq_nonneg s])
  have k1 := mul_le_mul hx hs (abs_nonneg _) ((abs_nonneg _).trans hx)
  have k2 := mul_le_mul hy hc (abs_nonneg _) ((abs_nonneg _).trans hy)
  have k3 := le_abs_self (x * s)
  have k4 := le_abs_self (y * c)
  rw [abs_mul] at k3 k4
  linarith

/-- The start. -/
theorem start_close {a b l β β' α α' : ℝ} (hb : 0 < b) (hab : b ≤ a) (hfl : 0.995 ≤ b / a) (hβ : 0.1 ≤ Real.cos β) (hc' : 0 ≤ Real.cos β')
    (k1 : |Real.cos β' * Real.sin α' - Real.cos β * Real.sin α| ≤ 3.5e-15) (k2 : |Real.cos β' * Real.cos α' - Real.cos β * Real.cos α| ≤ 1.3e-14)
    (k3 : |Real.sin β' - Real.sin β| ≤ 1.3e-14) :
    0.099 ≤ Real.cos β' ∧
    ‖surfacePoint a b l (Complex.arg ⟨b / a * Real.cos β', Real.sin β'⟩) - surfacePoint a b l (Complex.arg ⟨b / a * Real.cos β, Real.sin β⟩)‖ ≤ a * 2.95e-14 ∧
    ‖direction l (Complex.arg ⟨b / a * Real.cos β', Real.sin β'⟩) α' - direction l (Complex.arg ⟨b / a * Real.cos β, Real.sin β⟩) α‖ ≤ 6e-13 := by
  have ha : 0 < a := lt_of_lt_of_le hb hab
  have hβ0 : 0 ≤ Real.cos β := le_trans (by norm_num) hβ
  have q := Real.sin_sq_add_cos_sq α
  have q' := Real.sin_sq_add_cos_sq α'
  have dC : |Real.cos β' - Real.cos β| ≤ 1.65e-14 := by
    have g : ∀ x y : ℝ, x * y ≤ (x ^ 2 + y ^ 2) / 2 := fun x y => by nlinarith [sq_nonneg (x - y)]
    have t1 := unit_le q' k1 k2
    have t2 := unit_le q k1 k2
    have g1 := mul_le_mul_of_nonneg_left (show Real.sin α * Real.sin α' + Real.cos α * Real.cos α' ≤ 1 by linarith [g (Real.sin α) (Real.sin α'), g (Real.cos α) (Real.cos α')]) hβ0
    have g2 := mul_le_mul_of_nonneg_left (show Real.sin α * Real.sin α' + Real.cos α * Real.cos α' ≤ 1 by linarith [g (Real.sin α) (Real.sin α'), g (Real.cos α) (Real.cos α')]) hc'
    have w1 : Real.cos β' - Real.cos β * (Real.sin α * Real.sin α' + Real.cos α * Real.cos α') ≤ 3.5e-15 + 1.3e-14 := by
      refine le_trans (le_of_eq ?_) t1
      linear_combination -Real.cos β' * q'
    have w2 : Real.cos β' * (Real.sin α * Real.sin α' + Real.cos α * Real.cos α') - Real.cos β ≥ -(3.5e-15 + 1.3e-14) := by
      have t3 := unit_le q (x := -(Real.cos β' * Real.sin α' - Real.cos β * Real.sin α)) (y := -(Real.cos β' * Real.cos α' - Real.cos β * Real.cos α))
        (d := 3.5e-15) (e := 1.3e-14) (by rw [abs_neg]; exact k1) (by rw [abs_neg]; exact k2)
      have e : Real.cos β' * (Real.sin α * Real.sin α' + Real.cos α * Real.cos α') - Real.cos β =
        -(-(Real.cos β' * Real.sin α' - Real.cos β * Real.sin α) * Real.sin α + -(Real.cos β' * Real.cos α' - Real.cos β * Real.cos α) * Real.cos α) := by
        linear_combination Real.cos β * q
      rw [e]
      linarith
    rw [abs_le]
    constructor <;> norm_num at w1 w2 ⊢ <;> linarith
  have step : ∀ u u' : ℝ, |u'| ≤ 1 → ∀ d : ℝ, |Real.cos β' * u' - Real.cos β * u| ≤ d → |u' - u| ≤ 10 * (d + 1.65e-14) := by
    intro u u' hu d hd
    have e : Real.cos β * (u' - u) = (Real.cos β' * u' - Real.cos β * u) - (Real.cos β' - Real.cos β) * u' := by ring
    have t := abs_sub (Real.cos β' * u' - Real.cos β * u) ((Real.cos β' - Real.cos β) * u')
    rw [← e, abs_mul, abs_mul, abs_of_nonneg hβ0] at t
    have t2 := mul_le_mul dC hu (abs_nonneg _) (by norm_num)
    have t3 := mul_le_mul_of_nonneg_right hβ (abs_nonneg (u' - u))
    norm_num at t2 t3 ⊢
    linarith
  have s1 := step _ _ (Real.abs_sin_le_one α') _ k1
  have s2 := step _ _ (Real.abs_cos_le_one α') _ k2
  obtain ⟨r1, -, -, -⟩ := reduced_arg hb hab hβ0
  obtain ⟨r2, -, -, -⟩ := reduced_arg hb hab hc'
  have hφ := arg_lat_near hfl ((div_le_one ha).2 hab) hβ0 hc' dC k3 (σ := 2.12e-14) (E := 2.2e-14) (by norm_num) (by norm_num) (by norm_num) (by norm_num)
  refine ⟨?_, ?_, ?_⟩
  · have := (abs_le.1 dC).1
    norm_num at *
    linarith
  · refine (surface_meridian hb hab r2 r1 dC k3).trans ?_
    exact mul_le_mul_of_nonneg_left (by norm_num) ha.le
  · refine (direction_meridian _ _ _ _ _).trans ?_
    norm_num at s1 s2 hφ ⊢
    linarith

theorem norm_direction (l φ α : ℝ) : ‖direction l φ α‖ = 1 := by
  rw [EuclideanSpace.norm_eq, Real.sqrt_eq_one]
  simp [direction, Fin.sum_univ_three]
  linear_combination Real.cos α ^ 2 * Real.sin φ ^ 2 * Real.sin_sq_add_cos_sq l + Real.cos α ^ 2 * Real.sin_sq_add_cos_sq φ +
    Real.sin α ^ 2 * Real.sin_sq_add_cos_sq l + Real.sin_sq_add_cos_sq α

/-- The end. -/
theorem end_close {a b l₂ l' φ₂ α₂ α' β₂ bt : ℝ} (hb : 0 < b) (hab : b ≤ a) (hfl : 0.995 ≤ b / a) (hc : 0 ≤ Real.cos β₂) (hc' : 0 ≤ Real.cos bt)
    (kc : |Real.cos bt - Real.cos β₂| ≤ 4.1e-14) (ks : |Real.sin bt - Real.sin β₂| ≤ 4.1e-14)
    (kl : Real.cos β₂ * |l₂ - l'| ≤ 1.43e-13) (kα : Real.cos β₂ * |α₂ - α'| ≤ 1.26e-13)
    (kφ : |φ₂ - Complex.arg ⟨b / a * Real.cos bt, Real.sin bt⟩| ≤ 1.3e-15) :
    ‖surfacePoint a b l₂ φ₂ - surfacePoint a b l' (Complex.arg ⟨b / a * Real.cos β₂, Real.sin β₂⟩)‖ ≤ a * 2.27e-13 ∧
    Real.cos β₂ * ‖direction l₂ φ₂ α₂ - direction l' (Complex.arg ⟨b / a * Real.cos β₂, Real.sin β₂⟩) α'‖ ≤ 5.2e-13 ∧
    Real.cos φ₂ ≤ Real.cos β₂ + 6.1e-14 := by
  have ha : 0 < a := lt_of_lt_of_le hb hab
  obtain ⟨r1, p1, p2, -⟩ := reduced_arg hb hab hc
  obtain ⟨r2, -, -, -⟩ := reduced_arg hb hab hc'
  have hφ := arg_lat_near hfl ((div_le_one ha).2 hab) hc hc' kc ks (σ := 5.84e-14) (E := 5.9e-14) (by norm_num) (by norm_num) (by norm_num) (by norm_num)
  set φ' := Complex.arg ⟨b / a * Real.cos β₂, Real.sin β₂⟩ with hφ'
  set φ'' := Complex.arg ⟨b / a * Real.cos bt, Real.sin bt⟩ with hφ''
  have hφ2 : |φ₂ - φ'| ≤ 6.1e-14 := by
    refine (abs_sub_le _ φ'' _).trans ?_
    norm_num at kφ hφ ⊢
    linarith
  have hab2 : a ^ 2 / b ≤ a * 1.01 := by
    rw [le_div_iff₀ ha] at hfl
    rw [div_le_iff₀ hb]
    norm_num at hfl ⊢
    nlinarith
  refine ⟨?_, ?_, ?_⟩
  · have t1 := surfacePoint_lat (l := l₂) (φ := φ'') (φ' := φ₂) hb hab
    have t2 := surface_meridian (l := l₂) hb hab r2 r1 kc ks
    have t3 := surface_parallel (l := l₂) (l' := l') ha.le r1 hc
    have t4 := mul_le_mul hab2 kφ (abs_nonneg _) (by positivity)
    have t5 := mul_le_mul_of_nonneg_left kl ha.le
    have t6 := norm_sub_le_norm_sub_add_norm_sub (surfacePoint a b l₂ φ₂) (surfacePoint a b l₂ φ'') (surfacePoint a b l' φ')
    have t7 := norm_sub_le_norm_sub_add_norm_sub (surfacePoint a b l₂ φ'') (surfacePoint a b l₂ φ') (surfacePoint a b l' φ')
    norm_num at t1 t2 t3 t4 t5 t6 t7 ⊢
    linarith
  · have t1 := direction_sub l₂ l' φ' α'
    have t2 := direction_meridian l₂ φ₂ φ' α₂ α'
    have t3 := abs_cos_sub_le α₂ α'
    have t4 := abs_sin_sub_le α₂ α'
    have t6 := norm_sub_le_norm_sub_add_norm_sub (direction l₂ φ₂ α₂) (direction l₂ φ' α') (direction l' φ' α')
    have t5 : ‖direction l₂ φ₂ α₂ - direction l' φ' α'‖ ≤ 2 * |α₂ - α'| + |l₂ - l'| + 2 * |φ₂ - φ'| := by linarith
    have t7 := mul_le_mul_of_nonneg_left t5 hc
    have t8 := mul_le_mul (Real.cos_le_one β₂) hφ2 (abs_nonneg _) zero_le_one
    norm_num at kl kα t7 t8 ⊢
    linarith
  · have t1 := r1.cos_le hb hab (Real.cos_nonneg_of_neg_pi_div_two_le_of_le p1 p2)
    have t2 := (abs_le.1 ((abs_cos_sub_le φ₂ φ').trans hφ2)).2
    linarith

end Geo
