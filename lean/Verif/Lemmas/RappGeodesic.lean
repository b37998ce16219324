import Verif.Lemmas.InverseOutcome
import Verif.Lemmas.VincentyGeodesic

/-! Rapp's series: size of the corrections, and the arc from the distance. -/

namespace Geo
open XR Spec

namespace Bessel

/-- The periodic part of `rappF`. -/
noncomputable def rappH (x σ : ℝ) : ℝ :=
  rappB2 x / 2 * Real.sin (2 * σ) + rappB4 x / 2 * Real.sin (4 * σ) + rappB6 x / 2 * Real.sin (6 * σ)

theorem rappF_eq (x σ : ℝ) : rappF x σ = rappB0 x * σ + rappH x σ := by rw [rappF, rappH]; ring

theorem sums (P₂ P₄ P₆ m q : ℝ) : P₂ * Real.sin q * Real.cos (2 * m + q) + P₄ * Real.sin (2 * q) * Real.cos (2 * (2 * m + q)) +
    P₆ * Real.sin (3 * q) * Real.cos (3 * (2 * m + q)) =
    (P₂ / 2 * Real.sin (2 * (m + q)) + P₄ / 2 * Real.sin (4 * (m + q)) + P₆ / 2 * Real.sin (6 * (m + q))) -
    (P₂ / 2 * Real.sin (2 * m) + P₄ / 2 * Real.sin (4 * m) + P₆ / 2 * Real.sin (6 * m)) := by
  have h1 := sin_sub_arc 1 m q
  have h2 := sin_sub_arc 2 m q
  have h3 := sin_sub_arc 3 m q
  rw [one_mul, one_mul, show (2 : ℝ) * 1 = 2 by norm_num] at h1
  rw [show (2 : ℝ) * 2 = 4 by norm_num] at h2
  rw [show (2 : ℝ) * 3 = 6 by norm_num] at h3
  linear_combination P₂ * h1 + P₄ * h2 + P₆ * h3

theorem rappSigma_eq (u m σ₀ q : ℝ) : rappSigma u m σ₀ q = σ₀ - (rappH u (m + q) - rappH u m) / rappB0 u := by
  have := sums (rappB2 u / rappB0 u) (rappB4 u / rappB0 u) (rappB6 u / rappB0 u) m q
  rw [rappSigma, rappH, rappH]
  linear_combination -this

theorem rappB0_bounds {x : ℝ} (x0 : 0 ≤ x) (x1 : x ≤ 1 / 20) : 1 ≤ rappB0 x ∧ rappB0 x ≤ 1 + x / 4 := by
  rw [rappB0]
  have h2 : x ^ 2 ≤ 1 / 20 * x := by nlinarith
  have h3 : 0 ≤ x ^ 3 := by positivity
  have h4 : x ^ 4 ≤ 1 / 20 * x ^ 3 := by nlinarith
  have h5 : x ^ 3 ≤ 1 / 20 * x ^ 2 := by nlinarith [sq_nonneg x]
  have h6 : 0 ≤ x ^ 4 := by positivity
  have h7 : 0 ≤ x ^ 2 := by positivity
  constructor <;> linarith

/-- A trigonometric polynomial with small coefficients. -/
theorem trig_lip (P₂ P₄ P₆ x y : ℝ) :
    |(P₂ / 2 * Real.sin (2 * y) + P₄ / 2 * Real.sin (4 * y) + P₆ / 2 * Real.sin (6 * y)) -
     (P₂ / 2 * Real.sin (2 * x) + P₄ / 2 * Real.sin (4 * x) + P₆ / 2 * Real.sin (6 * x))| ≤
    (|P₂| + 2 * |P₄| + 3 * |P₆|) * |y - x| := by
  have := sub_le_of_deriv (F := fun σ => P₂ / 2 * Real.sin (2 * σ) + P₄ / 2 * Real.sin (4 * σ) + P₆ / 2 * Real.sin (6 * σ))
    (P := fun _ => 0) (F' := fun σ => P₂ * Real.cos (2 * σ) + 2 * P₄ * Real.cos (4 * σ) + 3 * P₆ * Real.cos (6 * σ))
    (fun σ => ((((deriv_sin 2 σ).const_mul (P₂ / 2)).add ((deriv_sin 4 σ).const_mul (P₄ / 2))).add
      ((deriv_sin 6 σ).const_mul (P₆ / 2))).congr_deriv (by ring)) (fun σ => hasDerivAt_const σ (0 : ℝ))
    (C := |P₂| + 2 * |P₄| + 3 * |P₆|) (fun σ => ?_) x y
  · simpa using this
  · rw [sub_zero]
    refine (abs_add_three _ _ _).trans ?_
    rw [abs_mul, abs_mul, abs_mul, abs_mul, abs_mul, abs_two, abs_of_nonneg (by norm_num : (0 : ℝ) ≤ 3)]
    have h1 := mul_le_mul_of_nonneg_left (Real.abs_cos_le_one (2 * σ)) (abs_nonneg P₂)
    have h2 := mul_le_mul_of_nonneg_left (Real.abs_cos_le_one (4 * σ)) (abs_nonneg P₄)
    have h3 := mul_le_mul_of_nonneg_left (Real.abs_cos_le_one (6 * σ)) (abs_nonneg P₆)
    linarith

theorem trig_abs (P₂ P₄ P₆ x : ℝ) :
    |P₂ / 2 * Real.sin (2 * x) + P₄ / 2 * Real.sin (4 * x) + P₆ / 2 * Real.sin (6 * x)| ≤ (|P₂| + |P₄| + |P₆|) / 2 := by
  refine (abs_add_three _ _ _).trans ?_
  rw [abs_mul, abs_mul, abs_mul, abs_div, abs_div, abs_div, abs_two]
  have h1 := mul_le_mul_of_nonneg_left (Real.abs_sin_le_one (2 * x)) (abs_nonneg (P₂ / 2))
  have h2 := mul_le_mul_of_nonneg_left (Real.abs_sin_le_one (4 * x)) (abs_nonneg (P₄ / 2))
  have h3 := mul_le_mul_of_nonneg_left (Real.abs_sin_le_one (6 * x)) (abs_nonneg (P₆ / 2))
  rw [abs_div, abs_two] at h1 h2 h3
  linarith

theorem rappB_small {x : ℝ} (x0 : 0 ≤ x) (x1 : x ≤ 1 / 20) :
    |rappB2 x| ≤ x / 4 ∧ |rappB4 x| ≤ x / 2000 ∧ |rappB6 x| ≤ x / 100000 := by
  have h2 : x ^ 2 ≤ 1 / 20 * x := by nlinarith
  have h2' : 0 ≤ x ^ 2 := by positivity
  have h3 : 0 ≤ x ^ 3 := by positivity
  have h5 : x ^ 3 ≤ 1 / 20 * x ^ 2 := by nlinarith [sq_nonneg x]
  have h4 : x ^ 4 ≤ 1 / 20 * x ^ 3 := by nlinarith
  have h6 : 0 ≤ x ^ 4 := by positivity
  rw [rappB2, rappB4, rappB6]
  refine ⟨abs_le.2 ⟨?_, ?_⟩, abs_le.2 ⟨?_, ?_⟩, abs_le.2 ⟨?_, ?_⟩⟩ <;> linarith

theorem rappH_lip {x : ℝ} (x0 : 0 ≤ x) (x1 : x ≤ 1 / 20) (y z : ℝ) : |rappH x z - rappH x y| ≤ 101 / 400 * x * |z - y| := by
  obtain ⟨h1, h2, h3⟩ := rappB_small x0 x1
  refine (trig_lip _ _ _ _ _).trans (mul_le_mul_of_nonneg_right ?_ (abs_nonneg _))
  linarith

theorem rappH_abs {x : ℝ} (x0 : 0 ≤ x) (x1 : x ≤ 1 / 20) (y : ℝ) : |rappH x y| ≤ 51 / 400 * x := by
  obtain ⟨h1, h2, h3⟩ := rappB_small x0 x1
  refine (trig_abs _ _ _ _).trans ?_
  linarith

/-- The arc from the distance, when the arc is the last iterate and `q` the one before. -/
theorem rapp_arc {a b s0 c0 x m s σ q δ : ℝ} (hb : 0 < b) (hab : b ≤ a) (h1 : s0 ^ 2 + c0 ^ 2 = 1)
    (hx : x = c0 ^ 2 * ((a ^ 2 - b ^ 2) / b ^ 2)) (hf : (a - b) / a ≤ 1 / 50) (hδ : |σ - q| ≤ δ)
    (hσ : σ = rappSigma x m (s / (b * rappB0 x)) q) :
    |σ| ≤ |s| / b + 1 / 75 ∧
    |T a b s0 c0 (m + σ) - T a b s0 c0 m - s| ≤ ((a - b) / a) ^ 4 * (1 / 30 * |s| + 1 / 2250 * a) +
      53 / 100 * a * ((a - b) / a) * δ ∧ |s / b - rappB0 x * σ| ≤ 13 / 1000 * (|σ| + δ) := by
  have ha : 0 < a := lt_of_lt_of_le hb hab
  obtain ⟨x0, x1, x2, x3⟩ := x_facts hb hab h1 hx hf
  obtain ⟨B0, B1⟩ := rappB0_bounds x0 x1
  set f := (a - b) / a with hfd
  have f0 : 0 ≤ f := div_nonneg (by linarith) ha.le
  rw [rappSigma_eq] at hσ
  have hH := rappH_lip x0 x1 (m + σ) (m + q)
  have hH0 := rappH_lip x0 x1 m (m + q)
  have hH1 := rappH_abs x0 x1 (m + q)
  have hH2 := rappH_abs x0 x1 m
  have hbA : 0 < b * rappB0 x := by positivity
  have hdiv : |(rappH x (m + q) - rappH x m) / rappB0 x| ≤ |rappH x (m + q) - rappH x m| := by
    rw [abs_div, abs_of_pos (by linarith : 0 < rappB0 x)]
    exact div_le_self (abs_nonneg _) B0
  have harc : |σ| ≤ |s| / b + 1 / 75 := by
    rw [hσ]
    refine (abs_sub _ _).trans ?_
    have e1 : |s / (b * rappB0 x)| ≤ |s| / b := by
      rw [abs_div, abs_of_pos hbA]
      exact div_le_div_of_nonneg_left (abs_nonneg _) hb (by nlinarith)
    have e2 := abs_sub (rappH x (m + q)) (rappH x m)
    linarith
  have hs : s = b * (rappB0 x * σ + (rappH x (m + q) - rappH x m)) := by
    have : σ * rappB0 x = s / b - (rappH x (m + q) - rappH x m) := by
      rw [hσ]; field_simp
    rw [mul_comm (rappB0 x), this]; field_simp; ring
  refine ⟨harc, ?_, ?_⟩
  · have hd := rapp_dist hb hab h1 hx hf m (m + σ)
    rw [show m + σ - m = σ by ring] at hd
    have e : T a b s0 c0 (m + σ) - T a b s0 c0 m - s =
        ((T a b s0 c0 (m + σ) - T a b s0 c0 m) - (b * rappF x (m + σ) - b * rappF x m)) -
        b * (rappH x (m + q) - rappH x (m + σ)) := by
      simp only [rappF_eq]
      linear_combination -hs
    rw [e]
    refine (abs_sub _ _).trans (add_le_add ?_ ?_)
    · refine hd.trans ?_
      calc b * (1 / 30 * f ^ 4) * |σ| ≤ b * (1 / 30 * f ^ 4) * (|s| / b + 1 / 75) := by gcongr
        _ = f ^ 4 * (1 / 30 * |s| + 1 / 2250 * b) := by field_simp; ring
        _ ≤ _ := by gcongr
    · rw [abs_mul, abs_of_pos hb]
      have hδ0 : 0 ≤ δ := (abs_nonneg _).trans hδ
      rw [show m + q - (m + σ) = -(σ - q) by ring, abs_neg] at hH
      calc b * _ ≤ a * (101 / 400 * x * δ) := mul_le_mul hab (hH.trans (by gcongr)) (abs_nonneg _) ha.le
        _ ≤ a * (101 / 400 * (207 / 100 * f) * δ) := by gcongr
        _ = (101 / 400 * (207 / 100)) * (a * f * δ) := by ring
        _ ≤ 53 / 100 * (a * f * δ) := by gcongr; norm_num
        _ = _ := by ring
  · have e : s / b - rappB0 x * σ = rappH x (m + q) - rappH x m := by
      rw [hs, mul_div_cancel_left₀ _ hb.ne']; ring
    rw [e]
    rw [add_sub_cancel_left] at hH0
    have hq : |q| ≤ |σ| + δ := by
      have := abs_sub_abs_le_abs_sub q σ
      rw [abs_sub_comm q σ] at this
      linarith
    calc _ ≤ 101 / 400 * x * |q| := hH0
      _ ≤ 101 / 400 * (1 / 20) * (|σ| + δ) := by gcongr
      _ ≤ _ := by nlinarith [abs_nonneg σ, abs_nonneg q]

theorem rappA_small {f K : ℝ} (f0 : 0 ≤ f) (f1 : f ≤ 1 / 50) (k0 : 0 ≤ K) (k1 : K ≤ 1) :
    |rappA2 f K| ≤ 27 / 100 * f ∧ |rappA4 f K| ≤ f / 100 ∧ |rappA6 f K| ≤ f / 1000 := by
  have hk2 : K ^ 2 ≤ 1 := by nlinarith
  have hk3 : K ^ 3 ≤ 1 := by nlinarith [mul_nonneg k0 k0]
  have h2 : f ^ 2 ≤ 1 / 50 * f := by nlinarith
  have h3 : f ^ 3 ≤ 1 / 2500 * f := by nlinarith [mul_nonneg f0 f0]
  have e1 : f * K ≤ f := by nlinarith
  have p : ∀ n m : ℕ, 0 ≤ f ^ n * K ^ m := fun n m => by positivity
  have e : ∀ n m : ℕ, f ^ n * K ^ m ≤ f ^ n := fun n m => by
    have : K ^ m ≤ 1 := pow_le_one₀ k0 k1
    have h : 0 ≤ f ^ n := by positivity
    nlinarith
  have q1 := e 1 1
  have q2 := e 2 1
  have q3 := e 3 1
  have q4 := e 2 2
  have q5 := e 3 2
  have q6 := e 3 3
  have p1 := p 1 1
  have p2 := p 2 1
  have p3 := p 3 1
  have p4 := p 2 2
  have p5 := p 3 2
  have p6 := p 3 3
  simp only [pow_one] at *
  refine ⟨?_, ?_, ?_⟩
  · rw [show rappA2 f K = 1 / 4 * (f * K) + 1 / 4 * (f ^ 2 * K) + 1 / 4 * (f ^ 3 * K) - 1 / 4 * (f ^ 2 * K ^ 2) -
      9 / 16 * (f ^ 3 * K ^ 2) + 75 / 256 * (f ^ 3 * K ^ 3) by rw [rappA2]; ring]
    exact abs_le.2 ⟨by linarith, by linarith⟩
  · rw [show rappA4 f K = 1 / 32 * (f ^ 2 * K ^ 2) + 9 / 128 * (f ^ 3 * K ^ 2) - 15 / 256 * (f ^ 3 * K ^ 3) by rw [rappA4]; ring]
    exact abs_le.2 ⟨by linarith, by linarith⟩
  · rw [show rappA6 f K = 5 / 768 * (f ^ 3 * K ^ 3) by rw [rappA6]; ring]
    exact abs_le.2 ⟨by linarith, by linarith⟩

/-- The excess, when its periodic terms are taken at `q` instead of `σ`. -/
theorem rappExcess_near {f sa m σ q : ℝ} (f0 : 0 ≤ f) (f1 : f ≤ 1 / 50) (hs : |sa| ≤ 1) :
    |rappExcess f sa m σ q - (f * sa * rappL f (1 - sa ^ 2) (m + σ) - f * sa * rappL f (1 - sa ^ 2) m)| ≤ f * |σ - q| := by
  have hK0 : 0 ≤ 1 - sa ^ 2 := by rw [← sq_abs]; nlinarith [abs_nonneg sa]
  obtain ⟨a1, a2, a3⟩ := rappA_small f0 f1 hK0 (by nlinarith [sq_nonneg sa])
  have e := sums (rappA2 f (1 - sa ^ 2)) (rappA4 f (1 - sa ^ 2)) (rappA6 f (1 - sa ^ 2)) m q
  have hl := trig_lip (rappA2 f (1 - sa ^ 2)) (rappA4 f (1 - sa ^ 2)) (rappA6 f (1 - sa ^ 2)) (m + σ) (m + q)
  rw [show m + q - (m + σ) = -(σ - q) by ring, abs_neg] at hl
  have : rappExcess f sa m σ q - (f * sa * rappL f (1 - sa ^ 2) (m + σ) - f * sa * rappL f (1 - sa ^ 2) m) =
      f * sa * ((rappA2 f (1 - sa ^ 2) / 2 * Real.sin (2 * (m + q)) + rappA4 f (1 - sa ^ 2) / 2 * Real.sin (4 * (m + q)) +
        rappA6 f (1 - sa ^ 2) / 2 * Real.sin (6 * (m + q))) -
      (rappA2 f (1 - sa ^ 2) / 2 * Real.sin (2 * (m + σ)) + rappA4 f (1 - sa ^ 2) / 2 * Real.sin (4 * (m + σ)) +
        rappA6 f (1 - sa ^ 2) / 2 * Real.sin (6 * (m + σ)))) := by
    simp only [rappExcess, rappL]
    linear_combination f * sa * e
  rw [this, abs_mul, abs_mul, abs_of_nonneg f0]
  calc f * |sa| * _ ≤ f * 1 * ((|rappA2 f (1 - sa ^ 2)| + 2 * |rappA4 f (1 - sa ^ 2)| + 3 * |rappA6 f (1 - sa ^ 2)|) * |σ - q|) := by
        gcongr
    _ ≤ f * 1 * (1 * |σ - q|) := by gcongr; linarith
    _ = _ := by ring

end Bessel

/-- Points on the same parallel. -/
theorem surfacePoint_norm {a b l l' φ β : ℝ} (h : Bessel.Reduced a b φ β) :
    ‖surfacePoint a b l φ - surfacePoint a b l' φ‖ ^ 2 = (a * Real.cos β) ^ 2 * (2 - 2 * Real.cos (l' - l)) := by
  rw [Bessel.surfacePoint_reduced h, Bessel.surfacePoint_reduced h, EuclideanSpace.norm_eq, Real.sq_sqrt (by positivity)]
  simp [Fin.sum_univ_three]
  rw [Real.cos_sub]
  linear_combination (a * Real.cos β) ^ 2 * (Real.sin_sq_add_cos_sq l + Real.sin_sq_add_cos_sq l')

/-- Directions of the same azimuth on the same parallel. -/
theorem direction_parallel (l l' φ α : ℝ) :
    ‖direction l φ α - direction l' φ α‖ ^ 2 ≤ 2 - 2 * Real.cos (l' - l) := by
  rw [EuclideanSpace.norm_eq, Real.sq_sqrt (by positivity)]
  simp [Fin.sum_univ_three, direction]
  have e : (-(Real.cos α * (Real.sin φ * Real.cos l)) + -(Real.sin α * Real.sin l) -
      (-(Real.cos α * (Real.sin φ * Real.cos l')) + -(Real.sin α * Real.sin l'))) ^ 2 +
      (-(Real.cos α * (Real.sin φ * Real.sin l)) + Real.sin α * Real.cos l -
      (-(Real.cos α * (Real.sin φ * Real.sin l')) + Real.sin α * Real.cos l')) ^ 2 =
      (Real.cos α ^ 2 * Real.sin φ ^ 2 + Real.sin α ^ 2) * (2 - 2 * Real.cos (l' - l)) := by
    rw [Real.cos_sub]
    linear_combination (Real.cos α ^ 2 * Real.sin φ ^ 2 + Real.sin α ^ 2) * (Real.sin_sq_add_cos_sq l +
      Real.sin_sq_add_cos_sq l')
  rw [e]
  have k1 : Real.cos α ^ 2 * Real.sin φ ^ 2 + Real.sin α ^ 2 ≤ 1 := by
    have := Real.sin_sq_add_cos_sq α
    have := Real.sin_sq_le_one φ
    nlinarith [sq_nonneg (Real.cos α)]
  have k2 := Real.cos_le_one (l' - l)
  nlinarith

/-- The reduced latitude is nearer to the equator than the latitude. -/
theorem reduced_cos_ge {a b φ β : ℝ} (hb : 0 < b) (hab : b ≤ a) (h : Bessel.Reduced a b φ β) (hc : 0 ≤ Real.cos φ) :
    Real.cos φ ≤ Real.cos β := by
  have ha : 0 < a := lt_of_lt_of_le hb hab
  have hD : 0 < a ^ 2 * Real.cos φ ^ 2 + b ^ 2 * Real.sin φ ^ 2 := by
    have := wf_pos hb hab φ
    rw [wf_eq hb hab] at this
    exact (div_pos_iff_of_pos_right (by positivity)).1 this
  have hs : Real.sqrt (a ^ 2 * Real.cos φ ^ 2 + b ^ 2 * Real.sin φ ^ 2) ≤ a := by
    refine Real.sqrt_le_iff.2 ⟨ha.le, ?_⟩
    have := Real.sin_sq_add_cos_sq φ
    have hab2 : b ^ 2 ≤ a ^ 2 := pow_le_pow_left₀ hb.le hab 2
    nlinarith [sq_nonneg (Real.sin φ)]
  have hp := Real.sqrt_pos.2 hD
  have e := h.1
  have : a ≤ a ^ 2 / Real.sqrt (a ^ 2 * Real.cos φ ^ 2 + b ^ 2 * Real.sin φ ^ 2) := by
    rw [le_div_iff₀ hp]; nlinarith
  have h2 := mul_le_mul_of_nonneg_right this hc
  rw [e] at h2
  exact le_of_mul_le_mul_left h2 ha

end Geo
