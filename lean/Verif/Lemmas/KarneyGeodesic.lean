import Verif.Lemmas.KarneyError
import Verif.Lemmas.SurfaceGeodesic

/-! Karney's series are the integrals of the geodesic, up to a bound of the error. -/

namespace Geo.Bessel
open Spec Geo.Ser.Kar

/-- The expansion parameter. -/
theorem eps_facts {k2 ε : ℝ} (hk : 0 ≤ k2) (hε : ε = (Real.sqrt (1 + k2) - 1) / (Real.sqrt (1 + k2) + 1)) :
    0 ≤ ε ∧ ε < 1 ∧ k2 * (1 - ε) ^ 2 = 4 * ε := by
  have h1 : 1 ≤ Real.sqrt (1 + k2) := Real.one_le_sqrt.2 (by linarith)
  have h2 := Real.sq_sqrt (show 0 ≤ 1 + k2 by linarith)
  set t := Real.sqrt (1 + k2)
  have ht : t + 1 ≠ 0 := by linarith
  refine ⟨?_, ?_, ?_⟩
  · rw [hε]; exact div_nonneg (by linarith) (by linarith)
  · rw [hε, div_lt_one (by linarith)]; linarith
  · have : k2 = t ^ 2 - 1 := by linarith
    rw [this, hε]
    field_simp
    ring

theorem eps_le {a b c0 k2 ε : ℝ} (hb : 0 < b) (hab : b ≤ a) (hc : c0 ^ 2 ≤ 1) (hk2 : k2 = c0 ^ 2 * ((a ^ 2 - b ^ 2) / b ^ 2))
    (hε : ε = (Real.sqrt (1 + k2) - 1) / (Real.sqrt (1 + k2) + 1)) : ε ≤ (a - b) / (a + b) := by
  have ha : 0 < a := lt_of_lt_of_le hb hab
  have hq : 0 ≤ (a ^ 2 - b ^ 2) / b ^ 2 := div_nonneg (by nlinarith) (by positivity)
  have ht : Real.sqrt (1 + k2) ≤ a / b := by
    refine Real.sqrt_le_iff.2 ⟨by positivity, ?_⟩
    have e : (a / b) ^ 2 = 1 + (a ^ 2 - b ^ 2) / b ^ 2 := by field_simp; ring
    rw [e, hk2]
    nlinarith
  have h0 := Real.sqrt_nonneg (1 + k2)
  rw [hε, div_le_div_iff₀ (by linarith) (by linarith)]
  rw [le_div_iff₀ hb] at ht
  nlinarith

section
variable {a b s0 c0 k2 ε : ℝ} (hb : 0 < b) (hab : b ≤ a) (h1 : s0 ^ 2 + c0 ^ 2 = 1)
  (hk2 : k2 = c0 ^ 2 * ((a ^ 2 - b ^ 2) / b ^ 2)) (hε : ε = (Real.sqrt (1 + k2) - 1) / (Real.sqrt (1 + k2) + 1))
include hb hab h1 hk2 hε

theorem eps_all : 0 ≤ ε ∧ ε < 1 ∧ k2 * (1 - ε) ^ 2 = 4 * ε ∧ ε ≤ (a - b) / (a + b) := by
  have hk : 0 ≤ k2 := by
    rw [hk2]; exact mul_nonneg (sq_nonneg _) (div_nonneg (by nlinarith) (by positivity))
  obtain ⟨e0, e1, e2⟩ := eps_facts hk hε
  exact ⟨e0, e1, e2, eps_le hb hab (by nlinarith [sq_nonneg s0]) hk2 hε⟩

/-- The integrand of the distance. -/
theorem w_root (σ : ℝ) : a * w a b s0 c0 σ = b / (1 - ε) * root ε σ := by
  have ha : 0 < a := lt_of_lt_of_le hb hab
  obtain ⟨e0, e1, e2, -⟩ := eps_all hb hab h1 hk2 hε
  have hw := w_pos hb hab h1 σ
  have hr := root_ge e0 σ
  have h1e : 0 < 1 - ε := by linarith
  refine (pow_left_inj₀ (by positivity) (mul_nonneg (by positivity) (by linarith)) two_ne_zero).1 ?_
  rw [mul_pow, mul_pow, w_sq hb hab h1, root_sq e0, Bessel.e2, Real.cos_two_mul]
  rw [hk2] at e2
  have hs : s0 ^ 2 = 1 - c0 ^ 2 := by linarith
  rw [hs]
  field_simp at e2 ⊢
  linear_combination (1 - Real.cos σ ^ 2) * e2

theorem I1_deriv (σ : ℝ) : HasDerivAt (fun σ => b * karneyI1 ε σ) (b / (1 - ε) * pR ε σ) σ := by
  obtain ⟨e0, e1, -⟩ := eps_all hb hab h1 hk2 hε
  have h1e : 1 - ε ≠ 0 := by linarith
  unfold karneyI1
  refine HasDerivAt.congr_deriv ((((hasDerivAt_id σ).add (sineSum_deriv (karneyC1 ε) σ)).const_mul (karneyA1 ε)).const_mul b) ?_
  rw [pR]
  field_simp

/-- The distance series. -/
theorem dist_error (hn : (a - b) / (a + b) ≤ 1 / 100) (x y : ℝ) :
    |(T a b s0 c0 y - T a b s0 c0 x) - (b * karneyI1 ε y - b * karneyI1 ε x)| ≤ b / (1 - ε) * (3 / 25 * ε ^ 7) * |y - x| := by
  obtain ⟨e0, e1, -, e3⟩ := eps_all hb hab h1 hk2 hε
  have h1e : 0 < 1 - ε := by linarith
  have d : ∀ σ, HasDerivAt (fun σ => T a b s0 c0 σ - b * karneyI1 ε σ) (a * w a b s0 c0 σ - b / (1 - ε) * pR ε σ) σ :=
    fun σ => (T_deriv hb hab h1 σ).sub (I1_deriv hb hab h1 hk2 hε σ)
  have := Convex.norm_image_sub_le_of_norm_hasDerivWithin_le (f := fun σ => T a b s0 c0 σ - b * karneyI1 ε σ)
    (C := b / (1 - ε) * (3 / 25 * ε ^ 7)) (s := Set.univ) (fun σ _ => (d σ).hasDerivWithinAt) (fun σ _ => ?_) convex_univ
    (Set.mem_univ x) (Set.mem_univ y)
  · rw [Real.norm_eq_abs, Real.norm_eq_abs] at this
    convert this using 2; ring
  · rw [w_root hb hab h1 hk2 hε, ← mul_sub, norm_mul, Real.norm_eq_abs, Real.norm_eq_abs, abs_of_pos (by positivity),
      abs_sub_comm]
    exact mul_le_mul_of_nonneg_left (p_near e0 (by linarith) σ) (by positivity)

theorem I3_deriv (n σ : ℝ) : HasDerivAt (karneyI3 n ε) (karneyA3 n ε * (1 + cosSum (karneyC3 n ε) σ)) σ := by
  unfold karneyI3
  exact ((hasDerivAt_id σ).add (sineSum_deriv (karneyC3 n ε) σ)).const_mul (karneyA3 n ε)

/-- The longitude series. -/
theorem lon_error (hn : (a - b) / (a + b) ≤ 1 / 100) (x y : ℝ) :
    |(G a b s0 c0 y - G a b s0 c0 x) - (a - b) / a * s0 * (karneyI3 ((a - b) / (a + b)) ε y - karneyI3 ((a - b) / (a + b)) ε x)| ≤
      12 * ((a - b) / (a + b)) ^ 7 * |y - x| := by
  have ha : 0 < a := lt_of_lt_of_le hb hab
  obtain ⟨e0, e1, -, e3⟩ := eps_all hb hab h1 hk2 hε
  set n := (a - b) / (a + b) with hnd
  have hn0 : 0 ≤ n := e0.trans e3
  have h1e : 0 < 1 - ε := by linarith
  have hs0 : |s0| ≤ 1 := abs_le_one_iff_mul_self_le_one.2 (by nlinarith [sq_nonneg c0])
  have d : ∀ σ, HasDerivAt (fun σ => G a b s0 c0 σ - (a - b) / a * s0 * karneyI3 n ε σ)
      (s0 * q a b s0 c0 σ - (a - b) / a * s0 * (karneyA3 n ε * (1 + cosSum (karneyC3 n ε) σ))) σ :=
    fun σ => (G_deriv hb hab h1 σ).sub ((I3_deriv hb hab h1 hk2 hε n σ).const_mul _)
  have := Convex.norm_image_sub_le_of_norm_hasDerivWithin_le
    (f := fun σ => G a b s0 c0 σ - (a - b) / a * s0 * karneyI3 n ε σ)
    (C := 12 * n ^ 7) (s := Set.univ) (fun σ _ => (d σ).hasDerivWithinAt) (fun σ _ => ?_) convex_univ
    (Set.mem_univ x) (Set.mem_univ y)
  · rw [Real.norm_eq_abs, Real.norm_eq_abs] at this
    convert this using 2; ring
  · have hr := root_ge e0 σ
    have hw := w_root hb hab h1 hk2 hε σ
    have hJ : q a b s0 c0 σ = (a - b) / a * (2 * (1 - ε) / ((1 + n) * (1 - ε) + (1 - n) * root ε σ)) := by
      have hw' : w a b s0 c0 σ = b * root ε σ / (a * (1 - ε)) := by
        field_simp; field_simp at hw; linarith
      have hrp : 0 < root ε σ := by linarith
      have hd1 : a * (1 - ε) + b * root ε σ ≠ 0 := by positivity
      have hden : (1 + n) * (1 - ε) + (1 - n) * root ε σ = 2 * (a * (1 - ε) + b * root ε σ) / (a + b) := by
        rw [hnd]; field_simp; ring
      have h1w : 1 + w a b s0 c0 σ = (a * (1 - ε) + b * root ε σ) / (a * (1 - ε)) := by
        rw [hw']; field_simp
      rw [q, Bessel.e2, hden, h1w]
      field_simp
      ring
    have hl := lon_near e0 (by linarith) σ e3 hn
    have hf : (a - b) / a ≤ 2 * n := by
      rw [hnd, div_le_iff₀ ha]
      field_simp
      nlinarith
    have hf0 : 0 ≤ (a - b) / a := div_nonneg (by linarith) ha.le
    rw [hJ, show s0 * ((a - b) / a * (2 * (1 - ε) / ((1 + n) * (1 - ε) + (1 - n) * root ε σ))) -
      (a - b) / a * s0 * (karneyA3 n ε * (1 + cosSum (karneyC3 n ε) σ)) =
      (a - b) / a * s0 * (2 * (1 - ε) / ((1 + n) * (1 - ε) + (1 - n) * root ε σ) -
        karneyA3 n ε * (1 + cosSum (karneyC3 n ε) σ)) by ring, norm_mul, norm_mul, Real.norm_eq_abs, Real.norm_eq_abs,
      Real.norm_eq_abs, abs_of_nonneg hf0, abs_sub_comm]
    calc (a - b) / a * |s0| * _ ≤ (2 * n) * 1 * (6 * n ^ 6) := by gcongr
      _ = 12 * n ^ 7 := by ring

/-- The arc from the distance, and the distance of the arc. -/
theorem arc_error (hn : (a - b) / (a + b) ≤ 1 / 100) {σ₁ τ s : ℝ} (hτ : b * karneyA1 ε * τ = b * karneyI1 ε σ₁ + s) :
    |karneySigma ε τ - σ₁| ≤ |s| / b + 1 / 50 ∧
    |T a b s0 c0 (karneySigma ε τ) - T a b s0 c0 σ₁ - s| ≤ ((a - b) / (a + b)) ^ 7 * (4 * a + |s|) := by
  have ha : 0 < a := lt_of_lt_of_le hb hab
  obtain ⟨e0, e1, -, e3⟩ := eps_all hb hab h1 hk2 hε
  set n := (a - b) / (a + b) with hnd
  have hn0 : 0 ≤ n := e0.trans e3
  have he : ε ≤ 1 / 100 := by linarith
  have h1e : 0 < 1 - ε := by linarith
  have hA1 : 1 ≤ karneyA1 ε := by
    rw [karneyA1, le_div_iff₀ h1e]
    have : 0 ≤ ε ^ 2 / 4 + ε ^ 4 / 64 + ε ^ 6 / 256 := by positivity
    linarith
  have hA2 : karneyA1 ε ≤ 102 / 100 := by
    rw [karneyA1, div_le_iff₀ h1e]
    have k2 : ε ^ 2 ≤ 1 / 100 * ε := by nlinarith
    have k4 : ε ^ 4 ≤ ε := by
      calc ε ^ 4 ≤ ε ^ 1 := pow_le_pow_of_le_one e0 (by linarith) (by norm_num)
        _ = ε := pow_one ε
    have k6 : ε ^ 6 ≤ ε := by
      calc ε ^ 6 ≤ ε ^ 1 := pow_le_pow_of_le_one e0 (by linarith) (by norm_num)
        _ = ε := pow_one ε
    linarith
  have b1 := abs_C1 e0 he σ₁
  have b2 := abs_C1' e0 he τ
  have hrev := reversion e0 he τ
  have hd := dist_error hb hab h1 hk2 hε hn σ₁ (karneySigma ε τ)
  have hτ' : τ - (σ₁ + sineSum (karneyC1 ε) σ₁) = s / (b * karneyA1 ε) := by
    rw [karneyI1] at hτ
    have : karneyA1 ε ≠ 0 := by linarith
    field_simp
    linear_combination hτ
  have hs : |s / (b * karneyA1 ε)| ≤ |s| / b := by
    rw [abs_div, abs_of_pos (show 0 < b * karneyA1 ε by positivity)]
    gcongr
    nlinarith
  have harc : |karneySigma ε τ - σ₁| ≤ |s| / b + 1 / 50 := by
    have e : karneySigma ε τ - σ₁ = s / (b * karneyA1 ε) + sineSum (karneyC1 ε) σ₁ + sineSum (karneyC1' ε) τ := by
      rw [karneySigma, ← hτ']; ring
    rw [e]
    refine (abs_add_three _ _ _).trans ?_
    linarith
  refine ⟨harc, ?_⟩
  have e : b * karneyI1 ε (karneySigma ε τ) - b * karneyI1 ε σ₁ - s =
      b * karneyA1 ε * (karneySigma ε τ + sineSum (karneyC1 ε) (karneySigma ε τ) - τ) := by
    simp only [karneyI1] at hτ ⊢
    linear_combination hτ
  have h7 : ε ^ 7 ≤ n ^ 7 := by gcongr
  have hn7 : 0 ≤ n ^ 7 := by positivity
  have p1 : |b * karneyI1 ε (karneySigma ε τ) - b * karneyI1 ε σ₁ - s| ≤ n ^ 7 * (34 / 10 * a) := by
    rw [e, abs_mul, abs_of_pos (by positivity)]
    calc b * karneyA1 ε * _ ≤ a * (102 / 100) * (33 / 10 * n ^ 7) := by
          refine mul_le_mul (by gcongr) (hrev.trans (by gcongr)) (abs_nonneg _) (by positivity)
      _ ≤ _ := by nlinarith [mul_nonneg hn7 ha.le]
  have hb1 : b / (1 - ε) ≤ 102 / 100 * b := by
    rw [div_le_iff₀ h1e]; nlinarith
  have p2 : |(T a b s0 c0 (karneySigma ε τ) - T a b s0 c0 σ₁) -
      (b * karneyI1 ε (karneySigma ε τ) - b * karneyI1 ε σ₁)| ≤ n ^ 7 * (|s| + 1 / 10 * a) := by
    refine hd.trans ?_
    calc b / (1 - ε) * (3 / 25 * ε ^ 7) * |karneySigma ε τ - σ₁| ≤
          102 / 100 * b * (3 / 25 * n ^ 7) * (|s| / b + 1 / 50) := by gcongr
      _ = n ^ 7 * (102 / 100 * (3 / 25) * (|s| + b / 50)) := by field_simp
      _ ≤ _ := by
          refine mul_le_mul_of_nonneg_left ?_ hn7
          have := abs_nonneg s
          linarith
  have e2 : T a b s0 c0 (karneySigma ε τ) - T a b s0 c0 σ₁ - s =
      ((T a b s0 c0 (karneySigma ε τ) - T a b s0 c0 σ₁) - (b * karneyI1 ε (karneySigma ε τ) - b * karneyI1 ε σ₁)) +
      (b * karneyI1 ε (karneySigma ε τ) - b * karneyI1 ε σ₁ - s) := by ring
  rw [e2]
  refine (abs_add_le _ _).trans ?_
  have := mul_nonneg hn7 ha.le
  nlinarith

end

end Geo.Bessel
