import Verif.Lemmas.VincentyStable
import Verif.Props.VincentyGeodesicExact
import Verif.Props.InverseGeodesicExact

/-! # C93: the direct solver of Vincenty after his inverse solver, in exact arithmetic -/

namespace Geo
open XR Spec VincentyGeodesicSolver

namespace VincentyStable

theorem node_exists (β α : ℝ) : ∃ m, IsNodeArc β α m := by
  obtain ⟨v1, v2⟩ := polar (Real.cos β * Real.cos α) (Real.sin β)
  have hK : (Real.cos β * Real.cos α) ^ 2 + Real.sin β ^ 2 = 1 - (Real.cos β * Real.sin α) ^ 2 := by
    linear_combination Real.sin_sq_add_cos_sq β + Real.cos β ^ 2 * Real.sin_sq_add_cos_sq α
  rw [hK] at v1 v2
  exact ⟨_, by rw [mul_comm]; exact v1, by rw [mul_comm]; exact v2⟩

/-- `K` and `K cos 2σₘ` as polynomials in `x = cos β cos α` and `y = sin β`. -/
theorem node_facts {β α m : ℝ} (h : IsNodeArc β α m) (σ : ℝ) :
    1 - (Real.cos β * Real.sin α) ^ 2 = (Real.cos β * Real.cos α) ^ 2 + Real.sin β ^ 2 ∧
    (1 - (Real.cos β * Real.sin α) ^ 2) * Real.cos (2 * m + σ) =
      ((Real.cos β * Real.cos α) ^ 2 - Real.sin β ^ 2) * Real.cos σ -
        2 * (Real.cos β * Real.cos α) * Real.sin β * Real.sin σ := by
  have hK : 1 - (Real.cos β * Real.sin α) ^ 2 = (Real.cos β * Real.cos α) ^ 2 + Real.sin β ^ 2 := by
    linear_combination -Real.sin_sq_add_cos_sq β - Real.cos β ^ 2 * Real.sin_sq_add_cos_sq α
  refine ⟨hK, ?_⟩
  have hK0 : 0 ≤ 1 - (Real.cos β * Real.sin α) ^ 2 := by rw [hK]; positivity
  have hsq := Real.sq_sqrt hK0
  obtain ⟨h1, h2⟩ := h
  set r := Real.sqrt (1 - (Real.cos β * Real.sin α) ^ 2)
  rw [← hsq, ← h1, ← h2, Real.cos_add, Real.cos_two_mul, Real.sin_two_mul]
  linear_combination r ^ 2 * Real.cos σ * Real.sin_sq_add_cos_sq m

theorem node_close {β α α' θ σ m m' : ℝ} (hc : |Real.cos α - Real.cos α'| ≤ θ) (h : IsNodeArc β α m)
    (h' : IsNodeArc β α' m') :
    |(1 - (Real.cos β * Real.sin α) ^ 2) - (1 - (Real.cos β * Real.sin α') ^ 2)| ≤ 2 * θ ∧
    |(1 - (Real.cos β * Real.sin α) ^ 2) * Real.cos (2 * m + σ) -
      (1 - (Real.cos β * Real.sin α') ^ 2) * Real.cos (2 * m' + σ)| ≤ 4 * θ := by
  have hθ : 0 ≤ θ := (abs_nonneg _).trans hc
  obtain ⟨a1, a2⟩ := node_facts h σ
  obtain ⟨b1, b2⟩ := node_facts h' σ
  have bd : ∀ α, |Real.cos β * Real.cos α| ≤ 1 := fun α => by
    rw [abs_mul]
    exact mul_le_one₀ (Real.abs_cos_le_one _) (abs_nonneg _) (Real.abs_cos_le_one _)
  have hx : |Real.cos β * Real.cos α - Real.cos β * Real.cos α'| ≤ θ := by
    rw [← mul_sub, abs_mul]
    calc _ ≤ 1 * θ := mul_le_mul (Real.abs_cos_le_one _) hc (abs_nonneg _) (by norm_num)
      _ = θ := one_mul _
  have x1 := bd α
  have x1' := bd α'
  rw [a2, b2, a1, b1]
  set x := Real.cos β * Real.cos α
  set x' := Real.cos β * Real.cos α'
  have hs : |x ^ 2 - x' ^ 2| ≤ 2 * θ := by
    have := mul_close hx hx x1 x1'
    rw [pow_two, pow_two]; linarith
  refine ⟨by rwa [add_sub_add_right_eq_sub], ?_⟩
  have e : ((x ^ 2 - Real.sin β ^ 2) * Real.cos σ - 2 * x * Real.sin β * Real.sin σ) -
      ((x' ^ 2 - Real.sin β ^ 2) * Real.cos σ - 2 * x' * Real.sin β * Real.sin σ) =
      (x ^ 2 - x' ^ 2) * Real.cos σ + (x - x') * (-2 * (Real.sin β * Real.sin σ)) := by ring
  rw [e]
  refine (abs_add_le _ _).trans ?_
  have p1 : |(x ^ 2 - x' ^ 2) * Real.cos σ| ≤ 2 * θ * 1 := by
    rw [abs_mul]; exact mul_le_mul hs (Real.abs_cos_le_one _) (abs_nonneg _) (by linarith)
  have p2 : |-2 * (Real.sin β * Real.sin σ)| ≤ 2 := by
    rw [abs_mul, abs_mul, show |(-2 : ℝ)| = 2 by norm_num]
    have := mul_le_one₀ (Real.abs_sin_le_one β) (abs_nonneg _) (Real.abs_sin_le_one σ)
    linarith
  have p3 : |(x - x') * (-2 * (Real.sin β * Real.sin σ))| ≤ θ * 2 := by
    rw [abs_mul]; exact mul_le_mul hx p2 (abs_nonneg _) hθ
  linarith

theorem node_K (β α : ℝ) : 0 ≤ 1 - (Real.cos β * Real.sin α) ^ 2 ∧ 1 - (Real.cos β * Real.sin α) ^ 2 ≤ 1 := by
  refine ⟨?_, by linarith [sq_nonneg (Real.cos β * Real.sin α)]⟩
  have h1 := Real.cos_sq_le_one β
  have h2 := Real.sin_sq_le_one α
  rw [mul_pow]
  nlinarith [sq_nonneg (Real.sin α)]

theorem abs_mul_cos_le {K : ℝ} (k0 : 0 ≤ K) (k1 : K ≤ 1) (x : ℝ) : |K * Real.cos x| ≤ 1 := by
  rw [abs_mul, abs_of_nonneg k0]
  exact mul_le_one₀ k1 (abs_nonneg _) (Real.abs_cos_le_one _)

/-- The arc that the direct solver finds for the length of an arc `σ` in a nearby azimuth. -/
theorem arc_close {E β α α' m m' θ σ σ₁ σ' t ε : ℝ} (E0 : 0 ≤ E) (E1 : E ≤ 1 / 20) (hσ0 : 0 ≤ σ)
    (hc : |Real.cos α - Real.cos α'| ≤ θ) (h : IsNodeArc β α m) (h' : IsNodeArc β α' m')
    (ht : t = vincentyA ((1 - (Real.cos β * Real.sin α) ^ 2) * E) * (σ -
      vincentyDeltaSigma (vincentyB ((1 - (Real.cos β * Real.sin α) ^ 2) * E)) σ (Real.cos (2 * m + σ))))
    (hs : σ₁ = t / vincentyA ((1 - (Real.cos β * Real.sin α') ^ 2) * E) +
      vincentyDeltaSigma (vincentyB ((1 - (Real.cos β * Real.sin α') ^ 2) * E)) σ' (Real.cos (2 * m' + σ')))
    (he : |σ₁ - σ'| ≤ ε) : |σ₁ - σ| ≤ 81 / 1000 * θ * σ + 14 / 1000 * ε := by
  obtain ⟨hk, hq⟩ := node_close (σ := σ) hc h h'
  obtain ⟨k0, k1⟩ := node_K β α
  obtain ⟨k0', k1'⟩ := node_K β α'
  have hθ : 0 ≤ θ := (abs_nonneg _).trans hc
  have q1 := abs_mul_cos_le k0 k1 (2 * m + σ)
  have q1' := abs_mul_cos_le k0' k1' (2 * m' + σ)
  set K := 1 - (Real.cos β * Real.sin α) ^ 2
  set K' := 1 - (Real.cos β * Real.sin α') ^ 2
  have hD := delta_close E0 E1 k0 k1 k0' k1' hk hq q1 q1' σ
  have hA := (ser_close E0 E1 k0 k1 k0' k1' hk).2.2
  rw [← delta_poly, ← delta_poly] at hD
  have hD' : |vincentyDeltaSigma (vincentyB (K * E)) σ (Real.cos (2 * m + σ)) -
      vincentyDeltaSigma (vincentyB (K' * E)) σ (Real.cos (2 * m' + σ))| ≤ 52 / 1000 * (θ * σ) := by
    refine hD.trans ?_
    have : |Real.sin σ| ≤ σ := Real.abs_sin_le_abs.trans (abs_of_nonneg hσ0).le
    rw [mul_assoc]
    gcongr
  have u0 : 0 ≤ K' * E := mul_nonneg k0' E0
  have u1 : K' * E ≤ 1 / 20 := by nlinarith
  have v0 : 0 ≤ K * E := mul_nonneg k0 E0
  have v1 : K * E ≤ 1 / 20 := by nlinarith
  obtain ⟨B0, B1⟩ := Bessel.vinB_bounds u0 u1
  obtain ⟨A0, A1⟩ := Bessel.vinA_bounds u0 u1
  obtain ⟨C0, C1⟩ := Bessel.vinB_bounds v0 v1
  set A := vincentyA (K * E)
  set A' := vincentyA (K' * E)
  set D := vincentyDeltaSigma (vincentyB (K * E)) σ (Real.cos (2 * m + σ)) with hDd
  have hDσ : |D| ≤ 127 / 10000 * σ := by
    have := Bessel.vinH_lip C0 (by linarith) m (m + σ)
    rw [add_sub_cancel_left, abs_of_nonneg hσ0] at this
    rw [hDd, Bessel.delta_eq]
    refine this.trans (mul_le_mul_of_nonneg_right (by linarith) hσ0)
  have lip : ∀ x y, |vincentyDeltaSigma (vincentyB (K' * E)) y (Real.cos (2 * m' + y)) -
      vincentyDeltaSigma (vincentyB (K' * E)) x (Real.cos (2 * m' + x))| ≤ 127 / 10000 * |y - x| := fun x y => by
    rw [Bessel.delta_eq, Bessel.delta_eq]
    have := Bessel.vinH_lip B0 (by linarith) (m' + x) (m' + y)
    rw [add_sub_add_left_eq_sub] at this
    rw [sub_sub_sub_cancel_right]
    exact this.trans (mul_le_mul_of_nonneg_right (by linarith) (abs_nonneg _))
  have l1 := lip σ σ₁
  have l2 := lip σ₁ σ'
  generalize vincentyDeltaSigma (vincentyB (K' * E)) σ (Real.cos (2 * m' + σ)) = D1 at hD' l1
  generalize vincentyDeltaSigma (vincentyB (K' * E)) σ₁ (Real.cos (2 * m' + σ₁)) = D2 at l1 l2
  generalize vincentyDeltaSigma (vincentyB (K' * E)) σ' (Real.cos (2 * m' + σ')) = D3 at l2 hs
  have hA' : 0 < A' := by linarith
  have key : σ₁ - σ = (A - A') / A' * (σ - D) + (D1 - D) + (D2 - D1) + (D3 - D2) := by
    have : t / A' = (A - A') / A' * (σ - D) + (σ - D) := by rw [ht]; field_simp; ring
    rw [hs, this]; ring
  have r1 : |(A - A') / A' * (σ - D)| ≤ 1 / 40 * θ * (10127 / 10000 * σ) := by
    rw [abs_mul, abs_div, abs_of_pos hA']
    refine mul_le_mul ?_ ?_ (abs_nonneg _) (by positivity)
    · exact (div_le_self (abs_nonneg _) A0).trans hA
    · refine (abs_sub _ _).trans ?_
      rw [abs_of_nonneg hσ0]; linarith
  rw [abs_sub_comm] at hD' he
  have tot : |σ₁ - σ| ≤ |(A - A') / A' * (σ - D)| + |D1 - D| + |D2 - D1| + |D3 - D2| := by
    rw [key]
    exact (abs_add_le _ _).trans (add_le_add_left ((abs_add_le _ _).trans (add_le_add_left (abs_add_le _ _) _)) _)
  have hθσ := mul_nonneg hθ hσ0
  have hε := (abs_nonneg _).trans he
  linarith

/-- The excess of longitude in a nearby azimuth, at a nearby arc. -/
theorem lon_close {f β α α' m m' θ σ σ₁ : ℝ} (f0 : 0 ≤ f) (f1 : f ≤ 1 / 50) (hσ0 : 0 ≤ σ)
    (hc : |Real.cos α - Real.cos α'| ≤ θ) (hsn : |Real.sin α - Real.sin α'| ≤ θ) (h : IsNodeArc β α m) (h' : IsNodeArc β α' m') :
    |vincentyExcess f (Real.cos β * Real.sin α') σ₁ (Real.cos (2 * m' + σ₁)) -
      vincentyExcess f (Real.cos β * Real.sin α) σ (Real.cos (2 * m + σ))| ≤
      f * (104 / 100 * θ * σ + 102 / 100 * |σ₁ - σ|) := by
  obtain ⟨hk, hq⟩ := node_close (σ := σ) hc h h'
  obtain ⟨k0, k1⟩ := node_K β α
  obtain ⟨k0', k1'⟩ := node_K β α'
  have hθ : 0 ≤ θ := (abs_nonneg _).trans hc
  have q1 := abs_mul_cos_le k0 k1 (2 * m + σ)
  have q1' := abs_mul_cos_le k0' k1' (2 * m' + σ)
  obtain ⟨x1, x2⟩ := excess_close f0 f1 k0 k1 k0' k1' hk hq q1 q1' hσ0
  have hsa : |Real.cos β * Real.sin α - Real.cos β * Real.sin α'| ≤ θ := by
    rw [← mul_sub, abs_mul]
    calc _ ≤ 1 * θ := mul_le_mul (Real.abs_cos_le_one _) hsn (abs_nonneg _) (by norm_num)
      _ = θ := one_mul _
  have bd : ∀ α, |Real.cos β * Real.sin α| ≤ 1 := fun α => by
    rw [abs_mul]
    exact mul_le_one₀ (Real.abs_cos_le_one _) (abs_nonneg _) (Real.abs_sin_le_one _)
  have d1 : |vincentyExcess f (Real.cos β * Real.sin α) σ (Real.cos (2 * m + σ)) -
      vincentyExcess f (Real.cos β * Real.sin α') σ (Real.cos (2 * m' + σ))| ≤ f * (104 / 100 * θ * σ) := by
    rw [excess_poly, excess_poly, ← mul_sub, abs_mul, abs_of_nonneg f0]
    refine mul_le_mul_of_nonneg_left ?_ f0
    refine (mul_close hsa x1 (bd α) x2).trans ?_
    have := mul_nonneg hθ hσ0
    linarith
  have d2 : |vincentyExcess f (Real.cos β * Real.sin α') σ₁ (Real.cos (2 * m' + σ₁)) -
      vincentyExcess f (Real.cos β * Real.sin α') σ (Real.cos (2 * m' + σ))| ≤ f * (102 / 100 * |σ₁ - σ|) := by
    rw [Bessel.excess_eq, Bessel.excess_eq, ← mul_sub, sub_sub_sub_cancel_right, mul_assoc, abs_mul, abs_mul,
      abs_of_nonneg f0]
    refine mul_le_mul_of_nonneg_left ?_ f0
    have hC : vincentyC f (1 - (Real.cos β * Real.sin α') ^ 2) =
        (1 - (Real.cos β * Real.sin α') ^ 2) * serC f (1 - (Real.cos β * Real.sin α') ^ 2) := vincentyC_eq _ _
    have c0 : 0 ≤ vincentyC f (1 - (Real.cos β * Real.sin α') ^ 2) ∧
        vincentyC f (1 - (Real.cos β * Real.sin α') ^ 2) ≤ 1 / 100 := by
      have e0 : 0 ≤ 4 + f * (4 - 3 * (1 - (Real.cos β * Real.sin α') ^ 2)) := by nlinarith
      have e1 : 4 + f * (4 - 3 * (1 - (Real.cos β * Real.sin α') ^ 2)) ≤ 4 + 1 / 50 * 4 := by nlinarith [mul_nonneg f0 k0']
      rw [vincentyC]
      refine ⟨mul_nonneg (by positivity) e0, ?_⟩
      calc f / 16 * (1 - (Real.cos β * Real.sin α') ^ 2) * (4 + f * (4 - 3 * (1 - (Real.cos β * Real.sin α') ^ 2)))
          ≤ (1 / 50) / 16 * 1 * (4 + 1 / 50 * 4) := by gcongr
        _ ≤ _ := by norm_num
    clear hC
    obtain ⟨c0, c1⟩ := c0
    set C := vincentyC f (1 - (Real.cos β * Real.sin α') ^ 2)
    have sl : ∀ x y : ℝ, |Real.sin x - Real.sin y| ≤ |x - y| := fun x y => by
      have := Real.lipschitzWith_sin.dist_le_mul x y
      simpa [Real.dist_eq] using this
    have s2 := sl (2 * (m' + σ₁)) (2 * (m' + σ))
    have s4 := sl (4 * (m' + σ₁)) (4 * (m' + σ))
    rw [show 2 * (m' + σ₁) - 2 * (m' + σ) = 2 * (σ₁ - σ) by ring, abs_mul, abs_of_pos (by norm_num : (0 : ℝ) < 2)] at s2
    rw [show 4 * (m' + σ₁) - 4 * (m' + σ) = 4 * (σ₁ - σ) by ring, abs_mul, abs_of_pos (by norm_num : (0 : ℝ) < 4)] at s4
    have hv : |Bessel.vinL C (m' + σ₁) - Bessel.vinL C (m' + σ)| ≤ 102 / 100 * |σ₁ - σ| := by
      have e : Bessel.vinL C (m' + σ₁) - Bessel.vinL C (m' + σ) = (1 - C) * ((σ₁ - σ) +
          C / 2 * (Real.sin (2 * (m' + σ₁)) - Real.sin (2 * (m' + σ))) +
          C ^ 2 / 4 * (Real.sin (4 * (m' + σ₁)) - Real.sin (4 * (m' + σ)))) := by
        simp only [Bessel.vinL]; ring
      rw [e, abs_mul]
      have g1 : |1 - C| ≤ 1 := abs_le.2 ⟨by linarith, by linarith⟩
      have g2 := abs_add_three (σ₁ - σ) (C / 2 * (Real.sin (2 * (m' + σ₁)) - Real.sin (2 * (m' + σ))))
        (C ^ 2 / 4 * (Real.sin (4 * (m' + σ₁)) - Real.sin (4 * (m' + σ))))
      rw [abs_mul, abs_mul, abs_of_nonneg (by positivity : 0 ≤ C / 2), abs_of_nonneg (by positivity : 0 ≤ C ^ 2 / 4)] at g2
      have g3 : C / 2 * |Real.sin (2 * (m' + σ₁)) - Real.sin (2 * (m' + σ))| ≤ (1 / 100) / 2 * (2 * |σ₁ - σ|) := by gcongr
      have g4 : C ^ 2 / 4 * |Real.sin (4 * (m' + σ₁)) - Real.sin (4 * (m' + σ))| ≤ (1 / 100) ^ 2 / 4 * (4 * |σ₁ - σ|) := by gcongr
      have g5 := abs_nonneg (σ₁ - σ)
      calc _ ≤ 1 * (102 / 100 * |σ₁ - σ|) := mul_le_mul g1 (g2.trans (by linarith)) (abs_nonneg _) (by norm_num)
        _ = _ := one_mul _
    calc _ ≤ 1 * (102 / 100 * |σ₁ - σ|) := mul_le_mul (bd α') hv (abs_nonneg _) (by norm_num)
      _ = _ := one_mul _
  rw [abs_sub_comm] at d1
  have := abs_sub_le (vincentyExcess f (Real.cos β * Real.sin α') σ₁ (Real.cos (2 * m' + σ₁)))
    (vincentyExcess f (Real.cos β * Real.sin α') σ (Real.cos (2 * m' + σ)))
    (vincentyExcess f (Real.cos β * Real.sin α) σ (Real.cos (2 * m + σ)))
  rw [mul_add]
  linarith

/-- The ends of two arcs from the same start. -/
theorem end_close {a b β₁ α α' σ σ' β₂ β₂' l l' α₂ α₂' φ φ' l₀ d : ℝ} (hb : 0 < b) (hab : b ≤ a)
    (h : ArcEnd β₁ α σ β₂ l α₂) (h' : ArcEnd β₁ α' σ' β₂' l' α₂') (hr : Bessel.Reduced a b φ β₂)
    (hr' : Bessel.Reduced a b φ' β₂') (hp : 0 ≤ Real.sin σ) (d0 : 0 ≤ d)
    (hd : Real.sin σ ^ 2 * (2 - 2 * Real.cos (α' - α)) ≤ (2 * d) ^ 2) :
    ‖surfacePoint a b (l₀ + l') φ' - surfacePoint a b (l₀ + l) φ‖ ≤ a * (|σ' - σ| + 2 * d) := by
  have ha : 0 < a := lt_of_lt_of_le hb hab
  rw [Bessel.surfacePoint_reduced hr, Bessel.surfacePoint_reduced hr', EuclideanSpace.norm_eq]
  refine Real.sqrt_le_iff.2 ⟨by positivity, ?_⟩
  simp [Fin.sum_univ_three, Real.cos_add, Real.sin_add]
  have e1 : (a * Real.cos β₂' * (Real.cos l₀ * Real.cos l' - Real.sin l₀ * Real.sin l') -
        a * Real.cos β₂ * (Real.cos l₀ * Real.cos l - Real.sin l₀ * Real.sin l)) ^ 2 +
      (a * Real.cos β₂' * (Real.sin l₀ * Real.cos l' + Real.cos l₀ * Real.sin l') -
        a * Real.cos β₂ * (Real.sin l₀ * Real.cos l + Real.cos l₀ * Real.sin l)) ^ 2 =
      a ^ 2 * ((Real.cos β₂' * Real.cos l' - Real.cos β₂ * Real.cos l) ^ 2 +
        (Real.cos β₂' * Real.sin l' - Real.cos β₂ * Real.sin l) ^ 2) := by
    linear_combination (a ^ 2 * ((Real.cos β₂' * Real.cos l' - Real.cos β₂ * Real.cos l) ^ 2 +
        (Real.cos β₂' * Real.sin l' - Real.cos β₂ * Real.sin l) ^ 2)) * Real.sin_sq_add_cos_sq l₀
  have e2 : (b * Real.sin β₂' - b * Real.sin β₂) ^ 2 ≤ a ^ 2 * (Real.sin β₂' - Real.sin β₂) ^ 2 := by
    rw [← mul_sub, mul_pow]
    gcongr
  have e3 : (Real.cos β₂' * Real.cos l' - Real.cos β₂ * Real.cos l) ^ 2 +
        (Real.cos β₂' * Real.sin l' - Real.cos β₂ * Real.sin l) ^ 2 + (Real.sin β₂' - Real.sin β₂) ^ 2 =
      (2 - 2 * Real.cos (σ' - σ)) + Real.sin σ * Real.sin σ' * (2 - 2 * Real.cos (α' - α)) := by
    rw [h.height, h.east, h.outward, h'.height, h'.east, h'.outward, Real.cos_sub, Real.cos_sub]
    linear_combination ((Real.cos σ' - Real.cos σ) ^ 2 + (Real.sin σ' * Real.cos α' - Real.sin σ * Real.cos α) ^ 2) *
        Real.sin_sq_add_cos_sq β₁ + Real.sin_sq_add_cos_sq σ + Real.sin_sq_add_cos_sq σ' +
      Real.sin σ ^ 2 * Real.sin_sq_add_cos_sq α + Real.sin σ' ^ 2 * Real.sin_sq_add_cos_sq α'
  rw [e1, mul_pow]
  refine (add_le_add_right e2 _).trans ?_
  rw [← mul_add, e3]
  refine mul_le_mul_of_nonneg_left ?_ (by positivity)
  have k1 : 2 - 2 * Real.cos (σ' - σ) ≤ |σ' - σ| ^ 2 := by
    have := Real.one_sub_sq_div_two_le_cos (x := σ' - σ)
    rw [sq_abs]; linarith
  have w0 : 0 ≤ 2 - 2 * Real.cos (α' - α) := by linarith [Real.cos_le_one (α' - α)]
  have w1 : 2 - 2 * Real.cos (α' - α) ≤ 2 ^ 2 := by linarith [Real.neg_one_le_cos (α' - α)]
  have hψ := Real.sq_sqrt w0
  have hψ0 := Real.sqrt_nonneg (2 - 2 * Real.cos (α' - α))
  have hψ2 : Real.sqrt (2 - 2 * Real.cos (α' - α)) ≤ 2 := Real.sqrt_le_iff.2 ⟨by norm_num, w1⟩
  rw [← hψ] at hd ⊢
  set ψ := Real.sqrt (2 - 2 * Real.cos (α' - α))
  rw [← mul_pow] at hd
  have hd2 : Real.sin σ * ψ ≤ 2 * d := (sq_le_sq₀ (by positivity) (by positivity)).1 hd
  have hs : Real.sin σ' ≤ Real.sin σ + |σ' - σ| := by
    have := Real.lipschitzWith_sin.dist_le_mul σ' σ
    simp only [Real.dist_eq, NNReal.coe_one, one_mul] at this
    linarith [(abs_le.1 this).2]
  have hx := abs_nonneg (σ' - σ)
  calc 2 - 2 * Real.cos (σ' - σ) + Real.sin σ * Real.sin σ' * ψ ^ 2
      ≤ |σ' - σ| ^ 2 + Real.sin σ * (Real.sin σ + |σ' - σ|) * ψ ^ 2 := by gcongr
    _ = |σ' - σ| ^ 2 + (Real.sin σ * ψ) ^ 2 + |σ' - σ| * ((Real.sin σ * ψ) * ψ) := by ring
    _ ≤ |σ' - σ| ^ 2 + (2 * d) ^ 2 + |σ' - σ| * ((2 * d) * 2) := by gcongr
    _ = (|σ' - σ| + 2 * d) ^ 2 := by ring

/-- The arc of the auxiliary triangle. -/
theorem triangle_arc {β₁ β₂ l σ sa c : ℝ} (h₂ : 0 ≤ Real.cos β₂) (ht : AuxTriangle β₁ β₂ l σ sa c) :
    ∃ α α₂ m : ℝ, 0 < Real.sin σ ∧ ArcEnd β₁ α σ β₂ l α₂ ∧ sa = Real.cos β₁ * Real.sin α ∧ IsNodeArc β₁ α m ∧
      (1 - sa ^ 2) * c = (1 - sa ^ 2) * Real.cos (2 * m + σ) ∧
      Real.sin σ * Real.cos α = Real.cos β₁ * Real.sin β₂ - Real.sin β₁ * Real.cos β₂ * Real.cos l ∧
      Real.sin σ * Real.sin α = Real.cos β₂ * Real.sin l := by
  obtain ⟨s0, s1, hcos, hne, hsin, hmid⟩ := ht
  have hp : 0 < Real.sin σ := lt_of_le_of_ne (Real.sin_nonneg_of_nonneg_of_le_pi s0 s1) hne.symm
  have q1 := Real.sin_sq_add_cos_sq β₁
  have q2 := Real.sin_sq_add_cos_sq β₂
  have q4 := Real.sin_sq_add_cos_sq σ
  have d1 : (Real.cos β₁ * Real.sin β₂ - Real.sin β₁ * Real.cos β₂ * Real.cos l) ^ 2 + (Real.cos β₂ * Real.sin l) ^ 2 =
      Real.sin σ ^ 2 := by
    have := ssq_add β₁ β₂ l
    rw [ssq, csig, ← hcos] at this
    linarith
  have d2 : (-Real.sin β₁ * Real.cos β₂ + Real.cos β₁ * Real.sin β₂ * Real.cos l) ^ 2 + (Real.cos β₁ * Real.sin l) ^ 2 =
      Real.sin σ ^ 2 := by
    have := ssq_add β₂ β₁ l
    rw [ssq, csig, show Real.sin β₂ * Real.sin β₁ + Real.cos β₂ * Real.cos β₁ * Real.cos l = Real.cos σ by rw [hcos]; ring] at this
    linarith
  obtain ⟨u1, u2⟩ := polar (Real.cos β₁ * Real.sin β₂ - Real.sin β₁ * Real.cos β₂ * Real.cos l) (Real.cos β₂ * Real.sin l)
  obtain ⟨u3, u4⟩ := polar (-Real.sin β₁ * Real.cos β₂ + Real.cos β₁ * Real.sin β₂ * Real.cos l) (Real.cos β₁ * Real.sin l)
  rw [d1, Real.sqrt_sq hp.le] at u1 u2
  rw [d2, Real.sqrt_sq hp.le] at u3 u4
  set α := Complex.arg ⟨Real.cos β₁ * Real.sin β₂ - Real.sin β₁ * Real.cos β₂ * Real.cos l, Real.cos β₂ * Real.sin l⟩
  set α₂ := Complex.arg ⟨-Real.sin β₁ * Real.cos β₂ + Real.cos β₁ * Real.sin β₂ * Real.cos l, Real.cos β₁ * Real.sin l⟩
  have hsa : sa = Real.cos β₁ * Real.sin α := by
    refine mul_right_cancel₀ hne ?_
    rw [hsin]
    linear_combination -Real.cos β₁ * u2
  have cancel : ∀ x y : ℝ, Real.sin σ * x = Real.sin σ * y → x = y := fun x y h => mul_left_cancel₀ hne h
  have he : ArcEnd β₁ α σ β₂ l α₂ := by
    refine ⟨h₂, ?_, ?_, ?_, ?_, ?_⟩
    · rw [show Real.sin β₁ * Real.cos σ + Real.cos β₁ * Real.sin σ * Real.cos α =
        Real.sin β₁ * Real.cos σ + Real.cos β₁ * (Real.sin σ * Real.cos α) by ring, u1, hcos]
      linear_combination -Real.sin β₂ * q1
    · exact u2.symm
    · rw [show Real.cos β₁ * Real.cos σ - Real.sin β₁ * Real.sin σ * Real.cos α =
        Real.cos β₁ * Real.cos σ - Real.sin β₁ * (Real.sin σ * Real.cos α) by ring, u1, hcos]
      linear_combination -Real.cos β₂ * Real.cos l * q1
    · refine cancel _ _ ?_
      linear_combination Real.cos β₂ * u4 - Real.cos β₁ * u2
    · refine cancel _ _ ?_
      have e1 : Real.sin σ * (Real.cos β₂ * Real.cos α₂) = Real.cos β₂ * (Real.sin σ * Real.cos α₂) := by ring
      have e2 : Real.sin σ * (Real.cos β₁ * Real.cos σ * Real.cos α - Real.sin β₁ * Real.sin σ) =
        Real.cos β₁ * Real.cos σ * (Real.sin σ * Real.cos α) - Real.sin β₁ * (1 - Real.cos σ ^ 2) := by
          linear_combination -Real.sin β₁ * q4
      rw [e1, e2, u1, u3, hcos]
      linear_combination (-(Real.sin β₁ * Real.sin β₂ + Real.cos β₁ * Real.cos β₂ * Real.cos l) * Real.sin β₂) * q1 +
        (-Real.sin β₁) * q2
  obtain ⟨m, hm⟩ := node_exists β₁ α
  refine ⟨α, α₂, m, hp, he, hsa, hm, ?_, u1, u2⟩
  obtain ⟨n1, n2⟩ := node_facts hm σ
  rw [← hsa] at n1 n2
  by_cases h0 : 1 - sa ^ 2 = 0
  · rw [h0, zero_mul, zero_mul]
  · rw [n2, hmid h0, mul_sub, show (1 - sa ^ 2) * (2 * Real.sin β₁ * Real.sin β₂ / (1 - sa ^ 2)) = 2 * Real.sin β₁ * Real.sin β₂ by
      rw [mul_div_assoc', mul_div_cancel_left₀ _ h0], he.height, n1]
    ring

/-- Cosines and sines of nearby azimuths. -/
theorem angle_close (α α' : ℝ) : |Real.cos α - Real.cos α'| ≤ Real.sqrt (2 - 2 * Real.cos (α' - α)) ∧
    |Real.sin α - Real.sin α'| ≤ Real.sqrt (2 - 2 * Real.cos (α' - α)) := by
  have e : 2 - 2 * Real.cos (α' - α) = (Real.cos α - Real.cos α') ^ 2 + (Real.sin α - Real.sin α') ^ 2 := by
    rw [Real.cos_sub]
    linear_combination -Real.sin_sq_add_cos_sq α - Real.sin_sq_add_cos_sq α'
  rw [e]
  exact ⟨Real.abs_le_sqrt (by linarith [sq_nonneg (Real.sin α - Real.sin α')]),
    Real.abs_le_sqrt (by linarith [sq_nonneg (Real.cos α - Real.cos α')])⟩

theorem numbers {σ θ dσ dX f : ℝ} (hσ0 : 0 < σ) (hp : 0 < Real.sin σ) (hθ : 0 ≤ θ) (hd0 : 0 ≤ dσ) (h3 : σ ≤ 304 / 100)
    (hsin : Real.sin σ * θ ≤ 2 * 1e-12) (hA : dσ ≤ 81 / 1000 * θ * σ + 14 / 1000 * 1e-12)
    (hlon : dX ≤ f * (104 / 100 * θ * σ + 102 / 100 * dσ)) (hf : f ≤ 1 / 50) :
    dσ ≤ 5e-12 ∧ dX ≤ 14e-13 := by
  have hr := arc_ratio hσ0 h3 (by linarith [Real.pi_gt_d4])
  have hn : (304 / 100 : ℝ) / Real.sin (304 / 100) ≤ 302 / 10 := by
    rw [div_le_iff₀ (by linarith [sin_304])]
    linarith [sin_304]
  have hr2 := hr.trans hn
  rw [div_le_iff₀ hp] at hr2
  have hθσ : θ * σ ≤ 604 / 10 * 1e-12 := by
    have := mul_le_mul_of_nonneg_left hr2 hθ
    linarith
  have hθσ0 : 0 ≤ θ * σ := mul_nonneg hθ hσ0.le
  have hdσ : dσ ≤ 5e-12 := by
    refine hA.trans ?_
    norm_num at hθσ ⊢
    linarith
  refine ⟨hdσ, hlon.trans ?_⟩
  have h1 : 104 / 100 * θ * σ + 102 / 100 * dσ ≤ 68e-12 := by
    norm_num at hθσ hdσ ⊢
    linarith
  calc _ ≤ 1 / 50 * 68e-12 := mul_le_mul hf h1 (by positivity) (by norm_num)
    _ ≤ _ := by norm_num

end VincentyStable

open VincentyStable in
/-- **C93**: with the azimuth and the length that the Vincenty inverse solver returns for two points (at most `3 b`
apart, the first off the poles), the Vincenty direct solver returns and leads from the first to within `1e-11 a` of
the second. No term in the flattening: the truncation of the two series cancels. -/
theorem C93_direct_after_inverse {a b : ℝ} (hb : 0 < b) (hab : b ≤ a) (hf : (a - b) / a ≤ 1 / 50) (n : String)
    (l₁ φ₁ l₂ φ₂ : ℝ) (hc₁ : 0 < Real.cos φ₁) (hc₂ : 0 ≤ Real.cos φ₂) (g : Geodesic XR)
    (h : inverse ⟨ell n a b⟩ (lonR l₁, latR φ₁) (lonR l₂, latR φ₂) = .ok g) (s : ℝ) (hs : g.s = lenR s) (h3 : s ≤ 3 * b) :
    ∃ l φ α₂ : ℝ, direct ⟨ell n a b⟩ (lonR l₁, latR φ₁) g.alpha1 g.s =
        .ok ⟨(lonR l₁, latR φ₁), g.alpha1, (lonR l, latR φ), aziR α₂, g.s⟩ ∧
      -Real.pi ≤ l ∧ l ≤ Real.pi ∧ -(Real.pi / 2) ≤ φ ∧ φ ≤ Real.pi / 2 ∧
      ‖surfacePoint a b l φ - surfacePoint a b l₂ φ₂‖ ≤ 1e-11 * a := by
  have ha : 0 < a := lt_of_lt_of_le hb hab
  have f0 : 0 ≤ (a - b) / a := div_nonneg (by linarith) ha.le
  obtain ⟨β₁, β₂, L, l, l', σ, sa, c, e₁, e₂, hL, ht, hl', hlt, hlen, ha1, -⟩ := C62_converged hb hab n l₁ φ₁ l₂ φ₂ g h
  have hs' : s = vincentyLength a b sa σ c := by
    rw [hs] at hlen; simpa [lenR] using hlen
  rw [azi_new_fin, normR_id (Complex.neg_pi_lt_arg _) (Complex.arg_le_pi _)] at ha1
  obtain ⟨r₂, b2, b2'⟩ := reduced_of_eq hb hab hc₂ e₂
  have c2 := Real.cos_nonneg_of_neg_pi_div_two_le_of_le b2 b2'
  obtain ⟨α, α₂, m, hp, he, hsa, hm, hKc, u1, u2⟩ := triangle_arc c2 ht
  set α' := Complex.arg ⟨Real.cos β₁ * Real.sin β₂ - Real.sin β₁ * Real.cos β₂ * Real.cos l',
        Real.cos β₂ * Real.sin l'⟩ with hα'
  have hch : Real.sin σ ^ 2 * (2 - 2 * Real.cos (α' - α)) ≤ (2 * |l' - l|) ^ 2 := by
    refine chord_close (P := Real.cos β₁ * Real.sin β₂) (Q := -(Real.sin β₁ * Real.cos β₂)) (R := Real.cos β₂) (l'' := l')
      hp.le ?_ (Real.abs_cos_le_one _) (by rw [u1]; ring) u2 (Or.inl rfl) (by rw [hα', neg_mul, ← sub_eq_add_neg])
    rw [abs_neg, abs_mul]
    exact mul_le_one₀ (Real.abs_sin_le_one _) (abs_nonneg _) (Real.abs_cos_le_one _)
  -- the direct solver
  rw [ha1, hs]
  obtain ⟨g', hg'⟩ := C79_vincenty_returns hb hab hf n l₁ φ₁ α' s hc₁
  obtain ⟨β, sa', u2', m', σ₁, σ', hβ, hsa', hu2', hm', -, hlt', hσ', ho⟩ := C72_vincenty_direct hb hab n l₁ φ₁ α' s hc₁ g' hg'
  have hββ : β = β₁ := by rw [e₁] at hβ; simpa using hβ.symm
  subst hββ
  obtain ⟨β₁', β₂', lam, α₂', φ₂', w1, w2, w3, w4, -, -, he', rfl⟩ := ho
  have hββ : β₁' = β := by rw [e₁] at w1; simpa using w1.symm
  subst hββ
  obtain ⟨r₂', -, -⟩ := reduced_of_eq hb hab (Real.cos_nonneg_of_neg_pi_div_two_le_of_le w3 w4) w2
  set X := vincentyExcess ((a - b) / a) sa' σ₁ (Real.cos (2 * m' + σ₁)) with hX
  have hd := remR_same (l₁ + (lam - X))
  refine ⟨remR (l₁ + (lam - X)), φ₂', α₂', by rw [hg', lon_new_fin]; rfl, le_remR _, remR_le _, w3, w4, ?_⟩
  have eS : surfacePoint a b (remR (l₁ + (lam - X))) φ₂' = surfacePoint a b (l₁ + (lam - X)) φ₂' := by
    simp only [surfacePoint, hd.cos, hd.sin]
  have eT : surfacePoint a b l₂ φ₂ = surfacePoint a b (l₁ + L) φ₂ := by
    have : SameDirection (l₁ + L) l₂ := by
      have := (SameDirection.refl l₁).add hL.2.2
      rwa [add_sub_cancel] at this
    simp only [surfacePoint, this.cos, this.sin]
  rw [eS, eT]
  -- the arc
  have hσ0 : 0 < σ := lt_of_le_of_ne ht.nonneg fun e => by rw [← e, Real.sin_zero] at hp; exact lt_irrefl _ hp
  have E0 : 0 ≤ (a ^ 2 - b ^ 2) / b ^ 2 := div_nonneg (sub_nonneg.2 (pow_le_pow_left₀ hb.le hab 2)) (by positivity)
  have E1 : (a ^ 2 - b ^ 2) / b ^ 2 ≤ 1 / 20 := by
    have := (Bessel.x_facts (s0 := 0) (c0 := 1) hb hab (by norm_num) (x := (a ^ 2 - b ^ 2) / b ^ 2) (by ring) hf).2.1
    exact this
  obtain ⟨k0, k1⟩ := node_K β₁' α
  have hlen2 : s / b = vincentyA ((1 - (Real.cos β₁' * Real.sin α) ^ 2) * ((a ^ 2 - b ^ 2) / b ^ 2)) * (σ -
      vincentyDeltaSigma (vincentyB ((1 - (Real.cos β₁' * Real.sin α) ^ 2) * ((a ^ 2 - b ^ 2) / b ^ 2))) σ
        (Real.cos (2 * m + σ))) := by
    rw [hs', vincentyLength, delta_poly, hKc, ← delta_poly, mul_assoc, mul_div_cancel_left₀ _ hb.ne', hsa]
  have hexc : vincentyExcess ((a - b) / a) sa σ c =
      vincentyExcess ((a - b) / a) (Real.cos β₁' * Real.sin α) σ (Real.cos (2 * m + σ)) := by
    rw [excess_poly, hKc, ← excess_poly, hsa]
  obtain ⟨t1, t2⟩ := angle_close α α'
  have hψ := Real.sq_sqrt (show 0 ≤ 2 - 2 * Real.cos (α' - α) by linarith [Real.cos_le_one (α' - α)])
  have hψ0 := Real.sqrt_nonneg (2 - 2 * Real.cos (α' - α))
  have hsin : Real.sin σ * Real.sqrt (2 - 2 * Real.cos (α' - α)) ≤ 2 * 1e-12 := by
    have h1 : Real.sin σ * Real.sqrt (2 - 2 * Real.cos (α' - α)) ≤ 2 * |l' - l| := by
      refine (sq_le_sq₀ (by positivity) (by positivity)).1 ?_
      rw [mul_pow, hψ]; exact hch
    linarith
  set θ := Real.sqrt (2 - 2 * Real.cos (α' - α))
  rw [hsa'] at hu2'
  rw [hu2', div_mul_eq_div_div] at hσ'
  have hA := arc_close E0 E1 hσ0.le t1 hm hm' hlen2 hσ' hlt'.le
  have hlon := lon_close (σ₁ := σ₁) f0 hf hσ0.le t1 t2 hm hm'
  rw [← hsa', ← hX, ← hexc] at hlon
  -- the arc is at most 3.04
  have hx0 : 0 ≤ (1 - (Real.cos β₁' * Real.sin α) ^ 2) * ((a ^ 2 - b ^ 2) / b ^ 2) := mul_nonneg k0 E0
  have hx1 : (1 - (Real.cos β₁' * Real.sin α) ^ 2) * ((a ^ 2 - b ^ 2) / b ^ 2) ≤ 1 / 20 :=
    (mul_le_of_le_one_left E0 k1).trans E1
  have lo := (vin_length_bounds (m := m) hx0 hx1 hσ0).1
  have hsb : s / b ≤ 3 := by rw [div_le_iff₀ hb]; exact h3
  have eF : ∀ u : ℝ, Bessel.vinF u (m + σ) - Bessel.vinF u m =
      vincentyA u * (σ - vincentyDeltaSigma (vincentyB u) σ (Real.cos (2 * m + σ))) := fun u => by
    simp only [Bessel.vinF, Bessel.delta_eq]; ring
  rw [eF, ← hlen2] at lo
  obtain ⟨hdσ, hdX⟩ := numbers hσ0 hp hψ0 (abs_nonneg _) (by linarith) hsin hA hlon hf
  have n1 := end_close (l₀ := l₁ - X) hb hab he he' r₂ r₂' hp.le (abs_nonneg _) hch
  have n2 := Bessel.surfacePoint_sub (l := l₁ - X + l) (l' := l₁ + L) ha.le r₂
  rw [show l₁ - X + lam = l₁ + (lam - X) by ring] at n1
  have e5 : |l₁ - X + l - (l₁ + L)| ≤ 1e-12 + 14e-13 := by
    rw [show l₁ - X + l - (l₁ + L) = -(l' - l) - (X - vincentyExcess ((a - b) / a) sa σ c) by rw [hl']; ring]
    refine (abs_sub _ _).trans ?_
    rw [abs_neg]
    exact add_le_add hlt.le hdX
  calc _ ≤ _ := norm_sub_le_norm_sub_add_norm_sub _ (surfacePoint a b (l₁ - X + l) φ₂) _
    _ ≤ a * (5e-12 + 2 * 1e-12) + a * (1e-12 + 14e-13) := by
        refine add_le_add (n1.trans ?_) (n2.trans ?_)
        · gcongr
        · gcongr
    _ = (5e-12 + 2 * 1e-12 + (1e-12 + 14e-13)) * a := by ring
    _ ≤ _ := by gcongr; norm_num

/-- On WGS 84 the solver returns for the points (0, 1/2) and (1, 1/4), 57° of longitude apart, less than `3 b` apart,
and the direct solver leads back to the second within a tenth of a millimetre. -/
example : ∃ (g : Geodesic XR) (l φ α₂ : ℝ),
    inverse ⟨ell "WGS 84" 6378137 6356752.314245⟩ (lonR 0, latR (1 / 2)) (lonR 1, latR (1 / 4)) = .ok g ∧
    direct ⟨ell "WGS 84" 6378137 6356752.314245⟩ (lonR 0, latR (1 / 2)) g.alpha1 g.s =
      .ok ⟨(lonR 0, latR (1 / 2)), g.alpha1, (lonR l, latR φ), aziR α₂, g.s⟩ ∧
    ‖surfacePoint 6378137 6356752.314245 l φ - surfacePoint 6378137 6356752.314245 1 (1 / 4)‖ ≤ 1e-4 := by
  have hc : ∀ x : ℝ, 0 ≤ x → x ≤ 3 / 2 → 0 < Real.cos x := fun x h0 h1 =>
    Real.cos_pos_of_mem_Ioo ⟨by linarith [Real.pi_gt_three], by linarith [Real.pi_gt_three]⟩
  have hs : ∀ x : ℝ, 0 < x → x ≤ 1 → 0 < Real.sin x := fun x h0 h1 =>
    Real.sin_pos_of_pos_of_lt_pi h0 (by linarith [Real.pi_gt_three])
  have hb : (0 : ℝ) < 6356752.314245 := by norm_num
  have hab : (6356752.314245 : ℝ) ≤ 6378137 := by norm_num
  have hf : (6378137 - 6356752.314245 : ℝ) / 6378137 ≤ 1 / 50 := by norm_num
  have c1 := hc (1 / 2) (by norm_num) (by norm_num)
  have c2 := hc (1 / 4) (by norm_num) (by norm_num)
  obtain ⟨β₁, e₁, -⟩ := reducedLatitude_all hb hab "WGS 84" (1 / 2)
  obtain ⟨β₂, e₂, -⟩ := reducedLatitude_all hb hab "WGS 84" (1 / 4)
  obtain ⟨r₁, -, -⟩ := reduced_of_eq hb hab c1.le e₁
  obtain ⟨r₂, -, -⟩ := reduced_of_eq hb hab c2.le e₂
  have k1 := reduced_cos_pos hb hab r₁ c1
  have k2 := reduced_cos_pos hb hab r₂ c2
  have s1 : 0 < Real.sin β₁ := by
    refine pos_of_mul_pos_right ?_ hb.le
    rw [← r₁.2]
    have := hs (1 / 2) (by norm_num) (by norm_num)
    positivity
  have s2 : 0 < Real.sin β₂ := by
    refine pos_of_mul_pos_right ?_ hb.le
    rw [← r₂.2]
    have := hs (1 / 4) (by norm_num) (by norm_num)
    positivity
  have hd : surfacePoint 6378137 6356752.314245 0 (1 / 2) ≠ surfacePoint 6378137 6356752.314245 1 (1 / 4) := by
    intro h
    rw [Bessel.surfacePoint_reduced r₁, Bessel.surfacePoint_reduced r₂] at h
    have := congrArg (fun v : E3 => v 1) h
    simp at this
    rcases this with h | h
    · exact k2.ne' h
    · exact (hs 1 (by norm_num) le_rfl).ne' h
  have h3 : (141 / 1000 : ℝ) ≤ Real.sin 3 := by
    have hp := Real.pi_gt_d4
    have hp' := Real.pi_lt_d4
    have := Real.sin_gt_sub_cube (x := Real.pi - 3) (by linarith)
    rw [Real.sin_pi_sub] at this
    have h2 : (Real.pi - 3) ^ 3 ≤ (1416 / 10000) ^ 3 := pow_le_pow_left₀ (by linarith) (by linarith) 3
    norm_num at h2 hp hp' ⊢
    linarith
  obtain ⟨g, hg⟩ := C80_vincenty_returns hb hab hf "WGS 84" 0 (1 / 2) 1 (1 / 4) β₁ β₂ 3 c1.le c2.le e₁ e₂ hd
    Real.pi_gt_three (le_trans (by norm_num) h3) (by
      have : Real.arccos (Real.sin β₁ * Real.sin β₂ + Real.cos β₁ * Real.cos β₂ * Real.cos (1 - 0)) ≤ Real.pi / 2 := by
        rw [Real.arccos_le_pi_div_two]
        have := hc (1 - 0) (by norm_num) (by norm_num)
        positivity
      have hp := Real.pi_lt_d4
      generalize Real.arccos _ = q at this ⊢
      norm_num at hp ⊢
      linarith)
  obtain ⟨s, hs, hle⟩ : ∃ s, g.s = lenR s ∧ s ≤ 3 * 6356752.314245 := by
    obtain ⟨β₁', β₂', L, l, l', σ, sa, c, e₁', e₂', hL, ht, hl', hlt, hlen, -, -⟩ :=
      C62_converged hb hab "WGS 84" 0 (1 / 2) 1 (1 / 4) g hg
    have h1 : β₁' = β₁ := by rw [e₁] at e₁'; simpa using e₁'.symm
    have h2 : β₂' = β₂ := by rw [e₂] at e₂'; simpa using e₂'.symm
    subst h1 h2
    obtain ⟨α, α₂, m, hp, he, hsa, hm, hKc, -, -⟩ := VincentyStable.triangle_arc k2.le ht
    have hL1 : L = 1 := by
      have := normR_eq hL
      rw [← this, normR_id] <;> linarith [Real.pi_gt_three]
    obtain ⟨q0, q1⟩ := VincentyStable.node_K β₁' α
    rw [← hsa] at q0 q1
    have hX := (VincentyStable.excess_close (f := (6378137 - 6356752.314245) / 6378137) (δ := 0) (q := (1 - sa ^ 2) * Real.cos (2 * m + σ))
      (q' := (1 - sa ^ 2) * Real.cos (2 * m + σ)) (by norm_num) hf q0 q1 q0 q1 (by simp) (by simp)
      (VincentyStable.abs_mul_cos_le q0 q1 _) (VincentyStable.abs_mul_cos_le q0 q1 _) ht.nonneg).2
    rw [← hKc] at hX
    have hsa1 : |sa| ≤ 1 := by
      rw [← sq_le_one_iff_abs_le_one]; linarith
    have hlp := ht.le_pi
    have hX2 : |vincentyExcess ((6378137 - 6356752.314245) / 6378137) sa σ c| ≤ 1 / 50 := by
      rw [VincentyStable.excess_poly, abs_mul, abs_mul]
      have hpi := Real.pi_lt_d2
      have h5 : |(6378137 - 6356752.314245 : ℝ) / 6378137| ≤ 1 / 250 := by rw [abs_of_nonneg (by norm_num)]; norm_num
      have h6 := mul_le_mul hsa1 (hX.trans (by linarith : _ ≤ (1006 / 1000 * (315 / 100) : ℝ))) (abs_nonneg _) (by norm_num)
      exact (mul_le_mul h5 h6 (by positivity) (by norm_num)).trans (by norm_num)
    have hl : 0 ≤ l ∧ l ≤ 3 / 2 := by
      rw [hl', hL1] at hlt
      obtain ⟨a1, a2⟩ := abs_lt.1 hlt
      obtain ⟨a3, a4⟩ := abs_le.1 hX2
      norm_num at a1 a2 a3 a4
      exact ⟨by linarith, by linarith⟩
    have hσ : σ ≤ Real.pi / 2 := by
      by_contra hcon
      have hneg := Real.cos_nonpos_of_pi_div_two_le_of_le (not_le.1 hcon).le (by linarith [Real.pi_pos])
      rw [ht.cos_arc] at hneg
      have := hc l hl.1 hl.2
      have : 0 < Real.sin β₁' * Real.sin β₂' + Real.cos β₁' * Real.cos β₂' * Real.cos l := by positivity
      linarith
    have hσ0 : 0 < σ := lt_of_le_of_ne ht.nonneg fun e => by rw [← e, Real.sin_zero] at hp; exact lt_irrefl _ hp
    refine ⟨_, hlen, ?_⟩
    have E1 : ((6378137 : ℝ) ^ 2 - 6356752.314245 ^ 2) / 6356752.314245 ^ 2 ≤ 1 / 20 := by norm_num
    have E0 : 0 ≤ ((6378137 : ℝ) ^ 2 - 6356752.314245 ^ 2) / 6356752.314245 ^ 2 := by norm_num
    have hi := (vin_length_bounds (m := m) (mul_nonneg q0 E0) ((mul_le_of_le_one_left E0 q1).trans E1) hσ0).2
    have eF : ∀ u : ℝ, Bessel.vinF u (m + σ) - Bessel.vinF u m =
        vincentyA u * (σ - vincentyDeltaSigma (vincentyB u) σ (Real.cos (2 * m + σ))) := fun u => by
      simp only [Bessel.vinF, Bessel.delta_eq]; ring
    rw [eF, VincentyStable.delta_poly, ← hKc, ← VincentyStable.delta_poly] at hi
    rw [vincentyLength, mul_assoc, mul_comm (3 : ℝ)]
    refine mul_le_mul_of_nonneg_left ?_ hb.le
    have := Real.pi_lt_d2
    refine hi.trans ?_
    linarith
  obtain ⟨l, φ, α₂, w1, -, -, -, -, w2⟩ := C93_direct_after_inverse hb hab hf "WGS 84" 0 (1 / 2) 1 (1 / 4) c1 c2.le g hg s hs hle
  exact ⟨g, l, φ, α₂, hg, w1, w2.trans (by norm_num)⟩

end Geo
