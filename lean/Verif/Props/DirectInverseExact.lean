import Verif.Lemmas.InverseFixed
import Verif.Props.InverseDirectExact

/-! # C94: the inverse solver of Vincenty after his direct solver, in exact arithmetic -/

namespace Geo
open XR Spec VincentyGeodesicSolver

namespace VincentyStable

/-- The lengths of two arcs from the same latitude in nearby azimuths. -/
theorem length_close {E β α α' m m' θ σ σ₁ σ' ε : ℝ} (E0 : 0 ≤ E) (E1 : E ≤ 1 / 20) (hσ0 : 0 ≤ σ)
    (hc : |Real.cos α - Real.cos α'| ≤ θ) (h : IsNodeArc β α m) (h' : IsNodeArc β α' m') (he : |σ₁ - σ'| ≤ ε) :
    |vincentyA ((1 - (Real.cos β * Real.sin α) ^ 2) * E) * (σ -
      vincentyDeltaSigma (vincentyB ((1 - (Real.cos β * Real.sin α) ^ 2) * E)) σ (Real.cos (2 * m + σ))) -
     vincentyA ((1 - (Real.cos β * Real.sin α') ^ 2) * E) * (σ₁ -
      vincentyDeltaSigma (vincentyB ((1 - (Real.cos β * Real.sin α') ^ 2) * E)) σ' (Real.cos (2 * m' + σ')))| ≤
    79 / 1000 * (θ * σ) + 1026 / 1000 * |σ - σ₁| + 13 / 1000 * ε := by
  obtain ⟨hk, hq⟩ := node_close (σ := σ) hc h h'
  obtain ⟨k0, k1⟩ := node_K β α
  obtain ⟨k0', k1'⟩ := node_K β α'
  have hθ : 0 ≤ θ := (abs_nonneg _).trans hc
  have q1 := abs_mul_cos_le k0 k1 (2 * m + σ)
  have q1' := abs_mul_cos_le k0' k1' (2 * m' + σ)
  set K := 1 - (Real.cos β * Real.sin α) ^ 2
  set K' := 1 - (Real.cos β * Real.sin α') ^ 2
  have hD := delta_close E0 E1 k0 k1 k0' k1' hk hq q1 q1' σ
  have hA := (ser_close E0 E1 k0 k1 k0' k1' hk).2.2
  rw [← delta_poly, ← delta_poly] at hD
  have hD' : |vincentyDeltaSigma (vincentyB (K * E)) σ (Real.cos (2 * m + σ)) -
      vincentyDeltaSigma (vincentyB (K' * E)) σ (Real.cos (2 * m' + σ))| ≤ 52 / 1000 * (θ * σ) := by
    refine hD.trans ?_
    have : |Real.sin σ| ≤ σ := Real.abs_sin_le_abs.trans (abs_of_nonneg hσ0).le
    rw [mul_assoc]
    gcongr
  have u0 : 0 ≤ K' * E := mul_nonneg k0' E0
  have u1 : K' * E ≤ 1 / 20 := (mul_le_of_le_one_left E0 k1').trans E1
  have v0 : 0 ≤ K * E := mul_nonneg k0 E0
  have v1 : K * E ≤ 1 / 20 := (mul_le_of_le_one_left E0 k1).trans E1
  obtain ⟨B0, B1⟩ := Bessel.vinB_bounds u0 u1
  obtain ⟨A0, A1⟩ := Bessel.vinA_bounds u0 u1
  obtain ⟨C0, C1⟩ := Bessel.vinB_bounds v0 v1
  set A := vincentyA (K * E)
  set A' := vincentyA (K' * E)
  set D := vincentyDeltaSigma (vincentyB (K * E)) σ (Real.cos (2 * m + σ)) with hDd
  have hDσ : |D| ≤ 127 / 10000 * σ := by
    have := Bessel.vinH_lip C0 (by linarith) m (m + σ)
    rw [add_sub_cancel_left, abs_of_nonneg hσ0] at this
    rw [hDd, Bessel.delta_eq]
    refine this.trans (mul_le_mul_of_nonneg_right (by linarith) hσ0)
  have lip : ∀ x y, |vincentyDeltaSigma (vincentyB (K' * E)) y (Real.cos (2 * m' + y)) -
      vincentyDeltaSigma (vincentyB (K' * E)) x (Real.cos (2 * m' + x))| ≤ 127 / 10000 * |y - x| := fun x y => by
    rw [Bessel.delta_eq, Bessel.delta_eq]
    have := Bessel.vinH_lip B0 (by linarith) (m' + x) (m' + y)
    rw [add_sub_add_left_eq_sub] at this
    rw [sub_sub_sub_cancel_right]
    exact this.trans (mul_le_mul_of_nonneg_right (by linarith) (abs_nonneg _))
  have l1 := lip σ σ₁
  have l2 := lip σ₁ σ'
  generalize vincentyDeltaSigma (vincentyB (K' * E)) σ (Real.cos (2 * m' + σ)) = D1 at hD' l1
  generalize vincentyDeltaSigma (vincentyB (K' * E)) σ₁ (Real.cos (2 * m' + σ₁)) = D2 at l1 l2
  generalize vincentyDeltaSigma (vincentyB (K' * E)) σ' (Real.cos (2 * m' + σ')) = D3 at l2 ⊢
  have key : A * (σ - D) - A' * (σ₁ - D3) = (A - A') * (σ - D) + A' * ((σ - σ₁) + (D1 - D) + (D2 - D1) + (D3 - D2)) := by ring
  have r1 : |(A - A') * (σ - D)| ≤ 1 / 40 * θ * (10127 / 10000 * σ) := by
    rw [abs_mul]
    refine mul_le_mul hA ?_ (abs_nonneg _) (by positivity)
    refine (abs_sub _ _).trans ?_
    rw [abs_of_nonneg hσ0]; linarith
  rw [abs_sub_comm] at hD'
  rw [abs_sub_comm] at he
  rw [abs_sub_comm σ₁ σ] at l1
  have r2 : |(σ - σ₁) + (D1 - D) + (D2 - D1) + (D3 - D2)| ≤ 10127 / 10000 * |σ - σ₁| + 52 / 1000 * (θ * σ) + 127 / 10000 * ε := by
    have := (abs_add_le ((σ - σ₁) + (D1 - D) + (D2 - D1)) (D3 - D2)).trans (add_le_add_left ((abs_add_le _ _).trans (add_le_add_left (abs_add_le _ _) _)) _)
    linarith
  have hθσ := mul_nonneg hθ hσ0
  have hε := (abs_nonneg _).trans he
  have r3 : |A' * ((σ - σ₁) + (D1 - D) + (D2 - D1) + (D3 - D2))| ≤
      1013 / 1000 * (10127 / 10000 * |σ - σ₁| + 52 / 1000 * (θ * σ) + 127 / 10000 * ε) := by
    rw [abs_mul, abs_of_nonneg (by linarith : 0 ≤ A')]
    exact mul_le_mul (by linarith) r2 (abs_nonneg _) (by norm_num)
  rw [key]
  refine (abs_add_le _ _).trans ?_
  have := abs_nonneg (σ - σ₁)
  linarith

/-- The end of an arc `σ` as a triangle. -/
theorem end_triangle {β₁ α σ β₂ lam α₂ m : ℝ} (h : ArcEnd β₁ α σ β₂ lam α₂) (hm : IsNodeArc β₁ α m) (h0 : 0 < σ) (h1 : σ < Real.pi) :
    arc β₁ β₂ lam = σ ∧ salpha β₁ β₂ lam = Real.cos β₁ * Real.sin α ∧
    (∀ f c, vincentyExcess f (Real.cos β₁ * Real.sin α) σ (mid β₁ β₂ lam c) =
      vincentyExcess f (Real.cos β₁ * Real.sin α) σ (Real.cos (2 * m + σ))) ∧
    Real.sin σ * Real.cos α = Real.cos β₁ * Real.sin β₂ - Real.sin β₁ * Real.cos β₂ * Real.cos lam ∧
    (Real.cos β₂ ≠ 0 → Real.sin σ * Real.cos α₂ = -Real.sin β₁ * Real.cos β₂ + Real.cos β₁ * Real.sin β₂ * Real.cos lam ∧
      Real.sin σ * Real.sin α₂ = Real.cos β₁ * Real.sin lam) := by
  have q1 := Real.sin_sq_add_cos_sq β₁
  have q2 := Real.sin_sq_add_cos_sq β₂
  have q4 := Real.sin_sq_add_cos_sq σ
  have ha : arc β₁ β₂ lam = σ := by
    refine Real.injOn_cos ⟨arc_nonneg _ _ _, arc_le_pi _ _ _⟩ ⟨h0.le, h1.le⟩ ?_
    rw [cos_arc, csig, h.height, mul_assoc (Real.cos β₁) (Real.cos β₂), h.outward]
    linear_combination Real.cos σ * q1
  have hp := Real.sin_pos_of_pos_of_lt_pi h0 h1
  have hs : salpha β₁ β₂ lam = Real.cos β₁ * Real.sin α := by
    rw [salpha, ha, mul_assoc, h.east]
    field_simp
  refine ⟨ha, hs, fun f c => ?_, ?_, fun h2 => ⟨?_, ?_⟩⟩
  · rw [excess_poly, excess_poly]
    congr 2
    obtain ⟨n1, n2⟩ := node_facts hm σ
    rw [mid, hs, ha]
    split
    · rename_i h3
      rw [h3, zero_mul, zero_mul]
    · rename_i h3
      rw [n2, mul_sub, show (1 - (Real.cos β₁ * Real.sin α) ^ 2) * (2 * Real.sin β₁ * Real.sin β₂ / (1 - (Real.cos β₁ * Real.sin α) ^ 2)) =
        2 * Real.sin β₁ * Real.sin β₂ by rw [mul_div_assoc', mul_div_cancel_left₀ _ h3], h.height, n1]
      ring_nf
  · rw [mul_assoc (Real.sin β₁) (Real.cos β₂), h.outward, h.height]
    linear_combination (-(Real.sin σ * Real.cos α)) * q1
  · refine mul_left_cancel₀ h2 ?_
    have e1 := h.north
    have e2 := h.outward
    have e3 := h.height
    have : Real.cos β₂ * (-Real.sin β₁ * Real.cos β₂ + Real.cos β₁ * Real.sin β₂ * Real.cos lam) =
        -Real.sin β₁ * (1 - Real.sin β₂ ^ 2) + Real.cos β₁ * Real.sin β₂ * (Real.cos β₂ * Real.cos lam) := by
      linear_combination (-Real.sin β₁) * q2
    rw [this, show Real.cos β₂ * (Real.sin σ * Real.cos α₂) = Real.sin σ * (Real.cos β₂ * Real.cos α₂) by ring, e1, e2, e3]
    linear_combination (-Real.sin β₁) * q4 - (Real.sin β₁ * Real.cos σ ^ 2 + Real.cos β₁ * Real.cos σ * Real.sin σ * Real.cos α) * q1
  · refine mul_left_cancel₀ h2 ?_
    linear_combination Real.sin σ * h.clairaut - Real.cos β₁ * h.east

/-- The arc that the direct solver finds. -/
theorem arc_numbers {t A D σ σ' : ℝ} (A0 : 1 ≤ A) (A1 : A ≤ 1013 / 1000) (hD : |D| ≤ 127 / 10000 * |σ'|) (hσ : σ = t / A + D)
    (he : |σ - σ'| < 1e-12) (t0 : 1e-12 ≤ t) (t1 : t ≤ 29 / 10) : 0 < σ ∧ σ ≤ 294 / 100 ∧ t ≤ 105 / 100 * σ := by
  have ht : 0 < t := lt_of_lt_of_le (by norm_num) t0
  have hA : 0 < A := by linarith
  have e1 : |σ'| ≤ |σ| + 1e-12 := by
    have := abs_sub_abs_le_abs_sub σ' σ
    rw [abs_sub_comm] at this
    linarith
  have e2 : |D| ≤ 127 / 10000 * (|σ| + 1e-12) := hD.trans (by linarith)
  have e3 : t / A ≤ t := div_le_self ht.le A0
  have e4 : t ≤ 1013 / 1000 * (t / A) := by
    rw [mul_div_assoc', le_div_iff₀ hA]
    nlinarith
  obtain ⟨d1, d2⟩ := abs_le.1 e2
  have hpos : 0 < σ := by
    by_contra hc
    rw [abs_of_nonpos (not_lt.1 hc)] at d1
    norm_num at d1 t0
    linarith
  rw [abs_of_pos hpos] at d1 d2
  norm_num at d1 d2 t0
  exact ⟨hpos, by linarith, by linarith⟩

theorem sin_298 : 160 / 1000 ≤ Real.sin (298 / 100) := by
  have h := Real.pi_gt_d4
  have h2 := Real.pi_lt_d4
  rw [← Real.sin_pi_sub]
  refine le_trans ?_ (Real.sin_gt_sub_cube (x := Real.pi - 298 / 100) (by linarith)).le
  have : (Real.pi - 298 / 100) ^ 3 ≤ (162 / 1000) ^ 3 := pow_le_pow_left₀ (by linarith) (by linarith) 3
  norm_num at this h ⊢
  linarith

theorem ratio_294 {σ : ℝ} (h0 : 0 < σ) (h1 : σ ≤ 294 / 100) : σ ≤ 148 / 10 * Real.sin σ := by
  have hp := Real.sin_pos_of_pos_of_lt_pi h0 (by linarith [Real.pi_gt_three] : σ < Real.pi)
  have h := Real.pi_gt_d4
  have h2 := Real.pi_lt_d4
  have hs : 199 / 1000 ≤ Real.sin (294 / 100) := by
    rw [← Real.sin_pi_sub]
    refine le_trans ?_ (Real.sin_gt_sub_cube (x := Real.pi - 294 / 100) (by linarith)).le
    have : (Real.pi - 294 / 100) ^ 3 ≤ (202 / 1000) ^ 3 := pow_le_pow_left₀ (by linarith) (by linarith) 3
    norm_num at this h ⊢
    linarith
  have hr := arc_ratio h0 h1 (by linarith [Real.pi_gt_three])
  have hn : (294 / 100 : ℝ) / Real.sin (294 / 100) ≤ 148 / 10 := by
    rw [div_le_iff₀ (by linarith)]
    linarith
  exact (div_le_iff₀ hp).1 (hr.trans hn)

/-- Azimuths that differ by less than `δ` at the end of the arc. -/
theorem direction_numbers {b s σ d x : ℝ} (hb : 0 < b) (hs : 0 < s) (h0 : 0 < σ) (h1 : σ ≤ 294 / 100) (ht : s / b ≤ 105 / 100 * σ)
    (hx0 : 0 ≤ x) (hx : Real.sin σ * x ≤ 2 * d) (hd : d ≤ 5e-13) : x ≤ 2e-11 * (b / s) := by
  have hr := ratio_294 h0 h1
  have e1 : σ * x ≤ 148e-13 := by
    have := mul_le_mul_of_nonneg_right hr hx0
    norm_num at hd ⊢
    linarith
  have e2 : s / b * x ≤ 2e-11 := by
    have := mul_le_mul_of_nonneg_right ht hx0
    norm_num at e1 ⊢
    linarith
  have : 0 < s / b := by positivity
  rw [show 2e-11 * (b / s) = 2e-11 / (s / b) by field_simp, le_div_iff₀ this]
  linarith

theorem length_numbers {σ σ₁ θ d x : ℝ} (h0 : 0 < σ₁) (h1 : σ₁ ≤ 294 / 100) (hθ0 : 0 ≤ θ) (hθ2 : θ ≤ 2) (hθ : Real.sin σ₁ * θ ≤ 2 * d)
    (hd : d ≤ 15e-13) (hσ : |σ - σ₁| ≤ d) (hx : x ≤ 79 / 1000 * (θ * σ) + 1026 / 1000 * |σ - σ₁| + 13 / 1000 * 1e-12) :
    x ≤ 1e-11 := by
  have hr := ratio_294 h0 h1
  have e1 : θ * σ₁ ≤ 444e-13 := by
    have := mul_le_mul_of_nonneg_left hr hθ0
    norm_num at hd ⊢
    linarith
  have e2 : θ * (σ - σ₁) ≤ 30e-13 := by
    have h2 : σ - σ₁ ≤ 15e-13 := ((le_abs_self _).trans hσ).trans hd
    calc θ * (σ - σ₁) ≤ θ * 15e-13 := mul_le_mul_of_nonneg_left h2 hθ0
      _ ≤ 2 * 15e-13 := mul_le_mul_of_nonneg_right hθ2 (by norm_num)
      _ ≤ _ := by norm_num
  have e3 : |σ - σ₁| ≤ 15e-13 := hσ.trans hd
  norm_num at e1 e2 e3 hx ⊢
  linarith

end VincentyStable

open VincentyStable in
/-- **C94**: from a point off the poles, over a distance between `1e-12 b` and `2.9 b`, the Vincenty direct solver
returns, and for the end that it returns the Vincenty inverse solver returns, with the distance within `1e-11 b` and
the azimuths at both ends that the direct solver was given and returned (`direction`: as unit vectors), within
`2e-11 b / s`. No term in the flattening: the truncation of the two series cancels. -/
theorem C94_inverse_after_direct {a b : ℝ} (hb : 0 < b) (hab : b ≤ a) (hf : (a - b) / a ≤ 1 / 250) (n : String)
    (l₁ φ₁ α s : ℝ) (hc₁ : 0 < Real.cos φ₁) (h0 : 1e-12 * b ≤ s) (h3 : s ≤ 29 / 10 * b) :
    ∃ l₂ φ₂ α₂ α₁' α₂' s' : ℝ,
      direct ⟨ell n a b⟩ (lonR l₁, latR φ₁) (aziR α) (lenR s) =
        .ok ⟨(lonR l₁, latR φ₁), aziR α, (lonR l₂, latR φ₂), aziR α₂, lenR s⟩ ∧
      inverse ⟨ell n a b⟩ (lonR l₁, latR φ₁) (lonR l₂, latR φ₂) =
        .ok ⟨(lonR l₁, latR φ₁), aziR α₁', (lonR l₂, latR φ₂), aziR α₂', lenR s'⟩ ∧
      |s' - s| ≤ 1e-11 * b ∧ ‖direction l₁ φ₁ α₁' - direction l₁ φ₁ α‖ ≤ 2e-11 * (b / s) ∧
      (Real.cos φ₂ ≠ 0 → ‖direction l₂ φ₂ α₂' - direction l₂ φ₂ α₂‖ ≤ 2e-11 * (b / s)) := by
  have ha : 0 < a := lt_of_lt_of_le hb hab
  have hs : 0 < s := lt_of_lt_of_le (by positivity) h0
  have f0 : 0 ≤ (a - b) / a := div_nonneg (by linarith) ha.le
  have hf' : (a - b) / a ≤ 1 / 50 := hf.trans (by norm_num)
  obtain ⟨g, hg⟩ := C79_vincenty_returns hb hab hf' n l₁ φ₁ α s hc₁
  obtain ⟨β, sa, u2, m, σ, σ', hβ, hsa, hu2, hm, -, hlt, hσ, ho⟩ := C72_vincenty_direct hb hab n l₁ φ₁ α s hc₁ g hg
  obtain ⟨β₁, β₂, lam₀, α₂, φ₂, w1, w2, w3, w4, -, -, he₀, rfl⟩ := ho
  have hββ : β₁ = β := by rw [hβ] at w1; simpa using w1.symm
  subst hββ
  have hc₂ := Real.cos_nonneg_of_neg_pi_div_two_le_of_le w3 w4
  obtain ⟨r₁, -, -⟩ := reduced_of_eq hb hab hc₁.le hβ
  obtain ⟨r₂, -, -⟩ := reduced_of_eq hb hab hc₂ w2
  have c1 := reduced_cos_pos hb hab r₁ hc₁
  -- the arc of the direct solver
  have E0 : 0 ≤ (a ^ 2 - b ^ 2) / b ^ 2 := div_nonneg (sub_nonneg.2 (pow_le_pow_left₀ hb.le hab 2)) (by positivity)
  have E1 : (a ^ 2 - b ^ 2) / b ^ 2 ≤ 1 / 20 :=
    (Bessel.x_facts (s0 := 0) (c0 := 1) hb hab (by norm_num) (x := (a ^ 2 - b ^ 2) / b ^ 2) (by ring) hf').2.1
  obtain ⟨k0, k1⟩ := node_K β₁ α
  have hx0 : 0 ≤ u2 := by rw [hu2, hsa]; exact mul_nonneg k0 E0
  have hx1 : u2 ≤ 1 / 20 := by rw [hu2, hsa]; exact (mul_le_of_le_one_left E0 k1).trans E1
  obtain ⟨A0, A1⟩ := Bessel.vinA_bounds hx0 hx1
  obtain ⟨B0, B1⟩ := Bessel.vinB_bounds hx0 hx1
  have hD : |vincentyDeltaSigma (vincentyB u2) σ' (Real.cos (2 * m + σ'))| ≤ 127 / 10000 * |σ'| := by
    have := Bessel.vinH_lip B0 (by linarith) m (m + σ')
    rw [add_sub_cancel_left] at this
    rw [Bessel.delta_eq]
    exact this.trans (mul_le_mul_of_nonneg_right (by linarith) (abs_nonneg _))
  have hσ2 := hσ
  rw [div_mul_eq_div_div] at hσ2
  obtain ⟨s0, s1, s2⟩ := arc_numbers A0 (by linarith) hD hσ2 hlt (by rw [le_div_iff₀ hb]; exact h0)
    (by rw [div_le_iff₀ hb]; exact h3)
  have sπ : σ < Real.pi := by linarith [Real.pi_gt_three]
  -- the longitude difference
  set X := vincentyExcess ((a - b) / a) sa σ (Real.cos (2 * m + σ)) with hX
  set l₂ := remR (l₁ + (lam₀ - X)) with hl₂
  set L := normR (l₂ - l₁) with hL
  have hdir : SameDirection (L + X) lam₀ := by
    have d1 : SameDirection L (l₂ - l₁) := normR_same _
    have d2 : SameDirection l₂ (l₁ + (lam₀ - X)) := remR_same _
    have d3 := (d1.add (SameDirection.refl l₁)).trans (by rw [sub_add_cancel]; exact d2)
    have d4 := (d3.add (SameDirection.refl (X - l₁)))
    rwa [show L + l₁ + (X - l₁) = L + X by ring, show l₁ + (lam₀ - X) + (X - l₁) = lam₀ by ring] at d4
  set lam := L + X with hlam
  have he : ArcEnd β₁ α σ β₂ lam α₂ := ⟨he₀.cos_nonneg, he₀.height, by rw [hdir.sin]; exact he₀.east,
    by rw [hdir.cos]; exact he₀.outward, he₀.clairaut, he₀.north⟩
  obtain ⟨t1, t2, t3, t4, t5⟩ := end_triangle he hm s0 sπ
  have hp := Real.sin_pos_of_pos_of_lt_pi s0 sπ
  obtain ⟨l, l', c, i1, i2, i3, i4, i5⟩ := inverse_fixed (l₁ := l₁) (φ₁ := φ₁) (l₂ := l₂) (φ₂ := φ₂) (lam := lam) (M := 298 / 100)
    (c₁ := 0) hb hab hf' n c1 he.cos_nonneg hβ w2 (by linarith [Real.pi_gt_three])
    (by have := sin_298; linarith) (by rw [t1]; exact hp.ne') (by rw [t1]; linarith)
    (by rw [t2, t1, t3, ← hsa, ← hX])
  refine ⟨l₂, φ₂, α₂, _, _, _, by rw [hg, lon_new_fin]; rfl, i5, ?_, ?_, ?_⟩
  · obtain ⟨αl, -, ml, hpl, -, hsal, hml, hKc, v1, v2⟩ := triangle_arc he.cos_nonneg (auxTriangle β₁ β₂ l c i1)
    -- the azimuth of the last triangle of the inverse solver
    set α' := Complex.arg ⟨Real.cos β₁ * Real.sin β₂ - Real.sin β₁ * Real.cos β₂ * Real.cos l, Real.cos β₂ * Real.sin l⟩ with hα'
    have hsame : Real.cos α' = Real.cos αl := by
      have := (polar (Real.cos β₁ * Real.sin β₂ - Real.sin β₁ * Real.cos β₂ * Real.cos l) (Real.cos β₂ * Real.sin l)).1
      rw [← hα', ← v1, ← v2, show (Real.sin (arc β₁ β₂ l) * Real.cos αl) ^ 2 + (Real.sin (arc β₁ β₂ l) * Real.sin αl) ^ 2 =
        Real.sin (arc β₁ β₂ l) ^ 2 by linear_combination Real.sin (arc β₁ β₂ l) ^ 2 * Real.sin_sq_add_cos_sq αl,
        Real.sqrt_sq hpl.le] at this
      exact mul_left_cancel₀ hpl.ne' this
    have hch : Real.sin σ ^ 2 * (2 - 2 * Real.cos (α' - α)) ≤ (2 * |l - lam|) ^ 2 := by
      refine chord_close (P := Real.cos β₁ * Real.sin β₂) (Q := -(Real.sin β₁ * Real.cos β₂)) (R := Real.cos β₂) (l'' := l)
        hp.le ?_ (Real.abs_cos_le_one _) (by rw [t4]; ring) he.east.symm (Or.inl rfl) (by rw [hα', neg_mul, ← sub_eq_add_neg])
      rw [abs_neg, abs_mul]
      exact mul_le_one₀ (Real.abs_sin_le_one _) (abs_nonneg _) (Real.abs_cos_le_one _)
    obtain ⟨z1, -⟩ := angle_close α α'
    have hψ := Real.sq_sqrt (show 0 ≤ 2 - 2 * Real.cos (α' - α) by linarith [Real.cos_le_one (α' - α)])
    have hψ0 := Real.sqrt_nonneg (2 - 2 * Real.cos (α' - α))
    have hψ2 : Real.sqrt (2 - 2 * Real.cos (α' - α)) ≤ 2 :=
      Real.sqrt_le_iff.2 ⟨by norm_num, by linarith [Real.neg_one_le_cos (α' - α)]⟩
    rw [← hψ, ← mul_pow] at hch
    have hsin := (sq_le_sq₀ (by positivity) (by positivity)).1 hch
    set θ := Real.sqrt (2 - 2 * Real.cos (α' - α))
    rw [hsame, abs_sub_comm] at z1
    have hdσ : |arc β₁ β₂ l - σ| ≤ |l - lam| := by
      have n1 := arc_lip β₁ β₂ l lam
      have n2 := arc_lip β₁ β₂ lam l
      rw [abs_sub_comm] at n2
      rw [t1] at n1 n2
      exact abs_le.2 ⟨by linarith, by linarith⟩
    have hlen := length_close E0 E1 (arc_nonneg β₁ β₂ l) z1 hml hm hlt.le
    have e1 : vincentyLength a b (salpha β₁ β₂ l) (arc β₁ β₂ l) (mid β₁ β₂ l c) =
        b * (vincentyA ((1 - (Real.cos β₁ * Real.sin αl) ^ 2) * ((a ^ 2 - b ^ 2) / b ^ 2)) * (arc β₁ β₂ l -
          vincentyDeltaSigma (vincentyB ((1 - (Real.cos β₁ * Real.sin αl) ^ 2) * ((a ^ 2 - b ^ 2) / b ^ 2))) (arc β₁ β₂ l)
            (Real.cos (2 * ml + arc β₁ β₂ l)))) := by
      rw [vincentyLength, delta_poly, hKc, ← delta_poly, mul_assoc, hsal]
    have e2 : s = b * (vincentyA ((1 - (Real.cos β₁ * Real.sin α) ^ 2) * ((a ^ 2 - b ^ 2) / b ^ 2)) * (σ -
          vincentyDeltaSigma (vincentyB ((1 - (Real.cos β₁ * Real.sin α) ^ 2) * ((a ^ 2 - b ^ 2) / b ^ 2))) σ'
            (Real.cos (2 * m + σ')))) := by
      rw [← hsa, ← hu2]
      have : vincentyA u2 ≠ 0 := by linarith
      nth_rw 1 [hσ2]
      field_simp
      ring
    rw [e1]
    nth_rw 1 [e2]
    rw [← mul_sub, abs_mul, abs_of_pos hb, mul_comm b]
    exact mul_le_mul_of_nonneg_right (length_numbers s0 s1 hψ0 hψ2 hsin i3 hdσ hlen) hb.le
  · rw [norm_sub_rev]
    refine direction_numbers hb hs s0 s1 s2 (norm_nonneg _) (azimuth_close (P := Real.cos β₁ * Real.sin β₂)
      (Q := -(Real.sin β₁ * Real.cos β₂)) (R := Real.cos β₂) (l'' := l') hp.le ?_ (Real.abs_cos_le_one _) (by rw [t4]; ring)
      he.east.symm (Or.inl rfl) (by rw [neg_mul, ← sub_eq_add_neg]) l₁ φ₁) i4
    rw [abs_neg, abs_mul]
    exact mul_le_one₀ (Real.abs_sin_le_one _) (abs_nonneg _) (Real.abs_cos_le_one _)
  · intro hne
    obtain ⟨t6, t7⟩ := t5 (reduced_cos_pos hb hab r₂ (lt_of_le_of_ne hc₂ hne.symm)).ne'
    rw [norm_sub_rev]
    refine direction_numbers hb hs s0 s1 s2 (norm_nonneg _) (azimuth_close (P := -Real.sin β₁ * Real.cos β₂)
      (Q := Real.cos β₁ * Real.sin β₂) (R := Real.cos β₁) (l'' := l') hp.le ?_ (Real.abs_cos_le_one _) t6 t7 (Or.inl rfl) rfl l₂ φ₂) i4
    rw [abs_mul]
    exact mul_le_one₀ (Real.abs_cos_le_one _) (abs_nonneg _) (Real.abs_sin_le_one _)

/-- On WGS 84, ten thousand kilometres to the north-east from (0, 1/2): the inverse solver gives the distance back
within a tenth of a millimetre. -/
example : ∃ l₂ φ₂ α₂ α₁' α₂' s' : ℝ,
    direct ⟨ell "WGS 84" 6378137 6356752.314245⟩ (lonR 0, latR (1 / 2)) (aziR 1) (lenR 10000000) =
      .ok ⟨(lonR 0, latR (1 / 2)), aziR 1, (lonR l₂, latR φ₂), aziR α₂, lenR 10000000⟩ ∧
    inverse ⟨ell "WGS 84" 6378137 6356752.314245⟩ (lonR 0, latR (1 / 2)) (lonR l₂, latR φ₂) =
      .ok ⟨(lonR 0, latR (1 / 2)), aziR α₁', (lonR l₂, latR φ₂), aziR α₂', lenR s'⟩ ∧ |s' - 10000000| ≤ 1e-4 := by
  obtain ⟨l₂, φ₂, α₂, α₁', α₂', s', h1, h2, h3, -⟩ := C94_inverse_after_direct (a := 6378137) (b := 6356752.314245) (by norm_num)
    (by norm_num) (by norm_num) "WGS 84" 0 (1 / 2) 1 10000000
    (Real.cos_pos_of_mem_Ioo ⟨by linarith [Real.pi_gt_three], by linarith [Real.pi_gt_three]⟩) (by norm_num) (by norm_num)
  exact ⟨l₂, φ₂, α₂, α₁', α₂', s', h1, h2, h3.trans (by norm_num)⟩

end Geo
