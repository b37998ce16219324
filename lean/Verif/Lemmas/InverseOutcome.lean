import Verif.Lemmas.InverseLoop
import Verif.Props.GeodesicExact

/-! What the inverse solvers return, on the surface. -/

namespace Geo
open XR Spec

/-- Two directions at the same point. -/
theorem direction_norm (l φ α α' : ℝ) : ‖direction l φ α - direction l φ α'‖ ^ 2 = 2 - 2 * Real.cos (α' - α) := by
  rw [EuclideanSpace.norm_eq, Real.sq_sqrt (by positivity)]
  simp [Fin.sum_univ_three, direction]
  rw [Real.cos_sub]
  linear_combination ((Real.cos α - Real.cos α') ^ 2 * Real.sin φ ^ 2 + (Real.sin α - Real.sin α') ^ 2) * Real.sin_sq_add_cos_sq l +
    (Real.cos α - Real.cos α') ^ 2 * Real.sin_sq_add_cos_sq φ + Real.sin_sq_add_cos_sq α + Real.sin_sq_add_cos_sq α'

/-- Arguments of nearby vectors. -/
theorem chord_close {r l l' l'' P Q R α α' : ℝ} (hr : 0 ≤ r) (hQ : |Q| ≤ 1) (hR : |R| ≤ 1)
    (h1 : r * Real.cos α = P + Q * Real.cos l) (h2 : r * Real.sin α = R * Real.sin l) (hl : l'' = l' ∨ l'' = l)
    (hα : α' = Complex.arg ⟨P + Q * Real.cos l'', R * Real.sin l'⟩) :
    r ^ 2 * (2 - 2 * Real.cos (α' - α)) ≤ (2 * |l' - l|) ^ 2 := by
  obtain ⟨k1, k2⟩ := polar (P + Q * Real.cos l'') (R * Real.sin l')
  rw [← hα] at k1 k2
  set r' := Real.sqrt ((P + Q * Real.cos l'') ^ 2 + (R * Real.sin l') ^ 2)
  have hr' : 0 ≤ r' := Real.sqrt_nonneg _
  have hv : r ^ 2 + r' ^ 2 - 2 * r * r' * Real.cos (α' - α) ≤ (l' - l) ^ 2 := by
    have e : r ^ 2 + r' ^ 2 - 2 * r * r' * Real.cos (α' - α) =
        Q ^ 2 * (Real.cos l - Real.cos l'') ^ 2 + R ^ 2 * (Real.sin l - Real.sin l') ^ 2 := by
      have e1 : r ^ 2 + r' ^ 2 - 2 * r * r' * Real.cos (α' - α) =
          (r * Real.cos α - r' * Real.cos α') ^ 2 + (r * Real.sin α - r' * Real.sin α') ^ 2 := by
        rw [Real.cos_sub]
        linear_combination -r ^ 2 * Real.sin_sq_add_cos_sq α - r' ^ 2 * Real.sin_sq_add_cos_sq α'
      rw [e1, h1, h2, k1, k2]; ring
    rw [e]
    have q1 : Q ^ 2 ≤ 1 := by rw [← sq_abs]; nlinarith [abs_nonneg Q]
    have q2 : R ^ 2 ≤ 1 := by rw [← sq_abs]; nlinarith [abs_nonneg R]
    have q3 : (Real.cos l - Real.cos l') ^ 2 + (Real.sin l - Real.sin l') ^ 2 = 2 - 2 * Real.cos (l' - l) := by
      rw [Real.cos_sub]
      linear_combination Real.sin_sq_add_cos_sq l + Real.sin_sq_add_cos_sq l'
    have q4 := Real.one_sub_sq_div_two_le_cos (x := l' - l)
    have q5 : (Real.cos l - Real.cos l'') ^ 2 ≤ (Real.cos l - Real.cos l') ^ 2 := by
      rcases hl with rfl | rfl
      · exact le_rfl
      · rw [sub_self, zero_pow two_ne_zero]; exact sq_nonneg _
    nlinarith [sq_nonneg (Real.cos l - Real.cos l''), sq_nonneg (Real.sin l - Real.sin l')]
  have hC1 := Real.cos_le_one (α' - α)
  have hC2 := Real.neg_one_le_cos (α' - α)
  rw [mul_pow, sq_abs]
  · refine le_trans ?_ (mul_le_mul_of_nonneg_left hv (by norm_num))
    set C := Real.cos (α' - α)
    rcases le_or_gt 0 C with h | h
    · nlinarith [sq_nonneg (r' - r * C), mul_nonneg (sq_nonneg r) (mul_nonneg (sub_nonneg.2 hC1) (by linarith : 0 ≤ 1 + 2 * C))]
    · nlinarith [mul_nonneg (mul_nonneg hr hr') (neg_nonneg.2 h.le), mul_nonneg (sq_nonneg r) (by linarith : 0 ≤ 1 + C), sq_nonneg r']

/-- Azimuths of nearby vectors. -/
theorem azimuth_close {r l l' l'' P Q R α α' : ℝ} (hr : 0 ≤ r) (hQ : |Q| ≤ 1) (hR : |R| ≤ 1)
    (h1 : r * Real.cos α = P + Q * Real.cos l) (h2 : r * Real.sin α = R * Real.sin l) (hl : l'' = l' ∨ l'' = l)
    (hα : α' = Complex.arg ⟨P + Q * Real.cos l'', R * Real.sin l'⟩) (l₁ φ₁ : ℝ) :
    r * ‖direction l₁ φ₁ α - direction l₁ φ₁ α'‖ ≤ 2 * |l' - l| := by
  have key := chord_close hr hQ hR h1 h2 hl hα
  rw [← direction_norm l₁ φ₁, ← mul_pow] at key
  exact (sq_le_sq₀ (mul_nonneg hr (norm_nonneg _)) (by positivity)).1 key

/-- The geodesic from the first point, and how far from the second it is after the distance `s`. -/
theorem inverse_outcome {a b : ℝ} (hb : 0 < b) (hab : b ≤ a) {l₁ φ₁ l₂ φ₂ β₁ β₂ l L σ sa c : ℝ}
    (hr₁ : Bessel.Reduced a b φ₁ β₁) (hr₂ : Bessel.Reduced a b φ₂ β₂) (h₁ : 0 < Real.cos β₁) (h₂ : 0 ≤ Real.cos β₂)
    (ht : AuxTriangle β₁ β₂ l σ sa c) (hL : SameDirection L (l₂ - l₁)) :
    ∃ (γ : ℝ → E3) (α α₂ m : ℝ), IsGeodesic a b γ ∧ γ 0 = surfacePoint a b l₁ φ₁ ∧ deriv γ 0 = direction l₁ φ₁ α ∧
      0 < Real.sin σ ∧ sa ^ 2 + Real.sqrt (1 - sa ^ 2) ^ 2 = 1 ∧ (1 - sa ^ 2 ≠ 0 → c = Real.cos (2 * m + σ)) ∧
      (∀ l' l'', l'' = l' ∨ l'' = l → Real.sin σ * ‖direction l₁ φ₁ α - direction l₁ φ₁ (Complex.arg ⟨Real.cos β₁ * Real.sin β₂ -
        Real.sin β₁ * Real.cos β₂ * Real.cos l'', Real.cos β₂ * Real.sin l'⟩)‖ ≤ 2 * |l' - l|) ∧
      (∀ l' l'', l'' = l' ∨ l'' = l → Real.sin σ * ‖direction l₂ φ₂ α₂ - direction l₂ φ₂ (Complex.arg ⟨-Real.sin β₁ * Real.cos β₂ +
        Real.cos β₁ * Real.sin β₂ * Real.cos l'', Real.cos β₁ * Real.sin l'⟩)‖ ≤ 2 * |l' - l|) ∧
      ∀ t y s x l', t = Bessel.T a b sa (Real.sqrt (1 - sa ^ 2)) (m + σ) - Bessel.T a b sa (Real.sqrt (1 - sa ^ 2)) m →
        y = Bessel.G a b sa (Real.sqrt (1 - sa ^ 2)) (m + σ) - Bessel.G a b sa (Real.sqrt (1 - sa ^ 2)) m →
        l' = L + x →
        ‖γ s - surfacePoint a b l₂ φ₂‖ ≤ |t - s| + a * (|y - x| + |l' - l|) ∧
        (Real.cos β₂ ≠ 0 → ‖deriv γ s - direction l₂ φ₂ α₂‖ ≤ a / b ^ 2 * |t - s| + (|y - x| + |l' - l|)) := by
  have ha : 0 < a := lt_of_lt_of_le hb hab
  obtain ⟨γ, α, α₂, m, hγ, g0, g1, hp, h1, hmid, u1, u2, u3, u4, k1, k2⟩ :=
    triangle_geodesic hb hab (l₁ := l₁) hr₁ hr₂ h₁ h₂ ht
  have abs1 : ∀ x y : ℝ, |x| ≤ 1 → |y| ≤ 1 → |x * y| ≤ 1 := fun x y hx hy => by
    rw [abs_mul]; exact mul_le_one₀ hx (abs_nonneg _) hy
  refine ⟨γ, α, α₂, m, hγ, g0, g1, hp, h1, hmid, fun l' l'' hl => ?_, fun l' l'' hl => ?_, fun t y s x l' ht' hy hl' => ?_⟩
  · refine azimuth_close (l := l) (l' := l') (l'' := l'') (P := Real.cos β₁ * Real.sin β₂) (Q := -(Real.sin β₁ * Real.cos β₂))
      (R := Real.cos β₂) hp.le ?_ (Real.abs_cos_le_one _) (by rw [u1]; ring) u2 hl (by congr 2; ring) _ _
    rw [abs_neg]
    exact abs1 _ _ (Real.abs_sin_le_one _) (Real.abs_cos_le_one _)
  · exact azimuth_close (l := l) (l' := l') (l'' := l'') (P := -Real.sin β₁ * Real.cos β₂) (Q := Real.cos β₁ * Real.sin β₂)
      (R := Real.cos β₁) hp.le (abs1 _ _ (Real.abs_cos_le_one _) (Real.abs_sin_le_one _)) (Real.abs_cos_le_one _) u3 u4 hl rfl _ _
  · rw [← ht', ← hy] at k1 k2
    have hsame : SameDirection (l₁ + L) l₂ := by
      obtain ⟨k, hk⟩ := hL
      exact ⟨k, by rw [hk]; ring⟩
    have hd : |l₁ + (l - y) - (l₁ + L)| ≤ |y - x| + |l' - l| := by
      rw [show l₁ + (l - y) - (l₁ + L) = -(y - x) - (l' - l) by rw [hl']; ring]
      refine (abs_sub _ _).trans ?_
      rw [abs_neg]
    constructor
    · have p1 := Bessel.surfacePoint_sub (l := l₁ + (l - y)) (l' := l₁ + L) ha.le hr₂
      have p2 := hγ.chord t s
      have e : surfacePoint a b (l₁ + L) φ₂ = surfacePoint a b l₂ φ₂ := by
        simp only [surfacePoint, hsame.cos, hsame.sin]
      rw [e] at p1
      rw [k1, abs_sub_comm] at p2
      refine (norm_sub_le_norm_sub_add_norm_sub _ (surfacePoint a b (l₁ + (l - y)) φ₂) _).trans ?_
      have := mul_le_mul_of_nonneg_left hd ha.le
      linarith
    · intro hc
      have p1 := direction_sub (l₁ + (l - y)) (l₁ + L) φ₂ α₂
      have p2 := hγ.turn hb hab t s
      have e : direction (l₁ + L) φ₂ α₂ = direction l₂ φ₂ α₂ := by
        simp only [direction, hsame.cos, hsame.sin]
      rw [e] at p1
      rw [k2 hc, abs_sub_comm] at p2
      refine (norm_sub_le_norm_sub_add_norm_sub _ (direction (l₁ + (l - y)) φ₂ α₂) _).trans ?_
      linarith

theorem reduced_cos_pos {a b φ β : ℝ} (hb : 0 < b) (hab : b ≤ a) (hr : Bessel.Reduced a b φ β) (hc : 0 < Real.cos φ) :
    0 < Real.cos β := by
  have ha : 0 < a := lt_of_lt_of_le hb hab
  have h := hr.1
  have hsN : 0 < a ^ 2 * Real.cos φ ^ 2 + b ^ 2 * Real.sin φ ^ 2 := by
    have := wf_pos hb hab φ
    rw [wf_eq hb hab] at this
    exact (div_pos_iff_of_pos_right (by positivity)).1 this
  have : 0 < a * Real.cos β := by
    rw [← h]
    have := Real.sqrt_pos.2 hsN
    positivity
  exact (mul_pos_iff_of_pos_left ha).1 this

/-- Distinct points of the surface have a nonzero arc. -/
theorem arc_ne_of_surface {a b l₁ l₂ φ₁ φ₂ β₁ β₂ : ℝ} (hr₁ : Bessel.Reduced a b φ₁ β₁) (hr₂ : Bessel.Reduced a b φ₂ β₂)
    (h : surfacePoint a b l₁ φ₁ ≠ surfacePoint a b l₂ φ₂) : arc β₁ β₂ (l₂ - l₁) ≠ 0 := by
  intro h0
  rw [← angle_unitAt] at h0
  obtain ⟨-, r, hr, e⟩ := InnerProductGeometry.angle_eq_zero_iff.1 h0
  have := congrArg norm e
  rw [norm_smul, norm_unitAt, norm_unitAt, Real.norm_eq_abs, abs_of_pos hr, mul_one] at this
  rw [← this, one_smul] at e
  refine h ?_
  rw [Bessel.surfacePoint_reduced hr₁, Bessel.surfacePoint_reduced hr₂]
  have e0 := congrArg (fun v : EuclideanSpace ℝ (Fin 3) => v 0) e
  have e1 := congrArg (fun v : EuclideanSpace ℝ (Fin 3) => v 1) e
  have e2 := congrArg (fun v : EuclideanSpace ℝ (Fin 3) => v 2) e
  simp only [unitAt, point3] at e0 e1 e2
  simp at e0 e1 e2
  rw [mul_assoc, mul_assoc, mul_assoc, mul_assoc, e0, e1, e2]

theorem sin_304 : 101 / 1000 ≤ Real.sin (304 / 100) := by
  have h := Real.pi_gt_d4
  have h2 := Real.pi_lt_d2
  rw [← Real.sin_pi_sub]
  have := Real.sin_gt_sub_cube (x := Real.pi - 304 / 100) (by linarith)
  refine le_trans ?_ this.le
  have h3 : Real.pi - 304 / 100 ≤ 11 / 100 := by linarith
  have h4 : 0 ≤ Real.pi - 304 / 100 := by linarith
  have : (Real.pi - 304 / 100) ^ 3 ≤ (11 / 100) ^ 3 := by gcongr
  linarith

end Geo
