import Verif.Props.VincentyInverseExact
import Verif.Lemmas.Bessel
import Mathlib.Geometry.Euclidean.Angle.Unoriented.TriangleInequality
import Mathlib.Analysis.Calculus.MeanValue
import Mathlib.Analysis.SpecialFunctions.Trigonometric.InverseDeriv

/-! The auxiliary triangle of the inverse problem as a function of the longitude difference. -/

namespace Geo
open XR Spec

/-- Rotating one point by `d` about the axis changes the arc by at most `d`. -/
theorem arc_lip (β₁ β₂ l L : ℝ) : arc β₁ β₂ l ≤ arc β₁ β₂ L + |l - L| := by
  have h := InnerProductGeometry.angle_le_angle_add_angle (unitAt 0 β₁) (unitAt L β₂) (unitAt l β₂)
  rw [angle_unitAt, angle_unitAt, angle_unitAt, sub_zero, sub_zero] at h
  refine h.trans (add_le_add le_rfl ?_)
  by_cases hp : |l - L| ≤ Real.pi
  · rw [arc_eq_arccos, ← Real.arccos_cos (abs_nonneg (l - L)) hp, Real.cos_abs]
    refine Real.arccos_le_arccos ?_
    have h1 := Real.sin_sq_add_cos_sq β₂
    have h2 := Real.cos_le_one (l - L)
    unfold csig
    nlinarith [sq_nonneg (Real.sin β₂)]
  · exact (arc_le_pi _ _ _).trans (not_le.1 hp).le

section
variable {β₁ β₂ l : ℝ} (h : Real.sin (arc β₁ β₂ l) ≠ 0)

include h in
theorem sin_arc_pos : 0 < Real.sin (arc β₁ β₂ l) :=
  lt_of_le_of_ne (Real.sin_nonneg_of_nonneg_of_le_pi (arc_nonneg _ _ _) (arc_le_pi _ _ _)) h.symm

include h in
theorem salpha_mul : salpha β₁ β₂ l * Real.sin (arc β₁ β₂ l) = Real.cos β₁ * Real.cos β₂ * Real.sin l := by
  rw [salpha, div_mul_cancel₀ _ h]

theorem csig_deriv (β₁ β₂ l : ℝ) : HasDerivAt (csig β₁ β₂) (-(Real.cos β₁ * Real.cos β₂ * Real.sin l)) l := by
  refine (((Real.hasDerivAt_cos l).const_mul (Real.cos β₁ * Real.cos β₂)).const_add (Real.sin β₁ * Real.sin β₂)).congr_deriv ?_
  ring

include h in
theorem arc_deriv : HasDerivAt (arc β₁ β₂) (salpha β₁ β₂ l) l := by
  have hp := sin_arc_pos h
  have hsc := Real.sin_sq_add_cos_sq (arc β₁ β₂ l)
  rw [cos_arc] at hsc
  have h1 : csig β₁ β₂ l ≠ -1 := fun e => by rw [e] at hsc; exact h (by nlinarith)
  have h2 : csig β₁ β₂ l ≠ 1 := fun e => by rw [e] at hsc; exact h (by nlinarith)
  have := (Real.hasDerivAt_arccos h1 h2).comp l (csig_deriv β₁ β₂ l)
  have e : arc β₁ β₂ = Real.arccos ∘ csig β₁ β₂ := funext fun x => arc_eq_arccos _ _ _
  rw [e]
  refine this.congr_deriv ?_
  have e2 : Real.sqrt (1 - csig β₁ β₂ l ^ 2) = Real.sin (arc β₁ β₂ l) := by
    rw [show 1 - csig β₁ β₂ l ^ 2 = Real.sin (arc β₁ β₂ l) ^ 2 by linarith, Real.sqrt_sq hp.le]
  rw [e2, salpha]
  field_simp

include h in
theorem salpha_deriv : HasDerivAt (salpha β₁ β₂)
    ((Real.cos β₁ * Real.cos β₂ * Real.cos l - salpha β₁ β₂ l ^ 2 * Real.cos (arc β₁ β₂ l)) / Real.sin (arc β₁ β₂ l)) l := by
  refine (((Real.hasDerivAt_sin l).const_mul (Real.cos β₁ * Real.cos β₂)).div (arc_deriv h).sin h).congr_deriv ?_
  rw [← salpha_mul h]
  field_simp

include h in
theorem abs_salpha : |salpha β₁ β₂ l| ≤ 1 := by
  rw [abs_le_one_iff_mul_self_le_one, ← pow_two]; exact salpha_sq_le _ _ _ h

/-- The derivative of `salpha`, times the sine of the arc. -/
theorem salpha_deriv_bound (β₁ β₂ l : ℝ) (h : Real.sin (arc β₁ β₂ l) ≠ 0) :
    |Real.cos β₁ * Real.cos β₂ * Real.cos l - salpha β₁ β₂ l ^ 2 * Real.cos (arc β₁ β₂ l)| ≤ 2 := by
  have h1 : |Real.cos β₁ * Real.cos β₂ * Real.cos l| ≤ 1 := by
    rw [abs_mul, abs_mul]
    exact mul_le_one₀ (mul_le_one₀ (Real.abs_cos_le_one _) (abs_nonneg _) (Real.abs_cos_le_one _)) (abs_nonneg _)
      (Real.abs_cos_le_one _)
  have h2 : |salpha β₁ β₂ l ^ 2 * Real.cos (arc β₁ β₂ l)| ≤ 1 := by
    rw [abs_mul, abs_of_nonneg (sq_nonneg _)]
    exact mul_le_one₀ (salpha_sq_le _ _ _ h) (abs_nonneg _) (Real.abs_cos_le_one _)
  have := abs_sub (Real.cos β₁ * Real.cos β₂ * Real.cos l) (salpha β₁ β₂ l ^ 2 * Real.cos (arc β₁ β₂ l))
  linarith

end

/-- `sin σ / σ` decreases. -/
theorem arc_ratio {σ M : ℝ} (h0 : 0 < σ) (h1 : σ ≤ M) (hM : M < Real.pi) : σ / Real.sin σ ≤ M / Real.sin M := by
  have hm : 0 < M := h0.trans_le h1
  have hs := Real.sin_pos_of_pos_of_lt_pi h0 (h1.trans_lt hM)
  have hS := Real.sin_pos_of_pos_of_lt_pi hm hM
  have hc := strictConcaveOn_sin_Icc.concaveOn.2 (Set.mem_Icc.2 ⟨le_rfl, Real.pi_pos.le⟩) (Set.mem_Icc.2 ⟨hm.le, hM.le⟩)
    (show 0 ≤ 1 - σ / M by rw [sub_nonneg, div_le_one hm]; exact h1) (show 0 ≤ σ / M by positivity) (by ring)
  simp only [smul_eq_mul, Real.sin_zero, mul_zero, zero_add] at hc
  rw [div_mul_cancel₀ _ hm.ne'] at hc
  rw [div_le_div_iff₀ hs hS]
  calc σ * Real.sin M = M * (σ / M * Real.sin M) := by field_simp
    _ ≤ M * Real.sin σ := by gcongr

/-- The functions of the longitude difference that the solvers iterate: `sa σ A(k) + N r` with `k = 1 - sa²` and
`N = cos β₁ cos β₂ sin l`. -/
theorem excess_lip {β₁ β₂ M a0 a1 r0 r1 : ℝ} {A A' r r' : ℝ → ℝ} (s : Set ℝ) (hs : Convex ℝ s) (hM : M < Real.pi)
    (hne : ∀ l ∈ s, Real.sin (arc β₁ β₂ l) ≠ 0) (hle : ∀ l ∈ s, arc β₁ β₂ l ≤ M)
    (hA : ∀ k, HasDerivAt A (A' k) k) (hr : ∀ l ∈ s, HasDerivAt r (r' l) l)
    (hA0 : ∀ l ∈ s, |A (1 - salpha β₁ β₂ l ^ 2)| ≤ a0) (hA1 : ∀ l ∈ s, |A' (1 - salpha β₁ β₂ l ^ 2)| ≤ a1)
    (hr0 : ∀ l ∈ s, |r l| ≤ r0) (hr1 : ∀ l ∈ s, |Real.cos β₁ * Real.cos β₂ * Real.sin l * r' l| ≤ r1)
    {x y : ℝ} (hx : x ∈ s) (hy : y ∈ s) :
    |(salpha β₁ β₂ y * arc β₁ β₂ y * A (1 - salpha β₁ β₂ y ^ 2) + Real.cos β₁ * Real.cos β₂ * Real.sin y * r y) -
     (salpha β₁ β₂ x * arc β₁ β₂ x * A (1 - salpha β₁ β₂ x ^ 2) + Real.cos β₁ * Real.cos β₂ * Real.sin x * r x)| ≤
      ((2 * (M / Real.sin M) + 1) * a0 + 4 * (M / Real.sin M) * a1 + r0 + r1) * |y - x| := by
  have a00 : 0 ≤ a0 := (abs_nonneg _).trans (hA0 x hx)
  have a10 : 0 ≤ a1 := (abs_nonneg _).trans (hA1 x hx)
  refine Convex.norm_image_sub_le_of_norm_hasDerivWithin_le (f := fun l => salpha β₁ β₂ l * arc β₁ β₂ l *
    A (1 - salpha β₁ β₂ l ^ 2) + Real.cos β₁ * Real.cos β₂ * Real.sin l * r l) (s := s)
    (f' := fun l =>
      (((Real.cos β₁ * Real.cos β₂ * Real.cos l - salpha β₁ β₂ l ^ 2 * Real.cos (arc β₁ β₂ l)) / Real.sin (arc β₁ β₂ l) *
        arc β₁ β₂ l + salpha β₁ β₂ l * salpha β₁ β₂ l) * A (1 - salpha β₁ β₂ l ^ 2) +
      salpha β₁ β₂ l * arc β₁ β₂ l * (A' (1 - salpha β₁ β₂ l ^ 2) * (-(2 * salpha β₁ β₂ l *
        ((Real.cos β₁ * Real.cos β₂ * Real.cos l - salpha β₁ β₂ l ^ 2 * Real.cos (arc β₁ β₂ l)) / Real.sin (arc β₁ β₂ l)))))) +
      (Real.cos β₁ * Real.cos β₂ * Real.cos l * r l + Real.cos β₁ * Real.cos β₂ * Real.sin l * r' l))
    (fun l hl => ?_) (fun l hl => ?_) hs hx hy
  · have h := hne l hl
    have hsa := salpha_deriv h
    have hk := ((hsa.pow 2).const_sub 1)
    have hAk := (hA (1 - salpha β₁ β₂ l ^ 2)).comp l hk
    have := (((hsa.mul (arc_deriv h)).mul hAk).add
      (((Real.hasDerivAt_sin l).const_mul (Real.cos β₁ * Real.cos β₂)).mul (hr l hl)))
    refine (this.congr_deriv ?_).hasDerivWithinAt
    simp
  · have h := hne l hl
    have hp := sin_arc_pos h
    have hσ : 0 < arc β₁ β₂ l := lt_of_le_of_ne (arc_nonneg _ _ _) fun e => h (by rw [← e, Real.sin_zero])
    have hρ := arc_ratio hσ (hle l hl) hM
    have hd := salpha_deriv_bound β₁ β₂ l h
    have hsa := abs_salpha h
    set D := Real.cos β₁ * Real.cos β₂ * Real.cos l - salpha β₁ β₂ l ^ 2 * Real.cos (arc β₁ β₂ l)
    set ρ := M / Real.sin M
    set σ := arc β₁ β₂ l
    set sa := salpha β₁ β₂ l
    have hDσ : |D / Real.sin σ * σ| ≤ 2 * ρ := by
      rw [show D / Real.sin σ * σ = D * (σ / Real.sin σ) by ring, abs_mul, abs_of_nonneg (by positivity : 0 ≤ σ / Real.sin σ)]
      exact mul_le_mul hd hρ (by positivity) (by norm_num)
    have ρ0 : 0 ≤ ρ := (by positivity : 0 ≤ σ / Real.sin σ).trans hρ
    have hsa2 : |sa * sa| ≤ 1 := by rw [abs_mul]; exact mul_le_one₀ hsa (abs_nonneg _) hsa
    have hc : |Real.cos β₁ * Real.cos β₂ * Real.cos l| ≤ 1 := by
      rw [abs_mul, abs_mul]
      exact mul_le_one₀ (mul_le_one₀ (Real.abs_cos_le_one _) (abs_nonneg _) (Real.abs_cos_le_one _)) (abs_nonneg _)
        (Real.abs_cos_le_one _)
    have t1 : |(D / Real.sin σ * σ + sa * sa) * A (1 - sa ^ 2)| ≤ (2 * ρ + 1) * a0 := by
      rw [abs_mul]
      exact mul_le_mul ((abs_add_le _ _).trans (add_le_add hDσ hsa2)) (hA0 l hl) (abs_nonneg _) (by linarith)
    have t2 : |sa * σ * (A' (1 - sa ^ 2) * (-(2 * sa * (D / Real.sin σ))))| ≤ 4 * ρ * a1 := by
      rw [show sa * σ * (A' (1 - sa ^ 2) * (-(2 * sa * (D / Real.sin σ)))) =
        -2 * ((sa * sa) * (D / Real.sin σ * σ)) * A' (1 - sa ^ 2) by ring, abs_mul, abs_mul, abs_mul (sa * sa)]
      have : |sa * sa| * |D / Real.sin σ * σ| ≤ 1 * (2 * ρ) := mul_le_mul hsa2 hDσ (abs_nonneg _) (by norm_num)
      rw [show |(-2 : ℝ)| = 2 by norm_num]
      exact mul_le_mul (by linarith) (hA1 l hl) (abs_nonneg _) (by positivity)
    have t3 : |Real.cos β₁ * Real.cos β₂ * Real.cos l * r l| ≤ r0 := by
      rw [abs_mul]
      exact (mul_le_mul hc (hr0 l hl) (abs_nonneg _) (by norm_num)).trans (by rw [one_mul])
    rw [Real.norm_eq_abs]
    refine (abs_add_le _ _).trans ?_
    have q1 := abs_add_le ((D / Real.sin σ * σ + sa * sa) * A (1 - sa ^ 2))
      (sa * σ * (A' (1 - sa ^ 2) * (-(2 * sa * (D / Real.sin σ)))))
    have q2 := abs_add_le (Real.cos β₁ * Real.cos β₂ * Real.cos l * r l) (Real.cos β₁ * Real.cos β₂ * Real.sin l * r' l)
    have t4 := hr1 l hl
    linarith

theorem csig_le {β₁ β₂ : ℝ} (l : ℝ) (h1 : 0 ≤ Real.cos β₁) (h2 : 0 ≤ Real.cos β₂) (h : csig β₁ β₂ l = 1) :
    Real.cos β₁ * Real.cos β₂ * (1 - Real.cos l) = 0 := by
  have e : 1 - csig β₁ β₂ l = (1 - Real.cos (β₁ - β₂)) + Real.cos β₁ * Real.cos β₂ * (1 - Real.cos l) := by
    rw [csig, Real.cos_sub]; ring
  have := Real.cos_le_one (β₁ - β₂)
  have := Real.cos_le_one l
  have : 0 ≤ Real.cos β₁ * Real.cos β₂ * (1 - Real.cos l) := mul_nonneg (mul_nonneg h1 h2) (by linarith)
  rw [h] at e
  linarith

/-- Points that are distinct for one longitude difference stay so for the others. -/
theorem arc_ne {β₁ β₂ l L : ℝ} (h1 : 0 ≤ Real.cos β₁) (h2 : 0 ≤ Real.cos β₂) (hL : arc β₁ β₂ L ≠ 0)
    (h : l = L ∨ Real.cos l ≠ 1) : arc β₁ β₂ l ≠ 0 := by
  rcases h with rfl | h
  · exact hL
  · intro e
    have e1 : csig β₁ β₂ l = 1 := by rw [← cos_arc, e, Real.cos_zero]
    have e2 := csig_le l h1 h2 e1
    rcases mul_eq_zero.1 e2 with e3 | e3
    · refine hL ?_
      rw [arc_eq_arccos, csig, e3, zero_mul, add_zero]
      rw [csig, e3, zero_mul, add_zero] at e1
      rw [e1, Real.arccos_one]
    · exact h (by linarith)

/-- An interval of longitude differences that the iterations do not leave. -/
theorem exists_domain {β₁ β₂ L f M : ℝ} (h1 : 0 ≤ Real.cos β₁) (h2 : 0 ≤ Real.cos β₂) (hL : -Real.pi ≤ L)
    (hL' : L ≤ Real.pi) (f0 : 0 ≤ f) (f1 : f ≤ 1 / 50) (hM : M < Real.pi) (hσ : arc β₁ β₂ L + 4 * f ≤ M)
    (hd : arc β₁ β₂ L ≠ 0) :
    ∃ lo hi : ℝ, L ∈ Set.Icc lo hi ∧
      (∀ l ∈ Set.Icc lo hi, Real.sin (arc β₁ β₂ l) ≠ 0 ∧ arc β₁ β₂ l ≤ M) ∧
      ∀ l ∈ Set.Icc lo hi, ∀ e, |e| ≤ 4 * f → (0 ≤ Real.sin l → 0 ≤ e) → (Real.sin l ≤ 0 → e ≤ 0) →
        L + e ∈ Set.Icc lo hi := by
  have p3 := Real.pi_gt_three
  have p4 := Real.pi_lt_four
  have key : ∀ l, |l - L| ≤ 4 * f → (l = L ∨ Real.cos l ≠ 1) → Real.sin (arc β₁ β₂ l) ≠ 0 ∧ arc β₁ β₂ l ≤ M := by
    intro l hl hc
    have hle : arc β₁ β₂ l ≤ M := (arc_lip β₁ β₂ l L).trans (by linarith)
    refine ⟨(Real.sin_pos_of_pos_of_lt_pi ?_ (hle.trans_lt hM)).ne', hle⟩
    exact lt_of_le_of_ne (arc_nonneg _ _ _) (arc_ne h1 h2 hd hc).symm
  have cosne : ∀ l, -(2 * Real.pi) < l → l < 2 * Real.pi → l ≠ 0 → Real.cos l ≠ 1 := fun l a b c e =>
    c ((Real.cos_eq_one_iff_of_lt_of_lt a b).1 e)
  rcases le_or_gt 1 |L| with hL1 | hL1
  · refine ⟨L - 4 * f, L + 4 * f, ⟨by linarith, by linarith⟩, fun l hl => ?_, fun l hl e he _ _ => ?_⟩
    · have hl' : |l - L| ≤ 4 * f := abs_le.2 ⟨by linarith [hl.1], by linarith [hl.2]⟩
      refine key l hl' (Or.inr (cosne l ?_ ?_ ?_))
      · linarith [hl.1]
      · linarith [hl.2]
      · rintro rfl
        rw [zero_sub, abs_neg] at hl'
        linarith
    · obtain ⟨e1, e2⟩ := abs_le.1 he
      exact ⟨by linarith, by linarith⟩
  · obtain ⟨l1, l2⟩ := abs_lt.1 hL1
    rcases le_or_gt 0 L with h | h
    · refine ⟨L, L + 4 * f, ⟨le_rfl, by linarith⟩, fun l hl => ?_, fun l hl e he hp _ => ?_⟩
      · refine key l (abs_le.2 ⟨by linarith [hl.1], by linarith [hl.2]⟩) ?_
        rcases eq_or_lt_of_le hl.1 with e | e
        · exact Or.inl e.symm
        · exact Or.inr (cosne l (by linarith) (by linarith [hl.2]) (by linarith))
      · have := hp (Real.sin_nonneg_of_nonneg_of_le_pi (h.trans hl.1) (by linarith [hl.2]))
        obtain ⟨e1, e2⟩ := abs_le.1 he
        exact ⟨by linarith, by linarith⟩
    · refine ⟨L - 4 * f, L, ⟨by linarith, le_rfl⟩, fun l hl => ?_, fun l hl e he _ hp => ?_⟩
      · refine key l (abs_le.2 ⟨by linarith [hl.1], by linarith [hl.2]⟩) ?_
        rcases eq_or_lt_of_le hl.2 with e | e
        · exact Or.inl e
        · exact Or.inr (cosne l (by linarith [hl.1]) (by linarith) (by linarith))
      · have := hp (Real.sin_nonpos_of_nonpos_of_neg_pi_le (hl.2.trans h.le) (by linarith [hl.1]))
        obtain ⟨e1, e2⟩ := abs_le.1 he
        exact ⟨by linarith, by linarith⟩

/-- The geodesic that an auxiliary triangle describes. -/
theorem triangle_geodesic {a b : ℝ} (hb : 0 < b) (hab : b ≤ a) {l₁ φ₁ φ₂ β₁ β₂ l σ sa c : ℝ}
    (hr₁ : Bessel.Reduced a b φ₁ β₁) (hr₂ : Bessel.Reduced a b φ₂ β₂) (h₁ : 0 < Real.cos β₁) (h₂ : 0 ≤ Real.cos β₂)
    (ht : AuxTriangle β₁ β₂ l σ sa c) :
    ∃ (γ : ℝ → E3) (α α₂ m : ℝ), IsGeodesic a b γ ∧ γ 0 = surfacePoint a b l₁ φ₁ ∧ deriv γ 0 = direction l₁ φ₁ α ∧
      0 < Real.sin σ ∧ sa ^ 2 + Real.sqrt (1 - sa ^ 2) ^ 2 = 1 ∧
      (1 - sa ^ 2 ≠ 0 → c = Real.cos (2 * m + σ)) ∧
      Real.sin σ * Real.cos α = Real.cos β₁ * Real.sin β₂ - Real.sin β₁ * Real.cos β₂ * Real.cos l ∧
      Real.sin σ * Real.sin α = Real.cos β₂ * Real.sin l ∧
      Real.sin σ * Real.cos α₂ = -Real.sin β₁ * Real.cos β₂ + Real.cos β₁ * Real.sin β₂ * Real.cos l ∧
      Real.sin σ * Real.sin α₂ = Real.cos β₁ * Real.sin l ∧
      γ (Bessel.T a b sa (Real.sqrt (1 - sa ^ 2)) (m + σ) - Bessel.T a b sa (Real.sqrt (1 - sa ^ 2)) m) =
        surfacePoint a b (l₁ + (l - (Bessel.G a b sa (Real.sqrt (1 - sa ^ 2)) (m + σ) -
          Bessel.G a b sa (Real.sqrt (1 - sa ^ 2)) m))) φ₂ ∧
      (Real.cos β₂ ≠ 0 → deriv γ (Bessel.T a b sa (Real.sqrt (1 - sa ^ 2)) (m + σ) - Bessel.T a b sa (Real.sqrt (1 - sa ^ 2)) m) =
        direction (l₁ + (l - (Bessel.G a b sa (Real.sqrt (1 - sa ^ 2)) (m + σ) -
          Bessel.G a b sa (Real.sqrt (1 - sa ^ 2)) m))) φ₂ α₂) := by
  obtain ⟨s0, s1, hcos, hne, hsin, hmid⟩ := ht
  have hp : 0 < Real.sin σ := lt_of_le_of_ne (Real.sin_nonneg_of_nonneg_of_le_pi s0 s1) hne.symm
  have q1 := Real.sin_sq_add_cos_sq β₁
  have q2 := Real.sin_sq_add_cos_sq β₂
  have q3 := Real.sin_sq_add_cos_sq l
  have q4 := Real.sin_sq_add_cos_sq σ
  have d1 : (Real.cos β₁ * Real.sin β₂ - Real.sin β₁ * Real.cos β₂ * Real.cos l) ^ 2 + (Real.cos β₂ * Real.sin l) ^ 2 =
      Real.sin σ ^ 2 := by
    have := ssq_add β₁ β₂ l
    rw [ssq, csig, ← hcos] at this
    linarith
  have d2 : (-Real.sin β₁ * Real.cos β₂ + Real.cos β₁ * Real.sin β₂ * Real.cos l) ^ 2 + (Real.cos β₁ * Real.sin l) ^ 2 =
      Real.sin σ ^ 2 := by
    have := ssq_add β₂ β₁ l
    rw [ssq, csig, show Real.sin β₂ * Real.sin β₁ + Real.cos β₂ * Real.cos β₁ * Real.cos l = Real.cos σ by rw [hcos]; ring] at this
    linarith
  obtain ⟨u1, u2⟩ := polar (Real.cos β₁ * Real.sin β₂ - Real.sin β₁ * Real.cos β₂ * Real.cos l) (Real.cos β₂ * Real.sin l)
  obtain ⟨u3, u4⟩ := polar (-Real.sin β₁ * Real.cos β₂ + Real.cos β₁ * Real.sin β₂ * Real.cos l) (Real.cos β₁ * Real.sin l)
  rw [d1, Real.sqrt_sq hp.le] at u1 u2
  rw [d2, Real.sqrt_sq hp.le] at u3 u4
  set α := Complex.arg ⟨Real.cos β₁ * Real.sin β₂ - Real.sin β₁ * Real.cos β₂ * Real.cos l, Real.cos β₂ * Real.sin l⟩
  set α₂ := Complex.arg ⟨-Real.sin β₁ * Real.cos β₂ + Real.cos β₁ * Real.sin β₂ * Real.cos l, Real.cos β₁ * Real.sin l⟩
  have hsa : sa = Real.cos β₁ * Real.sin α := by
    refine mul_right_cancel₀ hne ?_
    rw [hsin]
    linear_combination -Real.cos β₁ * u2
  have q5 := Real.sin_sq_add_cos_sq α
  have hK : 1 - sa ^ 2 = (Real.cos β₁ * Real.cos α) ^ 2 + Real.sin β₁ ^ 2 := by
    rw [hsa]
    linear_combination -q1 - Real.cos β₁ ^ 2 * q5
  have hK0 : 0 ≤ 1 - sa ^ 2 := by rw [hK]; positivity
  obtain ⟨v1, v2⟩ := polar (Real.cos β₁ * Real.cos α) (Real.sin β₁)
  rw [← hK] at v1 v2
  set m := Complex.arg ⟨Real.cos β₁ * Real.cos α, Real.sin β₁⟩
  have hsq := Real.sq_sqrt hK0
  set c0 := Real.sqrt (1 - sa ^ 2)
  have h1 : sa ^ 2 + c0 ^ 2 = 1 := by rw [hsq]; ring
  obtain ⟨γ, hγ, g0, g1, hend⟩ := Bessel.arc_geodesic hb hab (l := l₁) h₁ hr₁ hsa (σ₁ := m) (c0 := c0) (by rw [mul_comm]; exact v1)
    (by rw [mul_comm]; exact v2) h1
  have cancel : ∀ x y : ℝ, Real.sin σ * x = Real.sin σ * y → x = y := fun x y h => mul_left_cancel₀ hne h
  have he : ArcEnd β₁ α σ β₂ l α₂ := by
    refine ⟨h₂, ?_, ?_, ?_, ?_, ?_⟩
    · rw [show Real.sin β₁ * Real.cos σ + Real.cos β₁ * Real.sin σ * Real.cos α =
        Real.sin β₁ * Real.cos σ + Real.cos β₁ * (Real.sin σ * Real.cos α) by ring, u1, hcos]
      linear_combination -Real.sin β₂ * q1
    · exact u2.symm
    · rw [show Real.cos β₁ * Real.cos σ - Real.sin β₁ * Real.sin σ * Real.cos α =
        Real.cos β₁ * Real.cos σ - Real.sin β₁ * (Real.sin σ * Real.cos α) by ring, u1, hcos]
      linear_combination -Real.cos β₂ * Real.cos l * q1
    · refine cancel _ _ ?_
      linear_combination Real.cos β₂ * u4 - Real.cos β₁ * u2
    · refine cancel _ _ ?_
      have e1 : Real.sin σ * (Real.cos β₂ * Real.cos α₂) = Real.cos β₂ * (Real.sin σ * Real.cos α₂) := by ring
      have e2 : Real.sin σ * (Real.cos β₁ * Real.cos σ * Real.cos α - Real.sin β₁ * Real.sin σ) =
        Real.cos β₁ * Real.cos σ * (Real.sin σ * Real.cos α) - Real.sin β₁ * (1 - Real.cos σ ^ 2) := by
          linear_combination -Real.sin β₁ * q4
      rw [e1, e2, u1, u3, hcos]
      linear_combination (-(Real.sin β₁ * Real.sin β₂ + Real.cos β₁ * Real.cos β₂ * Real.cos l) * Real.sin β₂) * q1 +
        (-Real.sin β₁) * q2
  obtain ⟨k1, k2⟩ := hend σ β₂ l α₂ φ₂ he hr₂
  refine ⟨γ, α, α₂, m, hγ, g0, g1, hp, h1, fun h => ?_, u1, u2, u3, u4, k1, k2⟩
  rw [hmid h]
  have hc0 : c0 ^ 2 ≠ 0 := by rw [hsq]; exact h
  rw [← hsq]
  refine mul_left_cancel₀ hc0 ?_
  rw [mul_sub, show c0 ^ 2 * (2 * Real.sin β₁ * Real.sin β₂ / c0 ^ 2) = 2 * Real.sin β₁ * Real.sin β₂ by
      rw [mul_div_assoc', mul_div_cancel_left₀ _ hc0],
    Real.cos_add, Real.cos_two_mul, Real.sin_two_mul, he.height]
  have e : c0 ^ 2 = (Real.cos β₁ * Real.cos α) ^ 2 + Real.sin β₁ ^ 2 := by rw [hsq, hK]
  have e1 : c0 ^ 2 * (2 * Real.cos m ^ 2 - 1) = 2 * (Real.cos β₁ * Real.cos α) ^ 2 - c0 ^ 2 := by rw [← v1]; ring
  have e2 : c0 ^ 2 * (2 * Real.sin m * Real.cos m) = 2 * Real.sin β₁ * (Real.cos β₁ * Real.cos α) := by rw [← v1, ← v2]; ring
  linear_combination (2 * Real.cos σ) * e - Real.cos σ * e1 + Real.sin σ * e2

end Geo
