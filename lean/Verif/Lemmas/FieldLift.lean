import Verif.Lemmas.FieldExcess

/-! Every point that is not nearly antipodal to the start is the end of exactly one geodesic of the field, and the
length of that geodesic changes at most as fast as the point moves. -/

namespace Geo.Shortest
open Spec

/-- The great circle to a point of the sphere. -/
theorem polar_at (e : ℝ) {β β₂ l : ℝ} (hβ : 0 < Real.cos β) (hlt : arc β β₂ l < Real.pi) :
    ∃ α, ux β (arc β β₂ l) α = Real.cos β₂ * Real.cos l ∧ uy (arc β β₂ l) α = Real.cos β₂ * Real.sin l ∧
      uz β (arc β β₂ l) α = Real.sin β₂ ∧ lamF e β (arc β β₂ l) α = excE e β β₂ l := by
  have hc := cos_arc β β₂ l
  by_cases h : Real.sin (arc β β₂ l) = 0
  · have h0 : arc β β₂ l = 0 := by
      by_contra h0
      exact (Real.sin_pos_of_pos_of_lt_pi (lt_of_le_of_ne (arc_nonneg _ _ _) (Ne.symm h0)) hlt).ne' h
    have hs := sin_arc_sq β β₂ l
    rw [h0, Real.sin_zero] at hs
    rw [h0, Real.cos_zero] at hc
    unfold ssq at hs
    unfold csig at hc
    have k1 : Real.cos β₂ * Real.sin l = 0 := by
      nlinarith [sq_nonneg (Real.cos β₂ * Real.sin l), sq_nonneg (Real.cos β * Real.sin β₂ - Real.sin β * Real.cos β₂ * Real.cos l)]
    have k2 : Real.cos β * Real.sin β₂ - Real.sin β * Real.cos β₂ * Real.cos l = 0 := by
      nlinarith [sq_nonneg (Real.cos β₂ * Real.sin l),
        sq_nonneg (Real.cos β * Real.sin β₂ - Real.sin β * Real.cos β₂ * Real.cos l)]
    have b1 := Real.sin_sq_add_cos_sq β
    refine ⟨0, ?_, ?_, ?_, ?_⟩
    · rw [h0, ux, Real.cos_zero, Real.sin_zero]
      linear_combination Real.cos β * hc + Real.sin β * k2 + Real.cos β₂ * Real.cos l * b1
    · rw [h0, uy, Real.sin_zero, k1]; ring
    · rw [h0, uz, hh, Real.cos_zero, Real.sin_zero]
      linear_combination Real.sin β * hc - Real.cos β * k2 + Real.sin β₂ * b1
    · rw [h0, excE, salpha, h0, Real.sin_zero, lamF, I, intervalIntegral.integral_same]; simp
  · have hen := slope_energy h
    have b1 := Real.sin_sq_add_cos_sq β
    have b2 := Real.sin_sq_add_cos_sq (arc β β₂ l)
    have hsl : slope β β₂ l * Real.sin (arc β β₂ l) = Real.sin β₂ - Real.sin β * Real.cos (arc β β₂ l) :=
      div_mul_cancel₀ _ h
    have hsa := salpha_mul h
    obtain ⟨p1, p2⟩ := polar (slope β β₂ l) (salpha β β₂ l)
    have hr : Real.sqrt (slope β β₂ l ^ 2 + salpha β β₂ l ^ 2) = Real.cos β := by
      rw [← Real.sqrt_sq hβ.le]; congr 1; linarith
    rw [hr] at p1 p2
    refine ⟨Complex.arg ⟨slope β β₂ l, salpha β β₂ l⟩, ?_, ?_, ?_, ?_⟩
    · refine mul_left_cancel₀ hβ.ne' ?_
      rw [ux]
      unfold csig at hc
      linear_combination -Real.sin β * Real.sin (arc β β₂ l) * p1 - Real.sin β * hsl + Real.cos (arc β β₂ l) * b1 + hc
    · refine mul_left_cancel₀ hβ.ne' ?_
      rw [uy]
      linear_combination Real.sin (arc β β₂ l) * p2 + hsa
    · rw [uz, hh, p1]
      linear_combination hsl
    · rw [lamF, excE, p1, p2]

/-- The arc and the excess, from the end on the sphere. -/
theorem polar_of (e : ℝ) {β β₂ l σ α : ℝ} (hβ : 0 < Real.cos β) (h0 : 0 ≤ σ) (hp : σ < Real.pi)
    (hx : ux β σ α = Real.cos β₂ * Real.cos l) (hy : uy σ α = Real.cos β₂ * Real.sin l) (hz : uz β σ α = Real.sin β₂) :
    arc β β₂ l = σ ∧ lamF e β σ α = excE e β β₂ l := by
  have b1 := Real.sin_sq_add_cos_sq β
  have hc : csig β β₂ l = Real.cos σ := by
    rw [csig, ← hz, mul_assoc (Real.cos β), ← hx, uz, hh, ux]
    linear_combination Real.cos σ * b1
  have ha : arc β β₂ l = σ := by rw [arc_eq_arccos, hc, Real.arccos_cos h0 hp.le]
  refine ⟨ha, ?_⟩
  rcases h0.eq_or_lt with h0 | h0
  · rw [excE, ha, ← h0, lamF, I, I, intervalIntegral.integral_same, intervalIntegral.integral_same]; simp
  · have hs : Real.sin σ ≠ 0 := (Real.sin_pos_of_pos_of_lt_pi h0 hp).ne'
    have e1 : salpha β β₂ l = Real.cos β * Real.sin α := by
      rw [salpha, ha, mul_assoc, ← hy, uy]; field_simp
    have e2 : slope β β₂ l = Real.cos β * Real.cos α := by
      rw [slope, ha, ← hz, uz, hh]; field_simp; ring
    rw [lamF, excE, e1, e2, ha]

/-- The point of the ellipsoid at reduced latitude `β` and longitude `l`. -/
noncomputable def pt (a b l β : ℝ) : E3 := !₂[a * Real.cos β * Real.cos l, a * Real.cos β * Real.sin l, b * Real.sin β]

section
variable {a b : ℝ} (hb : 0 < b) (hab : b ≤ a)
include hb hab

theorem lamF_abs (β α : ℝ) {σ : ℝ} (h : 0 ≤ σ) : |lamF (Bessel.e2 a b) β σ α| ≤ (a - b) / a * σ := by
  rw [lamF, abs_mul, abs_mul]
  have := I_abs hb hab (Real.sin β) (Real.cos β * Real.cos α) h
  have k : |Real.cos β| * |Real.sin α| ≤ 1 := mul_le_one₀ (Real.abs_cos_le_one _) (abs_nonneg _) (Real.abs_sin_le_one _)
  exact (mul_le_mul k this (abs_nonneg _) one_pos.le).trans_eq (one_mul _)

/-- The end of a geodesic of the field, on the sphere. -/
theorem end_iff {l L β β₂ σ α : ℝ} : endF a b l β (σ, α) = pt a b (l + L) β₂ ↔
    ux β σ α = Real.cos β₂ * Real.cos (L + lamF (Bessel.e2 a b) β σ α) ∧
    uy σ α = Real.cos β₂ * Real.sin (L + lamF (Bessel.e2 a b) β σ α) ∧ uz β σ α = Real.sin β₂ := by
  have ha : a ≠ 0 := (hb.trans_le hab).ne'
  set x := lamF (Bessel.e2 a b) β σ α with hx
  have e : l + L = (L + x) + (l - x) := by ring
  have b4 := Real.sin_sq_add_cos_sq (l - x)
  constructor
  · intro h
    have h0 := congrArg (fun v : E3 => v 0) h
    have h1 := congrArg (fun v : E3 => v 1) h
    have h2 := congrArg (fun v : E3 => v 2) h
    simp only [endF, pt, pxF, pyF, ← hx, PiLp.toLp_apply, Matrix.cons_val_zero, Matrix.cons_val_one, Matrix.cons_val] at h0 h1 h2
    rw [mul_assoc] at h0 h1
    have h0 := mul_left_cancel₀ ha h0
    have h1 := mul_left_cancel₀ ha h1
    have h2 := mul_left_cancel₀ hb.ne' h2
    rw [e, Real.cos_add] at h0
    rw [e, Real.sin_add] at h1
    refine ⟨?_, ?_, h2⟩
    · linear_combination Real.cos (l - x) * h0 + Real.sin (l - x) * h1 - (ux β σ α - Real.cos β₂ * Real.cos (L + x)) * b4
    · linear_combination -Real.sin (l - x) * h0 + Real.cos (l - x) * h1 - (uy σ α - Real.cos β₂ * Real.sin (L + x)) * b4
  · rintro ⟨h0, h1, h2⟩
    ext i
    fin_cases i
    · simp [endF, pt, pxF, ← hx, h0, h1]
      have := Real.cos_add (L + x) (l - x)
      rw [← e] at this
      linear_combination -(a * Real.cos β₂) * this
    · simp [endF, pt, pyF, ← hx, h0, h1]
      have := Real.sin_add (L + x) (l - x)
      rw [← e] at this
      linear_combination -(a * Real.cos β₂) * this
    · simp [endF, pt, h2]

variable (hf : (a - b) / a ≤ 1 / 250) {M : ℝ} (hM : M < Real.pi) (hq : (a - b) / a * (M / Real.sin M) ≤ 1 / 10)
include hf hM hq

/-- The excess contracts in the whole range of the excess. -/
theorem excE_lip' {β β₂ L x y : ℝ} (hL : arc β β₂ L + 4 * ((a - b) / a) ≤ M) (hx : |x| ≤ 4 * ((a - b) / a))
    (hy : |y| ≤ 4 * ((a - b) / a)) :
    |excE (Bessel.e2 a b) β β₂ (L + y) - excE (Bessel.e2 a b) β β₂ (L + x)| ≤ 1 / 4 * |y - x| := by
  have := excE_lip hb hab β β₂ hf (x := L + x) (y := L + y) hM (fun m hm => ?_) hq
  · rwa [add_sub_add_left_eq_sub] at this
  · have k := arc_lip β β₂ m L
    have : |m - L| ≤ 4 * ((a - b) / a) := by
      obtain ⟨x1, x2⟩ := abs_le.1 hx
      obtain ⟨y1, y2⟩ := abs_le.1 hy
      rw [abs_le]
      rcases Set.mem_uIcc.1 hm with h | h <;> constructor <;> linarith [h.1, h.2]
    linarith

/-- Every point not nearly antipodal to the start is reached. -/
theorem lift_exists {l L β β₂ : ℝ} (hβ : 0 < Real.cos β) (hL : arc β β₂ L + 4 * ((a - b) / a) ≤ M) :
    ∃ σ α, 0 ≤ σ ∧ σ ≤ M ∧ endF a b l β (σ, α) = pt a b (l + L) β₂ := by
  have h3 : 0 ≤ (a - b) / a := div_nonneg (by linarith) (hb.trans_le hab).le
  have hp := Real.pi_lt_four
  set B := 4 * ((a - b) / a) with hB
  have hB0 : 0 ≤ B := by positivity
  have hexc : ∀ x, |x| ≤ B → |excE (Bessel.e2 a b) β β₂ (L + x)| ≤ B := fun x hx => by
    have k := arc_lip β β₂ (L + x) L
    rw [add_sub_cancel_left] at k
    refine (excE_abs hb hab β β₂ (L + x)).trans ?_
    rw [hB, mul_comm]
    exact mul_le_mul_of_nonneg_right (by linarith) h3
  have hcont : ContinuousOn (fun x => x - excE (Bessel.e2 a b) β β₂ (L + x)) (Set.Icc (-B) B) := by
    refine continuousOn_id.sub ?_
    refine LipschitzOnWith.continuousOn (K := 1) (LipschitzOnWith.of_dist_le_mul fun y hy x hx => ?_)
    have := excE_lip' hb hab hf hM hq hL (abs_le.2 ⟨hx.1, hx.2⟩) (abs_le.2 ⟨hy.1, hy.2⟩)
    rw [Real.dist_eq, Real.dist_eq, NNReal.coe_one]
    linarith [abs_nonneg (y - x)]
  have hiv := intermediate_value_Icc (show -B ≤ B by linarith) hcont
  have hl := (abs_le.1 (hexc (-B) (by rw [abs_neg, abs_of_nonneg hB0]))).1
  have hr := (abs_le.1 (hexc B (by rw [abs_of_nonneg hB0]))).2
  obtain ⟨x, hx, hx0⟩ := hiv ⟨show -B - excE (Bessel.e2 a b) β β₂ (L + -B) ≤ 0 by linarith,
    show 0 ≤ B - excE (Bessel.e2 a b) β β₂ (L + B) by linarith⟩
  have hx1 : |x| ≤ B := abs_le.2 ⟨hx.1, hx.2⟩
  have k := arc_lip β β₂ (L + x) L
  rw [add_sub_cancel_left] at k
  obtain ⟨α, p1, p2, p3, p4⟩ := polar_at (Bessel.e2 a b) hβ (show arc β β₂ (L + x) < Real.pi by linarith)
  have ex : lamF (Bessel.e2 a b) β (arc β β₂ (L + x)) α = x := by rw [p4]; simp only at hx0; linarith
  refine ⟨arc β β₂ (L + x), α, arc_nonneg _ _ _, by linarith, (end_iff hb hab).2 ⟨?_, ?_, p3⟩⟩
  · rw [ex, p1]
  · rw [ex, p2]

omit hf hq in
/-- A geodesic of the field, as a solution of the equation for the excess. -/
theorem lift_eq {l L β β₂ σ α : ℝ} (hβ : 0 < Real.cos β) (h0 : 0 ≤ σ) (h1 : σ ≤ M)
    (h : endF a b l β (σ, α) = pt a b (l + L) β₂) :
    |lamF (Bessel.e2 a b) β σ α| ≤ 4 * ((a - b) / a) ∧ arc β β₂ (L + lamF (Bessel.e2 a b) β σ α) = σ ∧
      lamF (Bessel.e2 a b) β σ α = excE (Bessel.e2 a b) β β₂ (L + lamF (Bessel.e2 a b) β σ α) := by
  have h3 : 0 ≤ (a - b) / a := div_nonneg (by linarith) (hb.trans_le hab).le
  have hp := Real.pi_lt_four
  obtain ⟨e1, e2, e3⟩ := (end_iff hb hab).1 h
  obtain ⟨k1, k2⟩ := polar_of (Bessel.e2 a b) hβ h0 (h1.trans_lt hM) e1 e2 e3
  refine ⟨?_, k1, k2⟩
  refine (lamF_abs hb hab β α h0).trans ?_
  rw [mul_comm]
  exact mul_le_mul_of_nonneg_right (by linarith) h3

/-- Only one geodesic of the field goes to a point that is not nearly antipodal, so that the length is determined. -/
theorem lift_unique {l L β β₂ σ α σ' α' : ℝ} (hβ : 0 < Real.cos β) (hL : arc β β₂ L + 4 * ((a - b) / a) ≤ M)
    (h0 : 0 ≤ σ) (h1 : σ ≤ M) (h : endF a b l β (σ, α) = pt a b (l + L) β₂)
    (h0' : 0 ≤ σ') (h1' : σ' ≤ M) (h' : endF a b l β (σ', α') = pt a b (l + L) β₂) :
    σ = σ' ∧ lenF (Bessel.e2 a b) β σ α = lenF (Bessel.e2 a b) β σ' α' := by
  obtain ⟨k1, k2, k3⟩ := lift_eq hb hab hM hβ h0 h1 h
  obtain ⟨k1', k2', k3'⟩ := lift_eq hb hab hM hβ h0' h1' h'
  obtain ⟨e1, e2, e3⟩ := (end_iff hb hab).1 h
  obtain ⟨e1', e2', e3'⟩ := (end_iff hb hab).1 h'
  have hc := excE_lip' hb hab hf hM hq hL k1 k1'
  rw [← k3, ← k3'] at hc
  have hx : lamF (Bessel.e2 a b) β σ' α' = lamF (Bessel.e2 a b) β σ α := by
    have := abs_nonneg (lamF (Bessel.e2 a b) β σ' α' - lamF (Bessel.e2 a b) β σ α)
    have : |lamF (Bessel.e2 a b) β σ' α' - lamF (Bessel.e2 a b) β σ α| = 0 := by linarith
    linarith [abs_eq_zero.1 this]
  have hσ : σ = σ' := by rw [← k2, ← k2', hx]
  refine ⟨hσ, ?_⟩
  subst hσ
  rcases h0.eq_or_lt with h0 | h0
  · rw [← h0]
    simp [lenF, lamF, I, Q]
  · have hs : Real.sin σ ≠ 0 := (Real.sin_pos_of_pos_of_lt_pi h0 (h1.trans_lt hM)).ne'
    have ey : uy σ α = uy σ α' := by rw [e2, e2', hx]
    have ez : uz β σ α = uz β σ α' := by rw [e3, e3']
    have s1 : Real.sin α = Real.sin α' := mul_left_cancel₀ hs ey
    have c1 : Real.cos α = Real.cos α' := by
      refine mul_left_cancel₀ (mul_pos hβ (lt_of_le_of_ne (Real.sin_nonneg_of_nonneg_of_le_pi h0.le
        (h1.trans hM.le)) hs.symm)).ne' ?_
      simp only [uz, hh] at ez
      linear_combination ez
    simp only [lenF, lamF, s1, c1]

end

end Geo.Shortest
