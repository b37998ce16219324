import Verif.Lemmas.KarneyGeodesic
import Verif.Props.KarneyExact

/-! # C78: the geodesic solvers and the geodesics of the surface, in exact arithmetic

`IsGeodesic` (Spec/SurfaceGeodesic) is the differential-geometric notion: a curve on the ellipsoid, run through at unit
speed, whose acceleration is normal to the surface. -/

namespace Geo
open XR Spec

/-- A geodesic of the ellipsoid is determined by its start and its direction there. -/
theorem C78_unique {a b : ℝ} (hb : 0 < b) (hab : b ≤ a) {γ δ : ℝ → E3} (h : IsGeodesic a b γ) (k : IsGeodesic a b δ)
    (e : γ 0 = δ 0) (e' : deriv γ 0 = deriv δ 0) : γ = δ := h.unique hb hab k 0 e e'

/-- The reduced latitude of the code. -/
theorem reduced_of_eq {a b : ℝ} (hb : 0 < b) (hab : b ≤ a) {n : String} {φ β : ℝ} (hc : 0 ≤ Real.cos φ)
    (h : (ell n a b).reducedLatitude (latR φ) = ⟨fin β⟩) : Bessel.Reduced a b φ β ∧ -(Real.pi / 2) ≤ β ∧ β ≤ Real.pi / 2 := by
  have ha : 0 < a := lt_of_lt_of_le hb hab
  obtain ⟨β', e, h1, h2, k⟩ := reducedLatitude_all hb hab n φ
  have : β' = β := by rw [e] at h; simpa using h
  subst this
  obtain ⟨k1, k2⟩ := k hc
  refine ⟨⟨?_, ?_⟩, h1, h2⟩
  all_goals
    have hN : a ^ 2 / Real.sqrt (a ^ 2 * Real.cos φ ^ 2 + b ^ 2 * Real.sin φ ^ 2) = pvr a b φ := by
      have : wf a b φ = (a ^ 2 * Real.cos φ ^ 2 + b ^ 2 * Real.sin φ ^ 2) / a ^ 2 := wf_eq hb hab φ
      rw [pvr, this, Real.sqrt_div' _ (by positivity), Real.sqrt_sq ha.le]
      field_simp
    rw [hN]
  · exact k1.symm
  · rw [k2, one_sub_ecc2 hb hab]; ring

/-- Two directions of the same azimuth at the same latitude. -/
theorem direction_sub (l l' φ α : ℝ) : ‖direction l φ α - direction l' φ α‖ ≤ |l - l'| := by
  rw [EuclideanSpace.norm_eq]
  refine Real.sqrt_le_iff.2 ⟨by positivity, ?_⟩
  simp [Fin.sum_univ_three, direction]
  have h1 := Real.cos_sub l l'
  have h2 := Real.cos_sq' ((l - l') / 2)
  have h3 := Real.cos_two_mul ((l - l') / 2)
  rw [show 2 * ((l - l') / 2) = l - l' by ring] at h3
  have e : (-(Real.cos α * (Real.sin φ * Real.cos l)) + -(Real.sin α * Real.sin l) -
      (-(Real.cos α * (Real.sin φ * Real.cos l')) + -(Real.sin α * Real.sin l'))) ^ 2 +
      (-(Real.cos α * (Real.sin φ * Real.sin l)) + Real.sin α * Real.cos l -
      (-(Real.cos α * (Real.sin φ * Real.sin l')) + Real.sin α * Real.cos l')) ^ 2 =
      (Real.cos α ^ 2 * Real.sin φ ^ 2 + Real.sin α ^ 2) * (4 * Real.sin ((l - l') / 2) ^ 2) := by
    linear_combination (Real.cos α ^ 2 * Real.sin φ ^ 2 + Real.sin α ^ 2) * (Real.sin_sq_add_cos_sq l +
      Real.sin_sq_add_cos_sq l' + 2 * h1 - 2 * h3 - 4 * h2)
  rw [e]
  have k1 : Real.cos α ^ 2 * Real.sin φ ^ 2 + Real.sin α ^ 2 ≤ 1 := by
    have := Real.sin_sq_add_cos_sq α
    have := Real.sin_sq_le_one φ
    nlinarith [sq_nonneg (Real.cos α)]
  have k2 : Real.sin ((l - l') / 2) ^ 2 ≤ ((l - l') / 2) ^ 2 := Real.sin_sq_le_sq
  have k3 := sq_nonneg (Real.sin ((l - l') / 2))
  nlinarith

/-- What an outcome on the auxiliary sphere means on the surface: the errors of the distance and of the longitude are
the only ones. -/
theorem ArcOutcome.geodesic {a b : ℝ} (hb : 0 < b) (hab : b ≤ a) {n : String} {l φ α s σ x σ₁ β : ℝ} {g : Geodesic XR}
    (hg : ArcOutcome a b n l φ α s σ x g) (hc : 0 < Real.cos φ) (hβ : (ell n a b).reducedLatitude (latR φ) = ⟨fin β⟩)
    (hσ : IsNodeArc β α σ₁) :
    let s0 := Real.cos β * Real.sin α
    let c0 := Real.sqrt (1 - s0 ^ 2)
    let t := Bessel.T a b s0 c0 (σ₁ + σ) - Bessel.T a b s0 c0 σ₁
    let y := Bessel.G a b s0 c0 (σ₁ + σ) - Bessel.G a b s0 c0 σ₁
    ∃ (γ : ℝ → E3) (l₂ φ₂ α₂ : ℝ), IsGeodesic a b γ ∧ γ 0 = surfacePoint a b l φ ∧ deriv γ 0 = direction l φ α ∧
      g.p2 = (lonR l₂, latR φ₂) ∧ g.alpha2 = aziR α₂ ∧ -Real.pi ≤ l₂ ∧ l₂ ≤ Real.pi ∧ -(Real.pi / 2) ≤ φ₂ ∧
      φ₂ ≤ Real.pi / 2 ∧ -Real.pi < α₂ ∧ α₂ ≤ Real.pi ∧
      ‖surfacePoint a b l₂ φ₂ - γ s‖ ≤ |t - s| + a * |y - x| ∧
      (Real.cos φ₂ ≠ 0 → ‖direction l₂ φ₂ α₂ - deriv γ s‖ ≤ a / b ^ 2 * |t - s| + |y - x|) := by
  intro s0 c0 t y
  have ha : 0 < a := lt_of_lt_of_le hb hab
  obtain ⟨β₁, β₂, lam, α₂, φ₂, e1, e2, r1, r2, r3, r4, he, rfl⟩ := hg
  have : β₁ = β := by rw [hβ] at e1; simpa using e1.symm
  subst this
  obtain ⟨hr, hβ1, hβ2⟩ := reduced_of_eq hb hab hc.le hβ
  obtain ⟨hr2, -, -⟩ := reduced_of_eq hb hab (Real.cos_nonneg_of_neg_pi_div_two_le_of_le r1 r2) e2
  have hsN : ∀ φ, 0 < a ^ 2 * Real.cos φ ^ 2 + b ^ 2 * Real.sin φ ^ 2 := fun φ => by
    have := wf_pos hb hab φ
    rw [wf_eq hb hab] at this
    exact (div_pos_iff_of_pos_right (by positivity)).1 this
  have hcβ : 0 < Real.cos β₁ := by
    have h := hr.1
    have : 0 < a * Real.cos β₁ := by
      rw [← h]
      have := Real.sqrt_pos.2 (hsN φ)
      positivity
    exact (mul_pos_iff_of_pos_left ha).1 this
  have hK : 0 ≤ 1 - s0 ^ 2 := by
    have h1 := Real.cos_sq_le_one β₁
    have h2 := Real.sin_sq_le_one α
    have : s0 ^ 2 ≤ 1 := by
      rw [show s0 ^ 2 = Real.cos β₁ ^ 2 * Real.sin α ^ 2 from mul_pow _ _ _]
      nlinarith [sq_nonneg (Real.sin α)]
    linarith
  have h1 : s0 ^ 2 + c0 ^ 2 = 1 := by rw [Real.sq_sqrt hK]; ring
  obtain ⟨γ, hγ, g0, g1, hend⟩ := Bessel.arc_geodesic hb hab (l := l) hcβ hr rfl hσ.1 hσ.2 h1
  obtain ⟨k1, k2⟩ := hend σ β₂ lam α₂ φ₂ he hr2
  have hd := remR_same (l + (lam - x))
  refine ⟨γ, remR (l + (lam - x)), φ₂, α₂, hγ, g0, g1, by rw [lon_new_fin]; rfl, rfl, le_remR _, remR_le _, r1, r2, r3,
    r4, ?_, fun hc2 => ?_⟩
  · have e : surfacePoint a b (remR (l + (lam - x))) φ₂ = surfacePoint a b (l + (lam - x)) φ₂ := by
      simp only [surfacePoint, hd.cos, hd.sin]
    have p1 := Bessel.surfacePoint_sub (l := l + (lam - x)) (l' := l + (lam - y)) ha.le hr2
    have p2 := hγ.chord s t
    rw [k1] at p2
    rw [show l + (lam - x) - (l + (lam - y)) = y - x by ring] at p1
    rw [e]
    refine (norm_sub_le_norm_sub_add_norm_sub _ (surfacePoint a b (l + (lam - y)) φ₂) _).trans ?_
    linarith
  · have e : direction (remR (l + (lam - x))) φ₂ α₂ = direction (l + (lam - x)) φ₂ α₂ := by
      simp only [direction, hd.cos, hd.sin]
    have hcβ2 : Real.cos β₂ ≠ 0 := by
      intro h0
      have h := hr2.1
      rw [h0, mul_zero] at h
      have := Real.sqrt_pos.2 (hsN φ₂)
      exact (mul_ne_zero (by positivity) hc2) h
    have p1 := direction_sub (l + (lam - x)) (l + (lam - y)) φ₂ α₂
    have p2 := hγ.turn hb hab s t
    rw [k2 hcβ2] at p2
    rw [show l + (lam - x) - (l + (lam - y)) = y - x by ring] at p1
    rw [e]
    refine (norm_sub_le_norm_sub_add_norm_sub _ (direction (l + (lam - y)) φ₂ α₂) _).trans ?_
    linarith

/-- **C78**: the Karney direct solver returns the end of the geodesic: from any start off the poles there is a geodesic
of the ellipsoid with this start and this azimuth, and the returned point differs from the one at the distance `s` along
it by at most `n⁷ (5 a + 14 |s|)`, where `n = (a - b) / (a + b) ≤ 1/100`; the returned azimuth differs from its direction
there by at most `n⁷ (5 + 14 |s| / a)`. -/
theorem C78_karney_direct {a b : ℝ} (hb : 0 < b) (hab : b ≤ a) (hn : (a - b) / (a + b) ≤ 1 / 100) (n : String)
    (l φ α s : ℝ) (hc : 0 < Real.cos φ) :
    let g := (KarneyGeodesicSolver.new (ell n a b)).direct (lonR l, latR φ) (aziR α) (lenR s)
    ∃ (γ : ℝ → E3) (l₂ φ₂ α₂ : ℝ), IsGeodesic a b γ ∧ γ 0 = surfacePoint a b l φ ∧ deriv γ 0 = direction l φ α ∧
      g.p2 = (lonR l₂, latR φ₂) ∧ g.alpha2 = aziR α₂ ∧ -Real.pi ≤ l₂ ∧ l₂ ≤ Real.pi ∧ -(Real.pi / 2) ≤ φ₂ ∧
      φ₂ ≤ Real.pi / 2 ∧ -Real.pi < α₂ ∧ α₂ ≤ Real.pi ∧
      ‖surfacePoint a b l₂ φ₂ - γ s‖ ≤ ((a - b) / (a + b)) ^ 7 * (5 * a + 14 * |s|) ∧
      (Real.cos φ₂ ≠ 0 → ‖direction l₂ φ₂ α₂ - deriv γ s‖ ≤ ((a - b) / (a + b)) ^ 7 * (5 + 14 * (|s| / a))) := by
  intro g
  have ha : 0 < a := lt_of_lt_of_le hb hab
  obtain ⟨β, sa, k2, ε, σ₁, τ, hβ, hsa, hk2, hε, hσ, -, -, hτ, ho⟩ := C74_karney_direct hb hab n l φ α s hc
  obtain ⟨γ, l₂, φ₂, α₂, hγ, g0, g1, p2, p3, q1, q2, q3, q4, q5, q6, w1, w2⟩ := ho.geodesic hb hab hc hβ hσ
  refine ⟨γ, l₂, φ₂, α₂, hγ, g0, g1, p2, p3, q1, q2, q3, q4, q5, q6, ?_⟩
  have hK : 0 ≤ 1 - (Real.cos β * Real.sin α) ^ 2 := by
    have h1 := Real.cos_sq_le_one β
    have h2 := Real.sin_sq_le_one α
    rw [mul_pow]
    nlinarith [sq_nonneg (Real.sin α)]
  have hc2 := Real.sq_sqrt hK
  rw [hsa, ← hc2] at hk2
  have h1 : (Real.cos β * Real.sin α) ^ 2 + Real.sqrt (1 - (Real.cos β * Real.sin α) ^ 2) ^ 2 = 1 := by rw [hc2]; ring
  obtain ⟨m1, m2⟩ := Bessel.arc_error hb hab h1 hk2 hε hn hτ
  have m3 := Bessel.lon_error hb hab h1 hk2 hε hn σ₁ (karneySigma ε τ)
  rw [show σ₁ + (karneySigma ε τ - σ₁) = karneySigma ε τ by ring] at w1 w2
  rw [hsa] at w1 w2
  set N := (a - b) / (a + b) with hN
  have hN0 : 0 ≤ N := div_nonneg (by linarith) (by linarith)
  have hN7 : 0 ≤ N ^ 7 := by positivity
  have hab' : a ≤ 103 / 100 * b := by
    rw [hN, div_le_iff₀ (by positivity)] at hn
    linarith
  have m4 := m3.trans (mul_le_mul_of_nonneg_left m1 (by positivity))
  have hs := abs_nonneg s
  have hsb : a * (|s| / b) ≤ 103 / 100 * |s| := by
    rw [mul_div_assoc', div_le_iff₀ hb]
    nlinarith
  refine ⟨w1.trans ?_, fun h => (w2 h).trans ?_⟩
  · have := mul_le_mul_of_nonneg_left m4 ha.le
    calc _ ≤ N ^ 7 * (4 * a + |s|) + a * (12 * N ^ 7 * (|s| / b + 1 / 50)) := add_le_add m2 this
      _ = N ^ 7 * (4 * a + |s| + 12 * (a * (|s| / b)) + 12 / 50 * a) := by ring
      _ ≤ _ := mul_le_mul_of_nonneg_left (by linarith) hN7
  · have hba : a / b ^ 2 ≤ (107 / 100) / a := by
      rw [div_le_div_iff₀ (by positivity) ha]
      nlinarith
    have hsb' : |s| / b ≤ 103 / 100 * (|s| / a) := by
      rw [mul_div_assoc', div_le_div_iff₀ hb ha]
      nlinarith
    have hsa0 : 0 ≤ |s| / a := by positivity
    calc _ ≤ (107 / 100) / a * (N ^ 7 * (4 * a + |s|)) + 12 * N ^ 7 * (|s| / b + 1 / 50) :=
          add_le_add (mul_le_mul hba m2 (abs_nonneg _) (by positivity)) m4
      _ = N ^ 7 * (107 / 100 * (4 + |s| / a) + 12 * (|s| / b) + 12 / 50) := by field_simp; ring
      _ ≤ _ := mul_le_mul_of_nonneg_left (by linarith) hN7

/-- WGS 84, ten thousand kilometres: the returned point is within a hundredth of a nanometre of the geodesic. -/
example : ∃ (γ : ℝ → E3) (l₂ φ₂ α₂ : ℝ), IsGeodesic 6378137 6356752.314245 γ ∧
    γ 0 = surfacePoint 6378137 6356752.314245 1 (1 / 2) ∧ deriv γ 0 = direction 1 (1 / 2) 2 ∧
    (KarneyGeodesicSolver.new (ell "WGS 84" 6378137 6356752.314245)).direct (lonR 1, latR (1 / 2)) (aziR 2) (lenR 10000000) =
      ⟨(lonR 1, latR (1 / 2)), aziR 2, (lonR l₂, latR φ₂), aziR α₂, lenR 10000000⟩ ∧
    ‖surfacePoint 6378137 6356752.314245 l₂ φ₂ - γ 10000000‖ ≤ 1e-11 := by
  have hc : 0 < Real.cos (1 / 2) := Real.cos_pos_of_mem_Ioo ⟨by linarith [Real.pi_gt_three], by linarith [Real.pi_gt_three]⟩
  obtain ⟨γ, l₂, φ₂, α₂, hγ, g0, g1, p2, p3, -, -, -, -, -, -, w1, -⟩ :=
    C78_karney_direct (a := 6378137) (b := 6356752.314245) (by norm_num) (by norm_num) (by norm_num) "WGS 84" 1 (1 / 2) 2
      10000000 hc
  refine ⟨γ, l₂, φ₂, α₂, hγ, g0, g1, ?_, w1.trans (by norm_num)⟩
  obtain ⟨_, _, _, _, _, _, _, _, _, _, _, _, _, _, _, _, _, _, _, _, _, _, _, _, _, _, hg⟩ :=
    C74_karney_direct (a := 6378137) (b := 6356752.314245) (by norm_num) (by norm_num) "WGS 84" 1 (1 / 2) 2 10000000 hc
  rw [hg] at p2 p3 ⊢
  simp only at p2 p3
  rw [p2, p3]

end Geo
