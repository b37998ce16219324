import Verif.Lemmas.Vincenty
import Verif.Lemmas.Reduced

/-! Arcs on the auxiliary sphere, and the direct Vincenty iteration over the reals. -/

namespace Geo
open XR Spec VincentyGeodesicSolver

theorem arg_polar {r θ : ℝ} (hr : 0 < r) (h1 : -Real.pi < θ) (h2 : θ ≤ Real.pi) :
    Complex.arg ⟨r * Real.cos θ, r * Real.sin θ⟩ = θ := by
  have e : (⟨r * Real.cos θ, r * Real.sin θ⟩ : ℂ) = r * (Complex.cos θ + Complex.sin θ * Complex.I) := by
    apply Complex.ext <;> simp [Complex.cos_ofReal_re, Complex.sin_ofReal_re, Complex.cos_ofReal_im, Complex.sin_ofReal_im]
  rw [e, Complex.arg_mul_cos_add_sin_mul_I hr ⟨h1, h2⟩]

/-- Components of the end of an arc. -/
theorem arc_components (β α σ : ℝ) :
    (Real.cos β * Real.sin α) ^ 2 + (Real.sin β * Real.sin σ - Real.cos β * Real.cos σ * Real.cos α) ^ 2 +
      (Real.sin β * Real.cos σ + Real.cos β * Real.sin σ * Real.cos α) ^ 2 = 1 ∧
    (Real.sin σ * Real.sin α) ^ 2 + (Real.cos β * Real.cos σ - Real.sin β * Real.sin σ * Real.cos α) ^ 2 +
      (Real.sin β * Real.cos σ + Real.cos β * Real.sin σ * Real.cos α) ^ 2 = 1 := by
  have h1 := Real.sin_sq_add_cos_sq β
  have h2 := Real.sin_sq_add_cos_sq α
  have h3 := Real.sin_sq_add_cos_sq σ
  have e1 : Real.sin β ^ 2 = 1 - Real.cos β ^ 2 := by linarith
  have e2 : Real.sin α ^ 2 = 1 - Real.cos α ^ 2 := by linarith
  have e3 : Real.sin σ ^ 2 = 1 - Real.cos σ ^ 2 := by linarith
  constructor
  · ring_nf; simp only [e1, e2, e3]; ring
  · ring_nf; simp only [e1, e2, e3]; ring

/-- The end of an arc, from its components: the latitude is given by its sine and cosine. -/
theorem arcEnd (β α σ β₂ : ℝ) (hs : Real.sin β₂ = Real.sin β * Real.cos σ + Real.cos β * Real.sin σ * Real.cos α)
    (hc : 0 ≤ Real.cos β₂) :
    ArcEnd β α σ β₂
      (Complex.arg ⟨Real.cos β * Real.cos σ - Real.sin β * Real.sin σ * Real.cos α, Real.sin σ * Real.sin α⟩)
      (Complex.arg ⟨-Real.sin β * Real.sin σ + Real.cos β * Real.cos σ * Real.cos α, Real.cos β * Real.sin α⟩) := by
  obtain ⟨q1, q2⟩ := arc_components β α σ
  have h2 := Real.sin_sq_add_cos_sq β₂
  have r1 : Real.sqrt ((Real.cos β * Real.cos σ - Real.sin β * Real.sin σ * Real.cos α) ^ 2 +
      (Real.sin σ * Real.sin α) ^ 2) = Real.cos β₂ := by
    rw [← Real.sqrt_sq hc]; congr 1; rw [← hs] at q2; linarith
  have r2 : Real.sqrt ((-Real.sin β * Real.sin σ + Real.cos β * Real.cos σ * Real.cos α) ^ 2 +
      (Real.cos β * Real.sin α) ^ 2) = Real.cos β₂ := by
    rw [← Real.sqrt_sq hc]; congr 1; rw [← hs] at q1; linarith
  obtain ⟨p1, p2⟩ := polar (Real.cos β * Real.cos σ - Real.sin β * Real.sin σ * Real.cos α) (Real.sin σ * Real.sin α)
  obtain ⟨p3, p4⟩ := polar (-Real.sin β * Real.sin σ + Real.cos β * Real.cos σ * Real.cos α) (Real.cos β * Real.sin α)
  rw [r1] at p1 p2
  rw [r2] at p3 p4
  exact ⟨hc, hs, p2, p1, p4, by rw [p3]; ring⟩

/-- A reduced latitude determines the geodetic latitude and conversely. -/
theorem reduced_of_geodetic {a b : ℝ} (hb : 0 < b) (hab : b ≤ a) (n : String) {R Z φ : ℝ} (hR : 0 ≤ R)
    (h1 : R ^ 2 + Z ^ 2 = 1) (hφ : φ = Complex.arg ⟨b / a * R, Z⟩) :
    ∃ β, (ell n a b).reducedLatitude (latR φ) = ⟨fin β⟩ ∧ Real.cos β = R ∧ Real.sin β = Z ∧
      -(Real.pi / 2) ≤ φ ∧ φ ≤ Real.pi / 2 := by
  have ha : 0 < a := lt_of_lt_of_le hb hab
  obtain ⟨g1, g2, g3, g4⟩ := geodetic_of_reduced hb hab hR h1
  rw [← hφ] at g1 g2 g3 g4
  obtain ⟨β, e, -, -, h⟩ := reducedLatitude_all hb hab n φ
  obtain ⟨k1, k2⟩ := h (Real.cos_nonneg_of_neg_pi_div_two_le_of_le g1 g2)
  exact ⟨β, e, mul_left_cancel₀ ha.ne' (k1.trans g3), mul_left_cancel₀ hb.ne' (k2.trans g4), g1, g2⟩

/-- The reduced latitude of a latitude off the poles. -/
theorem reducedLatitude_off {a b : ℝ} (hb : 0 < b) (hab : b ≤ a) (n : String) {φ : ℝ} (hc : 0 < Real.cos φ) :
    (ell n a b).reducedLatitude (latR φ) = ⟨fin (Real.arctan (b / a * Real.tan φ))⟩ := by
  have ha : 0 < a := lt_of_lt_of_le hb hab
  have e1 : 1 - (a - b) / a = b / a := by field_simp; ring
  simp only [Ellipsoid.reducedLatitude, ell_f hb hab, latR, Lat.tan, Angle.tan, tan_fin hc.ne', one_eq, sub_fin,
    mul_fin, atan_fin, angle_new_rad, e1]

/-- ... and back. -/
theorem geodetic_of_arctan {a b : ℝ} (hb : 0 < b) (hab : b ≤ a) {φ : ℝ} (h1 : -(Real.pi / 2) < φ) (h2 : φ < Real.pi / 2) :
    Complex.arg ⟨b / a * Real.cos (Real.arctan (b / a * Real.tan φ)), Real.sin (Real.arctan (b / a * Real.tan φ))⟩ = φ := by
  have ha : 0 < a := lt_of_lt_of_le hb hab
  have hc : 0 < Real.cos φ := Real.cos_pos_of_mem_Ioo ⟨h1, h2⟩
  have hp := Real.pi_pos
  set β := Real.arctan (b / a * Real.tan φ) with hβ
  have hcβ : 0 < Real.cos β := Real.cos_arctan_pos _
  have ht : Real.tan β = b / a * Real.tan φ := Real.tan_arctan _
  rw [Real.tan_eq_sin_div_cos, Real.tan_eq_sin_div_cos] at ht
  have hs : Real.sin β = b / a * Real.cos β / Real.cos φ * Real.sin φ := by
    rw [div_eq_iff hcβ.ne'] at ht; rw [ht]; ring
  have hr : 0 < b / a * Real.cos β / Real.cos φ := by positivity
  have := arg_polar hr (by linarith : -Real.pi < φ) (by linarith)
  rw [← hs, div_mul_cancel₀ _ hc.ne'] at this
  exact this

/-! ### Direct problem -/

/-- A state of the loop whose values are real; `m` is `σ₁`. -/
structure RealD (st : DirectState XR) (m σ p : ℝ) : Prop where
  sigma : st.sigma = ⟨fin σ⟩
  sin_sigma : st.sin_sigma = fin (Real.sin σ)
  cos_sigma : st.cos_sigma = fin (Real.cos σ)
  mid : st.cos_2_sigma_m = fin (Real.cos (2 * m + σ))
  prev : st.sigma_prev = ⟨fin p⟩

theorem directStep_real (B m σ₀ σ p : ℝ) (st : DirectState XR) (h : RealD st m σ p) :
    RealD (directStep (fin B) ⟨fin m⟩ ⟨fin σ₀⟩ st) m (σ₀ + vincentyDeltaSigma B σ (Real.cos (2 * m + σ))) σ := by
  have n3 : (4 : ℝ) ≠ 0 := by norm_num
  have n4 : (6 : ℝ) ≠ 0 := by norm_num
  have hs : (directStep (fin B) ⟨fin m⟩ ⟨fin σ₀⟩ st).sigma =
      ⟨fin (σ₀ + vincentyDeltaSigma B σ (Real.cos (2 * m + σ)))⟩ := by
    simp only [directStep, deltaSigma, h.sin_sigma, h.cos_sigma, h.mid, ofNat_eq, one_eq, neg_fin, mul_fin, add_fin,
      sub_fin, powi_fin, div_fin _ n3, div_fin _ n4, angle_new_rad, Angle.mk_add, vincentyDeltaSigma]
  refine ⟨hs, ?_, ?_, ?_, h.sigma⟩
  · exact congrArg Angle.sin hs
  · exact congrArg Angle.cos hs
  · show ((2 : XR) * (⟨fin m⟩ : Angle XR) + (directStep (fin B) ⟨fin m⟩ ⟨fin σ₀⟩ st).sigma).cos = _
    rw [hs]
    simp [ofNat_eq, Angle.cos]

theorem directDone_real {st : DirectState XR} {m σ p : ℝ} (h : RealD st m σ p) :
    directDone st = decide (|σ - p| < 1e-12) := by
  simp only [directDone, h.sigma, h.prev, Angle.mk_sub, sub_fin, Angle.abs, abs_fin, sci_eq, lt_fin]

theorem directStep_nan (B : XR) (m s : Angle XR) (st : DirectState XR) (h : st.sin_sigma = nan) :
    (directStep B m s st).sigma.rad = nan ∧ (directStep B m s st).sin_sigma = nan := by
  have hs : (directStep B m s st).sigma.rad = nan := by
    simp [directStep, deltaSigma, h, Angle.new]
  exact ⟨hs, congrArg Flt.sin hs⟩

theorem directLoop_nan (B : XR) (m s : Angle XR) (st : DirectState XR) (h : st.sin_sigma = nan) (msg : String) (n : ℕ) :
    loopMax (directStep B m s) directDone msg n st = .error (.err msg) := by
  induction n generalizing st with
  | zero => rfl
  | succ n ih =>
    obtain ⟨h1, h2⟩ := directStep_nan B m s st h
    have hd : directDone (directStep B m s st) = false := by
      simp [directDone, Angle.abs, h1]
    rw [loopMax]
    simp only [hd, Bool.false_eq_true, if_false]
    exact ih _ h2

theorem directLoop_real (B m σ₀ : ℝ) (msg : String) (n : ℕ) (σ p : ℝ) (st r : DirectState XR) (h : RealD st m σ p)
    (hr : loopMax (directStep (fin B) ⟨fin m⟩ ⟨fin σ₀⟩) directDone msg n st = .ok r) :
    ∃ q σ', RealD r m σ' q ∧ |σ' - q| < 1e-12 ∧ σ' = σ₀ + vincentyDeltaSigma B q (Real.cos (2 * m + q)) := by
  induction n generalizing σ p st with
  | zero => cases hr
  | succ n ih =>
    have h' := directStep_real B m σ₀ σ p st h
    rw [loopMax] at hr
    simp only [directDone_real h'] at hr
    split at hr
    · rename_i hd
      cases hr
      exact ⟨σ, _, h', by simpa using hd, rfl⟩
    · exact ih _ _ _ h' hr

end Geo
