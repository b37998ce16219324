import Verif.Model.Geodesics
import Verif.Lemmas.Res
import Verif.Lemmas.Sphere
import Verif.Spec.Geodesics

/-! The Vincenty iterations over the reals. -/

namespace Geo
open XR Spec VincentyGeodesicSolver

theorem ell_ePrimeSq {a b : ℝ} (hb : 0 < b) (n : String) :
    (ell n a b).ePrimeSq = fin ((a ^ 2 - b ^ 2) / b ^ 2) := by
  simp only [Ellipsoid.ePrimeSq, Ellipsoid.aSq, Ellipsoid.bSq, ell, mul_fin, sub_fin]
  rw [div_fin _ (by positivity), pow_two, pow_two]

theorem fin_mul_pinf {c : ℝ} (hc : 0 < c) : (fin c * pinf : XR) = pinf := signInf_pos hc
theorem fin_mul_ninf {c : ℝ} (hc : 0 < c) : (fin c * ninf : XR) = ninf := signInf_neg (by linarith)

/-- The reduced latitude is a real number for every latitude, and is the parameter of the meridian ellipse. -/
theorem reducedLatitude_all {a b : ℝ} (hb : 0 < b) (hab : b ≤ a) (n : String) (φ : ℝ) :
    ∃ β, (ell n a b).reducedLatitude (latR φ) = ⟨fin β⟩ ∧ -(Real.pi / 2) ≤ β ∧ β ≤ Real.pi / 2 ∧
      (0 ≤ Real.cos φ → a * Real.cos β = pvr a b φ * Real.cos φ ∧
        b * Real.sin β = pvr a b φ * (1 - ecc2 a b) * Real.sin φ) := by
  have ha : 0 < a := lt_of_lt_of_le hb hab
  have e1 : 1 - (a - b) / a = b / a := by field_simp; ring
  have p1 : (0 : ℝ) < b / a := by positivity
  have hp := Real.pi_pos
  have hw := wf_pos hb hab φ
  have hsw := Real.sqrt_pos.2 hw
  by_cases hc : Real.cos φ = 0
  · have hs : Real.sin φ ≠ 0 := by
      intro h
      have := Real.sin_sq_add_cos_sq φ
      rw [h, hc] at this
      norm_num at this
    have hs2 : Real.sin φ ^ 2 = 1 := by
      have := Real.sin_sq_add_cos_sq φ
      rw [hc] at this
      linarith
    have hN : pvr a b φ * (1 - ecc2 a b) = b := by
      rw [pvr, wf, hs2, mul_one, one_sub_ecc2 hb hab, ← div_pow, Real.sqrt_sq (by positivity)]
      field_simp
    rcases lt_or_gt_of_ne hs with hn | hp'
    · have hs1 : Real.sin φ = -1 := by nlinarith
      refine ⟨-(Real.pi / 2), ?_, le_rfl, by linarith, fun _ => ⟨by simp [hc], ?_⟩⟩
      · simp only [Ellipsoid.reducedLatitude, ell_f hb hab, latR, Lat.tan, Angle.tan, tan_fin_ite, if_pos hc,
          signInf_neg hn, one_eq, sub_fin, e1, fin_mul_ninf p1, atan_ninf, angle_new_rad]
      · rw [hN, Real.sin_neg, Real.sin_pi_div_two, hs1]
    · have hs1 : Real.sin φ = 1 := by nlinarith
      refine ⟨Real.pi / 2, ?_, by linarith, le_rfl, fun _ => ⟨by simp [hc], ?_⟩⟩
      · simp only [Ellipsoid.reducedLatitude, ell_f hb hab, latR, Lat.tan, Angle.tan, tan_fin_ite, if_pos hc,
          signInf_pos hp', one_eq, sub_fin, e1, fin_mul_pinf p1, atan_pinf, angle_new_rad]
      · rw [hN, Real.sin_pi_div_two, hs1]
  · refine ⟨Real.arctan (b / a * Real.tan φ), ?_, (Real.neg_pi_div_two_lt_arctan _).le,
      (Real.arctan_lt_pi_div_two _).le, fun h => ?_⟩
    · simp only [Ellipsoid.reducedLatitude, ell_f hb hab, latR, Lat.tan, Angle.tan, tan_fin hc, one_eq, sub_fin,
        mul_fin, atan_fin, angle_new_rad, e1]
    · have hcp : 0 < Real.cos φ := lt_of_le_of_ne h (Ne.symm hc)
      have hrt : Real.sqrt (1 + (b / a * Real.tan φ) ^ 2) = Real.sqrt (wf a b φ) / Real.cos φ := by
        rw [Real.sqrt_eq_iff_mul_self_eq (by positivity) (by positivity), div_mul_div_comm, Real.mul_self_sqrt hw.le,
          wf_eq hb hab, Real.tan_eq_sin_div_cos]
        field_simp
      constructor
      · rw [Real.cos_arctan, hrt, pvr]; field_simp
      · rw [Real.sin_arctan, hrt, pvr, one_sub_ecc2 hb hab, Real.tan_eq_sin_div_cos]; field_simp

/-! ### Inverse problem -/

/-- `cos 2σₘ` (18), or `c₀` for an equatorial line. -/
noncomputable def mid (β₁ β₂ l c₀ : ℝ) : ℝ :=
  if 1 - salpha β₁ β₂ l ^ 2 = 0 then c₀
  else Real.cos (arc β₁ β₂ l) - 2 * Real.sin β₁ * Real.sin β₂ / (1 - salpha β₁ β₂ l ^ 2)

theorem auxTriangle (β₁ β₂ l c₀ : ℝ) (h : Real.sin (arc β₁ β₂ l) ≠ 0) :
    AuxTriangle β₁ β₂ l (arc β₁ β₂ l) (salpha β₁ β₂ l) (mid β₁ β₂ l c₀) :=
  ⟨arc_nonneg _ _ _, arc_le_pi _ _ _, cos_arc _ _ _, h, by rw [salpha, div_mul_cancel₀ _ h],
    fun hα => by rw [mid, if_neg hα]⟩

/-- A state of the loop whose values are real. -/
structure RealState (st : InverseState XR) (l p k σ c : ℝ) : Prop where
  lambda : st.lambda = fin l
  sin_lambda : st.sin_lambda = fin (Real.sin l)
  cos_lambda : st.cos_lambda = fin (Real.cos l)
  prev : st.lambda_prev = fin p
  cos_alpha_sq : st.cos_alpha_sq = fin k
  sigma : st.sigma = fin σ
  sin_sigma : st.sin_sigma = fin (Real.sin σ)
  cos_sigma : st.cos_sigma = fin (Real.cos σ)
  mid : st.cos_2_sigma_m = fin c

/-- A state of the loop after a division by zero. -/
structure NanState (st : InverseState XR) : Prop where
  lambda : st.lambda = nan
  sin_lambda : st.sin_lambda = nan
  cos_lambda : st.cos_lambda = nan

theorem inverseStep_real (f β₁ β₂ L l c₀ : ℝ) (st : InverseState XR) (hs : Real.sin (arc β₁ β₂ l) ≠ 0)
    (h1 : st.lambda = fin l) (h2 : st.sin_lambda = fin (Real.sin l)) (h3 : st.cos_lambda = fin (Real.cos l))
    (h4 : st.cos_2_sigma_m = fin c₀) :
    RealState (inverseStep (fin f) (fin (Real.sin β₁)) (fin (Real.cos β₁)) (fin (Real.sin β₂)) (fin (Real.cos β₂))
      (fin L) st) (vincentyExcess f (salpha β₁ β₂ l) (arc β₁ β₂ l) (mid β₁ β₂ l c₀) + L) l (1 - salpha β₁ β₂ l ^ 2)
      (arc β₁ β₂ l) (mid β₁ β₂ l c₀) := by
  have e1 : (Real.cos β₂ * Real.sin l) ^ 2 + (Real.cos β₁ * Real.sin β₂ - Real.sin β₁ * Real.cos β₂ * Real.cos l) ^ 2
      = ssq β₁ β₂ l := rfl
  have e2 : Flt.sqrt (fin (ssq β₁ β₂ l)) = fin (Real.sqrt (ssq β₁ β₂ l)) := sqrt_fin (ssq_nonneg _ _ _)
  have e3 : Real.sin β₁ * Real.sin β₂ + Real.cos β₁ * Real.cos β₂ * Real.cos l = csig β₁ β₂ l := rfl
  have e4 : Complex.arg ⟨csig β₁ β₂ l, Real.sqrt (ssq β₁ β₂ l)⟩ = arc β₁ β₂ l := rfl
  have e5 : Real.cos β₁ * Real.cos β₂ * Real.sin l / Real.sin (arc β₁ β₂ l) = salpha β₁ β₂ l := rfl
  have hstep : (inverseStep (fin f) (fin (Real.sin β₁)) (fin (Real.cos β₁)) (fin (Real.sin β₂)) (fin (Real.cos β₂))
      (fin L) st).lambda = fin (vincentyExcess f (salpha β₁ β₂ l) (arc β₁ β₂ l) (mid β₁ β₂ l c₀) + L) := by
    by_cases hα : 1 - salpha β₁ β₂ l ^ 2 = 0
    · simp only [inverseStep, h2, h3, mul_fin, add_fin, sub_fin, powi_fin, ofNat_eq, one_eq, zero_eq, e1, e2, e3,
        atan2_fin, e4, sin_fin, cos_fin, div_fin _ hs, e5, eq_fin, hα, decide_true, if_true, vincentyExcess, vincentyC]
      congr 1
      ring
    · simp only [inverseStep, h2, h3, mul_fin, add_fin, sub_fin, neg_fin, powi_fin, ofNat_eq, one_eq, zero_eq, e1, e2,
        e3, atan2_fin, e4, sin_fin, cos_fin, div_fin _ hs, e5, eq_fin, hα, decide_false, Bool.false_eq_true, if_false,
        div_fin _ hα, vincentyExcess, vincentyC, seriesC, mid, div_fin _ (show (16:ℝ) ≠ 0 by norm_num)]
  refine ⟨hstep, ?_, ?_, h1, ?_, ?_, ?_, ?_, ?_⟩
  · exact congrArg Flt.sin hstep
  · exact congrArg Flt.cos hstep
  · simp only [inverseStep, h2, h3, mul_fin, add_fin, sub_fin, powi_fin, one_eq, e1, e2, e3, atan2_fin, e4, sin_fin,
      div_fin _ hs, e5]
  · simp only [inverseStep, h2, h3, mul_fin, add_fin, sub_fin, powi_fin, e1, e2, e3, atan2_fin, e4]
  · simp only [inverseStep, h2, h3, mul_fin, add_fin, sub_fin, powi_fin, e1, e2, e3, atan2_fin, e4, sin_fin]
  · simp only [inverseStep, h2, h3, mul_fin, add_fin, sub_fin, powi_fin, e1, e2, e3, atan2_fin, e4, cos_fin]
  · by_cases hα : 1 - salpha β₁ β₂ l ^ 2 = 0
    · simp only [inverseStep, h2, h3, h4, mul_fin, add_fin, sub_fin, powi_fin, one_eq, zero_eq, e1, e2, e3,
        atan2_fin, e4, sin_fin, div_fin _ hs, e5, eq_fin, hα, decide_true, if_true, mid]
    · simp only [inverseStep, h2, h3, mul_fin, add_fin, sub_fin, powi_fin, ofNat_eq, one_eq, zero_eq, e1, e2, e3,
        atan2_fin, e4, sin_fin, cos_fin, div_fin _ hs, e5, eq_fin, hα, decide_false, Bool.false_eq_true, if_false,
        div_fin _ hα, mid]

theorem inverseStep_coincident (f β₁ β₂ L l : ℝ) (st : InverseState XR) (hs : Real.sin (arc β₁ β₂ l) = 0)
    (h2 : st.sin_lambda = fin (Real.sin l)) (h3 : st.cos_lambda = fin (Real.cos l)) :
    NanState (inverseStep (fin f) (fin (Real.sin β₁)) (fin (Real.cos β₁)) (fin (Real.sin β₂)) (fin (Real.cos β₂))
      (fin L) st) := by
  have hq : ssq β₁ β₂ l = 0 := by rw [← sin_arc_sq, hs]; norm_num
  have hz : Real.cos β₂ * Real.sin l = 0 := by
    unfold ssq at hq
    nlinarith [sq_nonneg (Real.cos β₂ * Real.sin l),
      sq_nonneg (Real.cos β₁ * Real.sin β₂ - Real.sin β₁ * Real.cos β₂ * Real.cos l)]
  have e1 : (Real.cos β₂ * Real.sin l) ^ 2 + (Real.cos β₁ * Real.sin β₂ - Real.sin β₁ * Real.cos β₂ * Real.cos l) ^ 2
      = ssq β₁ β₂ l := rfl
  have e2 : Flt.sqrt (fin (ssq β₁ β₂ l)) = fin (Real.sqrt (ssq β₁ β₂ l)) := sqrt_fin (ssq_nonneg _ _ _)
  have e3 : Real.sin β₁ * Real.sin β₂ + Real.cos β₁ * Real.cos β₂ * Real.cos l = csig β₁ β₂ l := rfl
  have e4 : Complex.arg ⟨csig β₁ β₂ l, Real.sqrt (ssq β₁ β₂ l)⟩ = arc β₁ β₂ l := rfl
  have e5 : Real.cos β₁ * Real.cos β₂ * Real.sin l = 0 := by rw [mul_assoc, hz, mul_zero]
  have e6 : (fin (Real.cos β₁ * Real.cos β₂ * Real.sin l) / fin (Real.sin (arc β₁ β₂ l)) : XR) = nan := by
    rw [e5, hs, div_fin_ite, if_pos rfl, signInf_zero]
  have e7 : Flt.powi nan 2 = nan := rfl
  have hstep : (inverseStep (fin f) (fin (Real.sin β₁)) (fin (Real.cos β₁)) (fin (Real.sin β₂)) (fin (Real.cos β₂))
      (fin L) st).lambda = nan := by
    simp only [inverseStep, h2, h3, mul_fin, add_fin, sub_fin, powi_fin, e1, e2, e3, atan2_fin, e4, sin_fin,
      cos_fin, e6, e7, sub_nan, nan_eq, Bool.false_eq_true, if_false, mul_nan, nan_mul, nan_add]
  exact ⟨hstep, congrArg Flt.sin hstep, congrArg Flt.cos hstep⟩

theorem inverseStep_nan (f sb1 cb1 sb2 cb2 L : XR) (st : InverseState XR) (h : NanState st) :
    NanState (inverseStep f sb1 cb1 sb2 cb2 L st) := by
  have e7 : Flt.powi nan 2 = nan := rfl
  have hstep : (inverseStep f sb1 cb1 sb2 cb2 L st).lambda = nan := by
    simp only [inverseStep, h.sin_lambda, h.cos_lambda, mul_nan, e7, sub_nan, nan_add, sqrt_nan, nan_atan2,
      sin_nan, cos_nan, nan_div, nan_eq, Bool.false_eq_true, if_false, nan_mul]
  exact ⟨hstep, congrArg Flt.sin hstep, congrArg Flt.cos hstep⟩

theorem inverseDone_nan (st : InverseState XR) (h : NanState st) : inverseDone st = false := by
  simp [inverseDone, h.lambda]

theorem loopMax_nan (f sb1 cb1 sb2 cb2 L : XR) (st : InverseState XR) (h : NanState st) (msg : String) (n : ℕ) :
    loopMax (inverseStep f sb1 cb1 sb2 cb2 L) inverseDone msg n st = .error (.err msg) := by
  induction n generalizing st with
  | zero => rfl
  | succ n ih =>
    have h' := inverseStep_nan f sb1 cb1 sb2 cb2 L st h
    rw [loopMax]
    simp only [inverseDone_nan _ h', Bool.false_eq_true, if_false]
    exact ih _ h'

theorem inverseDone_real {st : InverseState XR} {l p k σ c : ℝ} (h : RealState st l p k σ c) :
    inverseDone st = decide (|l - p| < 1e-12) := by
  simp only [inverseDone, h.lambda, h.prev, sub_fin, abs_fin, sci_eq, lt_fin]

end Geo
