import Verif.Lemmas.MeridianArc

/-!
Properties of the transverse Mercator projection on the central meridian of an ellipsoid of revolution: arc length and
scale (C83). Statements in terms of the points of the surface.
-/

namespace Geo
open Geo.MerArc XR Spec

/-- Projection of a position in the plane of the central meridian. -/
theorem tm_meridian {a b : ℝ} (hb : 0 < b) (hab : b ≤ a) (s : String) (l0 : ℝ) {φ0 : ℝ}
    (h1 : -(Real.pi / 2) ≤ φ0) (h2 : φ0 ≤ Real.pi / 2) (k0 fe fn : ℝ) {l φ : ℝ} (h : ℝ) (hl : SameDirection l l0)
    (g1 : -(Real.pi / 2) ≤ φ) (g2 : φ ≤ Real.pi / 2) :
    (tmSpec s a b l0 φ0 k0 fe fn).proj (llh l φ h) = .ok (enh fe (fn + k0 *
      (tmB a b * arcF (nR a b) (confR (Real.sqrt (ecc2 a b)) φ) -
        tmB a b * arcF (nR a b) (confR (Real.sqrt (ecc2 a b)) φ0))) h) := by
  have hz : Real.sin (l - l0) = 0 := by
    have := (hl.sub (SameDirection.refl l0)).sin
    rwa [sub_self, Real.sin_zero] at this
  have hr := confR_range (e := Real.sqrt (ecc2 a b)) g1 g2
  rw [tmSpec_eq hb hab s l0 h1 h2, Projection.proj,
    tmR_proj _ _ _ _ _ _ _ _ _ _ _ _ _ _ _ (Real.sqrt_nonneg _) (sqrt_ecc2_lt hb hab) l φ h g1 g2 (by simp [hz])]
  simp only [hz, mul_zero, Real.artanh_zero, Real.cosh_zero, mul_one, Real.arcsin_sin hr.1 hr.2, sCS_zero, add_zero,
    tmM0_eq hb hab h1 h2]
  simp only [sSC, arcF, mul_zero, Real.cosh_zero, mul_one]
  congr 4
  ring

/-- **C83**: on the central meridian the northing is the false northing plus `k0` times the length of the meridian from the
latitude of origin, up to `23 a n⁵` per radian of latitude, poles included; the easting is the false easting. -/
theorem C83_meridian_arc {a b : ℝ} (hb : 0 < b) (hab : b ≤ a) (hE : (a ^ 2 - b ^ 2) / a ^ 2 ≤ 1 / 50) (s : String) (l0 : ℝ)
    {φ0 : ℝ} (h1 : -(Real.pi / 2) ≤ φ0) (h2 : φ0 ≤ Real.pi / 2) (k0 fe fn : ℝ) {l φ : ℝ} (h : ℝ) (hl : SameDirection l l0)
    (g1 : -(Real.pi / 2) ≤ φ) (g2 : φ ≤ Real.pi / 2) :
    ∃ N, (tmSpec s a b l0 φ0 k0 fe fn).proj (llh l φ h) = .ok (enh fe N h) ∧
      |N - fn - k0 * ∫ t in φ0..φ, ‖deriv (fun t => Spec.surfacePoint a b l t) t‖| ≤
        23 * |k0| * a * ((a - b) / (a + b)) ^ 5 * |φ - φ0| := by
  have ha : 0 < a := lt_of_lt_of_le hb hab
  refine ⟨_, tm_meridian hb hab s l0 h1 h2 k0 fe fn h hl g1 g2, ?_⟩
  have hE' : ecc2 a b ≤ 1 / 50 := by
    rw [ecc2]; convert hE using 1; rw [div_eq_div_iff (by positivity) (by positivity)]; ring
  have key := arc_bound hb hab hE' h1 h2 g1 g2
  have e : (fun t => ‖deriv (fun t => Spec.surfacePoint a b l t) t‖) = fun t => Frame.rho a b t :=
    funext fun t => Frame.norm_deriv_lat ha hb l t
  rw [e, add_sub_cancel_left, ← mul_sub, abs_mul]
  refine (mul_le_mul_of_nonneg_left key (abs_nonneg k0)).trans (le_of_eq ?_)
  rw [nR]; ring

/-- **C83**: the scale along the central meridian is `k0` up to `23 a n⁵` per metre of radius: the northing as a function
of the latitude has the derivative `k0` times the speed of the surface point. -/
theorem C83_meridian_scale {a b : ℝ} (hb : 0 < b) (hab : b ≤ a) (hE : (a ^ 2 - b ^ 2) / a ^ 2 ≤ 1 / 50) (s : String) (l0 : ℝ)
    {φ0 : ℝ} (h1 : -(Real.pi / 2) ≤ φ0) (h2 : φ0 ≤ Real.pi / 2) (k0 fe fn h : ℝ) :
    ∃ N : ℝ → ℝ, (∀ φ, -(Real.pi / 2) ≤ φ → φ ≤ Real.pi / 2 →
        (tmSpec s a b l0 φ0 k0 fe fn).proj (llh l0 φ h) = .ok (enh fe (N φ) h)) ∧
      ∀ φ, -(Real.pi / 2) < φ → φ < Real.pi / 2 → DifferentiableAt ℝ N φ ∧
        |deriv N φ - k0 * ‖deriv (fun t => Spec.surfacePoint a b l0 t) φ‖| ≤ 23 * |k0| * a * ((a - b) / (a + b)) ^ 5 := by
  have ha : 0 < a := lt_of_lt_of_le hb hab
  refine ⟨_, fun φ g1 g2 => tm_meridian hb hab s l0 h1 h2 k0 fe fn h (SameDirection.refl l0) g1 g2, fun φ g1 g2 => ?_⟩
  have hE' : ecc2 a b ≤ 1 / 50 := by
    rw [ecc2]; convert hE using 1; rw [div_eq_div_iff (by positivity) (by positivity)]; ring
  obtain ⟨d, hd, hb'⟩ := arc_diff hb hab hE' g1 g2
  have d2 := ((hd.sub_const (tmB a b * arcF (nR a b) (confR (Real.sqrt (ecc2 a b)) φ0))).const_mul k0).const_add fn
  refine ⟨d2.differentiableAt, ?_⟩
  rw [d2.deriv, Frame.norm_deriv_lat ha hb, ← mul_sub, abs_mul]
  refine (mul_le_mul_of_nonneg_left hb' (abs_nonneg k0)).trans (le_of_eq ?_)
  rw [nR]; ring

/-- UTM on WGS84: the northing of a latitude on the central meridian is 0.9996 times the meridian arc from the equator to
two micrometres per radian. -/
example : ∃ N, (tmSpec "WGS84" 6378137 6356752.314 (3 * Real.pi / 180) 0 0.9996 500000 0).proj
      (llh (3 * Real.pi / 180) 0.8 0) = .ok (enh 500000 N 0) ∧
    |N - 0.9996 * ∫ t in (0 : ℝ)..0.8, ‖deriv (fun t => Spec.surfacePoint 6378137 6356752.314 (3 * Real.pi / 180) t) t‖| ≤
      2e-6 := by
  have hp := Real.pi_gt_three
  obtain ⟨N, h1, h2⟩ := C83_meridian_arc (a := 6378137) (b := 6356752.314) (by norm_num) (by norm_num) (by norm_num) "WGS84"
    (3 * Real.pi / 180) (φ0 := 0) (by linarith) (by linarith) 0.9996 500000 0 (l := 3 * Real.pi / 180) (φ := 0.8) 0
    (SameDirection.refl _) (by norm_num at *; linarith) (by norm_num at *; linarith)
  refine ⟨N, h1, ?_⟩
  rw [sub_zero] at h2
  refine h2.trans ?_
  rw [abs_of_pos (by norm_num : (0 : ℝ) < 0.9996), abs_of_pos (by norm_num : (0 : ℝ) < 0.8 - 0)]
  norm_num

end Geo
