import Verif.Lemmas.Isometric
import Verif.Lemmas.Ellipsoid
import Verif.Props.DatumExact
import Verif.Model.Projections

/-!
Web Mercator and Mercator projections in exact arithmetic: C32, C33, C34, C35.
-/

namespace Geo
open XR Spec

theorem two_sci : (2.0 : XR) = fin 2 := by rw [sci_eq]; norm_num

theorem lon_sub_fin (l l0 : ℝ) : (lonR l).sub (lonR l0) = ⟨fin (normR (l - l0))⟩ := by
  simp only [Lon.sub, lonR, diffTo_fin]

theorem lon_add_fin (l t : ℝ) : (lonR l).addAngle ⟨fin t⟩ = lonR (remR (l + t)) := by
  simp only [Lon.addAngle, lonR, Angle.mk_add, add_fin, lon_new_fin]

theorem half_lat_tan {φ : ℝ} (h1 : -(Real.pi / 2) < φ) (h2 : φ < Real.pi / 2) :
    (((latR φ).divF 2.0).addAngle (Angle.new pi_4 RAD)).tan = fin (Real.tan (φ / 2 + Real.pi / 4)) := by
  have hp := Real.pi_pos
  have hc : 0 < Real.cos (φ / 2 + Real.pi / 4) := Real.cos_pos_of_mem_Ioo ⟨by linarith, by linarith⟩
  simp only [Lat.divF, latR, two_sci, Angle.mk_div, div_fin _ (two_ne_zero), lat_new_fin, Lat.addAngle, pi_4_eq,
    angle_new_rad, Angle.mk_add, add_fin, Lat.tan, Angle.tan]
  rw [clampR_id (x := φ / 2) (by linarith) (by linarith), clampR_id (by linarith) (by linarith), tan_fin hc.ne']

/-! ### Web Mercator -/

/-- The Web Mercator projection of the crate, from its specification. -/
noncomputable def webMerc (n : String) (a b l0 : ℝ) (lat0 : Lat XR) (fe fn : ℝ) : Projection XR :=
  (ProjectionSpec.webMercator (lonR l0) lat0 ⟨fin fe⟩ ⟨fin fn⟩).appliedTo (ell n a b)

theorem webMerc_proj (n : String) (a b l0 : ℝ) (lat0 : Lat XR) (fe fn l φ h : ℝ)
    (h1 : -(Real.pi / 2) < φ) (h2 : φ < Real.pi / 2) :
    (webMerc n a b l0 lat0 fe fn).proj (llh l φ h) =
      .ok (enh (fe + a * normR (l - l0)) (fn + a * Real.arsinh (Real.tan φ)) h) := by
  have ht := half_lat_tan h1 h2
  have hs := lon_sub_fin l l0
  simp only [latR, lonR] at ht hs
  simp only [webMerc, ProjectionSpec.appliedTo, Projection.proj, WebMercator.new, WebMercator.proj, llh, lonR, ell,
    hs, ht, ln_fin (tan_half_pos h1 h2), log_tan_half h1 h2, Length.mulAngle, Length.mk_mul, Length.mk_add, mul_fin,
    add_fin, enh]
  rw [mul_comm a, mul_comm a]

theorem webMerc_unproj (n : String) {a : ℝ} (ha : a ≠ 0) (b l0 : ℝ) (lat0 : Lat XR) (fe fn E N h : ℝ) :
    (webMerc n a b l0 lat0 fe fn).unproj (enh E N h) =
      .ok (llh (remR (l0 + (E - fe) / a)) (Real.arctan (Real.sinh ((N - fn) / a))) h) := by
  have hl := lon_add_fin l0 ((E - fe) / a)
  simp only [lonR] at hl
  have h1 := Real.neg_pi_div_two_lt_arctan (Real.sinh ((N - fn) / a))
  have h2 := Real.arctan_lt_pi_div_two (Real.sinh ((N - fn) / a))
  have hg := gd_eq ((N - fn) / a)
  rw [show -((N - fn) / a) = (fn - N) / a by ring] at hg
  simp only [webMerc, ProjectionSpec.appliedTo, Projection.unproj, WebMercator.new, WebMercator.unproj, llh, lonR, ell,
    enh, ArcLength.divLength, Length.mk_sub, sub_fin, Length.mk_div_mk, div_fin _ ha, angle_new_rad, hl, exp_fin,
    atan_fin, two_sci, mul_fin, Angle.PI_2, pi_2_eq, Angle.mk_sub, lat_new_fin, hg, clampR_id h1.le h2.le]

/-- **C32**: projecting and unprojecting gives back the latitude and height, and the longitude up to whole turns
(exactly the longitude when it is strictly between -180° and 180°). -/
theorem C32_unproj_proj (n : String) {a : ℝ} (ha : 0 < a) (b l0 : ℝ) (lat0 : Lat XR) (fe fn l φ h : ℝ)
    (h1 : -(Real.pi / 2) < φ) (h2 : φ < Real.pi / 2) :
    ∃ E N l', (webMerc n a b l0 lat0 fe fn).proj (llh l φ h) = .ok (enh E N h) ∧
      (webMerc n a b l0 lat0 fe fn).unproj (enh E N h) = .ok (llh l' φ h) ∧
      -Real.pi ≤ l' ∧ l' ≤ Real.pi ∧ SameDirection l' l ∧ (-Real.pi < l → l < Real.pi → l' = l) := by
  have hsame : SameDirection (remR (l0 + normR (l - l0))) l :=
    (remR_same _).trans (by
      have := (SameDirection.refl l0).add (normR_same (l - l0))
      rwa [add_sub_cancel] at this)
  refine ⟨_, _, remR (l0 + normR (l - l0)), webMerc_proj n a b l0 lat0 fe fn l φ h h1 h2, ?_, le_remR _, remR_le _,
    hsame, ?_⟩
  · rw [webMerc_unproj n ha.ne', add_sub_cancel_left, add_sub_cancel_left, mul_div_cancel_left₀ _ ha.ne',
      mul_div_cancel_left₀ _ ha.ne', arctan_sinh_iso h1 h2]
  · intro g1 g2
    have hle := le_remR (l0 + normR (l - l0))
    rcases eq_or_lt_of_le hle with he | hlt
    · exfalso
      have hp : SameDirection Real.pi l := by
        have : SameDirection Real.pi (remR (l0 + normR (l - l0))) := ⟨1, by rw [← he]; push_cast; ring⟩
        exact this.trans hsame
      have := same_unique (by linarith [Real.pi_pos]) le_rfl g1 g2.le hp
      linarith
    · exact same_unique hlt (remR_le _) g1 g2.le hsame

/-- **C32**: unprojecting and projecting is the identity within half a world width of the false easting. -/
theorem C32_proj_unproj (n : String) {a : ℝ} (ha : 0 < a) (b l0 : ℝ) (lat0 : Lat XR) (fe fn E N h : ℝ)
    (h1 : -(Real.pi * a) < E - fe) (h2 : E - fe ≤ Real.pi * a) :
    ∃ l φ, (webMerc n a b l0 lat0 fe fn).unproj (enh E N h) = .ok (llh l φ h) ∧
      -Real.pi ≤ l ∧ l ≤ Real.pi ∧ -(Real.pi / 2) < φ ∧ φ < Real.pi / 2 ∧
      (webMerc n a b l0 lat0 fe fn).proj (llh l φ h) = .ok (enh E N h) := by
  have g1 := Real.neg_pi_div_two_lt_arctan (Real.sinh ((N - fn) / a))
  have g2 := Real.arctan_lt_pi_div_two (Real.sinh ((N - fn) / a))
  refine ⟨_, _, webMerc_unproj n ha.ne' b l0 lat0 fe fn E N h, le_remR _, remR_le _, g1, g2, ?_⟩
  rw [webMerc_proj n a b l0 lat0 fe fn _ _ h g1 g2, Real.tan_arctan, Real.arsinh_sinh]
  have e1 : normR (remR (l0 + (E - fe) / a) - l0) = (E - fe) / a := by
    apply normR_eq
    refine ⟨?_, ?_, ?_⟩
    · rw [lt_div_iff₀ ha]; linarith
    · rw [div_le_iff₀ ha]; linarith
    · have := ((remR_same (l0 + (E - fe) / a)).sub (SameDirection.refl l0)).symm
      rwa [add_sub_cancel_left] at this
  rw [e1, mul_div_cancel₀ _ ha.ne', mul_div_cancel₀ _ ha.ne', add_sub_cancel, add_sub_cancel]

example : (0 : ℝ) < 6378137 ∧ -(Real.pi / 2) < (0.85 : ℝ) ∧ (0.85 : ℝ) < Real.pi / 2 ∧
    -(Real.pi * 6378137) < (20000000 : ℝ) - 0 ∧ (20000000 : ℝ) - 0 ≤ Real.pi * 6378137 := by
  have h1 := Real.pi_gt_d2
  refine ⟨by norm_num, by linarith, by linarith, by linarith, ?_⟩
  have := Real.pi_gt_d6
  linarith

/-- **C33**: easting and northing.  The easting is linear in the longitude difference brought back to a half turn,
the northing is `a` times the number whose hyperbolic sine is the tangent of the latitude. -/
theorem C33_shape (n : String) (a b l0 : ℝ) (lat0 : Lat XR) (fe fn l φ h : ℝ)
    (h1 : -(Real.pi / 2) < φ) (h2 : φ < Real.pi / 2) :
    ∃ δ ψ : ℝ, NormalizesTo δ (l - l0) ∧ Real.sinh ψ = Real.tan φ ∧
      (webMerc n a b l0 lat0 fe fn).proj (llh l φ h) = .ok (enh (fe + a * δ) (fn + a * ψ) h) :=
  ⟨_, _, normR_normalizes _, Real.sinh_arsinh _, webMerc_proj n a b l0 lat0 fe fn l φ h h1 h2⟩

/-- **C33**: the origin meridian and the equator go to the false easting and northing. -/
theorem C33_origin (n : String) (a b l0 : ℝ) (lat0 : Lat XR) (fe fn l φ h : ℝ)
    (h1 : -(Real.pi / 2) < φ) (h2 : φ < Real.pi / 2) :
    (∃ N, (webMerc n a b l0 lat0 fe fn).proj (llh l0 φ h) = .ok (enh fe N h)) ∧
    (∃ E, (webMerc n a b l0 lat0 fe fn).proj (llh l 0 h) = .ok (enh E fn h)) := by
  have hp := Real.pi_pos
  constructor
  · refine ⟨_, by rw [webMerc_proj n a b l0 lat0 fe fn l0 φ h h1 h2, sub_self, normR_id (by linarith) hp.le, mul_zero,
      add_zero]⟩
  · refine ⟨_, by rw [webMerc_proj n a b l0 lat0 fe fn l 0 h (by linarith) (by linarith), Real.tan_zero,
      Real.arsinh_zero, mul_zero, add_zero]⟩

/-- **C33**: the northing is strictly increasing and odd in the latitude. -/
theorem C33_northing (n : String) {a : ℝ} (ha : 0 < a) (b l0 : ℝ) (lat0 : Lat XR) (fe fn l φ φ' h : ℝ)
    (h1 : -(Real.pi / 2) < φ) (h2 : φ < Real.pi / 2) (h1' : -(Real.pi / 2) < φ') (h2' : φ' < Real.pi / 2) :
    ∃ E N N', (webMerc n a b l0 lat0 fe fn).proj (llh l φ h) = .ok (enh E (fn + N) h) ∧
      (webMerc n a b l0 lat0 fe fn).proj (llh l φ' h) = .ok (enh E (fn + N') h) ∧
      (webMerc n a b l0 lat0 fe fn).proj (llh l (-φ) h) = .ok (enh E (fn - N) h) ∧ (φ < φ' ↔ N < N') := by
  refine ⟨_, _, _, webMerc_proj n a b l0 lat0 fe fn l φ h h1 h2, webMerc_proj n a b l0 lat0 fe fn l φ' h h1' h2',
    ?_, ?_⟩
  · rw [webMerc_proj n a b l0 lat0 fe fn l (-φ) h (by linarith) (by linarith), Real.tan_neg, Real.arsinh_neg, mul_neg,
      sub_eq_add_neg fn]
  · rw [mul_lt_mul_iff_right₀ ha, Real.arsinh_lt_arsinh]
    exact (Real.strictMonoOn_tan.lt_iff_lt ⟨h1, h2⟩ ⟨h1', h2'⟩).symm

/-- **C33**: the poles are sent to infinity. -/
theorem C33_poles (n : String) {a : ℝ} (ha : 0 < a) (b l0 : ℝ) (lat0 : Lat XR) (fe fn l h : ℝ) :
    ∃ E, (webMerc n a b l0 lat0 fe fn).proj (llh l (Real.pi / 2) h) = .ok ⟨⟨fin E⟩, ⟨pinf⟩, ⟨fin h⟩⟩ ∧
      (webMerc n a b l0 lat0 fe fn).proj (llh l (-(Real.pi / 2)) h) = .ok ⟨⟨fin E⟩, ⟨ninf⟩, ⟨fin h⟩⟩ := by
  have hp := Real.pi_pos
  have hs := lon_sub_fin l l0
  simp only [lonR] at hs
  have t1 : (((latR (Real.pi / 2)).divF 2.0).addAngle (Angle.new pi_4 RAD)).tan = pinf := by
    simp only [Lat.divF, latR, two_sci, Angle.mk_div, div_fin _ (two_ne_zero), lat_new_fin, Lat.addAngle, pi_4_eq,
      angle_new_rad, Angle.mk_add, add_fin, Lat.tan, Angle.tan]
    rw [clampR_id (x := Real.pi / 2 / 2) (by linarith) (by linarith),
      show Real.pi / 2 / 2 + Real.pi / 4 = Real.pi / 2 by ring, clampR_id (by linarith) (by linarith), tan_fin_ite,
      if_pos Real.cos_pi_div_two, Real.sin_pi_div_two, signInf_pos one_pos]
  have t2 : (((latR (-(Real.pi / 2))).divF 2.0).addAngle (Angle.new pi_4 RAD)).tan = fin 0 := by
    simp only [Lat.divF, latR, two_sci, Angle.mk_div, div_fin _ (two_ne_zero), lat_new_fin, Lat.addAngle, pi_4_eq,
      angle_new_rad, Angle.mk_add, add_fin, Lat.tan, Angle.tan]
    rw [clampR_id (x := -(Real.pi / 2) / 2) (by linarith) (by linarith),
      show -(Real.pi / 2) / 2 + Real.pi / 4 = 0 by ring, clampR_id (by linarith) (by linarith), tan_fin (by simp),
      Real.tan_zero]
  have l1 : Flt.ln pinf = pinf := rfl
  have l2 : Flt.ln (fin 0) = ninf := by
    show (if (0:ℝ) < 0 then nan else if (0:ℝ) = 0 then ninf else fin (Real.log 0)) = _
    rw [if_neg (lt_irrefl _), if_pos rfl]
  have m1 : (pinf * fin a : XR) = pinf := signInf_pos ha
  have m2 : (ninf * fin a : XR) = ninf := signInf_neg (by linarith : -a < 0)
  have p1 : (fin fn + pinf : XR) = pinf := rfl
  have p2 : (fin fn + ninf : XR) = ninf := rfl
  simp only [latR] at t1 t2
  refine ⟨fe + normR (l - l0) * a, ?_, ?_⟩
  · simp only [webMerc, ProjectionSpec.appliedTo, Projection.proj, WebMercator.new, WebMercator.proj, llh, lonR, ell,
      hs, t1, l1, Length.mulAngle, Length.mk_mul, Length.mk_add, mul_fin, m1, p1, add_fin]
  · simp only [webMerc, ProjectionSpec.appliedTo, Projection.proj, WebMercator.new, WebMercator.proj, llh, lonR, ell,
      hs, t2, l2, Length.mulAngle, Length.mk_mul, Length.mk_add, mul_fin, m2, p2, add_fin]

/-! ### Mercator -/

/-- Mercator with scale factor `k0` on the equator. -/
noncomputable def merc1 (n : String) (a b l0 k0 fe fn : ℝ) : Projection XR :=
  (ProjectionSpec.mercator1SP (lonR l0) (fin k0) ⟨fin fe⟩ ⟨fin fn⟩).appliedTo (ell n a b)

/-- Mercator with standard parallel `φ1`. -/
noncomputable def merc2 (n : String) (a b l0 φ1 fe fn : ℝ) : Projection XR :=
  (ProjectionSpec.mercator2SP (lonR l0) (latR φ1) ⟨fin fe⟩ ⟨fin fn⟩).appliedTo (ell n a b)

theorem ell_e {a b : ℝ} (hb : 0 < b) (hab : b ≤ a) (n : String) :
    (ell n a b).e = fin (Real.sqrt (ecc2 a b)) := by
  rw [Ellipsoid.e, ell_eSq hb hab, sqrt_fin (ecc2_nonneg hb hab)]

theorem sqrt_ecc2_lt {a b : ℝ} (hb : 0 < b) (hab : b ≤ a) : Real.sqrt (ecc2 a b) < 1 := by
  rw [Real.sqrt_lt' one_pos]; simpa using ecc2_lt_one hb hab

theorem mercNew_proj {a b : ℝ} (hb : 0 < b) (hab : b ≤ a) (n : String) (l0 : ℝ) (lat0 : Lat XR) (k0 fe fn l φ h : ℝ)
    (h1 : -(Real.pi / 2) < φ) (h2 : φ < Real.pi / 2) :
    (Mercator.new (ell n a b) (lonR l0) lat0 (fin k0) ⟨fin fe⟩ ⟨fin fn⟩).proj (llh l φ h) =
      .ok (enh (fe + k0 * a * normR (l - l0)) (fn + k0 * a * isoQ (Real.sqrt (ecc2 a b)) φ) h) := by
  have ht := half_lat_tan h1 h2
  have hs := lon_sub_fin l l0
  have he0 := Real.sqrt_nonneg (ecc2 a b)
  have he1 := sqrt_ecc2_lt hb hab
  obtain ⟨hf1, hf2⟩ := log_powf_factor (φ := φ) he0 he1
  have hes := abs_e_sin_lt he0 he1 φ
  have hd : (1 + Real.sqrt (ecc2 a b) * Real.sin φ) ≠ 0 := by linarith [hes.1]
  have htp := tan_half_pos h1 h2
  have hpos := mul_pos htp (Real.rpow_pos_of_pos hf1 (Real.sqrt (ecc2 a b) / 2))
  have hlog : Real.log (Real.tan (φ / 2 + Real.pi / 4) *
      ((1 - Real.sqrt (ecc2 a b) * Real.sin φ) / (1 + Real.sqrt (ecc2 a b) * Real.sin φ)) ^
        (Real.sqrt (ecc2 a b) / 2)) = isoQ (Real.sqrt (ecc2 a b)) φ := by
    rw [Real.log_mul htp.ne' (Real.rpow_pos_of_pos hf1 _).ne', hf2, log_tan_half h1 h2, isoQ]; ring
  simp only [latR, lonR, two_sci] at ht hs
  simp only [Mercator.new, Mercator.proj, llh, lonR, ell_e hb hab, hs, ht, Lat.sin, Angle.sin, sin_fin, mul_fin,
    one_sci, sub_fin, add_fin, div_fin _ hd, two_sci, div_fin _ (two_ne_zero), powf_fin hf1, ln_fin hpos, hlog]
  simp only [ell, Length.mulAngle, Length.mk_mul, mul_fin, Length.mk_add, add_fin, enh]
  rw [mul_comm (normR _), mul_comm (isoQ _ _)]

/-- The series of the inverse latitude, in terms of `e²` and of the conformal latitude `χ`. -/
noncomputable def mercSeries (e2 χ : ℝ) : ℝ :=
  χ + (e2 / 2 + 5 / 24 * e2 ^ 2 + e2 ^ 3 / 12 + 13 / 360 * e2 ^ 4) * Real.sin (2 * χ)
    + (7 / 48 * e2 ^ 2 + 29 / 240 * e2 ^ 3 + 811 / 11520 * e2 ^ 4) * Real.sin (4 * χ)
    + (7 / 120 * e2 ^ 3 + 81 / 1120 * e2 ^ 4) * Real.sin (6 * χ)
    + 4279 / 161280 * e2 ^ 4 * Real.sin (8 * χ)

theorem four_sci : (4.0 : XR) = fin 4 := by rw [sci_eq]; norm_num
theorem six_sci : (6.0 : XR) = fin 6 := by rw [sci_eq]; norm_num
theorem eight_sci : (8.0 : XR) = fin 8 := by rw [sci_eq]; norm_num

theorem mercNew_unproj {a b : ℝ} (hb : 0 < b) (hab : b ≤ a) (n : String) (l0 : ℝ) (lat0 : Lat XR) {k0 : ℝ}
    (hk : k0 * a ≠ 0) (fe fn E N h : ℝ) :
    (Mercator.new (ell n a b) (lonR l0) lat0 (fin k0) ⟨fin fe⟩ ⟨fin fn⟩).unproj (enh E N h) =
      .ok (llh (remR (l0 + (E - fe) / (k0 * a)))
        (clampR (mercSeries (ecc2 a b) (Real.arctan (Real.sinh ((N - fn) / (k0 * a)))))) h) := by
  have hl := lon_add_fin l0 ((E - fe) / (k0 * a))
  simp only [lonR] at hl
  have hg := gd_eq ((N - fn) / (k0 * a))
  rw [show -((N - fn) / (k0 * a)) = (fn - N) / (k0 * a) by ring] at hg
  have c0 : fastPoly [0, 0.5, 5 / 24, 1 / 12, 13 / 360] (fin (ecc2 a b)) =
      fin (ecc2 a b / 2 + 5 / 24 * ecc2 a b ^ 2 + ecc2 a b ^ 3 / 12 + 13 / 360 * ecc2 a b ^ 4) := by
    simp [fastPoly, Polynomial.fastEvalAt, div_fin_ite]; ring
  have c1 : fastPoly [0, 0, 7 / 48, 29 / 240, 811 / 11520] (fin (ecc2 a b)) =
      fin (7 / 48 * ecc2 a b ^ 2 + 29 / 240 * ecc2 a b ^ 3 + 811 / 11520 * ecc2 a b ^ 4) := by
    simp [fastPoly, Polynomial.fastEvalAt, div_fin_ite]; ring
  have c2 : fastPoly [0, 0, 0, 7 / 120, 81 / 1120] (fin (ecc2 a b)) =
      fin (7 / 120 * ecc2 a b ^ 3 + 81 / 1120 * ecc2 a b ^ 4) := by
    simp [fastPoly, Polynomial.fastEvalAt, div_fin_ite]; ring
  have c3 : fastPoly [0, 0, 0, 0, 4279 / 161280] (fin (ecc2 a b)) = fin (4279 / 161280 * ecc2 a b ^ 4) := by
    simp [fastPoly, Polynomial.fastEvalAt, div_fin_ite]; ring
  simp only [Mercator.new, Mercator.unproj, ell_eSq hb hab, c0, c1, c2, c3]
  simp only [ell, enh, ArcLength.divLength, Length.mk_sub, sub_fin, Length.mk_mul,
    mul_fin, Length.mk_div_mk, div_fin _ hk, angle_new_rad, hl, exp_fin, atan_fin, two_sci, four_sci, six_sci,
    eight_sci, pi_2_eq, hg, sin_fin, add_fin, lat_new_fin, llh, mercSeries, lonR]

theorem mercSeries_zero (χ : ℝ) : mercSeries 0 χ = χ := by simp [mercSeries]

/-- Scale factor on the equator of the variant with a standard parallel. -/
noncomputable def k2sp (a b φ1 : ℝ) : ℝ := Real.cos φ1 / Real.sqrt (wf a b φ1)

theorem merc1_eq (n : String) (a b l0 k0 fe fn : ℝ) : merc1 n a b l0 k0 fe fn =
    .mercator (Mercator.new (ell n a b) (lonR l0) Lat.ZERO (fin k0) ⟨fin fe⟩ ⟨fin fn⟩) := rfl

theorem merc2_eq {a b : ℝ} (hb : 0 < b) (hab : b ≤ a) (n : String) (l0 φ1 fe fn : ℝ) : merc2 n a b l0 φ1 fe fn =
    .mercator (Mercator.new (ell n a b) (lonR l0) (latR φ1) (fin (k2sp a b φ1)) ⟨fin fe⟩ ⟨fin fn⟩) := by
  have hw := wf_pos hb hab φ1
  have e1 : 1 - ecc2 a b * Real.sin |φ1| * Real.sin |φ1| = wf a b φ1 := by
    rcases abs_choice φ1 with h | h <;> rw [h, wf] <;> try rw [Real.sin_neg]
    all_goals ring
  simp only [merc2, ProjectionSpec.appliedTo, Mercator.new2Sp, ell_eSq hb hab, latR, Lat.abs, Angle.abs, abs_fin,
    Lat.sin, Lat.cos, Angle.sin, Angle.cos, sin_fin, cos_fin, mul_fin, one_sci, sub_fin, e1, sqrt_fin hw.le,
    div_fin _ (Real.sqrt_pos.2 hw).ne', Real.cos_abs, k2sp]

theorem k2sp_pos {a b : ℝ} (hb : 0 < b) (hab : b ≤ a) {φ1 : ℝ} (h1 : -(Real.pi / 2) < φ1) (h2 : φ1 < Real.pi / 2) :
    0 < k2sp a b φ1 :=
  div_pos (cos_pos_of_lat h1 h2) (Real.sqrt_pos.2 (wf_pos hb hab φ1))

/-- The two variants the crate offers, with the scale factor on the equator. -/
inductive IsMercator (n : String) (a b l0 fe fn : ℝ) : ℝ → Projection XR → Prop
  | oneSP (k0 : ℝ) (h : 0 < k0) : IsMercator n a b l0 fe fn k0 (merc1 n a b l0 k0 fe fn)
  | twoSP (φ1 : ℝ) (h1 : -(Real.pi / 2) < φ1) (h2 : φ1 < Real.pi / 2) :
      IsMercator n a b l0 fe fn (Real.cos φ1 / Real.sqrt (1 - (1 - b ^ 2 / a ^ 2) * Real.sin φ1 ^ 2))
        (merc2 n a b l0 φ1 fe fn)

theorem k2sp_eq {a b : ℝ} (hb : 0 < b) (hab : b ≤ a) (φ1 : ℝ) :
    Real.cos φ1 / Real.sqrt (1 - (1 - b ^ 2 / a ^ 2) * Real.sin φ1 ^ 2) = k2sp a b φ1 := by
  rw [← one_sub_ecc2 hb hab, k2sp, wf, sub_sub_cancel]

theorem IsMercator.eq {n : String} {a b l0 fe fn k : ℝ} (hb : 0 < b) (hab : b ≤ a) {p : Projection XR}
    (h : IsMercator n a b l0 fe fn k p) : 0 < k ∧
    ∃ lat0, p = .mercator (Mercator.new (ell n a b) (lonR l0) lat0 (fin k) ⟨fin fe⟩ ⟨fin fn⟩) := by
  cases h with
  | oneSP k0 h => exact ⟨h, _, rfl⟩
  | twoSP φ1 h1 h2 =>
    rw [k2sp_eq hb hab]
    exact ⟨k2sp_pos hb hab h1 h2, _, merc2_eq hb hab n l0 φ1 fe fn⟩

theorem IsMercator.proj {n : String} {a b l0 fe fn k : ℝ} (hb : 0 < b) (hab : b ≤ a) {p : Projection XR}
    (hp : IsMercator n a b l0 fe fn k p) (l φ h : ℝ) (h1 : -(Real.pi / 2) < φ) (h2 : φ < Real.pi / 2) :
    p.proj (llh l φ h) =
      .ok (enh (fe + k * a * normR (l - l0)) (fn + k * a * isoQ (Real.sqrt (ecc2 a b)) φ) h) := by
  obtain ⟨_, lat0, rfl⟩ := hp.eq hb hab
  exact mercNew_proj hb hab n l0 lat0 k fe fn l φ h h1 h2

theorem IsMercator.unproj {n : String} {a b l0 fe fn k : ℝ} (hb : 0 < b) (hab : b ≤ a) {p : Projection XR}
    (hp : IsMercator n a b l0 fe fn k p) (E N h : ℝ) :
    p.unproj (enh E N h) = .ok (llh (remR (l0 + (E - fe) / (k * a)))
        (clampR (mercSeries (ecc2 a b) (Real.arctan (Real.sinh ((N - fn) / (k * a)))))) h) := by
  obtain ⟨hk, lat0, rfl⟩ := hp.eq hb hab
  exact mercNew_unproj hb hab n l0 lat0 (mul_pos hk (lt_of_lt_of_le hb hab)).ne' fe fn E N h

/-- A representative in `[-π, π]` of an angle strictly between `-π` and `π` is that angle. -/
theorem same_open {x y : ℝ} (h1 : -Real.pi ≤ x) (h2 : x ≤ Real.pi) (g1 : -Real.pi < y) (g2 : y < Real.pi)
    (h : SameDirection x y) : x = y := by
  rcases eq_or_lt_of_le h1 with he | hlt
  · exfalso
    have hp : SameDirection Real.pi y :=
      SameDirection.trans ⟨1, by rw [← he]; push_cast; ring⟩ h
    have := same_unique (by linarith [Real.pi_pos]) le_rfl g1 g2.le hp
    linarith
  · exact same_unique hlt h2 g1 g2.le h

theorem lon_back (l l0 : ℝ) : SameDirection (remR (l0 + normR (l - l0))) l :=
  (remR_same _).trans (by
    have := (SameDirection.refl l0).add (normR_same (l - l0))
    rwa [add_sub_cancel] at this)

/-- **C34**, every ellipsoid: longitude (up to whole turns, exactly inside ±180°) and height come back; the latitude
is in range. -/
theorem C34_lon_height {n : String} {a b l0 fe fn k : ℝ} (hb : 0 < b) (hab : b ≤ a) {p : Projection XR}
    (hp : IsMercator n a b l0 fe fn k p) (l φ h : ℝ) (h1 : -(Real.pi / 2) < φ) (h2 : φ < Real.pi / 2) :
    ∃ E N l' φ', p.proj (llh l φ h) = .ok (enh E N h) ∧ p.unproj (enh E N h) = .ok (llh l' φ' h) ∧
      -Real.pi ≤ l' ∧ l' ≤ Real.pi ∧ SameDirection l' l ∧ (-Real.pi < l → l < Real.pi → l' = l) ∧
      -(Real.pi / 2) ≤ φ' ∧ φ' ≤ Real.pi / 2 := by
  have hk := (hp.eq hb hab).1
  have hka : k * a ≠ 0 := (mul_pos hk (lt_of_lt_of_le hb hab)).ne'
  have hcl := clampR_closest (mercSeries (ecc2 a b) (Real.arctan (Real.sinh (isoQ (Real.sqrt (ecc2 a b)) φ))))
  refine ⟨_, _, remR (l0 + normR (l - l0)), _, hp.proj hb hab l φ h h1 h2, ?_, le_remR _, remR_le _,
    lon_back l l0, ?_, hcl.1, hcl.2.1⟩
  · rw [hp.unproj hb hab, add_sub_cancel_left, add_sub_cancel_left, mul_div_cancel_left₀ _ hka,
      mul_div_cancel_left₀ _ hka]
  · intro g1 g2
    exact same_open (le_remR _) (remR_le _) g1 g2 (lon_back l l0)

/-- **C34** on a sphere: the latitude comes back as well. -/
theorem C34_sphere {n : String} {r l0 fe fn k : ℝ} (hr : 0 < r) {p : Projection XR}
    (hp : IsMercator n r r l0 fe fn k p) (l φ h : ℝ) (h1 : -(Real.pi / 2) < φ) (h2 : φ < Real.pi / 2) :
    ∃ E N l', p.proj (llh l φ h) = .ok (enh E N h) ∧ p.unproj (enh E N h) = .ok (llh l' φ h) ∧
      -Real.pi ≤ l' ∧ l' ≤ Real.pi ∧ SameDirection l' l ∧ (-Real.pi < l → l < Real.pi → l' = l) := by
  have hk := (hp.eq hr le_rfl).1
  have hka : k * r ≠ 0 := (mul_pos hk hr).ne'
  refine ⟨_, _, remR (l0 + normR (l - l0)), hp.proj hr le_rfl l φ h h1 h2, ?_, le_remR _, remR_le _,
    lon_back l l0, ?_⟩
  · rw [hp.unproj hr le_rfl, add_sub_cancel_left, add_sub_cancel_left, mul_div_cancel_left₀ _ hka,
      mul_div_cancel_left₀ _ hka, ecc2_self, Real.sqrt_zero, isoQ_sphere, arctan_sinh_iso h1 h2, mercSeries_zero,
      clampR_id h1.le h2.le]
  · intro g1 g2
    exact same_open (le_remR _) (remR_le _) g1 g2 (lon_back l l0)

/-- **C34** on a sphere: the opposite round trip, within half a world width of the false easting. -/
theorem C34_sphere_unproj_proj {n : String} {r l0 fe fn k : ℝ} (hr : 0 < r) {p : Projection XR}
    (hp : IsMercator n r r l0 fe fn k p) (E N h : ℝ)
    (h1 : -(Real.pi * (k * r)) < E - fe) (h2 : E - fe ≤ Real.pi * (k * r)) :
    ∃ l φ, p.unproj (enh E N h) = .ok (llh l φ h) ∧ -(Real.pi / 2) < φ ∧ φ < Real.pi / 2 ∧
      p.proj (llh l φ h) = .ok (enh E N h) := by
  have hk := (hp.eq hr le_rfl).1
  have hka : 0 < k * r := mul_pos hk hr
  have g1 := Real.neg_pi_div_two_lt_arctan (Real.sinh ((N - fn) / (k * r)))
  have g2 := Real.arctan_lt_pi_div_two (Real.sinh ((N - fn) / (k * r)))
  refine ⟨remR (l0 + (E - fe) / (k * r)), Real.arctan (Real.sinh ((N - fn) / (k * r))), ?_, g1, g2, ?_⟩
  · rw [hp.unproj hr le_rfl, ecc2_self, mercSeries_zero, clampR_id g1.le g2.le]
  · rw [hp.proj hr le_rfl _ _ h g1 g2, ecc2_self, Real.sqrt_zero, isoQ_sphere, Real.tan_arctan, Real.arsinh_sinh]
    have e1 : normR (remR (l0 + (E - fe) / (k * r)) - l0) = (E - fe) / (k * r) := by
      apply normR_eq
      refine ⟨?_, ?_, ?_⟩
      · rw [lt_div_iff₀ hka]; linarith
      · rw [div_le_iff₀ hka]; linarith
      · have := ((remR_same (l0 + (E - fe) / (k * r))).sub (SameDirection.refl l0)).symm
        rwa [add_sub_cancel_left] at this
    rw [e1, mul_div_cancel₀ _ hka.ne', mul_div_cancel₀ _ hka.ne', add_sub_cancel, add_sub_cancel]

example : IsMercator "WGS 84" 6378137 6356752 0 0 0 (Real.cos 0.6 / Real.sqrt (1 - (1 - 6356752 ^ 2 / 6378137 ^ 2) *
    Real.sin 0.6 ^ 2)) (merc2 "WGS 84" 6378137 6356752 0 0.6 0 0) := by
  have := Real.pi_gt_three
  exact .twoSP 0.6 (by linarith) (by linarith)

/-! ### C35 -/

/-- **C35**: easting linear in the longitude difference, equator on the false northing, northing strictly increasing
and odd in latitude. -/
theorem C35_shape {n : String} {a b l0 fe fn k : ℝ} (hb : 0 < b) (hab : b ≤ a) {p : Projection XR}
    (hp : IsMercator n a b l0 fe fn k p) (l φ φ' h : ℝ) (h1 : -(Real.pi / 2) < φ) (h2 : φ < Real.pi / 2)
    (h1' : -(Real.pi / 2) < φ') (h2' : φ' < Real.pi / 2) :
    ∃ δ N N', NormalizesTo δ (l - l0) ∧
      p.proj (llh l φ h) = .ok (enh (fe + k * a * δ) (fn + N) h) ∧
      p.proj (llh l φ' h) = .ok (enh (fe + k * a * δ) (fn + N') h) ∧
      p.proj (llh l (-φ) h) = .ok (enh (fe + k * a * δ) (fn - N) h) ∧
      p.proj (llh l 0 h) = .ok (enh (fe + k * a * δ) fn h) ∧ (φ < φ' ↔ N < N') := by
  have hk := (hp.eq hb hab).1
  have hka : 0 < k * a := mul_pos hk (lt_of_lt_of_le hb hab)
  have hpi := Real.pi_pos
  refine ⟨_, _, _, normR_normalizes _, hp.proj hb hab l φ h h1 h2, hp.proj hb hab l φ' h h1' h2', ?_, ?_, ?_⟩
  · rw [hp.proj hb hab l (-φ) h (by linarith) (by linarith), isoQ_neg (Real.sqrt_nonneg _) (sqrt_ecc2_lt hb hab),
      mul_neg, sub_eq_add_neg fn]
  · rw [hp.proj hb hab l 0 h (by linarith) (by linarith), isoQ_zero, mul_zero, add_zero]
  · rw [mul_lt_mul_iff_right₀ hka]
    exact ((isoQ_strictMono (Real.sqrt_nonneg _) (sqrt_ecc2_lt hb hab)).lt_iff_lt ⟨h1, h2⟩ ⟨h1', h2'⟩).symm

/-- **C35**, scale: a radian of longitude is `k` equatorial radii of easting; with a standard parallel, it is the
radius of that parallel on the ellipsoid, i.e. the scale is one there. -/
theorem C35_standard_parallel {a b : ℝ} (hb : 0 < b) (hab : b ≤ a) (id n pn : String) (lp l0 φ1 fe fn l φ h : ℝ)
    (g1 : -(Real.pi / 2) < φ1) (g2 : φ1 < Real.pi / 2) (h1 : -(Real.pi / 2) < φ) (h2 : φ < Real.pi / 2) :
    ∃ x y z δ N, (dat id n pn a b lp).llhToXyz (llh l φ1 0) = xyz x y z ∧ NormalizesTo δ (l - l0) ∧
      (merc2 n a b l0 φ1 fe fn).proj (llh l φ h) = .ok (enh (fe + Real.sqrt (x ^ 2 + y ^ 2) * δ) N h) := by
  have hp : IsMercator n a b l0 fe fn _ (merc2 n a b l0 φ1 fe fn) := .twoSP φ1 g1 g2
  have hc := cos_pos_of_lat g1 g2
  have hw := wf_pos hb hab φ1
  have hsw := Real.sqrt_pos.2 hw
  have ha : 0 < a := lt_of_lt_of_le hb hab
  refine ⟨_, _, _, _, fn + k2sp a b φ1 * a * isoQ (Real.sqrt (ecc2 a b)) φ, by rw [llhToXyz_all hb hab]; rfl,
    normR_normalizes _, Eq.trans (hp.proj hb hab l φ h h1 h2) ?_⟩
  rw [k2sp_eq hb hab]
  set μ := effLon a b lp l
  have hR : Real.sqrt (((pvr a b φ1 + 0) * Real.cos φ1 * Real.cos μ) ^ 2
      + ((pvr a b φ1 + 0) * Real.cos φ1 * Real.sin μ) ^ 2) = k2sp a b φ1 * a := by
    rw [show ((pvr a b φ1 + 0) * Real.cos φ1 * Real.cos μ) ^ 2 + ((pvr a b φ1 + 0) * Real.cos φ1 * Real.sin μ) ^ 2 =
      (k2sp a b φ1 * a) ^ 2 by
        rw [show k2sp a b φ1 * a = pvr a b φ1 * Real.cos φ1 by rw [k2sp, pvr]; ring]
        linear_combination (pvr a b φ1 * Real.cos φ1) ^ 2 * Real.sin_sq_add_cos_sq μ]
    exact Real.sqrt_sq (mul_pos (k2sp_pos hb hab g1 g2) ha).le
  rw [hR]

/-- **C35**: the hemisphere of the standard parallel is irrelevant: the projections are identical. -/
theorem C35_sign_of_parallel (n : String) (a b l0 φ1 fe fn : ℝ) :
    merc2 n a b l0 (-φ1) fe fn = merc2 n a b l0 φ1 fe fn := by
  have : (latR (-φ1)).abs = (latR φ1).abs := by simp [latR, Lat.abs, Angle.abs]
  unfold merc2 ProjectionSpec.appliedTo Mercator.new2Sp Mercator.new
  simp only [this]

/-- **C35**: Mercator is conformal: at each latitude, the rate of the northing per unit of meridian arc equals the rate
of the easting per unit of parallel arc (the meridian arc element is the meridional radius of curvature, the parallel
has radius `N cos φ`). -/
theorem C35_conformal {n : String} {a b l0 fe fn k : ℝ} (hb : 0 < b) (hab : b ≤ a) {p : Projection XR}
    (hp : IsMercator n a b l0 fe fn k p) (l φ h : ℝ) (h1 : -(Real.pi / 2) < φ) (h2 : φ < Real.pi / 2) :
    ∃ (M' N' : ℝ) (northing : ℝ → ℝ), (ell n a b).primeMeridionalRadius (latR φ) = ⟨fin M'⟩ ∧
      (ell n a b).primeVerticalRadius (latR φ) = ⟨fin N'⟩ ∧ 0 < M' ∧ 0 < N' * Real.cos φ ∧
      (∀ x, -(Real.pi / 2) < x → x < Real.pi / 2 → ∃ E, p.proj (llh l x h) = .ok (enh E (northing x) h)) ∧
      HasDerivAt northing (k * a / (N' * Real.cos φ) * M') φ := by
  have hc := cos_pos_of_lat h1 h2
  have hw := wf_pos hb hab φ
  have hsw := Real.sqrt_pos.2 hw
  have ha : 0 < a := lt_of_lt_of_le hb hab
  have he0 := Real.sqrt_nonneg (ecc2 a b)
  have he1 := sqrt_ecc2_lt hb hab
  have h15 : wf a b φ ^ (1.5 : ℝ) = wf a b φ * Real.sqrt (wf a b φ) := by
    rw [show (1.5 : ℝ) = 1 + 1 / 2 by norm_num, Real.rpow_add hw, Real.rpow_one, ← Real.sqrt_eq_rpow]
  have hee : 0 < 1 - ecc2 a b := by linarith [ecc2_lt_one hb hab]
  refine ⟨_, _, fun x => fn + k * a * isoQ (Real.sqrt (ecc2 a b)) x, ell_M hb hab n φ, ell_N hb hab n φ, ?_, ?_,
    fun x g1 g2 => ⟨_, hp.proj hb hab l x h g1 g2⟩, ?_⟩
  · rw [h15]; positivity
  · positivity
  · have hd := ((isoQ_deriv he0 he1 h1 h2).const_mul (k * a)).const_add fn
    refine hd.congr_deriv ?_
    rw [h15, Real.sq_sqrt (ecc2_nonneg hb hab)]
    change k * a * ((1 - ecc2 a b) / (Real.cos φ * wf a b φ)) = _
    field_simp

example : (0 : ℝ) < 6356752 ∧ (6356752 : ℝ) ≤ 6378137 ∧ IsMercator "WGS 84" 6378137 6356752 0 0 0 0.9996
    (merc1 "WGS 84" 6378137 6356752 0 0.9996 0 0) ∧ -(Real.pi / 2) < (0.8 : ℝ) ∧ (0.8 : ℝ) < Real.pi / 2 := by
  have := Real.pi_gt_three
  exact ⟨by norm_num, by norm_num, .oneSP _ (by norm_num), by linarith, by linarith⟩

end Geo
