import Verif.Lemmas.Angle
import Verif.Lemmas.Res
import Verif.Spec.Coords
import Verif.Model.Geodesy

/-! Ellipsoids with real axes, in exact arithmetic. -/

namespace Geo
open XR
open Classical

/-- The ellipsoid with semi-axes `a ≥ b`, in metres. -/
noncomputable def ell (name : String) (a b : ℝ) : Ellipsoid XR :=
  ⟨name, ⟨fin a⟩, ⟨fin b⟩, if b < a then fin (a / (a - b)) else pinf⟩

@[simp high] theorem one_sci : (1.0 : XR) = fin 1 := by
  rw [sci_eq]; norm_num

/-- Square of the eccentricity, as a function of the axes. -/
noncomputable def ecc2 (a b : ℝ) : ℝ := (a - b) * (a + b) / (a * a)

/-- `1 - e² sin² φ` -/
noncomputable def wf (a b φ : ℝ) : ℝ := 1 - ecc2 a b * Real.sin φ ^ 2

section
variable {a b : ℝ} (hb : 0 < b) (hab : b ≤ a)
include hb hab

theorem ecc2_nonneg : 0 ≤ ecc2 a b := by
  have : 0 < a := lt_of_lt_of_le hb hab
  exact div_nonneg (mul_nonneg (by linarith) (by linarith)) (by positivity)
theorem one_sub_ecc2 : 1 - ecc2 a b = b ^ 2 / a ^ 2 := by
  have : 0 < a := lt_of_lt_of_le hb hab
  unfold ecc2; field_simp; ring
theorem ecc2_lt_one : ecc2 a b < 1 := by
  have : 0 < a := lt_of_lt_of_le hb hab
  have h := one_sub_ecc2 hb hab
  have : 0 < b ^ 2 / a ^ 2 := by positivity
  linarith
theorem wf_eq (φ : ℝ) : wf a b φ = (a ^ 2 * Real.cos φ ^ 2 + b ^ 2 * Real.sin φ ^ 2) / a ^ 2 := by
  have h0 : 0 < a := lt_of_lt_of_le hb hab
  have h := one_sub_ecc2 hb hab
  have h1 : ecc2 a b = 1 - b ^ 2 / a ^ 2 := by linarith
  have h2 := Real.sin_sq_add_cos_sq φ
  rw [wf, h1, show Real.cos φ ^ 2 = 1 - Real.sin φ ^ 2 by linarith]
  field_simp; ring
theorem wf_ge (φ : ℝ) : b ^ 2 / a ^ 2 ≤ wf a b φ := by
  rw [← one_sub_ecc2 hb hab, wf]
  have := mul_le_of_le_one_right (ecc2_nonneg hb hab) (Real.sin_sq_le_one φ)
  linarith
theorem wf_pos (φ : ℝ) : 0 < wf a b φ := by
  have : 0 < a := lt_of_lt_of_le hb hab
  exact lt_of_lt_of_le (by positivity) (wf_ge hb hab φ)
theorem wf_le_one (φ : ℝ) : wf a b φ ≤ 1 := by
  have := mul_nonneg (ecc2_nonneg hb hab) (sq_nonneg (Real.sin φ))
  rw [wf]; linarith

theorem ell_eSq (n : String) : (ell n a b).eSq = fin (ecc2 a b) := by
  have : 0 < a := lt_of_lt_of_le hb hab
  simp only [ell, Ellipsoid.eSq, Ellipsoid.aSq, sub_fin, add_fin, mul_fin, ecc2]
  rw [div_fin _ (by positivity)]
theorem ell_f (n : String) : (ell n a b).f = fin ((a - b) / a) := by
  have : 0 < a := lt_of_lt_of_le hb hab
  simp only [ell, Ellipsoid.f, one_eq]
  by_cases h : b < a
  · rw [if_pos h, div_fin _ (by have : 0 < a - b := by linarith
                                positivity)]
    have : 0 < a - b := by linarith
    congr 1; field_simp
  · rw [if_neg h]
    have : a = b := by linarith
    subst this
    show fin 0 = _
    simp
theorem ell_isSpherical (n : String) : (ell n a b).isSpherical = decide (a = b) := by
  simp only [ell, Ellipsoid.isSpherical, Length.beq, eq_fin]
  by_cases h : b < a
  · rw [if_pos h]; simp
  · rw [if_neg h]
    have : a = b := by linarith
    simp [this]
theorem ell_N (n : String) (φ : ℝ) :
    (ell n a b).primeVerticalRadius (latR φ) = ⟨fin (a / Real.sqrt (wf a b φ))⟩ := by
  have hw := wf_pos hb hab φ
  simp only [Ellipsoid.primeVerticalRadius, ell_eSq hb hab, latR, Lat.sin, Angle.sin, sin_fin, powi_fin, mul_fin,
    one_sci, sub_fin]
  rw [sqrt_fin (show 0 ≤ 1 - ecc2 a b * Real.sin φ ^ 2 from hw.le)]
  simp only [ell, Length.mk_div]
  rw [div_fin]
  · rfl
  · exact (Real.sqrt_pos.2 hw).ne'
theorem ell_M (n : String) (φ : ℝ) :
    (ell n a b).primeMeridionalRadius (latR φ) = ⟨fin (a * (1 - ecc2 a b) / wf a b φ ^ (1.5 : ℝ))⟩ := by
  have hw := wf_pos hb hab φ
  simp only [Ellipsoid.primeMeridionalRadius, ell_eSq hb hab, latR, Lat.sin, Angle.sin, sin_fin, powi_fin, mul_fin,
    one_sci, sub_fin]
  rw [sci_eq]
  rw [powf_fin (show 0 < 1 - ecc2 a b * Real.sin φ ^ 2 from hw)]
  simp only [ell, Length.mk_div, Length.mk_mul, mul_fin]
  rw [div_fin]
  · rw [mul_comm]; rfl
  · exact (Real.rpow_pos_of_pos hw _).ne'
end

theorem Spec.SameDirection.cos {x y : ℝ} (h : Spec.SameDirection x y) : Real.cos x = Real.cos y := by
  obtain ⟨k, rfl⟩ := h
  exact Real.cos_add_int_mul_two_pi y k
theorem Spec.SameDirection.sin {x y : ℝ} (h : Spec.SameDirection x y) : Real.sin x = Real.sin y := by
  obtain ⟨k, rfl⟩ := h
  exact Real.sin_add_int_mul_two_pi y k
theorem Spec.SameDirection.of_cos_sin {x y : ℝ} (hc : Real.cos x = Real.cos y) (hs : Real.sin x = Real.sin y) :
    Spec.SameDirection x y := by
  have h := Real.Angle.cos_sin_inj hc hs
  rw [Real.Angle.angle_eq_iff_two_pi_dvd_sub] at h
  obtain ⟨k, hk⟩ := h
  exact ⟨k, by linarith⟩

/-- Prime vertical radius. -/
noncomputable def pvr (a b φ : ℝ) : ℝ := a / Real.sqrt (wf a b φ)

/-- Closed form of the conversion to geocentric coordinates (longitude from Greenwich). -/
noncomputable def geo (a b l φ h : ℝ) : XYZ XR :=
  xyz ((pvr a b φ + h) * Real.cos φ * Real.cos l) ((pvr a b φ + h) * Real.cos φ * Real.sin l)
    ((pvr a b φ * (1 - ecc2 a b) + h) * Real.sin φ)

theorem ecc2_self {a : ℝ} : ecc2 a a = 0 := by simp [ecc2]
theorem wf_self {a φ : ℝ} : wf a a φ = 1 := by simp [wf, ecc2_self]
theorem pvr_self {a φ : ℝ} : pvr a a φ = a := by simp [pvr, wf_self]

/-- A datum with real parameters: axes `a ≥ b` and a prime meridian at longitude `l0`. -/
noncomputable def dat (id n pn : String) (a b l0 : ℝ) : GeodeticDatum XR := ⟨id, ell n a b, ⟨pn, lonR l0⟩⟩

theorem llhToXyz_fin {a b : ℝ} (hb : 0 < b) (hab : b < a) (id n pn : String) (l0 l φ h : ℝ) :
    (dat id n pn a b l0).llhToXyz (llh l φ h) = geo a b (l + l0) φ h := by
  have hs : (ell n a b).isSpherical = false := by
    rw [ell_isSpherical hb hab.le]; simp [hab.ne']
  have hc := (remR_same (l + l0)).cos
  have hsn := (remR_same (l + l0)).sin
  have hN := ell_N hb hab.le n φ
  unfold latR at hN
  simp only [GeodeticDatum.llhToXyz, dat, hs, llh, hN, ell_eSq hb hab.le]
  simp [lonR, latR, Lon.addAngle, Lon.new, wrapped_fin, Lon.cos, Lon.sin, Angle.cos, Angle.sin, Lat.cos,
    Lat.sin, hc, hsn, geo, xyz, pvr]
  refine ⟨by ring, by ring, by ring⟩

theorem llhToXyz_sphere {a : ℝ} (ha : 0 < a) (id n pn : String) (l0 l φ h : ℝ) :
    (dat id n pn a a l0).llhToXyz (llh l φ h) = geo a a l φ h := by
  have hs : (ell n a a).isSpherical = true := by
    rw [ell_isSpherical ha le_rfl]; simp
  simp only [GeodeticDatum.llhToXyz, dat, hs, llh]
  simp [lonR, latR, Lon.cos, Lon.sin, Angle.cos, Angle.sin, Lat.cos,
    Lat.sin, geo, xyz, pvr_self, ecc2_self, ell]
  refine ⟨by ring, by ring, by ring⟩

end Geo
