import Mathlib.Analysis.SpecialFunctions.Arsinh
import Mathlib.Analysis.SpecialFunctions.Artanh
import Mathlib.Analysis.SpecialFunctions.Trigonometric.ArctanDeriv
import Mathlib.Analysis.SpecialFunctions.Log.Deriv
import Mathlib.Analysis.SpecialFunctions.Pow.Real
import Mathlib.Analysis.Calculus.Deriv.MeanValue

/-! Isometric latitude: real analysis used by the cylindrical projections. -/

namespace Geo

theorem cos_pos_of_lat {φ : ℝ} (h1 : -(Real.pi / 2) < φ) (h2 : φ < Real.pi / 2) : 0 < Real.cos φ :=
  Real.cos_pos_of_mem_Ioo ⟨h1, h2⟩

theorem tan_half {φ : ℝ} (h1 : -(Real.pi / 2) < φ) (h2 : φ < Real.pi / 2) :
    Real.tan (φ / 2 + Real.pi / 4) = Real.tan φ + Real.sqrt (1 + Real.tan φ ^ 2) := by
  have hc := cos_pos_of_lat h1 h2
  have hcu : 0 < Real.cos (φ / 2 + Real.pi / 4) := by
    apply Real.cos_pos_of_mem_Ioo
    constructor <;> linarith
  have hs : Real.sqrt (1 + Real.tan φ ^ 2) = 1 / Real.cos φ := by
    rw [← Real.inv_sqrt_one_add_tan_sq hc, one_div, inv_inv]
  rw [hs, Real.tan_eq_sin_div_cos, Real.tan_eq_sin_div_cos, ← add_div, div_eq_div_iff hcu.ne' hc.ne']
  set u := φ / 2 + Real.pi / 4 with hu
  have e : φ = 2 * u - Real.pi / 2 := by rw [hu]; ring
  have e1 : Real.sin φ = -Real.cos (2 * u) := by rw [e, Real.sin_sub_pi_div_two]
  have e2 : Real.cos φ = Real.sin (2 * u) := by rw [e, Real.cos_sub_pi_div_two]
  rw [e1, e2, Real.cos_two_mul, Real.sin_two_mul]
  linear_combination (2 * Real.cos u) * Real.sin_sq_add_cos_sq u

theorem tan_half_pos {φ : ℝ} (h1 : -(Real.pi / 2) < φ) (h2 : φ < Real.pi / 2) :
    0 < Real.tan (φ / 2 + Real.pi / 4) :=
  Real.tan_pos_of_pos_of_lt_pi_div_two (by linarith) (by linarith)

theorem log_tan_half {φ : ℝ} (h1 : -(Real.pi / 2) < φ) (h2 : φ < Real.pi / 2) :
    Real.log (Real.tan (φ / 2 + Real.pi / 4)) = Real.arsinh (Real.tan φ) := by
  rw [tan_half h1 h2, ← Real.exp_arsinh, Real.log_exp]

/-- The latitude recovered from the isometric latitude. -/
theorem gd_eq (ψ : ℝ) : Real.pi / 2 - 2 * Real.arctan (Real.exp (-ψ)) = Real.arctan (Real.sinh ψ) := by
  have h1 := Real.neg_pi_div_two_lt_arctan (Real.sinh ψ)
  have h2 := Real.arctan_lt_pi_div_two (Real.sinh ψ)
  set φ := Real.arctan (Real.sinh ψ) with hφ
  have ht : Real.tan φ = Real.sinh ψ := Real.tan_arctan _
  have hl := log_tan_half h1 h2
  rw [ht, Real.arsinh_sinh] at hl
  have hp := tan_half_pos h1 h2
  have hexp : Real.exp (-ψ) = (Real.tan (φ / 2 + Real.pi / 4))⁻¹ := by
    rw [Real.exp_neg, ← hl, Real.exp_log hp]
  rw [hexp, Real.arctan_inv_of_pos hp, Real.arctan_tan (by linarith) (by linarith)]
  ring

theorem arctan_sinh_iso {φ : ℝ} (h1 : -(Real.pi / 2) < φ) (h2 : φ < Real.pi / 2) :
    Real.arctan (Real.sinh (Real.arsinh (Real.tan φ))) = φ := by
  rw [Real.sinh_arsinh, Real.arctan_tan h1 h2]

/-- `sin φ` and the isometric latitude. -/
theorem tanh_iso {φ : ℝ} (h1 : -(Real.pi / 2) < φ) (h2 : φ < Real.pi / 2) :
    Real.tanh (Real.arsinh (Real.tan φ)) = Real.sin φ := by
  have hc := cos_pos_of_lat h1 h2
  rw [Real.tanh_arsinh]
  exact Real.tan_div_sqrt_one_add_tan_sq hc

theorem iso_eq_artanh {φ : ℝ} (h1 : -(Real.pi / 2) < φ) (h2 : φ < Real.pi / 2) :
    Real.arsinh (Real.tan φ) = Real.artanh (Real.sin φ) := by
  rw [← tanh_iso h1 h2, Real.artanh_tanh]

/-- Isometric latitude on an ellipsoid of eccentricity `e`. -/
noncomputable def isoQ (e φ : ℝ) : ℝ := Real.arsinh (Real.tan φ) - e * Real.artanh (e * Real.sin φ)

theorem artanh_eq {x : ℝ} (h1 : -1 < x) (h2 : x < 1) :
    Real.artanh x = 1 / 2 * (Real.log (1 + x) - Real.log (1 - x)) := by
  rw [Real.artanh_eq_half_log ⟨h1.le, h2.le⟩, Real.log_div (by linarith) (by linarith)]

theorem artanh_neg' {x : ℝ} (h1 : -1 < x) (h2 : x < 1) : Real.artanh (-x) = -Real.artanh x := by
  rw [artanh_eq h1 h2, artanh_eq (by linarith) (by linarith)]
  rw [show 1 - -x = 1 + x by ring, show 1 + -x = 1 - x by ring]; ring

theorem hasDerivAt_artanh {x : ℝ} (h1 : -1 < x) (h2 : x < 1) :
    HasDerivAt Real.artanh (1 / (1 - x ^ 2)) x := by
  have hd : HasDerivAt (fun y => 1 / 2 * (Real.log (1 + y) - Real.log (1 - y))) (1 / (1 - x ^ 2)) x := by
    have a1 : HasDerivAt (fun y : ℝ => 1 + y) 1 x := (hasDerivAt_id x).const_add 1
    have a2 : HasDerivAt (fun y : ℝ => 1 - y) (-1) x := (hasDerivAt_id x).const_sub 1
    have b1 := a1.log (by linarith)
    have b2 := a2.log (by linarith)
    have := (b1.sub b2).const_mul (1 / 2)
    refine HasDerivAt.congr_deriv this ?_
    have h3 : (1 + x) ≠ 0 := by linarith
    have h4 : (1 - x) ≠ 0 := by linarith
    rw [show 1 - x ^ 2 = (1 + x) * (1 - x) by ring]
    field_simp; ring
  apply hd.congr_of_eventuallyEq
  filter_upwards [Ioo_mem_nhds h1 h2] with y hy
  exact artanh_eq hy.1 hy.2

theorem abs_e_sin_lt {e : ℝ} (h0 : 0 ≤ e) (h1 : e < 1) (φ : ℝ) :
    -1 < e * Real.sin φ ∧ e * Real.sin φ < 1 := by
  have := Real.neg_one_le_sin φ
  have := Real.sin_le_one φ
  constructor <;> nlinarith

theorem isoQ_deriv {e φ : ℝ} (h0 : 0 ≤ e) (he : e < 1) (h1 : -(Real.pi / 2) < φ) (h2 : φ < Real.pi / 2) :
    HasDerivAt (isoQ e) ((1 - e ^ 2) / (Real.cos φ * (1 - e ^ 2 * Real.sin φ ^ 2))) φ := by
  have hc := cos_pos_of_lat h1 h2
  have hes := abs_e_sin_lt h0 he φ
  have d1 := (Real.hasDerivAt_tan hc.ne').arsinh
  have d2 : HasDerivAt (fun x => e * Real.sin x) (e * Real.cos φ) φ := (Real.hasDerivAt_sin φ).const_mul e
  have d3 := (HasDerivAt.comp φ (hasDerivAt_artanh hes.1 hes.2) d2).const_mul e
  have := d1.sub d3
  refine HasDerivAt.congr_deriv this ?_
  have hs : Real.sqrt (1 + Real.tan φ ^ 2) = 1 / Real.cos φ := by
    rw [← Real.inv_sqrt_one_add_tan_sq hc, one_div, inv_inv]
  rw [hs]
  have hsc := Real.sin_sq_add_cos_sq φ
  have hw : 1 - e ^ 2 * Real.sin φ ^ 2 ≠ 0 := by
    have : 0 < (1 - e * Real.sin φ) * (1 + e * Real.sin φ) := mul_pos (by linarith [hes.2]) (by linarith [hes.1])
    nlinarith
  rw [show (e * Real.sin φ) ^ 2 = e ^ 2 * Real.sin φ ^ 2 by ring]
  have hc0 := hc.ne'
  simp only [smul_eq_mul]
  field_simp
  linear_combination (-(e ^ 2)) * hsc

theorem isoQ_strictMono {e : ℝ} (h0 : 0 ≤ e) (he : e < 1) :
    StrictMonoOn (isoQ e) (Set.Ioo (-(Real.pi / 2)) (Real.pi / 2)) := by
  apply strictMonoOn_of_deriv_pos (convex_Ioo _ _)
  · intro φ hφ
    exact (isoQ_deriv h0 he hφ.1 hφ.2).continuousAt.continuousWithinAt
  · intro φ hφ
    rw [interior_Ioo] at hφ
    rw [(isoQ_deriv h0 he hφ.1 hφ.2).deriv]
    have hc := cos_pos_of_lat hφ.1 hφ.2
    have hes := abs_e_sin_lt h0 he φ
    have : 0 < (1 - e * Real.sin φ) * (1 + e * Real.sin φ) := mul_pos (by linarith [hes.2]) (by linarith [hes.1])
    have h3 : 0 < 1 - e ^ 2 * Real.sin φ ^ 2 := by nlinarith
    have h4 : 0 < 1 - e ^ 2 := by nlinarith
    positivity

theorem isoQ_neg {e : ℝ} (h0 : 0 ≤ e) (he : e < 1) (φ : ℝ) : isoQ e (-φ) = -isoQ e φ := by
  have hes := abs_e_sin_lt h0 he φ
  unfold isoQ
  rw [Real.tan_neg, Real.arsinh_neg, Real.sin_neg, mul_neg, artanh_neg' hes.1 hes.2]; ring

theorem isoQ_zero (e : ℝ) : isoQ e 0 = 0 := by simp [isoQ]
theorem isoQ_sphere (φ : ℝ) : isoQ 0 φ = Real.arsinh (Real.tan φ) := by simp [isoQ]

/-- The factor of the ellipsoidal Mercator formula. -/
theorem log_powf_factor {e φ : ℝ} (h0 : 0 ≤ e) (he : e < 1) :
    0 < (1 - e * Real.sin φ) / (1 + e * Real.sin φ) ∧
    Real.log (((1 - e * Real.sin φ) / (1 + e * Real.sin φ)) ^ (e / 2)) = -(e * Real.artanh (e * Real.sin φ)) := by
  have hes := abs_e_sin_lt h0 he φ
  have hp : 0 < (1 - e * Real.sin φ) / (1 + e * Real.sin φ) := div_pos (by linarith [hes.2]) (by linarith [hes.1])
  refine ⟨hp, ?_⟩
  rw [Real.log_rpow hp, artanh_eq hes.1 hes.2, Real.log_div (by linarith [hes.2]) (by linarith [hes.1])]
  ring

end Geo
