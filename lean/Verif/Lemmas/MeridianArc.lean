import Verif.Lemmas.MeridianSeries
import Verif.Lemmas.SurfaceFrame
import Verif.Props.TransverseMercatorExact
import Mathlib.Analysis.Calculus.MeanValue
import Mathlib.MeasureTheory.Integral.IntervalIntegral.FundThmCalculus

/-!
The meridian arc of the transverse Mercator formulas against the arc length of the meridian of the ellipsoid.
-/

namespace Geo.MerArc
open Geo.Frame

/-! ### Conformal latitude -/

noncomputable def wE (e φ : ℝ) : ℝ := e * Real.artanh (e * Real.sin φ)
noncomputable def dE (e φ : ℝ) : ℝ := Real.cosh (wE e φ) - Real.sin φ * Real.sinh (wE e φ)

theorem dE_pos (e φ : ℝ) : 0 < dE e φ := by
  have h1 := Real.cosh_pos (wE e φ)
  have h2 := Real.cosh_sq (wE e φ)
  have h3 : |Real.sinh (wE e φ)| < Real.cosh (wE e φ) := abs_lt_of_sq_lt_sq (by linarith) h1.le
  have h4 : |Real.sin φ * Real.sinh (wE e φ)| ≤ |Real.sinh (wE e φ)| := by
    rw [abs_mul]
    have := Real.abs_sin_le_one φ
    have := abs_nonneg (Real.sinh (wE e φ))
    nlinarith
  have := le_abs_self (Real.sin φ * Real.sinh (wE e φ))
  unfold dE; linarith

theorem isoQ_sinh {e φ : ℝ} (h1 : -(Real.pi / 2) < φ) (h2 : φ < Real.pi / 2) :
    Real.sinh (isoQ e φ) = (Real.sin φ * Real.cosh (wE e φ) - Real.sinh (wE e φ)) / Real.cos φ ∧
    Real.cosh (isoQ e φ) = dE e φ / Real.cos φ := by
  have hc := cos_pos_of_lat h1 h2
  have hcosh : Real.cosh (Real.arsinh (Real.tan φ)) = 1 / Real.cos φ := by
    rw [Real.cosh_arsinh, ← Real.inv_sqrt_one_add_tan_sq hc, one_div, inv_inv]
  have e0 : isoQ e φ = Real.arsinh (Real.tan φ) - wE e φ := rfl
  rw [e0, Real.sinh_sub, Real.cosh_sub, Real.sinh_arsinh, hcosh, Real.tan_eq_sin_div_cos, dE]
  constructor <;> field_simp

theorem confR_sin {e φ : ℝ} (h1 : -(Real.pi / 2) ≤ φ) (h2 : φ ≤ Real.pi / 2) :
    Real.sin (confR e φ) = (Real.sin φ * Real.cosh (wE e φ) - Real.sinh (wE e φ)) / dE e φ := by
  rw [confR_def]
  split
  · rename_i hc
    have hd := dE_pos e φ
    rw [eq_div_iff hd.ne', dE]
    have := Real.sin_sq_add_cos_sq φ
    rw [hc] at this
    linear_combination (-Real.sinh (wE e φ)) * this
  · rename_i hc
    have g1 : -(Real.pi / 2) < φ := lt_of_le_of_ne h1 fun h => hc (by rw [← h, Real.cos_neg, Real.cos_pi_div_two])
    have g2 : φ < Real.pi / 2 := lt_of_le_of_ne h2 fun h => hc (by rw [h, Real.cos_pi_div_two])
    obtain ⟨k1, k2⟩ := isoQ_sinh (e := e) g1 g2
    rw [sin_arctan_sinh, Real.tanh_eq_sinh_div_cosh, k1, k2, div_div_div_cancel_right₀ hc]

theorem confR_cos {e φ : ℝ} (h1 : -(Real.pi / 2) < φ) (h2 : φ < Real.pi / 2) :
    Real.cos (confR e φ) = Real.cos φ / dE e φ := by
  have hc := cos_pos_of_lat h1 h2
  obtain ⟨k1, k2⟩ := isoQ_sinh (e := e) h1 h2
  rw [confR_def, if_neg hc.ne', Real.cos_arctan, add_comm, ← Real.cosh_sq, Real.sqrt_sq (Real.cosh_pos _).le, k2, one_div_div]

theorem confR_deriv {e φ : ℝ} (h0 : 0 ≤ e) (he : e < 1) (h1 : -(Real.pi / 2) < φ) (h2 : φ < Real.pi / 2) :
    HasDerivAt (confR e) ((1 - e ^ 2) / ((1 - e ^ 2 * Real.sin φ ^ 2) * dE e φ)) φ := by
  have hc := cos_pos_of_lat h1 h2
  have hd := dE_pos e φ
  obtain ⟨k1, k2⟩ := isoQ_sinh (e := e) h1 h2
  have d := ((isoQ_deriv h0 he h1 h2).sinh).arctan
  have hes := abs_e_sin_lt h0 he φ
  have hp : 0 < 1 - e ^ 2 * Real.sin φ ^ 2 := by nlinarith [hes.1, hes.2]
  have d' := d.congr_of_eventuallyEq (f₁ := confR e) (by
    filter_upwards [Ioo_mem_nhds h1 h2] with t ht
    rw [confR_def, if_neg (cos_pos_of_lat ht.1 ht.2).ne'])
  refine d'.congr_deriv ?_
  rw [show 1 + Real.sinh (isoQ e φ) ^ 2 = Real.cosh (isoQ e φ) ^ 2 by rw [Real.cosh_sq]; ring, k2]
  field_simp

theorem confR_eq_arcsin {e φ : ℝ} (h1 : -(Real.pi / 2) ≤ φ) (h2 : φ ≤ Real.pi / 2) :
    confR e φ = Real.arcsin ((Real.sin φ * Real.cosh (wE e φ) - Real.sinh (wE e φ)) / dE e φ) := by
  rw [← confR_sin h1 h2, Real.arcsin_sin (confR_range h1 h2).1 (confR_range h1 h2).2]

theorem confR_continuousOn {e : ℝ} (h0 : 0 ≤ e) (he : e < 1) :
    ContinuousOn (confR e) (Set.Icc (-(Real.pi / 2)) (Real.pi / 2)) := by
  have hw : Continuous (wE e) := by
    refine Continuous.mul continuous_const ?_
    rw [continuous_iff_continuousAt]
    intro φ
    obtain ⟨k1, k2⟩ := abs_e_sin_lt h0 he φ
    exact ContinuousAt.comp (f := fun φ => e * Real.sin φ) (hasDerivAt_artanh k1 k2).continuousAt (by fun_prop)
  have hy : Continuous (fun φ => Real.arcsin ((Real.sin φ * Real.cosh (wE e φ) - Real.sinh (wE e φ)) / dE e φ)) := by
    refine Real.continuous_arcsin.comp (Continuous.div (by fun_prop) ?_ fun φ => (dE_pos e φ).ne')
    unfold dE; fun_prop
  exact hy.continuousOn.congr fun φ hφ => confR_eq_arcsin hφ.1 hφ.2

/-! ### The meridian arc of the formulas -/

/-- The series of the meridian arc, by conformal latitude. -/
noncomputable def arcF (n χ : ℝ) : ℝ :=
  χ + tmh0 n * Real.sin (2 * χ) + tmh1 n * Real.sin (4 * χ) + tmh2 n * Real.sin (6 * χ) + tmh3 n * Real.sin (8 * χ)
noncomputable def arcF' (n χ : ℝ) : ℝ :=
  1 + 2 * tmh0 n * Real.cos (2 * χ) + 4 * tmh1 n * Real.cos (4 * χ) + 6 * tmh2 n * Real.cos (6 * χ) +
    8 * tmh3 n * Real.cos (8 * χ)

theorem arcF_deriv (n χ : ℝ) : HasDerivAt (arcF n) (arcF' n χ) χ := by
  have d := fun k : ℝ => ((hasDerivAt_id χ).const_mul k).sin
  refine HasDerivAt.congr_deriv ((((((hasDerivAt_id χ).add ((d 2).const_mul (tmh0 n))).add ((d 4).const_mul (tmh1 n))).add
    ((d 6).const_mul (tmh2 n))).add ((d 8).const_mul (tmh3 n)))) ?_
  simp only [id, arcF']; ring

theorem tmM0_eq {a b : ℝ} (hb : 0 < b) (hab : b ≤ a) {φ0 : ℝ} (h1 : -(Real.pi / 2) ≤ φ0) (h2 : φ0 ≤ Real.pi / 2) :
    tmM0 a b φ0 = tmB a b * arcF (nR a b) (confR (Real.sqrt (ecc2 a b)) φ0) := by
  rw [tmM0]
  split
  · rename_i h
    rw [h, (confR_eq_zero (Real.sqrt_nonneg _) (sqrt_ecc2_lt hb hab) (by linarith) (by linarith)).2 rfl]
    simp [arcF]
  · split
    · rename_i h
      have hc : Real.cos φ0 = 0 := by rw [← Real.cos_abs, h, Real.cos_pi_div_two]
      have hs : ∀ k : ℕ, Real.sin (2 * k * φ0) = 0 := by
        intro k
        rcases cos_eq_zero_pole h1 h2 hc with h | h
        · rw [h, show 2 * (k : ℝ) * (Real.pi / 2) = k * Real.pi by ring, Real.sin_nat_mul_pi]
        · rw [h, show 2 * (k : ℝ) * -(Real.pi / 2) = -(k * Real.pi) by ring, Real.sin_neg, Real.sin_nat_mul_pi, neg_zero]
      have e1 := hs 1
      have e2 := hs 2
      have e3 := hs 3
      have e4 := hs 4
      norm_num at e1 e2 e3 e4
      rw [confR_def, if_pos hc, arcF, e1, e2, e3, e4]; ring
    · rfl

theorem ecc2_nR {a b : ℝ} (hb : 0 < b) (hab : b ≤ a) : ecc2 a b = 4 * nR a b / (1 + nR a b) ^ 2 := by
  have ha : 0 < a := lt_of_lt_of_le hb hab
  have : a + b ≠ 0 := by positivity
  have h2 : 1 + (a - b) / (a + b) = 2 * a / (a + b) := by field_simp; ring
  rw [ecc2, nR, h2]
  field_simp
  ring

theorem nR_le {a b : ℝ} (hb : 0 < b) (hab : b ≤ a) (he : ecc2 a b ≤ 1 / 50) : nR a b ≤ 1 / 190 := by
  have hn := nR_nonneg hb hab
  have h1 : nR a b < 1 := by
    rw [nR, div_lt_one (by linarith)]; linarith
  rw [ecc2_nR hb hab, div_le_iff₀ (by positivity)] at he
  by_contra h
  push Not at h
  nlinarith

theorem arcF'_near {n : ℝ} (h0 : 0 ≤ n) (h1 : n ≤ 1 / 190) (χ : ℝ) : |arcF' n χ - 1| ≤ 1 / 100 := by
  have p2 : n ^ 2 ≤ 1 / 190 * n := by nlinarith
  have p3 : n ^ 3 ≤ 1 / 190 * n ^ 2 := by nlinarith [sq_nonneg n]
  have p4 : n ^ 4 ≤ 1 / 190 * n ^ 3 := by nlinarith [pow_nonneg h0 3]
  have q2 := pow_nonneg h0 2
  have q3 := pow_nonneg h0 3
  have q4 := pow_nonneg h0 4
  have b0 : |tmh0 n| ≤ 1 / 300 := by rw [abs_le, tmh0]; constructor <;> nlinarith
  have b1 : |tmh1 n| ≤ 1 / 10000 := by rw [abs_le, tmh1]; constructor <;> nlinarith
  have b2 : |tmh2 n| ≤ 1 / 10000 := by rw [abs_le, tmh2]; constructor <;> nlinarith
  have b3 : |tmh3 n| ≤ 1 / 10000 := by rw [abs_le, tmh3]; constructor <;> nlinarith
  have k : ∀ {x y c : ℝ}, |x| ≤ c → |x * Real.cos y| ≤ c := by
    intro x y c hx
    rw [abs_mul]
    exact (mul_le_of_le_one_right (abs_nonneg _) (Real.abs_cos_le_one _)).trans hx
  have k0 := abs_le.1 (k (y := 2 * χ) b0)
  have k1 := abs_le.1 (k (y := 4 * χ) b1)
  have k2 := abs_le.1 (k (y := 6 * χ) b2)
  have k3 := abs_le.1 (k (y := 8 * χ) b3)
  rw [abs_le, arcF']
  constructor <;> linarith [k0.1, k0.2, k1.1, k1.2, k2.1, k2.2, k3.1, k3.2]

theorem from_square_end {a n V D Z δ : ℝ} (ha : 0 < a) (h0 : 0 ≤ n) (h1 : n ≤ 1 / 190) (hV1 : (1 - n) ^ 2 ≤ V)
    (hD : 29 / 30 ≤ D) (hZ : 1956 / 1000 ≤ Z) (hδ : 0 ≤ δ) (_ : D ≤ 31 / 30) (hr : V * (Z * δ) ≤ 41 * n ^ 5) :
    a * (1 - n) ^ 2 * δ ≤ 23 * a * n ^ 5 * ((1 + n) * V * D) := by
  have k1 : 1956 / 1000 * (29 / 30) ≤ D * Z := by nlinarith
  have k2 : 98 / 100 ≤ (1 + n) * (1 - n) ^ 2 := by nlinarith [sq_nonneg n]
  have hm : 0 < (1 - n) ^ 2 := by nlinarith
  have hV : 0 < V := lt_of_lt_of_le hm hV1
  have hT : 0 < V * Z := by nlinarith
  have n5 : 0 ≤ n ^ 5 := by positivity
  have k3 : 41 ≤ 23 * ((1 + n) * (1 - n) ^ 2 * (D * Z)) := by
    have := mul_le_mul k2 k1 (by norm_num) (by positivity)
    linarith
  have k4 : (1 + n) * (1 - n) ^ 2 * (D * Z) ≤ (1 + n) * V * (D * Z) := by
    have : 0 ≤ D * Z := by linarith
    gcongr
  have k5 : (1 - n) ^ 2 * (41 * n ^ 5) ≤ V * (n ^ 5 * (23 * ((1 + n) * V * (D * Z)))) := by
    refine mul_le_mul hV1 ?_ (by positivity) hV.le
    rw [mul_comm]
    exact mul_le_mul_of_nonneg_left (by linarith) n5
  have k6 : (1 - n) ^ 2 * (V * (Z * δ)) ≤ (1 - n) ^ 2 * (41 * n ^ 5) := mul_le_mul_of_nonneg_left hr hm.le
  have k7 : (V * Z) * ((1 - n) ^ 2 * δ) ≤ (V * Z) * (23 * n ^ 5 * ((1 + n) * V * D)) := by
    calc _ = (1 - n) ^ 2 * (V * (Z * δ)) := by ring
      _ ≤ _ := k6.trans k5
      _ = _ := by ring
  have k8 := le_of_mul_le_mul_left k7 hT
  calc a * (1 - n) ^ 2 * δ = a * ((1 - n) ^ 2 * δ) := by ring
    _ ≤ a * _ := mul_le_mul_of_nonneg_left k8 ha.le
    _ = _ := by ring

/-- From the squared residual to the difference. -/
theorem from_square {a n V D S : ℝ} (ha : 0 < a) (h0 : 0 ≤ n) (h1 : n ≤ 1 / 190) (hV1 : (1 - n) ^ 2 ≤ V) (hV2 : V ≤ (1 + n) ^ 2)
    (hD : |D - 1| ≤ 1 / 30) (hS : |S - 1| ≤ 1 / 100)
    (hr : |((1 + n ^ 2 / 4 + n ^ 4 / 64) * S) ^ 2 * V - ((1 + n) ^ 2 * D) ^ 2| ≤ 41 * n ^ 5) :
    |a / (1 + n) * (1 + n ^ 2 / 4 + n ^ 4 / 64) * (S * ((1 - n) ^ 2 / (V * D))) -
      a * (1 - n) ^ 2 * (1 + n) / Real.sqrt V ^ 3| ≤ 23 * a * n ^ 5 := by
  obtain ⟨d1, d2⟩ := abs_le.1 hD
  obtain ⟨s1, s2⟩ := abs_le.1 hS
  have hV0 : 0 < V := lt_of_lt_of_le (by nlinarith) hV1
  set v := Real.sqrt V with hv
  have hv0 : 0 < v := Real.sqrt_pos.2 hV0
  have hv2 : v ^ 2 = V := Real.sq_sqrt hV0.le
  have hvn : v ≤ 1 + n := by rw [hv]; exact Real.sqrt_le_iff.2 ⟨by linarith, hV2⟩
  have hD0 : 0 < D := by linarith
  have hn1 : 0 < 1 + n := by linarith
  set X := (1 + n ^ 2 / 4 + n ^ 4 / 64) * S with hX
  set Y := (1 + n) ^ 2 * D / v with hY
  have hXl : 99 / 100 ≤ X := by
    have : 1 ≤ 1 + n ^ 2 / 4 + n ^ 4 / 64 := by have := pow_nonneg h0 4; nlinarith [sq_nonneg n]
    nlinarith
  have hYl : 29 / 30 ≤ Y := by
    rw [hY, le_div_iff₀ hv0]
    nlinarith
  have hYv : Y * v = (1 + n) ^ 2 * D := by rw [hY]; field_simp
  have e1 : X ^ 2 * V - ((1 + n) ^ 2 * D) ^ 2 = V * ((X + Y) * (X - Y)) := by
    rw [← hYv, ← hv2]; ring
  rw [e1, abs_mul, abs_mul, abs_of_pos hV0, abs_of_pos (by linarith : 0 < X + Y)] at hr
  have e2 : a / (1 + n) * (1 + n ^ 2 / 4 + n ^ 4 / 64) * (S * ((1 - n) ^ 2 / (V * D))) -
      a * (1 - n) ^ 2 * (1 + n) / v ^ 3 = a * (1 - n) ^ 2 / ((1 + n) * V * D) * (X - Y) := by
    rw [hX, hY, ← hv2]; field_simp
  have hK : 0 < (1 + n) * V * D := by positivity
  rw [e2, abs_mul, abs_of_nonneg (by positivity : 0 ≤ a * (1 - n) ^ 2 / ((1 + n) * V * D)), div_mul_eq_mul_div, div_le_iff₀ hK]
  set δ := |X - Y| with hδ
  have hδ0 : 0 ≤ δ := abs_nonneg _
  exact from_square_end ha h0 h1 hV1 (by linarith) (by linarith) hδ0 (by linarith) hr

/-- Derivative of the difference of the formula's arc and the true arc. -/
theorem arc_diff {a b : ℝ} (hb : 0 < b) (hab : b ≤ a) (hE : ecc2 a b ≤ 1 / 50) {φ : ℝ} (h1 : -(Real.pi / 2) < φ)
    (h2 : φ < Real.pi / 2) :
    ∃ d, HasDerivAt (fun t => tmB a b * arcF (nR a b) (confR (Real.sqrt (ecc2 a b)) t)) d φ ∧
      |d - rho a b φ| ≤ 23 * a * nR a b ^ 5 := by
  have ha : 0 < a := lt_of_lt_of_le hb hab
  have he0 := Real.sqrt_nonneg (ecc2 a b)
  have he1 := sqrt_ecc2_lt hb hab
  have hes : Real.sqrt (ecc2 a b) ^ 2 = ecc2 a b := Real.sq_sqrt (ecc2_nonneg hb hab)
  have hn0 := nR_nonneg hb hab
  have hn1 := nR_le hb hab hE
  have dχ := confR_deriv he0 he1 h1 h2
  refine ⟨_, (((arcF_deriv (nR a b) (confR (Real.sqrt (ecc2 a b)) φ)).comp φ dχ).const_mul (tmB a b)), ?_⟩
  obtain ⟨r1, r2⟩ := Ser.Mer.residual hn0 hn1 φ (confR (Real.sqrt (ecc2 a b)) φ) (ecc2 a b) (wE (Real.sqrt (ecc2 a b)) φ)
    (dE (Real.sqrt (ecc2 a b)) φ) (ecc2_nR hb hab) rfl rfl (confR_sin h1.le h2.le)
  have hSum : (1 + 2 * Ser.qeval (nR a b) Ser.Mer.h0 * Real.cos (2 * confR (Real.sqrt (ecc2 a b)) φ) +
      4 * Ser.qeval (nR a b) Ser.Mer.h1 * Real.cos (4 * confR (Real.sqrt (ecc2 a b)) φ) +
      6 * Ser.qeval (nR a b) Ser.Mer.h2 * Real.cos (6 * confR (Real.sqrt (ecc2 a b)) φ) +
      8 * Ser.qeval (nR a b) Ser.Mer.h3 * Real.cos (8 * confR (Real.sqrt (ecc2 a b)) φ)) =
      arcF' (nR a b) (confR (Real.sqrt (ecc2 a b)) φ) := by
    simp only [Ser.qeval, Ser.Mer.h0, Ser.Mer.h1, Ser.Mer.h2, Ser.Mer.h3, arcF', tmh0, tmh1, tmh2, tmh3]
    push_cast
    ring
  rw [hSum] at r1
  set χ := confR (Real.sqrt (ecc2 a b)) φ
  set D := dE (Real.sqrt (ecc2 a b)) φ
  rw [hes]
  have hn1' : 0 < 1 + nR a b := by linarith
  set V := 1 + 2 * nR a b * Real.cos (2 * φ) + nR a b ^ 2 with hV
  have hcl := Real.neg_one_le_cos (2 * φ)
  have hcu := Real.cos_le_one (2 * φ)
  have hV1 : (1 - nR a b) ^ 2 ≤ V := by rw [hV]; nlinarith
  have hV2 : V ≤ (1 + nR a b) ^ 2 := by rw [hV]; nlinarith
  have hV0 : 0 < V := lt_of_lt_of_le (by nlinarith) hV1
  have key := from_square ha hn0 hn1 hV1 hV2 r2 (arcF'_near hn0 hn1 χ) r1
  have e1 : 1 - ecc2 a b * Real.sin φ ^ 2 = V / (1 + nR a b) ^ 2 := by
    rw [ecc2_nR hb hab, hV, Real.cos_two_mul, Real.cos_sq']; field_simp; ring
  have e2 : 1 - ecc2 a b = (1 - nR a b) ^ 2 / (1 + nR a b) ^ 2 := by
    rw [ecc2_nR hb hab]; field_simp; ring
  have e3 : rho a b φ = a * (1 - nR a b) ^ 2 * (1 + nR a b) / Real.sqrt V ^ 3 := by
    have q : a ^ 2 * Real.cos φ ^ 2 + b ^ 2 * Real.sin φ ^ 2 = (a / (1 + nR a b)) ^ 2 * V := by
      rw [show b ^ 2 = a ^ 2 * (1 - ecc2 a b) by rw [one_sub_ecc2 hb hab]; field_simp, Real.cos_sq', div_pow, div_mul_eq_mul_div, mul_div_assoc, ← e1]; ring
    rw [rho, q, Real.sqrt_mul (by positivity), Real.sqrt_sq (by positivity)]
    have hb2 : b ^ 2 = a ^ 2 * ((1 - nR a b) ^ 2 / (1 + nR a b) ^ 2) := by
      rw [← e2, one_sub_ecc2 hb hab]; field_simp
    rw [hb2]
    have := Real.sqrt_pos.2 hV0
    field_simp
  rw [e3, e1, e2]
  refine le_of_eq_of_le ?_ key
  congr 2
  rw [tmB]
  have : (1 - nR a b) ^ 2 / (1 + nR a b) ^ 2 / (V / (1 + nR a b) ^ 2 * D) = (1 - nR a b) ^ 2 / (V * D) := by
    field_simp
  rw [this]

/-- The formula's arc between two latitudes is the arc length of the meridian up to `23 a n⁵` per radian. -/
theorem arc_bound {a b : ℝ} (hb : 0 < b) (hab : b ≤ a) (hE : ecc2 a b ≤ 1 / 50) {φ0 φ : ℝ}
    (h1 : -(Real.pi / 2) ≤ φ0) (h2 : φ0 ≤ Real.pi / 2) (g1 : -(Real.pi / 2) ≤ φ) (g2 : φ ≤ Real.pi / 2) :
    |tmB a b * arcF (nR a b) (confR (Real.sqrt (ecc2 a b)) φ) - tmB a b * arcF (nR a b) (confR (Real.sqrt (ecc2 a b)) φ0) -
      ∫ t in φ0..φ, rho a b t| ≤ 23 * a * nR a b ^ 5 * |φ - φ0| := by
  have ha : 0 < a := lt_of_lt_of_le hb hab
  have hcont := continuous_rho ha hb
  -- it suffices to take the latitudes in order
  wlog hle : φ0 ≤ φ generalizing φ0 φ
  · have := this g1 g2 h1 h2 (le_of_not_ge hle)
    rw [intervalIntegral.integral_symm, abs_sub_comm φ φ0]
    refine le_of_eq_of_le ?_ this
    rw [← abs_neg]; congr 1; ring
  rcases hle.eq_or_lt with rfl | hlt
  · simp
  set F := fun t => tmB a b * arcF (nR a b) (confR (Real.sqrt (ecc2 a b)) t) with hF
  set G := fun t => F t - ∫ u in φ0..t, rho a b u with hG
  have cF : ContinuousOn F (Set.Icc φ0 φ) := by
    have c1 := (confR_continuousOn (Real.sqrt_nonneg (ecc2 a b)) (sqrt_ecc2_lt hb hab)).mono (Set.Icc_subset_Icc h1 g2)
    have c2 : Continuous (arcF (nR a b)) := by unfold arcF; fun_prop
    exact (c2.comp_continuousOn c1).const_smul (tmB a b)
  have dI : ∀ t, HasDerivAt (fun t => ∫ u in φ0..t, rho a b u) (rho a b t) t := fun t =>
    intervalIntegral.integral_hasDerivAt_right (hcont.intervalIntegrable _ _)
      hcont.stronglyMeasurable.stronglyMeasurableAtFilter hcont.continuousAt
  have cG : ContinuousOn G (Set.Icc φ0 φ) := cF.sub fun t _ => (dI t).continuousAt.continuousWithinAt
  have dF : ∀ t ∈ Set.Ioo φ0 φ, ∃ d, HasDerivAt F d t ∧ |d - rho a b t| ≤ 23 * a * nR a b ^ 5 := fun t ht =>
    arc_diff hb hab hE (lt_of_le_of_lt h1 ht.1) (lt_of_lt_of_le ht.2 g2)
  obtain ⟨c, hc, hs⟩ := exists_hasDerivAt_eq_slope G (fun t => deriv F t - rho a b t) hlt cG fun t ht => by
    obtain ⟨d, hd, _⟩ := dF t ht
    rw [hd.deriv]
    exact hd.sub (dI t)
  obtain ⟨d, hd, hb⟩ := dF c hc
  simp only [hd.deriv] at hs
  have hpos : 0 < φ - φ0 := by linarith
  rw [eq_div_iff hpos.ne'] at hs
  have e : F φ - F φ0 - ∫ t in φ0..φ, rho a b t = G φ - G φ0 := by
    simp only [hG, intervalIntegral.integral_same]; ring
  rw [e, ← hs, abs_mul]
  exact mul_le_mul_of_nonneg_right hb (abs_nonneg _)

end Geo.MerArc
