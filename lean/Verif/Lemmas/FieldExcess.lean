import Verif.Lemmas.GeodesicField
import Verif.Lemmas.InverseArc

/-! The excess of longitude of the true geodesic, as a function of the longitude difference on the auxiliary sphere, is
a contraction. -/

namespace Geo.Shortest
open Spec

theorem hh_abs {z A : ℝ} (h : z ^ 2 + A ^ 2 ≤ 1) (t : ℝ) : |hh z A t| ≤ 1 ∧ |hd z A t| ≤ 1 := by
  have := hh_energy z A t
  constructor <;> rw [abs_le_one_iff_mul_self_le_one] <;> nlinarith [sq_nonneg (hh z A t), sq_nonneg (hd z A t)]

section
variable {a b : ℝ} (hb : 0 < b) (hab : b ≤ a)
include hb hab

theorem wf_ge (h : ℝ) : b / a ≤ wf (Bessel.e2 a b) h := by
  have ha : 0 < a := lt_of_lt_of_le hb hab
  refine Real.le_sqrt_of_sq_le ?_
  have := mul_nonneg (Bessel.e2_nonneg hb hab) (sq_nonneg h)
  have e : (b / a) ^ 2 = 1 - Bessel.e2 a b := by unfold Bessel.e2; rw [div_pow]; ring
  linarith

theorem e2_eq : Bessel.e2 a b = (a - b) / a * (1 + b / a) := by
  have ha : a ≠ 0 := (lt_of_lt_of_le hb hab).ne'
  unfold Bessel.e2
  field_simp
  ring

theorem Vf_le (h : ℝ) : Vf (Bessel.e2 a b) h ≤ (a - b) / a := by
  have ha : 0 < a := lt_of_lt_of_le hb hab
  have h1 := wf_ge hb hab h
  have h2 : 0 < b / a := div_pos hb ha
  have h3 : 0 ≤ (a - b) / a := div_nonneg (by linarith) ha.le
  rw [Vf, div_le_iff₀ (by linarith)]
  exact (e2_eq hb hab).le.trans (mul_le_mul_of_nonneg_left (by linarith) h3)

theorem Vf_abs (h : ℝ) : |Vf (Bessel.e2 a b) h| ≤ (a - b) / a := by
  rw [abs_of_nonneg (Vf_nonneg (Bessel.e2_nonneg hb hab) (Bessel.e2_lt hb hab) h)]; exact Vf_le hb hab h

theorem Vf1_abs (hf : (a - b) / a ≤ 1 / 250) {h : ℝ} (hh : |h| ≤ 1) : |Vf1 (Bessel.e2 a b) h| ≤ (a - b) / a / 100 := by
  have ha : 0 < a := lt_of_lt_of_le hb hab
  have h1 := wf_ge hb hab h
  have h2 : 249 / 250 ≤ b / a := by
    have : b / a = 1 - (a - b) / a := by field_simp; ring
    linarith
  have h3 : 0 ≤ (a - b) / a := div_nonneg (by linarith) ha.le
  have e0 := Bessel.e2_nonneg hb hab
  have hwp : 0 < wf (Bessel.e2 a b) h := by linarith
  have e1 : |Vf1 (Bessel.e2 a b) h| ≤ Bessel.e2 a b ^ 2 / (wf (Bessel.e2 a b) h * (1 + wf (Bessel.e2 a b) h) ^ 2) := by
    rw [Vf1, abs_div, abs_neg, abs_mul, abs_div, abs_mul, abs_of_nonneg e0, abs_of_pos hwp,
      abs_of_pos (by positivity : 0 < (1 + wf (Bessel.e2 a b) h) ^ 2), ← mul_div_assoc, div_div]
    refine div_le_div_of_nonneg_right ?_ (by positivity)
    nlinarith [mul_nonneg e0 e0]
  refine e1.trans ?_
  rw [div_le_iff₀ (by positivity)]
  have k1 : (1 + b / a) ^ 2 ≤ (1 + wf (Bessel.e2 a b) h) ^ 2 := by gcongr
  have k2 : (249 / 250 : ℝ) * (1 + b / a) ^ 2 ≤ wf (Bessel.e2 a b) h * (1 + wf (Bessel.e2 a b) h) ^ 2 :=
    mul_le_mul (by linarith) k1 (by positivity) (by linarith)
  have k3 : ((a - b) / a) ^ 2 ≤ (a - b) / a / 250 := by nlinarith
  calc Bessel.e2 a b ^ 2 = ((a - b) / a) ^ 2 * (1 + b / a) ^ 2 := by rw [e2_eq hb hab]; ring
    _ ≤ (a - b) / a / 250 * (1 + b / a) ^ 2 := by gcongr
    _ ≤ (a - b) / a / 100 * ((249 / 250 : ℝ) * (1 + b / a) ^ 2) := by nlinarith [sq_nonneg (1 + b / a), mul_nonneg h3 (sq_nonneg (1 + b / a))]
    _ ≤ _ := by gcongr

theorem I_abs (z A : ℝ) {σ : ℝ} (hσ : 0 ≤ σ) : |I (Vf (Bessel.e2 a b)) z A σ| ≤ (a - b) / a * σ := by
  have := intervalIntegral.norm_integral_le_of_norm_le_const (a := 0) (b := σ) (f := fun t => Vf (Bessel.e2 a b) (hh z A t))
    (C := (a - b) / a) (fun t _ => Vf_abs hb hab _)
  rwa [sub_zero, abs_of_nonneg hσ] at this

theorem IA_abs (hf : (a - b) / a ≤ 1 / 250) {z A : ℝ} (h : z ^ 2 + A ^ 2 ≤ 1) {σ : ℝ} (hσ : 0 ≤ σ) :
    |IA (Vf1 (Bessel.e2 a b)) z A σ| ≤ (a - b) / a / 100 * σ := by
  have h3 : 0 ≤ (a - b) / a := div_nonneg (by linarith) (hb.trans_le hab).le
  have := intervalIntegral.norm_integral_le_of_norm_le_const (a := 0) (b := σ)
    (f := fun t => Vf1 (Bessel.e2 a b) (hh z A t) * Real.sin t)
    (C := (a - b) / a / 100) (fun t _ => by
      rw [Real.norm_eq_abs, abs_mul]
      exact (mul_le_mul (Vf1_abs hb hab hf (hh_abs h t).1) (Real.abs_sin_le_one t) (abs_nonneg _) (by positivity)).trans_eq (mul_one _))
  rwa [sub_zero, abs_of_nonneg hσ] at this

end

/-- Slope at the start of the great circle between two points. -/
noncomputable def slope (β β₂ l : ℝ) : ℝ := (Real.sin β₂ - Real.sin β * Real.cos (arc β β₂ l)) / Real.sin (arc β β₂ l)

/-- The excess of the geodesic whose auxiliary great circle joins two points. -/
noncomputable def excE (e β β₂ l : ℝ) : ℝ := salpha β β₂ l * I (Vf e) (Real.sin β) (slope β β₂ l) (arc β β₂ l)

section
variable {β β₂ l : ℝ}

theorem slope_energy (h : Real.sin (arc β β₂ l) ≠ 0) :
    Real.sin β ^ 2 + slope β β₂ l ^ 2 = 1 - salpha β β₂ l ^ 2 := by
  have h1 := heights β β₂ l h
  have e : slope β β₂ l * Real.sin (arc β β₂ l) = Real.sin β₂ - Real.sin β * Real.cos (arc β β₂ l) :=
    div_mul_cancel₀ _ h
  refine mul_right_cancel₀ (pow_ne_zero 2 h) ?_
  linear_combination -h1 + Real.sin β ^ 2 * Real.sin_sq_add_cos_sq (arc β β₂ l) +
    (slope β β₂ l * Real.sin (arc β β₂ l) + Real.sin β₂ - Real.sin β * Real.cos (arc β β₂ l)) * e

theorem slope_deriv (h : Real.sin (arc β β₂ l) ≠ 0) : HasDerivAt (slope β β₂)
    (-(hd (Real.sin β) (slope β β₂ l) (arc β β₂ l)) / Real.sin (arc β β₂ l) * salpha β β₂ l) l := by
  have e : slope β β₂ l * Real.sin (arc β β₂ l) = Real.sin β₂ - Real.sin β * Real.cos (arc β β₂ l) :=
    div_mul_cancel₀ _ h
  have k := arc_deriv h
  refine (((k.cos.const_mul (Real.sin β)).const_sub (Real.sin β₂)).div k.sin h).congr_deriv ?_
  rw [hd, ← e]
  field_simp
  ring

variable {a b : ℝ} (hb : 0 < b) (hab : b ≤ a)
include hb hab

theorem excE_abs (β β₂ l : ℝ) : |excE (Bessel.e2 a b) β β₂ l| ≤ (a - b) / a * arc β β₂ l := by
  have k := I_abs hb hab (Real.sin β) (slope β β₂ l) (arc_nonneg β β₂ l)
  have h3 : 0 ≤ (a - b) / a := div_nonneg (by linarith) (hb.trans_le hab).le
  rw [excE, abs_mul]
  by_cases h : Real.sin (arc β β₂ l) = 0
  · rw [salpha, h, div_zero, abs_zero, zero_mul]
    exact mul_nonneg h3 (arc_nonneg _ _ _)
  · exact (mul_le_mul (abs_salpha h) k (abs_nonneg _) one_pos.le).trans_eq (one_mul _)

theorem excE_deriv (h : Real.sin (arc β β₂ l) ≠ 0) (hf : (a - b) / a ≤ 1 / 250) {M : ℝ} (hM : M < Real.pi)
    (hle : arc β β₂ l ≤ M) (hq : (a - b) / a * (M / Real.sin M) ≤ 1 / 10) :
    ∃ d, HasDerivAt (excE (Bessel.e2 a b) β β₂) d l ∧ |d| ≤ 1 / 4 := by
  have e0 := Bessel.e2_nonneg hb hab
  have e1 := Bessel.e2_lt hb hab
  have h3 : 0 ≤ (a - b) / a := div_nonneg (by linarith) (hb.trans_le hab).le
  have hsp := sin_arc_pos h
  have hpos : 0 < arc β β₂ l := lt_of_le_of_ne (arc_nonneg _ _ _) fun e => h (by rw [← e, Real.sin_zero])
  have hI := I_fderiv (Vf_deriv e0 e1) (Vf1_deriv e0 e1) (Vf2_continuous e0 e1) (Real.sin β) (slope β β₂ l) (arc β β₂ l)
  have hc := hI.comp_hasDerivAt l ((slope_deriv h).prodMk (arc_deriv h))
  have hm := (salpha_deriv h).mul hc
  refine ⟨_, hm, ?_⟩
  have en := slope_energy h
  have sa := abs_salpha h
  have hz : Real.sin β ^ 2 + slope β β₂ l ^ 2 ≤ 1 := by nlinarith [sq_nonneg (salpha β β₂ l)]
  have i1 := I_abs hb hab (Real.sin β) (slope β β₂ l) hpos.le
  have i2 := IA_abs hb hab hf hz hpos.le
  have i3 := (hh_abs hz (arc β β₂ l)).2
  have i4 := Vf_abs hb hab (hh (Real.sin β) (slope β β₂ l) (arc β β₂ l))
  have i5 := salpha_deriv_bound β β₂ l h
  have r := mul_le_mul_of_nonneg_left (arc_ratio hpos hle hM) h3
  set σ := arc β β₂ l
  set s := Real.sin σ
  have t1 : |(Real.cos β * Real.cos β₂ * Real.cos l - salpha β β₂ l ^ 2 * Real.cos σ) / s *
      I (Vf (Bessel.e2 a b)) (Real.sin β) (slope β β₂ l) σ| ≤ 2 * (1 / 10) := by
    rw [abs_mul, abs_div, abs_of_pos hsp]
    calc _ ≤ 2 / s * ((a - b) / a * σ) := by gcongr
      _ = 2 * ((a - b) / a * (σ / s)) := by ring
      _ ≤ _ := by linarith
  have t2 : |IA (Vf1 (Bessel.e2 a b)) (Real.sin β) (slope β β₂ l) σ * (-(hd (Real.sin β) (slope β β₂ l) σ) / s * salpha β β₂ l)| ≤
      1 / 1000 := by
    rw [abs_mul, abs_mul, abs_div, abs_neg, abs_of_pos hsp]
    calc _ ≤ (a - b) / a / 100 * σ * (1 / s * 1) := by gcongr
      _ = (a - b) / a * (σ / s) / 100 := by ring
      _ ≤ _ := by linarith
  have t3 : |Vf (Bessel.e2 a b) (hh (Real.sin β) (slope β β₂ l) σ) * salpha β β₂ l| ≤ 1 / 250 := by
    rw [abs_mul]
    exact (mul_le_mul (i4.trans hf) sa (abs_nonneg _) (by norm_num)).trans_eq (mul_one _)
  have t4 : |salpha β β₂ l * (IA (Vf1 (Bessel.e2 a b)) (Real.sin β) (slope β β₂ l) σ *
      (-(hd (Real.sin β) (slope β β₂ l) σ) / s * salpha β β₂ l) +
      Vf (Bessel.e2 a b) (hh (Real.sin β) (slope β β₂ l) σ) * salpha β β₂ l)| ≤ 1 / 200 := by
    rw [abs_mul]
    exact (mul_le_mul sa ((abs_add_le _ _).trans (add_le_add t2 t3)) (abs_nonneg _) one_pos.le).trans (by norm_num)
  simp only [Function.comp, add_apply, smul_apply, ContinuousLinearMap.coe_fst', ContinuousLinearMap.coe_snd', smul_eq_mul]
  refine (abs_add_le _ _).trans ((add_le_add t1 t4).trans (by norm_num))

/-- The excess is a contraction as long as the arc stays away from the antipode. -/
theorem excE_lip (β β₂ : ℝ) (hf : (a - b) / a ≤ 1 / 250) {M x y : ℝ} (hM : M < Real.pi)
    (hle : ∀ l ∈ Set.uIcc x y, arc β β₂ l ≤ M) (hq : (a - b) / a * (M / Real.sin M) ≤ 1 / 10) :
    |excE (Bessel.e2 a b) β β₂ y - excE (Bessel.e2 a b) β β₂ x| ≤ 1 / 4 * |y - x| := by
  by_cases h : ∃ m ∈ Set.uIcc x y, Real.sin (arc β β₂ m) = 0
  · obtain ⟨m, hm, h⟩ := h
    have h0 : arc β β₂ m = 0 := by
      by_contra h0
      exact (Real.sin_pos_of_pos_of_lt_pi (lt_of_le_of_ne (arc_nonneg _ _ _) (Ne.symm h0)) ((hle m hm).trans_lt hM)).ne' h
    have h3 : 0 ≤ (a - b) / a := div_nonneg (by linarith) (hb.trans_le hab).le
    have kx := arc_lip β β₂ x m
    have ky := arc_lip β β₂ y m
    rw [h0, zero_add] at kx ky
    have hx := (excE_abs hb hab β β₂ x).trans (mul_le_mul_of_nonneg_left kx h3)
    have hy := (excE_abs hb hab β β₂ y).trans (mul_le_mul_of_nonneg_left ky h3)
    have e : |y - m| + |x - m| = |y - x| := by
      rcases Set.mem_uIcc.1 hm with ⟨q1, q2⟩ | ⟨q1, q2⟩
      · rw [abs_of_nonneg (by linarith), abs_of_nonpos (by linarith), abs_of_nonneg (by linarith)]; ring
      · rw [abs_of_nonpos (by linarith), abs_of_nonneg (by linarith), abs_of_nonpos (by linarith)]; ring
    calc _ ≤ _ := abs_sub _ _
      _ ≤ (a - b) / a * |y - m| + (a - b) / a * |x - m| := add_le_add hy hx
      _ = (a - b) / a * |y - x| := by rw [← mul_add, e]
      _ ≤ _ := mul_le_mul_of_nonneg_right (by linarith) (abs_nonneg _)
  · push Not at h
    choose! d hd hd' using fun m hm => excE_deriv hb hab (h m hm) hf hM (hle m hm) hq
    exact Convex.norm_image_sub_le_of_norm_hasDerivWithin_le (s := Set.uIcc x y) (fun m hm => (hd m hm).hasDerivWithinAt) hd'
      (convex_uIcc _ _) Set.left_mem_uIcc Set.right_mem_uIcc

end

end Geo.Shortest
