import Verif.Lemmas.TransverseParams

/-! The transverse Mercator projection in IEEE arithmetic: conformal latitude. -/

namespace Geo
open XR Spec
variable {L : Libm}

theorem cos_85 {φ : ℝ} (h : |φ| ≤ 1.4836) : 0.087 ≤ Real.cos φ := by
  have hp := Real.pi_gt_d6
  have hp2 := Real.pi_lt_d6
  rw [← Real.cos_abs]
  have h1 : Real.cos 1.4836 ≤ Real.cos |φ| := Real.cos_le_cos_of_nonneg_of_le_pi (abs_nonneg _) (by norm_num at *; linarith) h
  refine le_trans ?_ h1
  rw [← Real.sin_pi_div_two_sub]
  have hy1 : 0.08719 ≤ Real.pi / 2 - 1.4836 := by norm_num at *; linarith
  have hy2 : Real.pi / 2 - 1.4836 ≤ 0.08721 := by norm_num at *; linarith
  generalize Real.pi / 2 - 1.4836 = y at *
  have := Real.sin_gt_sub_cube (x := y) (by norm_num at *; linarith)
  have : y ^ 3 ≤ 0.08721 ^ 3 := pow_le_pow_left₀ (by norm_num at *; linarith) hy2 3
  norm_num at *
  linarith

theorem tan_85 {φ : ℝ} (h : |φ| ≤ 1.4836) : |Real.tan φ| ≤ 11.5 := by
  have hc := cos_85 h
  have hc0 : 0 < Real.cos φ := lt_of_lt_of_le (by norm_num) hc
  rw [Real.tan_eq_sin_div_cos, abs_div, abs_of_pos hc0, div_le_iff₀ hc0]
  have := Real.abs_sin_le_one φ
  norm_num at *
  linarith

theorem arsinh_85 {t : ℝ} (h : |t| ≤ 11.9) : |Real.arsinh t| ≤ 3.2 := by
  have key : ∀ u : ℝ, u ≤ 11.9 → Real.arsinh u ≤ 3.2 := by
    intro u hu
    rw [← Real.arsinh_sinh 3.2, Real.arsinh_le_arsinh]
    refine hu.trans ?_
    rw [Real.sinh_eq]
    have h1 : (23.9 : ℝ) ≤ Real.exp 3.2 := by
      have h2 := Real.exp_one_gt_d9
      have h3 : Real.exp 3.2 = Real.exp 1 ^ 3 * Real.exp 0.2 := by rw [← Real.exp_nat_mul, ← Real.exp_add]; norm_num
      have h4 := Real.add_one_le_exp (0.2 : ℝ)
      rw [h3]
      have h5 : (2.718 : ℝ) ^ 3 ≤ Real.exp 1 ^ 3 := pow_le_pow_left₀ (by norm_num) (by norm_num at *; linarith) 3
      have h6 : (2.718 : ℝ) ^ 3 * 1.2 ≤ Real.exp 1 ^ 3 * Real.exp 0.2 := mul_le_mul h5 (by norm_num at *; linarith) (by norm_num) (by positivity)
      norm_num at *
      linarith
    have h2 : Real.exp (-3.2) ≤ 0.05 := by
      rw [Real.exp_neg, inv_le_comm₀ (by positivity) (by norm_num)]
      norm_num at *
      linarith
    norm_num at *
    linarith
  obtain ⟨h1, h2⟩ := abs_le.1 h
  rw [abs_le]
  refine ⟨?_, key t h2⟩
  have := key (-t) (by linarith)
  rw [Real.arsinh_neg] at this
  linarith

theorem abs_artanh_le_div {x m A : ℝ} (h : |x| ≤ m) (hm : m < 1) (hA : m ≤ A * (1 - m ^ 2)) : |Real.artanh x| ≤ A := by
  have hm0 : 0 ≤ m := (abs_nonneg _).trans h
  have h1 : 0 < 1 - m ^ 2 := by nlinarith
  have := artanh_lip h (y := 0) (by simpa using hm0) hm (K := 1 / (1 - m ^ 2)) (by rw [one_div, inv_mul_cancel₀ h1.ne'])
  rw [Real.artanh_zero, sub_zero, sub_zero] at this
  refine this.trans ?_
  rw [one_div, inv_mul_le_iff₀ h1]
  linarith

section
variable {e : ℝ}

/-- The isometric latitude in doubles. -/
theorem Q_near (hL : AccurateProjection L) {e' : F64 L} (he : Near e' e 4.5e-16) (h0 : 0 ≤ e) (h1 : e ≤ 0.52) {φ : F64 L}
    (hφ : φ.isFinite) (hb : |φ.toQ| ≤ 1.4836) :
    Near (TransverseMercator.Q e' ⟨⟨φ⟩⟩) (isoQ e φ.toQ) 5e-15 ∧ |isoQ e φ.toQ| ≤ 3.6 := by
  have bR : |(φ.toQ : ℝ)| ≤ 1.4836 := by
    have := cast_abs_le hb
    push_cast at this
    exact this
  have hp : |φ.toQ| ≤ (Flt.pi_2 : F64 L).toQ := hb.trans (by rw [show (Flt.pi_2 : F64 L).toQ = B64.pi_2.toQ from rfl, pi_2_fin.2]; norm_num)
  have kt := tan_rel hL hφ hp
  have ka := arsinh_85 ((tan_85 bR).trans (by norm_num))
  have k1 := Rel.asinh hL kt (by norm_num) (by norm_num) (by norm_num) ((tan_85 bR).trans (by norm_num)) (by norm_num) ka
    (E := 3.34e-15) (by norm_num)
  have ks := Near.sin' hL (Near.exact hφ) (E := 2.3e-16) (by norm_num at *; linarith) (by norm_num)
  have hs := Real.abs_sin_le_one φ.toQ
  have he1 : |e| ≤ 0.52 := by rwa [abs_of_nonneg h0]
  have kes := Near.mul he ks (A := 0.52) (B := 1) (R := 0.53) (E := 6.4e-16) he1 hs (by norm_num) (by norm_num) (by norm_num) (by norm_num)
  have hes : |e * Real.sin φ.toQ| ≤ 0.52 := by
    rw [abs_mul]
    have := mul_le_mul he1 hs (abs_nonneg _) (by norm_num)
    rwa [mul_one] at this
  have hat := abs_artanh_le_div hes (A := 0.72) (by norm_num) (by norm_num)
  have kat := Near.atanh hL kes (m := 0.53) (K := 1.4) (E := 1.56e-15) (by norm_num at *; linarith) (by norm_num) (by norm_num) hat (by norm_num)
  have keat := Near.mul he kat (A := 0.52) (B := 0.72) (R := 0.4) (E := 1.2e-15) he1 hat (by norm_num) (by norm_num) (by norm_num) (by norm_num)
  have heat : |e * Real.artanh (e * Real.sin φ.toQ)| ≤ 0.38 := by
    rw [abs_mul]
    have := mul_le_mul he1 hat (abs_nonneg _) (by norm_num)
    norm_num at *
    linarith
  have hQ : |isoQ e φ.toQ| ≤ 3.6 := by
    refine (abs_sub _ _).trans ?_
    norm_num at *
    linarith
  refine ⟨?_, hQ⟩
  exact Near.sub k1 keat (R := 3.7) (by unfold isoQ at hQ; norm_num at *; linarith) (by norm_num) (by norm_num) (by norm_num)

theorem isoQ_abs_le (h0 : 0 ≤ e) (h1 : e < 1) {φ : ℝ} (h : |φ| < Real.pi / 2) : |isoQ e φ| ≤ |Real.arsinh (Real.tan φ)| := by
  have key : ∀ ψ : ℝ, 0 ≤ ψ → ψ < Real.pi / 2 → |isoQ e ψ| ≤ |Real.arsinh (Real.tan ψ)| := by
    intro ψ k0 k1
    have hp := Real.pi_pos
    have a1 : 0 ≤ isoQ e ψ := by
      rw [← isoQ_zero e]
      exact (isoQ_strictMono h0 h1).monotoneOn ⟨by linarith, by linarith⟩ ⟨by linarith, k1⟩ k0
    have a2 : 0 ≤ e * Real.artanh (e * Real.sin ψ) := by
      refine mul_nonneg h0 (Real.artanh_nonneg ?_)
      have s0 := Real.sin_nonneg_of_nonneg_of_le_pi k0 (by linarith)
      exact mul_nonneg h0 s0
    rw [abs_of_nonneg a1]
    refine le_trans ?_ (le_abs_self _)
    unfold isoQ
    linarith
  rcases le_or_gt 0 φ with hn | hn
  · exact key φ hn (by rwa [abs_of_nonneg hn] at h)
  · have := key (-φ) (by linarith) (by rwa [abs_of_neg hn] at h)
    rwa [isoQ_neg h0 h1, abs_neg, Real.tan_neg, Real.arsinh_neg, abs_neg] at this

/-- The conformal latitude in doubles. -/
theorem conf_near (hL : AccurateProjection L) {e' : F64 L} (he : Near e' e 4.5e-16) (h0 : 0 ≤ e) (h1 : e ≤ 0.52) {φ : F64 L}
    (hφ : φ.isFinite) (hb : |φ.toQ| ≤ 1.4836) :
    Near (TransverseMercator.beta (TransverseMercator.Q e' ⟨⟨φ⟩⟩)) (confR e φ.toQ) 6e-15 ∧
      |confR e φ.toQ| ≤ 1.5708 ∧ 0.087 ≤ Real.cos (confR e φ.toQ) := by
  have bR : |(φ.toQ : ℝ)| ≤ 1.4836 := by
    have := cast_abs_le hb
    push_cast at this
    exact this
  have hp := Real.pi_gt_d4
  have hp2 := Real.pi_lt_d4
  have hc := cos_85 bR
  have hc0 : 0 < Real.cos φ.toQ := lt_of_lt_of_le (by norm_num) hc
  obtain ⟨kq, bq⟩ := Q_near hL he h0 h1 hφ hb
  have e1 : confR e φ.toQ = Real.arctan (Real.sinh (isoQ e φ.toQ)) := by rw [confR_def, if_neg hc0.ne']
  refine ⟨?_, ?_, ?_⟩
  · rw [e1]
    exact Near.gd hL kq (by norm_num at *; linarith) (by norm_num) (by norm_num)
  · rw [e1, abs_le]
    constructor
    · have := Real.neg_pi_div_two_lt_arctan (Real.sinh (isoQ e φ.toQ))
      norm_num at *; linarith
    · have := Real.arctan_lt_pi_div_two (Real.sinh (isoQ e φ.toQ))
      norm_num at *; linarith
  · rw [e1, Real.cos_arctan]
    have h2 := isoQ_abs_le h0 (h1.trans_lt (by norm_num)) (φ := φ.toQ) (by norm_num at *; linarith)
    have h3 : |Real.sinh (isoQ e φ.toQ)| ≤ |Real.tan φ.toQ| := by
      refine (abs_sinh_mono h2).trans ?_
      rcases abs_cases (Real.arsinh (Real.tan φ.toQ)) with ⟨h, _⟩ | ⟨h, _⟩
      · rw [h, Real.sinh_arsinh]; exact le_abs_self _
      · rw [h, Real.sinh_neg, Real.sinh_arsinh]; exact neg_le_abs _
    have h4 : 1 + Real.sinh (isoQ e φ.toQ) ^ 2 ≤ 1 + Real.tan φ.toQ ^ 2 := by
      linarith [sq_le_sq.2 h3]
    have h5 : Real.cos φ.toQ = 1 / Real.sqrt (1 + Real.tan φ.toQ ^ 2) := by
      rw [one_div]; exact (Real.inv_sqrt_one_add_tan_sq hc0).symm
    rw [h5] at hc
    exact hc.trans (one_div_le_one_div_of_le (Real.sqrt_pos.2 (by positivity)) (Real.sqrt_le_sqrt h4))

end
end Geo
