import Verif.Lemmas.TransversePlane

/-! The transverse Mercator projection in IEEE arithmetic: from the conformal sphere to the ellipsoid. -/

namespace Geo
open XR Spec
variable {L : Libm}

theorem cos_851 {φ : ℝ} (h : |φ| ≤ 1.4846) : 0.086 ≤ Real.cos φ := by
  have hp := Real.pi_gt_d6
  have hp2 := Real.pi_lt_d6
  rw [← Real.cos_abs]
  have h1 : Real.cos 1.4846 ≤ Real.cos |φ| := Real.cos_le_cos_of_nonneg_of_le_pi (abs_nonneg _) (by norm_num at *; linarith) h
  refine le_trans ?_ h1
  rw [← Real.sin_pi_div_two_sub]
  have hy1 : 0.08619 ≤ Real.pi / 2 - 1.4846 := by norm_num at *; linarith
  have hy2 : Real.pi / 2 - 1.4846 ≤ 0.0862 := by norm_num at *; linarith
  generalize Real.pi / 2 - 1.4846 = y at *
  have := Real.sin_gt_sub_cube (x := y) (by norm_num at *; linarith)
  have : y ^ 3 ≤ 0.0862 ^ 3 := pow_le_pow_left₀ (by norm_num at *; linarith) hy2 3
  norm_num at *
  linarith

section
variable {ξ η : ℝ}

/-- The conformal sphere: latitude `β` and longitude `λ` of the point with transverse coordinates `ξ`, `η`. -/
theorem sph_real (bξ : |ξ| ≤ 1.4845) (bη : |η| ≤ 0.5525) :
    let s := Real.sin ξ / Real.cosh η
    let C := Real.cos (Real.arcsin s)
    Real.cosh η ≤ 1.19 ∧ 0.086 ≤ Real.cos ξ ∧ Real.cos ξ ≤ C ∧ C ≤ 1 ∧ s ^ 2 = 1 - C ^ 2 ∧ |Real.sinh η| ≤ C * Real.cosh η ∧
      |Real.arcsin s| ≤ 1.4845 ∧ |Real.tanh η| ≤ C ∧
      Real.cos (Real.arcsin (Real.tanh η / C)) = Real.cos ξ / (C * Real.cosh η) ∧
      (Real.tanh η / C) ^ 2 = 1 - Real.cos (Real.arcsin (Real.tanh η / C)) ^ 2 := by
  intro s C
  have hc := cos_851 (bξ.trans (by norm_num))
  have hc0 : 0 < Real.cos ξ := lt_of_lt_of_le (by norm_num) hc
  have hch := Real.cosh_pos η
  have hch1 := Real.one_le_cosh η
  have hs : |s| ≤ |Real.sin ξ| := by
    show |Real.sin ξ / Real.cosh η| ≤ _
    rw [abs_div, abs_of_pos hch]
    exact div_le_self (abs_nonneg _) hch1
  have hs1 := hs.trans (Real.abs_sin_le_one ξ)
  have hs2 : s ^ 2 ≤ Real.sin ξ ^ 2 := by rw [← sq_abs s, ← sq_abs (Real.sin ξ)]; exact pow_le_pow_left₀ (abs_nonneg _) hs 2
  have hC0 : 0 ≤ C := Real.cos_arcsin_nonneg s
  have hC2 : C ^ 2 = 1 - s ^ 2 := by
    show Real.cos (Real.arcsin s) ^ 2 = _
    rw [Real.cos_arcsin, Real.sq_sqrt]
    nlinarith [Real.sin_sq_add_cos_sq ξ, sq_nonneg (Real.cos ξ)]
  have hCc : Real.cos ξ ≤ C := by
    have : Real.cos ξ ^ 2 ≤ C ^ 2 := by rw [hC2]; nlinarith [Real.sin_sq_add_cos_sq ξ]
    exact (pow_le_pow_iff_left₀ hc0.le hC0 (by norm_num)).1 this
  have hCpos : 0 < C := lt_of_lt_of_le hc0 hCc
  have key : (C * Real.cosh η) ^ 2 = Real.sinh η ^ 2 + Real.cos ξ ^ 2 := by
    rw [mul_pow, hC2]
    show (1 - (Real.sin ξ / Real.cosh η) ^ 2) * Real.cosh η ^ 2 = _
    rw [div_pow, sub_mul, div_mul_cancel₀ _ (by positivity), Real.cosh_sq]
    nlinarith [Real.sin_sq_add_cos_sq ξ]
  have hsh : |Real.sinh η| ≤ C * Real.cosh η := by
    apply abs_le_of_sq_le_sq _ (by positivity)
    rw [key]; nlinarith [sq_nonneg (Real.cos ξ)]
  have ht : |Real.tanh η| ≤ C := by
    rw [Real.tanh_eq_sinh_div_cosh, abs_div, abs_of_pos hch, div_le_iff₀ hch]; exact hsh
  have hz : (Real.tanh η / C) ^ 2 = 1 - (Real.cos ξ / (C * Real.cosh η)) ^ 2 := by
    rw [Real.tanh_eq_sinh_div_cosh, div_div, mul_comm (Real.cosh η), div_pow, div_pow, eq_sub_iff_add_eq, ← add_div, key, div_self]
    positivity
  have hcl : Real.cos (Real.arcsin (Real.tanh η / C)) = Real.cos ξ / (C * Real.cosh η) := by
    rw [Real.cos_arcsin, hz, sub_sub_cancel, Real.sqrt_sq (by positivity)]
  refine ⟨?_, hc, hCc, Real.cos_le_one _, by rw [hC2]; ring, hsh, ?_, ht, hcl, by rw [hcl, hz]⟩
  · refine (Real.cosh_le_exp_half_sq η).trans ?_
    have h1 : η ^ 2 / 2 ≤ 0.1527 := by
      have : η ^ 2 ≤ 0.5525 ^ 2 := by rw [← sq_abs]; exact pow_le_pow_left₀ (abs_nonneg _) bη 2
      norm_num at *; linarith
    refine (Real.exp_le_exp.2 h1).trans ((Real.exp_bound_div_one_sub_of_interval (by norm_num) (by norm_num)).trans (by norm_num))
  · have hp := Real.pi_gt_d4
    obtain ⟨x1, x2⟩ := abs_le.1 bξ
    have m1 : |Real.arcsin s| = Real.arcsin |s| := by
      rcases abs_cases s with ⟨h, h'⟩ | ⟨h, h'⟩
      · rw [h, abs_of_nonneg (Real.arcsin_nonneg.2 h')]
      · rw [h, Real.arcsin_neg, abs_of_nonpos (Real.arcsin_nonpos.2 h'.le)]
    have m2 : Real.arcsin |Real.sin ξ| = |ξ| := by
      have : |Real.sin ξ| = Real.sin |ξ| := by
        rcases abs_cases ξ with ⟨h, h'⟩ | ⟨h, h'⟩
        · rw [h, abs_of_nonneg (Real.sin_nonneg_of_nonneg_of_le_pi h' (by norm_num at *; linarith))]
        · rw [h, Real.sin_neg, abs_of_nonpos (Real.sin_nonpos_of_nonpos_of_neg_pi_le h'.le (by norm_num at *; linarith))]
      rw [this, Real.arcsin_sin (by linarith [abs_nonneg ξ, Real.pi_pos]) (by norm_num at *; linarith)]
    rw [m1]
    refine (Real.monotone_arcsin hs).trans ?_
    rw [m2]; exact bξ

variable {x y : F64 L}

theorem sph_near (hL : AccurateProjection L) (hx : Near x ξ 1.13e-13) (hy : Near y η 5e-14) (bξ : |ξ| ≤ 1.4845) (bη : |η| ≤ 0.5525) :
    Near (Flt.asin (Flt.sin x / Flt.cosh y)) (Real.arcsin (Real.sin ξ / Real.cosh η)) 1.85e-13 := by
  obtain ⟨r1, r2, r3, r4, r5, r6, r7, r8, r9, r10⟩ := sph_real bξ bη
  have hch1 := Real.one_le_cosh η
  have hzle : |Real.sin ξ| ≤ 1 * Real.cosh η := (Real.abs_sin_le_one ξ).trans (by rw [one_mul]; exact hch1)
  have hcx : |Real.cos ξ| = Real.cos ξ := abs_of_nonneg (by norm_num at *; linarith)
  generalize hC : Real.cos (Real.arcsin (Real.sin ξ / Real.cosh η)) = C at *
  have hC1 : 0.086 ≤ C := r2.trans r3
  have hC0 : 0 < C := lt_of_lt_of_le (by norm_num) hC1
  have ksn : Near (Flt.sin x) (Real.sin ξ) (1.13e-13 * C + 2.31e-16) := by
    obtain ⟨f, k⟩ := hL.sin_wide x hx.1 (hx.abs_le_rat (by push_cast; norm_num at *; linarith))
    refine ⟨f, ?_⟩
    have h1 := abs_sub_le ((Flt.sin x : F64 L).toQ : ℝ) (Real.sin x.toQ) (Real.sin ξ)
    have h2 := sin_near2 hx.2
    rw [hcx] at h2
    have : (2⁻¹ : ℝ) ^ 52 ≤ 2.3e-16 := by norm_num
    norm_num at *
    linarith
  have kch : Near (Flt.cosh y) (Real.cosh η) (5.96e-14 * C + 5.4e-16) := by
    refine Near.cosh hL hy (m := |η| + 5e-14) (K := 1.19 * C + 1e-13) (A := 1.19) le_rfl (by norm_num at *; linarith) ?_ r1
      (by norm_num; nlinarith)
    have h1 : Real.sinh |η| ≤ 1.19 * C := by
      have h0 : |Real.sinh η| ≤ 1.19 * C := r6.trans (by rw [mul_comm]; exact mul_le_mul_of_nonneg_right r1 hC0.le)
      refine le_trans ?_ h0
      rcases abs_cases η with ⟨h, _⟩ | ⟨h, _⟩
      · rw [h]; exact le_abs_self _
      · rw [h, Real.sinh_neg]; exact neg_le_abs _
    have h2 := sinh_lip (x := |η| + 5e-14) (y := |η|) (M := (1 : ℕ)) (by rw [abs_of_nonneg (by positivity)]; norm_num at *; linarith)
      (by rw [abs_abs]; norm_num at *; linarith)
    have h3 := (hyp_le (k := 1) (K := 1.9) (by norm_num)).1
    rw [add_sub_cancel_left, abs_of_pos (by norm_num : (0 : ℝ) < 5e-14)] at h2
    have h4 := (le_abs_self _).trans h2
    norm_num at *
    linarith
  have kz : Near (Flt.sin x / Flt.cosh y) (Real.sin ξ / Real.cosh η) (1.73e-13 * C + 9e-16) := by
    refine Near.div' ksn kch (A := 1) (B := 1) (C := 0.99999) (R := 1.0001) hzle zero_le_one hch1 (by norm_num) (by norm_num at *; linarith) ?_
      (by norm_num) (by norm_num) ?_
    · rw [← le_sub_iff_add_le', div_le_iff₀ (by norm_num)]; norm_num at *; linarith
    · rw [← le_sub_iff_add_le, div_le_iff₀ (by norm_num)]; norm_num at *; linarith
  generalize Real.sin ξ / Real.cosh η = z at *
  have hz : |z| ≤ 1 := by
    rw [← sq_le_one_iff_abs_le_one]
    nlinarith
  have hε : 1.73e-13 * C + 9e-16 ≤ 1.74e-13 := by norm_num at *; linarith
  have hm2 : (|z| + (1.73e-13 * C + 9e-16)) ^ 2 ≤ 1 - 0.999 * C ^ 2 := by
    have hε0 : 0 ≤ 1.73e-13 * C + 9e-16 := by positivity
    generalize 1.73e-13 * C + 9e-16 = d at *
    rw [← sq_abs] at r5
    have h2 : |z| * d ≤ 1.74e-13 := by
      have := mul_le_mul hz hε hε0 zero_le_one
      rwa [one_mul] at this
    have h3 : d * d ≤ 1.74e-13 := by
      have := mul_le_mul (hε.trans (by norm_num : (1.74e-13 : ℝ) ≤ 1)) hε hε0 zero_le_one
      rwa [one_mul] at this
    have h4 : 0.007 ≤ C ^ 2 := by norm_num at *; nlinarith
    have h5 : (|z| + d) ^ 2 = |z| ^ 2 + 2 * (|z| * d) + d * d := by ring
    rw [h5]
    norm_num at *
    linarith
  have hm1 : |z| + (1.73e-13 * C + 9e-16) < 1 := by
    have h0 : 0 ≤ |z| + (1.73e-13 * C + 9e-16) := by positivity
    generalize |z| + (1.73e-13 * C + 9e-16) = m at *
    have : 0 < C ^ 2 := by positivity
    norm_num at *
    nlinarith
  have hK : 1 ≤ (1.001 / C) ^ 2 * (1 - (|z| + (1.73e-13 * C + 9e-16)) ^ 2) := by
    have h1 : (1.001 / C) ^ 2 * (0.999 * C ^ 2) ≤ (1.001 / C) ^ 2 * (1 - (|z| + (1.73e-13 * C + 9e-16)) ^ 2) :=
      mul_le_mul_of_nonneg_left (by linarith) (by positivity)
    refine le_trans ?_ h1
    rw [div_pow, div_mul_eq_mul_div, le_div_iff₀ (by positivity)]
    norm_num
    nlinarith [sq_nonneg C]
  refine Near.asin hL kz le_rfl hm1 (K := 1.001 / C) (by positivity) hK ?_
  have h1 : 1.001 / C * (1.73e-13 * C + 9e-16) ≤ 1.84e-13 := by
    rw [div_mul_eq_mul_div, div_le_iff₀ hC0]
    norm_num at *
    linarith
  norm_num at *
  linarith

/-- The longitude difference; its error grows with the convergence of the meridians. -/
theorem sph_lon_near (hL : AccurateProjection L) {b : F64 L} (hb : Near b (Real.arcsin (Real.sin ξ / Real.cosh η)) 1.85e-13) (hy : Near y η 5e-14)
    (bξ : |ξ| ≤ 1.4845) (bη : |η| ≤ 0.5525) :
    let C := Real.cos (Real.arcsin (Real.sin ξ / Real.cosh η))
    let l := Real.arcsin (Real.tanh η / C)
    Near (Flt.asin (Flt.tanh y / Flt.cos b)) l (2.38e-13 / (C * Real.cos l) + 8e-16) ∧ 0.072 ≤ Real.cos l := by
  intro C l
  obtain ⟨r1, r2, r3, r4, r5, r6, r7, r8, r9, r10⟩ := sph_real bξ bη
  change Real.cos ξ ≤ C at r3
  change C ≤ 1 at r4
  change |Real.tanh η| ≤ C at r8
  change Real.cos l = Real.cos ξ / (C * Real.cosh η) at r9
  change (Real.tanh η / C) ^ 2 = 1 - Real.cos l ^ 2 at r10
  have hC1 : 0.086 ≤ C := r2.trans r3
  have hC0 : 0 < C := lt_of_lt_of_le (by norm_num) hC1
  have hch := Real.cosh_pos η
  have kc : Near (Flt.cos b) C 1.853e-13 := Near.cos' hL hb (by norm_num at *; linarith) (by norm_num)
  have kt := Near.tanh hL hy (E := 5.05e-14) (by norm_num)
  clear_value C
  have hl : 0.072 ≤ Real.cos l := by
    rw [r9, le_div_iff₀ (by positivity)]
    have : C * Real.cosh η ≤ 1 * 1.19 := mul_le_mul r4 r1 hch.le zero_le_one
    norm_num at *; linarith
  refine ⟨?_, hl⟩
  have hl1 := Real.cos_le_one l
  have hinv : (1 : ℝ) ≤ 1 / C := by rw [le_div_iff₀ hC0]; linarith
  have hinv2 : 1 / C ≤ 12 := by rw [div_le_iff₀ hC0]; norm_num at *; linarith
  have kz : Near (Flt.tanh y / Flt.cos b) (Real.tanh η / C) (2.37e-13 * (1 / C)) := by
    have e1 : (5.05e-14 + 1 * 1.853e-13) / (C / 1.0001) = 2.3582358e-13 * (1 / C) := by
      rw [div_div_eq_mul_div, div_eq_mul_one_div]; norm_num
    refine Near.div' kt kc (A := 1) (B := C) (C := C / 1.0001) (R := 1.0001) (by rw [one_mul]; exact r8) zero_le_one le_rfl (by positivity) ?_ ?_
      (by norm_num) (by norm_num) ?_
    · rw [div_le_iff₀ (by norm_num)]; norm_num at *; linarith
    · rw [e1]; norm_num at *; linarith
    · rw [e1]; norm_num at *; linarith
  have hlarc : l = Real.arcsin (Real.tanh η / C) := rfl
  clear_value l
  generalize Real.tanh η / C = z at *
  have hz : |z| ≤ 1 := by
    rw [← sq_le_one_iff_abs_le_one]
    nlinarith
  have hε : 2.37e-13 * (1 / C) ≤ 2.9e-12 := by norm_num at *; linarith
  have hε0 : 0 ≤ 2.37e-13 * (1 / C) := by positivity
  have hl0 : 0 < Real.cos l := lt_of_lt_of_le (by norm_num) hl
  generalize Real.cos l = c at *
  have hm2 : (|z| + 2.37e-13 * (1 / C)) ^ 2 ≤ 1 - 0.999 * c ^ 2 := by
    generalize 2.37e-13 * (1 / C) = d at *
    rw [← sq_abs] at r10
    have h2 : |z| * d ≤ 2.9e-12 := by
      have := mul_le_mul hz hε hε0 zero_le_one
      rwa [one_mul] at this
    have h3 : d * d ≤ 2.9e-12 := by
      have := mul_le_mul (hε.trans (by norm_num : (2.9e-12 : ℝ) ≤ 1)) hε hε0 zero_le_one
      rwa [one_mul] at this
    have h4 : 0.005 ≤ c ^ 2 := by norm_num at *; nlinarith
    have h5 : (|z| + d) ^ 2 = |z| ^ 2 + 2 * (|z| * d) + d * d := by ring
    rw [h5]
    norm_num at *
    linarith
  have hm1 : |z| + 2.37e-13 * (1 / C) < 1 := by
    have h0 : 0 ≤ |z| + 2.37e-13 * (1 / C) := by positivity
    generalize |z| + 2.37e-13 * (1 / C) = m at *
    have : 0 < c ^ 2 := by positivity
    norm_num at *
    nlinarith
  have hK : 1 ≤ (1.001 / c) ^ 2 * (1 - (|z| + 2.37e-13 * (1 / C)) ^ 2) := by
    have h1 : (1.001 / c) ^ 2 * (0.999 * c ^ 2) ≤ (1.001 / c) ^ 2 * (1 - (|z| + 2.37e-13 * (1 / C)) ^ 2) :=
      mul_le_mul_of_nonneg_left (by linarith) (by positivity)
    refine le_trans ?_ h1
    rw [div_pow, div_mul_eq_mul_div, le_div_iff₀ (by positivity)]
    norm_num
    nlinarith [sq_nonneg c]
  rw [hlarc]
  refine Near.asin hL kz le_rfl hm1 (K := 1.001 / c) (by positivity) hK ?_
  have h1 : 1.001 / c * (2.37e-13 * (1 / C)) = 2.37237e-13 * (1 / (C * c)) := by field_simp; norm_num
  have h2 : 2.38e-13 / (C * c) = 2.38e-13 * (1 / (C * c)) := by ring
  have h3 : 1 ≤ 1 / (C * c) := by
    rw [le_div_iff₀ (by positivity), one_mul]
    exact mul_le_one₀ r4 hl0.le hl1
  have h4 : 1 / (C * c) ≤ 170 := by
    rw [div_le_iff₀ (by positivity)]
    have := mul_le_mul hC1 hl (by norm_num) hC0.le
    norm_num at *; linarith
  rw [h1, h2]
  norm_num at *
  linarith

end
end Geo
