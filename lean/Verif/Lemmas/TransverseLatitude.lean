import Verif.Lemmas.TransverseSphere

/-! The transverse Mercator projection in IEEE arithmetic: the latitude, from the conformal sphere to the ellipsoid. -/

namespace Geo
open XR Spec
variable {L : Libm}

theorem tan_851 {φ : ℝ} (h : |φ| ≤ 1.4846) : |Real.tan φ| ≤ 11.7 := by
  have hc := cos_851 h
  have hc0 : 0 < Real.cos φ := lt_of_lt_of_le (by norm_num) hc
  rw [Real.tan_eq_sin_div_cos, abs_div, abs_of_pos hc0, div_le_iff₀ hc0]
  have := Real.abs_sin_le_one φ
  norm_num at *
  linarith

theorem arsinh_tan_deriv {φ : ℝ} (g1 : -(Real.pi / 2) < φ) (g2 : φ < Real.pi / 2) :
    HasDerivAt (fun φ => Real.arsinh (Real.tan φ)) (1 / Real.cos φ) φ := by
  have d := isoQ_deriv le_rfl zero_lt_one g1 g2
  rw [show (isoQ 0) = fun φ => Real.arsinh (Real.tan φ) from funext isoQ_sphere] at d
  simpa using d

theorem cosh_arsinh_tan {β : ℝ} (h : 0 < Real.cos β) : Real.cosh (Real.arsinh (Real.tan β)) = 1 / Real.cos β := by
  rw [Real.cosh_arsinh, ← Real.inv_sqrt_one_add_tan_sq h, one_div, inv_inv]

theorem cosh_add_le (x : ℝ) {d : ℝ} : Real.cosh (x + d) ≤ Real.exp |d| * Real.cosh x := by
  have h1 : Real.cosh (x + d) = (Real.exp x * Real.exp d + Real.exp (-x) * Real.exp (-d)) / 2 := by
    rw [Real.cosh_eq, ← Real.exp_add, ← Real.exp_add, neg_add]
  rw [h1, Real.cosh_eq]
  have a1 := mul_le_mul_of_nonneg_left (Real.exp_le_exp.2 (le_abs_self d)) (Real.exp_pos x).le
  have a2 := mul_le_mul_of_nonneg_left (Real.exp_le_exp.2 (neg_le_abs d)) (Real.exp_pos (-x)).le
  linarith

theorem exp_small {d : ℝ} (h : d ≤ 1e-11) : Real.exp d ≤ 1.00001 :=
  (Real.exp_le_exp.2 h).trans ((Real.exp_bound_div_one_sub_of_interval (by norm_num) (by norm_num)).trans (by norm_num))

/-- The solution of the equation of the loop is no nearer to the equator than the isometric latitude on the conformal sphere. -/
theorem solve_cosh {e Q u : ℝ} (h0 : 0 ≤ e) (h1 : e ≤ 0.1) (hu : |u - iterR e Q u| ≤ 1e-14) : Real.cosh Q ≤ 1.00001 * Real.cosh u := by
  have key : ∀ Q u : ℝ, 0 ≤ u → |u - iterR e Q u| ≤ 1e-14 → |Q| ≤ u + 1e-14 := by
    intro Q u hu0 hu
    have ht : 0 ≤ Real.tanh u := by
      rw [Real.tanh_eq_sinh_div_cosh]; exact div_nonneg (Real.sinh_nonneg_iff.2 hu0) (Real.cosh_pos u).le
    have ht1 := Real.tanh_lt_one u
    have a2 : 0 ≤ e * Real.artanh (e * Real.tanh u) := mul_nonneg h0 (Real.artanh_nonneg (mul_nonneg h0 ht))
    have a3 : e * Real.artanh (e * Real.tanh u) ≤ u := by
      have l := iterR_lip h0 (lt_of_le_of_lt h1 (by norm_num)) 0 u 0
      unfold iterR at l
      simp only [Real.tanh_zero, mul_zero, Real.artanh_zero, add_zero, zero_add, sub_zero] at l
      rw [abs_of_nonneg a2, abs_of_nonneg hu0] at l
      have : e ^ 2 ≤ 1 := pow_le_one₀ h0 (h1.trans (by norm_num))
      nlinarith
    obtain ⟨b1, b2⟩ := abs_le.1 hu
    unfold iterR at b1 b2
    rw [abs_le]
    constructor <;> linarith
  have hq : |Q| ≤ |u| + 1e-14 := by
    rcases le_or_gt 0 u with h | h
    · rw [abs_of_nonneg h]; exact key Q u h hu
    · rw [abs_of_neg h, ← abs_neg Q]
      refine key (-Q) (-u) (by linarith) ?_
      rw [← abs_neg]
      convert hu using 2
      unfold iterR
      have t1 := Real.neg_one_lt_tanh u
      have t2 := Real.tanh_lt_one u
      have t3 : e < 1 := lt_of_le_of_lt h1 (by norm_num)
      rw [Real.tanh_neg, mul_neg, artanh_neg' (by nlinarith) (by nlinarith)]
      ring
  rw [← Real.cosh_abs Q, ← Real.cosh_abs u]
  refine ((Real.cosh_le_cosh (y := |u| + 1e-14)).2 (by rw [abs_abs, abs_of_nonneg (a := |u| + 1e-14) (by positivity)]; exact hq)).trans ((cosh_add_le |u|).trans ?_)
  exact mul_le_mul_of_nonneg_right (exp_small (by rw [abs_of_pos (by norm_num)]; norm_num)) (Real.cosh_pos _).le

theorem gd_lip_near {u v δ : ℝ} (h : |u - v| ≤ δ) (hδ : δ ≤ 1e-11) :
    |Real.arctan (Real.sinh u) - Real.arctan (Real.sinh v)| ≤ 1.00001 / Real.cosh v * δ := by
  have hv := Real.cosh_pos v
  have h0 := (abs_nonneg _).trans h
  obtain ⟨h1, h2⟩ := abs_le.1 h
  have := lip_of_deriv (C := 1.00001 / Real.cosh v) (x := u) (y := v) (s := Set.Icc (v - δ) (v + δ)) (convex_Icc _ _)
    (fun z _ => (Real.hasDerivAt_sinh z).arctan)
    (fun z hz => by
      have hz0 := Real.cosh_pos z
      have k := cosh_add_le z (d := v - z)
      rw [add_sub_cancel] at k
      have k2 := k.trans (mul_le_mul_of_nonneg_right (exp_small (d := |v - z|) (le_trans (by
        rw [abs_le]; constructor <;> linarith [hz.1, hz.2]) hδ)) hz0.le)
      rw [abs_of_nonneg (by positivity), add_comm, ← Real.cosh_sq, one_div, inv_mul_eq_div, pow_two, div_mul_cancel_left₀ hz0.ne', inv_eq_one_div,
        div_le_div_iff₀ hz0 hv]
      linarith) ⟨by linarith, by linarith⟩ ⟨by linarith, by linarith⟩
  exact this.trans (mul_le_mul_of_nonneg_left h (by positivity))

/-- The latitude in doubles. -/
theorem lat_near {e β v : ℝ} (hL : AccurateProjection L) {e' b : F64 L} (he : Near e' e 4.5e-16) (h0 : 0 ≤ e) (h1 : e ≤ 0.1)
    (hb : Near b β 1.85e-13) (bβ : |β| ≤ 1.4845) (hv : |v - iterR e (Real.arsinh (Real.tan β)) v| ≤ e ^ 2 * 1e-12) :
    ∃ u : F64 L, TransverseMercator.solveQ e' (Flt.asinh (Flt.tan b)) = .ok u ∧
      Near (Flt.atan (Flt.sinh u)) (Real.arctan (Real.sinh v)) 2.14e-13 ∧
      Real.cos (Real.arctan (Real.sinh v)) ≤ 1.00001 * Real.cos β ∧ 0 < Real.cos (Real.arctan (Real.sinh v)) := by
  have hp := Real.pi_gt_d6
  have hC1 := cos_851 (bβ.trans (by norm_num))
  have hbb := hb.abs_le
  have bb : |(b.toQ : ℝ)| ≤ 1.4846 := by norm_num at *; linarith
  have hp2 : |b.toQ| ≤ (Flt.pi_2 : F64 L).toQ := by
    have := hb.abs_le_rat (q := 1.4846) (by push_cast; norm_num at *; linarith)
    exact this.trans (by rw [show (Flt.pi_2 : F64 L).toQ = B64.pi_2.toQ from rfl, pi_2_fin.2]; norm_num)
  have kq := Rel.asinh hL (tan_rel hL hb.1 hp2) (by norm_num) (by norm_num) (by norm_num) ((tan_851 bb).trans (by norm_num)) (by norm_num)
    (arsinh_85 ((tan_851 bb).trans (by norm_num))) (E := 3.34e-15) (by norm_num)
  have hC0 : 0 < Real.cos β := lt_of_lt_of_le (by norm_num) hC1
  have lip : |Real.arsinh (Real.tan b.toQ) - Real.arsinh (Real.tan β)| ≤ 1.00001 / Real.cos β * |(b.toQ : ℝ) - β| := by
    obtain ⟨k1, k2⟩ := abs_le.1 hb.2
    obtain ⟨g1, g2⟩ := abs_le.1 bβ
    refine lip_of_deriv (f := fun φ => Real.arsinh (Real.tan φ)) (s := Set.Icc (β - 1.85e-13) (β + 1.85e-13)) (convex_Icc _ _)
      (fun z hz => arsinh_tan_deriv ?_ ?_) (fun z hz => ?_) ⟨by linarith, by linarith⟩ ⟨by norm_num, by norm_num⟩
    · have := hz.1; norm_num at *; linarith
    · have := hz.2; norm_num at *; linarith
    · have c1 : Real.cos β - 1.85e-13 ≤ Real.cos z := by
        have h3 := Real.abs_cos_sub_cos_le z β
        have h4 : |z - β| ≤ 1.85e-13 := by rw [abs_le]; constructor <;> linarith [hz.1, hz.2]
        have := abs_le.1 (h3.trans h4)
        linarith
      have c2 : Real.cos β / 1.00001 ≤ Real.cos z := by
        rw [div_le_iff₀ (by norm_num)]; norm_num at *; linarith
      have c3 : 0 < Real.cos z := lt_of_lt_of_le (by positivity) c2
      rw [abs_of_pos (by positivity), div_le_div_iff₀ c3 hC0]
      rw [div_le_iff₀ (by norm_num)] at c2
      linarith
  have hinv : 1 / Real.cos β ≤ 12 := by rw [div_le_iff₀ hC0]; norm_num at *; linarith
  have e1 : 1.00001 / Real.cos β * |(b.toQ : ℝ) - β| ≤ 1.85002e-13 * (1 / Real.cos β) := by
    have := mul_le_mul_of_nonneg_left hb.2 (show 0 ≤ 1.00001 / Real.cos β by positivity)
    refine this.trans ?_
    rw [div_mul_eq_mul_div, ← mul_one_div]
    exact mul_le_mul_of_nonneg_right (by norm_num) (by positivity)
  have kd : |((Flt.asinh (Flt.tan b) : F64 L).toQ : ℝ) - Real.arsinh (Real.tan β)| ≤ 1.85002e-13 * (1 / Real.cos β) + 3.34e-15 := by
    refine (abs_sub_le _ (Real.arsinh (Real.tan b.toQ)) _).trans ?_
    have := kq.2
    linarith
  have ba : |((Flt.asinh (Flt.tan b) : F64 L).toQ : ℝ)| ≤ 3.5 := by
    have := kq.abs_le
    have h3 := arsinh_85 ((tan_851 bb).trans (by norm_num))
    norm_num at *; linarith
  obtain ⟨u, u1, u2, u3, u4⟩ := solveQ_near hL he h0 h1 kq.1 ba
  have hv' : |v - iterR e (Real.arsinh (Real.tan β)) v| ≤ 1e-14 := hv.trans (by norm_num at *; nlinarith)
  have hc := solve_close h0 h1 u4 hv' kd
  have hch := solve_cosh h0 h1 hv'
  rw [cosh_arsinh_tan hC0] at hch
  have hcv := Real.cosh_pos v
  have hcos : Real.cos (Real.arctan (Real.sinh v)) = 1 / Real.cosh v := by
    rw [Real.cos_arctan, add_comm, ← Real.cosh_sq, Real.sqrt_sq hcv.le]
  have hcc : 1 / Real.cosh v ≤ 1.00001 * Real.cos β := by
    rw [div_le_iff₀ hC0] at hch
    rw [div_le_iff₀ hcv]
    linarith
  refine ⟨u, u1, ?_, by rw [hcos]; exact hcc, by rw [hcos]; positivity⟩
  have kg := Near.gd hL (Near.exact u2) (E := 1e-15) (by norm_num at *; linarith) (by norm_num) (by norm_num)
  refine ⟨kg.1, ?_⟩
  have g := gd_lip_near hc (by norm_num at *; linarith)
  have e2 : 1.00001 / Real.cosh v * (1.011 * (1.85002e-13 * (1 / Real.cos β) + 3.34e-15) + 2.11e-14) ≤ 2.13e-13 := by
    have h3 : 1.00001 / Real.cosh v ≤ 1.0001 * Real.cos β := by
      rw [← mul_one_div]
      have := mul_le_mul_of_nonneg_left hcc (show (0 : ℝ) ≤ 1.00001 by norm_num)
      norm_num at *; linarith
    have h4 : 0 ≤ 1.011 * (1.85002e-13 * (1 / Real.cos β) + 3.34e-15) + 2.11e-14 := by positivity
    refine (mul_le_mul_of_nonneg_right h3 h4).trans ?_
    have h5 : Real.cos β * (1 / Real.cos β) = 1 := mul_one_div_cancel hC0.ne'
    have h6 := Real.cos_le_one β
    generalize 1 / Real.cos β = w at *
    have : 1.0001 * Real.cos β * (1.011 * (1.85002e-13 * w + 3.34e-15) + 2.11e-14) =
      1.0001 * 1.011 * 1.85002e-13 * (Real.cos β * w) + 1.0001 * (1.011 * 3.34e-15 + 2.11e-14) * Real.cos β := by ring
    rw [this, h5]
    norm_num at *
    linarith
  refine (abs_sub_le _ _ _).trans ((add_le_add kg.2 (g.trans e2)).trans (by norm_num))

end Geo
