import Verif.Props.TransverseMercatorRoundTrip

/-!
The transverse Mercator round trip starting in the plane.
-/

namespace Geo.TmRound
open Geo.Spec Geo.Conf

theorem tmp_small {n : ℝ} (h0 : 0 ≤ n) (h1 : n ≤ 1 / 190) :
    |tmp0 n| ≤ 1 / 300 ∧ |tmp1 n| ≤ 1 / 100000 ∧ |tmp2 n| ≤ 1 / 100000 ∧ |tmp3 n| ≤ 1 / 100000 := by
  have p2 : n ^ 2 ≤ 1 / 190 * n := by nlinarith
  have p3 : n ^ 3 ≤ 1 / 190 * n ^ 2 := by nlinarith [sq_nonneg n]
  have p4 : n ^ 4 ≤ 1 / 190 * n ^ 3 := by nlinarith [pow_nonneg h0 3]
  have q2 := pow_nonneg h0 2
  have q3 := pow_nonneg h0 3
  have q4 := pow_nonneg h0 4
  have b0 : |tmp0 n| ≤ 1 / 300 := by rw [abs_le, tmp0]; constructor <;> nlinarith
  have b1 : |tmp1 n| ≤ 1 / 100000 := by rw [abs_le, tmp1]; constructor <;> nlinarith
  have b2 : |tmp2 n| ≤ 1 / 100000 := by rw [abs_le, tmp2]; constructor <;> nlinarith
  have b3 : |tmp3 n| ≤ 1 / 100000 := by rw [abs_le, tmp3]; constructor <;> nlinarith
  exact ⟨b0, b1, b2, b3⟩

theorem hyp_le {η M : ℝ} (h : Real.exp (2 * |η|) ≤ M) (k : ℕ) :
    Real.cosh (2 * k * η) ≤ M ^ k ∧ |Real.sinh (2 * k * η)| ≤ M ^ k := by
  have h1 : Real.exp |2 * k * η| ≤ M ^ k := by
    rw [show |2 * k * η| = k * (2 * |η|) by rw [abs_mul, abs_of_nonneg (by positivity)]; ring, Real.exp_nat_mul]
    exact pow_le_pow_left₀ (Real.exp_pos _).le h k
  have h2 := Real.cosh_add_sinh |2 * k * η|
  have h3 : 0 ≤ Real.sinh |2 * k * η| := Real.sinh_nonneg_iff.2 (abs_nonneg _)
  have h4 := Real.cosh_pos |2 * k * η|
  rw [← Real.cosh_abs, Real.abs_sinh]
  constructor <;> linarith

theorem abs_sin_le_comp {ξ : ℝ} (k : ℕ) (hξ : |ξ| ≤ Real.pi / 2) : |Real.sin (2 * k * ξ)| ≤ 2 * k * (Real.pi / 2 - |ξ|) := by
  have key : ∀ ξ : ℝ, 0 ≤ ξ → ξ ≤ Real.pi / 2 → |Real.sin (2 * k * ξ)| ≤ 2 * k * (Real.pi / 2 - ξ) := by
    intro ξ h0 h1
    rw [show 2 * k * ξ = k * Real.pi - 2 * k * (Real.pi / 2 - ξ) by ring, Real.sin_sub, Real.sin_nat_mul_pi, zero_mul, zero_sub,
      abs_neg, abs_mul]
    have a1 := Real.abs_cos_le_one (k * Real.pi)
    have a2 := Real.abs_sin_le_abs (x := 2 * k * (Real.pi / 2 - ξ))
    have a3 : 0 ≤ 2 * k * (Real.pi / 2 - ξ) := mul_nonneg (by positivity) (by linarith)
    rw [abs_of_nonneg a3] at a2
    have := abs_nonneg (Real.sin (2 * k * (Real.pi / 2 - ξ)))
    nlinarith [abs_nonneg (Real.cos (k * Real.pi))]
  rcases le_total 0 ξ with h | h
  · rw [abs_of_nonneg h] at hξ ⊢; exact key ξ h hξ
  · rw [abs_of_nonpos h] at hξ ⊢
    have := key (-ξ) (by linarith) hξ
    rwa [mul_neg, Real.sin_neg, abs_neg] at this

/-- The inverse series stays within the quarter meridian and changes the other coordinate a little. -/
theorem bwd_front {n ξ η : ℝ} (h0 : 0 ≤ n) (h1 : n ≤ 1 / 190) (hη : Real.exp (2 * |η|) ≤ 3) (hξ : |ξ| < Real.pi / 2) :
    |(bwd n ξ η).1| < Real.pi / 2 ∧ Real.exp (2 * |(bwd n ξ η).2|) ≤ 16 / 5 := by
  obtain ⟨b0, b1, b2, b3⟩ := tmp_small h0 h1
  have hy := fun k : ℕ => hyp_le hη k
  have hs := fun k : ℕ => abs_sin_le_comp k hξ.le
  have d0 : 0 < Real.pi / 2 - |ξ| := by linarith
  have y1 := hy 1; have y2 := hy 2; have y3 := hy 3; have y4 := hy 4
  have s1 := hs 1; have s2 := hs 2; have s3 := hs 3; have s4 := hs 4
  norm_num at y1 y2 y3 y4 s1 s2 s3 s4
  set d := Real.pi / 2 - |ξ| with hd
  have term : ∀ {p s c P S C : ℝ}, |p| ≤ P → |s| ≤ S → 0 < c → c ≤ C → |p * s * c| ≤ P * S * C := by
    intro p s c P S C hp hs hc hC
    rw [abs_mul, abs_mul, abs_of_pos hc]
    have hP := (abs_nonneg p).trans hp
    have hS := (abs_nonneg s).trans hs
    gcongr
  have term' : ∀ {p s c P C : ℝ}, |p| ≤ P → |s| ≤ 1 → |c| ≤ C → |p * s * c| ≤ P * C := by
    intro p s c P C hp hs hc
    rw [abs_mul, abs_mul]
    have hP := (abs_nonneg p).trans hp
    calc |p| * |s| * |c| ≤ P * 1 * C := by gcongr
      _ = P * C := by ring
  constructor
  · have t1 := abs_le.1 (term b0 s1 (Real.cosh_pos _) y1.1)
    have t2 := abs_le.1 (term b1 s2 (Real.cosh_pos _) y2.1)
    have t3 := abs_le.1 (term b2 s3 (Real.cosh_pos _) y3.1)
    have t4 := abs_le.1 (term b3 s4 (Real.cosh_pos _) y4.1)
    have hx : |sSC (tmp0 n) (tmp1 n) (tmp2 n) (tmp3 n) ξ η| < d := by
      rw [abs_lt, sSC]
      constructor <;> nlinarith [t1.1, t1.2, t2.1, t2.2, t3.1, t3.2, t4.1, t4.2]
    have := abs_sub ξ (sSC (tmp0 n) (tmp1 n) (tmp2 n) (tmp3 n) ξ η)
    simp only [bwd]
    linarith
  · have t1 := abs_le.1 (term' b0 (Real.abs_cos_le_one (2 * ξ)) y1.2)
    have t2 := abs_le.1 (term' b1 (Real.abs_cos_le_one (4 * ξ)) y2.2)
    have t3 := abs_le.1 (term' b2 (Real.abs_cos_le_one (6 * ξ)) y3.2)
    have t4 := abs_le.1 (term' b3 (Real.abs_cos_le_one (8 * ξ)) y4.2)
    have hx : |sCS (tmp0 n) (tmp1 n) (tmp2 n) (tmp3 n) ξ η| ≤ 3 / 200 := by
      rw [abs_le, sCS]
      constructor <;> linarith [t1.1, t1.2, t2.1, t2.2, t3.1, t3.2, t4.1, t4.2]
    have hab := abs_sub η (sCS (tmp0 n) (tmp1 n) (tmp2 n) (tmp3 n) ξ η)
    simp only [bwd]
    calc Real.exp (2 * |η - sCS (tmp0 n) (tmp1 n) (tmp2 n) (tmp3 n) ξ η|)
        ≤ Real.exp (2 * |η| + 3 / 100) := Real.exp_le_exp.2 (by linarith)
      _ = Real.exp (2 * |η|) * Real.exp (3 / 100) := Real.exp_add _ _
      _ ≤ 3 * (100 / 97) := by
        have e1 : Real.exp (3 / 100) ≤ 100 / 97 := by
          have := Real.add_one_le_exp (-(3 / 100 : ℝ))
          have h2 := Real.exp_add (3 / 100 : ℝ) (-(3 / 100))
          rw [add_neg_cancel, Real.exp_zero] at h2
          nlinarith [Real.exp_pos (3 / 100 : ℝ)]
        have := Real.exp_pos (3 / 100 : ℝ)
        gcongr
      _ ≤ 16 / 5 := by norm_num

/-- The isometric latitude and the longitude of transverse coordinates give these coordinates again. -/
theorem schreiber_inv {ξ η : ℝ} (hξ : |ξ| < Real.pi / 2) :
    let β := Real.arcsin (Real.sin ξ / Real.cosh η)
    let Δ := Real.arcsin (Real.tanh η / Real.cos β)
    0 < Real.cos Δ ∧ -(Real.pi / 2) < β ∧ β < Real.pi / 2 ∧ xiR (Real.arsinh (Real.tan β)) Δ = ξ ∧
      etaR (Real.arsinh (Real.tan β)) Δ = η := by
  intro β Δ
  obtain ⟨x1, x2⟩ := abs_lt.1 hξ
  have hc : 0 < Real.cos ξ := Real.cos_pos_of_mem_Ioo ⟨x1, x2⟩
  have hch := Real.cosh_pos η
  have hlt : |Real.sin ξ / Real.cosh η| < 1 := by
    have k1 := Real.one_le_cosh η
    have k2 : |Real.sin ξ| < 1 := by
      rw [← sq_lt_one_iff_abs_lt_one]
      nlinarith [Real.sin_sq_add_cos_sq ξ]
    rw [abs_div, abs_of_pos hch, div_lt_one hch]; linarith
  obtain ⟨b1, b2⟩ := abs_lt.1 hlt
  have r1 : -(Real.pi / 2) < β := Real.neg_pi_div_two_lt_arcsin.2 b1
  have r2 : β < Real.pi / 2 := Real.arcsin_lt_pi_div_two.2 b2
  have hcb := cos_pos_of_lat r1 r2
  have hb := sph_bwd (η := η) hc
  have e0 := congrArg (fun v : E3 => v 0) hb
  have e1 := congrArg (fun v : E3 => v 1) hb
  have e2 := congrArg (fun v : E3 => v 2) hb
  simp [sph, sch] at e0 e1 e2
  change Real.cos β * Real.cos Δ = _ at e0
  change Real.cos β * Real.sin Δ = _ at e1
  change Real.sin β = _ at e2
  have hcΔ : 0 < Real.cos Δ := by
    have : 0 < Real.cos β * Real.cos Δ := by rw [e0]; positivity
    exact (pos_iff_pos_of_mul_pos this).1 hcb
  have hcosh : Real.cosh (Real.arsinh (Real.tan β)) = 1 / Real.cos β := by
    rw [Real.cosh_arsinh, ← Real.inv_sqrt_one_add_tan_sq hcb, one_div, inv_inv]
  refine ⟨hcΔ, r1, r2, ?_, ?_⟩
  · rw [xiR, Real.sinh_arsinh, Real.tan_eq_sin_div_cos, div_div, e0, e2]
    rw [div_div_div_cancel_right₀ hch.ne', ← Real.tan_eq_sin_div_cos, Real.arctan_tan x1 x2]
  · rw [etaR, hcosh, div_div_eq_mul_div, div_one, mul_comm, e1, ← Real.tanh_eq_sinh_div_cosh, Real.artanh_tanh]

theorem cosh_ratio (x y : ℝ) : Real.cosh y ≤ Real.cosh x * Real.exp |y - x| := by
  have h := Real.cosh_add x (y - x)
  rw [add_sub_cancel] at h
  rw [h, ← Real.cosh_add_sinh, mul_add, Real.cosh_abs]
  have h1 := Real.cosh_sq x
  have h2 : |Real.sinh x| ≤ Real.cosh x := abs_le_of_sq_le_sq (by linarith) (Real.cosh_pos x).le
  have h3 : Real.sinh x * Real.sinh (y - x) ≤ Real.cosh x * Real.sinh |y - x| := by
    rw [← Real.abs_sinh]
    calc Real.sinh x * Real.sinh (y - x) ≤ |Real.sinh x * Real.sinh (y - x)| := le_abs_self _
      _ = |Real.sinh x| * |Real.sinh (y - x)| := abs_mul _ _
      _ ≤ _ := mul_le_mul_of_nonneg_right h2 (abs_nonneg _)
  linarith

theorem ser_le {n x y : ℝ} (h0 : 0 ≤ n) (h1 : n ≤ 1 / 190) (hy : Real.exp (2 * |y|) ≤ 7 / 2) :
    |serP (tmh0 n) (tmh1 n) (tmh2 n) (tmh3 n) x y| ≤ 21 / 20 ∧ |serQ (tmh0 n) (tmh1 n) (tmh2 n) (tmh3 n) x y| ≤ 1 / 20 := by
  obtain ⟨b0, b1, b2, b3⟩ := tmh_small h0 h1
  have y1 := hyp_le hy 1; have y2 := hyp_le hy 2; have y3 := hyp_le hy 3; have y4 := hyp_le hy 4
  norm_num at y1 y2 y3 y4
  have term : ∀ {h s c H C : ℝ}, |h| ≤ H → |s| ≤ 1 → |c| ≤ C → |h * (s * c)| ≤ H * C := by
    intro h s c H C hh hs hc
    rw [abs_mul, abs_mul]
    have hH := (abs_nonneg h).trans hh
    calc |h| * (|s| * |c|) ≤ H * (1 * C) := by gcongr
      _ = H * C := by ring
  have ac : ∀ {z C : ℝ}, Real.cosh z ≤ C → |Real.cosh z| ≤ C := fun h => by rwa [abs_of_pos (Real.cosh_pos _)]
  constructor
  · have t1 := abs_le.1 (term b0 (Real.abs_cos_le_one (2 * x)) (ac y1.1))
    have t2 := abs_le.1 (term b1 (Real.abs_cos_le_one (4 * x)) (ac y2.1))
    have t3 := abs_le.1 (term b2 (Real.abs_cos_le_one (6 * x)) (ac y3.1))
    have t4 := abs_le.1 (term b3 (Real.abs_cos_le_one (8 * x)) (ac y4.1))
    rw [abs_le, serP]
    constructor <;> linarith [t1.1, t1.2, t2.1, t2.2, t3.1, t3.2, t4.1, t4.2]
  · have t1 := abs_le.1 (term b0 (Real.abs_sin_le_one (2 * x)) y1.2)
    have t2 := abs_le.1 (term b1 (Real.abs_sin_le_one (4 * x)) y2.2)
    have t3 := abs_le.1 (term b2 (Real.abs_sin_le_one (6 * x)) y3.2)
    have t4 := abs_le.1 (term b3 (Real.abs_sin_le_one (8 * x)) y4.2)
    rw [abs_le, serQ]
    constructor <;> linarith [t1.1, t1.2, t2.1, t2.2, t3.1, t3.2, t4.1, t4.2]

/-- The rates by isometric latitude of the plane coordinates. -/
theorem rate_le {n q Δ : ℝ} (h0 : 0 ≤ n) (h1 : n ≤ 1 / 190) (hΔ : 0 < Real.cos Δ)
    (ht : |Real.sin Δ| ≤ 11 / 20 * Real.cosh q) :
    ∃ d1 d2, HasDerivAt (fun q => (fwd n (xiR q Δ) (etaR q Δ)).1) d1 q ∧
      HasDerivAt (fun q => (fwd n (xiR q Δ) (etaR q Δ)).2) d2 q ∧ |d1| ≤ 2 ∧ |d2| ≤ 2 := by
  obtain ⟨s1, s2⟩ := schreiber_rate (hasDerivAt_id q) (hasDerivAt_const q Δ) hΔ
  obtain ⟨t1, t2⟩ := series_rate s1 s2 (tmh0 n) (tmh1 n) (tmh2 n) (tmh3 n)
  refine ⟨_, _, t1, t2, ?_⟩
  simp only [id]
  have hch := Real.cosh_pos q
  have hη : Real.exp (2 * |etaR q Δ|) ≤ 7 / 2 := by
    refine (exp_artanh_le (t := 11 / 20) ?_ (by norm_num)).trans (by norm_num)
    rw [abs_div, abs_of_pos hch, div_le_iff₀ hch]; exact ht
  obtain ⟨p1, p2⟩ := ser_le (x := xiR q Δ) h0 h1 hη
  set P := serP (tmh0 n) (tmh1 n) (tmh2 n) (tmh3 n) (xiR q Δ) (etaR q Δ)
  set Q := serQ (tmh0 n) (tmh1 n) (tmh2 n) (tmh3 n) (xiR q Δ) (etaR q Δ)
  set R := Real.cos Δ ^ 2 + Real.sinh q ^ 2 with hR
  have hR0 : 0 < R := R_pos hΔ
  have hsc := Real.sin_sq_add_cos_sq Δ
  have hcq := Real.cosh_sq q
  have hR1 : 2 / 3 ≤ R := by
    have k1 := Real.one_le_cosh q
    have k2 : Real.sin Δ ^ 2 ≤ (11 / 20 * Real.cosh q) ^ 2 := by
      rw [← sq_abs]; exact pow_le_pow_left₀ (abs_nonneg _) ht 2
    nlinarith
  set A := Real.cosh q * Real.cos Δ / R with hA
  set C := Real.sinh q * Real.sin Δ / R with hC
  have hAC : A ^ 2 + C ^ 2 = 1 / R := by
    rw [hA, hC]
    field_simp
    rw [hR]
    linear_combination Real.sinh q ^ 2 * hsc + Real.cos Δ ^ 2 * hcq
  have h32 : 1 / R ≤ 3 / 2 := by rw [div_le_iff₀ hR0]; linarith
  have a1 : |A| ≤ 5 / 4 := abs_le_of_sq_le_sq (by nlinarith [sq_nonneg C]) (by norm_num)
  have a2 : |C| ≤ 5 / 4 := abs_le_of_sq_le_sq (by nlinarith [sq_nonneg A]) (by norm_num)
  have m : ∀ {u v U V : ℝ}, |u| ≤ U → |v| ≤ V → |u * v| ≤ U * V := fun {u v U V} hu hv => by
    rw [abs_mul]
    exact mul_le_mul hu hv (abs_nonneg _) ((abs_nonneg _).trans hu)
  have m1 := abs_le.1 (m p1 a1)
  have m2 := abs_le.1 (m p2 a2)
  have m3 := abs_le.1 (m p2 a1)
  have m4 := abs_le.1 (m p1 a2)
  constructor
  · rw [abs_le]
    constructor <;> linarith [m1.1, m1.2, m2.1, m2.2]
  · rw [abs_le]
    constructor <;> linarith [m3.1, m3.2, m4.1, m4.2]

/-- A small change of the isometric latitude. -/
theorem fwd_near {n q q' Δ ε : ℝ} (h0 : 0 ≤ n) (h1 : n ≤ 1 / 190) (hΔ : 0 < Real.cos Δ)
    (ht : |Real.sin Δ| ≤ 53 / 100 * Real.cosh q) (hq : |q' - q| ≤ ε) (hε : ε ≤ 1 / 100) :
    |(fwd n (xiR q' Δ) (etaR q' Δ)).1 - (fwd n (xiR q Δ) (etaR q Δ)).1| ≤ 2 * ε ∧
      |(fwd n (xiR q' Δ) (etaR q' Δ)).2 - (fwd n (xiR q Δ) (etaR q Δ)).2| ≤ 2 * ε := by
  have hin : ∀ x ∈ Set.uIcc q q', |Real.sin Δ| ≤ 11 / 20 * Real.cosh x := by
    intro x hx
    have hx1 : |q - x| ≤ 1 / 100 := by
      have := Set.abs_sub_left_of_mem_uIcc hx
      rw [abs_sub_comm]
      linarith
    have h2 := cosh_ratio x q
    have h3 : Real.exp |q - x| ≤ 100 / 99 := by
      have k := Real.add_one_le_exp (-|q - x|)
      have k2 := Real.exp_add |q - x| (-|q - x|)
      rw [add_neg_cancel, Real.exp_zero] at k2
      nlinarith [Real.exp_pos |q - x|]
    have h4 := Real.cosh_pos x
    nlinarith
  have hk := fun x hx => rate_le h0 h1 hΔ (hin x hx)
  have c1 := (convex_uIcc q q').norm_image_sub_le_of_norm_hasDerivWithin_le
    (f := fun q => (fwd n (xiR q Δ) (etaR q Δ)).1) (f' := deriv fun q => (fwd n (xiR q Δ) (etaR q Δ)).1) (C := 2)
    (fun x hx => by
      obtain ⟨d1, d2, e1, e2, _, _⟩ := hk x hx
      exact (e1.differentiableAt.hasDerivAt).hasDerivWithinAt)
    (fun x hx => by
      obtain ⟨d1, d2, e1, e2, e3, _⟩ := hk x hx
      rw [e1.deriv]; exact e3) Set.left_mem_uIcc Set.right_mem_uIcc
  have c2 := (convex_uIcc q q').norm_image_sub_le_of_norm_hasDerivWithin_le
    (f := fun q => (fwd n (xiR q Δ) (etaR q Δ)).2) (f' := deriv fun q => (fwd n (xiR q Δ) (etaR q Δ)).2) (C := 2)
    (fun x hx => by
      obtain ⟨d1, d2, e1, e2, _, _⟩ := hk x hx
      exact (e2.differentiableAt.hasDerivAt).hasDerivWithinAt)
    (fun x hx => by
      obtain ⟨d1, d2, e1, e2, _, e4⟩ := hk x hx
      rw [e2.deriv]; exact e4) Set.left_mem_uIcc Set.right_mem_uIcc
  simp only [Real.norm_eq_abs] at c1 c2
  exact ⟨c1.trans (by linarith), c2.trans (by linarith)⟩

end Geo.TmRound
