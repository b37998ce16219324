import Verif.Lemmas.ProjectedWrite
import Verif.Lemmas.TransverseReverse
import Verif.Lemmas.TransverseReturn
import Verif.Props.ConformalExact
import Verif.Props.TransverseMercatorReverse

/-! # The transverse Mercator projection of a point known approximately -/

namespace Geo

open XR Spec Conf TmRound MerArc

variable {L : Libm}

theorem rate_budget {P Q A C G dq dΔ x y : ℝ} (p1 : |P| ≤ 21 / 20) (p2 : |Q| ≤ 1 / 20) (e1 : 0 ≤ G) (hR : A ^ 2 + C ^ 2 ≤ G ^ 2) (hq : |dq| ≤ x)
    (hΔ : |dΔ| ≤ y) :
    |P * (A * dq + C * dΔ) - Q * (A * dΔ - C * dq)| ≤ 1.2545 / 1.1401 * G * (x + y) ∧
      |Q * (A * dq + C * dΔ) + P * (A * dΔ - C * dq)| ≤ 1.2545 / 1.1401 * G * (x + y) := by
  have x0 := (abs_nonneg _).trans hq
  have y0 := (abs_nonneg _).trans hΔ
  have nn : dq ^ 2 + dΔ ^ 2 ≤ (x + y) ^ 2 := by
    have a1 : dq ^ 2 ≤ x ^ 2 := by rw [← sq_abs]; exact pow_le_pow_left₀ (abs_nonneg _) hq 2
    have a2 : dΔ ^ 2 ≤ y ^ 2 := by rw [← sq_abs]; exact pow_le_pow_left₀ (abs_nonneg _) hΔ 2
    nlinarith
  have prod : (A ^ 2 + C ^ 2) * (dq ^ 2 + dΔ ^ 2) ≤ (G * (x + y)) ^ 2 := by
    rw [mul_pow]
    exact mul_le_mul hR nn (by positivity) (by positivity)
  have b0 : 0 ≤ G * (x + y) := mul_nonneg e1 (by linarith)
  have b1 : |A * dq + C * dΔ| ≤ G * (x + y) := abs_le_of_sq_le_sq (by nlinarith [sq_nonneg (A * dΔ - C * dq)]) b0
  have b2 : |A * dΔ - C * dq| ≤ G * (x + y) := abs_le_of_sq_le_sq (by nlinarith [sq_nonneg (A * dq + C * dΔ)]) b0
  have m : ∀ {u v U V : ℝ}, |u| ≤ U → |v| ≤ V → |u * v| ≤ U * V := fun {u v U V} hu hv => by
    rw [abs_mul]
    exact mul_le_mul hu hv (abs_nonneg _) ((abs_nonneg _).trans hu)
  have fin : 21 / 20 * (G * (x + y)) + 1 / 20 * (G * (x + y)) ≤ 1.2545 / 1.1401 * G * (x + y) := by
    rw [mul_assoc (1.2545 / 1.1401)]
    generalize G * (x + y) = z at *
    norm_num
    linarith
  constructor
  · exact (abs_sub _ _).trans ((add_le_add (m p1 b1) (m p2 b2)).trans fin)
  · exact (abs_add_le _ _).trans ((add_le_add (m p2 b1) (m p1 b2)).trans (by linarith))

/-- The plane coordinates of the Gauss-Schreiber projection and the series, moved by small amounts of isometric latitude and longitude. -/
theorem fwd_move {n q q' Δ Δ' x y : ℝ} (h0 : 0 ≤ n) (h1 : n ≤ 1 / 190) (hc : 0.5 ≤ Real.cos Δ') (hs : |Real.sin Δ'| ≤ 0.4799)
    (hq : |q - q'| ≤ x) (hx : x ≤ 1e-6) (hΔ : |Δ - Δ'| ≤ y) (hy : y ≤ 1e-6) :
    |(fwd n (xiR q Δ) (etaR q Δ)).1 - (fwd n (xiR q' Δ') (etaR q' Δ')).1| ≤ 1.2545 / Real.cosh q' * (x + y) ∧
      |(fwd n (xiR q Δ) (etaR q Δ)).2 - (fwd n (xiR q' Δ') (etaR q' Δ')).2| ≤ 1.2545 / Real.cosh q' * (x + y) := by
  have hch' := Real.cosh_pos q'
  have key : ∀ t ∈ Set.Icc (0 : ℝ) 1, ∃ d1 d2,
      HasDerivAt (fun t => (fwd n (xiR (q' + t * (q - q')) (Δ' + t * (Δ - Δ'))) (etaR (q' + t * (q - q')) (Δ' + t * (Δ - Δ')))).1) d1 t ∧
      HasDerivAt (fun t => (fwd n (xiR (q' + t * (q - q')) (Δ' + t * (Δ - Δ'))) (etaR (q' + t * (q - q')) (Δ' + t * (Δ - Δ')))).2) d2 t ∧
      |d1| ≤ 1.2545 / Real.cosh q' * (x + y) ∧ |d2| ≤ 1.2545 / Real.cosh q' * (x + y) := by
    intro t ht
    have tb : ∀ {z w : ℝ}, |z| ≤ w → |t * z| ≤ w := fun {z w} hz => by
      rw [abs_mul, abs_of_nonneg ht.1]
      have := mul_le_mul ht.2 hz (abs_nonneg _) zero_le_one
      linarith
    have dq : HasDerivAt (fun t => q' + t * (q - q')) (q - q') t := by
      simpa using ((hasDerivAt_id t).mul_const (q - q')).const_add q'
    have dΔ : HasDerivAt (fun t => Δ' + t * (Δ - Δ')) (Δ - Δ') t := by
      simpa using ((hasDerivAt_id t).mul_const (Δ - Δ')).const_add Δ'
    have mΔ : |Δ' + t * (Δ - Δ') - Δ'| ≤ 1e-6 := by rw [add_sub_cancel_left]; exact (tb hΔ).trans hy
    have mq : |q' - (q' + t * (q - q'))| ≤ 1e-6 := by rw [abs_sub_comm, add_sub_cancel_left]; exact (tb hq).trans hx
    have c1 : 0 < Real.cos (Δ' + t * (Δ - Δ')) := by
      have := abs_le.1 ((Real.abs_cos_sub_cos_le (Δ' + t * (Δ - Δ')) Δ').trans mΔ)
      norm_num at *
      linarith
    have c2 : |Real.sin (Δ' + t * (Δ - Δ'))| ≤ 0.48 := by
      have := abs_le.1 ((Real.abs_sin_sub_sin_le (Δ' + t * (Δ - Δ')) Δ').trans mΔ)
      obtain ⟨s1, s2⟩ := abs_le.1 hs
      rw [abs_le]
      norm_num at *
      constructor <;> linarith
    have c3 : Real.cosh q' ≤ 1.0001 * Real.cosh (q' + t * (q - q')) := by
      have k1 := cosh_ratio (q' + t * (q - q')) q'
      have k2 : Real.exp |q' - (q' + t * (q - q'))| ≤ 1.0001 := by
        refine (Real.exp_le_exp.2 mq).trans ?_
        have := Real.exp_bound' (x := 1e-6) (by norm_num) (by norm_num) (n := 1) (by norm_num)
        norm_num at this ⊢
        linarith
      have := mul_le_mul_of_nonneg_left k2 (Real.cosh_pos (q' + t * (q - q'))).le
      linarith
    obtain ⟨s1, s2⟩ := schreiber_rate dq dΔ c1
    obtain ⟨t1, t2⟩ := series_rate s1 s2 (tmh0 n) (tmh1 n) (tmh2 n) (tmh3 n)
    refine ⟨_, _, t1, t2, ?_⟩
    have hη : Real.exp (2 * |etaR (q' + t * (q - q')) (Δ' + t * (Δ - Δ'))|) ≤ 7 / 2 := (eta_range c1 c2).2.1.trans (by norm_num)
    obtain ⟨p1, p2⟩ := ser_le (x := xiR (q' + t * (q - q')) (Δ' + t * (Δ - Δ'))) h0 h1 hη
    generalize serP (tmh0 n) (tmh1 n) (tmh2 n) (tmh3 n) (xiR (q' + t * (q - q')) (Δ' + t * (Δ - Δ'))) (etaR (q' + t * (q - q')) (Δ' + t * (Δ - Δ'))) = P at *
    generalize serQ (tmh0 n) (tmh1 n) (tmh2 n) (tmh3 n) (xiR (q' + t * (q - q')) (Δ' + t * (Δ - Δ'))) (etaR (q' + t * (q - q')) (Δ' + t * (Δ - Δ'))) = Q at *
    have hR0 := R_pos (q := q' + t * (q - q')) c1
    clear t1 t2 s1 s2 dq dΔ mΔ mq hη
    generalize q' + t * (q - q') = u at *
    generalize Δ' + t * (Δ - Δ') = v at *
    have hsc := Real.sin_sq_add_cos_sq v
    have hcq := Real.cosh_sq u
    have hu := Real.one_le_cosh u
    have hR1 : 0.7696 * Real.cosh u ^ 2 ≤ Real.cos v ^ 2 + Real.sinh u ^ 2 := by
      have k2 : Real.sin v ^ 2 ≤ 0.48 ^ 2 := by rw [← sq_abs]; exact pow_le_pow_left₀ (abs_nonneg _) c2 2
      norm_num at k2 ⊢
      nlinarith
    have hAC : (Real.cosh u * Real.cos v / (Real.cos v ^ 2 + Real.sinh u ^ 2)) ^ 2 + (Real.sinh u * Real.sin v / (Real.cos v ^ 2 + Real.sinh u ^ 2)) ^ 2 =
        1 / (Real.cos v ^ 2 + Real.sinh u ^ 2) := by
      field_simp
      linear_combination Real.sinh u ^ 2 * hsc + Real.cos v ^ 2 * hcq
    have hR2 : 1 / (Real.cos v ^ 2 + Real.sinh u ^ 2) ≤ (1.1401 / Real.cosh q') ^ 2 := by
      rw [div_pow, div_le_div_iff₀ hR0 (by positivity)]
      have : Real.cosh q' ^ 2 ≤ (1.0001 * Real.cosh u) ^ 2 := pow_le_pow_left₀ hch'.le c3 2
      norm_num at *
      nlinarith
    rw [← hAC] at hR2
    have e1 : 0 ≤ 1.1401 / Real.cosh q' := by positivity
    have e2 : 1.2545 / Real.cosh q' = 1.2545 / 1.1401 * (1.1401 / Real.cosh q') := by field_simp
    rw [e2]
    generalize 1.1401 / Real.cosh q' = G at e1 hR2 ⊢
    exact rate_budget p1 p2 e1 hR2 hq hΔ
  have c1 := (convex_Icc (0 : ℝ) 1).norm_image_sub_le_of_norm_hasDerivWithin_le
    (f := fun t => (fwd n (xiR (q' + t * (q - q')) (Δ' + t * (Δ - Δ'))) (etaR (q' + t * (q - q')) (Δ' + t * (Δ - Δ')))).1)
    (f' := deriv fun t => (fwd n (xiR (q' + t * (q - q')) (Δ' + t * (Δ - Δ'))) (etaR (q' + t * (q - q')) (Δ' + t * (Δ - Δ')))).1)
    (C := 1.2545 / Real.cosh q' * (x + y))
    (fun x hx => by
      obtain ⟨d1, d2, e1, e2, _, _⟩ := key x hx
      exact (e1.differentiableAt.hasDerivAt).hasDerivWithinAt)
    (fun x hx => by
      obtain ⟨d1, d2, e1, e2, e3, _⟩ := key x hx
      rw [e1.deriv]; exact e3) (Set.left_mem_Icc.2 zero_le_one) (Set.right_mem_Icc.2 zero_le_one)
  have c2 := (convex_Icc (0 : ℝ) 1).norm_image_sub_le_of_norm_hasDerivWithin_le
    (f := fun t => (fwd n (xiR (q' + t * (q - q')) (Δ' + t * (Δ - Δ'))) (etaR (q' + t * (q - q')) (Δ' + t * (Δ - Δ')))).2)
    (f' := deriv fun t => (fwd n (xiR (q' + t * (q - q')) (Δ' + t * (Δ - Δ'))) (etaR (q' + t * (q - q')) (Δ' + t * (Δ - Δ')))).2)
    (C := 1.2545 / Real.cosh q' * (x + y))
    (fun x hx => by
      obtain ⟨d1, d2, e1, e2, _, _⟩ := key x hx
      exact (e2.differentiableAt.hasDerivAt).hasDerivWithinAt)
    (fun x hx => by
      obtain ⟨d1, d2, e1, e2, _, e4⟩ := key x hx
      rw [e2.deriv]; exact e4) (Set.left_mem_Icc.2 zero_le_one) (Set.right_mem_Icc.2 zero_le_one)
  simp only [Real.norm_eq_abs, zero_mul, one_mul, add_zero, add_sub_cancel, sub_zero, abs_one, mul_one] at c1 c2
  exact ⟨c1, c2⟩

theorem iso_cosh_ge {e φ : ℝ} (h0 : 0 ≤ e) (h1 : e ^ 2 ≤ 0.01) (g1 : -(Real.pi / 2) < φ) (g2 : φ < Real.pi / 2) :
    1 / Real.cosh (isoQ e φ) ≤ 1.0105 * Real.cos φ := by
  have hc := cos_pos_of_lat g1 g2
  have he : e ≤ 0.1 := by norm_num at *; nlinarith
  have hw : |wE e φ| ≤ 0.0103 := by
    have k1 : |e * Real.sin φ| ≤ e := by
      rw [abs_mul, abs_of_nonneg h0]
      exact mul_le_of_le_one_right h0 (Real.abs_sin_le_one φ)
    have k2 := abs_artanh_le_div (k1.trans he) (by norm_num) (A := 0.1025) (by norm_num)
    rw [wE, abs_mul, abs_of_nonneg h0]
    exact (mul_le_mul he k2 (abs_nonneg _) (by norm_num)).trans (by norm_num)
  have hd : 0.9897 ≤ dE e φ := by
    have k1 : Real.sin φ * Real.sinh (wE e φ) ≤ |Real.sinh (wE e φ)| := by
      refine (le_abs_self _).trans ?_
      rw [abs_mul]
      exact mul_le_of_le_one_left (abs_nonneg _) (Real.abs_sin_le_one φ)
    have k2 : Real.cosh (wE e φ) - |Real.sinh (wE e φ)| = Real.exp (-|wE e φ|) := by
      rw [← Real.cosh_abs, Real.abs_sinh, Real.cosh_sub_sinh]
    have k3 := Real.add_one_le_exp (-|wE e φ|)
    unfold dE
    norm_num at *
    linarith
  rw [(isoQ_sinh g1 g2).2, one_div_div, div_le_iff₀ (lt_of_lt_of_le (by norm_num) hd)]
  norm_num at *
  nlinarith

theorem tm_write (hL : AccurateProjection L) {el : Ellipsoid (F64 L)} (h : EarthSized el) (hfl : 0.995 * el.a.m.toQ ≤ el.b.m.toQ)
    {l0 φ0 k0 fe fn : F64 L} {L0 K0 l' φ' f g : ℝ} (hl0 : InLonRange l0) (kl0 : Near l0 L0 1.3e-15) (hφ0 : φ0.isFinite) (hb0 : |φ0.toQ| ≤ 1.4836)
    (hk : Near k0 K0 1.2e-16) (hk0 : 0 ≤ K0) (rk : K0 ≤ 1.1) (hfe : fe.isFinite) (hfe1 : |fe.toQ| ≤ 20000000) (hfn : fn.isFinite)
    (hfn1 : |fn.toQ| ≤ 20000000) (hφ : |φ'| ≤ 1.4835) (hcl : 0 < Real.cos (l' - L0)) (hs : |Real.sin (l' - L0)| ≤ 0.4799)
    (hf : f ≤ 1e-9) (hg : g ≤ 1e-9) (s : String) :
    ProjNear (.transverseMercator (TransverseMercator.new el ⟨⟨l0⟩⟩ ⟨⟨φ0⟩⟩ k0 ⟨fe⟩ ⟨fn⟩)) (tmSpec s el.a.m.toQ el.b.m.toQ L0 φ0.toQ K0 fe.toQ fn.toQ)
      l' φ' f g fe.toQ 0 (2.5e-7 + K0 * el.a.m.toQ * (1.27 * (f + g))) (5e-7 + K0 * el.a.m.toQ * (1.27 * (f + g))) := by
  intro l φ ht h' hl hφr hlon klat
  obtain ⟨j, hj⟩ := hlon
  obtain ⟨e1, e2, e3⟩ := earth_real h
  have hflR : 0.995 * (el.a.m.toQ : ℝ) ≤ el.b.m.toQ := by
    have := (Rat.cast_le (K := ℝ)).2 hfl
    push_cast at this
    exact this
  have hb : (0 : ℝ) < el.b.m.toQ := by linarith
  obtain ⟨q0, q1⟩ := ecc2_small hb e2 hflR
  obtain ⟨n0, n1⟩ := nR_flat e1 e2 hflR
  have hp := Real.pi_gt_d4
  obtain ⟨g1, g2⟩ := abs_le.1 hφ
  have i1 : -(Real.pi / 2) < φ' := by norm_num at *; linarith
  have i2 : φ' < Real.pi / 2 := by norm_num at *; linarith
  have hcos : 0.086 ≤ Real.cos φ' := cos_851 (hφ.trans (by norm_num))
  have hcp : 0 < Real.cos φ' := lt_of_lt_of_le (by norm_num) hcos
  have se : 0 ≤ Real.sqrt (ecc2 el.a.m.toQ el.b.m.toQ) := Real.sqrt_nonneg _
  have se1 := sqrt_ecc2_lt hb e2
  obtain ⟨r1, r2, -, -⟩ := isoQ_lip_local se se1 (abs_le.2 ⟨i1.le, i2.le⟩) (le_trans (by norm_num) hcos) klat.2 (hg.trans (by norm_num))
  obtain ⟨r3, r4⟩ := abs_lt.1 r2
  have hφ2 : |(φ.toQ : ℝ)| ≤ 1.4836 := by
    have := klat.abs_le
    norm_num at *
    linarith
  have hφ2' : |φ.toQ| ≤ 1.4836 := by
    have : ((|φ.toQ| : ℚ) : ℝ) ≤ ((1.4836 : ℚ) : ℝ) := by push_cast; exact hφ2
    exact_mod_cast this
  have hd : |((l.toQ : ℝ) - j * (2 * Real.pi) - L0) - (l' - L0)| ≤ f / Real.cos φ' := by
    rw [le_div_iff₀ hcp, mul_comm]
    rw [show (l.toQ : ℝ) - j * (2 * Real.pi) - L0 - (l' - L0) = l.toQ - (l' + j * (2 * Real.pi)) by ring]
    exact hj
  have hd1 : f / Real.cos φ' ≤ 1e-6 := by rw [div_le_iff₀ hcp]; norm_num at *; linarith
  have hx1 : 1.001 / Real.cos φ' * g ≤ 1e-6 := by
    rw [div_mul_eq_mul_div, div_le_iff₀ hcp]; norm_num at *; linarith
  have hc5 : 0.5 ≤ Real.cos (l' - L0) := by
    have k1 := Real.sin_sq_add_cos_sq (l' - L0)
    have k2 : Real.sin (l' - L0) ^ 2 ≤ 0.4799 ^ 2 := by rw [← sq_abs]; exact pow_le_pow_left₀ (abs_nonneg _) hs 2
    by_contra hc
    push Not at hc
    norm_num at hc k2
    nlinarith
  have esin : Real.sin ((l.toQ : ℝ) - L0) = Real.sin ((l.toQ : ℝ) - j * (2 * Real.pi) - L0) := by
    rw [sub_right_comm, Real.sin_sub_int_mul_two_pi]
  have ecos : Real.cos ((l.toQ : ℝ) - L0) = Real.cos ((l.toQ : ℝ) - j * (2 * Real.pi) - L0) := by
    rw [sub_right_comm, Real.cos_sub_int_mul_two_pi]
  have hs2 : |Real.sin ((l.toQ : ℝ) - L0)| ≤ 0.48 := by
    rw [esin]
    have := abs_le.1 ((Real.abs_sin_sub_sin_le _ _).trans (hd.trans hd1))
    obtain ⟨s1, s2⟩ := abs_le.1 hs
    rw [abs_le]
    norm_num at *
    constructor <;> linarith
  have hc2 : 0 < Real.cos ((l.toQ : ℝ) - L0) := by
    rw [ecos]
    have := abs_le.1 ((Real.abs_cos_sub_cos_le _ _).trans (hd.trans hd1))
    norm_num at *
    linarith
  obtain ⟨E, N, E1, N1, w1, w2, kE, kN⟩ := tm_forward hL h (ht := ht) hl hl0 kl0 klat.1 hφ2' hφ0 hb0 hk (abs_le.2 ⟨by linarith, rk⟩) hfe hfe1 hfn hfn1
    hs2 s h'
  have r0 : |(φ0.toQ : ℝ)| ≤ 1.4836 := by have := cast_abs_le hb0; push_cast at this; exact this
  obtain ⟨j1, j2⟩ := abs_le.1 r0
  have hspec := tmSpec_eq hb e2 s L0 (φ0 := φ0.toQ) (by norm_num at *; linarith) (by norm_num at *; linarith) K0 fe.toQ fn.toQ
  rw [hspec, Projection.proj, tmR_proj_iso se se1 _ _ _ r3 r4 hc2] at w2
  simp only [Except.ok.injEq, enh, ENH.mk.injEq, Length.mk.injEq, XR.fin.injEq] at w2
  obtain ⟨rfl, rfl, -⟩ := w2
  have hmove := fwd_move (n := nR el.a.m.toQ el.b.m.toQ) n0 (n1.trans (by norm_num)) hc5 hs r1 hx1 hd hd1
  have heta := eta_range (q := isoQ (Real.sqrt (ecc2 el.a.m.toQ el.b.m.toQ)) φ.toQ) hc2 hs2
  have hsum := sums_le (ξ := xiR (isoQ (Real.sqrt (ecc2 el.a.m.toQ el.b.m.toQ)) φ.toQ) ((l.toQ : ℝ) - L0)) n0 n1 heta.2.1 heta.2.2
  have hper : etaR (isoQ (Real.sqrt (ecc2 el.a.m.toQ el.b.m.toQ)) φ.toQ) ((l.toQ : ℝ) - j * (2 * Real.pi) - L0) =
      etaR (isoQ (Real.sqrt (ecc2 el.a.m.toQ el.b.m.toQ)) φ.toQ) ((l.toQ : ℝ) - L0) := by unfold etaR; rw [esin]
  have hper' : xiR (isoQ (Real.sqrt (ecc2 el.a.m.toQ el.b.m.toQ)) φ.toQ) ((l.toQ : ℝ) - j * (2 * Real.pi) - L0) =
      xiR (isoQ (Real.sqrt (ecc2 el.a.m.toQ el.b.m.toQ)) φ.toQ) ((l.toQ : ℝ) - L0) := by unfold xiR; rw [ecos]
  rw [hper, hper'] at hmove
  obtain ⟨v1, v2⟩ := hmove
  have hch := iso_cosh_ge se (by rw [Real.sq_sqrt q0]; exact q1) i1 i2
  have small : 1.2545 / Real.cosh (isoQ (Real.sqrt (ecc2 el.a.m.toQ el.b.m.toQ)) φ') * (1.001 / Real.cos φ' * g + f / Real.cos φ') ≤ 1.27 * (f + g) := by
    have g0 := klat.nonneg
    have f0 : 0 ≤ f := (mul_nonneg hcp.le (abs_nonneg _)).trans hj
    rw [show 1.2545 / Real.cosh (isoQ (Real.sqrt (ecc2 el.a.m.toQ el.b.m.toQ)) φ') = 1.2545 * (1 / Real.cosh (isoQ (Real.sqrt (ecc2 el.a.m.toQ el.b.m.toQ)) φ')) by ring]
    have k1 : 0 ≤ 1.001 / Real.cos φ' * g + f / Real.cos φ' := by positivity
    have k2 := mul_le_mul_of_nonneg_right (mul_le_mul_of_nonneg_left hch (show (0 : ℝ) ≤ 1.2545 by norm_num)) k1
    refine k2.trans ?_
    rw [show 1.2545 * (1.0105 * Real.cos φ') * (1.001 / Real.cos φ' * g + f / Real.cos φ') = 1.2545 * 1.0105 * (1.001 * g + f) by field_simp]
    norm_num
    linarith
  have hB := (tmB_between hb e2 (q1.trans (by norm_num))).2
  have hB0 := tmB_pos hb e2
  have bM := (arc_near hL h hφ0 hb0).2
  have scale : ∀ {u v : ℝ}, |u - v| ≤ 1.2545 / Real.cosh (isoQ (Real.sqrt (ecc2 el.a.m.toQ el.b.m.toQ)) φ') *
      (1.001 / Real.cos φ' * g + f / Real.cos φ') →
      |K0 * tmB el.a.m.toQ el.b.m.toQ * (u - v)| ≤ K0 * el.a.m.toQ * (1.27 * (f + g)) := fun {u v} hu => by
    rw [abs_mul, abs_of_nonneg (mul_nonneg hk0 hB0.le)]
    exact mul_le_mul (mul_le_mul_of_nonneg_left hB hk0) (hu.trans small) (abs_nonneg _) (mul_nonneg hk0 (by linarith))
  have f1 : |(fe.toQ : ℝ)| ≤ 20000000 := by have := cast_abs_le hfe1; push_cast at this; exact this
  have f2 : |(fn.toQ : ℝ)| ≤ 20000000 := by have := cast_abs_le hfn1; push_cast at this; exact this
  have KB : |K0 * tmB el.a.m.toQ el.b.m.toQ| ≤ 7.7e6 := by
    rw [abs_of_nonneg (mul_nonneg hk0 hB0.le)]
    have := mul_le_mul rk (hB.trans e3) hB0.le (by norm_num)
    norm_num at *
    linarith
  refine ⟨E, N, _, _, 0, w1, by rw [hspec, Projection.proj, tmR_proj_iso se se1 _ _ _ i1 i2 hcl], kE.1, ?_, ?_, fun _ => rfl, ⟨kN.1, ?_⟩, ?_⟩
  · have t := abs_add_le (etaR (isoQ (Real.sqrt (ecc2 el.a.m.toQ el.b.m.toQ)) φ.toQ) ((l.toQ : ℝ) - L0))
      (sCS (tmh0 (nR el.a.m.toQ el.b.m.toQ)) (tmh1 (nR el.a.m.toQ el.b.m.toQ)) (tmh2 (nR el.a.m.toQ el.b.m.toQ)) (tmh3 (nR el.a.m.toQ el.b.m.toQ))
        (xiR (isoQ (Real.sqrt (ecc2 el.a.m.toQ el.b.m.toQ)) φ.toQ) ((l.toQ : ℝ) - L0)) (etaR (isoQ (Real.sqrt (ecc2 el.a.m.toQ el.b.m.toQ)) φ.toQ) ((l.toQ : ℝ) - L0)))
    have t2 := t.trans (add_le_add heta.1 hsum.2)
    have t3 := mul_le_mul KB t2 (abs_nonneg _) (by norm_num)
    rw [← abs_mul] at t3
    refine kE.abs_le.trans ((add_le_add ((abs_add_le _ _).trans (add_le_add f1 t3)) le_rfl).trans (by norm_num))
  · rw [Int.cast_zero, zero_mul, sub_zero]
    refine write_shift kE.2 ?_
    refine le_trans (le_of_eq ?_) (scale v2)
    congr 1
    simp only [tmEast, fwd]
    ring
  · refine write_shift kN.2 ?_
    refine le_trans (le_of_eq ?_) (scale v1)
    congr 1
    simp only [tmNorth, fwd]
    ring
  · have hx : |xiR (isoQ (Real.sqrt (ecc2 el.a.m.toQ el.b.m.toQ)) φ.toQ) ((l.toQ : ℝ) - L0)| ≤ 1.6 := by
      have := Real.pi_lt_d4
      rw [abs_le]
      have := Real.neg_pi_div_two_lt_arctan (Real.sinh (isoQ (Real.sqrt (ecc2 el.a.m.toQ el.b.m.toQ)) φ.toQ) / Real.cos ((l.toQ : ℝ) - L0))
      have := Real.arctan_lt_pi_div_two (Real.sinh (isoQ (Real.sqrt (ecc2 el.a.m.toQ el.b.m.toQ)) φ.toQ) / Real.cos ((l.toQ : ℝ) - L0))
      unfold xiR
      constructor <;> norm_num at * <;> linarith
    have t := abs_add_le (xiR (isoQ (Real.sqrt (ecc2 el.a.m.toQ el.b.m.toQ)) φ.toQ) ((l.toQ : ℝ) - L0))
      (sSC (tmh0 (nR el.a.m.toQ el.b.m.toQ)) (tmh1 (nR el.a.m.toQ el.b.m.toQ)) (tmh2 (nR el.a.m.toQ el.b.m.toQ)) (tmh3 (nR el.a.m.toQ el.b.m.toQ))
        (xiR (isoQ (Real.sqrt (ecc2 el.a.m.toQ el.b.m.toQ)) φ.toQ) ((l.toQ : ℝ) - L0)) (etaR (isoQ (Real.sqrt (ecc2 el.a.m.toQ el.b.m.toQ)) φ.toQ) ((l.toQ : ℝ) - L0)))
    have t2 := t.trans (add_le_add hx hsum.1)
    have t3 := mul_le_mul KB t2 (abs_nonneg _) (by norm_num)
    rw [← abs_mul] at t3
    have t4 := mul_le_mul (abs_le.2 ⟨by linarith, rk⟩ : |K0| ≤ 1.1) bM (abs_nonneg _) (by norm_num)
    rw [← abs_mul] at t4
    have e : ∀ u M : ℝ, (fn.toQ : ℝ) + K0 * (tmB el.a.m.toQ el.b.m.toQ * u - M) = fn.toQ + (K0 * tmB el.a.m.toQ el.b.m.toQ * u - K0 * M) := by
      intro u M; ring
    refine kN.abs_le.trans ((add_le_add (?_ : _ ≤ (20000000 + (7.7e6 * (1.6 + 0.00205) + 1.1 * 1.2e7) : ℝ)) le_rfl).trans ?_)
    · rw [tmNorth, e]
      refine (abs_add_le _ _).trans (add_le_add f2 ((abs_sub _ _).trans (add_le_add t3 (t4.trans ?_))))
      norm_num
    · norm_num

end Geo
