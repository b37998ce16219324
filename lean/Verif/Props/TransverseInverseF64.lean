import Verif.Lemmas.TransverseLatitude
import Verif.Props.TransverseF64
import Verif.Props.CrsF64
import Verif.Props.Conditioning

/-! # C106: the inverse of the transverse Mercator projection and UTM in IEEE arithmetic -/

namespace Geo
open XR Spec
variable {L : Libm}

theorem lon_final {l y L0 lam l' C c P : ℝ} {m i : ℤ} (a1 : |l - (L0 + y - m * (2 * Real.pi))| ≤ 2.5e-15)
    (a2 : |y - lam| ≤ 2.38e-13 / (C * c) + 8e-16) (hi : l' = L0 + lam + i * (2 * Real.pi)) (hC : 0 < C) (hC1 : C ≤ 1) (hc : 0 < c)
    (hc1 : c ≤ 1) (hP : P ≤ 1.00001 * C) (hP0 : 0 ≤ P) :
    |l - l' - ((-m - i : ℤ) : ℝ) * (2 * Real.pi)| * (P * c) ≤ 2.5e-13 := by
  have a3 : |l - l' - ((-m - i : ℤ) : ℝ) * (2 * Real.pi)| ≤ 2.38e-13 / (C * c) + 3.3e-15 := by
    rw [show l - l' - ((-m - i : ℤ) : ℝ) * (2 * Real.pi) = (l - (L0 + y - m * (2 * Real.pi))) + (y - lam) by rw [hi]; push_cast; ring]
    refine (abs_add_le _ _).trans ((add_le_add a1 a2).trans (by norm_num; linarith))
  have h1 : P * c ≤ 1.00001 * (C * c) := by rw [← mul_assoc]; exact mul_le_mul_of_nonneg_right hP hc.le
  have hCc : 0 < C * c := by positivity
  have h2 : C * c ≤ 1 := mul_le_one₀ hC1 hc.le hc1
  refine (mul_le_mul a3 h1 (by positivity) (by positivity)).trans ?_
  have h3 : (2.38e-13 / (C * c) + 3.3e-15) * (1.00001 * (C * c)) = 1.00001 * 2.38e-13 + 1.00001 * 3.3e-15 * (C * c) := by
    field_simp
  rw [h3]
  norm_num at *
  linarith

theorem lon_add_range {x y : F64 L} (hx : InLonRange x) (hy : InLonRange y) :
    |((⟨x + y⟩ : Angle (F64 L)).wrapped.rad).toQ| ≤ (Flt.pi : F64 L).toQ := by
  have hp : (Flt.pi : F64 L).toQ = 884279719003555 / 2 ^ 48 := pi_fin.2
  have hx2 := hx.2
  have hy2 := hy.2
  rw [hp] at hx2 hy2
  have b : |x.toQ + y.toQ| ≤ 6.5 := by
    refine (abs_add_le _ _).trans ?_
    norm_num at *
    linarith
  have bR : |(x.toQ : ℝ) + y.toQ| ≤ 6.5 := by
    have := (Rat.cast_le (K := ℝ)).2 b
    push_cast at this
    exact this
  have hs : Near (x + y) ((x.toQ : ℝ) + y.toQ) 9e-16 :=
    Near.add (Near.exact hx.1) (Near.exact hy.1) (R := 6.6) (by norm_num at *; linarith) (by norm_num) (by norm_num) (by norm_num)
  obtain ⟨n, r1, -⟩ := wrapped_near hs (hs.abs_le_rat (by push_cast; norm_num at *; linarith))
  exact r1

theorem sph_back (hL : AccurateProjection L) {e' x y l0 : F64 L} {e L0 ξ η v : ℝ} (ke : Near e' e 4.5e-16) (h0 : 0 ≤ e) (h1 : e ≤ 0.1)
    (kξ : Near x ξ 1.13e-13) (kη : Near y η 5e-14) (bξ : |ξ| ≤ 1.4845) (bη : |η| ≤ 0.5525) (hl0 : InLonRange l0) (kl0 : Near l0 L0 1.3e-15)
    (hv : |v - iterR e (Real.arsinh (Real.tan (Real.arcsin (Real.sin ξ / Real.cosh η)))) v| ≤ e ^ 2 * 1e-12) :
    let l' := remR (L0 + Real.arcsin (Real.tanh η / Real.cos (Real.arcsin (Real.sin ξ / Real.cosh η))))
    let φ' := Real.arctan (Real.sinh v)
    ∃ (u : F64 L) (n : ℤ), TransverseMercator.solveQ e' (Flt.asinh (Flt.tan (Flt.asin (Flt.sin x / Flt.cosh y)))) = .ok u ∧
      Near (Lat.new (Angle.new (Flt.atan (Flt.sinh u)) RAD)).angle.rad φ' 2.2e-13 ∧
      InLonRange ((⟨⟨l0⟩⟩ : Lon (F64 L)).addAngle (Angle.new (Flt.asin (Flt.tanh y / Flt.cos (Flt.asin (Flt.sin x / Flt.cosh y)))) RAD)).angle.rad ∧
      0 < Real.cos φ' ∧ 0.072 ≤ Real.cos (l' - L0) ∧
      |(((⟨⟨l0⟩⟩ : Lon (F64 L)).addAngle (Angle.new (Flt.asin (Flt.tanh y / Flt.cos (Flt.asin (Flt.sin x / Flt.cosh y)))) RAD)).angle.rad.toQ : ℝ)
        - l' - n * (2 * Real.pi)| * (Real.cos φ' * Real.cos (l' - L0)) ≤ 2.5e-13 := by
  intro l' φ'
  have kβ := sph_near hL kξ kη bξ bη
  obtain ⟨kl, cl0⟩ := sph_lon_near hL kβ kη bξ bη
  obtain ⟨r1, r2, r3, r4, r5, r6, r7, r8, r9, r10⟩ := sph_real bξ bη
  obtain ⟨u, u1, u2, u3, u4⟩ := lat_near hL ke h0 h1 kβ r7 hv
  have hpi := Real.pi_gt_d4
  have hpi2 := Real.pi_lt_d4
  have hC1 := r2.trans r3
  have klr := rad_near kl
  have ld : SameDirection l' _ := remR_same _
  have al : |Real.arcsin (Real.tanh η / Real.cos (Real.arcsin (Real.sin ξ / Real.cosh η)))| ≤ 1.5708 := by
    rw [abs_le]
    have q1 := Real.neg_pi_div_two_le_arcsin (Real.tanh η / Real.cos (Real.arcsin (Real.sin ξ / Real.cosh η)))
    have q2 := Real.arcsin_le_pi_div_two (Real.tanh η / Real.cos (Real.arcsin (Real.sin ξ / Real.cosh η)))
    norm_num at hpi2 ⊢
    constructor <;> linarith
  clear_value l'
  generalize Real.arcsin (Real.tanh η / Real.cos (Real.arcsin (Real.sin ξ / Real.cosh η))) = lam at *
  generalize Real.cos (Real.arcsin (Real.sin ξ / Real.cosh η)) = C at *
  have hC0 : 0 < C := lt_of_lt_of_le (by norm_num) hC1
  have hcl0 : 0 < Real.cos lam := lt_of_lt_of_le (by norm_num) cl0
  have hinv : 2.38e-13 / (C * Real.cos lam) ≤ 1e-10 := by
    rw [div_le_iff₀ (by positivity)]
    have := mul_le_mul hC1 cl0 (by norm_num) hC0.le
    norm_num at *; linarith
  have ry : InLonRange (Angle.new (Flt.asin (Flt.tanh y / Flt.cos (Flt.asin (Flt.sin x / Flt.cosh y)))) RAD : Angle (F64 L)).rad := ⟨klr.1, by
    refine (klr.abs_le_rat (q := 3) ?_).trans ?_
    · push_cast; norm_num at *; linarith
    · rw [show (Flt.pi : F64 L).toQ = B64.pi.toQ from rfl, pi_fin.2]; norm_num⟩
  obtain ⟨m, _, w⟩ := lon_add_near hl0 kl0 ry (by norm_num)
  obtain ⟨i, hi⟩ := ld
  have kφ := (lat_clamp_near (rad_near u2)).2.congr (clampR_id (Real.neg_pi_div_two_lt_arctan _).le (Real.arctan_lt_pi_div_two _).le)
  have cl : Real.cos (l' - L0) = Real.cos lam := by
    rw [hi, show L0 + lam + i * (2 * Real.pi) - L0 = lam + i * (2 * Real.pi) by ring, Real.cos_add_int_mul_two_pi]
  refine ⟨u, -m - i, u1, kφ.mono (by norm_num), ⟨w.1, lon_add_range hl0 ry⟩, u4, by rw [cl]; exact cl0, ?_⟩
  rw [cl]
  exact lon_final (w.2.trans (by norm_num)) klr.2 hi hC0 r4 hcl0 (Real.cos_le_one _) u3 u4.le

/-- Within 600 km of the central meridian, up to 83.5° of latitude. -/
theorem zone_cos {ξ η : ℝ} (bξ : |ξ| ≤ 1.4624) (bη : |η| ≤ 0.1024) :
    0.65 ≤ Real.cos (Real.arcsin (Real.tanh η / Real.cos (Real.arcsin (Real.sin ξ / Real.cosh η)))) := by
  obtain ⟨r1, r2, r3, r4, r5, r6, r7, r8, r9, r10⟩ := sph_real (bξ.trans (by norm_num)) (bη.trans (show (0.1024 : ℝ) ≤ 0.5525 by norm_num))
  have hp := Real.pi_gt_d6
  have hp2 := Real.pi_lt_d6
  have hc : 0.1078 ≤ Real.cos ξ := by
    rw [← Real.cos_abs]
    have h1 : Real.cos 1.4624 ≤ Real.cos |ξ| := Real.cos_le_cos_of_nonneg_of_le_pi (abs_nonneg _) (by norm_num at *; linarith) bξ
    refine le_trans ?_ h1
    rw [← Real.sin_pi_div_two_sub]
    have hy1 : 0.10839 ≤ Real.pi / 2 - 1.4624 := by norm_num at *; linarith
    have hy2 : Real.pi / 2 - 1.4624 ≤ 0.1084 := by norm_num at *; linarith
    generalize Real.pi / 2 - 1.4624 = y at *
    have := Real.sin_gt_sub_cube (x := y) (by norm_num at *; linarith)
    have : y ^ 3 ≤ 0.1084 ^ 3 := pow_le_pow_left₀ (by norm_num at *; linarith) hy2 3
    norm_num at *
    linarith
  have ht : |Real.tanh η| ≤ 0.1024 := by
    have := tanh_lip η 0
    rw [Real.tanh_zero, sub_zero, sub_zero] at this
    linarith
  have hs : Real.sinh η ^ 2 ≤ 0.0149 := by
    have e : Real.sinh η = Real.tanh η * Real.cosh η := by rw [Real.tanh_eq_sinh_div_cosh, div_mul_cancel₀ _ (Real.cosh_pos η).ne']
    have : |Real.sinh η| ≤ 0.1024 * 1.19 := by
      rw [e, abs_mul, abs_of_pos (Real.cosh_pos η)]
      exact mul_le_mul ht r1 (Real.cosh_pos η).le (by norm_num)
    have := pow_le_pow_left₀ (abs_nonneg _) this 2
    rw [sq_abs] at this
    exact this.trans (by norm_num)
  have hcos := Real.cos_sq_add_sin_sq ξ
  have hcosh := Real.cosh_sq η
  have hchp := Real.cosh_pos η
  have hC0 : 0 < Real.cos (Real.arcsin (Real.sin ξ / Real.cosh η)) := lt_of_lt_of_le (lt_of_lt_of_le (by norm_num) r2) r3
  have hm : (Real.cos (Real.arcsin (Real.sin ξ / Real.cosh η)) * Real.cosh η) ^ 2 = Real.cos ξ ^ 2 + Real.sinh η ^ 2 := by
    rw [mul_pow, show Real.cos (Real.arcsin (Real.sin ξ / Real.cosh η)) ^ 2 = 1 - (Real.sin ξ / Real.cosh η) ^ 2 by linarith, div_pow]
    field_simp
    linarith
  have hM : 0 < Real.cos (Real.arcsin (Real.sin ξ / Real.cosh η)) * Real.cosh η := mul_pos hC0 hchp
  rw [r9]
  generalize Real.cos (Real.arcsin (Real.sin ξ / Real.cosh η)) * Real.cosh η = M at *
  rw [le_div_iff₀ hM]
  refine abs_le_of_sq_le_sq' ?_ (by linarith) |>.2
  have := pow_le_pow_left₀ (by norm_num) hc 2
  rw [mul_pow, hm]
  norm_num at *
  linarith
/-- Coordinates, central meridian and scale may themselves be rounded. -/
theorem tm_backward_zone (hL : AccurateProjection L) {el : Ellipsoid (F64 L)} (h : EarthSized el) (hfl : 0.995 * el.a.m.toQ ≤ el.b.m.toQ)
    {l0 φ0 k0 fe fn E N ht : F64 L} {L0 K0 E' N' : ℝ} (hl0 : InLonRange l0) (kl0 : Near l0 L0 1.3e-15)
    (hφ0 : φ0.isFinite) (hb0 : |φ0.toQ| ≤ 1.4836) (hk : Near k0 K0 1.2e-16) (k1 : 0.9 ≤ K0) (k2 : K0 ≤ 1.1)
    (hfe : fe.isFinite) (hfn : fn.isFinite) (hE : Near E E' 2.5e-7) (hN : Near N N' 5e-7)
    (bE : |tmEta' el.a.m.toQ el.b.m.toQ K0 fe.toQ E'| ≤ 0.55) (bN : |tmXi' el.a.m.toQ el.b.m.toQ φ0.toQ K0 fn.toQ N'| ≤ 1.482)
    (s : String) (h' : ℝ) :
    ∃ (l φ : F64 L) (l' φ' : ℝ) (n : ℤ),
      (TransverseMercator.new el ⟨⟨l0⟩⟩ ⟨⟨φ0⟩⟩ k0 ⟨fe⟩ ⟨fn⟩).unproj ⟨⟨E⟩, ⟨N⟩, ⟨ht⟩⟩ = .ok ⟨⟨⟨l⟩⟩, ⟨⟨φ⟩⟩, ⟨ht⟩⟩ ∧
      (tmSpec s el.a.m.toQ el.b.m.toQ L0 φ0.toQ K0 fe.toQ fn.toQ).unproj (enh E' N' h') = .ok (llh l' φ' h') ∧
      Near φ φ' 2.2e-13 ∧ InLonRange l ∧ 0 < Real.cos φ' ∧ 0.072 ≤ Real.cos (l' - L0) ∧
      |(l.toQ : ℝ) - l' - n * (2 * Real.pi)| * (Real.cos φ' * Real.cos (l' - L0)) ≤ 2.5e-13 ∧
      (|tmEta' el.a.m.toQ el.b.m.toQ K0 fe.toQ E'| ≤ 0.1 → |tmXi' el.a.m.toQ el.b.m.toQ φ0.toQ K0 fn.toQ N'| ≤ 1.46 →
        0.65 ≤ Real.cos (l' - L0)) ∧ |φ'| ≤ Real.pi / 2 := by
  obtain ⟨e1, e2, e3⟩ := earth_real h
  have hfl' : 0.995 * (el.a.m.toQ : ℝ) ≤ el.b.m.toQ := by
    have : ((0.995 * el.a.m.toQ : ℚ) : ℝ) ≤ ((el.b.m.toQ : ℚ) : ℝ) := by exact_mod_cast hfl
    push_cast at this; exact this
  have hb0' : (0 : ℝ) < el.b.m.toQ := by linarith
  obtain ⟨kn, bn⟩ := tm_n_near h
  obtain ⟨n0, n1⟩ := nR_flat e1 e2 hfl'
  obtain ⟨p0, p1, p2, p3⟩ := tmp_flat n0 n1
  obtain ⟨ke, ee0, _⟩ := tm_e_near hL.toAccurate h
  have ee1 : Real.sqrt (ecc2 el.a.m.toQ el.b.m.toQ) ≤ 0.1 :=
    Real.sqrt_le_iff.2 ⟨by norm_num, (ecc2_small hb0' e2 hfl').2.trans (by norm_num)⟩
  obtain ⟨kM, bM⟩ := arc_near hL h hφ0 hb0
  obtain ⟨_, D1, _⟩ := kB_near h hk k1 k2
  have kη' := eta_near h hk k1 k2 hE hfe bE
  have kξ' := xi_near h kM bM hk k1 k2 hN hfn bN
  obtain ⟨kc, bc⟩ := inv_cs hL ⟨(tm_p0_near kn bn).1, p0⟩ ⟨(tm_p1_near kn bn).1, p1⟩ ⟨(tm_p2_near kn bn).1, p2⟩ ⟨(tm_p3_near kn bn).1, p3⟩
    kξ' kη' bN bE
  obtain ⟨ks, bs⟩ := inv_sc hL ⟨(tm_p0_near kn bn).1, p0⟩ ⟨(tm_p1_near kn bn).1, p1⟩ ⟨(tm_p2_near kn bn).1, p2⟩ ⟨(tm_p3_near kn bn).1, p3⟩
    kξ' kη' bN bE
  have bξ : |tmXi el.a.m.toQ el.b.m.toQ φ0.toQ K0 fe.toQ fn.toQ E' N'| ≤ 1.4845 := by
    refine (abs_sub _ _).trans ((add_le_add bN bs).trans (by norm_num))
  have bη : |tmEta el.a.m.toQ el.b.m.toQ φ0.toQ K0 fe.toQ fn.toQ E' N'| ≤ 0.5525 := by
    refine (abs_sub _ _).trans ((add_le_add bE bc).trans (by norm_num))
  have kξ : Near _ (tmXi el.a.m.toQ el.b.m.toQ φ0.toQ K0 fe.toQ fn.toQ E' N') 1.13e-13 :=
    Near.sub kξ' ks (R := 1.5) ((add_le_add bξ le_rfl).trans (by norm_num)) (by norm_num) (by norm_num) (by norm_num)
  have kη : Near _ (tmEta el.a.m.toQ el.b.m.toQ φ0.toQ K0 fe.toQ fn.toQ E' N') 5e-14 :=
    Near.sub kη' kc (R := 0.6) ((add_le_add bη le_rfl).trans (by norm_num)) (by norm_num) (by norm_num) (by norm_num)
  have hkB : K0 * tmB el.a.m.toQ el.b.m.toQ ≠ 0 := by linarith
  have hd : |Real.sin (tmXi el.a.m.toQ el.b.m.toQ φ0.toQ K0 fe.toQ fn.toQ E' N')| <
      Real.cosh (tmEta el.a.m.toQ el.b.m.toQ φ0.toQ K0 fe.toQ fn.toQ E' N') := by
    refine lt_of_lt_of_le ?_ (Real.one_le_cosh _)
    rw [← sq_lt_one_iff_abs_lt_one]
    have := Real.sin_sq_add_cos_sq (tmXi el.a.m.toQ el.b.m.toQ φ0.toQ K0 fe.toQ fn.toQ E' N')
    have r2 := cos_851 (bξ.trans (by norm_num))
    norm_num at r2
    nlinarith
  obtain ⟨v, v1, v2⟩ := tmR_unproj (Real.sqrt (ecc2 el.a.m.toQ el.b.m.toQ)) L0 K0 fe.toQ fn.toQ (tmB el.a.m.toQ el.b.m.toQ)
    (tmh0 (nR el.a.m.toQ el.b.m.toQ)) (tmh1 (nR el.a.m.toQ el.b.m.toQ)) (tmh2 (nR el.a.m.toQ el.b.m.toQ)) (tmh3 (nR el.a.m.toQ el.b.m.toQ))
    (tmp0 (nR el.a.m.toQ el.b.m.toQ)) (tmp1 (nR el.a.m.toQ el.b.m.toQ)) (tmp2 (nR el.a.m.toQ el.b.m.toQ)) (tmp3 (nR el.a.m.toQ el.b.m.toQ))
    (tmM0 el.a.m.toQ el.b.m.toQ φ0.toQ) ee0 (sqrt_ecc2_lt hb0' e2) hkB E' N' h'
    (tmXi el.a.m.toQ el.b.m.toQ φ0.toQ K0 fe.toQ fn.toQ E' N') (tmEta el.a.m.toQ el.b.m.toQ φ0.toQ K0 fe.toQ fn.toQ E' N') rfl rfl hd
  obtain ⟨u, n, u1, u2, u3, u4, u5, u6⟩ := sph_back hL ke ee0 ee1 kξ kη bξ bη hl0 kl0 v2
  have hpi := Real.pi_gt_d4
  have hp0 : |(φ0.toQ : ℝ)| ≤ 1.4836 := by have := cast_abs_le hb0; push_cast at this; exact this
  rw [abs_le] at hp0
  norm_num at hpi hp0
  refine ⟨_, _, _, _, n, ?_, ?_, u2, u3, u4, u5, u6, fun g1 g2 => ?_,
    abs_le.2 ⟨(Real.neg_pi_div_two_lt_arctan _).le, (Real.arctan_lt_pi_div_two _).le⟩⟩
  · unfold TransverseMercator.unproj
    refine (congrArg (fun r => r >>= _) u1).trans ?_
    rfl
  · rw [tmSpec_eq hb0' e2 s L0 (by linarith) (by linarith), Projection.unproj, v1]
  · obtain ⟨i, hi⟩ : SameDirection _ _ :=
      remR_same (L0 + Real.arcsin (Real.tanh (tmEta el.a.m.toQ el.b.m.toQ φ0.toQ K0 fe.toQ fn.toQ E' N') / Real.cos (Real.arcsin
        (Real.sin (tmXi el.a.m.toQ el.b.m.toQ φ0.toQ K0 fe.toQ fn.toQ E' N') / Real.cosh (tmEta el.a.m.toQ el.b.m.toQ φ0.toQ K0 fe.toQ fn.toQ E' N')))))
    rw [hi, add_assoc, add_sub_cancel_left, Real.cos_add_int_mul_two_pi]
    exact zone_cos ((abs_sub _ _).trans ((add_le_add g2 bs).trans (by norm_num))) ((abs_sub _ _).trans ((add_le_add g1 bc).trans (by norm_num)))

theorem tm_backward (hL : AccurateProjection L) {el : Ellipsoid (F64 L)} (h : EarthSized el) (hfl : 0.995 * el.a.m.toQ ≤ el.b.m.toQ)
    {l0 φ0 k0 fe fn E N ht : F64 L} {L0 K0 E' N' : ℝ} (hl0 : InLonRange l0) (kl0 : Near l0 L0 1.3e-15)
    (hφ0 : φ0.isFinite) (hb0 : |φ0.toQ| ≤ 1.4836) (hk : Near k0 K0 1.2e-16) (k1 : 0.9 ≤ K0) (k2 : K0 ≤ 1.1)
    (hfe : fe.isFinite) (hfn : fn.isFinite) (hE : Near E E' 2.5e-7) (hN : Near N N' 5e-7)
    (bE : |tmEta' el.a.m.toQ el.b.m.toQ K0 fe.toQ E'| ≤ 0.55) (bN : |tmXi' el.a.m.toQ el.b.m.toQ φ0.toQ K0 fn.toQ N'| ≤ 1.482)
    (s : String) (h' : ℝ) :
    ∃ (l φ : F64 L) (l' φ' : ℝ) (n : ℤ),
      (TransverseMercator.new el ⟨⟨l0⟩⟩ ⟨⟨φ0⟩⟩ k0 ⟨fe⟩ ⟨fn⟩).unproj ⟨⟨E⟩, ⟨N⟩, ⟨ht⟩⟩ = .ok ⟨⟨⟨l⟩⟩, ⟨⟨φ⟩⟩, ⟨ht⟩⟩ ∧
      (tmSpec s el.a.m.toQ el.b.m.toQ L0 φ0.toQ K0 fe.toQ fn.toQ).unproj (enh E' N' h') = .ok (llh l' φ' h') ∧
      Near φ φ' 2.2e-13 ∧ InLonRange l ∧ 0 < Real.cos φ' ∧ 0.072 ≤ Real.cos (l' - L0) ∧
      |(l.toQ : ℝ) - l' - n * (2 * Real.pi)| * (Real.cos φ' * Real.cos (l' - L0)) ≤ 2.5e-13 := by
  obtain ⟨l, φ, l', φ', n, w1, w2, w3, w4, w5, w6, w7, _⟩ := tm_backward_zone hL h hfl (ht := ht) hl0 kl0 hφ0 hb0 hk k1 k2 hfe hfn hE hN bE bN s h'
  exact ⟨l, φ, l', φ', n, w1, w2, w3, w4, w5, w6, w7⟩

theorem tmB_ge {a b : ℝ} (hb : 0 < b) (hab : b ≤ a) : b ≤ tmB a b := by
  have hn := nR_nonneg hb hab
  have h1 : a / (1 + nR a b) = (a + b) / 2 := by
    have : a + b ≠ 0 := by linarith
    have ha : a ≠ 0 := by linarith
    rw [nR, show 1 + (a - b) / (a + b) = 2 * a / (a + b) by field_simp; ring]
    field_simp
  rw [tmB, h1]
  have h2 : b ≤ (a + b) / 2 := by linarith
  have h3 : 1 ≤ 1 + nR a b ^ 2 / 4 + nR a b ^ 4 / 64 := by
    have : 0 ≤ nR a b ^ 2 / 4 + nR a b ^ 4 / 64 := by positivity
    linarith
  nlinarith

theorem tm_range {a b K0 x c d : ℝ} (hb : 0 < b) (hab : b ≤ a) (hk : 0 < K0) (hc : 0 ≤ c) (hx : |x| ≤ c * K0 * b) (hd : c ≤ d) :
    |x / (K0 * tmB a b)| ≤ d := by
  have hB := tmB_ge hb hab
  have : 0 < tmB a b := by linarith
  have hkB : 0 < K0 * tmB a b := by positivity
  rw [abs_div, abs_of_pos hkB, div_le_iff₀ hkB]
  refine hx.trans ?_
  rw [mul_assoc]
  exact mul_le_mul hd (mul_le_mul_of_nonneg_left hB hk.le) (by positivity) (by linarith)

/-- **C106**: with an accurate mathematical library, on an ellipsoid of the size of the Earth and of flattening at most 1/200, for eastings up to
0.54 semi-axes from the false easting and northings up to 1.48 semi-axes from the equator, the loop of `unproj` ends, and the latitude computed in
doubles is within 2.2e-13 rad of the latitude in exact arithmetic. The longitude is within `2.5e-13 / (cos φ · cos (λ - λ₀))`, modulo a turn.
The height is unchanged. -/
theorem C106_inverse (hL : AccurateProjection L) {el : Ellipsoid (F64 L)} (h : EarthSized el) (hfl : 0.995 * el.a.m.toQ ≤ el.b.m.toQ)
    {l0 φ0 k0 fe fn E N ht : F64 L} (hl0 : InLonRange l0) (hφ0 : φ0.isFinite) (hb0 : |φ0.toQ| ≤ 1.4836) (hk : k0.isFinite)
    (hk1 : 0.9 ≤ k0.toQ) (hk2 : k0.toQ ≤ 1.1) (hfe : fe.isFinite) (hfn : fn.isFinite) (hE : E.isFinite) (hN : N.isFinite)
    (bE : |(E.toQ : ℝ) - fe.toQ| ≤ 0.54 * k0.toQ * el.b.m.toQ)
    (bN : |(N.toQ : ℝ) - fn.toQ + k0.toQ * tmM0 el.a.m.toQ el.b.m.toQ φ0.toQ| ≤ 1.48 * k0.toQ * el.b.m.toQ) (s : String) (h' : ℝ) :
    ∃ (l φ : F64 L) (l' φ' : ℝ) (n : ℤ),
      ((ProjectionSpec.transverseMercator ⟨⟨l0⟩⟩ ⟨⟨φ0⟩⟩ k0 ⟨fe⟩ ⟨fn⟩).appliedTo el).unproj ⟨⟨E⟩, ⟨N⟩, ⟨ht⟩⟩ = .ok ⟨⟨⟨l⟩⟩, ⟨⟨φ⟩⟩, ⟨ht⟩⟩ ∧
      (tmSpec s el.a.m.toQ el.b.m.toQ l0.toQ φ0.toQ k0.toQ fe.toQ fn.toQ).unproj (enh E.toQ N.toQ h') = .ok (llh l' φ' h') ∧
      Near φ φ' 2.2e-13 ∧ InLonRange l ∧ 0 < Real.cos φ' ∧ 0.072 ≤ Real.cos (l' - l0.toQ) ∧
      |(l.toQ : ℝ) - l' - n * (2 * Real.pi)| * (Real.cos φ' * Real.cos (l' - l0.toQ)) ≤ 2.5e-13 := by
  obtain ⟨e1, e2, e3⟩ := earth_real h
  have k1 : (0.9 : ℝ) ≤ k0.toQ := by
    have : ((0.9 : ℚ) : ℝ) ≤ ((k0.toQ : ℚ) : ℝ) := by exact_mod_cast hk1
    push_cast at this; exact this
  have k2 : (k0.toQ : ℝ) ≤ 1.1 := by
    have : ((k0.toQ : ℚ) : ℝ) ≤ ((1.1 : ℚ) : ℝ) := by exact_mod_cast hk2
    push_cast at this; exact this
  have k3 : (0 : ℝ) < k0.toQ := lt_of_lt_of_le (by norm_num) k1
  exact tm_backward hL h hfl hl0 ((Near.exact hl0.1).mono (by norm_num)) hφ0 hb0 ((Near.exact hk).mono (by norm_num)) k1 k2 hfe hfn
    ((Near.exact hE).mono (by norm_num)) ((Near.exact hN).mono (by norm_num)) (tm_range (by linarith) e2 k3 (by norm_num) bE (by norm_num))
    (tm_range (by linarith) e2 k3 (by norm_num) bN (by norm_num)) s h'

/-- A national grid: origin on the equator at 0.0625 rad of longitude, unit scale, false easting 500 000 and a false northing
of 8 000 000, and the point with easting 750 000 and northing 8 250 000. -/
example : ∃ (l φ : F64 roundLibm) (l' φ' : ℝ) (n : ℤ),
    ((ProjectionSpec.transverseMercator ⟨⟨Flt.lit 0.0625⟩⟩ ⟨⟨Flt.lit 0⟩⟩ (Flt.lit 1) ⟨Flt.lit 500000⟩ ⟨Flt.lit 8000000⟩).appliedTo
      (Ellipsoid.consts.WGS84 : Ellipsoid (F64 roundLibm))).unproj ⟨⟨Flt.lit 750000⟩, ⟨Flt.lit 8250000⟩, ⟨Flt.lit 0⟩⟩ =
      .ok ⟨⟨⟨l⟩⟩, ⟨⟨φ⟩⟩, ⟨Flt.lit 0⟩⟩ ∧ Near φ φ' 2.2e-13 ∧
    |(l.toQ : ℝ) - l' - n * (2 * Real.pi)| * (Real.cos φ' * Real.cos (l' - 0.0625)) ≤ 2.5e-13 := by
  have v : (B64.isFinite (B64.lit 0.0625) = true ∧ (B64.lit 0.0625).toQ = 0.0625) ∧ (B64.isFinite (B64.lit 0) = true ∧ (B64.lit 0).toQ = 0) ∧
      (B64.isFinite (B64.lit 1) = true ∧ (B64.lit 1).toQ = 1) ∧ (B64.isFinite (B64.lit 500000) = true ∧ (B64.lit 500000).toQ = 500000) ∧
      (B64.isFinite (B64.lit 8000000) = true ∧ (B64.lit 8000000).toQ = 8000000) ∧
      (B64.isFinite (B64.lit 750000) = true ∧ (B64.lit 750000).toQ = 750000) ∧
      (B64.isFinite (B64.lit 8250000) = true ∧ (B64.lit 8250000).toQ = 8250000) ∧ |(0.0625 : ℚ)| ≤ B64.pi.toQ := by decide +kernel
  obtain ⟨⟨f1, v1⟩, ⟨f2, v2⟩, ⟨f3, v3⟩, ⟨f4, v4⟩, ⟨f5, v5⟩, ⟨f6, v6⟩, ⟨f7, v7⟩, i1⟩ := v
  obtain ⟨l, φ, l', φ', n, q1, -, q2, -, -, -, q3⟩ := C106_inverse roundLibm_accurateProjection wgs84_earthSized wgs84_flat.2
    (l0 := B64.lit 0.0625) (φ0 := B64.lit 0) (k0 := B64.lit 1) (fe := B64.lit 500000) (fn := B64.lit 8000000) (E := B64.lit 750000)
    (N := B64.lit 8250000) (ht := B64.lit 0) ⟨f1, by rw [← v1] at i1; exact i1⟩ f2 (by show |(B64.lit 0).toQ| ≤ _; rw [v2]; norm_num) f3
    (by show _ ≤ (B64.lit 1).toQ; rw [v3]; norm_num) (by show (B64.lit 1).toQ ≤ _; rw [v3]; norm_num) f4 f5 f6 f7
    (by
      have := (earth_real (wgs84_earthSized (L := roundLibm))).1
      show |((B64.lit 750000).toQ : ℝ) - ((B64.lit 500000).toQ : ℝ)| ≤ 0.54 * ((B64.lit 1).toQ : ℝ) * _
      rw [v6, v4, v3]
      norm_num; linarith)
    (by
      have := (earth_real (wgs84_earthSized (L := roundLibm))).1
      show |((B64.lit 8250000).toQ : ℝ) - ((B64.lit 8000000).toQ : ℝ) + ((B64.lit 1).toQ : ℝ) * tmM0 _ _ ((B64.lit 0).toQ : ℝ)|
        ≤ 1.48 * ((B64.lit 1).toQ : ℝ) * _
      rw [v7, v5, v3, v2]
      norm_num [tmM0]; linarith) "WGS 84" 0
  refine ⟨l, φ, l', φ', n, q1, q2, ?_⟩
  change |_| * (Real.cos φ' * Real.cos (l' - ((B64.lit 0.0625).toQ : ℝ))) ≤ _ at q3
  rw [v1] at q3
  norm_num at q3 ⊢
  exact q3

/-- **C106**, UTM: in each of the sixty zones, north and south, including the rounding of the central meridian and of the scale. -/
theorem C106_utm (hL : AccurateProjection L) {el : Ellipsoid (F64 L)} (h : EarthSized el) (hfl : 0.995 * el.a.m.toQ ≤ el.b.m.toQ)
    {z : ℕ} (h1 : 1 ≤ z) (h2 : z ≤ 60) {E N ht : F64 L} (hE : E.isFinite) (hN : N.isFinite)
    (bE : |(E.toQ : ℝ) - 500000| ≤ 0.53 * el.b.m.toQ) (s : String) (h' : ℝ) :
    (|(N.toQ : ℝ)| ≤ 1.48 * el.b.m.toQ → ∃ (l φ : F64 L) (l' φ' : ℝ) (n : ℤ),
      ((ProjectionSpec.utmNorth z).appliedTo el).unproj ⟨⟨E⟩, ⟨N⟩, ⟨ht⟩⟩ = .ok ⟨⟨⟨l⟩⟩, ⟨⟨φ⟩⟩, ⟨ht⟩⟩ ∧
      (utmN s el.a.m.toQ el.b.m.toQ z).unproj (enh E.toQ N.toQ h') = .ok (llh l' φ' h') ∧
      Near φ φ' 2.2e-13 ∧ InLonRange l ∧ 0 < Real.cos φ' ∧ 0.072 ≤ Real.cos (l' - (6 * z - 180) * (Real.pi / 180)) ∧
      |(l.toQ : ℝ) - l' - n * (2 * Real.pi)| * (Real.cos φ' * Real.cos (l' - (6 * z - 180) * (Real.pi / 180))) ≤ 2.5e-13) ∧
    (|(N.toQ : ℝ) - 10000000| ≤ 1.48 * el.b.m.toQ → ∃ (l φ : F64 L) (l' φ' : ℝ) (n : ℤ),
      ((ProjectionSpec.utmSouth z).appliedTo el).unproj ⟨⟨E⟩, ⟨N⟩, ⟨ht⟩⟩ = .ok ⟨⟨⟨l⟩⟩, ⟨⟨φ⟩⟩, ⟨ht⟩⟩ ∧
      (utmS s el.a.m.toQ el.b.m.toQ z).unproj (enh E.toQ N.toQ h') = .ok (llh l' φ' h') ∧
      Near φ φ' 2.2e-13 ∧ InLonRange l ∧ 0 < Real.cos φ' ∧ 0.072 ≤ Real.cos (l' - (6 * z - 180) * (Real.pi / 180)) ∧
      |(l.toQ : ℝ) - l' - n * (2 * Real.pi)| * (Real.cos φ' * Real.cos (l' - (6 * z - 180) * (Real.pi / 180))) ≤ 2.5e-13) := by
  obtain ⟨e1, e2, e3⟩ := earth_real h
  obtain ⟨⟨k1, k2⟩, ⟨fe1, fe2⟩, ⟨n1, n2⟩, ⟨s1, s2⟩, ⟨p1, p2⟩⟩ := utm_values
  obtain ⟨c1, c2⟩ := utm_lon0_near (L := L) h1 h2
  have hk : Near (TransverseMercator.UTM_K0 : F64 L) 0.9996 1.2e-16 := by
    refine ⟨k1, ?_⟩
    have := cast_abs_le k2
    push_cast at this
    exact this
  have pp : |(TransverseMercator.UTM_LAT0 : Lat (F64 L)).angle.rad.toQ| ≤ 1.4836 := by
    change |B64.toQ (TransverseMercator.UTM_LAT0 : Lat (F64 noLibm)).angle.rad| ≤ _; rw [p2]; norm_num
  have q1 : (((TransverseMercator.UTM_FE : Length (F64 L)).m.toQ : ℚ) : ℝ) = 500000 := by
    change ((B64.toQ (TransverseMercator.UTM_FE : Length (F64 noLibm)).m : ℚ) : ℝ) = _; rw [fe2]; norm_num
  have q2 : (((TransverseMercator.UTM_FN_NORTH : Length (F64 L)).m.toQ : ℚ) : ℝ) = 0 := by
    change ((B64.toQ (TransverseMercator.UTM_FN_NORTH : Length (F64 noLibm)).m : ℚ) : ℝ) = _; rw [n2]; norm_num
  have q3 : (((TransverseMercator.UTM_FN_SOUTH : Length (F64 L)).m.toQ : ℚ) : ℝ) = 10000000 := by
    change ((B64.toQ (TransverseMercator.UTM_FN_SOUTH : Length (F64 noLibm)).m : ℚ) : ℝ) = _; rw [s2]; norm_num
  have q4 : (((TransverseMercator.UTM_LAT0 : Lat (F64 L)).angle.rad.toQ : ℚ) : ℝ) = 0 := by
    change ((B64.toQ (TransverseMercator.UTM_LAT0 : Lat (F64 noLibm)).angle.rad : ℚ) : ℝ) = _; rw [p2]; norm_num
  have hb : (0 : ℝ) < el.b.m.toQ := by linarith
  have hM : tmM0 el.a.m.toQ el.b.m.toQ 0 = 0 := by simp [tmM0]
  have cc : ∀ x : ℝ, Real.cos (x - remR ((6 * z - 180) * (Real.pi / 180))) = Real.cos (x - (6 * z - 180) * (Real.pi / 180)) :=
    fun x => ((SameDirection.refl x).sub (remR_same _)).cos
  have bE' : |tmEta' el.a.m.toQ el.b.m.toQ 0.9996 (TransverseMercator.UTM_FE : Length (F64 L)).m.toQ E.toQ| ≤ 0.55 := by
    rw [q1]
    refine tm_range hb e2 (by norm_num) (c := 0.54) (by norm_num) (bE.trans ?_) (by norm_num)
    exact mul_le_mul_of_nonneg_right (by norm_num) hb.le
  constructor
  · intro bN
    have bN' : |tmXi' el.a.m.toQ el.b.m.toQ (TransverseMercator.UTM_LAT0 : Lat (F64 L)).angle.rad.toQ 0.9996
        (TransverseMercator.UTM_FN_NORTH : Length (F64 L)).m.toQ N.toQ| ≤ 1.482 := by
      rw [q2, q4, tmXi', hM]
      have bN : |(N.toQ : ℝ) - 0 + 0.9996 * 0| ≤ 1.48 * el.b.m.toQ := by rw [sub_zero, mul_zero, add_zero]; exact bN
      refine tm_range hb e2 (by norm_num) (c := 1.481) (by norm_num) (bN.trans ?_) (by norm_num)
      exact mul_le_mul_of_nonneg_right (by norm_num) hb.le
    have := tm_backward hL h hfl (ht := ht) c1 c2 (φ0 := (TransverseMercator.UTM_LAT0 : Lat (F64 L)).angle.rad) p1 pp hk (by norm_num) (by norm_num)
      (fe := (TransverseMercator.UTM_FE : Length (F64 L)).m) fe1
      (fn := (TransverseMercator.UTM_FN_NORTH : Length (F64 L)).m) n1 ((Near.exact hE).mono (by norm_num)) ((Near.exact hN).mono (by norm_num))
      bE' bN' s h'
    rw [q1, q2, q4, ← utmN_eq] at this
    simp only [cc] at this
    exact this
  · intro bN
    have bN' : |tmXi' el.a.m.toQ el.b.m.toQ (TransverseMercator.UTM_LAT0 : Lat (F64 L)).angle.rad.toQ 0.9996
        (TransverseMercator.UTM_FN_SOUTH : Length (F64 L)).m.toQ N.toQ| ≤ 1.482 := by
      rw [q3, q4, tmXi', hM]
      rw [← add_zero ((N.toQ : ℝ) - 10000000), ← mul_zero (0.9996 : ℝ)] at bN
      refine tm_range hb e2 (by norm_num) (c := 1.481) (by norm_num) (bN.trans ?_) (by norm_num)
      exact mul_le_mul_of_nonneg_right (by norm_num) hb.le
    have := tm_backward hL h hfl (ht := ht) c1 c2 (φ0 := (TransverseMercator.UTM_LAT0 : Lat (F64 L)).angle.rad) p1 pp hk (by norm_num) (by norm_num)
      (fe := (TransverseMercator.UTM_FE : Length (F64 L)).m) fe1
      (fn := (TransverseMercator.UTM_FN_SOUTH : Length (F64 L)).m) s1 ((Near.exact hE).mono (by norm_num)) ((Near.exact hN).mono (by norm_num))
      bE' bN' s h'
    rw [q1, q3, q4, ← utmS_eq] at this
    simp only [cc] at this
    exact this

/-- A point of zone 31 with easting 650 000 and northing 5 400 000, on WGS 84, with the correctly rounded library. -/
example : ∃ (l φ : F64 roundLibm) (l' φ' : ℝ) (n : ℤ),
    ((ProjectionSpec.utmNorth 31).appliedTo (Ellipsoid.consts.WGS84 : Ellipsoid (F64 roundLibm))).unproj
      ⟨⟨Flt.lit 650000⟩, ⟨Flt.lit 5400000⟩, ⟨Flt.lit 0⟩⟩ = .ok ⟨⟨⟨l⟩⟩, ⟨⟨φ⟩⟩, ⟨Flt.lit 0⟩⟩ ∧ Near φ φ' 2.2e-13 ∧
    |(l.toQ : ℝ) - l' - n * (2 * Real.pi)| * (Real.cos φ' * Real.cos (l' - 6 * (Real.pi / 180))) ≤ 2.5e-13 := by
  have v : (B64.isFinite (B64.lit 650000) = true ∧ (B64.lit 650000).toQ = 650000) ∧
      B64.isFinite (B64.lit 5400000) = true ∧ (B64.lit 5400000).toQ = 5400000 := by decide +kernel
  obtain ⟨⟨f1, v1⟩, f2, v2⟩ := v
  have hb := (earth_real (wgs84_earthSized (L := roundLibm))).1
  obtain ⟨l, φ, l', φ', n, q1, -, q2, -, -, -, q3⟩ := (C106_utm roundLibm_accurateProjection wgs84_earthSized wgs84_flat.2 (z := 31) (by norm_num)
    (by norm_num) (E := B64.lit 650000) (N := B64.lit 5400000) (ht := Flt.lit 0) f1 f2
    (by show |((B64.lit 650000).toQ : ℝ) - 500000| ≤ _; rw [v1]; norm_num; linarith) "WGS 84" 0).1
    (by show |((B64.lit 5400000).toQ : ℝ)| ≤ _; rw [v2]; norm_num; linarith)
  refine ⟨l, φ, l', φ', n, q1, q2, ?_⟩
  rw [show (6 * ((31 : ℕ) : ℝ) - 180) = 6 by norm_num] at q3
  exact q3

end Geo
