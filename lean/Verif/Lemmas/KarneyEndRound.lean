import Verif.Lemmas.KarneyEnd

/-! The triangle, the latitude and the longitude of the end of the geodesic of the Karney solver in IEEE arithmetic. -/

namespace Geo
open XR Spec KarneyGeodesicSolver
variable {L : Libm} {el : Ellipsoid (F64 L)}

/-- `Angle::wrapped` of an angle of at most twelve radians. -/
theorem wrapped_near_far {x : F64 L} {r ε : ℝ} (h : Near x r ε) (hx : |x.toQ| ≤ 12) : ∃ n : ℤ,
    InLonRange (⟨x⟩ : Angle (F64 L)).wrapped.rad ∧
    Near (⟨x⟩ : Angle (F64 L)).wrapped.rad (r - n * (2 * Real.pi)) (ε + 5e-16) := by
  have hp : (Flt.pi : F64 L).toQ = 884279719003555 / 2 ^ 48 := pi_fin.2
  have ht : (Flt.tau : F64 L).toQ = 884279719003555 / 2 ^ 47 := tau_fin.2
  obtain ⟨n, r1, r2, r3⟩ := remainder_tau_f64 x h.1 (hx.trans (by rw [hp]; norm_num))
  have hw : (⟨x⟩ : Angle (F64 L)).wrapped.rad = remainder x tau := by
    show (if (remainder x tau <. -pi) = true then pi else remainder x tau) = _
    rw [if_neg]
    have e : (remainder x tau <. -pi) = _ :=
      B64.lt_fin r1 (show B64.isFinite (B64.neg B64.pi) = true by rw [B64.neg_finite]; exact pi_fin.1)
    rw [e]
    have h2 : (B64.neg B64.pi).toQ = -B64.pi.toQ := B64.neg_toQ _
    have h3 := (abs_le.1 r3).1
    simp only [decide_eq_true_eq, not_lt]
    exact h2.le.trans h3
  refine ⟨n, ?_, ?_⟩
  · rw [hw]; exact ⟨r1, r3⟩
  · rw [hw]
    refine ⟨r1, ?_⟩
    have hn : |(n : ℝ)| ≤ 2 := by
      have h1 : |(n : ℚ) * (884279719003555 / 2 ^ 47)| < 3 * (884279719003555 / 2 ^ 47) := by
        rw [ht] at r2
        have : (n : ℚ) * (884279719003555 / 2 ^ 47) = x.toQ - (remainder x tau).toQ := by linarith
        rw [this]
        refine (abs_sub _ _).trans_lt ?_
        rw [hp] at r3
        norm_num at *
        linarith
      rw [abs_mul, abs_of_pos (by norm_num : (0 : ℚ) < 884279719003555 / 2 ^ 47)] at h1
      have h2 := lt_of_mul_lt_mul_right h1 (by norm_num)
      have h3 : |n| < 3 := by exact_mod_cast h2
      have h4 : |n| ≤ 2 := by omega
      exact_mod_cast h4
    rw [r2, ht]
    have e : ((x.toQ - n * (884279719003555 / 2 ^ 47) : ℚ) : ℝ) - (r - n * (2 * Real.pi)) =
        ((x.toQ : ℝ) - r) - n * (((884279719003555 / 2 ^ 47 : ℚ) : ℝ) - 2 * Real.pi) := by
      push_cast; ring
    rw [e]
    refine (abs_sub _ _).trans ?_
    rw [abs_mul]
    have := mul_le_mul hn tau_near (abs_nonneg _) zero_le_two
    have := h.2
    norm_num at *
    linarith

/-- The triangle of the end. -/
theorem triE_near (hL : AccurateGeodesic L) {α₀ sg : F64 L} {σ α β ω : ℝ} (h0 : α₀.isFinite) (h1 : |α₀.toQ| ≤ (Flt.pi_2 : F64 L).toQ)
    (ks : Near sg σ 2.7e-14) (hσ : |σ| ≤ 6.8) (hc : 0 ≤ Real.cos β) (b1 : Real.sin β = Real.cos α₀.toQ * Real.sin σ)
    (b2 : Real.cos β * Real.sin α = Real.sin α₀.toQ)
    (b3 : Real.cos β * Real.cos α = Real.cos α₀.toQ * Real.cos σ) (b4 : Real.cos β * Real.cos ω = Real.cos σ)
    (b5 : Real.cos β * Real.sin ω = Real.sin α₀.toQ * Real.sin σ) :
    ∃ (a2 bt om : F64 L) (j k : ℤ), solveTriangleFromE ⟨⟨α₀⟩⟩ ⟨sg⟩ = ⟨⟨⟨α₀⟩⟩, ⟨⟨a2⟩⟩, ⟨bt⟩, ⟨sg⟩, ⟨om⟩⟩ ∧
      InLonRange a2 ∧ Real.cos β * |(a2.toQ : ℝ) - (α + j * (2 * Real.pi))| ≤ 1.26e-13 ∧
      bt.isFinite ∧ |bt.toQ| ≤ (Flt.pi_2 : F64 L).toQ ∧ |Real.cos bt.toQ - Real.cos β| ≤ 4.1e-14 ∧ |Real.sin bt.toQ - Real.sin β| ≤ 4.1e-14 ∧
      om.isFinite ∧ |(om.toQ : ℝ)| ≤ 3.2 ∧ Real.cos β * |(om.toQ : ℝ) - (ω + k * (2 * Real.pi))| ≤ 1.25e-13 := by
  have b0 : |α₀.toQ| ≤ 4 := h1.trans (by rw [show (Flt.pi_2 : F64 L).toQ = 884279719003555 / 2 ^ 49 from pi_2_fin.2]; norm_num)
  have sa := (Near.exact h0).sin hL.toAccurate b0 (E := 2.3e-16) (by norm_num)
  have ca := (Near.exact h0).cos hL.toAccurate b0 (E := 2.3e-16) (by norm_num)
  have ss := ks.sin' hL.toAccurateProjection (E := 2.73e-14) (by norm_num at *; linarith) (by norm_num)
  have cs := ks.cos' hL.toAccurateProjection (E := 2.73e-14) (by norm_num at *; linarith) (by norm_num)
  have u1 := Real.abs_sin_le_one (α₀.toQ : ℝ)
  have u2 := Real.abs_cos_le_one (α₀.toQ : ℝ)
  have u3 := Real.abs_sin_le_one σ
  have u4 := Real.abs_cos_le_one σ
  have q1 := Real.sin_sq_add_cos_sq (α₀.toQ : ℝ)
  have q2 := Real.sin_sq_add_cos_sq σ
  have q3 := Real.sin_sq_add_cos_sq β
  have q4 := Real.sin_sq_add_cos_sq α
  have cc := ca.unit_mul cs u2 u4 (E := 2.77e-14) (by norm_num) (by norm_num) (by norm_num)
  have cS := ca.unit_mul ss u2 u3 (E := 2.77e-14) (by norm_num) (by norm_num) (by norm_num)
  have sS := sa.unit_mul ss u1 u3 (E := 2.77e-14) (by norm_num) (by norm_num) (by norm_num)
  have hR2 : (Real.cos α₀.toQ * Real.cos σ) ^ 2 + Real.sin α₀.toQ ^ 2 = Real.cos β ^ 2 := by
    rw [← b2, ← b3]; linear_combination Real.cos β ^ 2 * q4
  have hy := hyp_near hL cc sa (by rw [hR2]; exact Real.cos_sq_le_one β) (by norm_num) (by norm_num) (E := 2.85e-14) (by norm_num)
  rw [hR2, Real.sqrt_sq hc] at hy
  have hn := hL.hypot_nonneg _ _ cc.1 sa.1
  have hN : (1 : ℝ) ^ 2 ≤ Real.cos β ^ 2 + Real.sin β ^ 2 := by linarith
  have cS' := cS
  rw [← b1] at cS'
  have kβ := Near.atan2 hL.toAccurateInverse hy cS' hc hn one_pos hN (σ := 3.98e-14) (by norm_num) (by norm_num) (by norm_num) (E := 4.1e-14) (by norm_num)
  obtain ⟨p1, p2⟩ := polar_arg (Real.cos β) (Real.sin β)
  rw [show Real.cos β ^ 2 + Real.sin β ^ 2 = 1 by linarith, Real.sqrt_one, one_mul] at p1 p2
  have r0 := hL.atan2_right _ _ hy.1 cS'.1 hn ?_
  swap
  · by_contra hcon
    push Not at hcon
    obtain ⟨g1, g2⟩ := hcon
    have g1' := le_antisymm g1 hn
    have w1 := hy.2
    have w2 := cS'.2
    rw [g1', Rat.cast_zero, zero_sub, abs_neg] at w1
    rw [g2, Rat.cast_zero, zero_sub, abs_neg] at w2
    have v1 : Real.cos β ^ 2 ≤ 0.1 := by
      rw [← sq_abs]
      exact (pow_le_pow_left₀ (abs_nonneg _) w1 2).trans (by norm_num)
    have v2 : Real.sin β ^ 2 ≤ 0.1 := by
      rw [← sq_abs]
      exact (pow_le_pow_left₀ (abs_nonneg _) w2 2).trans (by norm_num)
    norm_num at v1 v2
    linarith
  have cs' : Near (Flt.cos sg) (Real.cos β * Real.cos ω) 2.77e-14 := by rw [b4]; exact cs.mono (by norm_num)
  have sS' := sS
  rw [← b5] at sS'
  obtain ⟨k, f1, f2, f3⟩ := polar_near_all hL cs' sS' hc
  have cc' := cc
  have sa' : Near (Flt.sin α₀) (Real.cos β * Real.sin α) 2.77e-14 := by rw [b2]; exact sa.mono (by norm_num)
  rw [← b3] at cc'
  obtain ⟨j, g1, g2, g3⟩ := polar_near_all hL cc' sa' hc
  have hc1 := Real.cos_le_one β
  set al := Flt.atan2 (Flt.sin α₀) (Flt.cos α₀ * Flt.cos sg) with hal
  have g2' : |al.toQ| ≤ 9 := by
    have : |(al.toQ : ℝ)| ≤ ((9 : ℚ) : ℝ) := g2.trans (by norm_num)
    exact_mod_cast this
  obtain ⟨m, m1, m2⟩ := normalized_near (Near.exact g1) g2'
  refine ⟨(⟨al⟩ : Angle (F64 L)).normalized.rad, _, _, j - m, k, by simp only [solveTriangleFromE, Cplx.arg, Cplx.abs, rad_f64]; rfl,
    ⟨m2.1, m1⟩, ?_, kβ.1, r0, ?_, ?_, f1, f2, f3.trans (by norm_num at hc1 ⊢; linarith)⟩
  · have m3 := m2.2
    have e : (((⟨al⟩ : Angle (F64 L)).normalized.rad).toQ : ℝ) - (α + ((j - m : ℤ) : ℝ) * (2 * Real.pi)) =
        ((((⟨al⟩ : Angle (F64 L)).normalized.rad).toQ : ℝ) - (al.toQ - m * (2 * Real.pi))) + (al.toQ - (α + j * (2 * Real.pi))) := by
      push_cast; ring
    rw [e]
    have t := mul_le_mul_of_nonneg_left (abs_add_le ((((⟨al⟩ : Angle (F64 L)).normalized.rad).toQ : ℝ) - (al.toQ - m * (2 * Real.pi))) (al.toQ - (α + j * (2 * Real.pi)))) hc
    rw [mul_add] at t
    have t2 := mul_le_mul hc1 m3 (abs_nonneg _) zero_le_one
    norm_num at t t2 g3 hc1 ⊢
    linarith
  · have := (abs_cos_sub_le _ _).trans kβ.2
    rwa [p1] at this
  · have := (abs_sin_sub_le _ _).trans kβ.2
    rwa [p2] at this

section
variable (h : EarthSized el) (hfl : 0.995 * el.a.m.toQ ≤ el.b.m.toQ)
  (hf : Near el.f (((el.a.m.toQ : ℝ) - el.b.m.toQ) / el.a.m.toQ) 3e-16)
include h hfl hf

/-- The geodetic latitude of the end. -/
theorem lat_end_near (hL : AccurateGeodesic L) {bt : F64 L} (hb : bt.isFinite) (hb2 : |bt.toQ| ≤ (Flt.pi_2 : F64 L).toQ) :
    (Lat.new (⟨Flt.atan (Flt.tan bt / (1 - el.f))⟩ : Angle (F64 L))).angle.rad.isFinite ∧
    |(Lat.new (⟨Flt.atan (Flt.tan bt / (1 - el.f))⟩ : Angle (F64 L))).angle.rad.toQ| ≤ (Flt.pi_2 : F64 L).toQ ∧
    |((Lat.new (⟨Flt.atan (Flt.tan bt / (1 - el.f))⟩ : Angle (F64 L))).angle.rad.toQ : ℝ) -
      Complex.arg ⟨el.b.m.toQ / el.a.m.toQ * Real.cos bt.toQ, Real.sin bt.toQ⟩| ≤ 1.3e-15 := by
  obtain ⟨h1, h2, h3⟩ := earth_real h
  obtain ⟨b1, b2⟩ := ba_bound h hfl
  have hb2' : |(bt.toQ : ℝ)| ≤ Real.pi / 2 - 1e-17 := by
    have t := cast_abs_le (hb2.trans (le_of_eq (show (Flt.pi_2 : F64 L).toQ = 884279719003555 / 2 ^ 49 from pi_2_fin.2)))
    have := Real.pi_gt_d20
    push_cast at t
    norm_num at *
    linarith
  have hp := Real.pi_pos
  have hp4 := Real.pi_le_four
  have hcos : 1e-18 ≤ Real.cos bt.toQ := by
    rw [← Real.cos_abs, ← Real.sin_pi_div_two_sub]
    refine le_trans ?_ (Real.mul_le_sin (by norm_num at hb2' ⊢; linarith) (by linarith [abs_nonneg (bt.toQ : ℝ)]))
    have : (1 : ℝ) / 2 ≤ 2 / Real.pi := by rw [div_le_div_iff₀ two_pos hp]; linarith
    have := mul_le_mul this (show (1e-17 : ℝ) ≤ Real.pi / 2 - |(bt.toQ : ℝ)| by linarith) (by norm_num) (by positivity)
    refine le_trans (by norm_num) this
  have hc0 : 0 < Real.cos bt.toQ := lt_of_lt_of_le (by norm_num) hcos
  have k0 := Rel.div (tan_rel hL.toAccurateProjection hb hb2) (one_sub_f h hfl hf) (C := 0.9) (D := 9.9e-16) (H := 1.1e-69)
    (by rw [abs_of_nonneg (by linarith)]; norm_num at *; linarith) (by norm_num) ?_ (by norm_num) (by norm_num) (by norm_num) (by norm_num)
    (by norm_num) (by norm_num) (by norm_num) (by norm_num)
  swap
  · rw [abs_div, abs_of_nonneg (show (0 : ℝ) ≤ el.b.m.toQ / el.a.m.toQ by linarith), div_le_iff₀ (by linarith), Real.tan_eq_sin_div_cos, abs_div,
      abs_of_pos hc0, div_le_iff₀ hc0]
    have := Real.abs_sin_le_one (bt.toQ : ℝ)
    have := mul_le_mul b1 hcos (by norm_num) (by linarith)
    norm_num at *
    linarith
  have k1 := k0.atan hL.toAccurateProjection (by norm_num) (by norm_num) (by norm_num) (E := 1.21e-15) (by norm_num)
  have hba : (0 : ℝ) < el.b.m.toQ / el.a.m.toQ := by linarith
  have ht : Real.arctan (Real.tan bt.toQ / ((el.b.m.toQ : ℝ) / el.a.m.toQ)) =
      Complex.arg ⟨el.b.m.toQ / el.a.m.toQ * Real.cos bt.toQ, Real.sin bt.toQ⟩ := by
    have := lat_of_tan (a := el.a.m.toQ) (b := el.b.m.toQ) (by linarith) (by linarith) hc0.le
    rw [tan_fin hc0.ne', div_fin _ hba.ne', atan_fin] at this
    exact XR.fin.inj this
  rw [ht] at k1
  obtain ⟨-, p1, p2, -⟩ := reduced_arg (a := el.a.m.toQ) (b := el.b.m.toQ) (by linarith) (by linarith) hc0.le
  obtain ⟨w1, w2⟩ := lat_clamp_near k1
  rw [clampR_id p1 p2] at w2
  refine ⟨w2.1, ?_, w2.2.trans (by norm_num)⟩
  rcases inLatRange_clamp (Flt.atan (Flt.tan bt / (1 - el.f))) with hn | ⟨_, r1, r2⟩
  · exfalso
    have e : (Lat.new (⟨Flt.atan (Flt.tan bt / (1 - el.f))⟩ : Angle (F64 L))).angle.rad = clamp (Flt.atan (Flt.tan bt / (1 - el.f))) (-Flt.pi_2) Flt.pi_2 := rfl
    have w3 := w2.1
    change (clamp (Flt.atan (Flt.tan bt / (1 - el.f))) (-Flt.pi_2) Flt.pi_2 : F64 L).isFinite at w3
    rw [hn] at w3
    cases w3
  · exact abs_le.2 ⟨r1, r2⟩

/-- The longitude of the end. -/
theorem lon_end_near {l w1 om sa i1 i2 : F64 L} {W1 s0 I1 I2 : ℝ} (hl : InLonRange l) (kw : Near w1 W1 1e-14) (hw : |W1| ≤ 3.2)
    (ho : om.isFinite) (ho2 : |(om.toQ : ℝ)| ≤ 3.2) (ks : Near sa s0 2.3e-16) (hs : |s0| ≤ 1)
    (k1 : Near i1 I1 1.65e-14) (h1 : |I1| ≤ 3.3) (k2 : Near i2 I2 4.4e-14) (h2 : |I2| ≤ 6.9) :
    ∃ n : ℤ, InLonRange ((⟨⟨l⟩⟩ : Lon (F64 L)).addAngle ((⟨om⟩ - ⟨el.f * sa * i2⟩ : Angle (F64 L)) - (⟨w1⟩ - ⟨el.f * sa * i1⟩))).angle.rad ∧
      |(((⟨⟨l⟩⟩ : Lon (F64 L)).addAngle ((⟨om⟩ - ⟨el.f * sa * i2⟩ : Angle (F64 L)) - (⟨w1⟩ - ⟨el.f * sa * i1⟩))).angle.rad.toQ : ℝ) -
        (l.toQ + ((om.toQ - W1) - ((el.a.m.toQ : ℝ) - el.b.m.toQ) / el.a.m.toQ * s0 * (I2 - I1)) + n * (2 * Real.pi))| ≤ 1.8e-14 := by
  obtain ⟨b1, b2⟩ := ba_bound h hfl
  obtain ⟨e1, e2, e3⟩ := earth_real h
  have a0 : (0 : ℝ) < el.a.m.toQ := by linarith
  have hF : |((el.a.m.toQ : ℝ) - el.b.m.toQ) / el.a.m.toQ| ≤ 0.005 := by
    rw [sub_div, div_self a0.ne', abs_of_nonneg (by linarith)]
    norm_num at *
    linarith
  set F := ((el.a.m.toQ : ℝ) - el.b.m.toQ) / el.a.m.toQ with hFd
  have m := Near.mul hf ks hF hs (R := 0.0051) (E := 3.1e-16) (by norm_num) (by norm_num) (by norm_num) (by norm_num)
  have hm : |F * s0| ≤ 0.005 := by
    rw [abs_mul]
    exact (mul_le_mul hF hs (abs_nonneg _) (by norm_num)).trans (by norm_num)
  have m1 := Near.mul m k1 hm h1 (R := 0.0166) (E := 1.2e-15) (by norm_num) (by norm_num) (by norm_num) (by norm_num)
  have m2 := Near.mul m k2 hm h2 (R := 0.0346) (E := 2.6e-15) (by norm_num) (by norm_num) (by norm_num) (by norm_num)
  have hm1 : |F * s0 * I1| ≤ 0.0165 := by
    rw [abs_mul]
    exact (mul_le_mul hm h1 (abs_nonneg _) (by norm_num)).trans (by norm_num)
  have hm2 : |F * s0 * I2| ≤ 0.0345 := by
    rw [abs_mul]
    exact (mul_le_mul hm h2 (abs_nonneg _) (by norm_num)).trans (by norm_num)
  have c1 := abs_sub W1 (F * s0 * I1)
  have c2 := abs_sub (om.toQ : ℝ) (F * s0 * I2)
  have n1 := Near.sub kw m1 (R := 3.22) (E := 1.165e-14) (by norm_num at *; linarith) (by norm_num) (by norm_num) (by norm_num)
  have n2 := Near.sub (Near.exact ho) m2 (R := 3.24) (E := 3e-15) (by norm_num at *; linarith) (by norm_num) (by norm_num) (by norm_num)
  have c3 := abs_sub ((om.toQ : ℝ) - F * s0 * I2) (W1 - F * s0 * I1)
  have n3 := Near.sub n2 n1 (R := 6.46) (E := 1.55e-14) (by norm_num at *; linarith) (by norm_num) (by norm_num) (by norm_num)
  have hπ : (Flt.pi : F64 L).toQ = 884279719003555 / 2 ^ 48 := pi_fin.2
  have b : |(l.toQ : ℝ)| ≤ 3.15 := by
    have := cast_abs_le (hl.2.trans (show (Flt.pi : F64 L).toQ ≤ 3.15 by rw [hπ]; norm_num))
    push_cast at this; exact this
  have c4 := abs_add_le (l.toQ : ℝ) (((om.toQ : ℝ) - F * s0 * I2) - (W1 - F * s0 * I1))
  have n4 := Near.add (Near.exact hl.1) n3 (R := 9.62) (E := 1.7e-14) (by norm_num at *; linarith) (by norm_num) (by norm_num) (by norm_num)
  obtain ⟨n, r1, r2⟩ := wrapped_near_far n4 (n4.abs_le_rat (by push_cast; norm_num at *; linarith))
  refine ⟨-n, r1, ?_⟩
  refine le_trans (le_of_eq ?_) (r2.2.trans (by norm_num))
  congr 1
  show _ = ((((⟨l + (om - el.f * sa * i2 - (w1 - el.f * sa * i1))⟩ : Angle (F64 L)).wrapped.rad).toQ : ℚ) : ℝ) - _
  have e : ((⟨⟨l⟩⟩ : Lon (F64 L)).addAngle ((⟨om⟩ - ⟨el.f * sa * i2⟩ : Angle (F64 L)) - (⟨w1⟩ - ⟨el.f * sa * i1⟩))).angle.rad =
    (⟨l + (om - el.f * sa * i2 - (w1 - el.f * sa * i1))⟩ : Angle (F64 L)).wrapped.rad := rfl
  rw [e]
  push_cast
  ring

end

end Geo
