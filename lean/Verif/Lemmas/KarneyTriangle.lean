import Verif.Lemmas.KarneyLongitude
import Verif.Props.GeodesicExact

/-! The spherical triangles of the Karney solver in IEEE arithmetic. -/

namespace Geo
open XR Spec KarneyGeodesicSolver
variable {L : Libm} {el : Ellipsoid (F64 L)}

theorem rad_f64 (x : F64 L) : Angle.new x RAD = ⟨x⟩ := by
  refine congrArg Angle.mk ?_
  show B64.mul x (B64.div (B64.lit 1) (B64.lit 1)) = x
  rw [show B64.div (B64.lit 1) (B64.lit 1) = B64.lit 1 by decide +kernel]
  exact B64.mul_one x

/-- `normalized` leaves angles up to a right angle alone. -/
theorem normalized_id {x : F64 L} (h : x.isFinite) (hx : |x.toQ| ≤ (Flt.pi_2 : F64 L).toQ) :
    (⟨x⟩ : Angle (F64 L)).normalized.rad.isFinite ∧ (⟨x⟩ : Angle (F64 L)).normalized.rad.toQ = x.toQ := by
  have hp : (Flt.pi : F64 L).toQ = 884279719003555 / 2 ^ 48 := pi_fin.2
  have hp2 : (Flt.pi_2 : F64 L).toQ = 884279719003555 / 2 ^ 49 := pi_2_fin.2
  have ht : (Flt.tau : F64 L).toQ = 884279719003555 / 2 ^ 47 := tau_fin.2
  obtain ⟨n, r1, r2, r3⟩ := remainder_tau_f64 x h (hx.trans (by rw [hp, hp2]; norm_num))
  have hn : n = 0 := by
    have h1 : |(n : ℚ) * (884279719003555 / 2 ^ 47)| < 884279719003555 / 2 ^ 47 := by
      rw [ht] at r2
      have : (n : ℚ) * (884279719003555 / 2 ^ 47) = x.toQ - (remainder x tau).toQ := by linarith
      rw [this]
      refine (abs_sub _ _).trans_lt ?_
      rw [hp] at r3
      rw [hp2] at hx
      norm_num at *
      linarith
    rw [abs_mul, abs_of_pos (by norm_num : (0 : ℚ) < 884279719003555 / 2 ^ 47)] at h1
    have h2 : |(n : ℚ)| < 1 := by norm_num at h1 ⊢; linarith
    have h3 : |n| < 1 := by exact_mod_cast h2
    exact Int.abs_lt_one_iff.1 h3
  rw [hn] at r2
  have r2' : (remainder x tau).toQ = x.toQ := by rw [r2]; simp
  have hf : B64.isFinite (B64.neg B64.pi) = true := by rw [B64.neg_finite]; exact pi_fin.1
  have e : (remainder x tau <=. -pi) = decide ((remainder x tau).toQ ≤ (B64.neg B64.pi).toQ) := B64.le_fin r1 hf
  have hc : ¬ (remainder x tau).toQ ≤ (B64.neg B64.pi).toQ := by
    rw [B64.neg_toQ, not_le, r2']
    have h1 := (abs_le.1 hx).1
    have hp' : B64.pi.toQ = 884279719003555 / 2 ^ 48 := pi_fin.2
    rw [hp2] at h1
    rw [hp']
    norm_num at *
    linarith
  have e2 : (⟨x⟩ : Angle (F64 L)).normalized.rad = remainder x tau := by
    show (if (remainder x tau <=. -pi) = true then pi else remainder x tau : F64 L) = _
    rw [e, decide_eq_false hc]
    simp
  rw [e2]
  exact ⟨r1, r2'⟩

/-! ### The reduced latitude -/

theorem Spec.Rel.atan (hL : AccurateProjection L) {x : F64 L} {r δ η E : ℝ} (k : Rel x r δ η) (h0 : 0 ≤ δ) (h1 : δ ≤ 1e-12) 
    (e1 : η ≤ 1e-60) (hE : 0.501 * δ + 7.1e-16 ≤ E) : Near (Flt.atan x) (Real.arctan r) E := by
  have hD : |Real.arctan x.toQ - Real.arctan r| ≤ 0.501 * δ + 1e-18 := by
    by_cases hr : 1e-40 ≤ |r|
    · have k' := k.absorb hr (D := δ + 1e-20) (by linarith) (by rw [add_sub_cancel_left]; norm_num at *; linarith)
      have := k'.2
      rw [add_zero] at this
      refine (arctan_rel this (by linarith) (by norm_num at *; linarith)).trans ?_
      norm_num at *
      linarith
    · refine (arctan_lip _ _).trans (k.2.trans ?_)
      have := mul_le_mul h1 (not_le.1 hr).le (abs_nonneg _) (by norm_num)
      norm_num at *
      linarith
  refine Near.of_fn (f := Real.arctan) (hL.atan _ k.1) hD (A := 1.5708) ?_ (by norm_num) (k := 4.45e-16) (by norm_num) ?_
  · have := Real.pi_lt_d4
    exact _root_.abs_le.2 ⟨by have := Real.neg_pi_div_two_lt_arctan r; norm_num at *; linarith, by have := Real.arctan_lt_pi_div_two r; norm_num at *; linarith⟩
  · norm_num at *
    linarith

section
variable (h : EarthSized el) (hfl : 0.995 * el.a.m.toQ ≤ el.b.m.toQ)
  (hf : Near el.f (((el.a.m.toQ : ℝ) - el.b.m.toQ) / el.a.m.toQ) 3e-16)
include h hfl

theorem ba_bound : (0.995 : ℝ) ≤ el.b.m.toQ / el.a.m.toQ ∧ (el.b.m.toQ : ℝ) / el.a.m.toQ ≤ 1 := by
  obtain ⟨h1, h2, h3⟩ := earth_real h
  have a0 : (0 : ℝ) < el.a.m.toQ := by linarith
  have := (Rat.cast_le (K := ℝ)).2 hfl
  push_cast at this
  exact ⟨by rw [le_div_iff₀ a0]; exact this, by rw [div_le_one a0]; exact h2⟩

include hf in
theorem one_sub_f : Rel (1 - el.f) ((el.b.m.toQ : ℝ) / el.a.m.toQ) 4.25e-16 0 := by
  obtain ⟨h1, h2, h3⟩ := earth_real h
  obtain ⟨b1, b2⟩ := ba_bound h hfl
  have a0 : (0 : ℝ) < el.a.m.toQ := by linarith
  have e : 1 - ((el.a.m.toQ : ℝ) - el.b.m.toQ) / el.a.m.toQ = (el.b.m.toQ : ℝ) / el.a.m.toQ := by field_simp; ring
  have k := Near.sub int_1 hf (R := 1.0001) (E := 4.21e-16)
    (by rw [e, abs_of_nonneg (by linarith)]; norm_num at *; linarith) (by norm_num) (by norm_num) (by norm_num)
  rw [e] at k
  exact k.toRel (B := 0.995) (by rw [abs_of_nonneg (by linarith)]; exact b1) (by norm_num) (by norm_num)

include hf in
theorem beta_near (hL : AccurateGeodesic L) {φ : F64 L} (hφ : φ.isFinite) (hφ2 : |φ.toQ| ≤ (Flt.pi_2 : F64 L).toQ) (hc : 0.1 ≤ Real.cos φ.toQ) :
    Near (el.reducedLatitude ⟨⟨φ⟩⟩).rad (Real.arctan (el.b.m.toQ / el.a.m.toQ * Real.tan φ.toQ)) 1.21e-15 := by
  obtain ⟨b1, b2⟩ := ba_bound h hfl
  have ht : |Real.tan φ.toQ| ≤ 10 := by
    rw [Real.tan_eq_sin_div_cos, abs_div, abs_of_pos (by linarith : 0 < Real.cos φ.toQ), div_le_iff₀ (by linarith)]
    have := Real.abs_sin_le_one φ.toQ
    linarith
  have k := Rel.mul (one_sub_f h hfl hf) (tan_rel hL.toAccurateProjection hφ hφ2) (A := 1) (B := 10) (by rw [abs_of_nonneg (by linarith)]; exact b2) ht
    (D := 9.9e-16) (H := 1.1e-69)
    (by norm_num) (by norm_num) (by norm_num) (by norm_num) (by norm_num) (by norm_num) (by norm_num) (by norm_num) (by norm_num) (by norm_num) (by norm_num)
  have := k.atan hL.toAccurateProjection (by norm_num) (by norm_num) (by norm_num) (E := 1.21e-15) (by norm_num)
  rw [Ellipsoid.reducedLatitude, rad_f64]
  exact this

end

/-! ### The triangle of the start -/

theorem hyp_near (hL : AccurateGeodesic L) {x y : F64 L} {r s ε δ E : ℝ} (hx : Near x r ε) (hy : Near y s δ) (h1 : r ^ 2 + s ^ 2 ≤ 1)
    (hε : ε ≤ 1) (hδ : δ ≤ 1) (hE : 1.01 * (ε + δ) + 2.24e-16 ≤ E) : Near (Flt.hypot x y) (Real.sqrt (r ^ 2 + s ^ 2)) E := by
  have hr : |r| ≤ 1 := abs_le_one_iff_mul_self_le_one.2 (by nlinarith [sq_nonneg s])
  have hs : |s| ≤ 1 := abs_le_one_iff_mul_self_le_one.2 (by nlinarith [sq_nonneg r])
  have k := Rel.hypot hL.toAccurateInverse (hx.toRel (B := 0) (δ := 0) (η := ε) (abs_nonneg _) le_rfl (by linarith))
    (hy.toRel (B := 0) (δ := 0) (η := δ) (abs_nonneg _) le_rfl (by linarith)) (hr.trans (by norm_num)) (hs.trans (by norm_num)) le_rfl (by norm_num)
    hx.nonneg hε hy.nonneg hδ (D := 2.23e-16) (by norm_num) (le_refl _)
  refine k.toNear (A := 1) ?_ (by norm_num) ?_
  · rw [abs_of_nonneg (Real.sqrt_nonneg _)]
    exact Real.sqrt_le_one.2 h1
  · norm_num at *
    linarith

theorem unit_mul {x y r s ε δ : ℝ} (h : |x - r| ≤ ε) (k : |y - s| ≤ δ) (hr : |r| ≤ 1) (hy : |y| ≤ 1) : |x * y - r * s| ≤ ε + δ := by
  have e : x * y - r * s = (x - r) * y + r * (y - s) := by ring
  rw [e]
  refine (abs_add_le _ _).trans ?_
  rw [abs_mul, abs_mul]
  have h0 := (abs_nonneg _).trans h
  have k0 := (abs_nonneg _).trans k
  have := mul_le_mul h hy (abs_nonneg _) h0
  have := mul_le_mul hr k (abs_nonneg _) zero_le_one
  linarith

theorem Spec.Near.unit_mul {x y : F64 L} {r s ε δ E : ℝ} (hx : Near x r ε) (hy : Near y s δ) (hr : |r| ≤ 1) (hs : |s| ≤ 1) (he : ε ≤ 1e-10) (hd : δ ≤ 1e-10)
    (hE : 1.0001 * (ε + δ) + 1.21e-16 ≤ E) : Near (x * y) (r * s) E := by
  have e0 := hx.nonneg
  have d0 := hy.nonneg
  have : ε * δ ≤ 1e-10 * δ := mul_le_mul_of_nonneg_right he d0
  exact Near.mul hx hy hr hs (R := 1.001) (by norm_num at *; linarith) (by norm_num) (by norm_num) (by norm_num at *; linarith)

theorem triP_near (hL : AccurateGeodesic L) {bt al : F64 L} {β : ℝ} (kb : Near bt β 1.21e-15) (hβ : |β| ≤ 1.6)
    (ha : InLonRange al) : ∃ α₀ σ₁ ω₁ : F64 L, solveTriangleFromP ⟨bt⟩ ⟨⟨al⟩⟩ = ⟨⟨⟨α₀⟩⟩, ⟨⟨al⟩⟩, ⟨bt⟩, ⟨σ₁⟩, ⟨ω₁⟩⟩ ∧
      α₀.isFinite ∧ |α₀.toQ| ≤ (Flt.pi_2 : F64 L).toQ ∧ σ₁.isFinite ∧ |(σ₁.toQ : ℝ)| ≤ 3.2 ∧
      |Real.sin α₀.toQ - Real.cos β * Real.sin al.toQ| ≤ 3.5e-15 ∧
      |Real.cos α₀.toQ * Real.cos σ₁.toQ - Real.cos β * Real.cos al.toQ| ≤ 1.3e-14 ∧
      |Real.cos α₀.toQ * Real.sin σ₁.toQ - Real.sin β| ≤ 1.3e-14 ∧
      ∀ R ω : ℝ, 0.099 ≤ R → R * Real.cos ω = Real.cos σ₁.toQ → R * Real.sin ω = Real.sin α₀.toQ * Real.sin σ₁.toQ →
        ∃ k : ℤ, Near ω₁ (ω + k * (2 * Real.pi)) 1e-14 ∧ |ω + k * (2 * Real.pi)| ≤ 3.2 := by
  have hA := hL.toAccurateProjection
  have ba : |al.toQ| ≤ 4 := ha.2.trans (by rw [show (Flt.pi : F64 L).toQ = 884279719003555 / 2 ^ 48 from pi_fin.2]; norm_num)
  have bb : |bt.toQ| ≤ 4 := kb.abs_le_rat (by push_cast; norm_num at *; linarith)
  have sa := (Near.exact ha.1).sin hL.toAccurate ba (E := 2.3e-16) (by norm_num)
  have ca := (Near.exact ha.1).cos hL.toAccurate ba (E := 2.3e-16) (by norm_num)
  have sb := kb.sin hL.toAccurate bb (E := 1.44e-15) (by norm_num)
  have cb := kb.cos hL.toAccurate bb (E := 1.44e-15) (by norm_num)
  have u1 := Real.abs_sin_le_one (al.toQ : ℝ)
  have u2 := Real.abs_cos_le_one (al.toQ : ℝ)
  have u3 := Real.abs_sin_le_one β
  have u4 := Real.abs_cos_le_one β
  have q1 := Real.sin_sq_add_cos_sq (al.toQ : ℝ)
  have q2 := Real.sin_sq_add_cos_sq β
  have ss := sa.unit_mul sb u1 u3 (E := 1.8e-15) (by norm_num) (by norm_num) (by norm_num)
  have sc := sa.unit_mul cb u1 u4 (E := 1.8e-15) (by norm_num) (by norm_num) (by norm_num)
  have cc := ca.unit_mul cb u2 u4 (E := 1.8e-15) (by norm_num) (by norm_num) (by norm_num)
  set s := Real.sin al.toQ with hs
  set c := Real.cos al.toQ with hcd
  set S := Real.sin β with hS
  set C := Real.cos β with hC
  have e1 : c ^ 2 + (s * S) ^ 2 + (s * C) ^ 2 = 1 := by linear_combination q1 + s ^ 2 * q2
  have hy := hyp_near hL ca ss (by nlinarith [sq_nonneg (s * C)]) (by norm_num) (by norm_num) (E := 2.3e-15) (by norm_num)
  set c0 := Real.sqrt (c ^ 2 + (s * S) ^ 2) with hc0
  have hc02 : c0 ^ 2 = c ^ 2 + (s * S) ^ 2 := Real.sq_sqrt (by positivity)
  have hc00 : 0 ≤ c0 := Real.sqrt_nonneg _
  have hc01 : c0 ≤ 1 := Real.sqrt_le_one.2 (by nlinarith [sq_nonneg (s * C)])
  have hn := hL.hypot_nonneg _ _ ca.1 ss.1
  have hN : (1 : ℝ) ^ 2 ≤ c0 ^ 2 + (s * C) ^ 2 := by rw [hc02]; linarith
  have hσ : (2.3e-15 : ℝ) ^ 2 + 1.8e-15 ^ 2 ≤ (2.93e-15 * 1) ^ 2 := by norm_num
  have k0 := Near.atan2 hL.toAccurateInverse hy sc hc00 hn one_pos hN hσ (by norm_num) (by norm_num) (E := 3.3e-15) (by norm_num)
  obtain ⟨p1, p2⟩ := polar_arg c0 (s * C)
  rw [show c0 ^ 2 + (s * C) ^ 2 = 1 by rw [hc02]; linarith, Real.sqrt_one, one_mul] at p1 p2
  set Θ := Complex.arg ⟨c0, s * C⟩ with hΘ
  have r0 := hL.atan2_right _ _ hy.1 sc.1 hn ?_
  swap
  · by_contra hcon
    push Not at hcon
    obtain ⟨g1, g2⟩ := hcon
    have g1' := le_antisymm g1 hn
    have w1 := hy.2
    have w2 := sc.2
    rw [g1', Rat.cast_zero, zero_sub, abs_neg] at w1
    rw [g2, Rat.cast_zero, zero_sub, abs_neg] at w2
    have v1 : c0 ^ 2 ≤ 0.1 := by
      rw [← sq_abs]
      exact (pow_le_pow_left₀ (abs_nonneg _) w1 2).trans (by norm_num)
    have v2 : (s * C) ^ 2 ≤ 0.1 := by
      rw [← sq_abs]
      exact (pow_le_pow_left₀ (abs_nonneg _) w2 2).trans (by norm_num)
    norm_num at *
    linarith
  obtain ⟨n1, n2⟩ := normalized_id k0.1 r0
  obtain ⟨t1, t2⟩ := polar_arg (c * C) S
  rw [show (c * C) ^ 2 + S ^ 2 = c ^ 2 + (s * S) ^ 2 by linear_combination c ^ 2 * q2 - S ^ 2 * q1, ← hc0] at t1 t2
  have cc' := cc
  have sb' : Near (Flt.sin bt) S 1.8e-15 := sb.mono (by norm_num)
  rw [← t1] at cc'
  rw [← t2] at sb'
  obtain ⟨k, f1, f2, f3⟩ := polar_near_all hL cc' sb' hc00
  set α₀ := Flt.atan2 (Flt.sin al * Flt.cos bt) (Flt.hypot (Flt.cos al) (Flt.sin al * Flt.sin bt)) with hα₀
  set σ₁ := Flt.atan2 (Flt.sin bt) (Flt.cos al * Flt.cos bt) with hσ₁
  have f3' : c0 * |(σ₁.toQ : ℝ) - (Complex.arg ⟨c * C, S⟩ + k * (2 * Real.pi))| ≤ 8.8e-15 := by
    refine f3.trans ?_
    norm_num at *
    linarith
  have d0 : |Real.cos α₀.toQ - c0| ≤ 3.3e-15 := by
    rw [← p1]; exact (abs_cos_sub_le _ _).trans k0.2
  have d1 : |Real.sin α₀.toQ - s * C| ≤ 3.3e-15 := by
    rw [← p2]; exact (abs_sin_sub_le _ _).trans k0.2
  have d2 : |c0 * Real.cos σ₁.toQ - c * C| ≤ 8.8e-15 := by
    rw [← t1, ← mul_sub, abs_mul, abs_of_nonneg hc00]
    refine le_trans (mul_le_mul_of_nonneg_left ?_ hc00) f3'
    rw [← Real.cos_add_int_mul_two_pi (Complex.arg _) k]
    exact abs_cos_sub_le _ _
  have d3 : |c0 * Real.sin σ₁.toQ - S| ≤ 8.8e-15 := by
    nth_rw 1 [← t2]
    rw [← mul_sub, abs_mul, abs_of_nonneg hc00]
    refine le_trans (mul_le_mul_of_nonneg_left ?_ hc00) f3'
    rw [← Real.sin_add_int_mul_two_pi (Complex.arg _) k]
    exact abs_sin_sub_le _ _
  have step : ∀ v w : ℝ, |v| ≤ 1 → |c0 * v - w| ≤ 8.8e-15 → |Real.cos α₀.toQ * v - w| ≤ 1.3e-14 := by
    intro v w hv hw
    have e : Real.cos α₀.toQ * v - w = (Real.cos α₀.toQ - c0) * v + (c0 * v - w) := by ring
    rw [e]
    refine (abs_add_le _ _).trans ?_
    rw [abs_mul]
    have := mul_le_mul d0 hv (abs_nonneg _) (by norm_num)
    norm_num at *
    linarith
  refine ⟨(⟨α₀⟩ : Angle (F64 L)).normalized.rad, σ₁, Flt.atan2 (Flt.sin α₀ * Flt.sin σ₁) (Flt.cos σ₁), by simp only [solveTriangleFromP, Cplx.arg, Cplx.abs, rad_f64]; rfl, n1, by rw [n2]; exact r0, f1, f2, ?_, ?_, ?_, ?_⟩
  · rw [n2, mul_comm C]
    exact d1.trans (by norm_num)
  · rw [n2, mul_comm C]
    exact step _ _ (Real.abs_cos_le_one _) d2
  · rw [n2]
    exact step _ _ (Real.abs_sin_le_one _) d3
  · intro R ω hR w1 w2
    rw [n2] at w2
    have b0 : |α₀.toQ| ≤ 4 := r0.trans (by rw [show (Flt.pi_2 : F64 L).toQ = 884279719003555 / 2 ^ 49 from pi_2_fin.2]; norm_num)
    have b1 : |σ₁.toQ| ≤ 4 := by
      have : |(σ₁.toQ : ℝ)| ≤ ((4 : ℚ) : ℝ) := f2.trans (by norm_num)
      exact_mod_cast this
    have s1 := (Near.exact f1).sin hL.toAccurate b1 (E := 2.3e-16) (by norm_num)
    have c1 := (Near.exact f1).cos hL.toAccurate b1 (E := 6e-16) (by norm_num)
    have s2 := (Near.exact k0.1).sin hL.toAccurate b0 (E := 2.3e-16) (by norm_num)
    have s3 := s2.unit_mul s1 (Real.abs_sin_le_one _) (Real.abs_sin_le_one _) (E := 6e-16) (by norm_num) (by norm_num) (by norm_num)
    rw [← w1] at c1
    rw [← w2] at s3
    exact polar_near hL c1 s3 (by norm_num) hR (by norm_num) (by norm_num)

end Geo
