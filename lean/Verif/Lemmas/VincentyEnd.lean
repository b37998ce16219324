import Verif.Lemmas.VincentyLoop
import Verif.Spec.AccurateVincenty

/-! The end of the geodesic of the direct Vincenty solver in IEEE arithmetic. -/

namespace Geo
open XR Spec VincentyGeodesicSolver
variable {L : Libm} {el : Ellipsoid (F64 L)}

theorem hyp2_near (hL : AccurateVincenty L) {x y : F64 L} {r s ε δ E : ℝ} (hx : Near x r ε) (hy : Near y s δ) (h1 : r ^ 2 + s ^ 2 ≤ 1)
    (hε : ε ≤ 1e-10) (hδ : δ ≤ 1e-10) (hE : ε + δ + 1.2e-15 ≤ E) :
    Near (Flt.sqrt (Flt.powi x 2 + Flt.powi y 2)) (Real.sqrt (r ^ 2 + s ^ 2)) E := by
  have r1 : |r| ≤ 1 := abs_le_one_iff_mul_self_le_one.2 (by nlinarith [sq_nonneg s])
  have s1 : |s| ≤ 1 := abs_le_one_iff_mul_self_le_one.2 (by nlinarith [sq_nonneg r])
  have bx := hx.abs_le
  have bys := hy.abs_le
  have lx : |x.toQ| ≤ 5 / 4 := hx.abs_le_rat (by push_cast; norm_num at *; linarith)
  have ly : |y.toQ| ≤ 5 / 4 := hy.abs_le_rat (by push_cast; norm_num at *; linarith)
  have kx := hL.sq_rel x hx.1 lx
  have ky := hL.sq_rel y hy.1 ly
  have X2 : (x.toQ : ℝ) ^ 2 ≤ 1.01 := by
    have := pow_le_pow_left₀ (abs_nonneg _) (show |(x.toQ : ℝ)| ≤ 1.001 by norm_num at *; linarith) 2
    rw [sq_abs] at this; norm_num at *; linarith
  have Y2 : (y.toQ : ℝ) ^ 2 ≤ 1.01 := by
    have := pow_le_pow_left₀ (abs_nonneg _) (show |(y.toQ : ℝ)| ≤ 1.001 by norm_num at *; linarith) 2
    rw [sq_abs] at this; norm_num at *; linarith
  have tiny : (2⁻¹ : ℝ) ^ 1074 ≤ 1e-71 :=
    (pow_le_pow_of_le_one (by norm_num) (by norm_num) (by norm_num : 240 ≤ 1074)).trans (by norm_num)
  have rel : ∀ {z : F64 L}, Near (Flt.powi z 2) ((z.toQ : ℝ) ^ 2) (2⁻¹ ^ 52 * (z.toQ : ℝ) ^ 2 + 2⁻¹ ^ 1074) →
      Rel (Flt.powi z 2) ((z.toQ : ℝ) ^ 2) 2.23e-16 1e-71 := fun {z} k =>
    ⟨k.1, k.2.trans (add_le_add (by rw [abs_of_nonneg (sq_nonneg _)]; exact mul_le_mul_of_nonneg_right (by norm_num) (sq_nonneg _)) tiny)⟩
  have k3 := Rel.add (rel kx) (rel ky) (D := 3.37e-16) (H := 2e-70) (sq_nonneg _) (sq_nonneg _) (by norm_num at *; linarith) (by norm_num) (by norm_num)
    (by norm_num) (by norm_num) (by norm_num) (by norm_num) (by norm_num)
  have nn : 0 ≤ (Flt.powi x 2 + Flt.powi y 2 : F64 L).toQ := by
    rw [show (Flt.powi x 2 + Flt.powi y 2 : F64 L).toQ = _ from (B64.add_finite k3.1).2.2]
    exact rndQ_nonneg (add_nonneg (hL.sq_nonneg x hx.1 lx) (hL.sq_nonneg y hy.1 ly))
  have k4 := Rel.sqrt0 (G := 1e-34) hL.toAccurate k3 nn (by positivity) (by norm_num) (by norm_num) (by norm_num) (by norm_num) (by norm_num)
    (D := 5.61e-16) (H := 1.1e-34) (by norm_num) (by norm_num)
  have q1 : Real.sqrt ((x.toQ : ℝ) ^ 2 + (y.toQ : ℝ) ^ 2) ≤ 2 := Real.sqrt_le_iff.2 ⟨by norm_num, by norm_num at *; linarith⟩
  have q2 := hypot_rel (x := x.toQ) (y := y.toQ) (r := r) (s := s) (δ := 0) (by rw [zero_mul, zero_add]; exact hx.2)
    (by rw [zero_mul, zero_add]; exact hy.2) le_rfl zero_le_one hx.nonneg hy.nonneg
  refine ⟨k4.1, ?_⟩
  have k5 := k4.2
  rw [abs_of_nonneg (Real.sqrt_nonneg _)] at k5
  refine (abs_sub_le _ (Real.sqrt ((x.toQ : ℝ) ^ 2 + (y.toQ : ℝ) ^ 2)) _).trans ?_
  norm_num at *
  linarith

/-- The components of the end of the arc. -/
theorem vin_components {sb cb ss cs sa ca : F64 L} {β σ α : ℝ} (kb : Near sb (Real.sin β) 3.2e-15) (kc : Near cb (Real.cos β) 2e-15)
    (k1 : Near ss (Real.sin σ) 2.3e-16) (k2 : Near cs (Real.cos σ) 2.3e-16) (k3 : Near sa (Real.sin α) 2.3e-16) (k4 : Near ca (Real.cos α) 2.3e-16) :
    Near (sb * cs + cb * ss * ca) (Real.sin β * Real.cos σ + Real.cos β * Real.sin σ * Real.cos α) 6.5e-15 ∧
    Near (sb * ss - cb * cs * ca) (Real.sin β * Real.sin σ - Real.cos β * Real.cos σ * Real.cos α) 6.5e-15 ∧
    Near (cb * cs - sb * ss * ca) (Real.cos β * Real.cos σ - Real.sin β * Real.sin σ * Real.cos α) 6.5e-15 ∧
    Near (-sb * ss + cb * cs * ca) (-Real.sin β * Real.sin σ + Real.cos β * Real.cos σ * Real.cos α) 6.5e-15 ∧
    Near (ss * sa) (Real.sin σ * Real.sin α) 6.5e-15 := by
  obtain ⟨q1, q2⟩ := arc_components β α σ
  have u1 := Real.abs_sin_le_one β
  have u2 := Real.abs_cos_le_one β
  have u3 := Real.abs_sin_le_one σ
  have u4 := Real.abs_cos_le_one σ
  have u5 := Real.abs_sin_le_one α
  have u6 := Real.abs_cos_le_one α
  have u1' : |-Real.sin β| ≤ 1 := by rw [abs_neg]; exact u1
  have one : ∀ {p q : ℝ}, |p| ≤ 1 → |q| ≤ 1 → |p * q| ≤ 1 := fun hp hq => by rw [abs_mul]; exact mul_le_one₀ hp (abs_nonneg _) hq
  have le1 : ∀ {z p q : ℝ}, p ^ 2 + q ^ 2 + z ^ 2 = 1 → |z| ≤ 1 := fun {z p q} h =>
    abs_le_one_iff_mul_self_le_one.2 (by nlinarith [sq_nonneg p, sq_nonneg q])
  have z1 := le1 q1
  have z2 : |Real.sin β * Real.sin σ - Real.cos β * Real.cos σ * Real.cos α| ≤ 1 :=
    le1 ((add_right_comm _ _ _).trans q1)
  have z3 : |Real.cos β * Real.cos σ - Real.sin β * Real.sin σ * Real.cos α| ≤ 1 :=
    le1 ((add_right_comm _ _ _).trans q2)
  have z4 : |-Real.sin β * Real.sin σ + Real.cos β * Real.cos σ * Real.cos α| ≤ 1 := by
    rw [← abs_neg]; convert z2 using 2; ring
  have m1 := kb.unit_mul k2 u1 u4 (E := 3.56e-15) (by norm_num) (by norm_num) (by norm_num)
  have m2 := kc.unit_mul k1 u2 u3 (E := 2.36e-15) (by norm_num) (by norm_num) (by norm_num)
  have m3 := m2.unit_mul k4 (one u2 u3) u6 (E := 2.72e-15) (by norm_num) (by norm_num) (by norm_num)
  have m4 := kb.unit_mul k1 u1 u3 (E := 3.56e-15) (by norm_num) (by norm_num) (by norm_num)
  have m5 := kc.unit_mul k2 u2 u4 (E := 2.36e-15) (by norm_num) (by norm_num) (by norm_num)
  have m6 := m5.unit_mul k4 (one u2 u4) u6 (E := 2.72e-15) (by norm_num) (by norm_num) (by norm_num)
  have m7 := m4.unit_mul k4 (one u1 u3) u6 (E := 3.93e-15) (by norm_num) (by norm_num) (by norm_num)
  have m8 := kb.neg.unit_mul k1 u1' u3 (E := 3.56e-15) (by norm_num) (by norm_num) (by norm_num)
  refine ⟨?_, ?_, ?_, ?_, ?_⟩
  · exact Near.add m1 m3 (R := 1.01) (by norm_num at *; linarith) (by norm_num) (by norm_num) (by norm_num)
  · exact Near.sub m4 m6 (R := 1.01) (by norm_num at *; linarith) (by norm_num) (by norm_num) (by norm_num)
  · exact Near.sub m5 m7 (R := 1.01) (by norm_num at *; linarith) (by norm_num) (by norm_num) (by norm_num)
  · exact Near.add m8 m6 (R := 1.01) (by norm_num at *; linarith) (by norm_num) (by norm_num) (by norm_num)
  · exact k1.unit_mul k3 u3 u5 (by norm_num) (by norm_num) (by norm_num)

/-- The geodetic latitude of the end. -/
theorem vin_lat_near (h : EarthSized el) (hfl : 0.995 * el.a.m.toQ ≤ el.b.m.toQ)
    (hf : Near el.f (((el.a.m.toQ : ℝ) - el.b.m.toQ) / el.a.m.toQ) 3e-16) (hL : AccurateVincenty L) {z x w : F64 L} {β₂ S P : ℝ}
    (hc : 0 ≤ Real.cos β₂) (kz : Near z (Real.sin β₂) 6.5e-15) (kx : Near x S 2.4e-15) (kw : Near w P 6.5e-15) (e : S ^ 2 + P ^ 2 = Real.cos β₂ ^ 2) :
    (Lat.new (⟨Flt.atan2 z ((1 - el.f) * Flt.sqrt (Flt.powi x 2 + Flt.powi w 2))⟩ : Angle (F64 L))).angle.rad.isFinite ∧
    |(Lat.new (⟨Flt.atan2 z ((1 - el.f) * Flt.sqrt (Flt.powi x 2 + Flt.powi w 2))⟩ : Angle (F64 L))).angle.rad.toQ| ≤ (Flt.pi_2 : F64 L).toQ ∧
    |((Lat.new (⟨Flt.atan2 z ((1 - el.f) * Flt.sqrt (Flt.powi x 2 + Flt.powi w 2))⟩ : Angle (F64 L))).angle.rad.toQ : ℝ) -
      Complex.arg ⟨el.b.m.toQ / el.a.m.toQ * Real.cos β₂, Real.sin β₂⟩| ≤ 5.2e-14 := by
  obtain ⟨h1, h2, h3⟩ := earth_real h
  obtain ⟨b1, b2⟩ := ba_bound h hfl
  have hb : (0 : ℝ) < el.b.m.toQ := by linarith
  have q := Real.sin_sq_add_cos_sq β₂
  have n1 := hyp2_near hL kx kw (by rw [e]; exact Real.cos_sq_le_one _) (by norm_num) (by norm_num) (E := 1.02e-14) (by norm_num)
  rw [e, Real.sqrt_sq hc] at n1
  have n2 := (one_sub_f h hfl hf).toNear (A := 1) (by rw [abs_of_nonneg (by linarith)]; exact b2) (by norm_num) (E := 4.3e-16) (by norm_num)
  have n3 := n2.unit_mul n1 (by rw [abs_of_nonneg (by linarith)]; exact b2) (Real.abs_cos_le_one _) (E := 1.1e-14) (by norm_num) (by norm_num) (by norm_num)
  obtain ⟨-, p1, p2, -⟩ := reduced_arg (a := el.a.m.toQ) (b := el.b.m.toQ) hb h2 hc
  obtain ⟨c1, c2⟩ := polar_arg ((el.b.m.toQ : ℝ) / el.a.m.toQ * Real.cos β₂) (Real.sin β₂)
  set φ := Complex.arg ⟨(el.b.m.toQ : ℝ) / el.a.m.toQ * Real.cos β₂, Real.sin β₂⟩ with hφ
  set R := Real.sqrt (((el.b.m.toQ : ℝ) / el.a.m.toQ * Real.cos β₂) ^ 2 + Real.sin β₂ ^ 2) with hR
  have R0 : 0.995 ≤ R := by
    refine Real.le_sqrt_of_sq_le ?_
    rw [mul_pow]
    have := pow_le_pow_left₀ (by norm_num) b1 2
    have := mul_le_mul_of_nonneg_right this (sq_nonneg (Real.cos β₂))
    nlinarith [sq_nonneg (Real.sin β₂)]
  obtain ⟨k, g1, g2, g3⟩ := polar_near_all hL.toAccurateGeodesic (R := R) (Θ := φ) (d := 1.1e-14) (by rw [c1]; exact n3)
    (by rw [c2]; exact kz.mono (by norm_num)) (le_trans (by norm_num) R0)
  set x2 := (Flt.atan2 z ((1 - el.f) * Flt.sqrt (Flt.powi x 2 + Flt.powi w 2)) : F64 L) with hx2
  have g4 : |(x2.toQ : ℝ) - (φ + k * (2 * Real.pi))| ≤ 5.1e-14 := by
    have R' : 0 < R := lt_of_lt_of_le (by norm_num) R0
    refine le_of_mul_le_mul_left (g3.trans ?_) R'
    norm_num at *
    linarith
  have hπ1 := Real.pi_gt_d4
  have hπ2 := Real.pi_lt_d4
  have k0 : k = 0 := by
    have t1 := abs_le.1 g4
    have t2 := abs_le.1 g2
    have : |(k : ℝ)| < 1 := by
      rw [abs_lt]
      constructor <;> (norm_num at *; nlinarith)
    have : |k| < 1 := by exact_mod_cast this
    exact Int.abs_lt_one_iff.1 this
  rw [k0, Int.cast_zero, zero_mul, add_zero] at g4
  have k1 : Near x2 φ 5.1e-14 := ⟨g1, g4⟩
  obtain ⟨w1, w2⟩ := lat_clamp_near k1
  rw [clampR_id p1 p2] at w2
  refine ⟨w2.1, ?_, w2.2.trans (by norm_num)⟩
  rcases inLatRange_clamp x2 with hn | ⟨_, r1, r2⟩
  · exfalso
    have w3 := w2.1
    change (clamp x2 (-Flt.pi_2) Flt.pi_2 : F64 L).isFinite at w3
    rw [hn] at w3
    cases w3
  · exact abs_le.2 ⟨r1, r2⟩

end Geo
