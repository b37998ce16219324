import Verif.Lemmas.KarneyClose
import Verif.Lemmas.NearGeodesic

/-! The direct geodesic problem in IEEE arithmetic. -/

namespace Geo
open XR Spec
variable {L : Libm}

theorem karney_direct_f64 {el : Ellipsoid (F64 L)} {l φ α s α₀ σ₁ ω₁ a2 bt om sg ep : F64 L}
    (eP : solveTriangleFromP (el.reducedLatitude ⟨⟨φ⟩⟩) ⟨⟨α⟩⟩ = ⟨⟨⟨α₀⟩⟩, ⟨⟨α⟩⟩, el.reducedLatitude ⟨⟨φ⟩⟩, ⟨σ₁⟩, ⟨ω₁⟩⟩)
    (hep : (Flt.sqrt (1 + el.ePrimeSq * Flt.cos α₀ * Flt.cos α₀) - 1) / (Flt.sqrt (1 + el.ePrimeSq * Flt.cos α₀ * Flt.cos α₀) + 1) = ep)
    (hsg : KarneyGeodesicSolver.Sigma ep ((ArcLength.mk (el.b * KarneyGeodesicSolver.I1 ep (KarneyGeodesicSolver.A1 ep) ⟨σ₁⟩ + ⟨s⟩)).divLength
      (el.b * KarneyGeodesicSolver.A1 ep)) = ⟨sg⟩)
    (eE : solveTriangleFromE ⟨⟨α₀⟩⟩ ⟨sg⟩ = ⟨⟨⟨α₀⟩⟩, ⟨⟨a2⟩⟩, ⟨bt⟩, ⟨sg⟩, ⟨om⟩⟩) :
    (KarneyGeodesicSolver.new el).direct (⟨⟨l⟩⟩, ⟨⟨φ⟩⟩) ⟨⟨α⟩⟩ ⟨s⟩ = ⟨(⟨⟨l⟩⟩, ⟨⟨φ⟩⟩), ⟨⟨α⟩⟩,
      ((⟨⟨l⟩⟩ : Lon (F64 L)).addAngle ((⟨om⟩ - ⟨el.f * Flt.sin α₀ * (KarneyGeodesicSolver.new el).I3 ((KarneyGeodesicSolver.new el).A3 ep) ep ⟨sg⟩⟩ : Angle (F64 L)) -
        (⟨ω₁⟩ - ⟨el.f * Flt.sin α₀ * (KarneyGeodesicSolver.new el).I3 ((KarneyGeodesicSolver.new el).A3 ep) ep ⟨σ₁⟩⟩)),
        Lat.new ⟨Flt.atan (Flt.tan bt / (1 - el.f))⟩), ⟨⟨a2⟩⟩, ⟨s⟩⟩ := by
  have e : (KarneyGeodesicSolver.new el).ellipsoid = el := rfl
  simp only [KarneyGeodesicSolver.direct, e, eP, Azimuth.cos, Azimuth.sin, Angle.cos, Angle.sin, Angle.tan, hep, hsg, eE, rad_f64]

/-- **C113**: the Karney direct solver in IEEE arithmetic returns, to two micrometres, the end of a geodesic of the ellipsoid which
starts less than a quarter of a micrometre from the given point, with a direction less than `10⁻¹²` from the given azimuth, for
every start at less than 84.2° of latitude, every azimuth and every distance of at most 21000 km. The returned azimuth is the
direction of that geodesic at its end to `10⁻¹² / cos φ₂`. -/
theorem C113_karney_direct (hL : AccurateGeodesic L) {el : Ellipsoid (F64 L)} (h : EarthSized el) (hfl : 0.995 * el.a.m.toQ ≤ el.b.m.toQ)
    (hf : Near el.f (((el.a.m.toQ : ℝ) - el.b.m.toQ) / el.a.m.toQ) 3e-16) {l φ α s : F64 L} (hl : InLonRange l) (hφ : φ.isFinite)
    (hφ2 : |φ.toQ| ≤ (Flt.pi_2 : F64 L).toQ) (hc : 0.1 ≤ Real.cos φ.toQ) (hα : InLonRange α) (hs : s.isFinite) (hs2 : |s.toQ| ≤ 21000000) :
    let a : ℝ := el.a.m.toQ
    let b : ℝ := el.b.m.toQ
    ∃ (γ : ℝ → E3) (l₂ φ₂ α₂ : F64 L),
      (GeodesicSolver.karney (KarneyGeodesicSolver.new el)).solveDirect (⟨⟨l⟩⟩, ⟨⟨φ⟩⟩) ⟨⟨α⟩⟩ ⟨s⟩ =
        .ok ⟨(⟨⟨l⟩⟩, ⟨⟨φ⟩⟩), ⟨⟨α⟩⟩, (⟨⟨l₂⟩⟩, ⟨⟨φ₂⟩⟩), ⟨⟨α₂⟩⟩, ⟨s⟩⟩ ∧
      InLonRange l₂ ∧ φ₂.isFinite ∧ |φ₂.toQ| ≤ (Flt.pi_2 : F64 L).toQ ∧ InLonRange α₂ ∧ IsGeodesic a b γ ∧
      ‖γ 0 - surfacePoint a b l.toQ φ.toQ‖ ≤ 2.1e-7 ∧ ‖deriv γ 0 - direction l.toQ φ.toQ α.toQ‖ ≤ 6e-13 ∧
      ‖surfacePoint a b l₂.toQ φ₂.toQ - γ s.toQ‖ ≤ 2e-6 ∧
      Real.cos φ₂.toQ * ‖direction l₂.toQ φ₂.toQ α₂.toQ - deriv γ s.toQ‖ ≤ 1e-12 := by
  intro a b
  obtain ⟨e1, e2, e3⟩ := earth_real h
  obtain ⟨f1, f2⟩ := ba_bound h hfl
  have hb : 0 < b := lt_of_lt_of_le (by norm_num) e1
  have hab : b ≤ a := e2
  have ha : 0 < a := lt_of_lt_of_le hb hab
  have hcφ : 0 < Real.cos φ.toQ := lt_of_lt_of_le (by norm_num) hc
  have hn : (a - b) / (a + b) ≤ 0.00251 := by
    have : 0.995 * a ≤ b := by rwa [le_div_iff₀ ha] at f1
    rw [div_le_iff₀ (by positivity)]
    norm_num at this ⊢
    linarith
  have hn0 : 0 ≤ (a - b) / (a + b) := div_nonneg (by linarith) (by linarith)
  have kn : Near el.n ((a - b) / (a + b)) 3e-16 := (tm_n_near h).1.mono (by norm_num)
  -- the triangle of the start
  have kb := beta_near h hfl hf hL hφ hφ2 hc
  have hβ : 0.1 ≤ Real.cos (Real.arctan (b / a * Real.tan φ.toQ)) := hc.trans (cos_reduced hb hab hcφ)
  have hpφ : -(Real.pi / 2) < (φ.toQ : ℝ) ∧ (φ.toQ : ℝ) < Real.pi / 2 := by
    have t := cast_abs_le hφ2
    have p := pi_2_real.2
    have t' := abs_le.1 (t.trans p)
    refine ⟨lt_of_le_of_ne t'.1 fun e => ?_, lt_of_le_of_ne t'.2 fun e => ?_⟩
    · rw [← e, Real.cos_neg, Real.cos_pi_div_two] at hcφ; exact lt_irrefl _ hcφ
    · rw [e, Real.cos_pi_div_two] at hcφ; exact lt_irrefl _ hcφ
  have hargφ := arg_reduced hb hab hpφ.1 hpφ.2
  set β := Real.arctan (b / a * Real.tan φ.toQ) with hβd
  have hβ6 : |β| ≤ 1.6 := by
    have u1 := Real.neg_pi_div_two_lt_arctan (b / a * Real.tan φ.toQ)
    have u2 := Real.arctan_lt_pi_div_two (b / a * Real.tan φ.toQ)
    have := Real.pi_lt_d4
    rw [abs_le]
    constructor <;> norm_num at this ⊢ <;> linarith
  obtain ⟨α₀, σ₁, ω₁, eP, t1, t2, t3, t4, d1, d2, d3, hω⟩ := triP_near hL kb hβ6 hα
  have h0 : 0 ≤ Real.cos α₀.toQ := by
    have t := abs_le.1 ((cast_abs_le t2).trans pi_2_real.2)
    exact Real.cos_nonneg_of_neg_pi_div_two_le_of_le t.1 t.2
  obtain ⟨α', β', ω', -, -, -, c1, c2, c3, c4, c5, c6⟩ := triangle_E α₀.toQ σ₁.toQ h0
  obtain ⟨g1, g2, g3⟩ := start_close (l := l.toQ) hb hab f1 hβ c1 (α := α.toQ) (α' := α') (by rw [c3]; exact d1) (by rw [c4]; exact d2)
    (by rw [c2]; exact d3)
  rw [hargφ] at g2 g3
  obtain ⟨k, kω, bω⟩ := hω _ _ g1 c5 c6
  -- the arc
  have b4 : |α₀.toQ| ≤ 4 := t2.trans (by rw [show (Flt.pi_2 : F64 L).toQ = 884279719003555 / 2 ^ 49 from pi_2_fin.2]; norm_num)
  have sa := (Near.exact t1).sin hL.toAccurate b4 (E := 2.3e-16) (by norm_num)
  have ca := (Near.exact t1).cos hL.toAccurate b4 (E := 2.3e-16) (by norm_num)
  obtain ⟨kε, ε0, ε1⟩ := eps_near h hfl hL ca (Real.abs_cos_le_one _) rfl rfl
  set k2 := Real.cos α₀.toQ ^ 2 * ((a ^ 2 - b ^ 2) / b ^ 2) with hk2
  set ε := (Real.sqrt (1 + k2) - 1) / (Real.sqrt (1 + k2) + 1) with hε
  obtain ⟨τ, hτ, kσ, bσ⟩ := karney_arc_near h hfl hL kε ε0 ε1 t3 t4 hs hs2
  set ep := (Flt.sqrt (1 + el.ePrimeSq * Flt.cos α₀ * Flt.cos α₀) - 1) / (Flt.sqrt (1 + el.ePrimeSq * Flt.cos α₀ * Flt.cos α₀) + 1) with hep
  set sg := (KarneyGeodesicSolver.Sigma ep ((ArcLength.mk (el.b * KarneyGeodesicSolver.I1 ep (KarneyGeodesicSolver.A1 ep) ⟨σ₁⟩ + ⟨s⟩)).divLength
    (el.b * KarneyGeodesicSolver.A1 ep))).rad with hsg
  set σ₂ := karneySigma ε τ with hσ₂
  -- the triangle of the end
  obtain ⟨α₂', β₂, ω₂, -, -, -, j1, j2, j3, j4, j5, j6⟩ := triangle_E α₀.toQ σ₂ h0
  obtain ⟨a2, bt, om, m, n, eE, w1, w2, w3, w4, w5, w6, w7, w8, w9⟩ := triE_near hL t1 t2 kσ bσ j1 j2 j3 j4 j5 j6
  obtain ⟨v1, v2, v3⟩ := lat_end_near h hfl hf hL w3 w4
  obtain ⟨i1, i2⟩ := I3_near hL kn (by rw [abs_of_nonneg hn0]; norm_num at hn ⊢; linarith) kε ε0 ε1 (Near.exact t3) (t4.trans (by norm_num)) (by norm_num)
    (E := 1.65e-14) (by norm_num)
  obtain ⟨i3, i4⟩ := I3_near hL kn (by rw [abs_of_nonneg hn0]; norm_num at hn ⊢; linarith) kε ε0 ε1 kσ (bσ.trans (by norm_num)) (by norm_num)
    (E := 4.4e-14) (by norm_num)
  obtain ⟨q, x1, x2⟩ := lon_end_near h hfl hf hl kω bω w7 w8 sa (Real.abs_sin_le_one _) i1 (by norm_num at i2 t4 ⊢; linarith) i3
    (by norm_num at i4 bσ ⊢; linarith)
  obtain ⟨γ, hγ, y1, y2, y3, y4⟩ := karney_ideal hb hab (hn.trans (by norm_num)) l.toQ (lt_of_lt_of_le (by norm_num) g1) c3 c4 c2 c5 c6 j1 j2 j3 j4 j5 j6
    hk2 hε hτ hσ₂
  -- the distances
  have hcbt : 0 ≤ Real.cos bt.toQ := by
    have t := abs_le.1 ((cast_abs_le w4).trans pi_2_real.2)
    exact Real.cos_nonneg_of_neg_pi_div_two_le_of_le t.1 t.2
  set lon := ((⟨⟨l⟩⟩ : Lon (F64 L)).addAngle ((⟨om⟩ - ⟨el.f * Flt.sin α₀ * (KarneyGeodesicSolver.new el).I3 ((KarneyGeodesicSolver.new el).A3 ep) ep ⟨sg⟩⟩ : Angle (F64 L)) -
    (⟨ω₁⟩ - ⟨el.f * Flt.sin α₀ * (KarneyGeodesicSolver.new el).I3 ((KarneyGeodesicSolver.new el).A3 ep) ep ⟨σ₁⟩⟩))).angle.rad with hlon
  set lat := (Lat.new (⟨Flt.atan (Flt.tan bt / (1 - el.f))⟩ : Angle (F64 L))).angle.rad with hlat
  set X := (a - b) / a * Real.sin α₀.toQ * (karneyI3 ((a - b) / (a + b)) ε σ₂ - karneyI3 ((a - b) / (a + b)) ε σ₁.toQ) with hX
  set l' := (l.toQ : ℝ) + (ω₂ - ω' - X) with hl'
  have kl : Real.cos β₂ * |(lon.toQ : ℝ) - (l' + ((n - k + q : ℤ) : ℝ) * (2 * Real.pi))| ≤ 1.43e-13 := by
    have e : (lon.toQ : ℝ) - (l' + ((n - k + q : ℤ) : ℝ) * (2 * Real.pi)) =
        (lon.toQ - (l.toQ + (om.toQ - (ω' + k * (2 * Real.pi)) - X) + q * (2 * Real.pi))) + (om.toQ - (ω₂ + n * (2 * Real.pi))) := by
      rw [hl']; push_cast; ring
    have t := mul_le_mul_of_nonneg_left (abs_add_le (lon.toQ - (l.toQ + (om.toQ - (ω' + k * (2 * Real.pi)) - X) + q * (2 * Real.pi)))
      (om.toQ - (ω₂ + n * (2 * Real.pi)))) j1
    rw [← e, mul_add] at t
    have t' := mul_le_mul (Real.cos_le_one β₂) x2 (abs_nonneg _) zero_le_one
    norm_num at t t' w9 ⊢
    linarith
  obtain ⟨z1, z2, z3⟩ := end_close hb hab f1 j1 hcbt w5 w6 kl w2 v3
  have hN7 : ((a - b) / (a + b)) ^ 7 ≤ 6.3e-19 := (pow_le_pow_left₀ hn0 hn 7).trans (by norm_num)
  have hs' : |(s.toQ : ℝ)| ≤ 21000000 := by exact_mod_cast cast_abs_le hs2
  have e3' : a ≤ 7000000 := e3
  have e1' : 6000000 ≤ b := e1
  have turnS : surfacePoint a b (l' + ((n - k + q : ℤ) : ℝ) * (2 * Real.pi)) (Complex.arg ⟨b / a * Real.cos β₂, Real.sin β₂⟩) =
      surfacePoint a b l' (Complex.arg ⟨b / a * Real.cos β₂, Real.sin β₂⟩) := by
    simp [surfacePoint, Real.cos_add_int_mul_two_pi, Real.sin_add_int_mul_two_pi, -Int.cast_add, -Int.cast_sub]
  have turnD : direction (l' + ((n - k + q : ℤ) : ℝ) * (2 * Real.pi)) (Complex.arg ⟨b / a * Real.cos β₂, Real.sin β₂⟩) (α₂' + m * (2 * Real.pi)) =
      direction l' (Complex.arg ⟨b / a * Real.cos β₂, Real.sin β₂⟩) α₂' := by
    simp [direction, Real.cos_add_int_mul_two_pi, Real.sin_add_int_mul_two_pi, -Int.cast_add, -Int.cast_sub]
  rw [turnS] at z1
  rw [turnD] at z2
  refine ⟨γ, lon, lat, a2, ?_, x1, v1, v2, w1, hγ, ?_, ?_, ?_, ?_⟩
  · show Except.ok (KarneyGeodesicSolver.direct _ _ _ _) = _
    rw [karney_direct_f64 (sg := sg) eP rfl rfl eE]
  · rw [y1]
    refine g2.trans ?_
    norm_num
    linarith
  · rw [y2]
    exact g3
  · have t := norm_sub_le_norm_sub_add_norm_sub (surfacePoint a b lon.toQ lat.toQ) (surfacePoint a b l' (Complex.arg ⟨b / a * Real.cos β₂, Real.sin β₂⟩)) (γ s.toQ)
    have t2 := mul_le_mul hN7 (show 5 * a + 14 * |(s.toQ : ℝ)| ≤ 330000000 by linarith) (by positivity) (by norm_num)
    have y3' := y3.trans t2
    norm_num at y3' z1 ⊢
    linarith
  · set D := ‖direction lon.toQ lat.toQ a2.toQ - deriv γ s.toQ‖ with hD
    have hD0 : 0 ≤ D := norm_nonneg _
    have hD2 : D ≤ 2 := by
      refine (norm_sub_le _ _).trans ?_
      rw [norm_direction, hγ.unit_speed]
      norm_num
    have key : Real.cos β₂ * D ≤ 5.3e-13 := by
      rcases j1.lt_or_eq with hlt | heq
      · have t := norm_sub_le_norm_sub_add_norm_sub (direction lon.toQ lat.toQ a2.toQ) (direction l' (Complex.arg ⟨b / a * Real.cos β₂, Real.sin β₂⟩) α₂') (deriv γ s.toQ)
        have t1 := y4 hlt.ne'
        have t2 := mul_le_mul hN7 (show 5 + 14 * (|(s.toQ : ℝ)| / a) ≤ 60 by
          have : |(s.toQ : ℝ)| / a ≤ 3.5 := by rw [div_le_iff₀ ha]; norm_num; linarith
          norm_num at this ⊢
          linarith) (by positivity) (by norm_num)
        have t3 := mul_le_mul_of_nonneg_left t hlt.le
        have t4 := mul_le_mul (Real.cos_le_one β₂) (t1.trans t2) (norm_nonneg _) zero_le_one
        rw [mul_add] at t3
        norm_num at t3 t4 z2 ⊢
        linarith
      · rw [← heq, zero_mul]; norm_num
    have t := mul_le_mul_of_nonneg_right z3 hD0
    norm_num at t key ⊢
    linarith

/-- The flattening of WGS 84. -/
theorem wgs84_f : Near (Ellipsoid.consts.WGS84 : Ellipsoid (F64 L)).f
    ((((Ellipsoid.consts.WGS84 : Ellipsoid (F64 L)).a.m.toQ : ℝ) - (Ellipsoid.consts.WGS84 : Ellipsoid (F64 L)).b.m.toQ) /
      (Ellipsoid.consts.WGS84 : Ellipsoid (F64 L)).a.m.toQ) 3e-16 := by
  have h : B64.isFinite (Ellipsoid.consts.WGS84 : Ellipsoid (F64 noLibm)).f = true ∧
      -3e-16 ≤ (Ellipsoid.consts.WGS84 : Ellipsoid (F64 noLibm)).f.toQ - (((Ellipsoid.consts.WGS84 : Ellipsoid (F64 noLibm)).a.m.toQ) -
        (Ellipsoid.consts.WGS84 : Ellipsoid (F64 noLibm)).b.m.toQ) / (Ellipsoid.consts.WGS84 : Ellipsoid (F64 noLibm)).a.m.toQ ∧
      (Ellipsoid.consts.WGS84 : Ellipsoid (F64 noLibm)).f.toQ - (((Ellipsoid.consts.WGS84 : Ellipsoid (F64 noLibm)).a.m.toQ) -
        (Ellipsoid.consts.WGS84 : Ellipsoid (F64 noLibm)).b.m.toQ) / (Ellipsoid.consts.WGS84 : Ellipsoid (F64 noLibm)).a.m.toQ ≤ 3e-16 := by
    decide +kernel
  refine ⟨h.1, abs_le.2 ⟨?_, ?_⟩⟩
  · have := (Rat.cast_le (K := ℝ)).2 h.2.1
    push_cast at this
    exact this
  · have := (Rat.cast_le (K := ℝ)).2 h.2.2
    push_cast at this
    exact this

/-- From a point at 0.0625 rad of longitude and 0.75 rad of latitude on WGS 84, with an azimuth of 0.5 rad, over 1000 km, with the
correctly rounded library. -/
example : ∃ (γ : ℝ → E3) (l₂ φ₂ α₂ : F64 geodesicLibm),
    (GeodesicSolver.karney (KarneyGeodesicSolver.new (Ellipsoid.consts.WGS84 : Ellipsoid (F64 geodesicLibm)))).solveDirect
      (⟨⟨Flt.lit 0.0625⟩⟩, ⟨⟨Flt.lit 0.75⟩⟩) ⟨⟨Flt.lit 0.5⟩⟩ ⟨Flt.lit 1000000⟩ =
      .ok ⟨(⟨⟨Flt.lit 0.0625⟩⟩, ⟨⟨Flt.lit 0.75⟩⟩), ⟨⟨Flt.lit 0.5⟩⟩, (⟨⟨l₂⟩⟩, ⟨⟨φ₂⟩⟩), ⟨⟨α₂⟩⟩, ⟨Flt.lit 1000000⟩⟩ ∧
    IsGeodesic (Ellipsoid.consts.WGS84 : Ellipsoid (F64 geodesicLibm)).a.m.toQ (Ellipsoid.consts.WGS84 : Ellipsoid (F64 geodesicLibm)).b.m.toQ γ ∧
    ‖γ 0 - surfacePoint (Ellipsoid.consts.WGS84 : Ellipsoid (F64 geodesicLibm)).a.m.toQ
      (Ellipsoid.consts.WGS84 : Ellipsoid (F64 geodesicLibm)).b.m.toQ 0.0625 0.75‖ ≤ 2.1e-7 ∧
    ‖surfacePoint (Ellipsoid.consts.WGS84 : Ellipsoid (F64 geodesicLibm)).a.m.toQ (Ellipsoid.consts.WGS84 : Ellipsoid (F64 geodesicLibm)).b.m.toQ
      l₂.toQ φ₂.toQ - γ 1000000‖ ≤ 2e-6 := by
  have v : (B64.isFinite (B64.lit 0.0625) = true ∧ (B64.lit 0.0625).toQ = 0.0625) ∧
      (B64.isFinite (B64.lit 0.75) = true ∧ (B64.lit 0.75).toQ = 0.75) ∧ (B64.isFinite (B64.lit 0.5) = true ∧ (B64.lit 0.5).toQ = 0.5) ∧
      B64.isFinite (B64.lit 1000000) = true ∧ (B64.lit 1000000).toQ = 1000000 := by decide +kernel
  obtain ⟨⟨f1, v1⟩, ⟨f2, v2⟩, ⟨f3, v3⟩, f4, v4⟩ := v
  have u1 : ((B64.lit 0.0625).toQ : ℝ) = 0.0625 := by rw [v1]; norm_num
  have u2 : ((B64.lit 0.75).toQ : ℝ) = 0.75 := by rw [v2]; norm_num
  have u4 : ((B64.lit 1000000).toQ : ℝ) = 1000000 := by rw [v4]; norm_num
  obtain ⟨γ, l₂, φ₂, α₂, h1, -, -, -, -, h2, h3, -, h4, -⟩ := C113_karney_direct (L := geodesicLibm) geodesicLibm_accurate
    (el := Ellipsoid.consts.WGS84) wgs84_earthSized (wgs84_flat (L := geodesicLibm)).2 wgs84_f (l := B64.lit 0.0625) (φ := B64.lit 0.75)
    (α := B64.lit 0.5) (s := B64.lit 1000000) ⟨f1, by
      show |(B64.lit 0.0625).toQ| ≤ B64.pi.toQ
      rw [v1, pi_fin.2, abs_of_pos (by norm_num)]; norm_num⟩ f2 (by
      show |(B64.lit 0.75).toQ| ≤ B64.pi_2.toQ
      rw [v2, pi_2_fin.2, abs_of_pos (by norm_num)]; norm_num) (by
      show 0.1 ≤ Real.cos ((B64.lit 0.75).toQ : ℝ)
      rw [u2]
      have := Real.one_sub_sq_div_two_le_cos (x := 0.75)
      norm_num at this ⊢
      linarith) ⟨f3, by
      show |(B64.lit 0.5).toQ| ≤ B64.pi.toQ
      rw [v3, pi_fin.2, abs_of_pos (by norm_num)]; norm_num⟩ f4 (by
      show |(B64.lit 1000000).toQ| ≤ 21000000
      rw [v4, abs_of_pos (by norm_num)]; norm_num)
  change ‖γ 0 - surfacePoint _ _ ((B64.lit 0.0625).toQ : ℝ) ((B64.lit 0.75).toQ : ℝ)‖ ≤ _ at h3
  change ‖_ - γ ((B64.lit 1000000).toQ : ℝ)‖ ≤ _ at h4
  rw [u1, u2] at h3
  rw [u4] at h4
  exact ⟨γ, l₂, φ₂, α₂, h1, h2, h3, h4⟩

end Geo
