import Verif.Lemmas.VincentyIdeal
import Verif.Lemmas.NearVincenty
import Verif.Props.KarneyForwardF64

/-! The direct Vincenty solver in IEEE arithmetic. -/

namespace Geo
open XR Spec VincentyGeodesicSolver
variable {L : Libm}

theorem vincenty_direct_f64 {el : Ellipsoid (F64 L)} {l φ α s tb cb sal kk A B σ₁ σ₀ C : F64 L} {st : DirectState (F64 L)}
    (htb : tb = (1 - el.f) * Flt.tan φ) (hcb : cb = 1 / Flt.sqrt (1 + tb * tb)) (hsal : sal = cb * Flt.sin α) (hkk : kk = 1 - Flt.powi sal 2)
    (hA : A = seriesA (kk * el.ePrimeSq)) (hB : B = seriesB (kk * el.ePrimeSq)) (hσ₁ : σ₁ = Flt.atan2 tb (Flt.cos α))
    (hσ₀ : σ₀ = ((ArcLength.mk (⟨s⟩ : Length (F64 L))).divLength (el.b * A)).rad) (hC : C = seriesC el.f kk)
    (hst : loopMax (directStep B ⟨σ₁⟩ ⟨σ₀⟩) directDone "Direct geodesic computation is not converging!" MAX_ITERATIONS
      ⟨⟨σ₀⟩, Flt.sin σ₀, Flt.cos σ₀, Flt.cos (2 * σ₁ + σ₀), ⟨σ₀⟩⟩ = .ok st) :
    (⟨el⟩ : VincentyGeodesicSolver (F64 L)).direct (⟨⟨l⟩⟩, ⟨⟨φ⟩⟩) ⟨⟨α⟩⟩ ⟨s⟩ = .ok ⟨(⟨⟨l⟩⟩, ⟨⟨φ⟩⟩), ⟨⟨α⟩⟩,
      ((⟨⟨l⟩⟩ : Lon (F64 L)).addAngle (⟨Flt.atan2 (st.sin_sigma * Flt.sin α) (cb * st.cos_sigma - tb * cb * st.sin_sigma * Flt.cos α)⟩ -
        ⟨(1 - C) * el.f * sal * (st.sigma.rad + C * st.sin_sigma * (st.cos_2_sigma_m + C * st.cos_sigma * (-1 + 2 * Flt.powi st.cos_2_sigma_m 2)))⟩),
        Lat.new ⟨Flt.atan2 (tb * cb * st.cos_sigma + cb * st.sin_sigma * Flt.cos α)
          ((1 - el.f) * Flt.sqrt (Flt.powi sal 2 + Flt.powi (tb * cb * st.sin_sigma - cb * st.cos_sigma * Flt.cos α) 2))⟩),
      ⟨(⟨Flt.atan2 sal (-(tb * cb) * st.sin_sigma + cb * st.cos_sigma * Flt.cos α)⟩ : Angle (F64 L)).normalized⟩, ⟨s⟩⟩ := by
  subst htb hcb hsal hkk hA hB hσ₁ hσ₀ hC
  simp only [VincentyGeodesicSolver.direct, rad_f64]
  erw [hst]
  rfl

set_option maxHeartbeats 1000000 in
/-- **C117**: the Vincenty direct solver in IEEE arithmetic converges and returns the end of the geodesic of the ellipsoid with the given
start and azimuth, up to Vincenty's truncation error `f⁴ (0.22 |s| + a / 400)` and seven tenths of a micrometre, for every start at less
than 84.2° of latitude, every azimuth and every distance of at most 21000 km. The returned azimuth is the direction of that geodesic at
its end, up to the truncation error and `4 * 10⁻¹³ / cos φ₂`. -/
theorem C117_vincenty_direct (hL : AccurateVincenty L) {el : Ellipsoid (F64 L)} (h : EarthSized el) (hfl : 0.995 * el.a.m.toQ ≤ el.b.m.toQ)
    (hf : Near el.f (((el.a.m.toQ : ℝ) - el.b.m.toQ) / el.a.m.toQ) 3e-16) {l φ α s : F64 L} (hl : InLonRange l) (hφ : φ.isFinite)
    (hφ2 : |φ.toQ| ≤ (Flt.pi_2 : F64 L).toQ) (hc : 0.1 ≤ Real.cos φ.toQ) (hα : InLonRange α) (hs : s.isFinite) (hs2 : |s.toQ| ≤ 21000000) :
    let a : ℝ := el.a.m.toQ
    let b : ℝ := el.b.m.toQ
    ∃ (γ : ℝ → E3) (l₂ φ₂ α₂ : F64 L),
      (GeodesicSolver.vincenty (⟨el⟩ : VincentyGeodesicSolver (F64 L))).solveDirect (⟨⟨l⟩⟩, ⟨⟨φ⟩⟩) ⟨⟨α⟩⟩ ⟨s⟩ =
        .ok ⟨(⟨⟨l⟩⟩, ⟨⟨φ⟩⟩), ⟨⟨α⟩⟩, (⟨⟨l₂⟩⟩, ⟨⟨φ₂⟩⟩), ⟨⟨α₂⟩⟩, ⟨s⟩⟩ ∧
      InLonRange l₂ ∧ φ₂.isFinite ∧ |φ₂.toQ| ≤ (Flt.pi_2 : F64 L).toQ ∧ InLonRange α₂ ∧ IsGeodesic a b γ ∧
      γ 0 = surfacePoint a b l.toQ φ.toQ ∧ deriv γ 0 = direction l.toQ φ.toQ α.toQ ∧
      ‖surfacePoint a b l₂.toQ φ₂.toQ - γ s.toQ‖ ≤ ((a - b) / a) ^ 4 * (22 / 100 * |(s.toQ : ℝ)| + 1 / 400 * a) + 7e-7 ∧
      Real.cos φ₂.toQ * ‖direction l₂.toQ φ₂.toQ α₂.toQ - deriv γ s.toQ‖ ≤
        ((a - b) / a) ^ 4 * (22 / 100 * (|(s.toQ : ℝ)| / a) + 1 / 400) + 4e-13 := by
  intro a b
  have hG := hL.toAccurateGeodesic
  obtain ⟨e1, e2, e3⟩ := earth_real h
  obtain ⟨f1, f2⟩ := ba_bound h hfl
  have hb : 0 < b := lt_of_lt_of_le (by norm_num) e1
  have hab : b ≤ a := e2
  have ha : 0 < a := lt_of_lt_of_le hb hab
  have hcφ : 0 < Real.cos φ.toQ := lt_of_lt_of_le (by norm_num) hc
  have hpφ : -(Real.pi / 2) < (φ.toQ : ℝ) ∧ (φ.toQ : ℝ) < Real.pi / 2 := by
    have t := cast_abs_le hφ2
    have p := pi_2_real.2
    have t' := abs_le.1 (t.trans p)
    refine ⟨lt_of_le_of_ne t'.1 fun e => ?_, lt_of_le_of_ne t'.2 fun e => ?_⟩
    · rw [← e, Real.cos_neg, Real.cos_pi_div_two] at hcφ; exact lt_irrefl _ hcφ
    · rw [e, Real.cos_pi_div_two] at hcφ; exact lt_irrefl _ hcφ
  have hF0 : 0 ≤ (a - b) / a := div_nonneg (by linarith) ha.le
  have hF1 : (a - b) / a ≤ 0.005 := by
    have : 0.995 * a ≤ b := by rwa [le_div_iff₀ ha] at f1
    rw [div_le_iff₀ ha]; norm_num at this ⊢; linarith
  -- the start
  obtain ⟨tb, htb⟩ : ∃ tb : F64 L, tb = (1 - el.f) * Flt.tan φ := ⟨_, rfl⟩
  obtain ⟨cb, hcb⟩ : ∃ cb : F64 L, cb = 1 / Flt.sqrt (1 + tb * tb) := ⟨_, rfl⟩
  obtain ⟨t, ht⟩ : ∃ t : ℝ, t = b / a * Real.tan φ.toQ := ⟨_, rfl⟩
  obtain ⟨t10, kt, kc, ksb⟩ := vin_beta_near h hfl hf hG hφ hφ2 hc htb hcb ht
  have hargφ := arg_reduced hb hab hpφ.1 hpφ.2
  rw [← ht] at hargφ
  have hβ : 0 < Real.cos (Real.arctan t) := Real.cos_arctan_pos t
  have hsβ : Real.sin (Real.arctan t) = t * Real.cos (Real.arctan t) := by
    rw [Real.sin_arctan, Real.cos_arctan]; ring
  have hcβ : Real.cos (Real.arctan t) ^ 2 * (1 + t ^ 2) = 1 := by rw [Real.cos_sq_arctan]; field_simp
  obtain ⟨hred, -, -, -⟩ := reduced_arg hb hab hβ.le
  rw [hargφ] at hred
  obtain ⟨β, hβd⟩ : ∃ β, β = Real.arctan t := ⟨_, rfl⟩
  rw [← hβd] at kc ksb hβ hsβ hcβ hred
  have hα4 : |α.toQ| ≤ 4 := hα.2.trans (by rw [show (Flt.pi : F64 L).toQ = 884279719003555 / 2 ^ 48 from pi_fin.2]; norm_num)
  have sa := (Near.exact hα.1).sin hL.toAccurate hα4 (E := 2.3e-16) (by norm_num)
  have ca := (Near.exact hα.1).cos hL.toAccurate hα4 (E := 2.3e-16) (by norm_num)
  obtain ⟨ks, kk, ku, K0, K1⟩ := vin_aux_near h hfl hG kc (Real.abs_cos_le_one _) sa (Real.abs_sin_le_one _)
  obtain ⟨g1, g2, k, g3⟩ := vin_sigma1_near hG t10 kt ca
  rw [← hβd] at g3
  -- the arc
  have qα := Real.sin_sq_add_cos_sq (α.toQ : ℝ)
  obtain ⟨p1, p2⟩ := polar_arg (Real.cos α.toQ) t
  obtain ⟨m, hm⟩ : ∃ m, m = Complex.arg ⟨Real.cos α.toQ, t⟩ := ⟨_, rfl⟩
  obtain ⟨R, hR⟩ : ∃ R, R = Real.sqrt (Real.cos α.toQ ^ 2 + t ^ 2) := ⟨_, rfl⟩
  have R2 : R ^ 2 = Real.cos α.toQ ^ 2 + t ^ 2 := by rw [hR]; exact Real.sq_sqrt (by positivity)
  rw [← hm, ← hR] at p1 p2
  rw [← hm] at g3
  obtain ⟨s0, hs0⟩ : ∃ s0, s0 = Real.cos β * Real.sin α.toQ := ⟨_, rfl⟩
  have h1 : s0 ^ 2 + (Real.cos β * R) ^ 2 = 1 := by
    rw [hs0, mul_pow, mul_pow, R2]; linear_combination hcβ + Real.cos β ^ 2 * qα
  have hs01 : |s0| ≤ 1 := abs_le_one_iff_mul_self_le_one.2 (by nlinarith [sq_nonneg (Real.cos β * R)])
  rw [← hs0] at ks kk ku K0 K1 g3
  obtain ⟨x, hx⟩ : ∃ x, x = (1 - s0 ^ 2) * ((a ^ 2 - b ^ 2) / b ^ 2) := ⟨_, rfl⟩
  change Near _ ((1 - s0 ^ 2) * ((a ^ 2 - b ^ 2) / b ^ 2)) _ at ku
  rw [← hx] at ku
  have hx' : x = (Real.cos β * R) ^ 2 * ((a ^ 2 - b ^ 2) / b ^ 2) := by rw [hx, show 1 - s0 ^ 2 = (Real.cos β * R) ^ 2 by linarith]
  obtain ⟨-, e20, e21⟩ := ePrime_near h hfl
  change 0 ≤ (a ^ 2 - b ^ 2) / b ^ 2 at e20
  change (a ^ 2 - b ^ 2) / b ^ 2 ≤ _ at e21
  have x0 : 0 ≤ x := by rw [hx]; exact mul_nonneg K0 e20
  have xK : x ≤ 0.0102 * (1 - s0 ^ 2) := by rw [hx, mul_comm]; exact mul_le_mul_of_nonneg_right e21 K0
  have x1 : x ≤ 0.0102 := xK.trans (by norm_num at K1 ⊢; linarith)
  obtain ⟨A0, A1⟩ := Bessel.vinA_bounds x0 (x1.trans (by norm_num))
  obtain ⟨B0, B1⟩ := Bessel.vinB_bounds x0 (x1.trans (by norm_num))
  have kA := seriesA_near ku x0 x1
  have kB := seriesB_near ku x0 x1
  obtain ⟨k0, b0⟩ := vin_sigma0_near h kA A0 (A1.trans (by norm_num at x1 ⊢; linarith)) hs hs2
  have hk : vincentyB x * |((Flt.atan2 tb (Flt.cos α) : F64 L).toQ : ℝ) - (m + k * (2 * Real.pi))| ≤ 1.4e-16 := by
    have b1 : vincentyB x ≤ 0.00255 * (1 - s0 ^ 2) := B1.trans (by norm_num at xK ⊢; linarith)
    have := mul_le_mul_of_nonneg_right b1 (abs_nonneg (((Flt.atan2 tb (Flt.cos α) : F64 L).toQ : ℝ) - (m + k * (2 * Real.pi))))
    norm_num at this g3 ⊢
    linarith
  obtain ⟨σ₁, hσ₁⟩ : ∃ σ₁ : F64 L, σ₁ = Flt.atan2 tb (Flt.cos α) := ⟨_, rfl⟩
  obtain ⟨sal, hsal⟩ : ∃ sal : F64 L, sal = cb * Flt.sin α := ⟨_, rfl⟩
  obtain ⟨kf, hkf⟩ : ∃ kf : F64 L, kf = 1 - Flt.powi sal 2 := ⟨_, rfl⟩
  obtain ⟨Af, hAf⟩ : ∃ A : F64 L, A = seriesA (kf * el.ePrimeSq) := ⟨_, rfl⟩
  obtain ⟨Bf, hBf⟩ : ∃ A : F64 L, A = seriesB (kf * el.ePrimeSq) := ⟨_, rfl⟩
  rw [← hsal] at ks kk ku kA kB k0
  rw [← hkf] at kk ku kA kB k0
  rw [← hAf] at kA k0
  rw [← hBf] at kB
  rw [← hσ₁] at g1 g2 g3 hk
  obtain ⟨σ₀, hσ₀⟩ : ∃ σ₀ : F64 L, σ₀ = ((ArcLength.mk (⟨s⟩ : Length (F64 L))).divLength (el.b * Af)).rad := ⟨_, rfl⟩
  rw [← hσ₀] at k0
  have b0' := (k0.abs_le).trans (add_le_add_left b0 _)
  obtain ⟨st, hst, hV, σ', d1, d2⟩ := vin_loop hG kB B0 (B1.trans (by norm_num at x1 ⊢; linarith)) g1 g2 hk k0 b0
    "Direct geodesic computation is not converging!" (st₀ := ⟨⟨σ₀⟩, Flt.sin σ₀, Flt.cos σ₀, Flt.cos (2 * σ₁ + σ₀), ⟨σ₀⟩⟩)
    ⟨k0.1, by norm_num at b0' ⊢; linarith, rfl, rfl, rfl⟩ rfl
  obtain ⟨n1, n2, n3⟩ := hV.near hG g1 g2
  have hdir := vincenty_direct_f64 (l := l) htb hcb hsal hkf hAf hBf hσ₁ hσ₀ rfl hst
  -- the end
  obtain ⟨q1, q2, q3, q4, q5⟩ := vin_components ksb kc n1 n2 sa ca
  obtain ⟨z1, z2⟩ := arc_components β α.toQ st.sigma.rad.toQ
  have hz := abs_le.1 (abs_le_one_iff_mul_self_le_one.2 (show (Real.sin β * Real.cos st.sigma.rad.toQ + Real.cos β * Real.sin st.sigma.rad.toQ * Real.cos α.toQ) *
    (Real.sin β * Real.cos st.sigma.rad.toQ + Real.cos β * Real.sin st.sigma.rad.toQ * Real.cos α.toQ) ≤ 1 by
      rw [← pow_two]; linarith [sq_nonneg (Real.cos β * Real.sin α.toQ), sq_nonneg (Real.sin β * Real.sin st.sigma.rad.toQ - Real.cos β * Real.cos st.sigma.rad.toQ * Real.cos α.toQ)]))
  obtain ⟨β₂, hβ₂⟩ : ∃ β₂, β₂ = Real.arcsin (Real.sin β * Real.cos st.sigma.rad.toQ + Real.cos β * Real.sin st.sigma.rad.toQ * Real.cos α.toQ) := ⟨_, rfl⟩
  have hsin : Real.sin β₂ = Real.sin β * Real.cos st.sigma.rad.toQ + Real.cos β * Real.sin st.sigma.rad.toQ * Real.cos α.toQ := by
    rw [hβ₂, Real.sin_arcsin hz.1 hz.2]
  have hcos : 0 ≤ Real.cos β₂ := by rw [hβ₂]; exact Real.cos_arcsin_nonneg _
  have qβ := Real.sin_sq_add_cos_sq β₂
  have hend := arcEnd β α.toQ st.sigma.rad.toQ β₂ hsin hcos
  obtain ⟨lam, hlam⟩ : ∃ lam, lam = Complex.arg ⟨Real.cos β * Real.cos st.sigma.rad.toQ - Real.sin β * Real.sin st.sigma.rad.toQ * Real.cos α.toQ,
    Real.sin st.sigma.rad.toQ * Real.sin α.toQ⟩ := ⟨_, rfl⟩
  obtain ⟨αe, hαe⟩ : ∃ αe, αe = Complex.arg ⟨-Real.sin β * Real.sin st.sigma.rad.toQ + Real.cos β * Real.cos st.sigma.rad.toQ * Real.cos α.toQ,
    Real.cos β * Real.sin α.toQ⟩ := ⟨_, rfl⟩
  rw [← hlam, ← hαe] at hend
  have ks' := ks
  rw [hs0] at ks'
  rw [← hsin] at q1 z1
  obtain ⟨v1, v2, v3⟩ := vin_lat_near h hfl hf hL hcos q1 ks' q2 (by linarith)
  obtain ⟨i, u1, u2, u3⟩ := polar_near_all hG (R := Real.cos β₂) (Θ := lam) (by rw [hend.outward]; exact q3) (by rw [hend.east]; exact q5) hcos
  obtain ⟨j, w1, w2, w3⟩ := polar_near_all hG (R := Real.cos β₂) (Θ := αe)
    (by rw [hend.north, show Real.cos β * Real.cos st.sigma.rad.toQ * Real.cos α.toQ - Real.sin β * Real.sin st.sigma.rad.toQ =
      -Real.sin β * Real.sin st.sigma.rad.toQ + Real.cos β * Real.cos st.sigma.rad.toQ * Real.cos α.toQ by ring]; exact q4)
    (by rw [hend.clairaut]; exact ks'.mono (by norm_num)) hcos
  obtain ⟨y1, y2⟩ := excess_near hG hf hF0 hF1 hs01 kk ks hV.fin hV.le n1 n2 n3 (Real.abs_cos_le_one _)
  have y3 := excess_node (σ := st.sigma.rad.toQ) hF0 hF1 hs01 g3
  obtain ⟨n, r1, r2⟩ := vin_lon_near hl u1 u2 y1 y2
  obtain ⟨i', r3, r4⟩ := normalized_near (Near.exact w1) ((Near.exact w1).abs_le_rat (by push_cast; norm_num at w2 ⊢; linarith))
  obtain ⟨γ, hγ, c1, c2, c3, c4⟩ := vincenty_ideal (l := l.toQ) hb hab f1 hβ hred hs0 (σ₁ := m) (c0 := Real.cos β * R)
    (by rw [← p1]; ring) (by rw [hsβ, ← p2]; ring) h1 hx' hend d1 d2
  obtain ⟨om, hom⟩ : ∃ om : F64 L, om = Flt.atan2 (st.sin_sigma * Flt.sin α) (cb * st.cos_sigma - tb * cb * st.sin_sigma * Flt.cos α) := ⟨_, rfl⟩
  obtain ⟨az, haz⟩ : ∃ az : F64 L, az = Flt.atan2 sal (-(tb * cb) * st.sin_sigma + cb * st.cos_sigma * Flt.cos α) := ⟨_, rfl⟩
  obtain ⟨exf, hexf⟩ : ∃ exf : F64 L, exf = (1 - seriesC el.f kf) * el.f * sal * (st.sigma.rad + seriesC el.f kf * st.sin_sigma *
    (st.cos_2_sigma_m + seriesC el.f kf * st.cos_sigma * (-1 + 2 * Flt.powi st.cos_2_sigma_m 2))) := ⟨_, rfl⟩
  rw [← hom] at hdir u1 u2 u3 r1 r2
  rw [← haz] at hdir w1 w2 w3 r3 r4
  rw [← hexf] at hdir r1 r2
  obtain ⟨lat, hlat⟩ : ∃ lat : F64 L, lat = (Lat.new (⟨Flt.atan2 (tb * cb * st.cos_sigma + cb * st.sin_sigma * Flt.cos α)
    ((1 - el.f) * Flt.sqrt (Flt.powi sal 2 + Flt.powi (tb * cb * st.sin_sigma - cb * st.cos_sigma * Flt.cos α) 2))⟩ : Angle (F64 L))).angle.rad := ⟨_, rfl⟩
  obtain ⟨lon, hlon⟩ : ∃ lon : F64 L, lon = ((⟨⟨l⟩⟩ : Lon (F64 L)).addAngle (⟨om⟩ - ⟨exf⟩ : Angle (F64 L))).angle.rad := ⟨_, rfl⟩
  obtain ⟨a2, ha2⟩ : ∃ a2 : F64 L, a2 = (⟨az⟩ : Angle (F64 L)).normalized.rad := ⟨_, rfl⟩
  rw [hsal, ← hsal, ← hlat] at v1 v2 v3
  rw [← hlon] at r1 r2
  rw [← ha2] at r3 r4
  obtain ⟨X, hX⟩ : ∃ X, X = vincentyExcess ((a - b) / a) s0 st.sigma.rad.toQ (Real.cos (2 * m + st.sigma.rad.toQ)) := ⟨_, rfl⟩
  rw [← hX] at y3 c3 c4
  obtain ⟨X', hX'⟩ : ∃ X', X' = vincentyExcess ((a - b) / a) s0 st.sigma.rad.toQ (Real.cos (2 * σ₁.toQ + st.sigma.rad.toQ)) := ⟨_, rfl⟩
  change |(lon.toQ : ℝ) - (l.toQ + (om.toQ - vincentyExcess ((a - b) / a) s0 st.sigma.rad.toQ (Real.cos (2 * σ₁.toQ + st.sigma.rad.toQ))) + n * (2 * Real.pi))| ≤ _ at r2
  rw [← hX'] at r2 y3
  obtain ⟨l', hl'⟩ : ∃ l', l' = (l.toQ : ℝ) + (lam - X) := ⟨_, rfl⟩
  rw [← hl'] at c3 c4
  have hcos1 := Real.cos_le_one β₂
  have kl : Real.cos β₂ * |(lon.toQ : ℝ) - (l' + ((n + i : ℤ) : ℝ) * (2 * Real.pi))| ≤ 3.3e-14 := by
    have e : (lon.toQ : ℝ) - (l' + ((n + i : ℤ) : ℝ) * (2 * Real.pi)) =
        (lon.toQ - (l.toQ + (om.toQ - X') + n * (2 * Real.pi))) + (om.toQ - (lam + i * (2 * Real.pi))) - (X' - X) := by
      rw [hl']; push_cast; ring
    have t1 := (abs_sub ((lon.toQ - (l.toQ + (om.toQ - X') + n * (2 * Real.pi))) + (om.toQ - (lam + i * (2 * Real.pi))) : ℝ) (X' - X)).trans
      (add_le_add_left (abs_add_le _ _) _)
    rw [← e] at t1
    have t2 := mul_le_mul_of_nonneg_left t1 hcos
    have t3 := mul_le_mul hcos1 r2 (abs_nonneg _) zero_le_one
    have t4 := mul_le_mul hcos1 y3 (abs_nonneg _) zero_le_one
    rw [mul_add, mul_add] at t2
    norm_num at t2 t3 t4 u3 ⊢
    linarith
  have kα : Real.cos β₂ * |(a2.toQ : ℝ) - (αe + ((j - i' : ℤ) : ℝ) * (2 * Real.pi))| ≤ 3.1e-14 := by
    have e : (a2.toQ : ℝ) - (αe + ((j - i' : ℤ) : ℝ) * (2 * Real.pi)) =
        (a2.toQ - (az.toQ - i' * (2 * Real.pi))) + (az.toQ - (αe + j * (2 * Real.pi))) := by push_cast; ring
    have t1 := abs_add_le (a2.toQ - (az.toQ - i' * (2 * Real.pi)) : ℝ) (az.toQ - (αe + j * (2 * Real.pi)))
    rw [← e] at t1
    have t2 := mul_le_mul_of_nonneg_left t1 hcos
    have t3 := mul_le_mul hcos1 r4.2 (abs_nonneg _) zero_le_one
    rw [mul_add] at t2
    norm_num at t2 t3 w3 ⊢
    linarith
  obtain ⟨x1', x2', x3'⟩ := vin_end_close hb hab f1 hcos kl kα v3
  have turnS : surfacePoint a b (l' + ((n + i : ℤ) : ℝ) * (2 * Real.pi)) (Complex.arg ⟨b / a * Real.cos β₂, Real.sin β₂⟩) =
      surfacePoint a b l' (Complex.arg ⟨b / a * Real.cos β₂, Real.sin β₂⟩) := by
    simp [surfacePoint, Real.cos_add_int_mul_two_pi, Real.sin_add_int_mul_two_pi, -Int.cast_add, -Int.cast_sub]
  have turnD : direction (l' + ((n + i : ℤ) : ℝ) * (2 * Real.pi)) (Complex.arg ⟨b / a * Real.cos β₂, Real.sin β₂⟩) (αe + ((j - i' : ℤ) : ℝ) * (2 * Real.pi)) =
      direction l' (Complex.arg ⟨b / a * Real.cos β₂, Real.sin β₂⟩) αe := by
    simp [direction, Real.cos_add_int_mul_two_pi, Real.sin_add_int_mul_two_pi, -Int.cast_add, -Int.cast_sub]
  rw [turnS] at x1'
  rw [turnD] at x2'
  have e3' : a ≤ 7000000 := e3
  refine ⟨γ, lon, lat, a2, ?_, r1, v1, v2, ⟨r4.1, r3⟩, hγ, c1, c2, ?_, ?_⟩
  · show (⟨el⟩ : VincentyGeodesicSolver (F64 L)).direct _ _ _ = _
    rw [hdir, hlat, hlon, ha2]
  · have t := norm_sub_le_norm_sub_add_norm_sub (surfacePoint a b lon.toQ lat.toQ) (surfacePoint a b l' (Complex.arg ⟨b / a * Real.cos β₂, Real.sin β₂⟩)) (γ s.toQ)
    norm_num at x1' c3 ⊢
    linarith
  · obtain ⟨D, hD⟩ : ∃ D, D = ‖direction lon.toQ lat.toQ a2.toQ - deriv γ s.toQ‖ := ⟨_, rfl⟩
    rw [← hD]
    have hD0 : 0 ≤ D := by rw [hD]; exact norm_nonneg _
    have hD2 : D ≤ 2 := by
      rw [hD]
      refine (norm_sub_le _ _).trans ?_
      rw [norm_direction, hγ.unit_speed]
      norm_num
    have pos : 0 ≤ ((a - b) / a) ^ 4 * (22 / 100 * (|(s.toQ : ℝ)| / a) + 1 / 400) := by positivity
    have key : Real.cos β₂ * D ≤ ((a - b) / a) ^ 4 * (22 / 100 * (|(s.toQ : ℝ)| / a) + 1 / 400) + 2.1e-13 := by
      rcases hcos.lt_or_eq with hlt | heq
      · have t := norm_sub_le_norm_sub_add_norm_sub (direction lon.toQ lat.toQ a2.toQ) (direction l' (Complex.arg ⟨b / a * Real.cos β₂, Real.sin β₂⟩) αe) (deriv γ s.toQ)
        rw [← hD] at t
        have t3 := mul_le_mul_of_nonneg_left t hlt.le
        have t4 := mul_le_mul hcos1 (c4 hlt.ne') (norm_nonneg _) zero_le_one
        rw [mul_add] at t3
        norm_num at t3 t4 x2' ⊢
        linarith
      · rw [← heq, zero_mul]; norm_num at pos ⊢; linarith
    have t := mul_le_mul_of_nonneg_right x3' hD0
    norm_num at t key ⊢
    linarith

/-- On WGS 84 with the correctly rounded library, over 1000 km. -/
example : ∃ (γ : ℝ → E3) (l₂ φ₂ α₂ : F64 geodesicLibm),
    (GeodesicSolver.vincenty ⟨(Ellipsoid.consts.WGS84 : Ellipsoid (F64 geodesicLibm))⟩).solveDirect
      (⟨⟨Flt.lit 0.0625⟩⟩, ⟨⟨Flt.lit 0.75⟩⟩) ⟨⟨Flt.lit 0.5⟩⟩ ⟨Flt.lit 1000000⟩ =
      .ok ⟨(⟨⟨Flt.lit 0.0625⟩⟩, ⟨⟨Flt.lit 0.75⟩⟩), ⟨⟨Flt.lit 0.5⟩⟩, (⟨⟨l₂⟩⟩, ⟨⟨φ₂⟩⟩), ⟨⟨α₂⟩⟩, ⟨Flt.lit 1000000⟩⟩ ∧
    IsGeodesic (Ellipsoid.consts.WGS84 : Ellipsoid (F64 geodesicLibm)).a.m.toQ (Ellipsoid.consts.WGS84 : Ellipsoid (F64 geodesicLibm)).b.m.toQ γ ∧
    γ 0 = surfacePoint (Ellipsoid.consts.WGS84 : Ellipsoid (F64 geodesicLibm)).a.m.toQ
      (Ellipsoid.consts.WGS84 : Ellipsoid (F64 geodesicLibm)).b.m.toQ 0.0625 0.75 ∧ deriv γ 0 = direction 0.0625 0.75 0.5 := by
  obtain ⟨⟨i1, u1⟩, -, ⟨i2, i3, i4, u2⟩, ⟨i5, u3⟩, i6, i7, u4⟩ := sample_values
  obtain ⟨γ, l₂, φ₂, α₂, h1, -, -, -, -, h0, h2, h3, -, -⟩ := C117_vincenty_direct (L := geodesicLibm) geodesicLibm_accurateVincenty
    (el := Ellipsoid.consts.WGS84) wgs84_earthSized (wgs84_flat (L := geodesicLibm)).2 wgs84_f i1 i2 i3 i4 i5 i6 i7
  change γ 0 = surfacePoint _ _ ((B64.lit 0.0625).toQ : ℝ) ((B64.lit 0.75).toQ : ℝ) at h2
  change deriv γ 0 = direction ((B64.lit 0.0625).toQ : ℝ) ((B64.lit 0.75).toQ : ℝ) ((B64.lit 0.5).toQ : ℝ) at h3
  rw [u1, u2] at h2
  rw [u1, u2, u3] at h3
  exact ⟨γ, l₂, φ₂, α₂, h1, h0, h2, h3⟩

end Geo
