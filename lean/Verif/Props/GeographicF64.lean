import Verif.Props.CrsF64
import Verif.Props.GeodeticF64
import Verif.Props.Conditioning

/-!
# C103: geodetic coordinates of inaccurate positions, and the round trip from geodetic coordinates

C100 compares what `xyz_to_llh` computes with the geodetic coordinates of the given doubles; when these are themselves
rounded, C102 bounds what their error does.  Longitudes are compared after multiplication with the cosine of the latitude.
-/

namespace Geo
open XR Spec GeodeticDatum
variable {L : Libm}

/-- Longitude, latitude and height in doubles, close to real ones; the difference of the longitudes, full turns apart, is
measured along the parallel of the unit sphere. -/
structure CloseLlh (p : LLH (F64 L)) (l φ h f g k : ℝ) : Prop where
  lon_range : InLonRange p.lon.angle.rad
  lat_range : InLonRange p.lat.angle.rad
  lon : ∃ m : ℤ, Real.cos φ * |(p.lon.angle.rad.toQ : ℝ) - (l + m * (2 * Real.pi))| ≤ f
  lat : Near p.lat.angle.rad φ g
  height : Near p.height.m h k

/-- The distance to the centre. -/
theorem geo_norm {a b l φ h x y z : ℝ} (hb : 6000000 ≤ b) (hab : b ≤ a) (ha : a ≤ 7000000) (hfl : 0.995 * a ≤ b)
    (h1 : -500000 ≤ h) (h2 : h ≤ 2500000) (e : geo a b l φ h = xyz x y z) :
    5400000 ^ 2 ≤ x ^ 2 + y ^ 2 + z ^ 2 ∧ x ^ 2 + y ^ 2 + z ^ 2 ≤ 9600000 ^ 2 := by
  have hb0 : 0 < b := by linarith
  obtain ⟨e0, e1⟩ := ecc2_small hb0 hab hfl
  simp only [geo, xyz, XYZ.mk.injEq, Length.mk.injEq, XR.fin.injEq] at e
  obtain ⟨rfl, rfl, rfl⟩ := e
  have hw0 := wf_pos hb0 hab φ
  have hw := Real.sq_sqrt hw0.le
  obtain ⟨w1, w2⟩ := w_bounds e0 e1 (Real.sin_sq_le_one φ) (Real.sqrt_pos.2 hw0) hw
  have hN : pvr a b φ * Real.sqrt (wf a b φ) = a := by
    rw [pvr, div_mul_cancel₀]
    exact (Real.sqrt_pos.2 hw0).ne'
  have hwe : wf a b φ = 1 - ecc2 a b * Real.sin φ ^ 2 := rfl
  generalize pvr a b φ = N at *
  generalize Real.sqrt (wf a b φ) = w at *
  rw [hwe] at hw
  generalize ecc2 a b = E at *
  have sc := Real.sin_sq_add_cos_sq φ
  have sl := Real.sin_sq_add_cos_sq l
  have N0 : 0 ≤ N := by
    by_contra hc
    push Not at hc
    nlinarith
  have N1 : N ≤ 7050000 := by
    by_contra hc
    push Not at hc
    norm_num at *
    nlinarith
  have sum : ((N + h) * Real.cos φ * Real.cos l) ^ 2 + ((N + h) * Real.cos φ * Real.sin l) ^ 2 +
      ((N * (1 - E) + h) * Real.sin φ) ^ 2 = (N + h) ^ 2 * Real.cos φ ^ 2 + (N * (1 - E) + h) ^ 2 * Real.sin φ ^ 2 := by
    linear_combination (N + h) ^ 2 * Real.cos φ ^ 2 * sl
  rw [sum]
  have dot : (N + h) * Real.cos φ ^ 2 + (N * (1 - E) + h) * Real.sin φ ^ 2 = a * w + h := by
    linear_combination (N + h) * sc - N * hw + w * hN
  have aw : 0.994 * 6000000 ≤ a * w := by
    have := mul_le_mul (show 6000000 ≤ a by linarith) w1 (by norm_num) (by linarith)
    linarith
  have s0 := sq_nonneg (Real.sin φ)
  have c0 := sq_nonneg (Real.cos φ)
  generalize Real.sin φ ^ 2 = S at *
  generalize Real.cos φ ^ 2 = C at *
  have cs : ((N + h) * C + (N * (1 - E) + h) * S) ^ 2 ≤ (N + h) ^ 2 * C + (N * (1 - E) + h) ^ 2 * S := by
    have hC : C = 1 - S := by linarith
    subst hC
    nlinarith [mul_nonneg (mul_nonneg s0 c0) (sq_nonneg (N + h - (N * (1 - E) + h)))]
  constructor
  · rw [dot] at cs
    refine le_trans ?_ cs
    exact pow_le_pow_left₀ (by norm_num) (by norm_num at *; linarith) 2
  · have NE : N * (1 - E) ≤ N := by nlinarith
    have NE0 : 0 ≤ N * (1 - E) := mul_nonneg N0 (by norm_num at *; linarith)
    have b1 : (N + h) ^ 2 ≤ 9600000 ^ 2 := sq_le_sq' (by linarith) (by linarith)
    have b2 : (N * (1 - E) + h) ^ 2 ≤ 9600000 ^ 2 := sq_le_sq' (by linarith) (by linarith)
    have k1 := mul_le_mul_of_nonneg_right b1 c0
    have k2 := mul_le_mul_of_nonneg_right b2 s0
    norm_num at *
    linarith

theorem coord_sq {p x : ℝ} (h : |p - x| ≤ 1e-3) (hx : |x| ≤ 10000000) : |p ^ 2 - x ^ 2| ≤ 20001 := by
  have e : p ^ 2 - x ^ 2 = (p - x) * ((p - x) + 2 * x) := by ring
  rw [e, abs_mul]
  have h1 : |p - x + 2 * x| ≤ 20000001 := by
    have := abs_add_le (p - x) (2 * x)
    rw [abs_mul, abs_two] at this
    norm_num at *
    linarith
  exact (mul_le_mul h h1 (abs_nonneg _) (by norm_num)).trans (by norm_num)

theorem nearSurface_of {P : XYZ (F64 L)} {x y z ε : ℝ} (hx : Near P.x.m x ε) (hy : Near P.y.m y ε) (hz : Near P.z.m z ε)
    (hε : ε ≤ 1e-3) (lo : 5400000 ^ 2 ≤ x ^ 2 + y ^ 2 + z ^ 2) (hi : x ^ 2 + y ^ 2 + z ^ 2 ≤ 9600000 ^ 2) :
    NearSurface P := by
  have bx : |x| ≤ 10000000 := abs_le_of_sq_le_sq (by linarith [sq_nonneg y, sq_nonneg z]) (by norm_num)
  have bY : |y| ≤ 10000000 := abs_le_of_sq_le_sq (by linarith [sq_nonneg x, sq_nonneg z]) (by norm_num)
  have bz : |z| ≤ 10000000 := abs_le_of_sq_le_sq (by linarith [sq_nonneg x, sq_nonneg y]) (by norm_num)
  obtain ⟨x1, x2⟩ := abs_le.1 (coord_sq (hx.2.trans hε) bx)
  obtain ⟨y1, y2⟩ := abs_le.1 (coord_sq (hy.2.trans hε) bY)
  obtain ⟨z1, z2⟩ := abs_le.1 (coord_sq (hz.2.trans hε) bz)
  refine ⟨hx.1, hy.1, hz.1, ?_, ?_⟩
  · have : ((5000000 ^ 2 : ℚ) : ℝ) ≤ ((P.x.m.toQ ^ 2 + P.y.m.toQ ^ 2 + P.z.m.toQ ^ 2 : ℚ) : ℝ) := by
      push_cast
      norm_num at *
      linarith
    exact Rat.cast_le.1 this
  · have : ((P.x.m.toQ ^ 2 + P.y.m.toQ ^ 2 + P.z.m.toQ ^ 2 : ℚ) : ℝ) ≤ ((10000000 ^ 2 : ℚ) : ℝ) := by
      push_cast
      norm_num at *
      linarith
    exact Rat.cast_le.1 this

theorem sin_half_turns (t : ℝ) (m : ℤ) : |Real.sin ((t + m * (2 * Real.pi)) / 2)| = |Real.sin (t / 2)| := by
  have : (t + m * (2 * Real.pi)) / 2 = t / 2 + m * Real.pi := by ring
  rw [this, Real.sin_add_int_mul_pi, abs_mul]
  rcases Int.even_or_odd m with h | h
  · rw [h.neg_one_zpow, abs_one, one_mul]
  · rw [h.neg_one_zpow, abs_neg, abs_one, one_mul]

set_option maxHeartbeats 1000000 in
/-- **C103**: the geodetic coordinates computed from doubles within `ε` (at most 1 mm) of the geocentric coordinates of an
exact point between 500 km below and 2500 km above the ellipsoid. -/
theorem C103_geodetic_error (hL : AccurateInverse L) (d : GeodeticDatum (F64 L)) (he : EarthSized d.ellipsoid)
    (hlt : d.ellipsoid.b.m.toQ < d.ellipsoid.a.m.toQ) (hfl : 0.995 * d.ellipsoid.a.m.toQ ≤ d.ellipsoid.b.m.toQ)
    (h0 : InLonRange d.primeMeridian.lon.angle.rad) (P : XYZ (F64 L)) (id n pn : String) {l φ h ε : ℝ}
    (hφ1 : -(Real.pi / 2) ≤ φ) (hφ2 : φ ≤ Real.pi / 2) (hh1 : -500000 ≤ h) (hh2 : h ≤ 2500000) (hε : ε ≤ 1e-3)
    (hP : NearXyz P
      ((dat id n pn d.ellipsoid.a.m.toQ d.ellipsoid.b.m.toQ d.primeMeridian.lon.angle.rad.toQ).llhToXyz (llh l φ h)) ε) :
    CloseLlh (d.xyzToLlh P) l φ h (1.01e-6 * ε + 5.01e-15) (3.2e-7 * ε + 1.01e-14) (1.74 * ε + 1.01e-7) := by
  obtain ⟨e1, e2, e3⟩ := earth_real he
  have hb : (0 : ℝ) < d.ellipsoid.b.m.toQ := by linarith
  have hflR : 0.995 * (d.ellipsoid.a.m.toQ : ℝ) ≤ d.ellipsoid.b.m.toQ := by
    have := (Rat.cast_le (K := ℝ)).2 hfl
    push_cast at this
    exact this
  obtain ⟨x, y, z, eX, nx, ny, nz⟩ := hP
  have ε0 : 0 ≤ ε := nx.nonneg
  have eX' := eX
  rw [llhToXyz_all hb e2] at eX'
  obtain ⟨lo, hi⟩ := geo_norm e1 e2 e3 hflR hh1 hh2 eX'
  have surf := nearSurface_of nx ny nz hε lo hi
  obtain ⟨l', φ', h', x', y', eY, dx, dy, p1, p2, p3, p4, r1, r2, ⟨m, n1⟩, n2, n3⟩ :=
    C100_geodetic_backward hL d he hlt hfl h0 P surf id n pn
  obtain ⟨E, hE⟩ : ∃ E, E = 1.733 * (ε + 1e-39) := ⟨_, rfl⟩
  have E0 : 0 ≤ E := by rw [hE]; positivity
  have tri : ∀ u v w : ℝ, |v - u| ≤ ε → |w - v| ≤ 1e-39 → (u - w) ^ 2 ≤ (ε + 1e-39) ^ 2 := by
    intro u v w hu hw
    have h1 := abs_sub_le u v w
    rw [abs_sub_comm u v, abs_sub_comm v w] at h1
    rw [← sq_abs]
    exact pow_le_pow_left₀ (abs_nonneg _) (by linarith) 2
  have hd : (x - x') ^ 2 + (y - y') ^ 2 + (z - (P.z.m.toQ : ℝ)) ^ 2 ≤ E ^ 2 := by
    have t1 := tri x P.x.m.toQ x' nx.2 dx
    have t2 := tri y P.y.m.toQ y' ny.2 dy
    have t3 := tri z P.z.m.toQ P.z.m.toQ nz.2 (by norm_num)
    rw [hE, mul_pow]
    have : 0 ≤ (ε + 1e-39) ^ 2 := sq_nonneg _
    norm_num at *
    linarith
  have ρ0 : 3300000 ≤ 0.989 * (d.ellipsoid.a.m.toQ : ℝ) + (h + h') / 2 := by linarith
  obtain ⟨q1, -, q2, q3⟩ := C102_conditioning hb e2 hflR id n pn d.primeMeridian.lon.angle.rad.toQ l φ h l' φ' h' x y z x' y'
    P.z.m.toQ E hφ1 hφ2 p1 p2 (by linarith) E0 eX eY hd
  have E1 : E ≤ 1e-2 := by rw [hE]; norm_num at *; linarith
  -- a first bound of the height
  have step : ∀ ρ M : ℝ, 3300000 ≤ ρ → 0 ≤ M → M ≤ 5000000 → M / 2 * (E / ρ) ^ 2 ≤ 1e-3 * E := by
    intro ρ M h1 h2 h3
    have h4 : E / ρ ≤ E / 3300000 := div_le_div_of_nonneg_left E0 (by norm_num) h1
    have h5 : 0 ≤ E / ρ := div_nonneg E0 (by linarith)
    have h6 : (E / ρ) ^ 2 ≤ (E / 3300000) ^ 2 := pow_le_pow_left₀ h5 h4 2
    have h7 : M / 2 * (E / ρ) ^ 2 ≤ 2500000 * (E / 3300000) ^ 2 := mul_le_mul (by linarith) h6 (sq_nonneg _) (by norm_num)
    have h8 : 2500000 * (E / 3300000) ^ 2 = (2500000 / 3300000 ^ 2 * E) * E := by ring
    have h9 : 2500000 / 3300000 ^ 2 * E ≤ 1e-3 := by norm_num at *; linarith
    have := mul_le_mul_of_nonneg_right h9 E0
    linarith
  have q4 : |h - h'| ≤ 1.001 * E := by
    have := step _ (max 0 (max (-h) (-h'))) ρ0 (le_max_left _ _) (by
      refine max_le (by norm_num) (max_le ?_ ?_) <;> linarith)
    norm_num at *
    linarith
  obtain ⟨q5, q6⟩ := abs_le.1 q4
  have ρ1 : 5430000 ≤ 0.989 * (d.ellipsoid.a.m.toQ : ℝ) + (h + h') / 2 := by linarith
  have q7 : E / (0.989 * (d.ellipsoid.a.m.toQ : ℝ) + (h + h') / 2) ≤ E / 5430000 :=
    div_le_div_of_nonneg_left E0 (by norm_num) ρ1
  -- the latitude
  have pi4 := Real.pi_le_four
  have lat1 : |φ - φ'| ≤ 1.0001 * (E / 5430000) := by
    refine chord_small ?_ (q1.trans q7) (by norm_num at *; linarith)
    rw [abs_le]
    constructor <;> linarith
  -- the longitude
  have lon1 : ∃ j : ℤ, Real.cos φ * |l - l' + j * (2 * Real.pi)| ≤ Real.pi * (E / 5430000) := by
    obtain ⟨j, hj⟩ := remR_same (l - l')
    refine ⟨j, ?_⟩
    rw [← hj]
    have c := Real.cos_nonneg_of_neg_pi_div_two_le_of_le hφ1 hφ2
    have k1 := chord_le (remR_abs (l - l')) (c := 2 * |Real.sin (remR (l - l') / 2)|) le_rfl
    have k2 : |Real.sin (remR (l - l') / 2)| = |Real.sin ((l - l') / 2)| := by rw [hj, sin_half_turns]
    rw [k2] at k1
    have k3 := mul_le_mul_of_nonneg_left k1 c
    have hp := Real.pi_pos
    have k4 : Real.cos φ * (2 / Real.pi * |remR (l - l')|) ≤ 2 * (E / 5430000) := by linarith
    have k5 := mul_le_mul_of_nonneg_left k4 (show 0 ≤ Real.pi / 2 by positivity)
    have k6 : Real.pi / 2 * (Real.cos φ * (2 / Real.pi * |remR (l - l')|)) = Real.cos φ * |remR (l - l')| := by
      field_simp
    linarith
  obtain ⟨j, lon2⟩ := lon1
  have pi2 := Real.pi_lt_d20
  refine ⟨r1, r2, ⟨m + j, ?_⟩, ?_, ?_⟩
  · have c := Real.cos_nonneg_of_neg_pi_div_two_le_of_le hφ1 hφ2
    have c1 := Real.cos_le_one φ
    have k1 := abs_sub_le ((d.xyzToLlh P).lon.angle.rad.toQ : ℝ) (l' + m * (2 * Real.pi)) (l + ((m + j : ℤ) : ℝ) * (2 * Real.pi))
    have k2 : l' + m * (2 * Real.pi) - (l + ((m + j : ℤ) : ℝ) * (2 * Real.pi)) = -(l - l' + j * (2 * Real.pi)) := by
      push_cast; ring
    rw [k2, abs_neg] at k1
    have k3 := mul_le_mul_of_nonneg_left k1 c
    have k4 : Real.cos φ * |((d.xyzToLlh P).lon.angle.rad.toQ : ℝ) - (l' + m * (2 * Real.pi))| ≤ 1 * 5e-15 :=
      mul_le_mul c1 n1.2 (abs_nonneg _) (by norm_num)
    rw [mul_add] at k3
    have k5 : Real.pi * (E / 5430000) ≤ 3.1416 * (E / 5430000) :=
      mul_le_mul_of_nonneg_right (by norm_num at *; linarith) (by positivity)
    rw [hE] at k5 lon2
    norm_num at *
    linarith
  · refine ⟨n2.1, (abs_sub_le _ φ' _).trans ?_⟩
    have := n2.2
    rw [abs_sub_comm φ' φ]
    rw [hE] at lat1
    norm_num at *
    linarith
  · refine ⟨n3.1, (abs_sub_le _ h' _).trans ?_⟩
    have := n3.2
    rw [abs_sub_comm h' h]
    rw [hE] at q4
    norm_num at *
    linarith

/-- **C103**: computing the geocentric coordinates of a position and its longitude, latitude and height again, in IEEE
arithmetic: the position moves by less than half a micrometre along the parallel, and by less than 0.2 micrometres along
the meridian and in height. -/
theorem C103_round_trip_f64 (hL : AccurateInverse L) (d : GeodeticDatum (F64 L)) (he : EarthSized d.ellipsoid)
    (hlt : d.ellipsoid.b.m.toQ < d.ellipsoid.a.m.toQ) (hfl : 0.995 * d.ellipsoid.a.m.toQ ≤ d.ellipsoid.b.m.toQ)
    (h0 : InLonRange d.primeMeridian.lon.angle.rad) (p : LLH (F64 L)) (hl : InLonRange p.lon.angle.rad)
    (hφ : p.lat.angle.rad.isFinite) (hφ' : |p.lat.angle.rad.toQ| ≤ B64.pi_2.toQ) (hf : p.height.m.isFinite)
    (hh1 : -500000 ≤ p.height.m.toQ) (hh2 : p.height.m.toQ ≤ 2500000) :
    CloseLlh (d.xyzToLlh (d.llhToXyz p)) p.lon.angle.rad.toQ p.lat.angle.rad.toQ p.height.m.toQ 5.6e-14 2.7e-14 1.9e-7 := by
  have hpp : B64.pi_2.toQ ≤ B64.pi.toQ := by rw [pi_2_fin.2, pi_fin.2]; norm_num
  have hn := C97_geocentric_accuracy hL.toAccurate d he h0 p hl ⟨hφ, hφ'.trans hpp⟩ hf
    (abs_le.2 ⟨by linarith, by linarith⟩) "" "" ""
  obtain ⟨k1, k2⟩ := abs_le.1 (cast_abs hφ')
  have h1 : (-500000 : ℝ) ≤ p.height.m.toQ := by exact_mod_cast hh1
  have h2 : (p.height.m.toQ : ℝ) ≤ 2500000 := by exact_mod_cast hh2
  have hp := pi_2_real.2
  obtain ⟨r1, r2, ⟨m, r3⟩, r4, r5⟩ := C103_geodetic_error hL d he hlt hfl h0 (d.llhToXyz p) "" "" "" (by linarith)
    (by linarith) h1 h2 (by norm_num) hn
  exact ⟨r1, r2, ⟨m, r3.trans (by norm_num)⟩, r4.mono (by norm_num), r5.mono (by norm_num)⟩

/-- WGS 84, one radian east, half a radian south and 8848 m above the ellipsoid. -/
example : CloseLlh ((GeodeticDatum.consts.WGS84 : GeodeticDatum (F64 roundLibm)).xyzToLlh
    ((GeodeticDatum.consts.WGS84 : GeodeticDatum (F64 roundLibm)).llhToXyz
      ⟨⟨⟨Flt.lit 1⟩⟩, ⟨⟨Flt.lit (-0.5)⟩⟩, ⟨Flt.lit 8848⟩⟩)) 1 (-0.5) 8848 5.6e-14 2.7e-14 1.9e-7 := by
  have h : let x := B64.lit 1
      let y := B64.lit (-0.5)
      let z := B64.lit 8848
      x.isFinite = true ∧ y.isFinite = true ∧ z.isFinite = true ∧ x.toQ = 1 ∧ y.toQ = -0.5 ∧ z.toQ = 8848 := by
    decide +kernel
  obtain ⟨fx, fy, fz, x, y, z⟩ := h
  have ex : (Flt.lit 1 : F64 roundLibm).toQ = 1 := x
  have ey : (Flt.lit (-0.5) : F64 roundLibm).toQ = -0.5 := y
  have ez : (Flt.lit 8848 : F64 roundLibm).toQ = 8848 := z
  have := C103_round_trip_f64 roundLibm_accurateInverse GeodeticDatum.consts.WGS84
    wgs84_earthSized wgs84_flat.1 wgs84_flat.2 greenwich_inLonRange ⟨⟨⟨Flt.lit 1⟩⟩, ⟨⟨Flt.lit (-0.5)⟩⟩, ⟨Flt.lit 8848⟩⟩
    ⟨fx, by rw [ex, show (Flt.pi : F64 roundLibm).toQ = B64.pi.toQ from rfl, pi_fin.2]; norm_num [abs_le]⟩ fy
    (by rw [ey, pi_2_fin.2]; norm_num [abs_le]) fz
    (by rw [ez]; norm_num) (by rw [ez]; norm_num)
  simp only [ex, ey, ez] at this
  norm_num at this ⊢
  exact this

end Geo
