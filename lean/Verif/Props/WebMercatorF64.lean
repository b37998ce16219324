import Verif.Lemmas.CylindricalRound

/-! # C109: the Web Mercator projection in IEEE arithmetic

The doubles computed by the code are compared with the values of the same formulas in exact arithmetic, which C32 and C33
describe. -/

namespace Geo
open XR Spec
variable {L : Libm}

theorem earth_a {el : Ellipsoid (F64 L)} (h : EarthSized el) : (6000000 : ℝ) ≤ el.a.m.toQ ∧ |(el.a.m.toQ : ℝ)| ≤ 7000000 := by
  obtain ⟨e1, e2, e3⟩ := earth_real h
  exact ⟨e1.trans e2, by rw [abs_of_nonneg (by linarith)]; exact e3⟩

theorem web_forward (hL : AccurateProjection L) {el : Ellipsoid (F64 L)} (h : EarthSized el) {l l0 φ fe fn ht : F64 L}
    (hl : InLonRange l) (hl0 : InLonRange l0) (hφ : φ.isFinite) (h1 : -(Real.pi / 2) < (φ.toQ : ℝ)) (h2 : (φ.toQ : ℝ) < Real.pi / 2)
    (hc : 1e-3 ≤ Real.cos φ.toQ) (hfe : fe.isFinite) (hfe1 : |fe.toQ| ≤ 20000000) (hfn : fn.isFinite)
    (hfn1 : |fn.toQ| ≤ 20000000) (lat0 : Lat (F64 L)) :
    ∃ (E N : F64 L) (n : ℤ),
      ((ProjectionSpec.webMercator ⟨⟨l0⟩⟩ lat0 ⟨fe⟩ ⟨fn⟩).appliedTo el).proj ⟨⟨⟨l⟩⟩, ⟨⟨φ⟩⟩, ⟨ht⟩⟩ = .ok ⟨⟨E⟩, ⟨N⟩, ⟨ht⟩⟩ ∧
      E.isFinite ∧ |(E.toQ : ℝ) - (fe.toQ + el.a.m.toQ * normR ((l.toQ : ℝ) - l0.toQ)) - n * (2 * Real.pi * el.a.m.toQ)| ≤ 2e-8 ∧
      |normR ((l.toQ : ℝ) - l0.toQ) + n * (2 * Real.pi)| ≤ 3.142 ∧
      ((∃ j : ℤ, |(l.toQ : ℝ) - l0.toQ - j * (2 * Real.pi)| ≤ 3.14159265358979) → n = 0) ∧
      Near N (fn.toQ + el.a.m.toQ * Real.arsinh (Real.tan φ.toQ)) (5e-8 + 7e-9 / Real.cos φ.toQ) := by
  obtain ⟨a0, a1⟩ := earth_a h
  have ka := Near.exact h.a_finite
  obtain ⟨n, k1, k2, k3, k4⟩ := easting_near hl hl0 ka a1 (by norm_num) (by norm_num) (by norm_num) hfe hfe1 (E := 2e-8) (by norm_num)
  have hcp : 0 < Real.cos (φ.toQ : ℝ) := lt_of_lt_of_le (by norm_num) hc
  obtain ⟨_, i2⟩ := lat_inside h1 h2 hc
  have kt := half_tan_near hL hφ h1 h2 hc
  have e1 : 9.1e-16 / Real.cos (φ.toQ : ℝ) = 9.1e-16 * (1 / Real.cos φ.toQ) := by ring
  have e2 : 7e-9 / Real.cos (φ.toQ : ℝ) = 7e-9 * (1 / Real.cos φ.toQ) := by ring
  have g0 : 0 ≤ 1 / Real.cos (φ.toQ : ℝ) := by positivity
  have g1 : 1 / Real.cos (φ.toQ : ℝ) ≤ 1000 := by rw [div_le_iff₀ hcp]; norm_num at *; linarith
  rw [e1] at kt
  rw [e2]
  generalize 1 / Real.cos (φ.toQ : ℝ) = g at *
  have kln := kt.ln hL (A := 8) (E := 9.11e-16 * g + 4.1e-15) (by norm_num at *; linarith) i2 (by norm_num at *; linarith)
  have kN := northing_near kln (i2.trans (by norm_num)) (by norm_num at *; linarith) ka a1 (by norm_num) (by norm_num) (by norm_num) hfn hfn1
    (E := 5e-8 + 7e-9 * g) (by norm_num at *; linarith)
  exact ⟨_, _, n, rfl, k2, k1, k3, k4, kN⟩

/-- **C109**, forward: with an accurate mathematical library, on an ellipsoid of the size of the Earth and for latitudes up to
89.94° the northing computed in doubles is within `50 nm + 7 nm / cos φ` of the value in exact arithmetic, and the easting
within 20 nm, up to whole circumferences, none if the point is not within `4e-15` rad of the antimeridian of the origin. The height is
unchanged. -/
theorem C109_forward (hL : AccurateProjection L) {el : Ellipsoid (F64 L)} (h : EarthSized el) {l l0 φ fe fn ht : F64 L}
    (hl : InLonRange l) (hl0 : InLonRange l0) (hφ : φ.isFinite) (h1 : -(Real.pi / 2) < (φ.toQ : ℝ)) (h2 : (φ.toQ : ℝ) < Real.pi / 2)
    (hc : 1e-3 ≤ Real.cos φ.toQ) (hfe : fe.isFinite) (hfe1 : |fe.toQ| ≤ 20000000) (hfn : fn.isFinite)
    (hfn1 : |fn.toQ| ≤ 20000000) (lat0 : Lat (F64 L)) (lat0' : Lat XR) (s : String) (h' : ℝ) :
    ∃ (E N : F64 L) (E' N' : ℝ) (n : ℤ),
      ((ProjectionSpec.webMercator ⟨⟨l0⟩⟩ lat0 ⟨fe⟩ ⟨fn⟩).appliedTo el).proj ⟨⟨⟨l⟩⟩, ⟨⟨φ⟩⟩, ⟨ht⟩⟩ = .ok ⟨⟨E⟩, ⟨N⟩, ⟨ht⟩⟩ ∧
      (webMerc s el.a.m.toQ el.b.m.toQ l0.toQ lat0' fe.toQ fn.toQ).proj (llh l.toQ φ.toQ h') = .ok (enh E' N' h') ∧
      E.isFinite ∧ |(E.toQ : ℝ) - E' - n * (2 * Real.pi * el.a.m.toQ)| ≤ 2e-8 ∧
      ((∃ j : ℤ, |(l.toQ : ℝ) - l0.toQ - j * (2 * Real.pi)| ≤ 3.14159265358979) → n = 0) ∧
      Near N N' (5e-8 + 7e-9 / Real.cos φ.toQ) := by
  obtain ⟨E, N, n, k1, k2, k3, -, k4, k5⟩ := web_forward hL h (ht := ht) hl hl0 hφ h1 h2 hc hfe hfe1 hfn hfn1 lat0
  exact ⟨E, N, _, _, n, k1, webMerc_proj s _ _ _ lat0' _ _ _ _ h' h1 h2, k2, k3, k4, k5⟩

/-- **C109**, inverse: for eastings up to five, and northings up to nine, semi-major axes from the origin, the latitude is within `5e-15` rad and
the longitude within `3e-15` rad, up to whole turns, of the values in exact arithmetic. -/
theorem C109_inverse (hL : AccurateProjection L) {el : Ellipsoid (F64 L)} (h : EarthSized el) {l0 E N fe fn ht : F64 L}
    (hl0 : InLonRange l0) (hE : E.isFinite) (hN : N.isFinite) (hfe : fe.isFinite) (hfn : fn.isFinite)
    (bE : |(E.toQ : ℝ) - fe.toQ| ≤ 5 * el.a.m.toQ) (bN : |(N.toQ : ℝ) - fn.toQ| ≤ 9 * el.a.m.toQ)
    (lat0 : Lat (F64 L)) (lat0' : Lat XR) (s : String) (h' : ℝ) :
    ∃ (l φ : F64 L) (l' φ' : ℝ) (n : ℤ),
      ((ProjectionSpec.webMercator ⟨⟨l0⟩⟩ lat0 ⟨fe⟩ ⟨fn⟩).appliedTo el).unproj ⟨⟨E⟩, ⟨N⟩, ⟨ht⟩⟩ = .ok ⟨⟨⟨l⟩⟩, ⟨⟨φ⟩⟩, ⟨ht⟩⟩ ∧
      (webMerc s el.a.m.toQ el.b.m.toQ l0.toQ lat0' fe.toQ fn.toQ).unproj (enh E.toQ N.toQ h') = .ok (llh l' φ' h') ∧
      Near φ φ' 5e-15 ∧ InLonRange l ∧ |(l.toQ : ℝ) - l' - n * (2 * Real.pi)| ≤ 3e-15 := by
  obtain ⟨a0, a1⟩ := earth_a h
  have a2 := (abs_le.1 a1).2
  have ka := Near.exact h.a_finite
  have hd := webMerc_unproj s (show (el.a.m.toQ : ℝ) ≠ 0 by linarith) el.b.m.toQ l0.toQ lat0' fe.toQ fn.toQ E.toQ N.toQ h'
  generalize ((el.a.m.toQ : ℚ) : ℝ) = a at *
  obtain ⟨e1, e2⟩ := offset_div_near hE hfe ka (K := 5) (δ := 6.1e-16) (E := 1.3e-15) (by linarith) (by norm_num; linarith) (by norm_num) (by norm_num)
    (by norm_num) bE (by norm_num; linarith) (by norm_num) (by norm_num)
  obtain ⟨n1, n2⟩ := offset_div_near hfn hN ka (K := 9) (δ := 1.09e-15) (E := 2.2e-15) (by linarith) (by norm_num; linarith) (by norm_num) (by norm_num)
    (by norm_num) (by rw [abs_sub_comm]; exact bN) (by norm_num; linarith) (by norm_num) (by norm_num)
  obtain ⟨n, l1, l2⟩ := lon_back_near hl0 e1 e2 (by norm_num) (E := 3e-15) (by norm_num)
  have hψ : |((N.toQ : ℝ) - fn.toQ) / a| ≤ 9 := by
    rw [← neg_sub, neg_div, abs_neg]; exact n2
  have kd : Near ((fn - N) / el.a.m) (-(((N.toQ : ℝ) - fn.toQ) / a)) 2.2e-15 := n1.congr (by ring)
  have k1 := Near.exp hL kd (E := 2.7e-15) (by rw [abs_neg]; norm_num at *; linarith) (by norm_num)
  have k2 := k1.atan hL (E := 2.1e-15) (by norm_num)
  have g := gd_eq (((N.toQ : ℝ) - fn.toQ) / a)
  have g1 := Real.neg_pi_div_two_lt_arctan (Real.sinh (((N.toQ : ℝ) - fn.toQ) / a))
  have g2 := Real.arctan_lt_pi_div_two (Real.sinh (((N.toQ : ℝ) - fn.toQ) / a))
  have hp := Real.pi_lt_d4
  have kφ : Near (Lat.new (Angle.PI_2 - Angle.new (2.0 * Flt.atan (Flt.exp ((fn - N) / el.a.m : F64 L))) RAD)).angle.rad
      (Real.arctan (Real.sinh (((N.toQ : ℝ) - fn.toQ) / a))) 5e-15 := by
    generalize Real.arctan (Real.exp (-(((N.toQ : ℝ) - fn.toQ) / a))) = t at *
    have t0 : 0 < t := by linarith
    have t1 : t < Real.pi / 2 := by linarith
    have k3 := Near.mul near_2 k2 (A := 2) (B := 1.5708) (R := 3.15) (E := 4.6e-15) (by norm_num)
      (by rw [abs_of_pos t0]; norm_num at *; linarith) (by norm_num) (by norm_num) (by norm_num) (by norm_num)
    have k4 := Near.sub pi_2_near (rad_near k3) (R := 1.58) (E := 4.9e-15) (by
      rw [g]
      have : |Real.arctan (Real.sinh (((N.toQ : ℝ) - fn.toQ) / a))| ≤ 1.571 := by rw [abs_le]; constructor <;> norm_num at * <;> linarith
      norm_num at *
      linarith) (by norm_num) (by norm_num) (by norm_num)
    have k5 := (lat_clamp_near k4).2
    rw [g, clampR_id g1.le g2.le] at k5
    exact k5.mono (by norm_num)
  exact ⟨_, _, _, _, n, rfl, hd, kφ, l1, l2⟩

/-- **C109**, round trip: both directions in doubles give the latitude back within `1.6e-14` rad, a tenth of a micrometre on the ground, and the
longitude within `9e-15` rad, up to whole turns, for latitudes up to 89.94°. -/
theorem C109_round_trip (hL : AccurateProjection L) {el : Ellipsoid (F64 L)} (h : EarthSized el) {l l0 φ fe fn ht : F64 L}
    (hl : InLonRange l) (hl0 : InLonRange l0) (hφ : φ.isFinite) (h1 : -(Real.pi / 2) < (φ.toQ : ℝ)) (h2 : (φ.toQ : ℝ) < Real.pi / 2)
    (hc : 1e-3 ≤ Real.cos φ.toQ) (hfe : fe.isFinite) (hfe1 : |fe.toQ| ≤ 20000000) (hfn : fn.isFinite)
    (hfn1 : |fn.toQ| ≤ 20000000) (lat0 : Lat (F64 L)) :
    ∃ (E N x y : F64 L) (n : ℤ),
      ((ProjectionSpec.webMercator ⟨⟨l0⟩⟩ lat0 ⟨fe⟩ ⟨fn⟩).appliedTo el).proj ⟨⟨⟨l⟩⟩, ⟨⟨φ⟩⟩, ⟨ht⟩⟩ = .ok ⟨⟨E⟩, ⟨N⟩, ⟨ht⟩⟩ ∧
      ((ProjectionSpec.webMercator ⟨⟨l0⟩⟩ lat0 ⟨fe⟩ ⟨fn⟩).appliedTo el).unproj ⟨⟨E⟩, ⟨N⟩, ⟨ht⟩⟩ = .ok ⟨⟨⟨x⟩⟩, ⟨⟨y⟩⟩, ⟨ht⟩⟩ ∧
      Near y φ.toQ 1.6e-14 ∧ x.isFinite ∧ |(x.toQ : ℝ) - l.toQ - n * (2 * Real.pi)| ≤ 9e-15 := by
  obtain ⟨E, N, n, k1, k2, k3, k4, -, k5⟩ := web_forward hL h (ht := ht) hl hl0 hφ h1 h2 hc hfe hfe1 hfn hfn1 lat0
  obtain ⟨a0, a1⟩ := earth_a h
  have a2 := (abs_le.1 a1).2
  have hcp : 0 < Real.cos (φ.toQ : ℝ) := lt_of_lt_of_le (by norm_num) hc
  obtain ⟨_, i2⟩ := lat_inside h1 h2 hc
  have ha : (0 : ℝ) < el.a.m.toQ := by linarith
  obtain ⟨m, hm⟩ := normR_same ((l.toQ : ℝ) - l0.toQ)
  generalize hR : normR ((l.toQ : ℝ) - l0.toQ) = δ at *
  have bE : |(E.toQ : ℝ) - fe.toQ| ≤ 5 * el.a.m.toQ := by
    have e : (E.toQ : ℝ) - fe.toQ = ((E.toQ : ℝ) - (fe.toQ + el.a.m.toQ * δ) - n * (2 * Real.pi * el.a.m.toQ))
        + el.a.m.toQ * (δ + n * (2 * Real.pi)) := by ring
    rw [e]
    refine (abs_add_le _ _).trans ?_
    rw [abs_mul, abs_of_pos ha]
    have := mul_le_mul_of_nonneg_left k4 ha.le
    norm_num at *
    linarith
  have g1 : 7e-9 / Real.cos (φ.toQ : ℝ) ≤ 7e-6 := by rw [div_le_iff₀ hcp]; norm_num at *; linarith
  have bN : |(N.toQ : ℝ) - fn.toQ| ≤ 9 * el.a.m.toQ := by
    have e : (N.toQ : ℝ) - fn.toQ = ((N.toQ : ℝ) - (fn.toQ + el.a.m.toQ * Real.arsinh (Real.tan φ.toQ)))
        + el.a.m.toQ * Real.arsinh (Real.tan φ.toQ) := by ring
    rw [e]
    refine (abs_add_le _ _).trans ?_
    rw [abs_mul, abs_of_pos ha]
    have := mul_le_mul_of_nonneg_left i2 ha.le
    have := k5.2
    norm_num at *
    linarith
  obtain ⟨x, y, l', φ', j, q1, q2, q3, q4, q5⟩ := C109_inverse hL h (ht := ht) hl0 k2 k5.1 hfe hfn bE bN lat0 Lat.ZERO "" 0
  rw [webMerc_unproj "" ha.ne'] at q2
  simp only [llh, Except.ok.injEq, LLH.mk.injEq, Lon.mk.injEq, Lat.mk.injEq, Angle.mk.injEq, XR.fin.injEq] at q2
  obtain ⟨rfl, rfl, -⟩ := q2
  obtain ⟨i, hi⟩ := remR_same ((l0.toQ : ℝ) + ((E.toQ : ℝ) - fe.toQ) / el.a.m.toQ)
  rw [hi] at q5
  refine ⟨E, N, x, y, j + i + n + m, k1, q1, ⟨q3.1, ?_⟩, q4.1, ?_⟩
  · have d : |((N.toQ : ℝ) - fn.toQ) / el.a.m.toQ - Real.arsinh (Real.tan φ.toQ)| ≤ (5e-8 + 7e-9 / Real.cos φ.toQ) / 6000000 := by
      have e : ((N.toQ : ℝ) - fn.toQ) / el.a.m.toQ - Real.arsinh (Real.tan φ.toQ) =
          ((N.toQ : ℝ) - (fn.toQ + el.a.m.toQ * Real.arsinh (Real.tan φ.toQ))) / el.a.m.toQ := by field_simp; ring
      rw [e, abs_div, abs_of_pos ha]
      exact div_le_div₀ (by positivity) k5.2 (by norm_num) a0
    have w := gd_lip_local h1 h2 d (by norm_num at *; linarith)
    have w2 : 1.002 * Real.cos (φ.toQ : ℝ) * ((5e-8 + 7e-9 / Real.cos φ.toQ) / 6000000) ≤ 1e-14 := by
      have e : 1.002 * Real.cos (φ.toQ : ℝ) * ((5e-8 + 7e-9 / Real.cos φ.toQ) / 6000000) =
        1.002 * (5e-8 * Real.cos φ.toQ + 7e-9) / 6000000 := by field_simp
      rw [e, div_le_iff₀ (by norm_num)]
      have := Real.cos_le_one (φ.toQ : ℝ)
      norm_num at *
      linarith
    refine (abs_sub_le _ (Real.arctan (Real.sinh (((N.toQ : ℝ) - fn.toQ) / el.a.m.toQ))) _).trans
      ((add_le_add q3.2 (w.trans w2)).trans (by norm_num))
  · have d : |((E.toQ : ℝ) - fe.toQ) / el.a.m.toQ - δ - n * (2 * Real.pi)| ≤ 2e-8 / 6000000 := by
      have e : ((E.toQ : ℝ) - fe.toQ) / el.a.m.toQ - δ - n * (2 * Real.pi) =
          ((E.toQ : ℝ) - (fe.toQ + el.a.m.toQ * δ) - n * (2 * Real.pi * el.a.m.toQ)) / el.a.m.toQ := by field_simp; ring
      rw [e, abs_div, abs_of_pos ha]
      exact div_le_div₀ (by norm_num) k3 (by norm_num) a0
    have e : (x.toQ : ℝ) - l.toQ - ((j + i + n + m : ℤ) : ℝ) * (2 * Real.pi) =
        ((x.toQ : ℝ) - ((l0.toQ : ℝ) + ((E.toQ : ℝ) - fe.toQ) / el.a.m.toQ + i * (2 * Real.pi)) - j * (2 * Real.pi))
          + (((E.toQ : ℝ) - fe.toQ) / el.a.m.toQ - δ - n * (2 * Real.pi)) := by
      push_cast
      linear_combination hm
    rw [e]
    exact (abs_add_le _ _).trans ((add_le_add q5 d).trans (by norm_num))

/-- A point at 43° N, 28.6° E on WGS 84, with the origin of EPSG:3857, and its round trip. -/
example : ∃ (E N : F64 roundLibm) (E' N' : ℝ) (x y : F64 roundLibm) (n : ℤ),
    ((ProjectionSpec.webMercator ⟨⟨Flt.lit 0⟩⟩ ⟨⟨Flt.lit 0⟩⟩ ⟨Flt.lit 0⟩ ⟨Flt.lit 0⟩).appliedTo
      (Ellipsoid.consts.WGS84 : Ellipsoid (F64 roundLibm))).proj
      ⟨⟨⟨Flt.lit 0.5⟩⟩, ⟨⟨Flt.lit 0.75⟩⟩, ⟨Flt.lit 0⟩⟩ = .ok ⟨⟨E⟩, ⟨N⟩, ⟨Flt.lit 0⟩⟩ ∧
    (webMerc "" (Ellipsoid.consts.WGS84 : Ellipsoid (F64 roundLibm)).a.m.toQ (Ellipsoid.consts.WGS84 : Ellipsoid (F64 roundLibm)).b.m.toQ
      0 Lat.ZERO 0 0).proj (llh 0.5 0.75 0) = .ok (enh E' N' 0) ∧ Near E E' 2e-8 ∧ Near N N' 6.1e-8 ∧
    ((ProjectionSpec.webMercator ⟨⟨Flt.lit 0⟩⟩ ⟨⟨Flt.lit 0⟩⟩ ⟨Flt.lit 0⟩ ⟨Flt.lit 0⟩).appliedTo
      (Ellipsoid.consts.WGS84 : Ellipsoid (F64 roundLibm))).unproj ⟨⟨E⟩, ⟨N⟩, ⟨Flt.lit 0⟩⟩ = .ok ⟨⟨⟨x⟩⟩, ⟨⟨y⟩⟩, ⟨Flt.lit 0⟩⟩ ∧
    Near y 0.75 1.6e-14 ∧ |(x.toQ : ℝ) - 0.5 - n * (2 * Real.pi)| ≤ 9e-15 := by
  have v : (B64.isFinite (B64.lit 0.75) = true ∧ (B64.lit 0.75).toQ = 0.75) ∧
      (B64.isFinite (B64.lit 0.5) = true ∧ (B64.lit 0.5).toQ = 0.5) ∧ (B64.isFinite (B64.lit 0) = true ∧ (B64.lit 0).toQ = 0) ∧
      |(0 : ℚ)| ≤ B64.pi.toQ ∧ |(0.5 : ℚ)| ≤ B64.pi.toQ := by decide +kernel
  obtain ⟨⟨f1, v1⟩, ⟨f2, v2⟩, ⟨f3, v3⟩, i1, i2⟩ := v
  obtain ⟨p, hp, f1, v1⟩ : ∃ x : F64 roundLibm, Flt.lit 0.75 = x ∧ x.isFinite ∧ x.toQ = 0.75 := ⟨_, rfl, f1, v1⟩
  obtain ⟨l, hl, f2, v2⟩ : ∃ x : F64 roundLibm, Flt.lit 0.5 = x ∧ x.isFinite ∧ x.toQ = 0.5 := ⟨_, rfl, f2, v2⟩
  obtain ⟨z, hz, f3, v3⟩ : ∃ x : F64 roundLibm, Flt.lit 0 = x ∧ x.isFinite ∧ x.toQ = 0 := ⟨_, rfl, f3, v3⟩
  rw [hp, hl, hz]
  have u1 : (p.toQ : ℝ) = 0.75 := by rw [v1]; norm_num
  have u2 : (l.toQ : ℝ) = 0.5 := by rw [v2]; norm_num
  have u3 : (z.toQ : ℝ) = 0 := by rw [v3]; norm_num
  have hp := Real.pi_gt_d2
  have hc := Real.one_sub_sq_div_two_le_cos (x := 0.75)
  have hc' : (0.7 : ℝ) ≤ Real.cos 0.75 := by norm_num at *; linarith
  have g1 : -(Real.pi / 2) < (p.toQ : ℝ) := by rw [u1]; norm_num at *; linarith
  have g2 : (p.toQ : ℝ) < Real.pi / 2 := by rw [u1]; norm_num at *; linarith
  have g3 : 1e-3 ≤ Real.cos (p.toQ : ℝ) := by rw [u1]; norm_num at *; linarith
  have hz1 : |z.toQ| ≤ 20000000 := by rw [v3]; norm_num
  have hl : InLonRange l := ⟨f2, by rw [v2]; exact i2⟩
  have hl0 : InLonRange z := ⟨f3, by rw [v3]; exact i1⟩
  obtain ⟨E, N, E', N', n, k1, k2, k3, k4, k5, k6⟩ := C109_forward (ht := z) roundLibm_accurateProjection
    wgs84_earthSized hl hl0 f1 g1 g2 g3 f3 hz1 f3 hz1 ⟨⟨z⟩⟩ Lat.ZERO "" 0
  obtain ⟨E1, N1, x, y, j, q1, q2, q3, q4, q5⟩ := C109_round_trip (ht := z) roundLibm_accurateProjection
    wgs84_earthSized hl hl0 f1 g1 g2 g3 f3 hz1 f3 hz1 ⟨⟨z⟩⟩
  rw [k1] at q1
  cases q1
  rw [u1] at k2 k6 q3
  rw [u2, u3] at k2 k5
  rw [u2] at q5
  obtain rfl := k5 ⟨0, by norm_num [abs_le]⟩
  refine ⟨E, N, E', N', x, y, j, k1, k2, ⟨k3, by simpa using k4⟩, k6.mono ?_, q2, q3, q5⟩
  have : 7e-9 / Real.cos (0.75 : ℝ) ≤ 1e-8 := by rw [div_le_iff₀ (by linarith)]; norm_num at *; linarith
  norm_num at *
  linarith

/-- The point 500 km east and 8388608 m north of the origin. -/
example : ∃ (l φ : F64 roundLibm) (l' φ' : ℝ) (n : ℤ),
    ((ProjectionSpec.webMercator ⟨⟨Flt.lit 0⟩⟩ ⟨⟨Flt.lit 0⟩⟩ ⟨Flt.lit 0⟩ ⟨Flt.lit 0⟩).appliedTo
      (Ellipsoid.consts.WGS84 : Ellipsoid (F64 roundLibm))).unproj
      ⟨⟨Flt.lit 500000⟩, ⟨Flt.lit 8388608⟩, ⟨Flt.lit 0⟩⟩ = .ok ⟨⟨⟨l⟩⟩, ⟨⟨φ⟩⟩, ⟨Flt.lit 0⟩⟩ ∧
    (webMerc "" (Ellipsoid.consts.WGS84 : Ellipsoid (F64 roundLibm)).a.m.toQ (Ellipsoid.consts.WGS84 : Ellipsoid (F64 roundLibm)).b.m.toQ
      0 Lat.ZERO 0 0).unproj (enh 500000 8388608 0) = .ok (llh l' φ' 0) ∧ Near φ φ' 5e-15 ∧
    |(l.toQ : ℝ) - l' - n * (2 * Real.pi)| ≤ 3e-15 := by
  have v : (B64.isFinite (B64.lit 500000) = true ∧ (B64.lit 500000).toQ = 500000) ∧
      (B64.isFinite (B64.lit 8388608) = true ∧ (B64.lit 8388608).toQ = 8388608) ∧ (B64.isFinite (B64.lit 0) = true ∧ (B64.lit 0).toQ = 0) ∧
      |(0 : ℚ)| ≤ B64.pi.toQ := by decide +kernel
  obtain ⟨⟨f1, v1⟩, ⟨f2, v2⟩, ⟨f3, v3⟩, i1⟩ := v
  obtain ⟨E, hE, f1, v1⟩ : ∃ x : F64 roundLibm, Flt.lit 500000 = x ∧ x.isFinite ∧ x.toQ = 500000 := ⟨_, rfl, f1, v1⟩
  obtain ⟨N, hN, f2, v2⟩ : ∃ x : F64 roundLibm, Flt.lit 8388608 = x ∧ x.isFinite ∧ x.toQ = 8388608 := ⟨_, rfl, f2, v2⟩
  obtain ⟨z, hz, f3, v3⟩ : ∃ x : F64 roundLibm, Flt.lit 0 = x ∧ x.isFinite ∧ x.toQ = 0 := ⟨_, rfl, f3, v3⟩
  rw [hE, hN, hz]
  have u1 : (E.toQ : ℝ) = 500000 := by rw [v1]; norm_num
  have u2 : (N.toQ : ℝ) = 8388608 := by rw [v2]; norm_num
  have u3 : (z.toQ : ℝ) = 0 := by rw [v3]; norm_num
  obtain ⟨a0, a1⟩ := earth_a (wgs84_earthSized (L := roundLibm))
  obtain ⟨l, φ, l', φ', n, k1, k2, k3, -, k5⟩ := C109_inverse (ht := z) roundLibm_accurateProjection
    wgs84_earthSized (l0 := z) ⟨f3, by rw [v3]; exact i1⟩ f1 f2 f3 f3
    (by rw [u1, u3, abs_of_nonneg (by norm_num)]; linarith) (by rw [u2, u3, abs_of_nonneg (by norm_num)]; linarith) ⟨⟨z⟩⟩ Lat.ZERO "" 0
  rw [u1, u2, u3] at k2
  exact ⟨l, φ, l', φ', n, k1, k2, k3, k5⟩

end Geo
