import Verif.Lemmas.TransverseProj
import Verif.Lemmas.NearExists
import Verif.Props.TransverseMercatorExact

/-! # C105: the transverse Mercator projection and UTM in IEEE arithmetic

The doubles computed by the code are compared with the values of the same formulas in exact arithmetic, which C36–C40
describe. -/

namespace Geo
open XR Spec
variable {L : Libm}

/-- Central meridian and scale may themselves be rounded. -/
theorem tm_forward (hL : AccurateProjection L) {el : Ellipsoid (F64 L)} (h : EarthSized el) {l l0 φ φ0 k0 fe fn ht : F64 L}
    {L0 K0 : ℝ} (hl : InLonRange l) (hl0 : InLonRange l0) (kl0 : Near l0 L0 1.3e-15) (hφ : φ.isFinite) (hb : |φ.toQ| ≤ 1.4836)
    (hφ0 : φ0.isFinite) (hb0 : |φ0.toQ| ≤ 1.4836) (hk : Near k0 K0 1.2e-16) (rk : |K0| ≤ 1.1)
    (hfe : fe.isFinite) (hfe1 : |fe.toQ| ≤ 20000000) (hfn : fn.isFinite)
    (hfn1 : |fn.toQ| ≤ 20000000) (hs : |Real.sin ((l.toQ : ℝ) - L0)| ≤ 0.48) (s : String) (h' : ℝ) :
    ∃ (E N : F64 L) (E' N' : ℝ),
      (TransverseMercator.new el ⟨⟨l0⟩⟩ ⟨⟨φ0⟩⟩ k0 ⟨fe⟩ ⟨fn⟩).proj ⟨⟨⟨l⟩⟩, ⟨⟨φ⟩⟩, ⟨ht⟩⟩ = .ok ⟨⟨E⟩, ⟨N⟩, ⟨ht⟩⟩ ∧
      (tmSpec s el.a.m.toQ el.b.m.toQ L0 φ0.toQ K0 fe.toQ fn.toQ).proj (llh l.toQ φ.toQ h') = .ok (enh E' N' h') ∧
      Near E E' 2.5e-7 ∧ Near N N' 5e-7 := by
  obtain ⟨E, N, k1, k2, k3⟩ := tm_proj_near hL h (ht := ht) hl hl0 kl0 hφ hb hφ0 hb0 hk rk hfe hfe1 hfn hfn1 hs
  obtain ⟨e1, e2, e3⟩ := earth_real h
  have hb0' : (0 : ℝ) < el.b.m.toQ := by linarith
  have hp := Real.pi_gt_d4
  have r : |(φ.toQ : ℝ)| ≤ 1.4836 := by have := cast_abs_le hb; push_cast at this; exact this
  have r0 : |(φ0.toQ : ℝ)| ≤ 1.4836 := by have := cast_abs_le hb0; push_cast at this; exact this
  rw [abs_le] at r r0
  norm_num at hp r r0
  refine ⟨E, N, _, _, k1, ?_, k2, k3⟩
  have hd : |Real.cos (confR (Real.sqrt (ecc2 el.a.m.toQ el.b.m.toQ)) φ.toQ) * Real.sin ((l.toQ : ℝ) - L0)| < 1 := by
    rw [abs_mul]
    refine lt_of_le_of_lt (mul_le_mul (Real.abs_cos_le_one _) hs (abs_nonneg _) zero_le_one) (by norm_num)
  rw [tmSpec_eq hb0' e2 s L0 (by linarith) (by linarith), Projection.proj,
    tmR_proj _ _ _ _ _ _ _ _ _ _ _ _ _ _ _ (Real.sqrt_nonneg _) (sqrt_ecc2_lt hb0' e2) _ _ h' (by linarith) (by linarith) hd]

/-- **C105**: with an accurate mathematical library, on an ellipsoid of the size of the Earth, for latitudes up to 85° and
longitudes up to 28° from the central meridian, the easting computed in doubles is within a quarter of a micrometre, and the northing within half a
micrometre, of the values in exact arithmetic. The height is unchanged. -/
theorem C105_forward (hL : AccurateProjection L) {el : Ellipsoid (F64 L)} (h : EarthSized el) {l l0 φ φ0 k0 fe fn ht : F64 L}
    (hl : InLonRange l) (hl0 : InLonRange l0) (hφ : φ.isFinite) (hb : |φ.toQ| ≤ 1.4836)
    (hφ0 : φ0.isFinite) (hb0 : |φ0.toQ| ≤ 1.4836) (hk : k0.isFinite) (hk1 : |k0.toQ| ≤ 1.1)
    (hfe : fe.isFinite) (hfe1 : |fe.toQ| ≤ 20000000) (hfn : fn.isFinite)
    (hfn1 : |fn.toQ| ≤ 20000000) (hs : |Real.sin ((l.toQ : ℝ) - l0.toQ)| ≤ 0.48) (s : String) (h' : ℝ) :
    ∃ (E N : F64 L) (E' N' : ℝ),
      ((ProjectionSpec.transverseMercator ⟨⟨l0⟩⟩ ⟨⟨φ0⟩⟩ k0 ⟨fe⟩ ⟨fn⟩).appliedTo el).proj ⟨⟨⟨l⟩⟩, ⟨⟨φ⟩⟩, ⟨ht⟩⟩ = .ok ⟨⟨E⟩, ⟨N⟩, ⟨ht⟩⟩ ∧
      (tmSpec s el.a.m.toQ el.b.m.toQ l0.toQ φ0.toQ k0.toQ fe.toQ fn.toQ).proj (llh l.toQ φ.toQ h') = .ok (enh E' N' h') ∧
      Near E E' 2.5e-7 ∧ Near N N' 5e-7 := by
  have rk : |(k0.toQ : ℝ)| ≤ 1.1 := by have := cast_abs_le hk1; push_cast at this; exact this
  exact tm_forward hL h hl hl0 ((Near.exact hl0.1).mono (by norm_num)) hφ hb hφ0 hb0 ((Near.exact hk).mono (by norm_num)) rk
    hfe hfe1 hfn hfn1 hs s h'

/-- A national grid: origin at 0.75 rad of latitude and 0.0625 rad of longitude, unit scale, false coordinates 500 000 and 0, and the point of the
equator at longitude 0.5. -/
example : ∃ (E N : F64 roundLibm) (E' N' : ℝ),
    ((ProjectionSpec.transverseMercator ⟨⟨Flt.lit 0.0625⟩⟩ ⟨⟨Flt.lit 0.75⟩⟩ (Flt.lit 1) ⟨Flt.lit 500000⟩ ⟨Flt.lit 0⟩).appliedTo
      (Ellipsoid.consts.WGS84 : Ellipsoid (F64 roundLibm))).proj
      ⟨⟨⟨Flt.lit 0.5⟩⟩, ⟨⟨Flt.lit 0⟩⟩, ⟨Flt.lit 0⟩⟩ = .ok ⟨⟨E⟩, ⟨N⟩, ⟨Flt.lit 0⟩⟩ ∧ Near E E' 2.5e-7 ∧ Near N N' 5e-7 := by
  have v : (B64.isFinite (B64.lit 0.0625) = true ∧ (B64.lit 0.0625).toQ = 0.0625) ∧
      (B64.isFinite (B64.lit 0.75) = true ∧ (B64.lit 0.75).toQ = 0.75) ∧
      (B64.isFinite (B64.lit 0.5) = true ∧ (B64.lit 0.5).toQ = 0.5) ∧ (B64.isFinite (B64.lit 0) = true ∧ (B64.lit 0).toQ = 0) ∧
      (B64.isFinite (B64.lit 1) = true ∧ (B64.lit 1).toQ = 1) ∧
      (B64.isFinite (B64.lit 500000) = true ∧ (B64.lit 500000).toQ = 500000) ∧
      |(0.0625 : ℚ)| ≤ B64.pi.toQ ∧ |(0.5 : ℚ)| ≤ B64.pi.toQ := by decide +kernel
  obtain ⟨⟨f1, v1⟩, ⟨f2, v2⟩, ⟨f3, v3⟩, ⟨f4, v4⟩, ⟨f5, v5⟩, ⟨f6, v6⟩, i1, i2⟩ := v
  obtain ⟨E, N, E', N', k1, -, k3⟩ := C105_forward roundLibm_accurateProjection wgs84_earthSized (l := B64.lit 0.5) (l0 := B64.lit 0.0625)
    (φ := B64.lit 0) (φ0 := B64.lit 0.75) (k0 := B64.lit 1) (fe := B64.lit 500000) (fn := B64.lit 0) (ht := B64.lit 0)
    ⟨f3, by rw [← v3] at i2; exact i2⟩ ⟨f1, by rw [← v1] at i1; exact i1⟩ f4
    (by show |(B64.lit 0).toQ| ≤ _; rw [v4]; norm_num) f2
    (by show |(B64.lit 0.75).toQ| ≤ _; rw [v2, abs_of_pos (by norm_num)]; norm_num) f5 (by show |(B64.lit 1).toQ| ≤ _; rw [v5]; norm_num) f6
    (by show |(B64.lit 500000).toQ| ≤ _; rw [v6]; norm_num) f4 (by show |(B64.lit 0).toQ| ≤ _; rw [v4]; norm_num)
    (by
      show |Real.sin (((B64.lit 0.5).toQ : ℝ) - ((B64.lit 0.0625).toQ : ℝ))| ≤ _
      rw [v3, v1]
      refine Real.abs_sin_le_abs.trans ?_
      rw [abs_le]; constructor <;> norm_num) "WGS 84" 0
  exact ⟨E, N, E', N', k1, k3⟩

/-! ### UTM -/

/-- A mathematical library for evaluating closed terms that do not use it. -/
def noLibm : Libm := ⟨id, id, fun x _ => x, fun x _ => x, fun x _ => x, id, id, id, id, id, id, id, fun x _ => x, id, id, id, id, id⟩

theorem utm_lon0_noLibm (z : ℕ) : ((TransverseMercator.utmLon0 z : Lon (F64 L)).angle.rad : B64) =
    ((TransverseMercator.utmLon0 z : Lon (F64 noLibm)).angle.rad : B64) := rfl

theorem utm_lon0_values : ∀ i : Fin 60,
    B64.isFinite ((TransverseMercator.utmLon0 (i.val + 1) : Lon (F64 noLibm)).angle.rad : B64) = true ∧
    |B64.toQ ((TransverseMercator.utmLon0 (i.val + 1) : Lon (F64 noLibm)).angle.rad : B64)| ≤ B64.pi.toQ ∧
    |B64.toQ ((TransverseMercator.utmLon0 (i.val + 1) : Lon (F64 noLibm)).angle.rad : B64)
      - (6 * ((i.val + 1 : ℕ) : ℚ) - 180) / 180 * 3.14159265358979323846| ≤ 1.1e-15 := by decide +kernel

theorem utm_values : (B64.isFinite (TransverseMercator.UTM_K0 : F64 noLibm) = true ∧
      |B64.toQ (TransverseMercator.UTM_K0 : F64 noLibm) - 0.9996| ≤ 1.2e-16) ∧
    (B64.isFinite (TransverseMercator.UTM_FE : Length (F64 noLibm)).m = true ∧
      B64.toQ (TransverseMercator.UTM_FE : Length (F64 noLibm)).m = 500000) ∧
    (B64.isFinite (TransverseMercator.UTM_FN_NORTH : Length (F64 noLibm)).m = true ∧
      B64.toQ (TransverseMercator.UTM_FN_NORTH : Length (F64 noLibm)).m = 0) ∧
    (B64.isFinite (TransverseMercator.UTM_FN_SOUTH : Length (F64 noLibm)).m = true ∧
      B64.toQ (TransverseMercator.UTM_FN_SOUTH : Length (F64 noLibm)).m = 10000000) ∧
    (B64.isFinite (TransverseMercator.UTM_LAT0 : Lat (F64 noLibm)).angle.rad = true ∧
      B64.toQ (TransverseMercator.UTM_LAT0 : Lat (F64 noLibm)).angle.rad = 0) := by decide +kernel

theorem utm_lon0_near {z : ℕ} (h1 : 1 ≤ z) (h2 : z ≤ 60) :
    InLonRange (TransverseMercator.utmLon0 z : Lon (F64 L)).angle.rad ∧
    Near (TransverseMercator.utmLon0 z : Lon (F64 L)).angle.rad (remR ((6 * z - 180) * (Real.pi / 180))) 1.3e-15 := by
  obtain ⟨v1, v2, v3⟩ := utm_lon0_values ⟨z - 1, by omega⟩
  have hz : z - 1 + 1 = z := by omega
  simp only [hz] at v1 v2 v3
  have z1 : (1 : ℝ) ≤ z := by exact_mod_cast h1
  have z2 : (z : ℝ) ≤ 60 := by exact_mod_cast h2
  have hp := Real.pi_pos
  refine ⟨⟨v1, v2⟩, v1, ?_⟩
  rw [remR_id (by nlinarith) (by nlinarith)]
  have v4 := cast_abs_le v3
  push_cast at v4
  change |((B64.toQ ((TransverseMercator.utmLon0 z : Lon (F64 noLibm)).angle.rad : B64) : ℚ) : ℝ) - (6 * z - 180) * (Real.pi / 180)| ≤ 1.3e-15
  have g1 := Real.pi_gt_d20
  have g2 := Real.pi_lt_d20
  have e : |(6 * (z : ℝ) - 180) / 180 * 3.14159265358979323846 - (6 * z - 180) * (Real.pi / 180)| ≤ 1e-16 := by
    rw [show (6 * (z : ℝ) - 180) / 180 * 3.14159265358979323846 - (6 * z - 180) * (Real.pi / 180)
      = ((6 * (z : ℝ) - 180) / 180) * (3.14159265358979323846 - Real.pi) by ring, abs_mul]
    have a1 : |(6 * (z : ℝ) - 180) / 180| ≤ 1 := by rw [abs_le]; constructor <;> linarith
    have a2 : |(3.14159265358979323846 : ℝ) - Real.pi| ≤ 1e-16 := by
      norm_num at g1 g2
      rw [abs_le]; constructor <;> norm_num <;> linarith
    exact (mul_le_mul a1 a2 (abs_nonneg _) zero_le_one).trans (by norm_num)
  refine (abs_sub_le _ ((6 * (z : ℝ) - 180) / 180 * 3.14159265358979323846) _).trans ((add_le_add v4 e).trans (by norm_num))

/-- **C105**, UTM: the easting and the northing in each of the sixty zones, north and south, are within a quarter and half of a micrometre
of those in exact arithmetic, including the rounding of the central meridian and of the scale. -/
theorem C105_utm (hL : AccurateProjection L) {el : Ellipsoid (F64 L)} (h : EarthSized el) {z : ℕ} (h1 : 1 ≤ z) (h2 : z ≤ 60)
    {l φ ht : F64 L} (hl : InLonRange l) (hφ : φ.isFinite) (hb : |φ.toQ| ≤ 1.4836)
    (hs : |Real.sin ((l.toQ : ℝ) - (6 * z - 180) * (Real.pi / 180))| ≤ 0.48) (s : String) (h' : ℝ) :
    (∃ (E N : F64 L) (E' N' : ℝ),
      ((ProjectionSpec.utmNorth z).appliedTo el).proj ⟨⟨⟨l⟩⟩, ⟨⟨φ⟩⟩, ⟨ht⟩⟩ = .ok ⟨⟨E⟩, ⟨N⟩, ⟨ht⟩⟩ ∧
      (utmN s el.a.m.toQ el.b.m.toQ z).proj (llh l.toQ φ.toQ h') = .ok (enh E' N' h') ∧
      Near E E' 2.5e-7 ∧ Near N N' 5e-7) ∧
    (∃ (E N : F64 L) (E' N' : ℝ),
      ((ProjectionSpec.utmSouth z).appliedTo el).proj ⟨⟨⟨l⟩⟩, ⟨⟨φ⟩⟩, ⟨ht⟩⟩ = .ok ⟨⟨E⟩, ⟨N⟩, ⟨ht⟩⟩ ∧
      (utmS s el.a.m.toQ el.b.m.toQ z).proj (llh l.toQ φ.toQ h') = .ok (enh E' N' h') ∧
      Near E E' 2.5e-7 ∧ Near N N' 5e-7) := by
  obtain ⟨⟨k1, k2⟩, ⟨e1, e2⟩, ⟨n1, n2⟩, ⟨s1, s2⟩, ⟨p1, p2⟩⟩ := utm_values
  obtain ⟨c1, c2⟩ := utm_lon0_near (L := L) h1 h2
  have hk : Near (TransverseMercator.UTM_K0 : F64 L) 0.9996 1.2e-16 := by
    refine ⟨k1, ?_⟩
    have := cast_abs_le k2
    push_cast at this
    exact this
  have rk : |(0.9996 : ℝ)| ≤ 1.1 := by rw [abs_of_pos (by norm_num)]; norm_num
  have hs' : |Real.sin ((l.toQ : ℝ) - remR ((6 * z - 180) * (Real.pi / 180)))| ≤ 0.48 := by
    rw [((SameDirection.refl _).sub (remR_same _)).sin]; exact hs
  have ee : |(TransverseMercator.UTM_FE : Length (F64 L)).m.toQ| ≤ 20000000 := by
    change |B64.toQ (TransverseMercator.UTM_FE : Length (F64 noLibm)).m| ≤ _; rw [e2]; norm_num
  have nn : |(TransverseMercator.UTM_FN_NORTH : Length (F64 L)).m.toQ| ≤ 20000000 := by
    change |B64.toQ (TransverseMercator.UTM_FN_NORTH : Length (F64 noLibm)).m| ≤ _; rw [n2]; norm_num
  have ss : |(TransverseMercator.UTM_FN_SOUTH : Length (F64 L)).m.toQ| ≤ 20000000 := by
    change |B64.toQ (TransverseMercator.UTM_FN_SOUTH : Length (F64 noLibm)).m| ≤ _; rw [s2]; norm_num
  have pp : |(TransverseMercator.UTM_LAT0 : Lat (F64 L)).angle.rad.toQ| ≤ 1.4836 := by
    change |B64.toQ (TransverseMercator.UTM_LAT0 : Lat (F64 noLibm)).angle.rad| ≤ _; rw [p2]; norm_num
  have q1 : (((TransverseMercator.UTM_FE : Length (F64 L)).m.toQ : ℚ) : ℝ) = 500000 := by
    change ((B64.toQ (TransverseMercator.UTM_FE : Length (F64 noLibm)).m : ℚ) : ℝ) = _; rw [e2]; norm_num
  have q2 : (((TransverseMercator.UTM_FN_NORTH : Length (F64 L)).m.toQ : ℚ) : ℝ) = 0 := by
    change ((B64.toQ (TransverseMercator.UTM_FN_NORTH : Length (F64 noLibm)).m : ℚ) : ℝ) = _; rw [n2]; norm_num
  have q3 : (((TransverseMercator.UTM_FN_SOUTH : Length (F64 L)).m.toQ : ℚ) : ℝ) = 10000000 := by
    change ((B64.toQ (TransverseMercator.UTM_FN_SOUTH : Length (F64 noLibm)).m : ℚ) : ℝ) = _; rw [s2]; norm_num
  have q4 : (((TransverseMercator.UTM_LAT0 : Lat (F64 L)).angle.rad.toQ : ℚ) : ℝ) = 0 := by
    change ((B64.toQ (TransverseMercator.UTM_LAT0 : Lat (F64 noLibm)).angle.rad : ℚ) : ℝ) = _; rw [p2]; norm_num
  constructor
  · have := tm_forward hL h (ht := ht) hl c1 c2 hφ hb (φ0 := (TransverseMercator.UTM_LAT0 : Lat (F64 L)).angle.rad) p1 pp hk rk
      (fe := (TransverseMercator.UTM_FE : Length (F64 L)).m) e1 ee
      (fn := (TransverseMercator.UTM_FN_NORTH : Length (F64 L)).m) n1 nn hs' s h'
    rw [q1, q2, q4, ← utmN_eq] at this
    exact this
  · have := tm_forward hL h (ht := ht) hl c1 c2 hφ hb (φ0 := (TransverseMercator.UTM_LAT0 : Lat (F64 L)).angle.rad) p1 pp hk rk
      (fe := (TransverseMercator.UTM_FE : Length (F64 L)).m) e1 ee
      (fn := (TransverseMercator.UTM_FN_SOUTH : Length (F64 L)).m) s1 ss hs' s h'
    rw [q1, q3, q4, ← utmS_eq] at this
    exact this

/-- A point at 0.0625 rad of longitude and 0.75 rad of latitude, in zone 31, on WGS 84, with the correctly rounded library. -/
example : ∃ (E N : F64 roundLibm) (E' N' : ℝ),
    ((ProjectionSpec.utmNorth 31).appliedTo (Ellipsoid.consts.WGS84 : Ellipsoid (F64 roundLibm))).proj
      ⟨⟨⟨Flt.lit 0.0625⟩⟩, ⟨⟨Flt.lit 0.75⟩⟩, ⟨Flt.lit 0⟩⟩ = .ok ⟨⟨E⟩, ⟨N⟩, ⟨Flt.lit 0⟩⟩ ∧
    (utmN "WGS 84" (Ellipsoid.consts.WGS84 : Ellipsoid (F64 roundLibm)).a.m.toQ
      (Ellipsoid.consts.WGS84 : Ellipsoid (F64 roundLibm)).b.m.toQ 31).proj (llh 0.0625 0.75 0) = .ok (enh E' N' 0) ∧
    Near E E' 2.5e-7 ∧ Near N N' 5e-7 := by
  have v : (B64.isFinite (B64.lit 0.0625) = true ∧ (B64.lit 0.0625).toQ = 0.0625) ∧
      B64.isFinite (B64.lit 0.75) = true ∧ (B64.lit 0.75).toQ = 0.75 := by decide +kernel
  obtain ⟨⟨f1, v1⟩, f2, v2⟩ := v
  have w1 : ((B64.lit 0.0625).toQ : ℝ) = 0.0625 := by rw [v1]; norm_num
  have w2 : ((B64.lit 0.75).toQ : ℝ) = 0.75 := by rw [v2]; norm_num
  have hp := Real.pi_gt_d2
  have hp' := Real.pi_lt_d2
  have := (C105_utm roundLibm_accurateProjection wgs84_earthSized (z := 31) (by norm_num) (by norm_num)
    (l := B64.lit 0.0625) (φ := B64.lit 0.75) (ht := Flt.lit 0) ⟨f1, by
      show |(B64.lit 0.0625).toQ| ≤ B64.pi.toQ
      rw [v1, pi_fin.2, abs_of_pos (by norm_num)]; norm_num⟩ f2 (by
      show |(B64.lit 0.75).toQ| ≤ 1.4836
      rw [v2, abs_of_pos (by norm_num)]; norm_num) (by
      show |Real.sin (((B64.lit 0.0625).toQ : ℝ) - _)| ≤ _
      rw [w1]
      refine Real.abs_sin_le_abs.trans ?_
      rw [abs_le]; constructor <;> norm_num <;> linarith) "WGS 84" 0).1
  change ∃ (E N : F64 roundLibm) (E' N' : ℝ), _ ∧ (utmN _ _ _ 31).proj (llh ((B64.lit 0.0625).toQ : ℝ) ((B64.lit 0.75).toQ : ℝ) 0) = _ ∧ _ at this
  rw [w1, w2] at this
  exact this

end Geo
