import Verif.Props.AxesExact
import Verif.Props.ValuesF64
import Verif.Spec.SurfaceGeodesic
import Verif.Model.Report
import Verif.Props.EllipsoidExact

/-!
C87: the named tolerances. C88: the named azimuths. C70: the named datums. C30: construction of prime meridians. C14: the default axes. Exact arithmetic, and C87 in IEEE arithmetic.
-/

namespace Geo
open XR Spec

/-! ### C87 -/

theorem named_lengths : (Length.TINY : Length XR) = ⟨fin 1e-4⟩ ∧ (Length.SMALL : Length XR) = ⟨fin 1e-3⟩ := by
  simp [Length.TINY, Length.SMALL, length_new_m]

theorem named_angles : (Angle.TINY : Angle XR) = ⟨fin 1e-12⟩ ∧ (Angle.SMALL : Angle XR) = ⟨fin 1e-9⟩ := by
  simp [Angle.TINY, Angle.SMALL, angle_new_rad]

theorem dist3_lt {a b c a' b' c' t : ℝ} (h1 : |a - a'| ≤ t) (h2 : |b - b'| ≤ t) (h3 : |c - c'| ≤ t) (ht : 0 < t) :
    dist (point3 a b c) (point3 a' b' c') < 2 * t := by
  have sq : ∀ {x : ℝ}, |x| ≤ t → x ^ 2 ≤ t ^ 2 := fun h => by rw [← sq_abs]; exact pow_le_pow_left₀ (abs_nonneg _) h 2
  rw [dist_point3, Real.sqrt_lt' (by positivity)]
  nlinarith [sq h1, sq h2, sq h3, sq_pos_of_pos ht]

/-- **C87**, geocentric coordinates: `tiny()` allows 1e-4 m on each axis, which is less than a millimetre in distance;
`small()` allows 1e-3 m on each axis, which is less than a centimetre. -/
theorem C87_cartesian (a b c a' b' c' : ℝ) :
    ((xyz a b c).approxEq (xyz a' b' c') .tiny = true ↔ |a - a'| ≤ 1e-4 ∧ |b - b'| ≤ 1e-4 ∧ |c - c'| ≤ 1e-4) ∧
    ((xyz a b c).approxEq (xyz a' b' c') .small = true ↔ |a - a'| ≤ 1e-3 ∧ |b - b'| ≤ 1e-3 ∧ |c - c'| ≤ 1e-3) ∧
    ((xyz a b c).approxEq (xyz a' b' c') .tiny = true →
      ∃ d : ℝ, (xyz a b c).distTo (xyz a' b' c') = ⟨fin d⟩ ∧ d < 1 / 1000) ∧
    ((xyz a b c).approxEq (xyz a' b' c') .small = true →
      ∃ d : ℝ, (xyz a b c).distTo (xyz a' b' c') = ⟨fin d⟩ ∧ d < 1 / 100) := by
  have k1 := (C13_coordinates a b c a' b' c' 1e-4 0 0).2.1
  have k2 := (C13_coordinates a b c a' b' c' 1e-3 0 0).2.1
  simp only [CartesianTolerance.tiny, CartesianTolerance.small, named_lengths.1, named_lengths.2]
  rw [k1, k2]
  refine ⟨Iff.rfl, Iff.rfl, fun ⟨h1, h2, h3⟩ => ?_, fun ⟨h1, h2, h3⟩ => ?_⟩
  · exact ⟨_, (C19_dist_to _ _ _ _ _ _).1, (dist3_lt h1 h2 h3 (by norm_num)).trans (by norm_num)⟩
  · exact ⟨_, (C19_dist_to _ _ _ _ _ _).1, (dist3_lt h1 h2 h3 (by norm_num)).trans (by norm_num)⟩

/-- **C87**, projected coordinates. -/
theorem C87_projected (a b c a' b' c' : ℝ) :
    ((enh a b c).approxEq (enh a' b' c') .tiny = true ↔ |a - a'| ≤ 1e-4 ∧ |b - b'| ≤ 1e-4 ∧ |c - c'| ≤ 1e-4) ∧
    ((enh a b c).approxEq (enh a' b' c') .small = true ↔ |a - a'| ≤ 1e-3 ∧ |b - b'| ≤ 1e-3 ∧ |c - c'| ≤ 1e-3) ∧
    ((enh a b c).approxEq (enh a' b' c') .tiny = true →
      ∃ d : ℝ, (enh a b c).distTo (enh a' b' c') = ⟨fin d⟩ ∧ d < 1 / 1000) ∧
    ((enh a b c).approxEq (enh a' b' c') .small = true →
      ∃ d : ℝ, (enh a b c).distTo (enh a' b' c') = ⟨fin d⟩ ∧ d < 1 / 100) := by
  have k1 := (C13_coordinates a b c a' b' c' 1e-4 1e-4 0).2.2
  have k2 := (C13_coordinates a b c a' b' c' 1e-3 1e-3 0).2.2
  simp only [ProjectedTolerance.tiny, ProjectedTolerance.small, named_lengths.1, named_lengths.2]
  rw [k1, k2]
  refine ⟨Iff.rfl, Iff.rfl, fun ⟨h1, h2, h3⟩ => ?_, fun ⟨h1, h2, h3⟩ => ?_⟩
  · exact ⟨_, (C19_dist_to _ _ _ _ _ _).2, (dist3_lt h1 h2 h3 (by norm_num)).trans (by norm_num)⟩
  · exact ⟨_, (C19_dist_to _ _ _ _ _ _).2, (dist3_lt h1 h2 h3 (by norm_num)).trans (by norm_num)⟩

/-- **C87**, geodetic coordinates: `tiny()` allows 1e-12 rad around the circle of longitudes and in latitude and 1e-4 m in
height. `small()` allows 1e-9 rad, as documented, but 1e-4 m in height where the documentation says 1e-3 m. -/
theorem C87_geodetic_partial (a b c a' b' c' : ℝ) :
    ((llh a b c).approxEq (llh a' b' c') .tiny = true ↔
      (∃ t, SameDirection t (a - a') ∧ |t| ≤ 1e-12) ∧ |b - b'| ≤ 1e-12 ∧ |c - c'| ≤ 1e-4) ∧
    ((llh a b c).approxEq (llh a' b' c') .small = true ↔
      (∃ t, SameDirection t (a - a') ∧ |t| ≤ 1e-9) ∧ |b - b'| ≤ 1e-9 ∧ |c - c'| ≤ 1e-4) := by
  simp only [GeodeticTolerance.tiny, GeodeticTolerance.small, named_lengths.1, named_angles.1, named_angles.2]
  exact ⟨(C13_coordinates a b c a' b' c' 1e-12 1e-12 1e-4).1, (C13_coordinates a b c a' b' c' 1e-9 1e-9 1e-4).1⟩

/-- **C87** is violated in height: half a millimetre is within the documented `1e-3 m` and is refused. -/
theorem C87_small_height_violated :
    (llh 0 0 0).approxEq (llh 0 0 5e-4) .small = false ∧ |(0 : ℝ) - 5e-4| ≤ 1e-3 := by
  constructor
  · rw [← Bool.not_eq_true, (C87_geodetic_partial _ _ _ _ _ _).2]
    rintro ⟨-, -, h⟩
    norm_num [abs_of_neg] at h
  · norm_num [abs_of_neg]

/-- **C87**: the default error bounds of the geodesic test harness are the tiny ones. -/
theorem C87_defaults :
    (DirectErrors.default : DirectErrors XR) = ⟨⟨fin 1e-12⟩, ⟨fin 1e-12⟩, ⟨fin 1e-12⟩⟩ ∧
    (InverseErrors.default : InverseErrors XR) = ⟨⟨fin 1e-12⟩, ⟨fin 1e-12⟩, ⟨fin 1e-4⟩⟩ := by
  simp [DirectErrors.default, InverseErrors.default, named_lengths.1, named_angles.1]

/-- A tenth of a millimetre off on every axis is within `tiny()`, a millimetre off is within `small()` only. -/
example : (xyz 1 2 3).approxEq (xyz 1 2.0001 3) .tiny = true ∧ (xyz 1 2 3).approxEq (xyz 1 2.001 3) .tiny = false ∧
    (xyz 1 2 3).approxEq (xyz 1 2.001 3) .small = true := by
  refine ⟨?_, ?_, ?_⟩
  · rw [(C87_cartesian _ _ _ _ _ _).1]; norm_num [abs_of_neg, abs_of_nonneg]
  · rw [← Bool.not_eq_true, (C87_cartesian _ _ _ _ _ _).1]; norm_num [abs_of_neg, abs_of_nonneg]
  · rw [(C87_cartesian _ _ _ _ _ _).2.1]; norm_num [abs_of_neg, abs_of_nonneg]

/-- A whole turn of longitude does not matter. -/
example : (llh (-Real.pi) 1 3).approxEq (llh Real.pi 1 3) .tiny = true := by
  rw [(C87_geodetic_partial _ _ _ _ _ _).1]
  refine ⟨⟨0, ⟨1, by push_cast; ring⟩, by norm_num⟩, by norm_num, by norm_num⟩

section F64
variable {L : Libm}

theorem le_trans_f64 {x a b : F64 L} (h : (x <=. a) = true) (ha : a.isFinite) (hb : b.isFinite) (hab : a.toQ ≤ b.toQ) :
    (x <=. b) = true := by
  change B64.le x a = true at h
  show B64.le x b = true
  cases x with
  | nan => exact absurd h (by cases a <;> simp [B64.le, B64.lt, B64.eq])
  | inf s =>
    cases s
    · cases a <;> simp [B64.le, B64.lt, B64.eq, F64.isFinite, B64.isFinite] at h ha
    · cases b <;> simp [B64.le, B64.lt, F64.isFinite, B64.isFinite] at hb ⊢
  | negZero =>
    rw [B64.le_fin rfl ha, decide_eq_true_eq] at h
    rw [B64.le_fin rfl hb, decide_eq_true_eq]; exact h.trans hab
  | num q hq =>
    rw [B64.le_fin rfl ha, decide_eq_true_eq] at h
    rw [B64.le_fin rfl hb, decide_eq_true_eq]; exact h.trans hab

theorem length_tiny_small {x : F64 L} (h : (x <=. (Length.TINY : Length (F64 L)).m) = true) :
    (x <=. (Length.SMALL : Length (F64 L)).m) = true := by
  simp only [Length.TINY, Length.SMALL] at h ⊢
  rw [(C09_bits _).2.2.1] at h ⊢
  refine le_trans_f64 h ?_ ?_ ?_
  · show (B64.lit (OfScientific.ofScientific 1 true 4 : ℚ)).isFinite = true
    decide +kernel
  · show (B64.lit (OfScientific.ofScientific 1 true 3 : ℚ)).isFinite = true
    decide +kernel
  · show (B64.lit (OfScientific.ofScientific 1 true 4 : ℚ)).toQ ≤ (B64.lit (OfScientific.ofScientific 1 true 3 : ℚ)).toQ
    decide +kernel

theorem angle_tiny_small {x : F64 L} (h : (x <=. (Angle.TINY : Angle (F64 L)).rad) = true) :
    (x <=. (Angle.SMALL : Angle (F64 L)).rad) = true := by
  simp only [Angle.TINY, Angle.SMALL] at h ⊢
  rw [(C09_bits _).1] at h ⊢
  refine le_trans_f64 h ?_ ?_ ?_
  · show (B64.lit (OfScientific.ofScientific 1 true 12 : ℚ)).isFinite = true
    decide +kernel
  · show (B64.lit (OfScientific.ofScientific 1 true 9 : ℚ)).isFinite = true
    decide +kernel
  · show (B64.lit (OfScientific.ofScientific 1 true 12 : ℚ)).toQ ≤ (B64.lit (OfScientific.ofScientific 1 true 9 : ℚ)).toQ
    decide +kernel

/-- **C87** in IEEE arithmetic: whatever is equal within `tiny()` is equal within `small()`. -/
theorem C87_nested :
    (∀ p q : LLH (F64 L), p.approxEq q .tiny = true → p.approxEq q .small = true) ∧
    (∀ p q : XYZ (F64 L), p.approxEq q .tiny = true → p.approxEq q .small = true) ∧
    (∀ p q : ENH (F64 L), p.approxEq q .tiny = true → p.approxEq q .small = true) := by
  simp only [LLH.approxEq, XYZ.approxEq, ENH.approxEq, Bool.and_eq_true]
  refine ⟨fun p q h => ?_, fun p q h => ?_, fun p q h => ?_⟩
  · exact ⟨⟨angle_tiny_small h.1.1, angle_tiny_small h.1.2⟩, h.2⟩
  · exact ⟨⟨length_tiny_small h.1.1, length_tiny_small h.1.2⟩, length_tiny_small h.2⟩
  · exact ⟨⟨length_tiny_small h.1.1, length_tiny_small h.1.2⟩, length_tiny_small h.2⟩

/-- The zero coordinates are equal to themselves within `tiny()`. -/
example : (XYZ.mk ⟨0⟩ ⟨0⟩ ⟨0⟩ : XYZ (F64 L)).approxEq ⟨⟨0⟩, ⟨0⟩, ⟨0⟩⟩ .tiny = true := by
  simp only [XYZ.approxEq, Bool.and_eq_true, CartesianTolerance.tiny, Length.absDiffEq, Length.le, Length.TINY,
    (C09_bits _).2.2.1]
  have h : B64.le (B64.abs (B64.sub (B64.lit 0) (B64.lit 0))) (B64.lit (OfScientific.ofScientific 1 true 4)) = true := by
    decide +kernel
  exact ⟨⟨h, h⟩, h⟩

end F64

/-! ### C88 -/

/-- **C88**: the four named azimuths are north, east, south and west in the horizon plane of every point of the ellipsoid. -/
theorem C88_directions (l φ : ℝ) : ∃ n e s w : ℝ,
    (Azimuth.NORTH : Azimuth XR).angle.rad = fin n ∧ (Azimuth.EAST : Azimuth XR).angle.rad = fin e ∧
    (Azimuth.SOUTH : Azimuth XR).angle.rad = fin s ∧ (Azimuth.WEST : Azimuth XR).angle.rad = fin w ∧
    direction l φ n = !₂[-Real.sin φ * Real.cos l, -Real.sin φ * Real.sin l, Real.cos φ] ∧
    direction l φ e = !₂[-Real.sin l, Real.cos l, 0] ∧
    direction l φ s = -direction l φ n ∧ direction l φ w = -direction l φ e := by
  refine ⟨0, Real.pi / 2, Real.pi, -(Real.pi / 2), ?_, ?_, ?_, ?_, ?_, ?_, ?_, ?_⟩
  · simp [Azimuth.NORTH, Angle.ZERO]
  · simp [Azimuth.EAST, Angle.PI_2]
  · simp [Azimuth.SOUTH, Angle.PI]
  · simp [Azimuth.WEST, Angle.M_PI_2]
  all_goals simp [direction]

/-- **C88**: constructors, differences and the functions of azimuths. `deg` and `rad` give the azimuth of that direction in
`(-π, π]`; differences with north are the angles clockwise from it; half a turn exchanges opposite azimuths. -/
theorem C88_azimuths :
    (∀ d : ℝ, ∃ r, Azimuth.deg (fin d) = ⟨⟨fin r⟩⟩ ∧ NormalizesTo r (d * (Real.pi / 180))) ∧
    (∀ d : ℝ, ∃ r, Azimuth.rad (fin d) = ⟨⟨fin r⟩⟩ ∧ NormalizesTo r d) ∧
    (Azimuth.deg (fin 0) : Azimuth XR) = .NORTH ∧ (Azimuth.deg (fin 90) : Azimuth XR) = .EAST ∧
    (Azimuth.deg (fin 180) : Azimuth XR) = .SOUTH ∧ (Azimuth.deg (fin (-180)) : Azimuth XR) = .SOUTH ∧
    (Azimuth.deg (fin (-90)) : Azimuth XR) = .WEST ∧ (Azimuth.deg (fin 270) : Azimuth XR) = .WEST ∧
    (Azimuth.EAST : Azimuth XR).addAngle (Angle.new (fin 180) DEG) = .WEST ∧
    (Azimuth.WEST : Azimuth XR).addAngle (Angle.new (fin 180) DEG) = .EAST ∧
    (Azimuth.NORTH : Azimuth XR).addAngle (Angle.new (fin 180) DEG) = .SOUTH ∧
    (Azimuth.SOUTH : Azimuth XR).addAngle (Angle.new (fin 180) DEG) = .NORTH ∧
    (Azimuth.EAST : Azimuth XR).sub .NORTH = Angle.new (fin 90) DEG ∧
    (Azimuth.WEST : Azimuth XR).sub .NORTH = Angle.new (fin (-90)) DEG := by
  have hp := Real.pi_pos
  have one : ∀ {x y : ℝ}, y = x → -Real.pi < x → x ≤ Real.pi → normR y = x := fun h h1 h2 => by rw [h]; exact normR_id h1 h2
  have up : ∀ {x y : ℝ}, y = x + 2 * Real.pi → -Real.pi < x → x ≤ Real.pi → normR y = x := fun h h1 h2 => by
    refine normR_eq ⟨h1, h2, -1, ?_⟩
    rw [h]; push_cast; ring
  have dn : ∀ {x y : ℝ}, y = x - 2 * Real.pi → -Real.pi < x → x ≤ Real.pi → normR y = x := fun h h1 h2 => by
    refine normR_eq ⟨h1, h2, 1, ?_⟩
    rw [h]; push_cast; ring
  simp only [Azimuth.deg, Azimuth.rad, angle_new_deg, angle_new_rad, Azimuth.NORTH, Azimuth.EAST, Azimuth.SOUTH, Azimuth.WEST,
    Angle.ZERO, Angle.PI, Angle.PI_2, Angle.M_PI_2, Azimuth.addAngle]
  simp only [azimuth_new_fin, azimuth_sub_fin, zero_eq, pi_eq, pi_2_eq, neg_fin, Angle.mk_add, add_fin, Azimuth.mk.injEq,
    Angle.mk.injEq, fin.injEq]
  refine ⟨fun d => ⟨_, rfl, normR_normalizes _⟩, fun d => ⟨_, rfl, normR_normalizes _⟩, ?_, ?_, ?_, ?_, ?_, ?_, ?_, ?_, ?_, ?_, ?_, ?_⟩
  · exact one (by ring) (by linarith) (by linarith)
  · exact one (by ring) (by linarith) (by linarith)
  · exact one (by ring) (by linarith) (by linarith)
  · exact dn (by ring) (by linarith) (by linarith)
  · exact one (by ring) (by linarith) (by linarith)
  · exact up (by ring) (by linarith) (by linarith)
  · exact up (by ring) (by linarith) (by linarith)
  · exact one (by ring) (by linarith) (by linarith)
  · exact one (by ring) (by linarith) (by linarith)
  · exact up (by ring) (by linarith) (by linarith)
  · exact one (by ring) (by linarith) (by linarith)
  · exact one (by ring) (by linarith) (by linarith)

/-- Going 300 degrees clockwise from south-east: an azimuth of 135 degrees becomes 75. -/
example : (Azimuth.deg (fin 135) : Azimuth XR).addAngle (Angle.new (fin 300) DEG) = .deg (fin 75) := by
  have hp := Real.pi_pos
  simp only [Azimuth.deg, angle_new_deg, azimuth_new_fin, Azimuth.addAngle, Angle.mk_add, add_fin]
  rw [normR_id (x := 135 * (Real.pi / 180)) (by linarith) (by linarith),
    normR_eq (r := 75 * (Real.pi / 180)) ⟨by linarith, by linarith, -1, by push_cast; ring⟩,
    normR_id (x := 75 * (Real.pi / 180)) (by linarith) (by linarith)]

/-! ### C70, C30, C14 -/

/-- **C70**: the named datums have the published ellipsoids (semi-major axis and inverse flattening) and Greenwich as prime
meridian: the origin of longitudes and latitudes is at `(a, 0, 0)`, 90° East at `(0, a, 0)` and the north pole at `(0, 0, b)`
with `b = a (1 - 1/f⁻¹)`. -/
theorem C70_datums : ∀ p ∈ ([(GeodeticDatum.consts.WGS84, "WGS84", 6378137, 298.257223563),
      (GeodeticDatum.consts.GGRS87, "GGRS87", 6378137, 298.257222101),
      (GeodeticDatum.consts.NAD83, "NAD83", 6378137, 298.257222101),
      (GeodeticDatum.consts.RNB72, "RNB72", 6378388, 297)] : List (GeodeticDatum XR × String × ℝ × ℝ)),
    p.1.id = p.2.1 ∧ p.1.llhToXyz (llh 0 0 0) = xyz p.2.2.1 0 0 ∧ p.1.llhToXyz (llh (Real.pi / 2) 0 0) = xyz 0 p.2.2.1 0 ∧
    p.1.llhToXyz (llh 0 (Real.pi / 2) 0) = xyz 0 0 (p.2.2.1 * (1 - 1 / p.2.2.2)) := by
  have key : ∀ (id n : String) (a r : ℝ), 0 < a → 1 < r → ∀ d : GeodeticDatum XR,
      d = ⟨id, Ellipsoid.defAinvf n (fin a) (fin r), PrimeMeridian.consts.GREENWICH⟩ →
      d.id = id ∧ d.llhToXyz (llh 0 0 0) = xyz a 0 0 ∧ d.llhToXyz (llh (Real.pi / 2) 0 0) = xyz 0 a 0 ∧
      d.llhToXyz (llh 0 (Real.pi / 2) 0) = xyz 0 0 (a * (1 - 1 / r)) := by
    intro id n a r ha hr d hd
    have hr0 : 0 < r := by linarith
    have hb : 0 < a * (1 - 1 / r) := mul_pos ha (by rw [sub_pos, div_lt_one hr0]; exact hr)
    have hab : a * (1 - 1 / r) < a := by
      have : 0 < 1 / r := by positivity
      nlinarith
    have he : d = dat id n "Greenwich" a (a * (1 - 1 / r)) 0 := by
      rw [hd, defAinvf_eq _ ha hr]
      simp [dat, PrimeMeridian.consts.GREENWICH, PrimeMeridian.defDeg, PrimeMeridian.newStatic, Lon.constNew, angle_new_deg,
        lonR]
    set b := a * (1 - 1 / r) with hbd
    have w0 : pvr a b 0 = a := by simp [pvr, wf]
    have w1 : pvr a b (Real.pi / 2) * (1 - ecc2 a b) = b := by
      have h1 : 1 - ecc2 a b = (b / a) ^ 2 := by rw [ecc2]; field_simp; ring
      have h2 : wf a b (Real.pi / 2) = (b / a) ^ 2 := by rw [wf, Real.sin_pi_div_two, ← h1]; ring
      rw [pvr, h2, h1, Real.sqrt_sq (by positivity)]; field_simp
    rw [he]
    refine ⟨rfl, ?_, ?_, ?_⟩
    · rw [llhToXyz_fin hb hab]; simp [geo, w0]
    · rw [llhToXyz_fin hb hab]; simp [geo, w0]
    · rw [llhToXyz_fin hb hab]; simp [geo, w1]
  intro p hp
  simp only [List.mem_cons, List.not_mem_nil, or_false] at hp
  rcases hp with rfl | rfl | rfl | rfl
  · exact key _ "WGS 84" _ _ (by norm_num) (by norm_num) _ (by
      simp only [GeodeticDatum.consts.WGS84, Ellipsoid.consts.WGS84, sci_eq, ofNat_eq])
  · exact key _ "GRS 1980(IUGG, 1980)" _ _ (by norm_num) (by norm_num) _ (by
      simp only [GeodeticDatum.consts.GGRS87, Ellipsoid.consts.GRS80, sci_eq, ofNat_eq])
  · exact key _ "GRS 1980(IUGG, 1980)" _ _ (by norm_num) (by norm_num) _ (by
      simp only [GeodeticDatum.consts.NAD83, Ellipsoid.consts.GRS80, sci_eq, ofNat_eq])
  · exact key _ "International 1924 (Hayford 1909, 1910)" _ _ (by norm_num) (by norm_num) _ (by
      simp only [GeodeticDatum.consts.RNB72, Ellipsoid.consts.INTL, ofNat_eq])

/-- **C30**: `PrimeMeridian::new` keeps the direction of the longitude and stores it in `(-π, π]`. -/
theorem C30_new (n : String) (l : ℝ) (h1 : -Real.pi ≤ l) (h2 : l ≤ Real.pi) :
    ∃ l', PrimeMeridian.new n (lonR l) = ⟨n, lonR l'⟩ ∧ NormalizesTo l' l := by
  have hp := Real.pi_pos
  refine ⟨if l ≤ -Real.pi then Real.pi else l, by rw [PrimeMeridian.new, lonR, lon_normalized_fin]; rfl, ?_⟩
  split
  · rename_i h
    have : l = -Real.pi := le_antisymm h h1
    exact ⟨by linarith, le_rfl, 1, by rw [this]; push_cast; ring⟩
  · rename_i h
    exact ⟨lt_of_not_ge h, h2, SameDirection.refl l⟩

/-- 180° West is stored as 180° East. -/
example : ∃ l', PrimeMeridian.new "x" (lonR (-Real.pi)) = ⟨"x", lonR l'⟩ ∧ l' = Real.pi := by
  have hp := Real.pi_pos
  obtain ⟨l', h, h1, h2, k, hk⟩ := C30_new "x" (-Real.pi) le_rfl (by linarith)
  exact ⟨l', h, (normR_id h1 h2).symm.trans (normR_eq ⟨by linarith, le_rfl, -k + 1, by rw [hk]; push_cast; ring⟩)⟩

/-- **C14**: the default axes are east, north, up in radians and metres. -/
theorem C14_default (l φ h : ℝ) (g1 : -Real.pi ≤ l) (g2 : l ≤ Real.pi) (h1 : -(Real.pi / 2) ≤ φ) (h2 : φ ≤ Real.pi / 2) :
    (GeodeticAxes.default : GeodeticAxes XR).normalize [fin l, fin φ, fin h] = .ok (llh l φ h) ∧
    (GeodeticAxes.default : GeodeticAxes XR).denormalize (llh l φ h) [fin 0, fin 0, fin 0] = .ok [fin l, fin φ, fin h] := by
  constructor
  · simp [GeodeticAxes.default, GeodeticAxes.normalize, angle_new_rad, length_new_m, lon_new_fin, lat_new_fin, remR_id g1 g2,
      clampR_id h1 h2, llh]
  · simp [GeodeticAxes.default, GeodeticAxes.denormalize, llh, setIdx, Angle.val, Length.val, RAD, M, LengthUnit.mPerUnit,
      AngleUnit.radPerUnit, div_fin]

end Geo
