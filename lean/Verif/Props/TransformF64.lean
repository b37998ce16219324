import Verif.Props.GeographicF64

/-! C104: accuracy of transformations to geographic coordinates in IEEE arithmetic. -/

namespace Geo
open XR Spec GeodeticSystem
variable {L : Libm}

/-! ### Writing coordinates -/

/-- A unit of angle in doubles, and the exact ratio that it stands for. -/
structure AngleUnitNear (u : AngleUnit (F64 L)) (p q : ℝ) : Prop where
  num : Rel u.num p 1e-16 0
  den : Rel u.den q 0 0
  p_lo : 1e-10 ≤ p
  p_hi : p ≤ 1e10
  q_lo : 1e-10 ≤ q
  q_hi : q ≤ 1e10

/-- A unit of length in doubles, and its exact size. -/
def LengthUnitNear (u : LengthUnit (F64 L)) (p q : ℝ) : Prop :=
  Rel u.mPerUnit (p / q) 1.7e-16 0 ∧ 1e-10 ≤ p / q ∧ p / q ≤ 1e10

/-- Axes in doubles to write coordinates along, and the same axes with units of the exact sizes. -/
inductive SystemOut : GeodeticAxes (F64 L) → GeodeticSystem → Prop
  | eastNorthUp {u : AngleUnit (F64 L)} {v : LengthUnit (F64 L)} {p q p' q' : ℝ} (hu : AngleUnitNear u p q)
      (hv : LengthUnitNear v p' q') : SystemOut (.eastNorthUp u v) (.eastNorthUp p q p' q')
  | eastNorth {u : AngleUnit (F64 L)} {p q : ℝ} (hu : AngleUnitNear u p q) : SystemOut (.eastNorth u) (.eastNorth p q)
  | northEastUp {u : AngleUnit (F64 L)} {v : LengthUnit (F64 L)} {p q p' q' : ℝ} (hu : AngleUnitNear u p q)
      (hv : LengthUnitNear v p' q') : SystemOut (.northEastUp u v) (.northEastUp p q p' q')
  | northEast {u : AngleUnit (F64 L)} {p q : ℝ} (hu : AngleUnitNear u p q) : SystemOut (.northEast u) (.northEast p q)
  | northWest {u : AngleUnit (F64 L)} {p q : ℝ} (hu : AngleUnitNear u p q) : SystemOut (.northWest u) (.northWest p q)

theorem AngleUnitNear.ne {u : AngleUnit (F64 L)} {p q : ℝ} (h : AngleUnitNear u p q) : p ≠ 0 ∧ q ≠ 0 := by
  have h1 := h.p_lo
  have h2 := h.q_lo
  norm_num at h1 h2
  constructor <;> linarith

theorem LengthUnitNear.ne {u : LengthUnit (F64 L)} {p q : ℝ} (h : LengthUnitNear u p q) : p ≠ 0 ∧ q ≠ 0 := by
  have h1 := h.2.1
  constructor <;> rintro rfl <;> norm_num at h1

theorem SystemOut.valid {A : GeodeticAxes (F64 L)} {s : GeodeticSystem} (h : SystemOut A s) : s.Valid := by
  cases h with
  | eastNorthUp hu hv => exact ⟨hu.ne.1, hu.ne.2, hv.ne.1, hv.ne.2⟩
  | northEastUp hu hv => exact ⟨hu.ne.1, hu.ne.2, hv.ne.1, hv.ne.2⟩
  | eastNorth hu => exact hu.ne
  | northEast hu => exact hu.ne
  | northWest hu => exact hu.ne

theorem quot_bounds {p q : ℝ} (p1 : 1e-10 ≤ p) (p2 : p ≤ 1e10) (q1 : 1e-10 ≤ q) (q2 : q ≤ 1e10) :
    1e-20 ≤ p / q ∧ p / q ≤ 1e20 := by
  have q0 : 0 < q := by norm_num at *; linarith
  rw [le_div_iff₀ q0, div_le_iff₀ q0]
  norm_num at *
  constructor <;> linarith

theorem scaled_near {v x U D H B : ℝ} (h : |v - x / U| ≤ D * |x / U| + H) (U0 : 0 < U) (hU : U ≤ 1e20) (hH : H ≤ 1e-50)
    (hD : 0 ≤ D) (hx : |x| ≤ B) : |v * U - x| ≤ D * B + 1e-30 := by
  have e : v * U - x = (v - x / U) * U := by field_simp
  rw [e, abs_mul, abs_of_pos U0]
  have h1 := mul_le_mul_of_nonneg_right h U0.le
  rw [abs_div, abs_of_pos U0, add_mul, mul_assoc, div_mul_cancel₀ _ U0.ne'] at h1
  have h2 := mul_le_mul_of_nonneg_left hx hD
  have h3 : H * U ≤ 1e-50 * 1e20 := mul_le_mul hH hU U0.le (by norm_num)
  norm_num at *
  linarith

theorem angle_val_near {a : Angle (F64 L)} {u : AngleUnit (F64 L)} {p q : ℝ} (hu : AngleUnitNear u p q)
    (ha : InLonRange a.rad) : (a.val u).isFinite ∧ |((a.val u).toQ : ℝ) * (p / q) - a.rad.toQ| ≤ 1.4e-15 := by
  obtain ⟨h1, h2, p1, p2, q1, q2⟩ := hu
  have p0 : 0 < p := by norm_num at *; linarith
  have q0 : 0 < q := by norm_num at *; linarith
  obtain ⟨b1, b2⟩ := quot_bounds p1 p2 q1 q2
  have hr : |(a.rad.toQ : ℝ)| ≤ 3.2 := by
    have := cast_abs ha.2
    rw [show (Flt.pi : F64 L).toQ = B64.pi.toQ from rfl, pi_fin.2] at this
    norm_num at *
    linarith
  have k1 : Rel (a.rad * u.den) (a.rad.toQ * q) 1.14e-16 1e-69 :=
    Rel.mul (Rel.exact ha.1) h2 (A := 3.2) (B := 1e10) hr (by rw [abs_of_pos q0]; exact q2) (by norm_num) le_rfl (by norm_num)
      le_rfl (by norm_num) le_rfl (by norm_num) le_rfl (by norm_num) (by norm_num) (by norm_num)
  have e : (a.rad.toQ : ℝ) * q / p = a.rad.toQ / (p / q) := by field_simp
  have b3 : |(a.rad.toQ : ℝ) / (p / q)| ≤ 1e30 := by
    rw [abs_div, abs_of_pos (div_pos p0 q0), div_le_iff₀ (div_pos p0 q0)]
    norm_num at *
    linarith
  have k2 : Rel (a.rad * u.den / u.num) (a.rad.toQ * q / p) 3.3e-16 1e-58 :=
    Rel.div k1 h1 (C := 1e-10) (by rw [abs_of_pos p0]; exact p1) (by norm_num) (by rw [e]; exact b3) (by norm_num) (by norm_num)
      (by norm_num) (by norm_num) (by norm_num) (by norm_num) (by norm_num) (by norm_num)
  refine ⟨k2.1, ?_⟩
  have k3 := k2.2
  rw [e] at k3
  exact (scaled_near k3 (div_pos p0 q0) b2 (by norm_num) (by norm_num) hr).trans (by norm_num)

theorem length_val_near {l : Length (F64 L)} {u : LengthUnit (F64 L)} {p q : ℝ} (hu : LengthUnitNear u p q)
    (hf : l.m.isFinite) (hl : |(l.m.toQ : ℝ)| ≤ 10000000) :
    (l.val u).isFinite ∧ |((l.val u).toQ : ℝ) * (p / q) - l.m.toQ| ≤ 3e-9 := by
  obtain ⟨h1, p1, p2⟩ := hu
  have p0 : 0 < p / q := by norm_num at *; linarith
  have b3 : |(l.m.toQ : ℝ) / (p / q)| ≤ 1e30 := by
    rw [abs_div, abs_of_pos p0, div_le_iff₀ p0]
    norm_num at *
    linarith
  have k2 : Rel (l.m / u.mPerUnit) (l.m.toQ / (p / q)) 2.9e-16 1e-69 :=
    Rel.div (Rel.exact hf) h1 (C := 1e-10) (by rw [abs_of_pos p0]; exact p1) (by norm_num) b3 le_rfl (by norm_num)
      (by norm_num) (by norm_num) le_rfl (by norm_num) (by norm_num) (by norm_num)
  refine ⟨k2.1, ?_⟩
  exact (scaled_near k2.2 p0 (by norm_num at *; linarith) (by norm_num) (by norm_num) hl).trans (by norm_num)

/-- **C104**: writing a position in IEEE arithmetic, for every system of axes: one finite number per axis, which stand for the
position to 1.4e-15 rad and 3 nm. -/
theorem C104_denormalize {A : GeodeticAxes (F64 L)} {s : GeodeticSystem} (h : SystemOut A s) (p : LLH (F64 L))
    (hl : InLonRange p.lon.angle.rad) (hφ : InLonRange p.lat.angle.rad) (hf : p.height.m.isFinite)
    (hh : |(p.height.m.toQ : ℝ)| ≤ 10000000) (buf : List (F64 L)) (hb : buf.length = s.axes.dim) :
    ∃ c, A.denormalize p buf = .ok c ∧ s.Fits (reals c) ∧ (∀ x ∈ c, x.isFinite) ∧
      |s.lonOf (reals c) - p.lon.angle.rad.toQ| ≤ 1.4e-15 ∧ |s.latOf (reals c) - p.lat.angle.rad.toQ| ≤ 1.4e-15 ∧
      (s.Is3D → |s.heightOf (reals c) - p.height.m.toQ| ≤ 3e-9) := by
  cases h with
  | eastNorthUp hu hv =>
    obtain ⟨b1, b2, b3, rfl⟩ := List.length_eq_three.1 hb
    obtain ⟨l1, l2⟩ := angle_val_near hu hl
    obtain ⟨k1, k2⟩ := angle_val_near hu hφ
    obtain ⟨j1, j2⟩ := length_val_near hv hf hh
    refine ⟨_, rfl, rfl, ?_, l2, k2, fun _ => j2⟩
    simpa using ⟨l1, k1, j1⟩
  | northEastUp hu hv =>
    obtain ⟨b1, b2, b3, rfl⟩ := List.length_eq_three.1 hb
    obtain ⟨l1, l2⟩ := angle_val_near hu hl
    obtain ⟨k1, k2⟩ := angle_val_near hu hφ
    obtain ⟨j1, j2⟩ := length_val_near hv hf hh
    refine ⟨_, rfl, rfl, ?_, l2, k2, fun _ => j2⟩
    simpa using ⟨k1, l1, j1⟩
  | eastNorth hu =>
    obtain ⟨b1, b2, rfl⟩ := List.length_eq_two.1 hb
    obtain ⟨l1, l2⟩ := angle_val_near hu hl
    obtain ⟨k1, k2⟩ := angle_val_near hu hφ
    refine ⟨_, rfl, rfl, ?_, l2, k2, fun h => h.elim⟩
    simpa using ⟨l1, k1⟩
  | northEast hu =>
    obtain ⟨b1, b2, rfl⟩ := List.length_eq_two.1 hb
    obtain ⟨l1, l2⟩ := angle_val_near hu hl
    obtain ⟨k1, k2⟩ := angle_val_near hu hφ
    refine ⟨_, rfl, rfl, ?_, l2, k2, fun h => h.elim⟩
    simpa using ⟨k1, l1⟩
  | @northWest u _ _ hu =>
    obtain ⟨b1, b2, rfl⟩ := List.length_eq_two.1 hb
    obtain ⟨l1, l2⟩ := angle_val_near hu hl
    obtain ⟨k1, k2⟩ := angle_val_near hu hφ
    have e : ((-(p.lon.angle.val u)).toQ : ℚ) = -(p.lon.angle.val u).toQ := B64.neg_toQ _
    refine ⟨[p.lat.angle.val u, -(p.lon.angle.val u)], rfl, rfl, ?_, ?_, k2, fun h => h.elim⟩
    · have : (-(p.lon.angle.val u)).isFinite := (B64.neg_finite _).trans l1
      simpa using ⟨k1, this⟩
    · simp only [reals, List.map, lonOf]
      rw [e, Rat.cast_neg, neg_neg]
      exact l2

/-! ### Transformations to a geographic CRS -/

/-- Coordinates in doubles stand for the same position as exact ones, full turns apart: to `f` radians along the parallel, `g`
along the meridian, and to `k` metres in height if there is a height axis. -/
structure SamePosition (s : GeodeticSystem) (out : List (F64 L)) (out' : List ℝ) (f g k : ℝ) : Prop where
  fits : s.Fits (reals out)
  fits' : s.Fits out'
  finite : ∀ x ∈ out, x.isFinite
  lon : ∃ m : ℤ, Real.cos (s.latOf out') * |s.lonOf (reals out) - (s.lonOf out' + m * (2 * Real.pi))| ≤ f
  lat : |s.latOf (reals out) - s.latOf out'| ≤ g
  height : s.Is3D → |s.heightOf (reals out) - s.heightOf out'| ≤ k

theorem high_enough {a b h : ℝ} (hb : 6000000 ≤ b) (hab : b ≤ a) (hfl : 0.995 * a ≤ b) (φ : ℝ) (hh : -500000 ≤ h) :
    HighEnough a b φ h := by
  have hb0 : 0 < b := by linarith
  obtain ⟨e0, e1⟩ := ecc2_small hb0 hab hfl
  unfold HighEnough
  rw [show (1 - b ^ 2 / a ^ 2) = ecc2 a b by linarith [one_sub_ecc2 hb0 hab]]
  have hw0 := wf_pos hb0 hab φ
  have hw := Real.sq_sqrt hw0.le
  have s0 := Real.sqrt_pos.2 hw0
  obtain ⟨w1, w2⟩ := w_bounds e0 e1 (Real.sin_sq_le_one φ) s0 hw
  show -((1 - 2 * ecc2 a b) * (a / Real.sqrt (wf a b φ))) < h
  have h2 : a ≤ a / Real.sqrt (wf a b φ) := by
    rw [le_div_iff₀ s0]
    nlinarith
  norm_num at *
  nlinarith

theorem write_shift {x y r ε δ : ℝ} (h : |x - y| ≤ ε) (k : |y - r| ≤ δ) : |x - r| ≤ ε + δ :=
  (abs_sub_le x y r).trans (add_le_add h k)

/-- **C104**: a transformation to a geographic CRS in IEEE arithmetic, forward or (the roles exchanged) backward, from a
geographic or a geocentric CRS, when the exact result lies between 500 km below and 2500 km above the ellipsoid: the
coordinates written stand, to 2.3e-13 rad along the parallel, 8.2e-14 rad along the meridian and 490 nm in height, for the
position that the exact transformation by the same parameters writes. -/
theorem C104_transform (hL : AccurateInverse L) {src : AnyCrs (F64 L)} {src' : AnyCrs XR} {c : List (F64 L)}
    (hc : CrsNear src src' c) {d : GeodeticDatum (F64 L)} {A : GeodeticAxes (F64 L)} {s : GeodeticSystem}
    (he : EarthSized d.ellipsoid) (hlt : d.ellipsoid.b.m.toQ < d.ellipsoid.a.m.toQ)
    (hfl : 0.995 * d.ellipsoid.a.m.toQ ≤ d.ellipsoid.b.m.toQ) (h0 : InLonRange d.primeMeridian.lon.angle.rad)
    (hA : SystemOut A s) {S D : XYZTransformation (F64 L)} {S' D' : XYZTransformation XR} (hS : ShiftNear S S')
    (hD : ShiftNear D D') (cid id n pn : String) {P : XYZ XR} {l φ h : ℝ}
    (hP : src'.toXYZ.toXyz ((reals c).map fin) = .ok P)
    (hq : (dat id n pn d.ellipsoid.a.m.toQ d.ellipsoid.b.m.toQ d.primeMeridian.lon.angle.rad.toQ).llhToXyz (llh l φ h) =
      D'.fromRef (S'.toRef P))
    (hφ1 : -(Real.pi / 2) ≤ φ) (hφ2 : φ ≤ Real.pi / 2) (hh1 : -500000 ≤ h) (hh2 : h ≤ 2500000)
    (buf : List (F64 L)) (buf' : List XR) (hb : buf.length = s.axes.dim) (hb' : buf'.length = s.axes.dim) :
    ∃ (out : List (F64 L)) (out' : List ℝ),
      (CrsXYZTransformation.new src.toXYZ (GeographicCrs.mk cid d A).toXyzTransformation S D).fwd c buf = .ok out ∧
      (CrsXYZTransformation.new (GeographicCrs.mk cid d A).toXyzTransformation src.toXYZ D S).bwd c buf = .ok out ∧
      (CrsXYZTransformation.new src'.toXYZ (GeographicCrs.mk cid
        (dat id n pn d.ellipsoid.a.m.toQ d.ellipsoid.b.m.toQ d.primeMeridian.lon.angle.rad.toQ) s.axes).toXyzTransformation
        S' D').fwd ((reals c).map fin) buf' = .ok (out'.map fin) ∧
      SamePosition s out out' 2.3e-13 8.2e-14 4.9e-7 := by
  obtain ⟨p, P', hp, hP', hW, hn⟩ := C99_read hL.toAccurate hc
  rw [hP] at hP'
  cases hP'
  have n1 := (hS.near p P (hW.inSpace (by norm_num)) (by norm_num) hn).1
  have n2 := (hD.near _ _ (hS.within hW).1 (by norm_num) n1).2.mono (E := 2.2e-7) (by norm_num)
  rw [← hq] at n2
  obtain ⟨r1, r2, ⟨m, r3⟩, r4, r5⟩ := C103_geodetic_error hL d he hlt hfl h0 _ id n pn hφ1 hφ2 hh1 hh2 (by norm_num) n2
  have hbig : |((d.xyzToLlh (D.fromRef (S.toRef p))).height.m.toQ : ℝ)| ≤ 10000000 := by
    obtain ⟨k1, k2⟩ := abs_le.1 r5.2
    rw [abs_le]
    norm_num at k1 k2
    constructor <;> linarith
  obtain ⟨out, o1, o2, o3, o4, o5, o6⟩ := C104_denormalize hA _ r1 r2 r5.1 hbig buf hb
  obtain ⟨e1, e2, e3⟩ := earth_real he
  have hflR : 0.995 * (d.ellipsoid.a.m.toQ : ℝ) ≤ d.ellipsoid.b.m.toQ := by
    have := (Rat.cast_le (K := ℝ)).2 hfl
    push_cast at this
    exact this
  obtain ⟨l', x1, -, -, x2⟩ := datum_from_llh (by linarith) e2 id n pn d.primeMeridian.lon.angle.rad.toQ l φ h hφ1 hφ2
    (high_enough e1 e2 hflR φ hh1)
  obtain ⟨out', y1, y2, y3, y4, y5, -⟩ := geodetic_denormalize_fin s hA.valid l' φ h buf' hb'.symm.le
  rw [← hb', List.drop_length, List.append_nil] at y2
  have c0 := Real.cos_nonneg_of_neg_pi_div_two_le_of_le hφ1 hφ2
  have lon : ∃ j : ℤ, Real.cos φ * |s.lonOf (reals out) - (l' + j * (2 * Real.pi))| ≤ 2.3e-13 := by
    by_cases hcos : Real.cos φ = 0
    · exact ⟨0, by rw [hcos, zero_mul]; norm_num⟩
    · obtain ⟨j, hj⟩ := x2 hcos
      refine ⟨m - j, ?_⟩
      have hj' : l' + ((m - j : ℤ) : ℝ) * (2 * Real.pi) = l + m * (2 * Real.pi) := by rw [hj]; push_cast; ring
      rw [hj']
      have k1 := mul_le_mul_of_nonneg_left (abs_sub_le (s.lonOf (reals out))
        ((d.xyzToLlh (D.fromRef (S.toRef p))).lon.angle.rad.toQ : ℝ) (l + m * (2 * Real.pi))) c0
      have k2 := mul_le_mul (Real.cos_le_one φ) o4 (abs_nonneg _) zero_le_one
      rw [mul_add] at k1
      norm_num at r3 k2 ⊢
      linarith
  obtain ⟨j, lon⟩ := lon
  refine ⟨out, out', ?_, ?_, ?_, o2, y1, o3, ⟨j, ?_⟩, ?_, fun h3 => ?_⟩
  · simp only [CrsXYZTransformation.fwd, CrsXYZTransformation.new, hp]
    exact o1
  · simp only [CrsXYZTransformation.bwd, CrsXYZTransformation.new, hp]
    exact o1
  · simp only [CrsXYZTransformation.fwd, CrsXYZTransformation.new, hP]
    show GeodeticAxes.denormalize _ (GeodeticDatum.xyzToLlh _ (D'.fromRef (S'.toRef P))) buf' = _
    rw [← hq, x1]
    exact y2
  · rw [y3, y4]
    exact lon
  · rw [y4]
    exact (write_shift o5 r4.2).trans (by norm_num)
  · rw [y5 h3]
    exact (write_shift (o6 h3) r5.2).trans (by norm_num)

theorem convertible_of {a b x y z : ℝ} (hb : 6000000 ≤ b) (hab : b ≤ a) (ha : a ≤ 7000000) (hfl : 0.995 * a ≤ b)
    (lo : 5000000 ^ 2 ≤ x ^ 2 + y ^ 2 + z ^ 2) : Convertible a b x y z := by
  have rr : Real.sqrt (x ^ 2 + y ^ 2) ^ 2 = x ^ 2 + y ^ 2 := Real.sq_sqrt (by positivity)
  have r0 := Real.sqrt_nonneg (x ^ 2 + y ^ 2)
  unfold Convertible OutsideEvolute
  dsimp only
  generalize Real.sqrt (x ^ 2 + y ^ 2) = R at *
  have a0 : 0 < a := by linarith
  have E0 : 0 ≤ a ^ 2 - b ^ 2 := by nlinarith
  have E1 : a ^ 2 - b ^ 2 ≤ 70000 * a := by norm_num at hfl; nlinarith
  have E2 : 70000 * a ≤ 71000 * b := by norm_num at hfl; linarith
  rw [← rr] at lo
  have big : 3000000 ≤ R ∨ 3000000 ≤ |z| := by
    by_contra hc
    push Not at hc
    have h2 := pow_lt_pow_left₀ hc.2 (abs_nonneg z) two_ne_zero
    rw [sq_abs] at h2
    have h1 := pow_lt_pow_left₀ hc.1 r0 two_ne_zero
    norm_num at lo h1 h2
    linarith
  refine ⟨?_, Or.inl ?_, ?_⟩
  · intro e
    have h1 : (a ^ 2 - b ^ 2) ^ 2 ≤ (71000 * b) ^ 2 := pow_le_pow_left₀ E0 (by linarith) 2
    have h2 : b ^ 2 * R ^ 2 ≤ a ^ 2 * R ^ 2 := by
      have : b ^ 2 ≤ a ^ 2 := pow_le_pow_left₀ (by linarith) hab 2
      exact mul_le_mul_of_nonneg_right this (sq_nonneg R)
    have h3 : b ^ 2 * 5000000 ^ 2 ≤ b ^ 2 * (R ^ 2 + z ^ 2) := mul_le_mul_of_nonneg_left lo (sq_nonneg b)
    have h4 : 0 < b ^ 2 := by positivity
    norm_num at h3
    nlinarith
  · rcases big with h | h
    · have h1 : (a ^ 2 - b ^ 2) ^ (2 / 3 : ℝ) ≤ (a * R) ^ (2 / 3 : ℝ) :=
        Real.rpow_le_rpow E0 (by nlinarith) (by norm_num)
      have h2 : 0 ≤ (b * |z|) ^ (2 / 3 : ℝ) := Real.rpow_nonneg (mul_nonneg (by linarith) (abs_nonneg z)) _
      linarith
    · have h1 : (a ^ 2 - b ^ 2) ^ (2 / 3 : ℝ) ≤ (b * |z|) ^ (2 / 3 : ℝ) :=
        Real.rpow_le_rpow E0 (by nlinarith) (by norm_num)
      have h2 : 0 ≤ (a * R) ^ (2 / 3 : ℝ) := Real.rpow_nonneg (mul_nonneg a0.le r0) _
      linarith
  · rintro ⟨rfl, h⟩
    rcases big with h1 | h1
    · nlinarith
    · norm_num at h1

set_option maxHeartbeats 1000000 in
/-- Points at these distances from the centre lie between 500 km below and 2500 km above the ellipsoid. -/
theorem position_exists {a b x y z r : ℝ} (hb : 6000000 ≤ b) (hlt : b < a) (ha : a ≤ 7000000) (hfl : 0.995 * a ≤ b)
    (r0 : 0 ≤ r) (hr : r ^ 2 = x ^ 2 + y ^ 2 + z ^ 2) (lo : 1.0061 * a - 500000 ≤ r) (hi : r ≤ 0.994 * a + 2500000)
    (id n pn : String) (l0 : ℝ) :
    ∃ l φ h, (dat id n pn a b l0).llhToXyz (llh l φ h) = xyz x y z ∧ -(Real.pi / 2) ≤ φ ∧ φ ≤ Real.pi / 2 ∧
      -500000 ≤ h ∧ h ≤ 2500000 := by
  have hb0 : 0 < b := by linarith
  have lo' : 5000000 ^ 2 ≤ x ^ 2 + y ^ 2 + z ^ 2 := by
    rw [← hr]
    exact pow_le_pow_left₀ (by norm_num) (by norm_num at lo; linarith) 2
  obtain ⟨l, φ, h, -, -, -, r3, r4, hh, hg⟩ := xyzToLlh_fin hb0 hlt id n pn l0 x y z (convertible_of hb hlt.le ha hfl lo')
  refine ⟨l, φ, h, by rw [llhToXyz_fin hb0 hlt, hg], r3, r4, ?_⟩
  obtain ⟨e0, e1⟩ := ecc2_small hb0 hlt.le hfl
  simp only [geo, xyz, XYZ.mk.injEq, Length.mk.injEq, XR.fin.injEq] at hg
  obtain ⟨rfl, rfl, rfl⟩ := hg
  have hw0 := wf_pos hb0 hlt.le φ
  have hw := Real.sq_sqrt hw0.le
  obtain ⟨w1, w2⟩ := w_bounds e0 e1 (Real.sin_sq_le_one φ) (Real.sqrt_pos.2 hw0) hw
  have hN : pvr a b φ * Real.sqrt (wf a b φ) = a := by
    rw [pvr, div_mul_cancel₀]
    exact (Real.sqrt_pos.2 hw0).ne'
  have hwe : wf a b φ = 1 - ecc2 a b * Real.sin φ ^ 2 := rfl
  generalize pvr a b φ = N at *
  generalize Real.sqrt (wf a b φ) = w at *
  rw [hwe] at hw
  generalize ecc2 a b = E at *
  have sc := Real.sin_sq_add_cos_sq φ
  have sl := Real.sin_sq_add_cos_sq (l + l0)
  have N0 : 0 ≤ N := by
    by_contra hc
    push Not at hc
    nlinarith
  have N1 : N ≤ 1.0061 * a := by
    norm_num at w1 ⊢
    nlinarith
  have sum : ((N + h) * Real.cos φ * Real.cos (l + l0)) ^ 2 + ((N + h) * Real.cos φ * Real.sin (l + l0)) ^ 2 +
      ((N * (1 - E) + h) * Real.sin φ) ^ 2 = (N + h) ^ 2 * Real.cos φ ^ 2 + (N * (1 - E) + h) ^ 2 * Real.sin φ ^ 2 := by
    linear_combination (N + h) ^ 2 * Real.cos φ ^ 2 * sl
  rw [sum] at hr
  have dot : (N + h) * Real.cos φ ^ 2 + (N * (1 - E) + h) * Real.sin φ ^ 2 = a * w + h := by
    linear_combination (N + h) * sc - N * hw + w * hN
  have aw : 0.994 * a ≤ a * w := by
    have := mul_le_mul_of_nonneg_left w1 (show 0 ≤ a by linarith)
    linarith
  have s0 := sq_nonneg (Real.sin φ)
  have c0 := sq_nonneg (Real.cos φ)
  generalize Real.sin φ ^ 2 = S at *
  generalize Real.cos φ ^ 2 = C at *
  have cs : ((N + h) * C + (N * (1 - E) + h) * S) ^ 2 ≤ (N + h) ^ 2 * C + (N * (1 - E) + h) ^ 2 * S := by
    have hC : C = 1 - S := by linarith
    subst hC
    nlinarith [mul_nonneg (mul_nonneg s0 c0) (sq_nonneg (N + h - (N * (1 - E) + h)))]
  rw [dot, ← hr] at cs
  have k1 : a * w + h ≤ r := le_trans (le_abs_self _) (abs_le_of_sq_le_sq cs r0)
  have NE : N * (1 - E) ≤ N := by linarith [mul_nonneg N0 e0]
  have p1 : 0 ≤ N * (1 - E) + h := by linarith
  have k2 : r ≤ N + h := by
    refine le_of_sq_le_sq ?_ (by linarith)
    rw [hr]
    have q1 := mul_le_mul_of_nonneg_right (pow_le_pow_left₀ p1 (show N * (1 - E) + h ≤ N + h by linarith) 2) s0
    have q2 : (N + h) ^ 2 * S + (N + h) ^ 2 * C = (N + h) ^ 2 := by rw [← mul_add, sc, mul_one]
    linarith
  constructor <;> linarith

/-- **C104**, from the distance `r` of the exact result from the centre of the ellipsoid. -/
theorem C104_transform_distance (hL : AccurateInverse L) {src : AnyCrs (F64 L)} {src' : AnyCrs XR} {c : List (F64 L)}
    (hc : CrsNear src src' c) {d : GeodeticDatum (F64 L)} {A : GeodeticAxes (F64 L)} {s : GeodeticSystem}
    (he : EarthSized d.ellipsoid) (hlt : d.ellipsoid.b.m.toQ < d.ellipsoid.a.m.toQ)
    (hfl : 0.995 * d.ellipsoid.a.m.toQ ≤ d.ellipsoid.b.m.toQ) (h0 : InLonRange d.primeMeridian.lon.angle.rad)
    (hA : SystemOut A s) {S D : XYZTransformation (F64 L)} {S' D' : XYZTransformation XR} (hS : ShiftNear S S')
    (hD : ShiftNear D D') (cid id n pn : String) {P : XYZ XR} {x y z r : ℝ}
    (hP : src'.toXYZ.toXyz ((reals c).map fin) = .ok P) (hq : D'.fromRef (S'.toRef P) = xyz x y z)
    (r0 : 0 ≤ r) (hr : r ^ 2 = x ^ 2 + y ^ 2 + z ^ 2) (lo : 1.0061 * (d.ellipsoid.a.m.toQ : ℝ) - 500000 ≤ r)
    (hi : r ≤ 0.994 * (d.ellipsoid.a.m.toQ : ℝ) + 2500000)
    (buf : List (F64 L)) (buf' : List XR) (hb : buf.length = s.axes.dim) (hb' : buf'.length = s.axes.dim) :
    ∃ (out : List (F64 L)) (out' : List ℝ),
      (CrsXYZTransformation.new src.toXYZ (GeographicCrs.mk cid d A).toXyzTransformation S D).fwd c buf = .ok out ∧
      (CrsXYZTransformation.new (GeographicCrs.mk cid d A).toXyzTransformation src.toXYZ D S).bwd c buf = .ok out ∧
      (CrsXYZTransformation.new src'.toXYZ (GeographicCrs.mk cid
        (dat id n pn d.ellipsoid.a.m.toQ d.ellipsoid.b.m.toQ d.primeMeridian.lon.angle.rad.toQ) s.axes).toXyzTransformation
        S' D').fwd ((reals c).map fin) buf' = .ok (out'.map fin) ∧
      SamePosition s out out' 2.3e-13 8.2e-14 4.9e-7 := by
  obtain ⟨e1, e2, e3⟩ := earth_real he
  have hltR : (d.ellipsoid.b.m.toQ : ℝ) < d.ellipsoid.a.m.toQ := by exact_mod_cast hlt
  have hflR : 0.995 * (d.ellipsoid.a.m.toQ : ℝ) ≤ d.ellipsoid.b.m.toQ := by
    have := (Rat.cast_le (K := ℝ)).2 hfl
    push_cast at this
    exact this
  obtain ⟨l, φ, h, k1, k2, k3, k4, k5⟩ := position_exists e1 hltR e3 hflR r0 hr lo hi id n pn d.primeMeridian.lon.angle.rad.toQ
  exact C104_transform hL hc he hlt hfl h0 hA hS hD cid id n pn hP (k1.trans hq.symm) k2 k3 k4 k5 buf buf' hb hb'

theorem deg_out : AngleUnitNear (DEG : AngleUnit (F64 L)) Real.pi 180 := by
  have h1 := Real.pi_gt_d20
  have h2 := Real.pi_lt_d20
  have h : (B64.lit 180).isFinite = true ∧ (B64.lit 180).toQ = 180 := by decide +kernel
  refine ⟨⟨pi_fin.1, ?_⟩, ⟨h.1, ?_⟩, ?_, ?_, by norm_num, by norm_num⟩
  · show |((B64.pi.toQ : ℚ) : ℝ) - Real.pi| ≤ _
    rw [pi_fin.2, abs_of_pos Real.pi_pos, abs_le]
    push_cast
    norm_num at *
    constructor <;> linarith
  · show |(((B64.lit 180).toQ : ℚ) : ℝ) - 180| ≤ _
    rw [h.2]
    norm_num
  · norm_num at *; linarith
  · norm_num at *; linarith

theorem ft_out : LengthUnitNear (FT : LengthUnit (F64 L)) 0.3048 1 := by
  obtain ⟨h1, h2⟩ := ft_unit (L := L)
  refine ⟨⟨h2.1, ?_⟩, by norm_num, by norm_num⟩
  rw [abs_of_pos h1, add_zero]
  exact h2.2

/-- The distance of a position from the centre. -/
theorem geo_radius {a b l φ h x y z r : ℝ} (hb : 6000000 ≤ b) (hab : b ≤ a) (hfl : 0.995 * a ≤ b) (h1 : -500000 ≤ h)
    (e : geo a b l φ h = xyz x y z) (r0 : 0 ≤ r) (hr : r ^ 2 = x ^ 2 + y ^ 2 + z ^ 2) :
    0.994 * a + h ≤ r ∧ r ≤ 1.0061 * a + h := by
  have hb0 : 0 < b := by linarith
  obtain ⟨e0, e1⟩ := ecc2_small hb0 hab hfl
  simp only [geo, xyz, XYZ.mk.injEq, Length.mk.injEq, XR.fin.injEq] at e
  obtain ⟨rfl, rfl, rfl⟩ := e
  have hw0 := wf_pos hb0 hab φ
  have hw := Real.sq_sqrt hw0.le
  obtain ⟨w1, w2⟩ := w_bounds e0 e1 (Real.sin_sq_le_one φ) (Real.sqrt_pos.2 hw0) hw
  have hN : pvr a b φ * Real.sqrt (wf a b φ) = a := by
    rw [pvr, div_mul_cancel₀]
    exact (Real.sqrt_pos.2 hw0).ne'
  have hwe : wf a b φ = 1 - ecc2 a b * Real.sin φ ^ 2 := rfl
  generalize pvr a b φ = N at *
  generalize Real.sqrt (wf a b φ) = w at *
  rw [hwe] at hw
  generalize ecc2 a b = E at *
  have sc := Real.sin_sq_add_cos_sq φ
  have sl := Real.sin_sq_add_cos_sq l
  have N0 : a ≤ N := by
    by_contra hc
    push Not at hc
    nlinarith
  have N1 : N ≤ 1.0061 * a := by
    norm_num at w1 ⊢
    nlinarith
  have sum : ((N + h) * Real.cos φ * Real.cos l) ^ 2 + ((N + h) * Real.cos φ * Real.sin l) ^ 2 +
      ((N * (1 - E) + h) * Real.sin φ) ^ 2 = (N + h) ^ 2 * Real.cos φ ^ 2 + (N * (1 - E) + h) ^ 2 * Real.sin φ ^ 2 := by
    linear_combination (N + h) ^ 2 * Real.cos φ ^ 2 * sl
  rw [sum] at hr
  have dot : (N + h) * Real.cos φ ^ 2 + (N * (1 - E) + h) * Real.sin φ ^ 2 = a * w + h := by
    linear_combination (N + h) * sc - N * hw + w * hN
  have aw : 0.994 * a ≤ a * w := by
    have := mul_le_mul_of_nonneg_left w1 (show 0 ≤ a by linarith)
    linarith
  have s0 := sq_nonneg (Real.sin φ)
  have c0 := sq_nonneg (Real.cos φ)
  generalize Real.sin φ ^ 2 = S at *
  generalize Real.cos φ ^ 2 = C at *
  have cs : ((N + h) * C + (N * (1 - E) + h) * S) ^ 2 ≤ (N + h) ^ 2 * C + (N * (1 - E) + h) ^ 2 * S := by
    have hC : C = 1 - S := by linarith
    subst hC
    nlinarith [mul_nonneg (mul_nonneg s0 c0) (sq_nonneg (N + h - (N * (1 - E) + h)))]
  rw [dot, ← hr] at cs
  have k1 : a * w + h ≤ r := le_trans (le_abs_self _) (abs_le_of_sq_le_sq cs r0)
  have NE : N * (1 - E) ≤ N := by linarith [mul_nonneg (show 0 ≤ N by linarith) e0]
  have NE' : N * 0.99 ≤ N * (1 - E) := mul_le_mul_of_nonneg_left (by norm_num at e1 ⊢; linarith) (by linarith)
  have p1 : 0 ≤ N * (1 - E) + h := by norm_num at NE'; linarith
  have k2 : r ≤ N + h := by
    refine le_of_sq_le_sq ?_ (by linarith)
    rw [hr]
    have q1 := mul_le_mul_of_nonneg_right (pow_le_pow_left₀ p1 (show N * (1 - E) + h ≤ N + h by linarith) 2) s0
    have q2 : (N + h) ^ 2 * S + (N + h) ^ 2 * C = (N + h) ^ 2 := by rw [← mul_add, sc, mul_one]
    linarith
  constructor <;> linarith

/-- A move by at most `m` changes the distance from the centre by at most `m`. -/
theorem radius_move {x y z u v w m r r' : ℝ} (r0 : 0 ≤ r) (r0' : 0 ≤ r') (m0 : 0 ≤ m) (hr : r ^ 2 = x ^ 2 + y ^ 2 + z ^ 2)
    (hm : u ^ 2 + v ^ 2 + w ^ 2 ≤ m ^ 2) (hr' : r' ^ 2 = (x - u) ^ 2 + (y - v) ^ 2 + (z - w) ^ 2) : r - m ≤ r' ∧ r' ≤ r + m := by
  have cs : |x * u + y * v + z * w| ≤ r * m := by
    refine abs_le_of_sq_le_sq ?_ (mul_nonneg r0 m0)
    rw [mul_pow, hr]
    have := mul_le_mul_of_nonneg_left hm (show 0 ≤ x ^ 2 + y ^ 2 + z ^ 2 by positivity)
    nlinarith [sq_nonneg (x * v - y * u), sq_nonneg (x * w - z * u), sq_nonneg (y * w - z * v)]
  obtain ⟨c1, c2⟩ := abs_le.1 cs
  constructor
  · have cs' : |(x - u) * u + (y - v) * v + (z - w) * w| ≤ r' * m := by
      refine abs_le_of_sq_le_sq ?_ (mul_nonneg r0' m0)
      rw [mul_pow, hr']
      have := mul_le_mul_of_nonneg_left hm (show 0 ≤ (x - u) ^ 2 + (y - v) ^ 2 + (z - w) ^ 2 by positivity)
      nlinarith [sq_nonneg ((x - u) * v - (y - v) * u), sq_nonneg ((x - u) * w - (z - w) * u),
        sq_nonneg ((y - v) * w - (z - w) * v)]
    obtain ⟨d1, d2⟩ := abs_le.1 cs'
    have : r ≤ r' + m := le_of_sq_le_sq (by nlinarith) (by linarith)
    linarith
  · exact le_of_sq_le_sq (by nlinarith) (by linarith)

/-- The exact datum shifts move the positions within 9600 km of the centre by at most 100 km. -/
def MovesLittle (S' D' : XYZTransformation XR) : Prop :=
  ∀ x y z : ℝ, x ^ 2 + y ^ 2 + z ^ 2 ≤ 9600000 ^ 2 → ∃ u v w : ℝ,
    D'.fromRef (S'.toRef (xyz x y z)) = xyz (x - u) (y - v) (z - w) ∧ u ^ 2 + v ^ 2 + w ^ 2 ≤ 100000 ^ 2

/-- **C104**, between geographic CRSs on ellipsoids of about the same size, for heights between -300 km and 2300 km. -/
theorem C104_geographic (hL : AccurateInverse L) {d₁ d : GeodeticDatum (F64 L)} {A₁ A : GeodeticAxes (F64 L)}
    {s₁ s : GeodeticSystem} {c : List (F64 L)} (he₁ : EarthSized d₁.ellipsoid)
    (hfl₁ : 0.995 * d₁.ellipsoid.a.m.toQ ≤ d₁.ellipsoid.b.m.toQ) (h0₁ : InLonRange d₁.primeMeridian.lon.angle.rad)
    (hs₁ : SystemNear A₁ s₁) (hc : Coords s₁ c) (hh1 : -300000 ≤ s₁.heightOf (reals c)) (hh2 : s₁.heightOf (reals c) ≤ 2300000)
    (he : EarthSized d.ellipsoid) (hlt : d.ellipsoid.b.m.toQ < d.ellipsoid.a.m.toQ)
    (hfl : 0.995 * d.ellipsoid.a.m.toQ ≤ d.ellipsoid.b.m.toQ) (h0 : InLonRange d.primeMeridian.lon.angle.rad)
    (hA : SystemOut A s) (hd : |d₁.ellipsoid.a.m.toQ - d.ellipsoid.a.m.toQ| ≤ 10000)
    {S D : XYZTransformation (F64 L)} {S' D' : XYZTransformation XR} (hS : ShiftNear S S') (hD : ShiftNear D D')
    (hm : MovesLittle S' D') (cid₁ id₁ n₁ pn₁ cid id n pn : String)
    (buf : List (F64 L)) (buf' : List XR) (hb : buf.length = s.axes.dim) (hb' : buf'.length = s.axes.dim) :
    ∃ (out : List (F64 L)) (out' : List ℝ),
      (CrsXYZTransformation.new (AnyCrs.geographic ⟨cid₁, d₁, A₁⟩).toXYZ (GeographicCrs.mk cid d A).toXyzTransformation S D).fwd c buf = .ok out ∧
      (CrsXYZTransformation.new (GeographicCrs.mk cid d A).toXyzTransformation (AnyCrs.geographic ⟨cid₁, d₁, A₁⟩).toXYZ D S).bwd c buf = .ok out ∧
      (CrsXYZTransformation.new (AnyCrs.geographic ⟨cid₁,
        dat id₁ n₁ pn₁ d₁.ellipsoid.a.m.toQ d₁.ellipsoid.b.m.toQ d₁.primeMeridian.lon.angle.rad.toQ, s₁.axes⟩).toXYZ (GeographicCrs.mk cid
        (dat id n pn d.ellipsoid.a.m.toQ d.ellipsoid.b.m.toQ d.primeMeridian.lon.angle.rad.toQ) s.axes).toXyzTransformation
        S' D').fwd ((reals c).map fin) buf' = .ok (out'.map fin) ∧
      SamePosition s out out' 2.3e-13 8.2e-14 4.9e-7 := by
  obtain ⟨e1, e2, e3⟩ := earth_real he₁
  have hflR : 0.995 * (d₁.ellipsoid.a.m.toQ : ℝ) ≤ d₁.ellipsoid.b.m.toQ := by
    have := (Rat.cast_le (K := ℝ)).2 hfl₁
    push_cast at this
    exact this
  obtain ⟨-, f2, f3⟩ := earth_real he
  obtain ⟨hd1, hd2⟩ : (-10000 : ℝ) ≤ d₁.ellipsoid.a.m.toQ - d.ellipsoid.a.m.toQ ∧
      (d₁.ellipsoid.a.m.toQ : ℝ) - d.ellipsoid.a.m.toQ ≤ 10000 := by
    obtain ⟨k1, k2⟩ := abs_le.1 hd
    exact ⟨by exact_mod_cast k1, by exact_mod_cast k2⟩
  have hn := geodetic_normalize_fin s₁ hs₁.valid (reals c) hc.fits
  obtain ⟨x, y, z, e⟩ := llhToXyz_xyz (show (0 : ℝ) < d₁.ellipsoid.b.m.toQ by linarith) e2 id₁ n₁ pn₁
    d₁.primeMeridian.lon.angle.rad.toQ (remR (s₁.lonOf (reals c))) (clampR (s₁.latOf (reals c))) (s₁.heightOf (reals c))
  have hP : (AnyCrs.geographic ⟨cid₁, dat id₁ n₁ pn₁ d₁.ellipsoid.a.m.toQ d₁.ellipsoid.b.m.toQ
      d₁.primeMeridian.lon.angle.rad.toQ, s₁.axes⟩).toXYZ.toXyz ((reals c).map fin) = .ok (xyz x y z) := by
    simp only [AnyCrs.toXYZ, GeographicCrs.toXyzTransformation, hn]
    exact congrArg Except.ok e
  rw [llhToXyz_all (by linarith) e2] at e
  have r0 := Real.sqrt_nonneg (x ^ 2 + y ^ 2 + z ^ 2)
  have hr : Real.sqrt (x ^ 2 + y ^ 2 + z ^ 2) ^ 2 = x ^ 2 + y ^ 2 + z ^ 2 := Real.sq_sqrt (by positivity)
  obtain ⟨b1, b2⟩ := geo_radius e1 e2 hflR (by linarith) e r0 hr
  generalize Real.sqrt (x ^ 2 + y ^ 2 + z ^ 2) = r at *
  obtain ⟨u, v, w, hq, hm⟩ := hm x y z (by
    rw [← hr]
    refine pow_le_pow_left₀ r0 ?_ 2
    linarith)
  have r0' := Real.sqrt_nonneg ((x - u) ^ 2 + (y - v) ^ 2 + (z - w) ^ 2)
  have hr' : Real.sqrt ((x - u) ^ 2 + (y - v) ^ 2 + (z - w) ^ 2) ^ 2 = (x - u) ^ 2 + (y - v) ^ 2 + (z - w) ^ 2 :=
    Real.sq_sqrt (by positivity)
  obtain ⟨b3, b4⟩ := radius_move r0 r0' (by norm_num) hr hm hr'
  exact C104_transform_distance hL (.geographic he₁ h0₁ hs₁ hc id₁ n₁ pn₁) he hlt hfl h0 hA hS hD cid id n pn hP hq r0' hr'
    (by linarith) (by linarith) buf buf' hb hb'

/-- From 45° N, 2° E, 1000 feet above WGS 84, through a translation, to degrees north, degrees east and feet. -/
example (buf : List (F64 roundLibm)) (hb : buf.length = 3) : ∃ (out : List (F64 roundLibm)) (out' : List ℝ),
    (CrsXYZTransformation.new
      (AnyCrs.geographic ⟨"EPSG:4979", GeodeticDatum.consts.WGS84, .northEastUp DEG FT⟩).toXYZ
      (GeographicCrs.mk "local" GeodeticDatum.consts.WGS84 (.northEastUp DEG FT)).toXyzTransformation XYZIdentity
      (GeocentricTranslation.mk ⟨Flt.lit (-100)⟩ ⟨Flt.lit 2⟩ ⟨Flt.lit 2⟩).toTransformation).fwd
      [Flt.lit 45, Flt.lit 2, Flt.lit 1000] buf = .ok out ∧
    SamePosition (.northEastUp Real.pi 180 0.3048 1) out out' 2.3e-13 8.2e-14 4.9e-7 := by
  obtain ⟨-, -, c, -, e⟩ := usual_fin
  obtain ⟨f1, q1, f2, q2, f3, q3⟩ := lits_fin
  have q0 : (B64.lit (-100)).toQ = -100 := by decide +kernel
  have t : |(B64.lit 2).toQ| ≤ 100000 := by rw [q2]; norm_num
  have hp := Real.pi_lt_four
  have hp0 := Real.pi_pos
  have r : reals [(Flt.lit 45 : F64 roundLibm), Flt.lit 2, Flt.lit 1000] = [45, 2, 1000] := by
    show [(((B64.lit 45).toQ : ℚ) : ℝ), (((B64.lit 2).toQ : ℚ) : ℝ), (((B64.lit 1000).toQ : ℚ) : ℝ)] = _
    rw [q1, q2, q3]; norm_num
  have hc : Coords (.northEastUp Real.pi 180 0.3048 1) [(Flt.lit 45 : F64 roundLibm), Flt.lit 2, Flt.lit 1000] := by
    refine ⟨rfl, ?_, ?_, ?_, ?_⟩
    · intro x hx
      simp only [List.mem_cons, List.not_mem_nil, or_false] at hx
      rcases hx with rfl | rfl | rfl
      · exact f1
      · exact f2
      · exact f3
    · rw [r]; show |2 * (Real.pi / 180)| ≤ 7; rw [abs_of_pos (by positivity)]; linarith
    · rw [r]; show |45 * (Real.pi / 180)| ≤ 7; rw [abs_of_pos (by positivity)]; linarith
    · rw [r]; show |1000 * ((0.3048 : ℝ) / 1)| ≤ 10000000; norm_num
  obtain ⟨out, out', k1, -, -, k2⟩ := C104_geographic roundLibm_accurateInverse wgs84_earthSized wgs84_flat.2
    greenwich_inLonRange (.northEastUp deg_unit ft_unit) hc
    (by rw [r]; show -300000 ≤ 1000 * ((0.3048 : ℝ) / 1); norm_num) (by rw [r]; show 1000 * ((0.3048 : ℝ) / 1) ≤ 2300000; norm_num)
    wgs84_earthSized wgs84_flat.1 wgs84_flat.2 greenwich_inLonRange (.northEastUp deg_out ft_out) (by rw [sub_self, abs_zero]; norm_num)
    .identity (.translation c f2 f2 e t t) (fun x y z _ => ⟨(B64.lit (-100)).toQ, (B64.lit 2).toQ, (B64.lit 2).toQ, rfl, by
      rw [q0, q2]; norm_num⟩) "EPSG:4979" "" "" "" "local" "" "" "" buf [fin 0, fin 0, fin 0] hb rfl
  exact ⟨out, out', k1, k2⟩

end Geo
