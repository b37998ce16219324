import Verif.Props.ShiftF64
import Verif.Props.RoundTripExact

/-! C99: accuracy of reading coordinates, and of transformations to geocentric coordinates, in IEEE arithmetic. -/

namespace Geo
open XR Spec GeodeticSystem
variable {L : Libm}

/-! ### Units -/

/-- The double `u` is a good approximation of the size `U` of a unit. -/
def UnitNear (u : F64 L) (U : ℝ) : Prop := 0 < U ∧ Near u U (1.7e-16 * U)

theorem quantity_near {q u : F64 L} {U B E : ℝ} (hq : q.isFinite) (hu : UnitNear u U) (hB : |(q.toQ : ℝ) * U| ≤ B)
    (h1 : 1 ≤ B) (h2 : B ≤ 1e20) (hE : 3e-16 * B ≤ E) : Near (q * u) (q.toQ * U) E := by
  obtain ⟨U0, hu⟩ := hu
  have h : |((q.toQ * u.toQ : ℚ) : ℝ) - q.toQ * U| ≤ 1.7e-16 * B := by
    push_cast
    rw [← mul_sub, abs_mul]
    rw [abs_mul, abs_of_pos U0] at hB
    have := mul_le_mul_of_nonneg_left hu.2 (abs_nonneg (q.toQ : ℝ))
    norm_num at *
    linarith
  obtain ⟨k1, k2⟩ := round_near h (R := 1.001 * B) (E := E) (by norm_num at *; linarith) (by norm_num at *; linarith)
    (by norm_num at *; linarith) (by norm_num at *; linarith)
  have f := B64.mul_finite_of hq hu.1 k1
  exact ⟨f, by rw [show (q * u).toQ = _ from (B64.mul_finite f).2.2]; exact k2⟩

theorem units_fin :
    (B64.div (B64.lit 1) (B64.lit 1)).isFinite = true ∧ (B64.div (B64.lit 1) (B64.lit 1)).toQ = 1 ∧
    (B64.div B64.pi (B64.lit 180)).isFinite = true ∧
      |(B64.div B64.pi (B64.lit 180)).toQ - 3.14159265358979323846 / 180| ≤ 2.9e-18 ∧
    (B64.div B64.pi (B64.lit 200)).isFinite = true ∧
      |(B64.div B64.pi (B64.lit 200)).toQ - 3.14159265358979323846 / 200| ≤ 2.6e-18 ∧
    (B64.div B64.pi (B64.lit 648000)).isFinite = true ∧
      |(B64.div B64.pi (B64.lit 648000)).toQ - 3.14159265358979323846 / 648000| ≤ 8.1e-22 ∧
    (B64.div (B64.lit 0.3048) (B64.lit 1)).isFinite = true ∧
      |(B64.div (B64.lit 0.3048) (B64.lit 1)).toQ - 0.3048| ≤ 5e-17 ∧
    (B64.div (B64.lit 1200) (B64.lit 3937)).isFinite = true ∧
      |(B64.div (B64.lit 1200) (B64.lit 3937)).toQ - 1200 / 3937| ≤ 5e-17 := by
  decide +kernel

theorem unit_near {u : F64 L} {q ε : ℚ} {U : ℝ} (h0 : 0 < U) (f : u.isFinite) (h : |u.toQ - q| ≤ ε)
    (hE : (ε : ℝ) + |(q : ℝ) - U| ≤ 1.7e-16 * U) : UnitNear u U := by
  refine ⟨h0, f, ?_⟩
  have h1 := (Rat.cast_le (K := ℝ)).2 h
  push_cast at h1
  have := abs_sub_le (u.toQ : ℝ) q U
  linarith

theorem pi_unit_near {u : F64 L} {n : ℝ} {q ε : ℚ} (hn : 1 ≤ n) (f : u.isFinite) (h : |u.toQ - q| ≤ ε)
    (hq : (q : ℝ) * n = 3.14159265358979323846) (hE : (ε : ℝ) * n ≤ 5.3e-16) : UnitNear u (Real.pi / n) := by
  have h1 := Real.pi_gt_d20
  have h2 := Real.pi_lt_d20
  have n0 : 0 < n := by linarith
  refine unit_near (div_pos Real.pi_pos n0) f h ?_
  have e : (q : ℝ) - Real.pi / n = (3.14159265358979323846 - Real.pi) / n := by rw [← hq]; field_simp
  rw [e, abs_div, abs_of_pos n0, ← mul_div_assoc, le_div_iff₀ n0, add_mul, div_mul_cancel₀ _ n0.ne']
  have : |3.14159265358979323846 - Real.pi| ≤ 1e-19 := by
    rw [abs_le]; norm_num at *; constructor <;> linarith
  norm_num at *
  linarith

theorem rad_unit : UnitNear (RAD : AngleUnit (F64 L)).radPerUnit (1 / 1) :=
  unit_near (q := 1) (ε := 0) (by norm_num) units_fin.1 (by
    show |(B64.div (B64.lit 1) (B64.lit 1)).toQ - 1| ≤ 0
    rw [units_fin.2.1]; simp) (by norm_num)

theorem deg_unit : UnitNear (DEG : AngleUnit (F64 L)).radPerUnit (Real.pi / 180) :=
  pi_unit_near (by norm_num) units_fin.2.2.1 units_fin.2.2.2.1 (by norm_num) (by norm_num)

theorem grad_unit : UnitNear (GRAD : AngleUnit (F64 L)).radPerUnit (Real.pi / 200) :=
  pi_unit_near (by norm_num) units_fin.2.2.2.2.1 units_fin.2.2.2.2.2.1 (by norm_num) (by norm_num)

theorem sec_unit : UnitNear (SEC : AngleUnit (F64 L)).radPerUnit (Real.pi / 648000) :=
  pi_unit_near (by norm_num) units_fin.2.2.2.2.2.2.1 units_fin.2.2.2.2.2.2.2.1 (by norm_num) (by norm_num)

theorem m_unit : UnitNear (M : LengthUnit (F64 L)).mPerUnit (1 / 1) := rad_unit

theorem ft_unit : UnitNear (FT : LengthUnit (F64 L)).mPerUnit (0.3048 / 1) :=
  unit_near (by norm_num) units_fin.2.2.2.2.2.2.2.2.1 units_fin.2.2.2.2.2.2.2.2.2.1 (by norm_num)

theorem us_ft_unit : UnitNear (US_FT : LengthUnit (F64 L)).mPerUnit (1200 / 3937) :=
  unit_near (by norm_num) units_fin.2.2.2.2.2.2.2.2.2.2.1 units_fin.2.2.2.2.2.2.2.2.2.2.2 (by norm_num)

/-- **C99**: the sizes of the units of the crate are within 1.7e-16, relatively, of the exact ones. -/
theorem C99_units : UnitNear (RAD : AngleUnit (F64 L)).radPerUnit 1 ∧
    UnitNear (DEG : AngleUnit (F64 L)).radPerUnit (Real.pi / 180) ∧
    UnitNear (GRAD : AngleUnit (F64 L)).radPerUnit (Real.pi / 200) ∧
    UnitNear (SEC : AngleUnit (F64 L)).radPerUnit (Real.pi / 648000) ∧
    UnitNear (M : LengthUnit (F64 L)).mPerUnit 1 ∧ UnitNear (FT : LengthUnit (F64 L)).mPerUnit 0.3048 ∧
    UnitNear (US_FT : LengthUnit (F64 L)).mPerUnit (1200 / 3937) :=
  ⟨by simpa using rad_unit, deg_unit, grad_unit, sec_unit, by simpa using m_unit, by simpa using ft_unit, us_ft_unit⟩

/-! ### Longitudes and latitudes -/

theorem lon_read_near {q u : F64 L} {U : ℝ} (hq : q.isFinite) (hu : UnitNear u U) (hB : |(q.toQ : ℝ) * U| ≤ 7) :
    ∃ n : ℤ, InLonRange (⟨q * u⟩ : Angle (F64 L)).wrapped.rad ∧
      Near (⟨q * u⟩ : Angle (F64 L)).wrapped.rad (q.toQ * U - n * (2 * Real.pi)) 2.4e-15 := by
  have h := quantity_near hq hu hB (by norm_num) (by norm_num) (E := 2.1e-15) (by norm_num)
  obtain ⟨n, h1, h2⟩ := wrapped_near h (h.abs_le_rat (by push_cast; norm_num at *; linarith))
  exact ⟨n, ⟨h2.1, h1⟩, h2.mono (by norm_num)⟩

theorem clampR_lip (x y : ℝ) : |clampR x - clampR y| ≤ |x - y| := by
  have hp := Real.pi_pos
  obtain ⟨h1, h2⟩ := abs_le.1 (le_refl |x - y|)
  rw [abs_le]
  unfold clampR
  split_ifs <;> constructor <;> linarith

theorem pi_2_real : Real.pi / 2 - 6.2e-17 ≤ ((B64.pi_2.toQ : ℚ) : ℝ) ∧ ((B64.pi_2.toQ : ℚ) : ℝ) ≤ Real.pi / 2 := by
  have h1 := Real.pi_gt_d20
  have h2 := Real.pi_lt_d20
  rw [pi_2_fin.2]
  push_cast
  norm_num at *
  constructor <;> linarith

theorem lat_clamp_near {x : F64 L} {r ε : ℝ} (h : Near x r ε) :
    InLonRange ((⟨x⟩ : Angle (F64 L)).clamped Angle.M_PI_2 Angle.PI_2).rad ∧
      Near ((⟨x⟩ : Angle (F64 L)).clamped Angle.M_PI_2 Angle.PI_2).rad (clampR r) (ε + 6.2e-17) := by
  obtain ⟨p1, p2⟩ := pi_2_real
  have hpp : B64.pi_2.toQ ≤ B64.pi.toQ := by rw [pi_2_fin.2, pi_fin.2]; norm_num
  have hp0 : 0 ≤ B64.pi_2.toQ := by rw [pi_2_fin.2]; norm_num
  have hf : (B64.neg B64.pi_2).isFinite = true := by rw [B64.neg_finite]; exact pi_2_fin.1
  have hn : (B64.neg B64.pi_2).toQ = -B64.pi_2.toQ := B64.neg_toQ _
  have hL := (clampR_lip x.toQ r).trans h.2
  have key : ∀ y : F64 L, y.isFinite → |y.toQ| ≤ B64.pi_2.toQ → |(y.toQ : ℝ) - clampR x.toQ| ≤ 6.2e-17 →
      InLonRange y ∧ Near y (clampR r) (ε + 6.2e-17) := fun y f b k => by
    refine ⟨⟨f, b.trans hpp⟩, f, ?_⟩
    have := abs_sub_le (y.toQ : ℝ) (clampR x.toQ) (clampR r)
    linarith
  show InLonRange (clamp x (-pi_2) pi_2) ∧ Near (clamp x (-pi_2) pi_2) _ _
  have e1 : (x <. -pi_2) = decide (x.toQ < (B64.neg B64.pi_2).toQ) := B64.lt_fin h.1 hf
  have e2 : ((pi_2 : F64 L) <. x) = decide (B64.pi_2.toQ < x.toQ) := B64.lt_fin pi_2_fin.1 h.1
  unfold clamp
  rw [e1, e2, hn]
  by_cases c1 : x.toQ < -B64.pi_2.toQ
  · rw [if_pos (by simpa using c1)]
    have c1' : (x.toQ : ℝ) < -((B64.pi_2.toQ : ℚ) : ℝ) := by exact_mod_cast c1
    refine key _ hf (by show |(B64.neg B64.pi_2).toQ| ≤ _; rw [hn, abs_neg, abs_of_nonneg hp0]) ?_
    show |((B64.neg B64.pi_2).toQ : ℝ) - _| ≤ _
    rw [hn, Rat.cast_neg, abs_le]
    have hp := Real.pi_gt_three
    unfold clampR
    norm_num at p1 ⊢
    split_ifs <;> constructor <;> linarith
  · rw [if_neg (by simpa using c1)]
    by_cases c2 : B64.pi_2.toQ < x.toQ
    · rw [if_pos (by simpa using c2)]
      have c2' : ((B64.pi_2.toQ : ℚ) : ℝ) < x.toQ := by exact_mod_cast c2
      refine key _ pi_2_fin.1 (abs_of_nonneg hp0).le ?_
      show |((B64.pi_2.toQ : ℚ) : ℝ) - _| ≤ _
      rw [abs_le]
      have hp := Real.pi_gt_three
      unfold clampR
      norm_num at p1 ⊢
      split_ifs <;> constructor <;> linarith
    · rw [if_neg (by simpa using c2)]
      have c1' : -((B64.pi_2.toQ : ℚ) : ℝ) ≤ x.toQ := by exact_mod_cast not_lt.1 c1
      have c2' : (x.toQ : ℝ) ≤ ((B64.pi_2.toQ : ℚ) : ℝ) := by exact_mod_cast not_lt.1 c2
      refine key _ h.1 (abs_le.2 ⟨not_lt.1 c1, not_lt.1 c2⟩) ?_
      rw [clampR_id (by linarith) (by linarith), sub_self, abs_zero]
      norm_num

theorem lat_read_near {q u : F64 L} {U : ℝ} (hq : q.isFinite) (hu : UnitNear u U) (hB : |(q.toQ : ℝ) * U| ≤ 7) :
    InLonRange ((⟨q * u⟩ : Angle (F64 L)).clamped Angle.M_PI_2 Angle.PI_2).rad ∧
      Near ((⟨q * u⟩ : Angle (F64 L)).clamped Angle.M_PI_2 Angle.PI_2).rad (clampR (q.toQ * U)) 2.2e-15 := by
  have h := quantity_near hq hu hB (by norm_num) (by norm_num) (E := 2.1e-15) (by norm_num)
  exact ⟨(lat_clamp_near h).1, (lat_clamp_near h).2.mono (by norm_num)⟩

/-! ### Systems of axes -/

/-- Axes in doubles, and the same axes with units of the exact sizes. -/
inductive SystemNear : GeodeticAxes (F64 L) → GeodeticSystem → Prop
  | eastNorthUp {u : AngleUnit (F64 L)} {v : LengthUnit (F64 L)} {p q p' q' : ℝ} (hu : UnitNear u.radPerUnit (p / q))
      (hv : UnitNear v.mPerUnit (p' / q')) : SystemNear (.eastNorthUp u v) (.eastNorthUp p q p' q')
  | eastNorth {u : AngleUnit (F64 L)} {p q : ℝ} (hu : UnitNear u.radPerUnit (p / q)) :
      SystemNear (.eastNorth u) (.eastNorth p q)
  | northEastUp {u : AngleUnit (F64 L)} {v : LengthUnit (F64 L)} {p q p' q' : ℝ} (hu : UnitNear u.radPerUnit (p / q))
      (hv : UnitNear v.mPerUnit (p' / q')) : SystemNear (.northEastUp u v) (.northEastUp p q p' q')
  | northEast {u : AngleUnit (F64 L)} {p q : ℝ} (hu : UnitNear u.radPerUnit (p / q)) :
      SystemNear (.northEast u) (.northEast p q)
  | northWest {u : AngleUnit (F64 L)} {p q : ℝ} (hu : UnitNear u.radPerUnit (p / q)) :
      SystemNear (.northWest u) (.northWest p q)

theorem UnitNear.ne {u : F64 L} {p q : ℝ} (h : UnitNear u (p / q)) : p ≠ 0 ∧ q ≠ 0 := by
  constructor <;> rintro rfl <;> simp [UnitNear] at h

theorem SystemNear.valid {A : GeodeticAxes (F64 L)} {s : GeodeticSystem} (h : SystemNear A s) : s.Valid := by
  cases h with
  | eastNorthUp hu hv => exact ⟨hu.ne.1, hu.ne.2, hv.ne.1, hv.ne.2⟩
  | northEastUp hu hv => exact ⟨hu.ne.1, hu.ne.2, hv.ne.1, hv.ne.2⟩
  | eastNorth hu => exact hu.ne
  | northEast hu => exact hu.ne
  | northWest hu => exact hu.ne

/-- The numbers that a list of doubles stands for. -/
noncomputable def reals (c : List (F64 L)) : List ℝ := c.map fun x => (x.toQ : ℝ)

/-- Coordinates in doubles: one per axis, within 7 radians and 10000 km. -/
structure Coords (s : GeodeticSystem) (c : List (F64 L)) : Prop where
  fits : s.Fits (reals c)
  finite : ∀ x ∈ c, x.isFinite
  lon : |s.lonOf (reals c)| ≤ 7
  lat : |s.latOf (reals c)| ≤ 7
  height : |s.heightOf (reals c)| ≤ 10000000

/-- **C99**: reading coordinates in IEEE arithmetic, for every system of axes: the longitude is within 2.4e-15 rad of the
given direction, the latitude within 2.2e-15 rad of the exact one and the height within 3 nm. -/
theorem C99_normalize {A : GeodeticAxes (F64 L)} {s : GeodeticSystem} (h : SystemNear A s) (c : List (F64 L))
    (hc : Coords s c) : ∃ p, A.normalize c = .ok p ∧ InLonRange p.lon.angle.rad ∧ InLonRange p.lat.angle.rad ∧
      (∃ n : ℤ, Near p.lon.angle.rad (s.lonOf (reals c) - n * (2 * Real.pi)) 2.4e-15) ∧
      Near p.lat.angle.rad (clampR (s.latOf (reals c))) 2.2e-15 ∧ Near p.height.m (s.heightOf (reals c)) 3e-9 := by
  obtain ⟨f, fin, b1, b2, b3⟩ := hc
  cases h with
  | eastNorthUp hu hv =>
    obtain ⟨x, y, z, rfl⟩ := List.length_eq_three.1 ((List.length_map _).symm.trans f)
    obtain ⟨n, l1, l2⟩ := lon_read_near (fin x (by simp)) hu b1
    obtain ⟨k1, k2⟩ := lat_read_near (fin y (by simp)) hu b2
    exact ⟨_, rfl, l1, k1, ⟨n, l2⟩, k2, quantity_near (fin z (by simp)) hv b3 (by norm_num) (by norm_num) (by norm_num)⟩
  | northEastUp hu hv =>
    obtain ⟨x, y, z, rfl⟩ := List.length_eq_three.1 ((List.length_map _).symm.trans f)
    obtain ⟨n, l1, l2⟩ := lon_read_near (fin y (by simp)) hu b1
    obtain ⟨k1, k2⟩ := lat_read_near (fin x (by simp)) hu b2
    exact ⟨_, rfl, l1, k1, ⟨n, l2⟩, k2, quantity_near (fin z (by simp)) hv b3 (by norm_num) (by norm_num) (by norm_num)⟩
  | eastNorth hu =>
    obtain ⟨x, y, rfl⟩ := List.length_eq_two.1 ((List.length_map _).symm.trans f)
    obtain ⟨n, l1, l2⟩ := lon_read_near (fin x (by simp)) hu b1
    obtain ⟨k1, k2⟩ := lat_read_near (fin y (by simp)) hu b2
    exact ⟨_, rfl, l1, k1, ⟨n, l2⟩, k2, zero_near.mono (by norm_num)⟩
  | northEast hu =>
    obtain ⟨x, y, rfl⟩ := List.length_eq_two.1 ((List.length_map _).symm.trans f)
    obtain ⟨n, l1, l2⟩ := lon_read_near (fin y (by simp)) hu b1
    obtain ⟨k1, k2⟩ := lat_read_near (fin x (by simp)) hu b2
    exact ⟨_, rfl, l1, k1, ⟨n, l2⟩, k2, zero_near.mono (by norm_num)⟩
  | @northWest _ p q hu =>
    obtain ⟨x, y, rfl⟩ := List.length_eq_two.1 ((List.length_map _).symm.trans f)
    have e : (((-y).toQ : ℚ) : ℝ) = -(y.toQ : ℝ) := by rw [show (-y).toQ = -y.toQ from B64.neg_toQ _, Rat.cast_neg]
    obtain ⟨n, l1, l2⟩ := lon_read_near (q := -y) ((B64.neg_finite y).trans (fin y (by simp))) hu (by rw [e]; exact b1)
    obtain ⟨k1, k2⟩ := lat_read_near (fin x (by simp)) hu b2
    rw [e] at l2
    exact ⟨_, rfl, l1, k1, ⟨n, l2⟩, k2, zero_near.mono (by norm_num)⟩

/-! ### Datum shifts -/

/-- Datum shifts in doubles, and the exact shifts by the same parameters. -/
inductive ShiftNear : XYZTransformation (F64 L) → XYZTransformation XR → Prop
  | identity : ShiftNear XYZIdentity XYZIdentity
  | translation {t1 t2 t3 : F64 L} (f1 : t1.isFinite) (f2 : t2.isFinite) (f3 : t3.isFinite) (h1 : |t1.toQ| ≤ 100000)
      (h2 : |t2.toQ| ≤ 100000) (h3 : |t3.toQ| ≤ 100000) :
      ShiftNear (GeocentricTranslation.mk ⟨t1⟩ ⟨t2⟩ ⟨t3⟩).toTransformation (translation t1.toQ t2.toQ t3.toQ)
  | helmert {r1 r2 r3 t1 t2 t3 m : F64 L} (conv : RotationConvention) (hu : Usual r1 r2 r3 t1 t2 t3 m) :
      ShiftNear (Helmert7Params.new conv ⟨r1⟩ ⟨r2⟩ ⟨r3⟩ ⟨t1⟩ ⟨t2⟩ ⟨t3⟩ ⟨m⟩).toTransformation
        (helmertR conv r1.toQ r2.toQ r3.toQ t1.toQ t2.toQ t3.toQ m.toQ)

theorem ShiftNear.near {T : XYZTransformation (F64 L)} {R : XYZTransformation XR} (h : ShiftNear T R) (p : XYZ (F64 L))
    (P : XYZ XR) (hP : InSpace P) {ε : ℝ} (hε : ε ≤ 1e-3) (hp : NearXyz p P ε) :
    NearXyz (T.toRef p) (R.toRef P) (1.01 * ε + 2.5e-8) ∧ NearXyz (T.fromRef p) (R.fromRef P) (1.01 * ε + 2.5e-8) := by
  have ε0 : 0 ≤ ε := by obtain ⟨_, _, _, _, k, _⟩ := hp; exact k.nonneg
  cases h with
  | identity => exact ⟨hp.mono (by norm_num; linarith), hp.mono (by norm_num; linarith)⟩
  | translation f1 f2 f3 h1 h2 h3 =>
    obtain ⟨a, b⟩ := C98_translation_accuracy f1 f2 f3 h1 h2 h3 p P hP hε hp
    exact ⟨a.mono (by norm_num; linarith), b.mono (by norm_num; linarith)⟩
  | helmert conv hu => exact C98_helmert_accuracy hu conv p P hP hε hp

theorem cast_abs {x : F64 L} {B : ℚ} (h : |x.toQ| ≤ B) : |(x.toQ : ℝ)| ≤ B := by
  have := (Rat.cast_le (K := ℝ)).2 h
  push_cast at this
  exact this

theorem row_within {k x y z r s t : ℝ} (hk : |k| ≤ 1.001) (hr : |r| ≤ 1e-3) (hs : |s| ≤ 1e-3) (ht : |t| ≤ 100000)
    (hx : |x| ≤ 1.84e7) (hy : |y| ≤ 1.84e7) (hz : |z| ≤ 1.84e7) :
    |k * (x + (r * z - s * y)) + t| ≤ 20000000 ∧ |k * (x + (r * z - s * y)) - t| ≤ 20000000 := by
  have h1 : |r * z| ≤ 1e-3 * 1.84e7 := by rw [abs_mul]; exact mul_le_mul hr hz (abs_nonneg _) (by norm_num)
  have h2 : |s * y| ≤ 1e-3 * 1.84e7 := by rw [abs_mul]; exact mul_le_mul hs hy (abs_nonneg _) (by norm_num)
  have h3 : |x + (r * z - s * y)| ≤ 1.84368e7 := by
    have := abs_add_le x (r * z - s * y)
    have := abs_sub (r * z) (s * y)
    norm_num at *; linarith
  have h4 : |k * (x + (r * z - s * y))| ≤ 1.001 * 1.84368e7 := by
    rw [abs_mul]; exact mul_le_mul hk h3 (abs_nonneg _) (by norm_num)
  have h5 := abs_add_le (k * (x + (r * z - s * y))) t
  have h6 := abs_sub (k * (x + (r * z - s * y))) t
  constructor <;> norm_num at * <;> linarith

theorem positionVector_within {r1 r2 r3 t1 t2 t3 m : ℝ} (h1 : |r1| ≤ 1e-3) (h2 : |r2| ≤ 1e-3) (h3 : |r3| ≤ 1e-3)
    (k1 : |t1| ≤ 100000) (k2 : |t2| ≤ 100000) (k3 : |t3| ≤ 100000) (hm : |m| ≤ 1000) {P : XYZ XR} (hP : Within 1.84e7 P) :
    InSpace ((helmert r1 r2 r3 t1 t2 t3 m).toRef P) ∧ InSpace ((helmert r1 r2 r3 t1 t2 t3 m).fromRef P) := by
  obtain ⟨x, y, z, rfl, bx, bY, bz⟩ := hP
  obtain ⟨g1, g2⟩ := abs_le.1 hm
  have c1 : |1 + m * 1e-6| ≤ 1.001 := by rw [abs_le]; norm_num; constructor <;> linarith
  have c2 : |1 - m * 1e-6| ≤ 1.001 := by rw [abs_le]; norm_num; constructor <;> linarith
  have h1' : |-r1| ≤ 1e-3 := by rwa [abs_neg]
  have h2' : |-r2| ≤ 1e-3 := by rwa [abs_neg]
  have h3' : |-r3| ≤ 1e-3 := by rwa [abs_neg]
  constructor
  · rw [C46_to_ref]
    exact ⟨_, _, _, rfl, (row_within c1 h2 h3 k1 bx bY bz).1, (row_within c1 h3 h1 k2 bY bz bx).1,
      (row_within c1 h1 h2 k3 bz bx bY).1⟩
  · rw [helmert_fromRef]
    refine ⟨_, _, _, rfl, ?_, ?_, ?_⟩
    · convert (row_within c2 h2' h3' k1 bx bY bz).2 using 2; ring
    · convert (row_within c2 h3' h1' k2 bY bz bx).2 using 2; ring
    · convert (row_within c2 h1' h2' k3 bz bx bY).2 using 2; ring

theorem ShiftNear.within {T : XYZTransformation (F64 L)} {R : XYZTransformation XR} (h : ShiftNear T R) {P : XYZ XR}
    (hP : Within 1.84e7 P) : InSpace (R.toRef P) ∧ InSpace (R.fromRef P) := by
  cases h with
  | identity => exact ⟨hP.inSpace (by norm_num), hP.inSpace (by norm_num)⟩
  | translation f1 f2 f3 h1 h2 h3 =>
    obtain ⟨x, y, z, rfl, bx, bY, bz⟩ := hP
    have k1 := cast_abs h1
    have k2 := cast_abs h2
    have k3 := cast_abs h3
    have s : ∀ {x t : ℝ}, |x| ≤ 1.84e7 → |t| ≤ ((100000 : ℚ) : ℝ) → |x + t| ≤ 20000000 ∧ |x - t| ≤ 20000000 := fun {x t} hx ht => by
      have := abs_add_le x t
      have := abs_sub x t
      norm_num at *
      constructor <;> linarith
    exact ⟨⟨_, _, _, rfl, (s bx k1).1, (s bY k2).1, (s bz k3).1⟩, ⟨_, _, _, rfl, (s bx k1).2, (s bY k2).2, (s bz k3).2⟩⟩
  | @helmert r1 r2 r3 t1 t2 t3 m conv hu =>
    have a1 := (angle_near hu.r1).2
    have a2 := (angle_near hu.r2).2
    have a3 := (angle_near hu.r3).2
    have b1 : |(t1.toQ : ℝ)| ≤ 100000 := by simpa using cast_abs hu.t1.2
    have b2 : |(t2.toQ : ℝ)| ≤ 100000 := by simpa using cast_abs hu.t2.2
    have b3 : |(t3.toQ : ℝ)| ≤ 100000 := by simpa using cast_abs hu.t3.2
    have bm : |(m.toQ : ℝ)| ≤ 1000 := by simpa using cast_abs hu.m.2
    cases conv
    · exact positionVector_within a1 a2 a3 b1 b2 b3 bm hP
    · rw [helmertR, (C47_conventions_exact _ _ _ _ _ _ _).1]
      exact positionVector_within (by rwa [abs_neg]) (by rwa [abs_neg]) (by rwa [abs_neg]) b1 b2 b3 bm hP

/-! ### Coordinate reference systems -/

/-- A CRS in doubles, the exact CRS with the same semi-axes and prime meridian, and coordinates to read. -/
inductive CrsNear : AnyCrs (F64 L) → AnyCrs XR → List (F64 L) → Prop
  | geocentric (c : GeocentricCrs (F64 L)) (c' : GeocentricCrs XR) {x y z : F64 L} (hx : x.isFinite ∧ |x.toQ| ≤ 18000000)
      (hy : y.isFinite ∧ |y.toQ| ≤ 18000000) (hz : z.isFinite ∧ |z.toQ| ≤ 18000000) :
      CrsNear (.geocentric c) (.geocentric c') [x, y, z]
  | geographic {cid : String} {d : GeodeticDatum (F64 L)} {A : GeodeticAxes (F64 L)} {s : GeodeticSystem}
      (he : EarthSized d.ellipsoid) (h0 : InLonRange d.primeMeridian.lon.angle.rad) (hs : SystemNear A s)
      {c : List (F64 L)} (hc : Coords s c) (id n pn : String) :
      CrsNear (.geographic ⟨cid, d, A⟩)
        (.geographic ⟨cid, dat id n pn d.ellipsoid.a.m.toQ d.ellipsoid.b.m.toQ d.primeMeridian.lon.angle.rad.toQ, s.axes⟩) c

/-- **C99**: the geocentric position that a geographic or geocentric CRS reads from coordinates, in IEEE arithmetic, is
within 160 nm of the exact one. -/
theorem C99_read (hL : Accurate L) {src : AnyCrs (F64 L)} {src' : AnyCrs XR} {c : List (F64 L)} (h : CrsNear src src' c) :
    ∃ p P, src.toXYZ.toXyz c = .ok p ∧ src'.toXYZ.toXyz ((reals c).map fin) = .ok P ∧ Within 1.84e7 P ∧
      NearXyz p P 1.6e-7 := by
  cases h with
  | @geocentric c c' x y z hx hy hz =>
    refine ⟨_, xyz x.toQ y.toQ z.toQ, rfl, (C16_geocentric _ _ _ c'.axes [0, 0, 0] rfl).2, ⟨_, _, _, rfl, ?_⟩, _, _, _, rfl,
      (metre_near (Near.exact hx.1)).mono (by norm_num), (metre_near (Near.exact hy.1)).mono (by norm_num),
      (metre_near (Near.exact hz.1)).mono (by norm_num)⟩
    exact ⟨(cast_abs hx.2).trans (by norm_num), (cast_abs hy.2).trans (by norm_num), (cast_abs hz.2).trans (by norm_num)⟩
  | @geographic cid d A s he h0 hs _ hc id n pn =>
    obtain ⟨e1, e2, e3⟩ := earth_real he
    obtain ⟨p, hp, l1, k1, ⟨i, l2⟩, k2, k3⟩ := C99_normalize hs c hc
    have hn := geodetic_normalize_fin s hs.valid (reals c) hc.fits
    have hr := C97_geocentric_error hL d he h0 p l1 k1 l2 k2 k3 hc.height (by norm_num) (by norm_num) (by norm_num) id n pn
    have hsame : SameDirection (remR (s.lonOf (reals c))) (s.lonOf (reals c) - i * (2 * Real.pi)) := by
      obtain ⟨k, hk⟩ := remR_same (s.lonOf (reals c))
      exact ⟨k + i, by rw [hk]; push_cast; ring⟩
    refine ⟨d.llhToXyz p, _, ?_, ?_, geocentric_within e1 e2 e3 hc.height id n pn _ _ _, hr.mono ?_⟩
    · simp only [AnyCrs.toXYZ, GeographicCrs.toXyzTransformation, hp]
      rfl
    · simp only [AnyCrs.toXYZ, GeographicCrs.toXyzTransformation, hn]
      exact congrArg Except.ok (llhToXyz_congr (by linarith) e2 id n pn _ _ _ hsame)
    · unfold errXyz; norm_num

/-- **C99**: a transformation to a geocentric CRS in IEEE arithmetic, forward or (the roles exchanged) backward, writes
coordinates within 220 nm of those that the exact transformation by the same parameters writes. -/
theorem C99_transform (hL : Accurate L) {src : AnyCrs (F64 L)} {src' : AnyCrs XR} {c : List (F64 L)} (h : CrsNear src src' c)
    (dst : GeocentricCrs (F64 L)) (dst' : GeocentricCrs XR) {S D : XYZTransformation (F64 L)} {S' D' : XYZTransformation XR}
    (hS : ShiftNear S S') (hD : ShiftNear D D') (buf : List (F64 L)) (buf' : List XR) (hb : buf.length = 3)
    (hb' : buf'.length = 3) :
    ∃ u v w : F64 L, ∃ x y z : ℝ,
      (CrsXYZTransformation.new src.toXYZ dst.toXyzTransformation S D).fwd c buf = .ok [u, v, w] ∧
      (CrsXYZTransformation.new dst.toXyzTransformation src.toXYZ D S).bwd c buf = .ok [u, v, w] ∧
      (CrsXYZTransformation.new src'.toXYZ dst'.toXyzTransformation S' D').fwd ((reals c).map fin) buf' =
        .ok [fin x, fin y, fin z] ∧
      Near u x 2.2e-7 ∧ Near v y 2.2e-7 ∧ Near w z 2.2e-7 := by
  obtain ⟨p, P, hp, hP, hW, hn⟩ := C99_read hL h
  have n1 := (hS.near p P (hW.inSpace (by norm_num)) (by norm_num) hn).1
  have n2 := (hD.near _ _ (hS.within hW).1 (by norm_num) n1).2
  obtain ⟨x, y, z, e, kx, ky, kz⟩ := n2
  obtain ⟨b1, b2, b3, rfl⟩ := List.length_eq_three.1 hb
  obtain ⟨b1', b2', b3', rfl⟩ := List.length_eq_three.1 hb'
  refine ⟨_, _, _, x, y, z, ?_, ?_, ?_, kx.mono (by norm_num), ky.mono (by norm_num), kz.mono (by norm_num)⟩
  · simp only [CrsXYZTransformation.fwd, CrsXYZTransformation.new, hp]
    rfl
  · simp only [CrsXYZTransformation.bwd, CrsXYZTransformation.new, hp]
    rfl
  · simp only [CrsXYZTransformation.fwd, CrsXYZTransformation.new, hP]
    show dst'.toXyzTransformation.fromXyz (D'.fromRef (S'.toRef P)) [b1', b2', b3'] = _
    rw [e]
    rfl

theorem lits_fin : (B64.lit 45).isFinite = true ∧ (B64.lit 45).toQ = 45 ∧ (B64.lit 2).isFinite = true ∧
    (B64.lit 2).toQ = 2 ∧ (B64.lit 1000).isFinite = true ∧ (B64.lit 1000).toQ = 1000 := by decide +kernel

/-- 45° N, 2° E, 1000 feet above the ellipsoid of WGS 84, with a Helmert transformation and a translation. -/
example : Accurate roundLibm ∧
    CrsNear (L := roundLibm) (.geographic ⟨"EPSG:4979", GeodeticDatum.consts.WGS84, .northEastUp DEG FT⟩)
      (.geographic ⟨"EPSG:4979", dat "WGS84" "WGS 84" "Greenwich"
        (GeodeticDatum.consts.WGS84 : GeodeticDatum (F64 roundLibm)).ellipsoid.a.m.toQ
        (GeodeticDatum.consts.WGS84 : GeodeticDatum (F64 roundLibm)).ellipsoid.b.m.toQ
        (GeodeticDatum.consts.WGS84 : GeodeticDatum (F64 roundLibm)).primeMeridian.lon.angle.rad.toQ,
        (GeodeticSystem.northEastUp Real.pi 180 0.3048 1).axes⟩) [Flt.lit 45, Flt.lit 2, Flt.lit 1000] ∧
    (∃ T R, ShiftNear (L := roundLibm) T R ∧ T = (Helmert7Params.new .coordinateFrame ⟨Flt.lit 0.00001⟩ ⟨Flt.lit 0.00001⟩
      ⟨Flt.lit 0.00001⟩ ⟨Flt.lit (-100)⟩ ⟨Flt.lit (-100)⟩ ⟨Flt.lit (-100)⟩ ⟨Flt.lit (-100)⟩).toTransformation) ∧
    (∃ T R, ShiftNear (L := roundLibm) T R ∧
      T = (GeocentricTranslation.mk ⟨Flt.lit (-100)⟩ ⟨Flt.lit 2⟩ ⟨Flt.lit 2⟩).toTransformation) := by
  obtain ⟨a, b, c, d, e⟩ := usual_fin
  obtain ⟨f1, q1, f2, q2, f3, q3⟩ := lits_fin
  have t : |(B64.lit 2).toQ| ≤ 100000 := by rw [q2]; norm_num
  refine ⟨roundLibm_accurate, .geographic wgs84_earthSized greenwich_inLonRange (.northEastUp deg_unit ft_unit) ?_ _ _ _,
    ⟨_, _, .helmert _ ⟨⟨a, b⟩, ⟨a, b⟩, ⟨a, b⟩, ⟨c, e⟩, ⟨c, e⟩, ⟨c, e⟩, ⟨c, d⟩⟩, rfl⟩, ⟨_, _, .translation c f2 f2 e t t, rfl⟩⟩
  have hp := Real.pi_lt_four
  have hp0 := Real.pi_pos
  have r : reals [(Flt.lit 45 : F64 roundLibm), Flt.lit 2, Flt.lit 1000] = [45, 2, 1000] := by
    show [(((B64.lit 45).toQ : ℚ) : ℝ), (((B64.lit 2).toQ : ℚ) : ℝ), (((B64.lit 1000).toQ : ℚ) : ℝ)] = _
    rw [q1, q2, q3]; norm_num
  refine ⟨rfl, ?_, ?_, ?_, ?_⟩
  · intro x hx
    simp only [List.mem_cons, List.not_mem_nil, or_false] at hx
    rcases hx with rfl | rfl | rfl
    · exact f1
    · exact f2
    · exact f3
  · rw [r]; show |2 * (Real.pi / 180)| ≤ 7; rw [abs_of_pos (by positivity)]; linarith
  · rw [r]; show |45 * (Real.pi / 180)| ≤ 7; rw [abs_of_pos (by positivity)]; linarith
  · rw [r]; show |1000 * ((0.3048 : ℝ) / 1)| ≤ 10000000; norm_num

end Geo
