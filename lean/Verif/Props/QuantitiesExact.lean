import Verif.Lemmas.Angle
import Verif.Spec.Coords
import Verif.Props.AnglesExact

/-!
C09 (exact part), C10, C11, C12, C13: units, degrees-minutes-seconds, intervals on the circle, approximate
equalities, in exact arithmetic.
-/

namespace Geo
open XR Spec

/-! ### C09 -/

/-- An angle unit of `p / q` radians. -/
def angleUnit (p q : ℝ) : AngleUnit XR := ⟨fin p, fin q⟩
/-- A length unit of `p / q` metres. -/
def lengthUnit (p q : ℝ) : LengthUnit XR := ⟨fin p, fin q⟩

theorem angle_new_unit (v p q : ℝ) (hq : q ≠ 0) :
    Angle.new (fin v) (angleUnit p q) = ⟨fin (v * (p / q))⟩ := by
  simp [Angle.new, AngleUnit.radPerUnit, angleUnit, div_fin _ hq]

theorem angle_val_unit (x p q : ℝ) (hp : p ≠ 0) :
    (Angle.mk (fin x)).val (angleUnit p q) = fin (x * q / p) := by
  simp [Angle.val, angleUnit, div_fin _ hp]

theorem length_new_unit (v p q : ℝ) (hq : q ≠ 0) :
    Length.new (fin v) (lengthUnit p q) = ⟨fin (v * (p / q))⟩ := by
  simp [Length.new, LengthUnit.mPerUnit, lengthUnit, div_fin _ hq]

theorem length_val_unit (x p q : ℝ) (hp : p ≠ 0) (hq : q ≠ 0) :
    (Length.mk (fin x)).val (lengthUnit p q) = fin (x / (p / q)) := by
  have : p / q ≠ 0 := div_ne_zero hp hq
  simp [Length.val, LengthUnit.mPerUnit, lengthUnit, div_fin _ hq, div_fin _ this]

/-- **C09**: an angle read back in the unit it was given in is the given value; in another unit it is rescaled
by the ratio of the units. -/
theorem C09_angle (v p q p' q' : ℝ) (hp : p ≠ 0) (hq : q ≠ 0) (hp' : p' ≠ 0) (hq' : q' ≠ 0) :
    (Angle.new (fin v) (angleUnit p q)).rad = fin (v * (p / q)) ∧
    (Angle.new (fin v) (angleUnit p q)).val (angleUnit p q) = fin v ∧
    (Angle.new (fin v) (angleUnit p q)).val (angleUnit p' q') = fin (v * ((p / q) / (p' / q'))) := by
  rw [angle_new_unit _ _ _ hq, angle_val_unit _ _ _ hp, angle_val_unit _ _ _ hp']
  refine ⟨rfl, ?_, ?_⟩
  · congr 1; field_simp
  · congr 1; field_simp

/-- **C09**: the same for lengths. -/
theorem C09_length (v p q p' q' : ℝ) (hp : p ≠ 0) (hq : q ≠ 0) (hp' : p' ≠ 0) (hq' : q' ≠ 0) :
    (Length.new (fin v) (lengthUnit p q)).m = fin (v * (p / q)) ∧
    (Length.new (fin v) (lengthUnit p q)).val (lengthUnit p q) = fin v ∧
    (Length.new (fin v) (lengthUnit p q)).val (lengthUnit p' q') = fin (v * ((p / q) / (p' / q'))) := by
  rw [length_new_unit _ _ _ hq, length_val_unit _ _ _ hp hq, length_val_unit _ _ _ hp' hq']
  refine ⟨rfl, ?_, ?_⟩
  · congr 1; field_simp
  · congr 1; field_simp

/-- **C09**: the named units satisfy the hypotheses and have the documented sizes. -/
theorem C09_named_units :
    (RAD : AngleUnit XR) = angleUnit 1 1 ∧ (DEG : AngleUnit XR) = angleUnit Real.pi 180 ∧
    (GRAD : AngleUnit XR) = angleUnit Real.pi 200 ∧ (SEC : AngleUnit XR) = angleUnit Real.pi (180 * 3600) ∧
    (M : LengthUnit XR) = lengthUnit 1 1 ∧ (FT : LengthUnit XR) = lengthUnit 0.3048 1 ∧
    (US_FT : LengthUnit XR) = lengthUnit 1200 3937 ∧ Real.pi ≠ 0 := by
  refine ⟨?_, ?_, ?_, ?_, ?_, ?_, ?_, Real.pi_ne_zero⟩ <;>
    simp [RAD, DEG, GRAD, SEC, M, FT, US_FT, angleUnit, lengthUnit]
  norm_num

example : (Angle.new (fin 90) DEG).rad = fin (Real.pi / 2) := by
  have := (C09_angle 90 Real.pi 180 1 1 Real.pi_ne_zero (by norm_num) one_ne_zero one_ne_zero).1
  rw [C09_named_units.2.1, this]
  congr 1; ring

/-! ### C10 -/

/-- Degrees of a (non negative) angle in radians. -/
noncomputable def degrees (x : ℝ) : ℝ := |x| * (180 / Real.pi)

theorem degrees_nonneg (x : ℝ) : 0 ≤ degrees x := by unfold degrees; positivity

theorem truncR_nonneg {x : ℝ} (h : 0 ≤ x) : truncR x = ⌊x⌋ := by
  unfold truncR; rw [if_neg (not_lt.2 h)]

theorem rta_nonneg {x : ℝ} (h : 0 ≤ x) : rta x = ⌊x + 1 / 2⌋ := by
  unfold rta; rw [if_neg (not_lt.2 h)]

theorem fract_fin {x : ℝ} (h : 0 ≤ x) : fract (fin x) = fin (Int.fract x) := by
  simp [fract, truncR_nonneg h]

/-- Value of `Angle::dms` in exact arithmetic. -/
theorem dms_fin (x : ℝ) : (Angle.mk (fin x)).dms =
    let sgn : ℝ := if x < 0 then -1 else 1
    let min := 60 * Int.fract (degrees x)
    if |min - rta min| < 1e-8 then ⟨fin (sgn * ⌊degrees x⌋), fin (rta min), fin 0⟩
    else ⟨fin (sgn * ⌊degrees x⌋), fin ⌊min⌋, fin (60 * Int.fract min)⟩ := by
  have hpi := Real.pi_ne_zero
  have hd := degrees_nonneg x
  have hm : 0 ≤ 60 * Int.fract (degrees x) := by have := Int.fract_nonneg (degrees x); linarith
  have e1 : toDegrees (fin |x|) = fin (degrees x) := by
    simp [toDegrees, div_fin _ hpi, degrees]
  unfold Angle.dms
  simp only [abs_fin, e1, fract_fin hd, ofNat_eq, mul_fin, round_fin, sub_fin, sci_eq, lt_fin, signum_fin,
    floor_fin, fract_fin hm, zero_eq]
  by_cases h : |60 * Int.fract (degrees x) - (rta (60 * Int.fract (degrees x)) : ℝ)| < 1e-8 <;> simp [h]

/-- **C10, negation**: the minutes returned by `dms` can be 60. -/
theorem C10_minutes_can_be_60 : ∃ x d m s : ℝ,
    (Angle.mk (fin x)).dms = ⟨fin d, fin m, fin s⟩ ∧ m = 60 := by
  have hpi := Real.pi_pos
  -- 59.9999999999 minutes
  let t : ℝ := 1 - 1e-12
  have hx : degrees (t * (Real.pi / 180)) = t := by
    unfold degrees
    rw [abs_of_pos (by have : (0:ℝ) < t := by norm_num [t]
                       positivity)]
    field_simp
  have hf : Int.fract t = t := Int.fract_eq_self.2 ⟨by norm_num [t], by norm_num [t]⟩
  have hr : rta (60 * t) = 60 := by
    rw [rta_nonneg (by norm_num [t]), Int.floor_eq_iff]
    constructor <;> norm_num [t]
  refine ⟨t * (Real.pi / 180), (if t * (Real.pi / 180) < 0 then -1 else 1) * ⌊t⌋, 60, 0, ?_, rfl⟩
  rw [dms_fin, hx, hf]
  simp only [hr]
  rw [if_pos]
  · norm_num
  · rw [abs_lt]; constructor <;> norm_num [t]

/-- **C10** (what holds): `dms` returns whole degrees `d` carrying the sign and whole minutes in `[0, 60]`,
seconds in `[0, 60)`, and they recompose to the angle within `1e-8` minute.  Missing for the full property:
the minutes can be 60 (previous theorem); the sign of an angle smaller than one degree is only visible through
the signed zero of floating point numbers, which this arithmetic does not have. -/
theorem C10_dms_partial (x : ℝ) : ∃ d m s : ℝ, (Angle.mk (fin x)).dms = ⟨fin d, fin m, fin s⟩ ∧
    |d| = ⌊degrees x⌋ ∧ (0 ≤ x → 0 ≤ d) ∧ (x < 0 → d ≤ 0) ∧
    (∃ k : ℤ, m = k) ∧ 0 ≤ m ∧ m ≤ 60 ∧ 0 ≤ s ∧ s < 60 ∧
    |(|d| + m / 60 + s / 3600) - degrees x| ≤ 1e-8 / 60 := by
  have hfl : 0 ≤ ⌊degrees x⌋ := Int.floor_nonneg.2 (degrees_nonneg x)
  have hfl' : (0 : ℝ) ≤ ⌊degrees x⌋ := by exact_mod_cast hfl
  have hx : (⌊degrees x⌋ : ℝ) + Int.fract (degrees x) = degrees x := Int.floor_add_fract _
  have h0 := Int.fract_nonneg (degrees x)
  have h1 := Int.fract_lt_one (degrees x)
  have hd : |(if x < 0 then -1 else 1 : ℝ) * ⌊degrees x⌋| = ⌊degrees x⌋ := by
    rw [abs_mul, abs_of_nonneg hfl']
    split <;> simp
  have hs1 : 0 ≤ x → (0 : ℝ) ≤ (if x < 0 then -1 else 1 : ℝ) * ⌊degrees x⌋ := by
    intro h; rw [if_neg (not_lt.2 h)]; linarith
  have hs2 : x < 0 → (if x < 0 then -1 else 1 : ℝ) * ⌊degrees x⌋ ≤ 0 := by
    intro h; rw [if_pos h]; linarith
  rw [dms_fin]
  set mn := 60 * Int.fract (degrees x) with hmn
  have hm0 : 0 ≤ mn := by rw [hmn]; linarith
  have hm1 : mn < 60 := by rw [hmn]; linarith
  simp only
  split
  · rename_i h
    refine ⟨_, _, _, rfl, hd, hs1, hs2, ⟨_, rfl⟩, ?_, ?_, le_refl _, by norm_num, ?_⟩
    · rw [rta_nonneg hm0]
      exact_mod_cast Int.floor_nonneg.2 (by linarith)
    · rw [rta_nonneg hm0]
      have : ⌊mn + 1 / 2⌋ ≤ 60 := by
        rw [← Int.lt_add_one_iff, Int.floor_lt]; push_cast; linarith
      exact_mod_cast this
    · rw [hd]
      have e : (⌊degrees x⌋ : ℝ) + (rta mn : ℝ) / 60 + 0 / 3600 - degrees x =
          -(mn - rta mn) / 60 := by linarith
      rw [e, abs_div, abs_neg]
      have : |(60 : ℝ)| = 60 := by norm_num
      rw [this]
      exact div_le_div_of_nonneg_right h.le (by norm_num)
  · have hf0 := Int.fract_nonneg mn
    have hf1 := Int.fract_lt_one mn
    have hmx : (⌊mn⌋ : ℝ) + Int.fract mn = mn := Int.floor_add_fract _
    refine ⟨_, _, _, rfl, hd, hs1, hs2, ⟨_, rfl⟩, ?_, ?_, by linarith, by linarith, ?_⟩
    · exact_mod_cast Int.floor_nonneg.2 hm0
    · have := Int.floor_le mn; linarith
    · rw [hd]
      have e : (⌊degrees x⌋ : ℝ) + (⌊mn⌋ : ℝ) / 60 + 60 * Int.fract mn / 3600 - degrees x = 0 := by
        linarith
      rw [e]; norm_num

/-! ### C11 -/

/-- The angle, in radians, of `d`° `m`′ `s`″ with the sign of `d` (`+` for zero). -/
noncomputable def dmsRad (d m s : ℝ) : ℝ :=
  (if d < 0 then -1 else 1) * (|d| + m / 60 + s / 3600) * (Real.pi / 180)

/-- **C11**: whenever the constructors return, the value is the angle `d m s` wrapped to `[-π, π]`
(longitude), clamped (latitude), normalised (azimuth); without debug assertions they always return. -/
theorem C11_value (debug : Bool) (d m s : ℝ) :
    (∀ l, Lon.dms debug (fin d) (fin m) (fin s) = .ok l → ∃ r, l = ⟨⟨fin r⟩⟩ ∧ WrapsTo r (dmsRad d m s)) ∧
    (∀ l, Lat.dms debug (fin d) (fin m) (fin s) = .ok l → ∃ r, l = ⟨⟨fin r⟩⟩ ∧ ClosestLat r (dmsRad d m s)) ∧
    (∀ a, Azimuth.dms debug (fin d) (fin m) (fin s) = .ok a →
      ∃ r, a = ⟨⟨fin r⟩⟩ ∧ NormalizesTo r (dmsRad d m s)) ∧
    (debug = false → (∃ l, Lon.dms debug (fin d) (fin m) (fin s) = .ok l) ∧
      (∃ l, Lat.dms debug (fin d) (fin m) (fin s) = .ok l) ∧
      ∃ a, Azimuth.dms debug (fin d) (fin m) (fin s) = .ok a) := by
  refine ⟨fun l h => ?_, fun l h => ?_, fun a h => ?_, ?_⟩
  · have hl : l = Lon.new (dmsAngle (fin d) (fin m) (fin s)) := by
      cases debug with
      | false => cases h; rfl
      | true => obtain ⟨_, -, h⟩ := bind_eq_ok.1 h; cases h; rfl
    rw [hl, dmsAngle_fin]
    exact C01_new _
  · have hl : l = Lat.new (dmsAngle (fin d) (fin m) (fin s)) := by
      cases debug with
      | false => cases h; rfl
      | true => obtain ⟨_, -, h⟩ := bind_eq_ok.1 h; cases h; rfl
    rw [hl, dmsAngle_fin, lat_new_fin]
    exact ⟨_, rfl, clampR_closest _⟩
  · have ha : a = Azimuth.new (dmsAngle (fin d) (fin m) (fin s)) := by
      cases debug with
      | false => cases h; rfl
      | true => obtain ⟨_, -, h⟩ := bind_eq_ok.1 h; cases h; rfl
    rw [ha, dmsAngle_fin, azimuth_new_fin]
    exact ⟨_, rfl, normR_normalizes _⟩
  · rintro rfl
    exact ⟨⟨_, rfl⟩, ⟨_, rfl⟩, ⟨_, rfl⟩⟩

/-- **C11**: what the debug builds accept, exactly.  The documented upper bound on the degrees is not
checked (the assertion tests the minutes instead). -/
theorem C11_debug_accepts (d m s : ℝ) :
    ((∃ l, Lon.dms true (fin d) (fin m) (fin s) = .ok l) ↔
      -180 < d ∧ 0 ≤ m ∧ m ≤ 59 ∧ 0 ≤ s ∧ s < 60) ∧
    ((∃ a, Azimuth.dms true (fin d) (fin m) (fin s) = .ok a) ↔
      -180 < d ∧ 0 ≤ m ∧ m ≤ 59 ∧ 0 ≤ s ∧ s < 60) ∧
    ((∃ l, Lat.dms true (fin d) (fin m) (fin s) = .ok l) ↔
      -90 ≤ d ∧ 0 ≤ m ∧ m ≤ 59 ∧ 0 ≤ s ∧ s < 60) := by
  have e1 : Azimuth.dmsAsserts (fin d) (fin m) (fin s) = .ok () ↔
      -180 < d ∧ 0 ≤ m ∧ m ≤ 59 ∧ 0 ≤ s ∧ s < 60 := by
    unfold Azimuth.dmsAsserts rassert
    simp only [ofNat_eq, neg_fin, zero_eq, lt_fin, le_fin, Bool.and_eq_true, decide_eq_true_eq]
    constructor
    · intro h
      obtain ⟨_, h1, h⟩ := bind_eq_ok.1 h
      obtain ⟨_, h2, h3⟩ := bind_eq_ok.1 h
      split at h1
      · split at h2
        · split at h3
          · rename_i k1 k2 k3
            exact ⟨k1.1, k2.1, k2.2, k3.1, k3.2⟩
          · cases h3
        · cases h2
      · cases h1
    · rintro ⟨h1, h2, h3, h4, h5⟩
      rw [if_pos ⟨h1, by linarith⟩, if_pos ⟨h2, h3⟩, if_pos ⟨h4, h5⟩]
      rfl
  have e2 : Lat.dmsAsserts (fin d) (fin m) (fin s) = .ok () ↔
      -90 ≤ d ∧ 0 ≤ m ∧ m ≤ 59 ∧ 0 ≤ s ∧ s < 60 := by
    unfold Lat.dmsAsserts rassert
    simp only [ofNat_eq, neg_fin, zero_eq, lt_fin, le_fin, Bool.and_eq_true, decide_eq_true_eq]
    constructor
    · intro h
      obtain ⟨_, h1, h⟩ := bind_eq_ok.1 h
      obtain ⟨_, h2, h3⟩ := bind_eq_ok.1 h
      split at h1
      · split at h2
        · split at h3
          · rename_i k1 k2 k3
            exact ⟨k1.1, k2.1, k2.2, k3.1, k3.2⟩
          · cases h3
        · cases h2
      · cases h1
    · rintro ⟨h1, h2, h3, h4, h5⟩
      rw [if_pos ⟨h1, by linarith⟩, if_pos ⟨h2, h3⟩, if_pos ⟨h4, h5⟩]
      rfl
  refine ⟨?_, ?_, ?_⟩
  · rw [← e1]
    constructor
    · rintro ⟨l, h⟩
      obtain ⟨u, h1, -⟩ := bind_eq_ok.1 h
      exact h1
    · intro h
      exact ⟨_, by simp [Lon.dms, h]; rfl⟩
  · rw [← e1]
    constructor
    · rintro ⟨l, h⟩
      obtain ⟨u, h1, -⟩ := bind_eq_ok.1 h
      exact h1
    · intro h
      exact ⟨_, by simp [Azimuth.dms, h]; rfl⟩
  · rw [← e2]
    constructor
    · rintro ⟨l, h⟩
      obtain ⟨u, h1, -⟩ := bind_eq_ok.1 h
      exact h1
    · intro h
      exact ⟨_, by simp [Lat.dms, h]; rfl⟩

/-- **C11, negation**: debug builds accept degrees above the documented range. -/
theorem C11_debug_misses_upper_bound :
    (∃ l, Lon.dms true (fin 500) (fin 0) (fin 0) = .ok l) ∧
    (∃ l, Lat.dms true (fin 500) (fin 0) (fin 0) = .ok l) ∧
    (∃ a, Azimuth.dms true (fin 500) (fin 0) (fin 0) = .ok a) := by
  obtain ⟨h1, h2, h3⟩ := C11_debug_accepts 500 0 0
  exact ⟨h1.2 (by norm_num), h3.2 (by norm_num), h2.2 (by norm_num)⟩

/-! ### C12 -/

/-- A finite interval, `lo` and `hi` in radians. -/
def interval (lo hi : ℝ) : Interval XR := ⟨⟨fin lo⟩, ⟨fin hi⟩⟩

theorem interval_new_fin (lo hi : ℝ) : Interval.new ⟨fin lo⟩ ⟨fin hi⟩ =
    if remR lo = -Real.pi ∧ remR hi ≠ Real.pi then interval Real.pi (remR hi)
    else interval (remR lo) (remR hi) := by
  unfold Interval.new interval
  simp only [wrapped_fin, Angle.beq, Angle.M_PI, Angle.PI, pi_eq, neg_fin, eq_fin]
  by_cases h1 : remR lo = -Real.pi <;> by_cases h2 : remR hi = Real.pi <;> simp [h1, h2]

theorem interval_length_fin (debug : Bool) (lo hi : ℝ) (h : -(2 * Real.pi) ≤ hi - lo) :
    (interval lo hi).length debug =
      .ok ⟨fin (if hi - lo < 0 then hi - lo + 2 * Real.pi else hi - lo)⟩ := by
  unfold Interval.length interval
  simp only [Angle.mk_sub, sub_fin, Angle.lt, Angle.ZERO, zero_eq, lt_fin, Angle.PI, pi_eq, ofNat_eq,
    Angle.mul_mk, mul_fin, Angle.mk_add, add_fin, decide_eq_true_eq]
  by_cases hc : hi - lo < 0
  · have : 0 ≤ hi - lo + 2 * Real.pi := by linarith
    simp only [hc, if_true, Angle.le, le_fin, this]
    simp [rassert]
  · have : 0 ≤ hi - lo := not_lt.1 hc
    simp only [hc, if_false, Angle.le, le_fin, this]
    simp [rassert]

/-- **C12**: `Interval::new(lo, hi)` has a length in `[0, 2π]`, congruent to `hi - lo`; its end points are the
directions asked for; it starts at `-π` only when it is full; the debug assertion never fires. -/
theorem C12_new (debug : Bool) (lo hi : ℝ) : ∃ a b l, Interval.new ⟨fin lo⟩ ⟨fin hi⟩ = interval a b ∧
    SameDirection a lo ∧ SameDirection b hi ∧ -Real.pi ≤ a ∧ a ≤ Real.pi ∧ -Real.pi ≤ b ∧ b ≤ Real.pi ∧
    (a = -Real.pi → (interval a b).isFull = true) ∧
    (interval a b).length debug = .ok ⟨fin l⟩ ∧ 0 ≤ l ∧ l ≤ 2 * Real.pi ∧ SameDirection l (hi - lo) := by
  have hp := Real.pi_pos
  have main : ∀ a b, -Real.pi ≤ a → a ≤ Real.pi → -Real.pi ≤ b → b ≤ Real.pi → SameDirection a lo →
      SameDirection b hi → ∃ l, (interval a b).length debug = .ok ⟨fin l⟩ ∧ 0 ≤ l ∧ l ≤ 2 * Real.pi ∧
        SameDirection l (hi - lo) := by
    intro a b h1 h2 h3 h4 ha hb
    refine ⟨_, interval_length_fin debug a b (by linarith), ?_, ?_, ?_⟩
    · split <;> linarith
    · split <;> linarith
    · have hs := hb.sub ha
      split
      · exact SameDirection.trans ⟨1, by push_cast; ring⟩ hs
      · exact hs
  rw [interval_new_fin]
  by_cases h : remR lo = -Real.pi ∧ remR hi ≠ Real.pi
  · rw [if_pos h]
    have hs : SameDirection Real.pi lo := by
      refine SameDirection.trans ⟨1, ?_⟩ (remR_same lo)
      rw [h.1]; push_cast; ring
    obtain ⟨l, hl⟩ := main Real.pi (remR hi) (by linarith) (le_refl _) (le_remR hi) (remR_le hi) hs
      (remR_same hi)
    exact ⟨_, _, l, rfl, hs, remR_same hi, by linarith, le_refl _, le_remR hi, remR_le hi,
      fun hc => by linarith, hl⟩
  · rw [if_neg h]
    obtain ⟨l, hl⟩ := main (remR lo) (remR hi) (le_remR lo) (remR_le lo) (le_remR hi) (remR_le hi)
      (remR_same lo) (remR_same hi)
    refine ⟨_, _, l, rfl, remR_same lo, remR_same hi, le_remR lo, remR_le lo, le_remR hi, remR_le hi,
      fun hc => ?_, hl⟩
    have hhi : remR hi = Real.pi := by
      by_contra hne; exact h ⟨hc, hne⟩
    simp [Interval.isFull, interval, hc, hhi, Angle.beq, Angle.M_PI, Angle.PI]

/-- **C12**: full and empty intervals are recognised exactly; lengths of the special intervals. -/
theorem C12_classification (debug : Bool) :
    (∀ a b : ℝ, (interval a b).isFull = true ↔ interval a b = Interval.full) ∧
    (∀ a b : ℝ, (interval a b).isEmpty = true ↔ interval a b = Interval.empty) ∧
    (Interval.full : Interval XR).isEmpty = false ∧ (Interval.empty : Interval XR).isFull = false ∧
    (Interval.full : Interval XR).length debug = .ok ⟨fin (2 * Real.pi)⟩ ∧
    (Interval.empty : Interval XR).length debug = .ok ⟨fin 0⟩ ∧
    (∀ x : ℝ, (Interval.singleton ⟨fin x⟩).isEmpty = false ∧ (Interval.singleton ⟨fin x⟩).isFull = false ∧
      (Interval.singleton ⟨fin x⟩).length debug = .ok ⟨fin 0⟩) := by
  have hp := Real.pi_pos
  have hne : -Real.pi ≠ Real.pi := by intro h; linarith
  have hfull : (Interval.full : Interval XR) = interval (-Real.pi) Real.pi := by
    simp [Interval.full, interval, Angle.M_PI, Angle.PI]
  have hempty : (Interval.empty : Interval XR) = interval Real.pi (-Real.pi) := by
    simp [Interval.empty, interval, Angle.M_PI, Angle.PI]
  refine ⟨fun a b => ?_, fun a b => ?_, ?_, ?_, ?_, ?_, fun x => ⟨?_, ?_, ?_⟩⟩
  · rw [hfull]; simp [Interval.isFull, interval, Angle.beq, Angle.M_PI, Angle.PI]
  · rw [hempty]; simp [Interval.isEmpty, interval, Angle.beq, Angle.M_PI, Angle.PI]
  · rw [hfull]; simp [Interval.isEmpty, interval, Angle.beq, Angle.M_PI, Angle.PI, hne]
  · rw [hempty]; simp [Interval.isFull, interval, Angle.beq, Angle.M_PI, Angle.PI, hne.symm]
  · rw [hfull, interval_length_fin _ _ _ (by linarith), if_neg (by linarith)]
    congr 3; ring
  · rw [hempty, interval_length_fin _ _ _ (by linarith), if_pos (by linarith)]
    congr 3; ring
  · have : ¬ (normR x = Real.pi ∧ normR x = -Real.pi) := by rintro ⟨h1, h2⟩; linarith
    simp only [Interval.isEmpty, Interval.singleton, normalized_fin, Angle.beq, Angle.M_PI, Angle.PI,
      pi_eq, neg_fin, eq_fin, ← Bool.decide_and, decide_eq_false_iff_not]
    exact this
  · have : ¬ (normR x = -Real.pi ∧ normR x = Real.pi) := by rintro ⟨h1, h2⟩; linarith
    simp only [Interval.isFull, Interval.singleton, normalized_fin, Angle.beq, Angle.M_PI, Angle.PI,
      pi_eq, neg_fin, eq_fin, ← Bool.decide_and, decide_eq_false_iff_not]
    exact this
  · have e : Interval.singleton ⟨fin x⟩ = interval (normR x) (normR x) := by
      simp [Interval.singleton, interval, normalized_fin]
    rw [e, interval_length_fin _ _ _ (by linarith)]
    simp

/-- **C12**: an interval is inverted exactly when walking along its length from its lower bound crosses the direction `±π`:
the walk then ends one turn above the upper bound, otherwise at the upper bound itself. The empty interval is inverted, the
full interval and singletons are not. -/
theorem C12_inverted (debug : Bool) (lo hi : ℝ) :
    (∃ a b l, Interval.new ⟨fin lo⟩ ⟨fin hi⟩ = interval a b ∧ (interval a b).length debug = .ok ⟨fin l⟩ ∧
      a + l = if (interval a b).isInverted then b + 2 * Real.pi else b) ∧
    (Interval.empty : Interval XR).isInverted = true ∧ (Interval.full : Interval XR).isInverted = false ∧
    (Interval.singleton (⟨fin lo⟩ : Angle XR)).isInverted = false := by
  have hp := Real.pi_pos
  refine ⟨?_, ?_, ?_, ?_⟩
  · obtain ⟨a, b, l, h1, -, -, ha, ha', hb, hb', -, h2, -⟩ := C12_new debug lo hi
    refine ⟨a, b, l, h1, h2, ?_⟩
    rw [interval_length_fin _ _ _ (by linarith)] at h2
    simp only [Except.ok.injEq, Angle.mk.injEq, fin.injEq] at h2
    have hi' : (interval a b).isInverted = decide (b < a) := by simp [Interval.isInverted, interval, Angle.lt]
    rw [hi']
    by_cases hc : b < a
    · rw [if_pos (by linarith)] at h2
      rw [if_pos (by simpa using hc)]; linarith
    · rw [if_neg (by linarith)] at h2
      rw [if_neg (by simpa using hc)]; linarith
  · simp [Interval.isInverted, Interval.empty, Angle.lt, Angle.M_PI, Angle.PI]; linarith
  · simp [Interval.isInverted, Interval.full, Angle.lt, Angle.M_PI, Angle.PI]; linarith
  · simp [Interval.isInverted, Interval.singleton, Angle.lt, normalized_fin]

/-- The interval from 3 rad to 4 rad crosses the antimeridian, the one from 1 rad to 2 rad does not. -/
example : (Interval.new (⟨fin 3⟩ : Angle XR) ⟨fin 4⟩).isInverted = true ∧
    (Interval.new (⟨fin 1⟩ : Angle XR) ⟨fin 2⟩).isInverted = false := by
  have h1 := Real.pi_gt_d2
  have h2 := Real.pi_lt_d2
  have e3 : remR 3 = 3 := remR_id (by linarith) (by linarith)
  have e1 : remR 1 = 1 := remR_id (by linarith) (by linarith)
  have e2 : remR 2 = 2 := remR_id (by linarith) (by linarith)
  have e4 : remR 4 ≤ 4 - 2 * Real.pi + 1 := by
    have := remR_le 4
    obtain ⟨k, hk⟩ := remR_same 4
    have hk' : k = -1 := by
      have h3 := le_remR 4
      have : (k : ℝ) < 0 := by nlinarith
      have h5 : (-2 : ℝ) < k := by nlinarith
      have h6 : k < 0 := by exact_mod_cast this
      have h7 : -2 < k := by exact_mod_cast h5
      omega
    rw [hk, hk']; push_cast; linarith
  rw [interval_new_fin, interval_new_fin, e3, e1, e2, if_neg (fun h => by linarith [h.1]), if_neg (fun h => by linarith [h.1])]
  constructor
  · simp [Interval.isInverted, interval, Angle.lt]; linarith
  · simp [Interval.isInverted, interval, Angle.lt]

/-- **C12**, boundary behaviour: asking for the single direction `-π` (both ends `-π`, or from `π` to `-π`)
gives the empty interval, not a singleton. -/
theorem C12_antimeridian_is_empty :
    Interval.new ⟨fin (-Real.pi)⟩ ⟨fin (-Real.pi)⟩ = (Interval.empty : Interval XR) ∧
    Interval.new ⟨fin Real.pi⟩ ⟨fin (-Real.pi)⟩ = (Interval.empty : Interval XR) := by
  have hp := Real.pi_pos
  have hne : -Real.pi ≠ Real.pi := by intro h; linarith
  have e1 : remR (-Real.pi) = -Real.pi := remR_id (le_refl _) (by linarith)
  have e2 : remR Real.pi = Real.pi := remR_id (by linarith) (le_refl _)
  rw [interval_new_fin, interval_new_fin, e1, e2]
  constructor
  · rw [if_pos ⟨rfl, hne⟩]; simp [Interval.empty, interval, Angle.M_PI, Angle.PI]
  · rw [if_neg (fun h => hne h.1.symm)]; simp [Interval.empty, interval, Angle.M_PI, Angle.PI]

/-! ### C13 -/

/-- **C13**: on angles, lengths and latitudes `abs_diff_eq` compares the absolute difference. -/
theorem C13_linear (a b e : ℝ) :
    ((Angle.mk (fin a)).absDiffEq ⟨fin b⟩ ⟨fin e⟩ = true ↔ |a - b| ≤ e) ∧
    ((Length.mk (fin a)).absDiffEq ⟨fin b⟩ ⟨fin e⟩ = true ↔ |a - b| ≤ e) ∧
    ((Lat.mk ⟨fin a⟩).absDiffEq ⟨⟨fin b⟩⟩ ⟨fin e⟩ = true ↔ |a - b| ≤ e) := by
  simp [Angle.absDiffEq, Length.absDiffEq, Lat.absDiffEq, Lat.sub, Angle.abs, Length.abs, Angle.le, Length.le]

/-- **C13**: on longitudes and azimuths `abs_diff_eq` compares the distance on the circle. -/
theorem C13_circular (a b e : ℝ) :
    ((Lon.mk ⟨fin a⟩).absDiffEq ⟨⟨fin b⟩⟩ ⟨fin e⟩ = true ↔ ∃ t, SameDirection t (a - b) ∧ |t| ≤ e) ∧
    ((Azimuth.mk ⟨fin a⟩).absDiffEq ⟨⟨fin b⟩⟩ ⟨fin e⟩ = true ↔ ∃ t, SameDirection t (a - b) ∧ |t| ≤ e) := by
  have key : |normR (a - b)| ≤ e ↔ ∃ t, SameDirection t (a - b) ∧ |t| ≤ e :=
    ⟨fun h => ⟨_, normR_same _, h⟩, fun ⟨t, h1, h2⟩ => le_trans (abs_normR_le h1) h2⟩
  rw [← key]
  constructor
  · simp [Lon.absDiffEq, Lon.sub, diffTo_fin, Angle.abs, Angle.le]
  · simp [Azimuth.absDiffEq, azimuth_sub_fin, Angle.abs, Angle.le]

/-- **C13**: `approx_eq` on coordinates is the conjunction of the comparisons of the components. -/
theorem C13_coordinates (a b c a' b' c' e f g : ℝ) :
    ((llh a b c).approxEq (llh a' b' c') ⟨⟨fin e⟩, ⟨fin f⟩, ⟨fin g⟩⟩ = true ↔
      (∃ t, SameDirection t (a - a') ∧ |t| ≤ e) ∧ |b - b'| ≤ f ∧ |c - c'| ≤ g) ∧
    ((xyz a b c).approxEq (xyz a' b' c') ⟨⟨fin e⟩⟩ = true ↔
      |a - a'| ≤ e ∧ |b - b'| ≤ e ∧ |c - c'| ≤ e) ∧
    ((enh a b c).approxEq (enh a' b' c') ⟨⟨fin e⟩, ⟨fin f⟩⟩ = true ↔
      |a - a'| ≤ e ∧ |b - b'| ≤ e ∧ |c - c'| ≤ f) := by
  refine ⟨?_, ?_, ?_⟩
  · simp only [LLH.approxEq, llh, Bool.and_eq_true, (C13_circular _ _ _).1, (C13_linear _ _ _).2.1,
      (C13_linear _ _ _).2.2, and_assoc]
  · simp only [XYZ.approxEq, xyz, Bool.and_eq_true, (C13_linear _ _ _).2.1, and_assoc]
  · simp only [ENH.approxEq, enh, Bool.and_eq_true, (C13_linear _ _ _).2.1, and_assoc]

/-- Specification of an approximate equality on values `α` with tolerances `τ` ordered by `le`. -/
structure ApproxRel {α τ : Type} (ok : τ → Prop) (le : τ → τ → Prop) (r : α → α → τ → Prop) : Prop where
  refl : ∀ a e, ok e → r a a e
  symm : ∀ a b e, r a b e → r b a e
  mono : ∀ a b e e', le e e' → r a b e → r a b e'

/-- **C13**: reflexive for a non-negative tolerance, symmetric, monotone: the five scalar types. -/
theorem C13_relations_scalar :
    ApproxRel (fun e => 0 ≤ e) (· ≤ ·) (fun a b e => (Angle.mk (fin a)).absDiffEq ⟨fin b⟩ ⟨fin e⟩ = true) ∧
    ApproxRel (fun e => 0 ≤ e) (· ≤ ·) (fun a b e => (Length.mk (fin a)).absDiffEq ⟨fin b⟩ ⟨fin e⟩ = true) ∧
    ApproxRel (fun e => 0 ≤ e) (· ≤ ·) (fun a b e => (Lat.mk ⟨fin a⟩).absDiffEq ⟨⟨fin b⟩⟩ ⟨fin e⟩ = true) ∧
    ApproxRel (fun e => 0 ≤ e) (· ≤ ·) (fun a b e => (Lon.mk ⟨fin a⟩).absDiffEq ⟨⟨fin b⟩⟩ ⟨fin e⟩ = true) ∧
    ApproxRel (fun e => 0 ≤ e) (· ≤ ·)
      (fun a b e => (Azimuth.mk ⟨fin a⟩).absDiffEq ⟨⟨fin b⟩⟩ ⟨fin e⟩ = true) := by
  have lin : ApproxRel (fun e : ℝ => 0 ≤ e) (· ≤ ·) (fun a b e : ℝ => |a - b| ≤ e) :=
    ⟨fun a e h => by simpa using h, fun a b e h => by rwa [abs_sub_comm],
      fun a b e e' h h' => le_trans h' h⟩
  have circ : ApproxRel (fun e : ℝ => 0 ≤ e) (· ≤ ·)
      (fun a b e : ℝ => ∃ t, SameDirection t (a - b) ∧ |t| ≤ e) := by
    refine ⟨fun a e h => ⟨0, by simpa using SameDirection.refl 0, by simpa using h⟩, ?_, ?_⟩
    · rintro a b e ⟨t, h1, h2⟩
      exact ⟨-t, by simpa using h1.neg, by simpa using h2⟩
    · rintro a b e e' h ⟨t, h1, h2⟩
      exact ⟨t, h1, le_trans h2 h⟩
  have tr : ∀ {r r' : ℝ → ℝ → ℝ → Prop}, (∀ a b e, r' a b e ↔ r a b e) →
      ApproxRel (fun e : ℝ => 0 ≤ e) (· ≤ ·) r → ApproxRel (fun e : ℝ => 0 ≤ e) (· ≤ ·) r' := by
    intro r r' h hr
    exact ⟨fun a e he => (h _ _ _).2 (hr.refl a e he), fun a b e h' => (h _ _ _).2 (hr.symm _ _ _ ((h _ _ _).1 h')),
      fun a b e e' he h' => (h _ _ _).2 (hr.mono _ _ _ _ he ((h _ _ _).1 h'))⟩
  exact ⟨tr (fun a b e => (C13_linear a b e).1) lin, tr (fun a b e => (C13_linear a b e).2.1) lin,
    tr (fun a b e => (C13_linear a b e).2.2) lin, tr (fun a b e => (C13_circular a b e).1) circ,
    tr (fun a b e => (C13_circular a b e).2) circ⟩

/-- **C13**: whole turns are ignored on longitudes and azimuths. -/
theorem C13_turns (a b e : ℝ) (k l : ℤ) :
    (Lon.mk ⟨fin (a + k * (2 * Real.pi))⟩).absDiffEq ⟨⟨fin (b + l * (2 * Real.pi))⟩⟩ ⟨fin e⟩ =
      (Lon.mk ⟨fin a⟩).absDiffEq ⟨⟨fin b⟩⟩ ⟨fin e⟩ ∧
    (Azimuth.mk ⟨fin (a + k * (2 * Real.pi))⟩).absDiffEq ⟨⟨fin (b + l * (2 * Real.pi))⟩⟩ ⟨fin e⟩ =
      (Azimuth.mk ⟨fin a⟩).absDiffEq ⟨⟨fin b⟩⟩ ⟨fin e⟩ := by
  have hs : SameDirection (a + k * (2 * Real.pi) - (b + l * (2 * Real.pi))) (a - b) :=
    SameDirection.sub ⟨k, rfl⟩ ⟨l, rfl⟩
  have key : (∃ t, SameDirection t (a + k * (2 * Real.pi) - (b + l * (2 * Real.pi))) ∧ |t| ≤ e) ↔
      ∃ t, SameDirection t (a - b) ∧ |t| ≤ e :=
    ⟨fun ⟨t, h1, h2⟩ => ⟨t, h1.trans hs, h2⟩, fun ⟨t, h1, h2⟩ => ⟨t, h1.trans hs.symm, h2⟩⟩
  constructor
  · rw [Bool.eq_iff_iff, (C13_circular _ _ _).1, (C13_circular _ _ _).1, key]
  · rw [Bool.eq_iff_iff, (C13_circular _ _ _).2, (C13_circular _ _ _).2, key]

/-- **C13**: the same three laws for the approximate equality of geodetic, geocentric and projected
coordinates. -/
theorem C13_relations_coordinates :
    ApproxRel (fun e : ℝ × ℝ × ℝ => 0 ≤ e.1 ∧ 0 ≤ e.2.1 ∧ 0 ≤ e.2.2)
      (fun e e' => e.1 ≤ e'.1 ∧ e.2.1 ≤ e'.2.1 ∧ e.2.2 ≤ e'.2.2)
      (fun (p q : ℝ × ℝ × ℝ) e => (llh p.1 p.2.1 p.2.2).approxEq (llh q.1 q.2.1 q.2.2)
        ⟨⟨fin e.1⟩, ⟨fin e.2.1⟩, ⟨fin e.2.2⟩⟩ = true) ∧
    ApproxRel (fun e : ℝ => 0 ≤ e) (· ≤ ·)
      (fun (p q : ℝ × ℝ × ℝ) e => (xyz p.1 p.2.1 p.2.2).approxEq (xyz q.1 q.2.1 q.2.2) ⟨⟨fin e⟩⟩ = true) ∧
    ApproxRel (fun e : ℝ × ℝ => 0 ≤ e.1 ∧ 0 ≤ e.2) (fun e e' => e.1 ≤ e'.1 ∧ e.2 ≤ e'.2)
      (fun (p q : ℝ × ℝ × ℝ) e => (enh p.1 p.2.1 p.2.2).approxEq (enh q.1 q.2.1 q.2.2)
        ⟨⟨fin e.1⟩, ⟨fin e.2⟩⟩ = true) := by
  obtain ⟨-, hl, hlat, hlon, -⟩ := C13_relations_scalar
  simp only [LLH.approxEq, XYZ.approxEq, ENH.approxEq, llh, xyz, enh, Bool.and_eq_true]
  refine ⟨⟨?_, ?_, ?_⟩, ⟨?_, ?_, ?_⟩, ⟨?_, ?_, ?_⟩⟩
  · rintro p e ⟨h1, h2, h3⟩
    exact ⟨⟨hlon.refl _ _ h1, hlat.refl _ _ h2⟩, hl.refl _ _ h3⟩
  · rintro p q e ⟨⟨h1, h2⟩, h3⟩
    exact ⟨⟨hlon.symm _ _ _ h1, hlat.symm _ _ _ h2⟩, hl.symm _ _ _ h3⟩
  · rintro p q e e' ⟨k1, k2, k3⟩ ⟨⟨h1, h2⟩, h3⟩
    exact ⟨⟨hlon.mono _ _ _ _ k1 h1, hlat.mono _ _ _ _ k2 h2⟩, hl.mono _ _ _ _ k3 h3⟩
  · intro p e h
    exact ⟨⟨hl.refl _ _ h, hl.refl _ _ h⟩, hl.refl _ _ h⟩
  · rintro p q e ⟨⟨h1, h2⟩, h3⟩
    exact ⟨⟨hl.symm _ _ _ h1, hl.symm _ _ _ h2⟩, hl.symm _ _ _ h3⟩
  · rintro p q e e' k ⟨⟨h1, h2⟩, h3⟩
    exact ⟨⟨hl.mono _ _ _ _ k h1, hl.mono _ _ _ _ k h2⟩, hl.mono _ _ _ _ k h3⟩
  · rintro p e ⟨h1, h2⟩
    exact ⟨⟨hl.refl _ _ h1, hl.refl _ _ h1⟩, hl.refl _ _ h2⟩
  · rintro p q e ⟨⟨h1, h2⟩, h3⟩
    exact ⟨⟨hl.symm _ _ _ h1, hl.symm _ _ _ h2⟩, hl.symm _ _ _ h3⟩
  · rintro p q e e' ⟨k1, k2⟩ ⟨⟨h1, h2⟩, h3⟩
    exact ⟨⟨hl.mono _ _ _ _ k1 h1, hl.mono _ _ _ _ k1 h2⟩, hl.mono _ _ _ _ k2 h3⟩

example : (Lon.mk ⟨fin Real.pi⟩).absDiffEq ⟨⟨fin (-Real.pi)⟩⟩ ⟨fin 0⟩ = true :=
  (C13_circular _ _ _).1.2 ⟨0, ⟨-1, by push_cast; ring⟩, by simp⟩

end Geo
