import Verif.Lemmas.Angle

/-!
C01, C03, C04, C05, C07, C08: angles, azimuths, longitudes and latitudes in exact arithmetic.
-/

namespace Geo
open XR Spec

/-! ### C01 -/

/-- **C01**: `Lon::new` returns a representative in `[-π, π]` of the requested angle, itself when already
there. -/
theorem C01_new (x : ℝ) : ∃ r, Lon.new ⟨fin x⟩ = ⟨⟨fin r⟩⟩ ∧ WrapsTo r x :=
  ⟨remR x, by simp [Lon.new, wrapped_fin], remR_wraps x⟩

/-- **C01**: `Lon::rad`, `Lon::deg`. -/
theorem C01_rad_deg (x : ℝ) :
    (∃ r, Lon.rad (fin x) = ⟨⟨fin r⟩⟩ ∧ WrapsTo r x) ∧
    (∃ r, Lon.deg (fin x) = ⟨⟨fin r⟩⟩ ∧ WrapsTo r (x * Real.pi / 180)) := by
  constructor
  · exact ⟨remR x, by simp [Lon.rad, Lon.new, angle_new_rad, wrapped_fin], remR_wraps x⟩
  · refine ⟨remR (x * Real.pi / 180), ?_, remR_wraps _⟩
    simp [Lon.deg, Lon.new, angle_new_deg, wrapped_fin, mul_div_assoc]

/-- **C01**: the operators on longitudes, and their assigning versions, wrap the exact result. -/
theorem C01_operators (x y : ℝ) :
    (∃ r, (Lon.mk ⟨fin x⟩).addAngle ⟨fin y⟩ = ⟨⟨fin r⟩⟩ ∧
      (Lon.mk ⟨fin x⟩).addAssign ⟨fin y⟩ = ⟨⟨fin r⟩⟩ ∧ WrapsTo r (x + y)) ∧
    (∃ r, (Lon.mk ⟨fin x⟩).subAngle ⟨fin y⟩ = ⟨⟨fin r⟩⟩ ∧
      (Lon.mk ⟨fin x⟩).subAssign ⟨fin y⟩ = ⟨⟨fin r⟩⟩ ∧ WrapsTo r (x - y)) ∧
    (∃ r, (Lon.mk ⟨fin x⟩).mulF (fin y) = ⟨⟨fin r⟩⟩ ∧
      (Lon.mk ⟨fin x⟩).mulAssign (fin y) = ⟨⟨fin r⟩⟩ ∧ WrapsTo r (x * y)) ∧
    (y ≠ 0 → ∃ r, (Lon.mk ⟨fin x⟩).divF (fin y) = ⟨⟨fin r⟩⟩ ∧
      (Lon.mk ⟨fin x⟩).divAssign (fin y) = ⟨⟨fin r⟩⟩ ∧ WrapsTo r (x / y)) := by
  refine ⟨⟨remR (x + y), ?_, ?_, remR_wraps _⟩, ⟨remR (x - y), ?_, ?_, remR_wraps _⟩,
    ⟨remR (x * y), ?_, ?_, remR_wraps _⟩, fun hy => ⟨remR (x / y), ?_, ?_, remR_wraps _⟩⟩
  · simp [Lon.addAngle, Lon.new, wrapped_fin]
  · simp [Lon.addAssign, wrapped_fin]
  · simp [Lon.subAngle, Lon.new, wrapped_fin]
  · simp [Lon.subAssign, wrapped_fin]
  · simp [Lon.mulF, Lon.new, wrapped_fin]
  · simp [Lon.mulAssign, wrapped_fin]
  · simp [Lon.divF, Lon.new, wrapped_fin, div_fin _ hy]
  · simp [Lon.divAssign, wrapped_fin, div_fin _ hy]

example : ∃ r, Lon.new ⟨fin 10⟩ = ⟨⟨fin r⟩⟩ ∧ WrapsTo r 10 := C01_new 10

/-! ### C03 -/

/-- **C03**: `normalized` returns the representative in `(-π, π]`; `normalize` in place does the same. -/
theorem C03_range (x : ℝ) : ∃ r, (Angle.mk (fin x)).normalized = ⟨fin r⟩ ∧
    (Angle.mk (fin x)).normalize = ⟨fin r⟩ ∧ NormalizesTo r x :=
  ⟨normR x, normalized_fin x, normalized_fin x, normR_normalizes x⟩

/-- **C03**: idempotence. -/
theorem C03_idempotent (x : ℝ) :
    (Angle.mk (fin x)).normalized.normalized = (Angle.mk (fin x)).normalized := by
  rw [normalized_fin, normalized_fin, normR_normR]

/-- **C03**: two angles normalise to the same value exactly when they differ by whole turns. -/
theorem C03_canonical (x y : ℝ) :
    (Angle.mk (fin x)).normalized = (Angle.mk (fin y)).normalized ↔ SameDirection x y := by
  rw [normalized_fin, normalized_fin]
  constructor
  · intro h
    have h' : normR x = normR y := by simpa using h
    exact ((normR_same x).symm.trans (h' ▸ normR_same y))
  · intro h
    rw [normR_congr h]

example : (Angle.mk (fin 1)).normalized = (Angle.mk (fin (1 + 2 * Real.pi))).normalized :=
  (C03_canonical _ _).2 ⟨-1, by push_cast; ring⟩

/-! ### C04 -/

/-- **C04**: `diff_to` is in `(-π, π]`, leads from `a` to `b`, and is the smallest such rotation. -/
theorem C04_diff_to (a b : ℝ) : ∃ r, (Angle.mk (fin a)).diffTo ⟨fin b⟩ = ⟨fin r⟩ ∧
    -Real.pi < r ∧ r ≤ Real.pi ∧ SameDirection (a + r) b ∧
    ∀ t, SameDirection (a + t) b → |r| ≤ |t| := by
  refine ⟨normR (b - a), diffTo_fin a b, lt_normR _, normR_le _, ?_, ?_⟩
  · have := (SameDirection.refl a).add (normR_same (b - a))
    simpa using this
  · intro t ht
    apply abs_normR_le
    have := ht.sub (SameDirection.refl a)
    simpa using this

/-- **C04**: swapping the arguments negates the difference, unless the directions are opposite, when both
differences are `π`. -/
theorem C04_antisymmetric (a b r : ℝ) (h : (Angle.mk (fin a)).diffTo ⟨fin b⟩ = ⟨fin r⟩) :
    (r ≠ Real.pi → (Angle.mk (fin b)).diffTo ⟨fin a⟩ = ⟨fin (-r)⟩) ∧
    (r = Real.pi → (Angle.mk (fin b)).diffTo ⟨fin a⟩ = ⟨fin Real.pi⟩) ∧
    (r = Real.pi ↔ SameDirection (b - a) Real.pi) := by
  rw [diffTo_fin] at h
  have hr : normR (b - a) = r := by simpa using h
  have h1 := lt_normR (b - a)
  have h2 := normR_le (b - a)
  have h3 : SameDirection (a - b) (-r) := by
    have := (normR_same (b - a)).symm.neg
    rw [hr] at this
    simpa using this
  rw [hr] at h1 h2
  refine ⟨fun hne => ?_, fun he => ?_, fun he => ?_, fun hs => ?_⟩
  · rw [diffTo_fin, normR_eq ⟨?_, by linarith, h3.symm⟩]
    have := lt_of_le_of_ne h2 hne
    linarith
  · rw [diffTo_fin, normR_eq ⟨by linarith [Real.pi_pos], le_refl _, ?_⟩]
    rw [he] at h3
    refine SameDirection.trans ⟨1, ?_⟩ h3.symm
    push_cast; ring
  · rw [← he, ← hr]; exact (normR_same _).symm
  · rw [← hr, normR_congr hs, normR_id (by linarith [Real.pi_pos]) (le_refl _)]

example : (Angle.mk (fin 0)).diffTo ⟨fin (3 * Real.pi)⟩ = ⟨fin Real.pi⟩ := by
  obtain ⟨r, hr, -⟩ := C04_diff_to 0 (3 * Real.pi)
  have := (C04_antisymmetric 0 (3 * Real.pi) r hr).2.2.2 ⟨1, by push_cast; ring⟩
  rw [hr, this]

/-! ### C05 -/

/-- Azimuths obtained through the public API from finite arguments. -/
inductive AzimuthBuilt : Azimuth XR → Prop
  | north : AzimuthBuilt .NORTH
  | east : AzimuthBuilt .EAST
  | south : AzimuthBuilt .SOUTH
  | west : AzimuthBuilt .WEST
  | new (x : ℝ) : AzimuthBuilt (.new ⟨fin x⟩)
  | rad (x : ℝ) : AzimuthBuilt (.rad (fin x))
  | deg (x : ℝ) : AzimuthBuilt (.deg (fin x))
  | dms (debug : Bool) (d m s : ℝ) (a : Azimuth XR) :
      Azimuth.dms debug (fin d) (fin m) (fin s) = .ok a → AzimuthBuilt a
  | add (a : Azimuth XR) (t : ℝ) : AzimuthBuilt a → AzimuthBuilt (a.addAngle ⟨fin t⟩)

theorem dmsAngle_fin (d m s : ℝ) : dmsAngle (fin d) (fin m) (fin s) =
    ⟨fin ((if d < 0 then -1 else 1) * (|d| + m / 60 + s / 3600) * (Real.pi / 180))⟩ := by
  simp [dmsAngle, div_fin, angle_new_deg]

theorem azimuth_new_fin (x : ℝ) : Azimuth.new ⟨fin x⟩ = ⟨⟨fin (normR x)⟩⟩ := by
  simp [Azimuth.new, normalized_fin]

/-- **C05**: every azimuth of the API is in `(-π, π]`. -/
theorem C05_range (a : Azimuth XR) (h : AzimuthBuilt a) :
    ∃ r, a = ⟨⟨fin r⟩⟩ ∧ -Real.pi < r ∧ r ≤ Real.pi := by
  have hp := Real.pi_pos
  have key : ∀ x, ∃ r, Azimuth.new ⟨fin x⟩ = ⟨⟨fin r⟩⟩ ∧ -Real.pi < r ∧ r ≤ Real.pi :=
    fun x => ⟨normR x, azimuth_new_fin x, lt_normR x, normR_le x⟩
  induction h with
  | north => exact ⟨0, by simp [Azimuth.NORTH, Angle.ZERO], by linarith, by linarith⟩
  | east => exact ⟨Real.pi / 2, by simp [Azimuth.EAST, Angle.PI_2], by linarith, by linarith⟩
  | south => exact ⟨Real.pi, by simp [Azimuth.SOUTH, Angle.PI], by linarith, by linarith⟩
  | west => exact ⟨-(Real.pi / 2), by simp [Azimuth.WEST, Angle.M_PI_2], by linarith, by linarith⟩
  | new x => exact key x
  | rad x => rw [Azimuth.rad, angle_new_rad]; exact key x
  | deg x => rw [Azimuth.deg, angle_new_deg]; exact key _
  | dms debug d m s a h =>
    have ha : a = Azimuth.new (dmsAngle (fin d) (fin m) (fin s)) := by
      cases debug with
      | false => cases h; rfl
      | true => obtain ⟨_, -, h⟩ := bind_eq_ok.1 h; cases h; rfl
    rw [ha, dmsAngle_fin]
    exact key _
  | add a t _ ih =>
    obtain ⟨r, rfl, -⟩ := ih
    exact key (r + t)

theorem azimuth_sub_fin (a b : ℝ) :
    (Azimuth.mk ⟨fin a⟩).sub ⟨⟨fin b⟩⟩ = ⟨fin (normR (a - b))⟩ := by
  simp [Azimuth.sub, diffTo_fin, normalized_fin, normR_normR]

/-- **C05**: adding an angle and subtracting the azimuth gives back the angle, normalised. -/
theorem C05_add_sub (a : Azimuth XR) (h : AzimuthBuilt a) (t : ℝ) :
    (a.addAngle ⟨fin t⟩).sub a = (Angle.mk (fin t)).normalized := by
  obtain ⟨r, rfl, -⟩ := C05_range a h
  simp only [Azimuth.addAngle, Angle.mk_add, add_fin, azimuth_new_fin, azimuth_sub_fin, normalized_fin]
  congr 2
  apply normR_congr
  have := (normR_same (r + t)).sub (SameDirection.refl r)
  simpa using this

/-- **C05**: adding the difference of two azimuths to the second gives the first. -/
theorem C05_sub_add (a b : Azimuth XR) (ha : AzimuthBuilt a) (hb : AzimuthBuilt b) :
    b.addAngle (a.sub b) = a := by
  obtain ⟨r, rfl, h1, h2⟩ := C05_range a ha
  obtain ⟨s, rfl, -⟩ := C05_range b hb
  simp only [azimuth_sub_fin, Azimuth.addAngle, Angle.mk_add, add_fin, azimuth_new_fin]
  congr 3
  apply normR_eq
  refine ⟨h1, h2, ?_⟩
  have := (SameDirection.refl s).add (normR_same (r - s)).symm
  simpa using this

/-- **C05**: adding angles one after the other is adding their sum. -/
theorem C05_add_many (a : Azimuth XR) (h : AzimuthBuilt a) (ts : List ℝ) :
    ts.foldl (fun az t => az.addAngle ⟨fin t⟩) a = a.addAngle ⟨fin ts.sum⟩ := by
  induction ts generalizing a with
  | nil =>
    obtain ⟨r, rfl, h1, h2⟩ := C05_range a h
    simp [Azimuth.addAngle, azimuth_new_fin, normR_id h1 h2]
  | cons t ts ih =>
    rw [List.foldl_cons, ih _ (.add a t h)]
    obtain ⟨r, rfl, h1, h2⟩ := C05_range a h
    simp only [Azimuth.addAngle, Angle.mk_add, add_fin, azimuth_new_fin, List.sum_cons]
    congr 3
    apply normR_congr
    have := (normR_same (r + t)).add (SameDirection.refl ts.sum)
    simpa [add_assoc] using this

example : (Azimuth.WEST.addAngle ⟨fin 20⟩).sub Azimuth.WEST = (Angle.mk (fin 20)).normalized :=
  C05_add_sub _ .west 20

/-! ### C07 -/

/-- Longitudes obtained through the public API from finite operands (`const_new` requires an angle already in
`[-π, π]`, as documented). -/
inductive LonBuilt : Lon XR → Prop
  | min : LonBuilt .MIN
  | zero : LonBuilt .ZERO
  | max : LonBuilt .MAX
  | new (x : ℝ) : LonBuilt (.new ⟨fin x⟩)
  | constNew (x : ℝ) : -Real.pi ≤ x → x ≤ Real.pi → LonBuilt (.constNew ⟨fin x⟩)
  | rad (x : ℝ) : LonBuilt (.rad (fin x))
  | deg (x : ℝ) : LonBuilt (.deg (fin x))
  | dms (debug : Bool) (d m s : ℝ) (l : Lon XR) :
      Lon.dms debug (fin d) (fin m) (fin s) = .ok l → LonBuilt l
  | neg (l : Lon XR) : LonBuilt l → LonBuilt (-l)
  | normalized (l : Lon XR) : LonBuilt l → LonBuilt l.normalized
  | addAngle (l : Lon XR) (t : ℝ) : LonBuilt l → LonBuilt (l.addAngle ⟨fin t⟩)
  | addAssign (l : Lon XR) (t : ℝ) : LonBuilt l → LonBuilt (l.addAssign ⟨fin t⟩)
  | subAngle (l : Lon XR) (t : ℝ) : LonBuilt l → LonBuilt (l.subAngle ⟨fin t⟩)
  | subAssign (l : Lon XR) (t : ℝ) : LonBuilt l → LonBuilt (l.subAssign ⟨fin t⟩)
  | mulF (l : Lon XR) (t : ℝ) : LonBuilt l → LonBuilt (l.mulF (fin t))
  | mulAssign (l : Lon XR) (t : ℝ) : LonBuilt l → LonBuilt (l.mulAssign (fin t))
  | divF (l : Lon XR) (t : ℝ) : t ≠ 0 → LonBuilt l → LonBuilt (l.divF (fin t))
  | divAssign (l : Lon XR) (t : ℝ) : t ≠ 0 → LonBuilt l → LonBuilt (l.divAssign (fin t))

theorem lon_normalized_fin (x : ℝ) : (Lon.mk ⟨fin x⟩).normalized =
    ⟨⟨fin (if x ≤ -Real.pi then Real.pi else x)⟩⟩ := by
  unfold Lon.normalized Lon.le Angle.le Lon.MIN Lon.MAX Angle.M_PI Angle.PI
  by_cases h : x ≤ -Real.pi <;> simp [h]

/-- **C07**: every longitude of the API lies in `[-π, π]`. -/
theorem C07_range (l : Lon XR) (h : LonBuilt l) :
    ∃ r, l = ⟨⟨fin r⟩⟩ ∧ -Real.pi ≤ r ∧ r ≤ Real.pi := by
  have hp := Real.pi_pos
  have key : ∀ {l : Lon XR} {x : ℝ}, (∃ r, l = ⟨⟨fin r⟩⟩ ∧ WrapsTo r x) →
      ∃ r, l = ⟨⟨fin r⟩⟩ ∧ -Real.pi ≤ r ∧ r ≤ Real.pi :=
    fun ⟨r, h, w⟩ => ⟨r, h, w.1, w.2.1⟩
  induction h with
  | min => exact ⟨-Real.pi, by simp [Lon.MIN, Angle.M_PI], by linarith, by linarith⟩
  | zero => exact ⟨0, by simp [Lon.ZERO, Angle.ZERO], by linarith, by linarith⟩
  | max => exact ⟨Real.pi, by simp [Lon.MAX, Angle.PI], by linarith, by linarith⟩
  | new x => exact key (C01_new x)
  | constNew x h1 h2 => exact ⟨x, rfl, h1, h2⟩
  | rad x => exact key (C01_rad_deg x).1
  | deg x => exact key (C01_rad_deg x).2
  | dms debug d m s l h =>
    have hl : l = Lon.new (dmsAngle (fin d) (fin m) (fin s)) := by
      cases debug with
      | false => cases h; rfl
      | true => obtain ⟨_, -, h⟩ := bind_eq_ok.1 h; cases h; rfl
    rw [hl, dmsAngle_fin]
    exact key (C01_new _)
  | neg l _ ih =>
    obtain ⟨r, rfl, h1, h2⟩ := ih
    exact ⟨-r, rfl, by linarith, by linarith⟩
  | normalized l _ ih =>
    obtain ⟨r, rfl, h1, h2⟩ := ih
    rw [lon_normalized_fin]
    refine ⟨_, rfl, ?_, ?_⟩ <;> split <;> linarith
  | addAngle l t _ ih => obtain ⟨r, rfl, -⟩ := ih; obtain ⟨r', h, -, w⟩ := (C01_operators r t).1
                         exact ⟨r', h, w.1, w.2.1⟩
  | addAssign l t _ ih => obtain ⟨r, rfl, -⟩ := ih; obtain ⟨r', -, h, w⟩ := (C01_operators r t).1
                          exact ⟨r', h, w.1, w.2.1⟩
  | subAngle l t _ ih => obtain ⟨r, rfl, -⟩ := ih; obtain ⟨r', h, -, w⟩ := (C01_operators r t).2.1
                         exact ⟨r', h, w.1, w.2.1⟩
  | subAssign l t _ ih => obtain ⟨r, rfl, -⟩ := ih; obtain ⟨r', -, h, w⟩ := (C01_operators r t).2.1
                          exact ⟨r', h, w.1, w.2.1⟩
  | mulF l t _ ih => obtain ⟨r, rfl, -⟩ := ih; obtain ⟨r', h, -, w⟩ := (C01_operators r t).2.2.1
                     exact ⟨r', h, w.1, w.2.1⟩
  | mulAssign l t _ ih => obtain ⟨r, rfl, -⟩ := ih; obtain ⟨r', -, h, w⟩ := (C01_operators r t).2.2.1
                          exact ⟨r', h, w.1, w.2.1⟩
  | divF l t ht _ ih => obtain ⟨r, rfl, -⟩ := ih; obtain ⟨r', h, -, w⟩ := (C01_operators r t).2.2.2 ht
                        exact ⟨r', h, w.1, w.2.1⟩
  | divAssign l t ht _ ih =>
    obtain ⟨r, rfl, -⟩ := ih
    obtain ⟨r', -, h, w⟩ := (C01_operators r t).2.2.2 ht
    exact ⟨r', h, w.1, w.2.1⟩

/-- **C07**: `Lon::normalized` of a longitude of the API is the same direction in `(-π, π]`. -/
theorem C07_normalized (l : Lon XR) (h : LonBuilt l) :
    ∃ x r, l = ⟨⟨fin x⟩⟩ ∧ l.normalized = ⟨⟨fin r⟩⟩ ∧ NormalizesTo r x := by
  have hp := Real.pi_pos
  obtain ⟨x, rfl, h1, h2⟩ := C07_range l h
  refine ⟨x, _, rfl, lon_normalized_fin x, ?_⟩
  split
  · rename_i hx
    have : x = -Real.pi := le_antisymm hx h1
    exact ⟨by linarith, le_refl _, 1, by rw [this]; push_cast; ring⟩
  · rename_i hx
    exact ⟨not_le.1 hx, h2, SameDirection.refl x⟩

example : LonBuilt ((-(Lon.MIN.addAngle ⟨fin 100⟩)).mulF (fin 7)).normalized :=
  .normalized _ (.mulF _ _ (.neg _ (.addAngle _ _ .min)))

/-! ### C08 -/

/-- Specification: `r` is the value of `[-π/2, π/2]` closest to `x`. -/
def ClosestLat (r x : ℝ) : Prop :=
  -(Real.pi / 2) ≤ r ∧ r ≤ Real.pi / 2 ∧
  ∀ y, -(Real.pi / 2) ≤ y → y ≤ Real.pi / 2 → |r - x| ≤ |y - x|

/-- Value of `Lat::new`. -/
noncomputable def clampR (x : ℝ) : ℝ :=
  if x < -(Real.pi / 2) then -(Real.pi / 2) else if Real.pi / 2 < x then Real.pi / 2 else x

theorem clampR_closest (x : ℝ) : ClosestLat (clampR x) x := by
  have hp := Real.pi_pos
  unfold clampR
  split
  · rename_i h
    refine ⟨le_refl _, by linarith, fun y h1 h2 => ?_⟩
    rw [abs_of_pos (by linarith), abs_of_pos (by linarith)]
    linarith
  · split
    · rename_i h
      refine ⟨by linarith, le_refl _, fun y h1 h2 => ?_⟩
      rw [abs_of_neg (by linarith), abs_of_neg (by linarith)]
      linarith
    · rename_i h1 h2
      refine ⟨by linarith, by linarith, fun y _ _ => ?_⟩
      simp

theorem clampR_id {x : ℝ} (h1 : -(Real.pi / 2) ≤ x) (h2 : x ≤ Real.pi / 2) : clampR x = x := by
  unfold clampR
  rw [if_neg (not_lt.2 h1), if_neg (not_lt.2 h2)]

theorem clamped_fin (x : ℝ) :
    (Angle.mk (fin x)).clamped Angle.M_PI_2 Angle.PI_2 = ⟨fin (clampR x)⟩ := by
  unfold Angle.clamped clamp Angle.M_PI_2 Angle.PI_2 clampR
  by_cases h1 : x < -(Real.pi / 2)
  · simp [h1]
  · by_cases h2 : Real.pi / 2 < x <;> simp [h1, h2]

theorem lat_new_fin (x : ℝ) : Lat.new ⟨fin x⟩ = ⟨⟨fin (clampR x)⟩⟩ := by
  rw [Lat.new, clamped_fin]

/-- **C08**: `Lat::new` returns the closest latitude, the identity on `[-π/2, π/2]`. -/
theorem C08_new (x : ℝ) : ∃ r, Lat.new ⟨fin x⟩ = ⟨⟨fin r⟩⟩ ∧ ClosestLat r x ∧
    (-(Real.pi / 2) ≤ x → x ≤ Real.pi / 2 → r = x) :=
  ⟨clampR x, lat_new_fin x, clampR_closest x, fun h1 h2 => clampR_id h1 h2⟩

/-- **C08**: `Lat::new` is monotone. -/
theorem C08_monotone (x y : ℝ) (h : x ≤ y) :
    (Lat.new ⟨fin x⟩).le (Lat.new ⟨fin y⟩) = true := by
  have hp := Real.pi_pos
  rw [lat_new_fin, lat_new_fin]
  simp only [Lat.le, Angle.le, le_fin, decide_eq_true_eq]
  unfold clampR
  split <;> split <;> try split
  all_goals (try split) <;> linarith

/-- **C08**: the operators on latitudes, and their assigning versions, saturate. -/
theorem C08_operators (x y : ℝ) :
    (∃ r, (Lat.mk ⟨fin x⟩).addAngle ⟨fin y⟩ = ⟨⟨fin r⟩⟩ ∧
      (Lat.mk ⟨fin x⟩).addAssign ⟨fin y⟩ = ⟨⟨fin r⟩⟩ ∧ ClosestLat r (x + y)) ∧
    (∃ r, (Lat.mk ⟨fin x⟩).subAngle ⟨fin y⟩ = ⟨⟨fin r⟩⟩ ∧
      (Lat.mk ⟨fin x⟩).subAssign ⟨fin y⟩ = ⟨⟨fin r⟩⟩ ∧ ClosestLat r (x - y)) ∧
    (∃ r, (Lat.mk ⟨fin x⟩).mulF (fin y) = ⟨⟨fin r⟩⟩ ∧
      (Lat.mk ⟨fin x⟩).mulAssign (fin y) = ⟨⟨fin r⟩⟩ ∧ ClosestLat r (x * y)) ∧
    (y ≠ 0 → ∃ r, (Lat.mk ⟨fin x⟩).divF (fin y) = ⟨⟨fin r⟩⟩ ∧
      (Lat.mk ⟨fin x⟩).divAssign (fin y) = ⟨⟨fin r⟩⟩ ∧ ClosestLat r (x / y)) := by
  refine ⟨⟨clampR (x + y), ?_, ?_, clampR_closest _⟩, ⟨clampR (x - y), ?_, ?_, clampR_closest _⟩,
    ⟨clampR (x * y), ?_, ?_, clampR_closest _⟩, fun hy => ⟨clampR (x / y), ?_, ?_, clampR_closest _⟩⟩
  · simp [Lat.addAngle, lat_new_fin]
  · simp [Lat.addAssign, clamped_fin]
  · simp [Lat.subAngle, lat_new_fin]
  · simp [Lat.subAssign, clamped_fin]
  · simp [Lat.mulF, lat_new_fin]
  · simp [Lat.mulAssign, clamped_fin]
  · simp [Lat.divF, lat_new_fin, div_fin _ hy]
  · simp [Lat.divAssign, clamped_fin, div_fin _ hy]

example : ∃ r, (Lat.mk ⟨fin 1⟩).addAngle ⟨fin 1⟩ = ⟨⟨fin r⟩⟩ ∧ ClosestLat r 2 := by
  obtain ⟨r, h, -, c⟩ := (C08_operators 1 1).1
  exact ⟨r, h, by norm_num at c; exact c⟩

end Geo
