import Verif.Props.QuantitiesExact
import Verif.Model.Crs
import Mathlib.Analysis.InnerProductSpace.PiL2

/-!
C14, C16 (exact part), C17, C19: systems of axes, tolerances, Cartesian distances, in exact arithmetic.
-/

namespace Geo
open XR Spec

/-! ### C14 -/

/-- Specification: the five geodetic systems of axes, with units of `p / q` radians and `p' / q'` metres. -/
inductive GeodeticSystem where
  | eastNorthUp (p q p' q' : ℝ)
  | eastNorth (p q : ℝ)
  | northEastUp (p q p' q' : ℝ)
  | northEast (p q : ℝ)
  | northWest (p q : ℝ)

namespace GeodeticSystem

/-- The crate's value for this system. -/
def axes : GeodeticSystem → GeodeticAxes XR
  | eastNorthUp p q p' q' => .eastNorthUp (angleUnit p q) (lengthUnit p' q')
  | eastNorth p q => .eastNorth (angleUnit p q)
  | northEastUp p q p' q' => .northEastUp (angleUnit p q) (lengthUnit p' q')
  | northEast p q => .northEast (angleUnit p q)
  | northWest p q => .northWest (angleUnit p q)

/-- All unit ratios are non-zero. -/
def Valid : GeodeticSystem → Prop
  | eastNorthUp p q p' q' | northEastUp p q p' q' => p ≠ 0 ∧ q ≠ 0 ∧ p' ≠ 0 ∧ q' ≠ 0
  | eastNorth p q | northEast p q | northWest p q => p ≠ 0 ∧ q ≠ 0

/-- All unit ratios are positive. -/
def Positive : GeodeticSystem → Prop
  | eastNorthUp p q p' q' | northEastUp p q p' q' => 0 < p ∧ 0 < q ∧ 0 < p' ∧ 0 < q'
  | eastNorth p q | northEast p q | northWest p q => 0 < p ∧ 0 < q

/-- Does the system have a height axis? -/
def Is3D : GeodeticSystem → Prop
  | eastNorthUp .. | northEastUp .. => True
  | _ => False

/-- Coordinates `c` have one entry per axis. -/
def Fits (s : GeodeticSystem) (c : List ℝ) : Prop := c.length = s.axes.dim

/-- Longitude, in radians east, of coordinates `a, b, ..`: by the direction and order of the axes. -/
noncomputable def lonOf : GeodeticSystem → List ℝ → ℝ
  | eastNorthUp p q _ _, a :: _ => a * (p / q)
  | eastNorth p q, a :: _ => a * (p / q)
  | northEastUp p q _ _, _ :: b :: _ => b * (p / q)
  | northEast p q, _ :: b :: _ => b * (p / q)
  | northWest p q, _ :: b :: _ => -b * (p / q)
  | _, _ => 0

/-- Latitude, in radians north. -/
noncomputable def latOf : GeodeticSystem → List ℝ → ℝ
  | eastNorthUp p q _ _, _ :: b :: _ => b * (p / q)
  | eastNorth p q, _ :: b :: _ => b * (p / q)
  | northEastUp p q _ _, a :: _ => a * (p / q)
  | northEast p q, a :: _ => a * (p / q)
  | northWest p q, a :: _ => a * (p / q)
  | _, _ => 0

/-- Height in metres, 0 on 2D systems. -/
noncomputable def heightOf : GeodeticSystem → List ℝ → ℝ
  | eastNorthUp _ _ p' q', [_, _, c] => c * (p' / q')
  | northEastUp _ _ p' q', [_, _, c] => c * (p' / q')
  | _, _ => 0

end GeodeticSystem
open GeodeticSystem

theorem lon_new_fin (x : ℝ) : Lon.new ⟨fin x⟩ = ⟨⟨fin (remR x)⟩⟩ := by rw [Lon.new, wrapped_fin]

theorem geodetic_normalize_fin (s : GeodeticSystem) (hv : s.Valid) (c : List ℝ) (hc : s.Fits c) :
    s.axes.normalize (c.map fin) =
      .ok (llh (remR (s.lonOf c)) (clampR (s.latOf c)) (s.heightOf c)) := by
  cases s with
  | eastNorthUp p q p' q' =>
    obtain ⟨a, b, d, rfl⟩ := List.length_eq_three.1 hc
    obtain ⟨h1, h2, h3, h4⟩ := hv
    simp [axes, GeodeticAxes.normalize, angle_new_unit _ _ _ h2, length_new_unit _ _ _ h4, lon_new_fin,
      lat_new_fin, lonOf, latOf, heightOf, llh]
  | eastNorth p q =>
    obtain ⟨a, b, rfl⟩ := List.length_eq_two.1 hc
    obtain ⟨h1, h2⟩ := hv
    simp [axes, GeodeticAxes.normalize, angle_new_unit _ _ _ h2, lon_new_fin,
      lat_new_fin, lonOf, latOf, heightOf, llh, length_zero]
  | northEastUp p q p' q' =>
    obtain ⟨a, b, d, rfl⟩ := List.length_eq_three.1 hc
    obtain ⟨h1, h2, h3, h4⟩ := hv
    simp [axes, GeodeticAxes.normalize, angle_new_unit _ _ _ h2, length_new_unit _ _ _ h4, lon_new_fin,
      lat_new_fin, lonOf, latOf, heightOf, llh]
  | northEast p q =>
    obtain ⟨a, b, rfl⟩ := List.length_eq_two.1 hc
    obtain ⟨h1, h2⟩ := hv
    simp [axes, GeodeticAxes.normalize, angle_new_unit _ _ _ h2, lon_new_fin,
      lat_new_fin, lonOf, latOf, heightOf, llh, length_zero]
  | northWest p q =>
    obtain ⟨a, b, rfl⟩ := List.length_eq_two.1 hc
    obtain ⟨h1, h2⟩ := hv
    simp [axes, GeodeticAxes.normalize, angle_new_unit _ _ _ h2, lon_new_fin,
      lat_new_fin, lonOf, latOf, heightOf, llh, length_zero]

/-- **C14**: `normalize` reads each coordinate along the axis and in the unit the system says. -/
theorem C14_normalize_meaning (s : GeodeticSystem) (hv : s.Valid) (c : List ℝ) (hc : s.Fits c) :
    ∃ lon lat, s.axes.normalize (c.map fin) = .ok (llh lon lat (s.heightOf c)) ∧
      WrapsTo lon (s.lonOf c) ∧ ClosestLat lat (s.latOf c) :=
  ⟨_, _, geodetic_normalize_fin s hv c hc, remR_wraps _, clampR_closest _⟩

/-- Value of `denormalize`: coordinates that read back as the given position. -/
theorem geodetic_denormalize_fin (s : GeodeticSystem) (hv : s.Valid) (lon lat h : ℝ) (buf : List XR)
    (hb : s.axes.dim ≤ buf.length) :
    ∃ c : List ℝ, s.Fits c ∧
      s.axes.denormalize (llh lon lat h) buf = .ok (c.map fin ++ buf.drop s.axes.dim) ∧
      s.lonOf c = lon ∧ s.latOf c = lat ∧ (s.Is3D → s.heightOf c = h) ∧ (¬ s.Is3D → s.heightOf c = 0) := by
  cases s with
  | eastNorthUp p q p' q' =>
    obtain ⟨h1, h2, h3, h4⟩ := hv
    refine ⟨[lon * q / p, lat * q / p, h / (p' / q')], rfl, ?_, ?_, ?_, ?_, ?_⟩
    · rcases buf with _ | ⟨a, _ | ⟨b, _ | ⟨c, l⟩⟩⟩ <;>
        simp [axes, GeodeticAxes.dim] at hb
      simp [axes, GeodeticAxes.denormalize, llh, angle_val_unit _ _ _ h1, length_val_unit _ _ _ h3 h4, setIdx,
        GeodeticAxes.dim]
    · simp only [lonOf]; field_simp
    · simp only [latOf]; field_simp
    · intro _; simp only [heightOf]; field_simp
    · intro hh; exact absurd trivial hh
  | eastNorth p q =>
    obtain ⟨h1, h2⟩ := hv
    refine ⟨[lon * q / p, lat * q / p], rfl, ?_, ?_, ?_, ?_, ?_⟩
    · rcases buf with _ | ⟨a, _ | ⟨b, l⟩⟩ <;>
        simp [axes, GeodeticAxes.dim] at hb
      simp [axes, GeodeticAxes.denormalize, llh, angle_val_unit _ _ _ h1, setIdx, GeodeticAxes.dim]
    · simp only [lonOf]; field_simp
    · simp only [latOf]; field_simp
    · intro hh; exact hh.elim
    · intro _; rfl
  | northEastUp p q p' q' =>
    obtain ⟨h1, h2, h3, h4⟩ := hv
    refine ⟨[lat * q / p, lon * q / p, h / (p' / q')], rfl, ?_, ?_, ?_, ?_, ?_⟩
    · rcases buf with _ | ⟨a, _ | ⟨b, _ | ⟨c, l⟩⟩⟩ <;>
        simp [axes, GeodeticAxes.dim] at hb
      simp [axes, GeodeticAxes.denormalize, llh, angle_val_unit _ _ _ h1, length_val_unit _ _ _ h3 h4, setIdx,
        GeodeticAxes.dim]
    · simp only [lonOf]; field_simp
    · simp only [latOf]; field_simp
    · intro _; simp only [heightOf]; field_simp
    · intro hh; exact absurd trivial hh
  | northEast p q =>
    obtain ⟨h1, h2⟩ := hv
    refine ⟨[lat * q / p, lon * q / p], rfl, ?_, ?_, ?_, ?_, ?_⟩
    · rcases buf with _ | ⟨a, _ | ⟨b, l⟩⟩ <;>
        simp [axes, GeodeticAxes.dim] at hb
      simp [axes, GeodeticAxes.denormalize, llh, angle_val_unit _ _ _ h1, setIdx, GeodeticAxes.dim]
    · simp only [lonOf]; field_simp
    · simp only [latOf]; field_simp
    · intro hh; exact hh.elim
    · intro _; rfl
  | northWest p q =>
    obtain ⟨h1, h2⟩ := hv
    refine ⟨[lat * q / p, -(lon * q / p)], rfl, ?_, ?_, ?_, ?_, ?_⟩
    · rcases buf with _ | ⟨a, _ | ⟨b, l⟩⟩ <;>
        simp [axes, GeodeticAxes.dim] at hb
      simp [axes, GeodeticAxes.denormalize, llh, angle_val_unit _ _ _ h1, setIdx, GeodeticAxes.dim]
    · simp only [lonOf]; field_simp
    · simp only [latOf]; field_simp
    · intro hh; exact hh.elim
    · intro _; rfl

/-- The coordinates are determined by the position they denote. -/
theorem geodetic_coords_inj (s : GeodeticSystem) (hv : s.Valid) (c d : List ℝ) (hc : s.Fits c)
    (hd : s.Fits d) (h1 : s.lonOf c = s.lonOf d) (h2 : s.latOf c = s.latOf d)
    (h3 : s.heightOf c = s.heightOf d) : c = d := by
  have cancel : ∀ {x y p q : ℝ}, p ≠ 0 → q ≠ 0 → x * (p / q) = y * (p / q) → x = y :=
    fun hp hq h => mul_right_cancel₀ (div_ne_zero hp hq) h
  cases s with
  | eastNorthUp p q p' q' =>
    obtain ⟨a, b, e, rfl⟩ := List.length_eq_three.1 hc
    obtain ⟨a', b', e', rfl⟩ := List.length_eq_three.1 hd
    obtain ⟨k1, k2, k3, k4⟩ := hv
    rw [cancel k1 k2 h1, cancel k1 k2 h2, cancel k3 k4 h3]
  | eastNorth p q =>
    obtain ⟨a, b, rfl⟩ := List.length_eq_two.1 hc
    obtain ⟨a', b', rfl⟩ := List.length_eq_two.1 hd
    obtain ⟨k1, k2⟩ := hv
    rw [cancel k1 k2 h1, cancel k1 k2 h2]
  | northEastUp p q p' q' =>
    obtain ⟨a, b, e, rfl⟩ := List.length_eq_three.1 hc
    obtain ⟨a', b', e', rfl⟩ := List.length_eq_three.1 hd
    obtain ⟨k1, k2, k3, k4⟩ := hv
    rw [cancel k1 k2 h1, cancel k1 k2 h2, cancel k3 k4 h3]
  | northEast p q =>
    obtain ⟨a, b, rfl⟩ := List.length_eq_two.1 hc
    obtain ⟨a', b', rfl⟩ := List.length_eq_two.1 hd
    obtain ⟨k1, k2⟩ := hv
    rw [cancel k1 k2 h1, cancel k1 k2 h2]
  | northWest p q =>
    obtain ⟨a, b, rfl⟩ := List.length_eq_two.1 hc
    obtain ⟨a', b', rfl⟩ := List.length_eq_two.1 hd
    obtain ⟨k1, k2⟩ := hv
    have : b = b' := neg_injective (cancel k1 k2 h1)
    rw [this, cancel k1 k2 h2]

/-- **C14**: normalising denormalised coordinates gives back the position (height 0 on 2D systems). -/
theorem C14_normalize_denormalize (s : GeodeticSystem) (hv : s.Valid) (lon lat h : ℝ)
    (h1 : -Real.pi ≤ lon) (h2 : lon ≤ Real.pi) (h3 : -(Real.pi / 2) ≤ lat) (h4 : lat ≤ Real.pi / 2)
    (buf : List XR) (hb : buf.length = s.axes.dim) :
    ∃ out, s.axes.denormalize (llh lon lat h) buf = .ok out ∧
      (s.Is3D → s.axes.normalize out = .ok (llh lon lat h)) ∧
      (¬ s.Is3D → s.axes.normalize out = .ok (llh lon lat 0)) := by
  obtain ⟨c, hc, hd, e1, e2, e3, e4⟩ := geodetic_denormalize_fin s hv lon lat h buf (le_of_eq hb.symm)
  rw [← hb, List.drop_length, List.append_nil] at hd
  refine ⟨_, hd, fun hh => ?_, fun hh => ?_⟩
  · rw [geodetic_normalize_fin s hv c hc, e1, e2, e3 hh, remR_id h1 h2, clampR_id h3 h4]
  · rw [geodetic_normalize_fin s hv c hc, e1, e2, e4 hh, remR_id h1 h2, clampR_id h3 h4]

/-- **C14**: denormalising normalised in-range coordinates gives back the coordinates. -/
theorem C14_denormalize_normalize (s : GeodeticSystem) (hv : s.Valid) (c : List ℝ) (hc : s.Fits c)
    (h1 : -Real.pi ≤ s.lonOf c) (h2 : s.lonOf c ≤ Real.pi)
    (h3 : -(Real.pi / 2) ≤ s.latOf c) (h4 : s.latOf c ≤ Real.pi / 2)
    (buf : List XR) (hb : buf.length = s.axes.dim) :
    ∃ p, s.axes.normalize (c.map fin) = .ok p ∧ s.axes.denormalize p buf = .ok (c.map fin) := by
  refine ⟨_, geodetic_normalize_fin s hv c hc, ?_⟩
  obtain ⟨c', hc', hd, e1, e2, e3, e4⟩ :=
    geodetic_denormalize_fin s hv (remR (s.lonOf c)) (clampR (s.latOf c)) (s.heightOf c) buf (le_of_eq hb.symm)
  rw [← hb, List.drop_length, List.append_nil] at hd
  rw [hd]
  rw [remR_id h1 h2] at e1
  rw [clampR_id h3 h4] at e2
  have : c' = c := by
    apply geodetic_coords_inj s hv c' c hc' hc e1 e2
    by_cases h : s.Is3D
    · exact e3 h
    · rw [e4 h]
      cases s <;> first | exact absurd trivial h | rfl
  rw [this]

/-- North-West axes in degrees: the second coordinate is a west longitude. -/
example : ∃ lon lat, (GeodeticAxes.northWest DEG : GeodeticAxes XR).normalize [fin 45, fin 10] =
    .ok (llh lon lat 0) ∧ WrapsTo lon (-10 * (Real.pi / 180)) ∧ ClosestLat lat (45 * (Real.pi / 180)) := by
  have := C14_normalize_meaning (.northWest Real.pi 180) ⟨Real.pi_ne_zero, by norm_num⟩ [45, 10] rfl
  simpa [axes, C09_named_units.2.1, lonOf, latOf, heightOf] using this

/-! ### C16 -/

/-- **C16**: geocentric axes are mutually inverse. -/
theorem C16_geocentric (x y z : ℝ) (axes : GeocentricAxes) (buf : List XR) (hb : buf.length = axes.dim) :
    axes.denormalize (xyz x y z) buf = .ok [fin x, fin y, fin z] ∧
    axes.normalize [fin x, fin y, fin z] = .ok (xyz x y z) := by
  obtain ⟨a, b, c, rfl⟩ := List.length_eq_three.1 hb
  simp [GeocentricAxes.denormalize, GeocentricAxes.normalize, xyz, setIdx, length_new_m]

/-- Specification: the projected systems of axes, with units in metres. -/
inductive ProjectedSystem where
  | eastNorthUp (p q p' q' : ℝ)
  | eastNorth (p q : ℝ)

namespace ProjectedSystem

/-- The crate's value for this system. -/
def axes : ProjectedSystem → ProjectedAxes XR
  | eastNorthUp p q p' q' => .eastNorthUp (lengthUnit p q) (lengthUnit p' q')
  | eastNorth p q => .eastNorth (lengthUnit p q)
def Valid : ProjectedSystem → Prop
  | eastNorthUp p q p' q' => p ≠ 0 ∧ q ≠ 0 ∧ p' ≠ 0 ∧ q' ≠ 0
  | eastNorth p q => p ≠ 0 ∧ q ≠ 0
def Positive : ProjectedSystem → Prop
  | eastNorthUp p q p' q' => 0 < p ∧ 0 < q ∧ 0 < p' ∧ 0 < q'
  | eastNorth p q => 0 < p ∧ 0 < q
def Is3D : ProjectedSystem → Prop
  | eastNorthUp .. => True
  | _ => False
def Fits (s : ProjectedSystem) (c : List ℝ) : Prop := c.length = s.axes.dim
/-- Easting, northing, height in metres. -/
noncomputable def eastOf : ProjectedSystem → List ℝ → ℝ
  | eastNorthUp p q _ _, a :: _ => a * (p / q)
  | eastNorth p q, a :: _ => a * (p / q)
  | _, _ => 0
noncomputable def northOf : ProjectedSystem → List ℝ → ℝ
  | eastNorthUp p q _ _, _ :: b :: _ => b * (p / q)
  | eastNorth p q, _ :: b :: _ => b * (p / q)
  | _, _ => 0
noncomputable def heightOf : ProjectedSystem → List ℝ → ℝ
  | eastNorthUp _ _ p' q', [_, _, c] => c * (p' / q')
  | _, _ => 0

end ProjectedSystem

/-- **C16**: `normalize` reads each coordinate along the axis and in the unit the system says. -/
theorem C16_projected_normalize (s : ProjectedSystem) (hv : s.Valid) (c : List ℝ) (hc : s.Fits c) :
    s.axes.normalize (c.map fin) = .ok (enh (s.eastOf c) (s.northOf c) (s.heightOf c)) := by
  cases s with
  | eastNorthUp p q p' q' =>
    obtain ⟨a, b, d, rfl⟩ := List.length_eq_three.1 hc
    obtain ⟨h1, h2, h3, h4⟩ := hv
    simp [ProjectedSystem.axes, ProjectedAxes.normalize, length_new_unit _ _ _ h2, length_new_unit _ _ _ h4,
      ProjectedSystem.eastOf, ProjectedSystem.northOf, ProjectedSystem.heightOf, enh]
  | eastNorth p q =>
    obtain ⟨a, b, rfl⟩ := List.length_eq_two.1 hc
    obtain ⟨h1, h2⟩ := hv
    simp [ProjectedSystem.axes, ProjectedAxes.normalize, length_new_unit _ _ _ h2, length_zero,
      ProjectedSystem.eastOf, ProjectedSystem.northOf, ProjectedSystem.heightOf, enh]

theorem projected_denormalize_fin (s : ProjectedSystem) (hv : s.Valid) (e n h : ℝ) (buf : List XR)
    (hb : s.axes.dim ≤ buf.length) :
    ∃ c : List ℝ, s.Fits c ∧
      s.axes.denormalize (enh e n h) buf = .ok (c.map fin ++ buf.drop s.axes.dim) ∧
      s.eastOf c = e ∧ s.northOf c = n ∧ (s.Is3D → s.heightOf c = h) ∧ (¬ s.Is3D → s.heightOf c = 0) := by
  cases s with
  | eastNorthUp p q p' q' =>
    obtain ⟨h1, h2, h3, h4⟩ := hv
    refine ⟨[e / (p / q), n / (p / q), h / (p' / q')], rfl, ?_, ?_, ?_, ?_, ?_⟩
    · rcases buf with _ | ⟨a, _ | ⟨b, _ | ⟨c, l⟩⟩⟩ <;>
        simp [ProjectedSystem.axes, ProjectedAxes.dim] at hb
      simp [ProjectedSystem.axes, ProjectedAxes.denormalize, enh, length_val_unit _ _ _ h1 h2,
        length_val_unit _ _ _ h3 h4, setIdx, ProjectedAxes.dim]
    · simp only [ProjectedSystem.eastOf]; field_simp
    · simp only [ProjectedSystem.northOf]; field_simp
    · intro _; simp only [ProjectedSystem.heightOf]; field_simp
    · intro hh; exact absurd trivial hh
  | eastNorth p q =>
    obtain ⟨h1, h2⟩ := hv
    refine ⟨[e / (p / q), n / (p / q)], rfl, ?_, ?_, ?_, ?_, ?_⟩
    · rcases buf with _ | ⟨a, _ | ⟨b, l⟩⟩ <;>
        simp [ProjectedSystem.axes, ProjectedAxes.dim] at hb
      simp [ProjectedSystem.axes, ProjectedAxes.denormalize, enh, length_val_unit _ _ _ h1 h2, setIdx,
        ProjectedAxes.dim]
    · simp only [ProjectedSystem.eastOf]; field_simp
    · simp only [ProjectedSystem.northOf]; field_simp
    · intro hh; exact hh.elim
    · intro _; rfl

/-- **C16**: normalising denormalised coordinates gives back the position (height 0 on 2D systems). -/
theorem C16_projected_normalize_denormalize (s : ProjectedSystem) (hv : s.Valid) (e n h : ℝ)
    (buf : List XR) (hb : buf.length = s.axes.dim) :
    ∃ out, s.axes.denormalize (enh e n h) buf = .ok out ∧
      (s.Is3D → s.axes.normalize out = .ok (enh e n h)) ∧
      (¬ s.Is3D → s.axes.normalize out = .ok (enh e n 0)) := by
  obtain ⟨c, hc, hd, e1, e2, e3, e4⟩ := projected_denormalize_fin s hv e n h buf (le_of_eq hb.symm)
  rw [← hb, List.drop_length, List.append_nil] at hd
  refine ⟨_, hd, fun hh => ?_, fun hh => ?_⟩
  · rw [C16_projected_normalize s hv c hc, e1, e2, e3 hh]
  · rw [C16_projected_normalize s hv c hc, e1, e2, e4 hh]

/-- **C16**: denormalising normalised coordinates gives back the coordinates. -/
theorem C16_projected_denormalize_normalize (s : ProjectedSystem) (hv : s.Valid) (c : List ℝ)
    (hc : s.Fits c) (buf : List XR) (hb : buf.length = s.axes.dim) :
    ∃ p, s.axes.normalize (c.map fin) = .ok p ∧ s.axes.denormalize p buf = .ok (c.map fin) := by
  refine ⟨_, C16_projected_normalize s hv c hc, ?_⟩
  obtain ⟨c', hc', hd, e1, e2, e3, e4⟩ :=
    projected_denormalize_fin s hv (s.eastOf c) (s.northOf c) (s.heightOf c) buf (le_of_eq hb.symm)
  rw [← hb, List.drop_length, List.append_nil] at hd
  rw [hd]
  have cancel : ∀ {x y p q : ℝ}, p ≠ 0 → q ≠ 0 → x * (p / q) = y * (p / q) → x = y :=
    fun hp hq h => mul_right_cancel₀ (div_ne_zero hp hq) h
  have : c' = c := by
    cases s with
    | eastNorthUp p q p' q' =>
      obtain ⟨a, b, d, rfl⟩ := List.length_eq_three.1 hc
      obtain ⟨a', b', d', rfl⟩ := List.length_eq_three.1 hc'
      obtain ⟨k1, k2, k3, k4⟩ := hv
      rw [cancel k1 k2 e1, cancel k1 k2 e2, cancel k3 k4 (e3 trivial)]
    | eastNorth p q =>
      obtain ⟨a, b, rfl⟩ := List.length_eq_two.1 hc
      obtain ⟨a', b', rfl⟩ := List.length_eq_two.1 hc'
      obtain ⟨k1, k2⟩ := hv
      rw [cancel k1 k2 e1, cancel k1 k2 e2]
  rw [this]

/-- Feet: 100 ft east is 30.48 m. -/
example : (ProjectedAxes.eastNorth FT : ProjectedAxes XR).normalize [fin 100, fin 0] =
    .ok (enh 30.48 0 0) := by
  have := C16_projected_normalize (.eastNorth 0.3048 1) ⟨by norm_num, by norm_num⟩ [100, 0] rfl
  simp only [ProjectedSystem.axes, ← C09_named_units.2.2.2.2.2.1, ProjectedSystem.eastOf,
    ProjectedSystem.northOf, ProjectedSystem.heightOf, List.map] at this
  rw [this]
  norm_num

/-! ### C17 -/

theorem scaled_abs_le {a b t p q : ℝ} (hp : 0 < p) (hq : 0 < q) :
    |a - b| ≤ t * q / p ↔ |a * (p / q) - b * (p / q)| ≤ t := by
  have h : 0 < p / q := div_pos hp hq
  rw [← sub_mul, abs_mul, abs_of_pos h]
  have : t * q / p = t / (p / q) := by field_simp
  rw [this, le_div_iff₀ h]

theorem scaled_abs_le' {a b t p q : ℝ} (hp : 0 < p) (hq : 0 < q) :
    |a - b| ≤ t / (p / q) ↔ |a * (p / q) - b * (p / q)| ≤ t := by
  have h : 0 < p / q := div_pos hp hq
  rw [← sub_mul, abs_mul, abs_of_pos h, le_div_iff₀ h]

/-- **C17**: on geographic axes, `approx_eq` under the denormalised tolerances compares the longitudes,
latitudes and heights (differences of raw values, no wrapping) with the matching tolerance. -/
theorem C17_geodetic (s : GeodeticSystem) (hv : s.Positive) (crs : Crs XR) (hdim : crs.dim = s.axes.dim)
    (c d : List ℝ) (hc : s.Fits c) (hd : s.Fits d) (tlon tlat th : ℝ) :
    ∃ r, crs.approxEq (c.map fin) (d.map fin)
        (s.axes.denormalizeTol ⟨⟨fin tlon⟩, ⟨fin tlat⟩, ⟨fin th⟩⟩) = .ok r ∧
      (r = true ↔ |s.lonOf c - s.lonOf d| ≤ tlon ∧ |s.latOf c - s.latOf d| ≤ tlat ∧
        (s.Is3D → |s.heightOf c - s.heightOf d| ≤ th)) := by
  cases s with
  | eastNorthUp p q p' q' =>
    obtain ⟨a, b, e, rfl⟩ := List.length_eq_three.1 hc
    obtain ⟨a', b', e', rfl⟩ := List.length_eq_three.1 hd
    obtain ⟨k1, k2, k3, k4⟩ := hv
    have hdim' : crs.dim = 3 := hdim
    refine ⟨decide (|a - a'| ≤ tlon * q / p ∧ |b - b'| ≤ tlat * q / p ∧ |e - e'| ≤ th / (p' / q')), ?_, ?_⟩
    · simp [Crs.approxEq, hdim', axes, GeodeticAxes.denormalizeTol, angle_val_unit _ _ _ k1.ne',
        length_val_unit _ _ _ k3.ne' k4.ne', floatAbsDiffEq, and1]
      split_ifs <;> simp_all <;> split_ifs <;> simp_all
    · rw [decide_eq_true_eq, scaled_abs_le k1 k2, scaled_abs_le k1 k2, scaled_abs_le' k3 k4]
      simp [lonOf, latOf, heightOf, Is3D]
  | eastNorth p q =>
    obtain ⟨a, b, rfl⟩ := List.length_eq_two.1 hc
    obtain ⟨a', b', rfl⟩ := List.length_eq_two.1 hd
    obtain ⟨k1, k2⟩ := hv
    have hdim' : crs.dim = 2 := hdim
    refine ⟨decide (|a - a'| ≤ tlon * q / p ∧ |b - b'| ≤ tlat * q / p), ?_, ?_⟩
    · simp [Crs.approxEq, hdim', axes, GeodeticAxes.denormalizeTol, angle_val_unit _ _ _ k1.ne',
        floatAbsDiffEq, and1]
      split_ifs <;> simp_all
    · rw [decide_eq_true_eq, scaled_abs_le k1 k2, scaled_abs_le k1 k2]
      simp [lonOf, latOf, Is3D]
  | northEastUp p q p' q' =>
    obtain ⟨a, b, e, rfl⟩ := List.length_eq_three.1 hc
    obtain ⟨a', b', e', rfl⟩ := List.length_eq_three.1 hd
    obtain ⟨k1, k2, k3, k4⟩ := hv
    have hdim' : crs.dim = 3 := hdim
    refine ⟨decide (|b - b'| ≤ tlon * q / p ∧ |a - a'| ≤ tlat * q / p ∧ |e - e'| ≤ th / (p' / q')), ?_, ?_⟩
    · simp [Crs.approxEq, hdim', axes, GeodeticAxes.denormalizeTol, angle_val_unit _ _ _ k1.ne',
        length_val_unit _ _ _ k3.ne' k4.ne', floatAbsDiffEq, and1]
      split_ifs <;> simp_all <;> split_ifs <;> simp_all
    · rw [decide_eq_true_eq, scaled_abs_le k1 k2, scaled_abs_le k1 k2, scaled_abs_le' k3 k4]
      simp [lonOf, latOf, heightOf, Is3D]
  | northEast p q =>
    obtain ⟨a, b, rfl⟩ := List.length_eq_two.1 hc
    obtain ⟨a', b', rfl⟩ := List.length_eq_two.1 hd
    obtain ⟨k1, k2⟩ := hv
    have hdim' : crs.dim = 2 := hdim
    refine ⟨decide (|b - b'| ≤ tlon * q / p ∧ |a - a'| ≤ tlat * q / p), ?_, ?_⟩
    · simp [Crs.approxEq, hdim', axes, GeodeticAxes.denormalizeTol, angle_val_unit _ _ _ k1.ne',
        floatAbsDiffEq, and1]
      split_ifs <;> simp_all
    · rw [decide_eq_true_eq, scaled_abs_le k1 k2, scaled_abs_le k1 k2]
      simp [lonOf, latOf, Is3D]
  | northWest p q =>
    obtain ⟨a, b, rfl⟩ := List.length_eq_two.1 hc
    obtain ⟨a', b', rfl⟩ := List.length_eq_two.1 hd
    obtain ⟨k1, k2⟩ := hv
    have hdim' : crs.dim = 2 := hdim
    refine ⟨decide (|b - b'| ≤ tlon * q / p ∧ |a - a'| ≤ tlat * q / p), ?_, ?_⟩
    · simp [Crs.approxEq, hdim', axes, GeodeticAxes.denormalizeTol, angle_val_unit _ _ _ k1.ne',
        floatAbsDiffEq, and1]
      split_ifs <;> simp_all
    · have e : |(-b) * (p / q) - (-b') * (p / q)| = |b * (p / q) - b' * (p / q)| := by
        rw [← abs_neg]; congr 1; ring
      rw [decide_eq_true_eq, scaled_abs_le k1 k2, scaled_abs_le k1 k2]
      simp only [lonOf, latOf, Is3D, e]
      simp

/-- **C17**: the same for projected axes. -/
theorem C17_projected (s : ProjectedSystem) (hv : s.Positive) (crs : Crs XR) (hdim : crs.dim = s.axes.dim)
    (c d : List ℝ) (hc : s.Fits c) (hd : s.Fits d) (t th : ℝ) :
    ∃ r, crs.approxEq (c.map fin) (d.map fin) (s.axes.denormalizeTol ⟨⟨fin t⟩, ⟨fin th⟩⟩) = .ok r ∧
      (r = true ↔ |s.eastOf c - s.eastOf d| ≤ t ∧ |s.northOf c - s.northOf d| ≤ t ∧
        (s.Is3D → |s.heightOf c - s.heightOf d| ≤ th)) := by
  cases s with
  | eastNorthUp p q p' q' =>
    obtain ⟨a, b, e, rfl⟩ := List.length_eq_three.1 hc
    obtain ⟨a', b', e', rfl⟩ := List.length_eq_three.1 hd
    obtain ⟨k1, k2, k3, k4⟩ := hv
    have hdim' : crs.dim = 3 := hdim
    refine ⟨decide (|a - a'| ≤ t / (p / q) ∧ |b - b'| ≤ t / (p / q) ∧ |e - e'| ≤ th / (p' / q')), ?_, ?_⟩
    · simp [Crs.approxEq, hdim', ProjectedSystem.axes, ProjectedAxes.denormalizeTol,
        length_val_unit _ _ _ k1.ne' k2.ne', length_val_unit _ _ _ k3.ne' k4.ne', floatAbsDiffEq, and1]
      split_ifs <;> simp_all <;> split_ifs <;> simp_all
    · rw [decide_eq_true_eq, scaled_abs_le' k1 k2, scaled_abs_le' k1 k2, scaled_abs_le' k3 k4]
      simp [ProjectedSystem.eastOf, ProjectedSystem.northOf, ProjectedSystem.heightOf, ProjectedSystem.Is3D]
  | eastNorth p q =>
    obtain ⟨a, b, rfl⟩ := List.length_eq_two.1 hc
    obtain ⟨a', b', rfl⟩ := List.length_eq_two.1 hd
    obtain ⟨k1, k2⟩ := hv
    have hdim' : crs.dim = 2 := hdim
    refine ⟨decide (|a - a'| ≤ t / (p / q) ∧ |b - b'| ≤ t / (p / q)), ?_, ?_⟩
    · simp [Crs.approxEq, hdim', ProjectedSystem.axes, ProjectedAxes.denormalizeTol,
        length_val_unit _ _ _ k1.ne' k2.ne', floatAbsDiffEq, and1, List.replicate]
      split_ifs <;> simp_all
    · rw [decide_eq_true_eq, scaled_abs_le' k1 k2, scaled_abs_le' k1 k2]
      simp [ProjectedSystem.eastOf, ProjectedSystem.northOf, ProjectedSystem.Is3D]

/-- **C17**: the same for geocentric axes. -/
theorem C17_geocentric (axes : GeocentricAxes) (crs : Crs XR) (hdim : crs.dim = axes.dim)
    (a b e a' b' e' t : ℝ) :
    ∃ r, crs.approxEq [fin a, fin b, fin e] [fin a', fin b', fin e']
        (axes.denormalizeTol ⟨⟨fin t⟩⟩) = .ok r ∧
      (r = true ↔ |a - a'| ≤ t ∧ |b - b'| ≤ t ∧ |e - e'| ≤ t) := by
  have hdim' : crs.dim = 3 := hdim
  refine ⟨decide (|a - a'| ≤ t ∧ |b - b'| ≤ t ∧ |e - e'| ≤ t), ?_, by simp⟩
  simp [Crs.approxEq, hdim', GeocentricAxes.denormalizeTol, floatAbsDiffEq, and1, List.replicate]
  split_ifs <;> simp_all <;> split_ifs <;> simp_all

/-- The hypotheses of C17 are met by the WGS 84 axes `lat, lon` in degrees. -/
example : (GeodeticSystem.northEast Real.pi 180).Positive ∧
    (GeodeticSystem.northEast Real.pi 180).axes = .northEast DEG ∧
    (GeodeticSystem.northEast Real.pi 180).Fits [45, 10] :=
  ⟨⟨Real.pi_pos, by norm_num⟩, by rw [axes, C09_named_units.2.1], rfl⟩

/-! ### C19 -/

/-- A position of Euclidean space. -/
noncomputable abbrev point3 (x y z : ℝ) : EuclideanSpace ℝ (Fin 3) := !₂[x, y, z]

theorem dist_point3 (a b c a' b' c' : ℝ) : dist (point3 a b c) (point3 a' b' c') =
    Real.sqrt ((a - a') ^ 2 + (b - b') ^ 2 + (c - c') ^ 2) := by
  rw [EuclideanSpace.dist_eq, Fin.sum_univ_three]
  simp [Real.dist_eq, sq_abs]

theorem hypot3 (a b c : ℝ) : Real.sqrt (Real.sqrt (a ^ 2 + b ^ 2) ^ 2 + c ^ 2) =
    Real.sqrt (a ^ 2 + b ^ 2 + c ^ 2) := by
  rw [Real.sq_sqrt (by positivity)]

/-- **C19**: `dist_to` is the Euclidean distance. -/
theorem C19_dist_to (a b c a' b' c' : ℝ) :
    (xyz a b c).distTo (xyz a' b' c') = ⟨fin (dist (point3 a b c) (point3 a' b' c'))⟩ ∧
    (enh a b c).distTo (enh a' b' c') = ⟨fin (dist (point3 a b c) (point3 a' b' c'))⟩ := by
  rw [dist_point3]
  simp [XYZ.distTo, ENH.distTo, xyz, enh, Length.hypot, hypot3]

/-- **C19**: distances of geocentric and projected CRSs: the Euclidean distance, in metres, of the
coordinates. -/
theorem C19_crs_dist :
    (∀ (crs : GeocentricCrs XR) (a b c a' b' c' : ℝ),
      crs.toCrs.dist [fin a, fin b, fin c] [fin a', fin b', fin c'] =
        .ok ⟨fin (dist (point3 a b c) (point3 a' b' c'))⟩) ∧
    (∀ (s : ProjectedSystem) (crs : ProjectedCrs XR), s.Valid → crs.axes = s.axes → ∀ c d, s.Fits c → s.Fits d →
      crs.toCrs.dist (c.map fin) (d.map fin) = .ok ⟨fin (dist
        (point3 (s.eastOf c) (s.northOf c) (s.heightOf c))
        (point3 (s.eastOf d) (s.northOf d) (s.heightOf d)))⟩) := by
  constructor
  · intro crs a b c a' b' c'
    have h1 := (C16_geocentric a b c crs.axes [fin 0, fin 0, fin 0] rfl).2
    have h2 := (C16_geocentric a' b' c' crs.axes [fin 0, fin 0, fin 0] rfl).2
    simp only [GeocentricCrs.toCrs, GeocentricCrs.dist, GeocentricAxes.dim, h1, h2]
    simp [(C19_dist_to _ _ _ _ _ _).1]
  · intro s crs hv hax c d hc hd
    have h1 := C16_projected_normalize s hv c hc
    have h2 := C16_projected_normalize s hv d hd
    have e1 : (c.map fin).length = s.axes.dim := by rw [List.length_map]; exact hc
    have e2 : (d.map fin).length = s.axes.dim := by rw [List.length_map]; exact hd
    simp only [ProjectedCrs.toCrs, ProjectedCrs.dist, hax, e1, e2, h1, h2]
    simp [(C19_dist_to _ _ _ _ _ _).2]

/-- **C19**: these CRSs (and geographic ones) panic exactly on positions of the wrong length; 3D distances
never fail otherwise. -/
theorem C19_wrong_length (a b : List XR) :
    (∀ crs : GeocentricCrs XR, (a.length ≠ crs.toCrs.dim ∨ b.length ≠ crs.toCrs.dim) ↔
      ∃ msg, crs.toCrs.dist a b = .error (.panic msg)) ∧
    (∀ crs : ProjectedCrs XR, (a.length ≠ crs.toCrs.dim ∨ b.length ≠ crs.toCrs.dim) ↔
      ∃ msg, crs.toCrs.dist a b = .error (.panic msg)) ∧
    (∀ crs : GeographicCrs XR, crs.axes.dim = 3 → ((a.length ≠ crs.toCrs.dim ∨ b.length ≠ crs.toCrs.dim) ↔
      ∃ msg, crs.toCrs.dist a b = .error (.panic msg))) := by
  refine ⟨fun crs => ?_, fun crs => ?_, fun crs h3 => ?_⟩
  · have hdim : crs.toCrs.dim = 3 := rfl
    have hdim' : crs.axes.dim = 3 := rfl
    rw [hdim]
    simp only [GeocentricCrs.toCrs, GeocentricCrs.dist, hdim']
    by_cases ha : a.length = 3 <;> by_cases hb : b.length = 3 <;> simp [ha, hb, rassert]
    obtain ⟨a1, a2, a3, rfl⟩ := List.length_eq_three.1 ha
    obtain ⟨b1, b2, b3, rfl⟩ := List.length_eq_three.1 hb
    simp [GeocentricAxes.normalize]
  · have hdim : crs.toCrs.dim = crs.axes.dim := rfl
    rw [hdim]
    simp only [ProjectedCrs.toCrs, ProjectedCrs.dist]
    by_cases ha : a.length = crs.axes.dim <;> by_cases hb : b.length = crs.axes.dim <;>
      simp [ha, hb, rassert]
    cases hax : crs.axes with
    | eastNorthUp u v =>
      rw [hax] at ha hb
      obtain ⟨a1, a2, a3, rfl⟩ := List.length_eq_three.1 ha
      obtain ⟨b1, b2, b3, rfl⟩ := List.length_eq_three.1 hb
      simp [ProjectedAxes.normalize]
    | eastNorth u =>
      rw [hax] at ha hb
      obtain ⟨a1, a2, rfl⟩ := List.length_eq_two.1 ha
      obtain ⟨b1, b2, rfl⟩ := List.length_eq_two.1 hb
      simp [ProjectedAxes.normalize]
  · have hdim : crs.toCrs.dim = crs.axes.dim := rfl
    rw [hdim]
    simp only [GeographicCrs.toCrs, GeographicCrs.dist]
    by_cases ha : a.length = crs.axes.dim <;> by_cases hb : b.length = crs.axes.dim <;>
      simp [ha, hb, rassert]
    rw [h3] at ha hb
    obtain ⟨a1, a2, a3, rfl⟩ := List.length_eq_three.1 ha
    obtain ⟨b1, b2, b3, rfl⟩ := List.length_eq_three.1 hb
    cases hax : crs.axes <;> simp [hax, GeodeticAxes.dim] at h3 <;>
      simp [GeodeticAxes.normalize, GeodeticAxes.dim]

/-- **C19**: metric laws of `XYZ::dist_to` (non-negative, zero exactly for equal positions, symmetric,
triangle inequality); the same values are returned by the CRS distances above. -/
theorem C19_metric (p q r : ℝ × ℝ × ℝ) : ∃ dpq dqp dqr dpr : ℝ,
    (xyz p.1 p.2.1 p.2.2).distTo (xyz q.1 q.2.1 q.2.2) = ⟨fin dpq⟩ ∧
    (xyz q.1 q.2.1 q.2.2).distTo (xyz p.1 p.2.1 p.2.2) = ⟨fin dqp⟩ ∧
    (xyz q.1 q.2.1 q.2.2).distTo (xyz r.1 r.2.1 r.2.2) = ⟨fin dqr⟩ ∧
    (xyz p.1 p.2.1 p.2.2).distTo (xyz r.1 r.2.1 r.2.2) = ⟨fin dpr⟩ ∧
    0 ≤ dpq ∧ (dpq = 0 ↔ p = q) ∧ dpq = dqp ∧ dpr ≤ dpq + dqr := by
  refine ⟨_, _, _, _, (C19_dist_to _ _ _ _ _ _).1, (C19_dist_to _ _ _ _ _ _).1, (C19_dist_to _ _ _ _ _ _).1,
    (C19_dist_to _ _ _ _ _ _).1, dist_nonneg, ?_, dist_comm _ _, dist_triangle _ _ _⟩
  rw [dist_eq_zero]
  constructor
  · intro h
    have h0 := congrArg (fun v => v 0) h
    have h1 := congrArg (fun v => v 1) h
    have h2 := congrArg (fun v => v 2) h
    simp at h0 h1 h2
    exact Prod.ext h0 (Prod.ext h1 h2)
  · rintro rfl; rfl

example (crs : GeocentricCrs XR) : crs.toCrs.dist [fin 3, fin 4, fin 12] [fin 0, fin 0, fin 0] = .ok ⟨fin 13⟩ := by
  rw [C19_crs_dist.1, dist_point3]
  norm_num
  rw [show (169 : ℝ) = 13 ^ 2 by norm_num, Real.sqrt_sq (by norm_num)]

end Geo
