import Verif.Model.Cs

/-!
C15: axis conversions read / write exactly `dim()` slots.  These hold for every float semantics.
-/

namespace Geo
variable {F : Type} [Flt F]

/-- **C15** (geodetic axes, reading).  `normalize` panics exactly on buffers shorter than `dim()`;
otherwise its value depends on the first `dim()` coordinates only. -/
theorem C15_geodetic_normalize (axes : GeodeticAxes F) (coords : List F) :
    (coords.length < axes.dim → ∃ msg, axes.normalize coords = .error (.panic msg)) ∧
    (axes.dim ≤ coords.length → ∃ llh, axes.normalize coords = .ok llh ∧
      ∀ rest, axes.normalize (coords.take axes.dim ++ rest) = .ok llh) := by
  cases axes <;> rcases coords with _ | ⟨a, _ | ⟨b, _ | ⟨c, l⟩⟩⟩ <;>
    simp [GeodeticAxes.normalize, GeodeticAxes.dim, idx, bind, Except.bind, pure, Except.pure]

/-- **C15** (geodetic axes, writing).  `denormalize` panics exactly on buffers shorter than `dim()`;
otherwise it replaces the first `dim()` slots by values that do not depend on the buffer, and keeps the
remaining slots. -/
theorem C15_geodetic_denormalize (axes : GeodeticAxes F) (llh : LLH F) :
    ∃ vals : List F, vals.length = axes.dim ∧ ∀ buf : List F,
      (buf.length < axes.dim → ∃ msg, axes.denormalize llh buf = .error (.panic msg)) ∧
      (axes.dim ≤ buf.length → axes.denormalize llh buf = .ok (vals ++ buf.drop axes.dim)) := by
  cases axes with
  | eastNorthUp au hu =>
    refine ⟨[llh.lon.angle.val au, llh.lat.angle.val au, llh.height.val hu], rfl, ?_⟩
    rintro (_ | ⟨a, _ | ⟨b, _ | ⟨c, l⟩⟩⟩) <;>
      simp [GeodeticAxes.denormalize, GeodeticAxes.dim, setIdx, bind, Except.bind]
  | eastNorth au =>
    refine ⟨[llh.lon.angle.val au, llh.lat.angle.val au], rfl, ?_⟩
    rintro (_ | ⟨a, _ | ⟨b, l⟩⟩) <;>
      simp [GeodeticAxes.denormalize, GeodeticAxes.dim, setIdx, bind, Except.bind]
  | northEastUp au hu =>
    refine ⟨[llh.lat.angle.val au, llh.lon.angle.val au, llh.height.val hu], rfl, ?_⟩
    rintro (_ | ⟨a, _ | ⟨b, _ | ⟨c, l⟩⟩⟩) <;>
      simp [GeodeticAxes.denormalize, GeodeticAxes.dim, setIdx, bind, Except.bind]
  | northEast au =>
    refine ⟨[llh.lat.angle.val au, llh.lon.angle.val au], rfl, ?_⟩
    rintro (_ | ⟨a, _ | ⟨b, l⟩⟩) <;>
      simp [GeodeticAxes.denormalize, GeodeticAxes.dim, setIdx, bind, Except.bind]
  | northWest au =>
    refine ⟨[llh.lat.angle.val au, -(llh.lon.angle.val au)], rfl, ?_⟩
    rintro (_ | ⟨a, _ | ⟨b, l⟩⟩) <;>
      simp [GeodeticAxes.denormalize, GeodeticAxes.dim, setIdx, bind, Except.bind]

/-- **C15** (geocentric axes, reading). -/
theorem C15_geocentric_normalize (axes : GeocentricAxes) (coords : List F) :
    (coords.length < axes.dim → ∃ msg, axes.normalize coords = .error (.panic msg)) ∧
    (axes.dim ≤ coords.length → ∃ xyz, axes.normalize coords = .ok xyz ∧
      ∀ rest, axes.normalize (coords.take axes.dim ++ rest) = .ok xyz) := by
  cases axes; rcases coords with _ | ⟨a, _ | ⟨b, _ | ⟨c, l⟩⟩⟩ <;>
    simp [GeocentricAxes.normalize, GeocentricAxes.dim, idx, bind, Except.bind, pure, Except.pure]

omit [Flt F] in
/-- **C15** (geocentric axes, writing). -/
theorem C15_geocentric_denormalize (axes : GeocentricAxes) (xyz : XYZ F) :
    ∃ vals : List F, vals.length = axes.dim ∧ ∀ buf : List F,
      (buf.length < axes.dim → ∃ msg, axes.denormalize xyz buf = .error (.panic msg)) ∧
      (axes.dim ≤ buf.length → axes.denormalize xyz buf = .ok (vals ++ buf.drop axes.dim)) := by
  cases axes
  refine ⟨[xyz.x.m, xyz.y.m, xyz.z.m], rfl, ?_⟩
  rintro (_ | ⟨a, _ | ⟨b, _ | ⟨c, l⟩⟩⟩) <;>
    simp [GeocentricAxes.denormalize, GeocentricAxes.dim, setIdx, bind, Except.bind]

/-- **C15** (projected axes, reading). -/
theorem C15_projected_normalize (axes : ProjectedAxes F) (coords : List F) :
    (coords.length < axes.dim → ∃ msg, axes.normalize coords = .error (.panic msg)) ∧
    (axes.dim ≤ coords.length → ∃ enh, axes.normalize coords = .ok enh ∧
      ∀ rest, axes.normalize (coords.take axes.dim ++ rest) = .ok enh) := by
  cases axes <;> rcases coords with _ | ⟨a, _ | ⟨b, _ | ⟨c, l⟩⟩⟩ <;>
    simp [ProjectedAxes.normalize, ProjectedAxes.dim, idx, bind, Except.bind, pure, Except.pure]

/-- **C15** (projected axes, writing). -/
theorem C15_projected_denormalize (axes : ProjectedAxes F) (enh : ENH F) :
    ∃ vals : List F, vals.length = axes.dim ∧ ∀ buf : List F,
      (buf.length < axes.dim → ∃ msg, axes.denormalize enh buf = .error (.panic msg)) ∧
      (axes.dim ≤ buf.length → axes.denormalize enh buf = .ok (vals ++ buf.drop axes.dim)) := by
  cases axes with
  | eastNorthUp au hu =>
    refine ⟨[enh.easting.val au, enh.northing.val au, enh.height.val hu], rfl, ?_⟩
    rintro (_ | ⟨a, _ | ⟨b, _ | ⟨c, l⟩⟩⟩) <;>
      simp [ProjectedAxes.denormalize, ProjectedAxes.dim, setIdx, bind, Except.bind]
  | eastNorth au =>
    refine ⟨[enh.easting.val au, enh.northing.val au], rfl, ?_⟩
    rintro (_ | ⟨a, _ | ⟨b, l⟩⟩) <;>
      simp [ProjectedAxes.denormalize, ProjectedAxes.dim, setIdx, bind, Except.bind]

/-- A buffer with one slot more than needed: the fourth slot is kept. -/
example (axes : GeocentricAxes) (xyz : XYZ F) (p q r s : F) :
    ∃ u v w, axes.denormalize xyz [p, q, r, s] = .ok [u, v, w, s] := by
  obtain ⟨vals, hl, h⟩ := C15_geocentric_denormalize axes xyz
  have h2 := (h [p, q, r, s]).2 (by simp [GeocentricAxes.dim])
  rcases vals with _ | ⟨u, _ | ⟨v, _ | ⟨w, _ | _⟩⟩⟩ <;> simp [GeocentricAxes.dim] at hl
  exact ⟨u, v, w, by simpa [GeocentricAxes.dim] using h2⟩

end Geo
