import Verif.Model.Transformations
import Verif.Props.Axes
import Verif.Props.ProjectionsAny

/-!
C42, C43: what `CrsXYZTransformation` reads and writes, for every float semantics.
-/

namespace Geo
variable {F : Type} [Flt F]

/-- **C42**: `bwd` is `fwd` of the transformation with source and destination exchanged, for every CRS and
datum transformation (also user-provided ones), including errors and panics. -/
theorem C42_bwd_eq_swapped_fwd (src dst : ToXYZ F) (s d : XYZTransformation F) (inp out : List F) :
    (CrsXYZTransformation.new src dst s d).bwd inp out =
      (CrsXYZTransformation.new dst src d s).fwd inp out := rfl

/-- **C42**, the other direction. -/
theorem C42_fwd_eq_swapped_bwd (src dst : ToXYZ F) (s d : XYZTransformation F) (inp out : List F) :
    (CrsXYZTransformation.new src dst s d).fwd inp out =
      (CrsXYZTransformation.new dst src d s).bwd inp out := rfl

/-- The three kinds of CRS of the crate that implement `ToXYZProvider` (transformations/xyz.rs:83-125). -/
inductive AnyCrs (F : Type) where
  | geocentric (c : GeocentricCrs F)
  | geographic (c : GeographicCrs F)
  | projected (c : ProjectedCrs F)

/-- `Crs::dim`. -/
def AnyCrs.dim : AnyCrs F → Nat
  | .geocentric c => c.toCrs.dim
  | .geographic c => c.toCrs.dim
  | .projected c => c.toCrs.dim

/-- `ToXYZProvider::to_xyz_transformation`. -/
noncomputable def AnyCrs.toXYZ : AnyCrs F → ToXYZ F
  | .geocentric c => c.toXyzTransformation
  | .geographic c => c.toXyzTransformation
  | .projected c => c.toXyzTransformation

/-- Reading: a buffer shorter than `dim()` panics; otherwise only the first `dim()` coordinates matter and the
conversion either succeeds or (transverse Mercator) does not terminate. -/
theorem AnyCrs.toXyz_reads (c : AnyCrs F) (coords : List F) :
    (coords.length < c.dim → ∃ msg, c.toXYZ.toXyz coords = .error (.panic msg)) ∧
    (c.dim ≤ coords.length →
      ((∃ xyz, c.toXYZ.toXyz coords = .ok xyz) ∨ c.toXYZ.toXyz coords = .error .diverge) ∧
      ∀ rest, c.toXYZ.toXyz (coords.take c.dim ++ rest) = c.toXYZ.toXyz coords) := by
  cases c with
  | geocentric c =>
    refine ⟨(C15_geocentric_normalize c.axes coords).1, fun h => ?_⟩
    obtain ⟨xyz, h1, h2⟩ := (C15_geocentric_normalize c.axes coords).2 h
    exact ⟨Or.inl ⟨xyz, h1⟩, fun rest => (h2 rest).trans h1.symm⟩
  | geographic c =>
    constructor
    · intro h
      obtain ⟨msg, hm⟩ := (C15_geodetic_normalize c.axes coords).1 h
      exact ⟨msg, by simp [AnyCrs.toXYZ, GeographicCrs.toXyzTransformation, hm]⟩
    · intro h
      obtain ⟨llh, h1, h2⟩ := (C15_geodetic_normalize c.axes coords).2 h
      refine ⟨Or.inl ⟨c.datum.llhToXyz llh, ?_⟩, fun rest => ?_⟩
      · simp [AnyCrs.toXYZ, GeographicCrs.toXyzTransformation, h1]
      · have := h2 rest
        simp only [AnyCrs.toXYZ, GeographicCrs.toXyzTransformation, h1, AnyCrs.dim,
          GeographicCrs.toCrs] at this ⊢
        rw [this]
  | projected c =>
    constructor
    · intro h
      obtain ⟨msg, hm⟩ := (C15_projected_normalize c.axes coords).1 h
      exact ⟨msg, by simp [AnyCrs.toXYZ, ProjectedCrs.toXyzTransformation, hm]⟩
    · intro h
      obtain ⟨enh, h1, h2⟩ := (C15_projected_normalize c.axes coords).2 h
      refine ⟨?_, fun rest => ?_⟩
      · simp only [AnyCrs.toXYZ, ProjectedCrs.toXyzTransformation, h1, ok_bind]
        cases hu : (c.projection.appliedTo c.datum.ellipsoid).unproj enh with
        | ok llh => left; exact ⟨c.datum.llhToXyz llh, by simp⟩
        | error e =>
          right
          rw [((C41_unproj c.projection c.datum.ellipsoid enh).2 e hu).1]
          rfl
      · have := h2 rest
        simp only [AnyCrs.toXYZ, ProjectedCrs.toXyzTransformation, h1, AnyCrs.dim,
          ProjectedCrs.toCrs] at this ⊢
        rw [this]

/-- Writing: a buffer shorter than `dim()` panics; otherwise exactly the first `dim()` slots are replaced, by
values that do not depend on the buffer. -/
theorem AnyCrs.fromXyz_writes (c : AnyCrs F) (xyz : XYZ F) :
    ∃ vals : List F, vals.length = c.dim ∧ ∀ buf : List F,
      (buf.length < c.dim → ∃ msg, c.toXYZ.fromXyz xyz buf = .error (.panic msg)) ∧
      (c.dim ≤ buf.length → c.toXYZ.fromXyz xyz buf = .ok (vals ++ buf.drop c.dim)) := by
  cases c with
  | geocentric c => exact C15_geocentric_denormalize c.axes xyz
  | geographic c => exact C15_geodetic_denormalize c.axes (c.datum.xyzToLlh xyz)
  | projected c =>
    obtain ⟨enh, he, -⟩ := C41_proj c.projection c.datum.ellipsoid (c.datum.xyzToLlh xyz)
    obtain ⟨vals, hl, hv⟩ := C15_projected_denormalize c.axes enh
    refine ⟨vals, hl, fun buf => ?_⟩
    have : ∀ b, (AnyCrs.projected c).toXYZ.fromXyz xyz b = c.axes.denormalize enh b := by
      intro b
      simp [AnyCrs.toXYZ, ProjectedCrs.toXyzTransformation, he]
    rw [this]
    exact hv buf

/-- **C43**: `fwd` between any two CRS of the crate, with arbitrary datum transformations.  An input or
output buffer that is too short panics (unless the transverse Mercator inverse of the source already loops
for ever); with long enough buffers, and provided that inverse terminates, the call succeeds, replaces exactly
the first `dst.dim()` slots of the output by values depending on nothing but the first `src.dim()` input
coordinates, and leaves the other slots alone.  No `Err` is ever returned. -/
theorem C43_fwd (src dst : AnyCrs F) (s d : XYZTransformation F) (inp : List F) :
    (inp.length < src.dim → ∀ out, ∃ msg,
      (CrsXYZTransformation.new src.toXYZ dst.toXYZ s d).fwd inp out = .error (.panic msg)) ∧
    (src.dim ≤ inp.length → src.toXYZ.toXyz inp ≠ .error .diverge →
      ∃ vals : List F, vals.length = dst.dim ∧ ∀ rest out,
        (out.length < dst.dim → ∃ msg, (CrsXYZTransformation.new src.toXYZ dst.toXYZ s d).fwd
          (inp.take src.dim ++ rest) out = .error (.panic msg)) ∧
        (dst.dim ≤ out.length → (CrsXYZTransformation.new src.toXYZ dst.toXYZ s d).fwd
          (inp.take src.dim ++ rest) out = .ok (vals ++ out.drop dst.dim))) := by
  constructor
  · intro h out
    obtain ⟨msg, hm⟩ := (src.toXyz_reads inp).1 h
    exact ⟨msg, by simp [CrsXYZTransformation.fwd, CrsXYZTransformation.new, hm]⟩
  · intro h hdiv
    obtain ⟨hok, hrest⟩ := (src.toXyz_reads inp).2 h
    rcases hok with ⟨xyz, hx⟩ | hx
    · obtain ⟨vals, hl, hv⟩ := dst.fromXyz_writes (d.fromRef (s.toRef xyz))
      refine ⟨vals, hl, fun rest out => ?_⟩
      have : (CrsXYZTransformation.new src.toXYZ dst.toXYZ s d).fwd (inp.take src.dim ++ rest) out =
          dst.toXYZ.fromXyz (d.fromRef (s.toRef xyz)) out := by
        simp [CrsXYZTransformation.fwd, CrsXYZTransformation.new, hrest rest, hx]
      rw [this]
      exact hv out
    · exact absurd hx hdiv

/-- **C43** for `bwd`. -/
theorem C43_bwd (src dst : AnyCrs F) (s d : XYZTransformation F) (inp : List F) :
    (inp.length < dst.dim → ∀ out, ∃ msg,
      (CrsXYZTransformation.new src.toXYZ dst.toXYZ s d).bwd inp out = .error (.panic msg)) ∧
    (dst.dim ≤ inp.length → dst.toXYZ.toXyz inp ≠ .error .diverge →
      ∃ vals : List F, vals.length = src.dim ∧ ∀ rest out,
        (out.length < src.dim → ∃ msg, (CrsXYZTransformation.new src.toXYZ dst.toXYZ s d).bwd
          (inp.take dst.dim ++ rest) out = .error (.panic msg)) ∧
        (src.dim ≤ out.length → (CrsXYZTransformation.new src.toXYZ dst.toXYZ s d).bwd
          (inp.take dst.dim ++ rest) out = .ok (vals ++ out.drop src.dim))) :=
  C43_fwd dst src d s inp

/-- The termination hypothesis of C43 holds for every source that is not transverse Mercator. -/
theorem C43_terminates (src : AnyCrs F) (inp : List F)
    (h : ∀ c, src = .projected c → ¬ c.projection.IsTransverse) :
    src.toXYZ.toXyz inp ≠ .error .diverge := by
  by_cases hl : src.dim ≤ inp.length
  · cases src with
    | geocentric c =>
      obtain ⟨xyz, h1, -⟩ := (C15_geocentric_normalize c.axes inp).2 hl
      simp [AnyCrs.toXYZ, GeocentricCrs.toXyzTransformation, h1]
    | geographic c =>
      obtain ⟨llh, h1, -⟩ := (C15_geodetic_normalize c.axes inp).2 hl
      simp [AnyCrs.toXYZ, GeographicCrs.toXyzTransformation, h1]
    | projected c =>
      obtain ⟨enh, h1, -⟩ := (C15_projected_normalize c.axes inp).2 hl
      obtain ⟨llh, h2, -⟩ := C41_unproj_ok c.projection c.datum.ellipsoid enh (h c rfl)
      simp [AnyCrs.toXYZ, ProjectedCrs.toXyzTransformation, h1, h2]
  · obtain ⟨msg, hm⟩ := (src.toXyz_reads inp).1 (by omega)
    simp [hm]

/-- A 3D geographic source and a 2D projected (Web Mercator) destination, 4 input coordinates, 3 output
slots. -/
example (dat : GeodeticDatum F) (lon0 : Lon F) (lat0 : Lat F) (z : Length F) (a b c x p q r : F) :
    ∃ u v, (CrsXYZTransformation.new
        (AnyCrs.geographic ⟨"src", dat, .northEastUp DEG M⟩).toXYZ
        (AnyCrs.projected ⟨"dst", dat, .eastNorth M, .webMercator lon0 lat0 z z⟩).toXYZ
        XYZIdentity XYZIdentity).fwd [a, b, c, x] [p, q, r] = .ok [u, v, r] := by
  obtain ⟨vals, hl, h⟩ := (C43_fwd (AnyCrs.geographic ⟨"src", dat, .northEastUp DEG M⟩)
    (AnyCrs.projected ⟨"dst", dat, .eastNorth M, .webMercator lon0 lat0 z z⟩)
    XYZIdentity XYZIdentity [a, b, c, x]).2
    (by simp [AnyCrs.dim, GeographicCrs.toCrs, GeodeticAxes.dim])
    (C43_terminates _ _ (fun c h => by cases h))
  have h2 := (h [x] [p, q, r]).2 (by simp [AnyCrs.dim, ProjectedCrs.toCrs, ProjectedAxes.dim])
  simp only [AnyCrs.dim, ProjectedCrs.toCrs, ProjectedAxes.dim, GeographicCrs.toCrs,
    GeodeticAxes.dim] at hl h2
  rcases vals with _ | ⟨u, _ | ⟨v, _ | _⟩⟩ <;> simp at hl
  exact ⟨u, v, h2⟩

end Geo
