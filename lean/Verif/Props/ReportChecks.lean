import Verif.Model.Report
import Verif.Props.QuantitiesExact
import Verif.Lemmas.F64

/-! C76: the checks of geodesic results. -/

namespace Geo
open XR Spec

/-- The text of the panic of both checks. -/
def checkPanic : Fail := .panic "assertion failed: false"

/-- **C76**: `check_direct` lets a result pass exactly when the longitude, the azimuth (on the circle) and the latitude of
the end are within their tolerances; otherwise it panics.  The start and the length are not looked at. -/
theorem C76_direct (p1 q1 : Lon XR × Lat XR) (al1 be1 : Azimuth XR) (s t : Length XR)
    (lon lat az lon' lat' az' elon elat eaz : ℝ) :
    (checkDirect ⟨p1, al1, (⟨⟨fin lon⟩⟩, ⟨⟨fin lat⟩⟩), ⟨⟨fin az⟩⟩, s⟩
        ⟨q1, be1, (⟨⟨fin lon'⟩⟩, ⟨⟨fin lat'⟩⟩), ⟨⟨fin az'⟩⟩, t⟩ ⟨⟨fin elon⟩, ⟨fin elat⟩, ⟨fin eaz⟩⟩ = .ok () ↔
      (∃ d, SameDirection d (lon - lon') ∧ |d| ≤ elon) ∧ |lat - lat'| ≤ elat ∧
      ∃ d, SameDirection d (az - az') ∧ |d| ≤ eaz) ∧
    (checkDirect ⟨p1, al1, (⟨⟨fin lon⟩⟩, ⟨⟨fin lat⟩⟩), ⟨⟨fin az⟩⟩, s⟩
        ⟨q1, be1, (⟨⟨fin lon'⟩⟩, ⟨⟨fin lat'⟩⟩), ⟨⟨fin az'⟩⟩, t⟩ ⟨⟨fin elon⟩, ⟨fin elat⟩, ⟨fin eaz⟩⟩ = .error checkPanic ↔
      ¬ ((∃ d, SameDirection d (lon - lon') ∧ |d| ≤ elon) ∧ |lat - lat'| ≤ elat ∧
      ∃ d, SameDirection d (az - az') ∧ |d| ≤ eaz)) := by
  rw [← (C13_circular lon lon' elon).1, ← (C13_circular az az' eaz).2, ← (C13_linear lat lat' elat).2.2]
  unfold checkDirect
  simp only []
  generalize Lon.absDiffEq (F := XR) _ _ _ = b1
  generalize Lat.absDiffEq (F := XR) _ _ _ = b2
  generalize Azimuth.absDiffEq (F := XR) _ _ _ = b3
  cases b1 <;> cases b2 <;> cases b3 <;> simp [checkPanic]

/-- **C76**: `check_inverse` lets a result pass exactly when both azimuths (on the circle) and the length are within their
tolerances; otherwise it panics.  The end points are not looked at. -/
theorem C76_inverse (p1 q1 p2 q2 : Lon XR × Lat XR) (az1 az2 s az1' az2' s' e1 e2 es : ℝ) :
    (checkInverse ⟨p1, ⟨⟨fin az1⟩⟩, p2, ⟨⟨fin az2⟩⟩, ⟨fin s⟩⟩ ⟨q1, ⟨⟨fin az1'⟩⟩, q2, ⟨⟨fin az2'⟩⟩, ⟨fin s'⟩⟩
        ⟨⟨fin e1⟩, ⟨fin e2⟩, ⟨fin es⟩⟩ = .ok () ↔
      (∃ d, SameDirection d (az1 - az1') ∧ |d| ≤ e1) ∧ (∃ d, SameDirection d (az2 - az2') ∧ |d| ≤ e2) ∧ |s - s'| ≤ es) ∧
    (checkInverse ⟨p1, ⟨⟨fin az1⟩⟩, p2, ⟨⟨fin az2⟩⟩, ⟨fin s⟩⟩ ⟨q1, ⟨⟨fin az1'⟩⟩, q2, ⟨⟨fin az2'⟩⟩, ⟨fin s'⟩⟩
        ⟨⟨fin e1⟩, ⟨fin e2⟩, ⟨fin es⟩⟩ = .error checkPanic ↔
      ¬ ((∃ d, SameDirection d (az1 - az1') ∧ |d| ≤ e1) ∧ (∃ d, SameDirection d (az2 - az2') ∧ |d| ≤ e2) ∧
        |s - s'| ≤ es)) := by
  rw [← (C13_circular az1 az1' e1).2, ← (C13_circular az2 az2' e2).2, ← (C13_linear s s' es).2.1]
  unfold checkInverse
  simp only []
  generalize Length.absDiffEq (F := XR) _ _ _ = b1
  generalize Azimuth.absDiffEq (F := XR) _ _ _ = b2
  generalize Azimuth.absDiffEq (F := XR) _ _ _ = b3
  cases b1 <;> cases b2 <;> cases b3 <;> simp [checkPanic]

/-- Two ends on either side of the antimeridian pass; half a degree of latitude does not. -/
example : checkDirect (F := XR) { Geodesic.default with p2 := (⟨⟨fin Real.pi⟩⟩, ⟨⟨fin 0⟩⟩), alpha2 := ⟨⟨fin 0⟩⟩ }
    { Geodesic.default with p2 := (⟨⟨fin (-Real.pi)⟩⟩, ⟨⟨fin 0⟩⟩), alpha2 := ⟨⟨fin 0⟩⟩ } ⟨⟨fin 0⟩, ⟨fin 0⟩, ⟨fin 0⟩⟩ =
      .ok () :=
  (C76_direct _ _ _ _ _ _ _ _ _ _ _ _ _ _ _).1.2
    ⟨⟨0, ⟨-1, by push_cast; ring⟩, by simp⟩, by simp, 0, ⟨0, by simp⟩, by simp⟩

example : checkDirect (F := XR) { Geodesic.default with p2 := (⟨⟨fin 0⟩⟩, ⟨⟨fin 0.5⟩⟩), alpha2 := ⟨⟨fin 0⟩⟩ }
    { Geodesic.default with p2 := (⟨⟨fin 0⟩⟩, ⟨⟨fin 0⟩⟩), alpha2 := ⟨⟨fin 0⟩⟩ } ⟨⟨fin 0.1⟩, ⟨fin 0.1⟩, ⟨fin 0.1⟩⟩ =
      .error checkPanic :=
  (C76_direct _ _ _ _ _ _ _ _ _ _ _ _ _ _ _).2.2 fun h => absurd h.2.1 (by norm_num [abs_of_pos])

/-! ### NaN, in IEEE arithmetic -/

variable {L : Libm}

namespace B64
theorem add_nan_right (a : B64) : add a nan = nan := by cases a <;> rfl
theorem sub_nan_left (a : B64) : sub nan a = nan := rfl
theorem sub_nan_right (a : B64) : sub a nan = nan := add_nan_right a
theorem le_nan_left (a : B64) : le nan a = false := by cases a <;> rfl
theorem le_nan_right (a : B64) : le a nan = false := by cases a <;> rfl
end B64

theorem normalized_nan : (Angle.mk (F64.nan : F64 L)).normalized = ⟨F64.nan⟩ := by
  unfold Angle.normalized remainder
  have h : (F64.nan : F64 L) - Flt.roundTiesEven ((F64.nan : F64 L) / tau) * tau = F64.nan := B64.sub_nan_left _
  simp only [h]
  rw [show ((F64.nan : F64 L) <=. -pi) = false from B64.le_nan_left _]
  rfl

theorem angle_le_nan (a : Angle (F64 L)) : (Angle.mk (F64.nan : F64 L)).abs.le a = false :=
  B64.le_nan_left a.rad

theorem azimuth_nan (x : Azimuth (F64 L)) (e : Angle (F64 L)) :
    (⟨⟨F64.nan⟩⟩ : Azimuth (F64 L)).absDiffEq x e = false ∧ x.absDiffEq ⟨⟨F64.nan⟩⟩ e = false := by
  constructor
  · have h : (⟨(F64.nan : F64 L)⟩ : Angle (F64 L)) - x.angle = ⟨F64.nan⟩ := congrArg Angle.mk (B64.sub_nan_left _)
    simp only [Azimuth.absDiffEq, Azimuth.sub, Angle.diffTo, h, normalized_nan, angle_le_nan]
  · have h : x.angle - (⟨(F64.nan : F64 L)⟩ : Angle (F64 L)) = ⟨F64.nan⟩ := congrArg Angle.mk (B64.sub_nan_right _)
    simp only [Azimuth.absDiffEq, Azimuth.sub, Angle.diffTo, h, normalized_nan, angle_le_nan]

theorem lon_nan (x : Lon (F64 L)) (e : Angle (F64 L)) :
    (⟨⟨F64.nan⟩⟩ : Lon (F64 L)).absDiffEq x e = false ∧ x.absDiffEq ⟨⟨F64.nan⟩⟩ e = false := by
  constructor
  · have h : (⟨(F64.nan : F64 L)⟩ : Angle (F64 L)) - x.angle = ⟨F64.nan⟩ := congrArg Angle.mk (B64.sub_nan_left _)
    simp only [Lon.absDiffEq, Lon.sub, Angle.diffTo, h, normalized_nan, angle_le_nan]
  · have h : x.angle - (⟨(F64.nan : F64 L)⟩ : Angle (F64 L)) = ⟨F64.nan⟩ := congrArg Angle.mk (B64.sub_nan_right _)
    simp only [Lon.absDiffEq, Lon.sub, Angle.diffTo, h, normalized_nan, angle_le_nan]

theorem lat_nan (x : Lat (F64 L)) (e : Angle (F64 L)) :
    (⟨⟨F64.nan⟩⟩ : Lat (F64 L)).absDiffEq x e = false ∧ x.absDiffEq ⟨⟨F64.nan⟩⟩ e = false := by
  constructor
  · have h : (⟨(F64.nan : F64 L)⟩ : Angle (F64 L)) - x.angle = ⟨F64.nan⟩ := congrArg Angle.mk (B64.sub_nan_left _)
    simp only [Lat.absDiffEq, Lat.sub, h, angle_le_nan]
  · have h : x.angle - (⟨(F64.nan : F64 L)⟩ : Angle (F64 L)) = ⟨F64.nan⟩ := congrArg Angle.mk (B64.sub_nan_right _)
    simp only [Lat.absDiffEq, Lat.sub, h, angle_le_nan]

theorem length_nan (x e : Length (F64 L)) :
    (⟨F64.nan⟩ : Length (F64 L)).absDiffEq x e = false ∧ x.absDiffEq ⟨F64.nan⟩ e = false := by
  constructor
  · have h : (⟨(F64.nan : F64 L)⟩ : Length (F64 L)) - x = ⟨F64.nan⟩ := congrArg Length.mk (B64.sub_nan_left _)
    simp only [Length.absDiffEq, h]
    exact B64.le_nan_left e.m
  · have h : x - (⟨(F64.nan : F64 L)⟩ : Length (F64 L)) = ⟨F64.nan⟩ := congrArg Length.mk (B64.sub_nan_right _)
    simp only [Length.absDiffEq, h]
    exact B64.le_nan_left e.m

/-- **C76**: in IEEE arithmetic a NaN among the compared numbers, computed or expected, never passes. -/
theorem C76_nan_direct (c x : Geodesic (F64 L)) (e : DirectErrors (F64 L))
    (h : ∃ g ∈ [c, x], F64.nan ∈ [g.p2.1.angle.rad, g.p2.2.angle.rad, g.alpha2.angle.rad]) :
    checkDirect c x e = .error checkPanic := by
  obtain ⟨cp1, ca1, ⟨⟨⟨clon⟩⟩, ⟨⟨clat⟩⟩⟩, ⟨⟨caz⟩⟩, cs⟩ := c
  obtain ⟨xp1, xa1, ⟨⟨⟨xlon⟩⟩, ⟨⟨xlat⟩⟩⟩, ⟨⟨xaz⟩⟩, xs⟩ := x
  simp only [List.mem_cons, List.not_mem_nil, or_false, exists_eq_or_imp, exists_eq_left] at h
  unfold checkDirect
  rcases h with (rfl | rfl | rfl) | (rfl | rfl | rfl) <;>
    simp [(lon_nan _ _).1, (lon_nan _ _).2, (lat_nan _ _).1, (lat_nan _ _).2, (azimuth_nan _ _).1, (azimuth_nan _ _).2,
      checkPanic]

/-- **C76**: the same for `check_inverse`. -/
theorem C76_nan_inverse (c x : Geodesic (F64 L)) (e : InverseErrors (F64 L))
    (h : ∃ g ∈ [c, x], F64.nan ∈ [g.alpha1.angle.rad, g.alpha2.angle.rad, g.s.m]) :
    checkInverse c x e = .error checkPanic := by
  obtain ⟨cp1, ⟨⟨ca1⟩⟩, cp2, ⟨⟨caz⟩⟩, ⟨cs⟩⟩ := c
  obtain ⟨xp1, ⟨⟨xa1⟩⟩, xp2, ⟨⟨xaz⟩⟩, ⟨xs⟩⟩ := x
  simp only [List.mem_cons, List.not_mem_nil, or_false, exists_eq_or_imp, exists_eq_left] at h
  unfold checkInverse
  rcases h with (rfl | rfl | rfl) | (rfl | rfl | rfl) <;>
    simp [(length_nan _ _).1, (length_nan _ _).2, (azimuth_nan _ _).1, (azimuth_nan _ _).2, checkPanic]

end Geo
