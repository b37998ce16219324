import Verif.Model.Projections
import Verif.Lemmas.Res

/-!
C41: projections never report an error and pass the height through, for every float semantics.
-/

namespace Geo
variable {F : Type} [Flt F]

/-- **C41** (forward). -/
theorem C41_proj (spec : ProjectionSpec F) (ell : Ellipsoid F) (llh : LLH F) :
    ∃ enh, (spec.appliedTo ell).proj llh = .ok enh ∧ enh.height = llh.height := by
  cases spec <;> exact ⟨_, rfl, rfl⟩

/-- Specification: the projection methods that use the transverse Mercator formulas. -/
def ProjectionSpec.IsTransverse : ProjectionSpec F → Prop
  | .utmNorth _ | .utmSouth _ | .transverseMercator .. => True
  | _ => False

/-- **C41** (inverse).  `unproj` never returns `Err` and never panics; a returned position has the input
height.  Only the transverse Mercator loop may fail to terminate (see C36). -/
theorem C41_unproj (spec : ProjectionSpec F) (ell : Ellipsoid F) (enh : ENH F) :
    (∀ llh, (spec.appliedTo ell).unproj enh = .ok llh → llh.height = enh.height) ∧
    (∀ e, (spec.appliedTo ell).unproj enh = .error e → e = .diverge ∧ spec.IsTransverse) := by
  have tm : ∀ p : TransverseMercator F,
      (∀ llh, p.unproj enh = .ok llh → llh.height = enh.height) ∧
      (∀ e, p.unproj enh = .error e → e = .diverge) := by
    intro p
    have hs : ∀ Q e, TransverseMercator.solveQ p.e Q = .error e → e = .diverge := by
      intro Q e h
      rcases bind_eq_error.1 h with h | ⟨_, _, h⟩
      · exact loopUntil_error h
      · cases h
    constructor
    · intro llh h
      obtain ⟨_, _, h⟩ := bind_eq_ok.1 h
      cases h
      rfl
    · intro e h
      rcases bind_eq_error.1 h with h | ⟨_, _, h⟩
      · exact hs _ _ h
      · cases h
  cases spec with
  | utmNorth z => exact ⟨(tm _).1, fun e h => ⟨(tm _).2 e h, trivial⟩⟩
  | utmSouth z => exact ⟨(tm _).1, fun e h => ⟨(tm _).2 e h, trivial⟩⟩
  | transverseMercator => exact ⟨(tm _).1, fun e h => ⟨(tm _).2 e h, trivial⟩⟩
  | mercator1SP => exact ⟨fun llh h => by cases h; rfl, fun e h => by cases h⟩
  | mercator2SP => exact ⟨fun llh h => by cases h; rfl, fun e h => by cases h⟩
  | webMercator => exact ⟨fun llh h => by cases h; rfl, fun e h => by cases h⟩

/-- **C41** (inverse of the non transverse methods): always `Ok`. -/
theorem C41_unproj_ok (spec : ProjectionSpec F) (ell : Ellipsoid F) (enh : ENH F)
    (h : ¬ spec.IsTransverse) :
    ∃ llh, (spec.appliedTo ell).unproj enh = .ok llh ∧ llh.height = enh.height := by
  cases hr : (spec.appliedTo ell).unproj enh with
  | ok llh => exact ⟨llh, rfl, (C41_unproj spec ell enh).1 llh hr⟩
  | error e => exact absurd ((C41_unproj spec ell enh).2 e hr).2 h

/-- Web Mercator is not transverse. -/
example (ell : Ellipsoid F) (lon0 : Lon F) (lat0 : Lat F) (z : Length F) (enh : ENH F) :
    ∃ llh, ((ProjectionSpec.webMercator lon0 lat0 z z).appliedTo ell).unproj enh = .ok llh ∧
      llh.height = enh.height :=
  C41_unproj_ok _ ell enh (fun h => h)

end Geo
