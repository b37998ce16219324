import Verif.Props.RoundTripExact

/-! # C91: conversions between CRS of one datum, in exact arithmetic -/

namespace Geo
open XR Spec

/-- A projection of the crate whose central meridian is a number. -/
inductive HasMeridian : ProjectionSpec XR → Prop
  | mercator1SP (l0 : ℝ) (k0 : XR) (fe fn : Length XR) : HasMeridian (.mercator1SP (lonR l0) k0 fe fn)
  | mercator2SP (l0 : ℝ) (lat0 : Lat XR) (fe fn : Length XR) : HasMeridian (.mercator2SP (lonR l0) lat0 fe fn)
  | utmNorth (zone : Nat) : HasMeridian (.utmNorth zone)
  | utmSouth (zone : Nat) : HasMeridian (.utmSouth zone)
  | transverseMercator (l0 : ℝ) (lat0 : Lat XR) (k0 : XR) (fe fn : Length XR) :
      HasMeridian (.transverseMercator (lonR l0) lat0 k0 fe fn)
  | webMercator (l0 : ℝ) (lat0 : Lat XR) (fe fn : Length XR) : HasMeridian (.webMercator (lonR l0) lat0 fe fn)

theorem lon_sub_congr {l l' : ℝ} (h : SameDirection l' l) (l0 : ℝ) : (lonR l').sub (lonR l0) = (lonR l).sub (lonR l0) := by
  rw [lon_sub_fin, lon_sub_fin, normR_congr (h.sub (SameDirection.refl l0))]

theorem utm_meridian (zone : Nat) : ∃ l0, (TransverseMercator.utmLon0 zone : Lon XR) = lonR l0 := ⟨_, utmLon0_eq zone⟩

/-- Longitudes that differ by whole turns have the same image. -/
theorem proj_congr {spec : ProjectionSpec XR} (hm : HasMeridian spec) (e : Ellipsoid XR) {l l' : ℝ}
    (h : SameDirection l' l) (φ t : ℝ) : (spec.appliedTo e).proj (llh l' φ t) = (spec.appliedTo e).proj (llh l φ t) := by
  have hl : ∀ x, (llh x φ t).lon = lonR x := fun _ => rfl
  have tm : ∀ p : TransverseMercator XR, (∃ l0, p.lon0 = lonR l0) → p.proj (llh l' φ t) = p.proj (llh l φ t) := by
    rintro p ⟨l0, h0⟩
    unfold TransverseMercator.proj
    rw [hl, hl, h0, lon_sub_congr h]
    rfl
  have mc : ∀ p : Mercator XR, (∃ l0, p.lon0 = lonR l0) → p.proj (llh l' φ t) = p.proj (llh l φ t) := by
    rintro p ⟨l0, h0⟩
    unfold Mercator.proj
    rw [hl, hl, h0, lon_sub_congr h]
    rfl
  have wm : ∀ p : WebMercator XR, (∃ l0, p.lon0 = lonR l0) → p.proj (llh l' φ t) = p.proj (llh l φ t) := by
    rintro p ⟨l0, h0⟩
    unfold WebMercator.proj
    rw [hl, hl, h0, lon_sub_congr h]
    rfl
  cases hm with
  | utmNorth zone => exact tm _ (utm_meridian zone)
  | utmSouth zone => exact tm _ (utm_meridian zone)
  | mercator1SP l0 => exact mc _ ⟨l0, rfl⟩
  | mercator2SP l0 => exact mc _ ⟨l0, rfl⟩
  | transverseMercator l0 => exact tm _ ⟨l0, rfl⟩
  | webMercator l0 => exact wm _ ⟨l0, rfl⟩

theorem shift_cancels {t : XYZTransformation XR} {t1 t2 t3 : ℝ} (ht : IsShift t t1 t2 t3) (x y z : ℝ) :
    t.fromRef (t.toRef (xyz x y z)) = xyz x y z := by
  rw [(ht.eq _ _ _).1, (ht.eq _ _ _).2, add_sub_cancel_right, add_sub_cancel_right, add_sub_cancel_right]

/-- Through the geocentric coordinates of one datum, a position comes back unless it is on the seam. -/
theorem same_datum {a b : ℝ} (hb : 0 < b) (hab : b ≤ a) (id n pn : String) (l0 : ℝ) {t : XYZTransformation XR}
    {t1 t2 t3 : ℝ} (ht : IsShift t t1 t2 t3) {l φ h : ℝ} (h1 : -(Real.pi / 2) < φ) (h2 : φ < Real.pi / 2)
    (hh : HighEnough a b φ h) :
    ∃ l', (dat id n pn a b l0).xyzToLlh (t.fromRef (t.toRef ((dat id n pn a b l0).llhToXyz (llh l φ h)))) = llh l' φ h ∧
      -Real.pi ≤ l' ∧ l' ≤ Real.pi ∧ SameDirection l' l := by
  obtain ⟨l', r, q1, q2, q3⟩ := datum_from_llh hb hab id n pn l0 l φ h h1.le h2.le hh
  obtain ⟨x, y, z, e⟩ := llhToXyz_xyz hb hab id n pn l0 l φ h
  refine ⟨l', ?_, q1, q2, q3 (cos_pos_of_lat h1 h2).ne'⟩
  rw [e, shift_cancels ht, ← e, r]

section
variable {a b : ℝ} (hb : 0 < b) (hab : b ≤ a) (id n pn : String) (l0 : ℝ) {t : XYZTransformation XR} {t1 t2 t3 : ℝ}
  (ht : IsShift t t1 t2 t3) (cid cid' : String)
include hb hab ht

/-- **C91**: from a geographic to a projected CRS of the same datum, whatever shift relates the datum to the reference,
`fwd` is the projection of the position read from the coordinates, and nothing else.  All six projections. -/
theorem C91_project (ax : GeodeticAxes XR) (pax : ProjectedAxes XR) (spec : ProjectionSpec XR) (hm : HasMeridian spec)
    (c buf : List XR) {l φ h : ℝ} (hc : ax.normalize c = .ok (llh l φ h)) (h1 : -(Real.pi / 2) < φ)
    (h2 : φ < Real.pi / 2) (hh : HighEnough a b φ h) :
    (CrsXYZTransformation.new (AnyCrs.geographic ⟨cid, dat id n pn a b l0, ax⟩).toXYZ
        (AnyCrs.projected ⟨cid', dat id n pn a b l0, pax, spec⟩).toXYZ t t).fwd c buf =
      (do let p ← (spec.appliedTo (ell n a b)).proj (llh l φ h)
          pax.denormalize p buf) := by
  obtain ⟨l', r, _, _, q⟩ := same_datum hb hab id n pn l0 ht (l := l) h1 h2 hh
  simp only [CrsXYZTransformation.fwd, CrsXYZTransformation.new, AnyCrs.toXYZ, GeographicCrs.toXyzTransformation,
    ProjectedCrs.toXyzTransformation, hc]
  show (do let e ← (spec.appliedTo (ell n a b)).proj ((dat id n pn a b l0).xyzToLlh _); pax.denormalize e buf) = _
  rw [r, proj_congr hm _ q]

/-- **C91**: from a projected to a geographic CRS of the same datum, `fwd` is the inverse projection of the coordinates. -/
theorem C91_unproject (pax : ProjectedAxes XR) (ax : GeodeticAxes XR) (spec : ProjectionSpec XR) (c buf : List XR)
    (p : ENH XR) {l φ h : ℝ} (hc : pax.normalize c = .ok p)
    (hu : (spec.appliedTo (ell n a b)).unproj p = .ok (llh l φ h)) (h0 : -Real.pi < l) (h0' : l < Real.pi)
    (h1 : -(Real.pi / 2) < φ) (h2 : φ < Real.pi / 2) (hh : HighEnough a b φ h) :
    (CrsXYZTransformation.new (AnyCrs.projected ⟨cid, dat id n pn a b l0, pax, spec⟩).toXYZ
        (AnyCrs.geographic ⟨cid', dat id n pn a b l0, ax⟩).toXYZ t t).fwd c buf = ax.denormalize (llh l φ h) buf := by
  obtain ⟨l', r, q1, q2, q⟩ := same_datum hb hab id n pn l0 ht (l := l) h1 h2 hh
  obtain rfl : l' = l := same_open q1 q2 h0 h0' q
  simp only [CrsXYZTransformation.fwd, CrsXYZTransformation.new, AnyCrs.toXYZ, GeographicCrs.toXyzTransformation,
    ProjectedCrs.toXyzTransformation, hc]
  show (do let e ← (do let q ← (spec.appliedTo (ell n a b)).unproj p; pure ((dat id n pn a b l0).llhToXyz q))
           ax.denormalize ((dat id n pn a b l0).xyzToLlh (t.fromRef (t.toRef e))) buf) = _
  rw [hu]
  show ax.denormalize ((dat id n pn a b l0).xyzToLlh (t.fromRef (t.toRef ((dat id n pn a b l0).llhToXyz _)))) buf = _
  rw [r]

/-- **C91**: from a projected CRS to another of the same datum (one UTM zone to the next, say), `fwd` is the inverse of
the first projection followed by the second. -/
theorem C91_reproject (pax pax' : ProjectedAxes XR) (spec spec' : ProjectionSpec XR) (hm : HasMeridian spec')
    (c buf : List XR) (p : ENH XR) {l φ h : ℝ} (hc : pax.normalize c = .ok p)
    (hu : (spec.appliedTo (ell n a b)).unproj p = .ok (llh l φ h)) (h1 : -(Real.pi / 2) < φ) (h2 : φ < Real.pi / 2)
    (hh : HighEnough a b φ h) :
    (CrsXYZTransformation.new (AnyCrs.projected ⟨cid, dat id n pn a b l0, pax, spec⟩).toXYZ
        (AnyCrs.projected ⟨cid', dat id n pn a b l0, pax', spec'⟩).toXYZ t t).fwd c buf =
      (do let q ← (spec'.appliedTo (ell n a b)).proj (llh l φ h)
          pax'.denormalize q buf) := by
  obtain ⟨l', r, q1, q2, q⟩ := same_datum hb hab id n pn l0 ht (l := l) h1 h2 hh
  simp only [CrsXYZTransformation.fwd, CrsXYZTransformation.new, AnyCrs.toXYZ, ProjectedCrs.toXyzTransformation, hc]
  show (do let e ← (do let q ← (spec.appliedTo (ell n a b)).unproj p; pure ((dat id n pn a b l0).llhToXyz q))
           let w ← (spec'.appliedTo (ell n a b)).proj ((dat id n pn a b l0).xyzToLlh (t.fromRef (t.toRef e)))
           pax'.denormalize w buf) = _
  rw [hu]
  show (do let w ← (spec'.appliedTo (ell n a b)).proj
             ((dat id n pn a b l0).xyzToLlh (t.fromRef (t.toRef ((dat id n pn a b l0).llhToXyz _))))
           pax'.denormalize w buf) = _
  rw [r, proj_congr hm _ q]

/-- **C91**: between geographic CRS of the same datum that differ by their axes or units, `fwd` writes the position read
from the coordinates. -/
theorem C91_axes (ax ax' : GeodeticAxes XR) (c buf : List XR) {l φ h : ℝ} (hc : ax.normalize c = .ok (llh l φ h))
    (h0 : -Real.pi < l) (h0' : l < Real.pi) (h1 : -(Real.pi / 2) < φ) (h2 : φ < Real.pi / 2)
    (hh : HighEnough a b φ h) :
    (CrsXYZTransformation.new (AnyCrs.geographic ⟨cid, dat id n pn a b l0, ax⟩).toXYZ
        (AnyCrs.geographic ⟨cid', dat id n pn a b l0, ax'⟩).toXYZ t t).fwd c buf = ax'.denormalize (llh l φ h) buf := by
  obtain ⟨l', r, q1, q2, q⟩ := same_datum hb hab id n pn l0 ht (l := l) h1 h2 hh
  obtain rfl : l' = l := same_open q1 q2 h0 h0' q
  simp only [CrsXYZTransformation.fwd, CrsXYZTransformation.new, AnyCrs.toXYZ, GeographicCrs.toXyzTransformation, hc]
  show ax'.denormalize ((dat id n pn a b l0).xyzToLlh (t.fromRef (t.toRef ((dat id n pn a b l0).llhToXyz _)))) buf = _
  rw [r]

end

/-- **C91**: between geographic CRS of datums with the same (flattened) ellipsoid and different prime meridians, latitude
and height stay, and the longitude changes by the angle between the meridians, brought back into [-π, π]. -/
theorem C91_meridian {a b : ℝ} (hb : 0 < b) (hab : b < a) (id id' n n' pn pn' : String) (l0 l0' : ℝ)
    {t : XYZTransformation XR} {t1 t2 t3 : ℝ} (ht : IsShift t t1 t2 t3) (cid cid' : String)
    (ax ax' : GeodeticAxes XR) (c buf : List XR) {l φ h : ℝ} (hc : ax.normalize c = .ok (llh l φ h))
    (h1 : -(Real.pi / 2) < φ) (h2 : φ < Real.pi / 2) (hh : HighEnough a b φ h) :
    ∃ l', -Real.pi ≤ l' ∧ l' ≤ Real.pi ∧ SameDirection l' (l + l0 - l0') ∧
      (CrsXYZTransformation.new (AnyCrs.geographic ⟨cid, dat id n pn a b l0, ax⟩).toXYZ
        (AnyCrs.geographic ⟨cid', dat id' n' pn' a b l0', ax'⟩).toXYZ t t).fwd c buf =
      ax'.denormalize (llh l' φ h) buf := by
  have key : (dat id n pn a b l0).llhToXyz (llh l φ h) = (dat id' n' pn' a b l0').llhToXyz (llh (l + l0 - l0') φ h) := by
    rw [llhToXyz_fin hb hab, llhToXyz_fin hb hab, sub_add_cancel]
  obtain ⟨l', r, q1, q2, q⟩ := same_datum hb hab.le id' n' pn' l0' ht (l := l + l0 - l0') h1 h2 hh
  refine ⟨l', q1, q2, q, ?_⟩
  simp only [CrsXYZTransformation.fwd, CrsXYZTransformation.new, AnyCrs.toXYZ, GeographicCrs.toXyzTransformation, hc]
  show ax'.denormalize ((dat id' n' pn' a b l0').xyzToLlh (t.fromRef (t.toRef ((dat id n pn a b l0).llhToXyz _)))) buf = _
  rw [key, r]

/-- 45° North, 3° East and 100 m on WGS 84, to UTM: the three numbers written are those of the projection. -/
example (buf : List XR) :
    (CrsXYZTransformation.new
        (AnyCrs.geographic ⟨"EPSG:4979", dat "WGS84" "WGS 84" "Greenwich" 6378137 6356752 0,
          (GeodeticSystem.northEastUp Real.pi 180 1 1).axes⟩).toXYZ
        (AnyCrs.projected ⟨"utm", dat "WGS84" "WGS 84" "Greenwich" 6378137 6356752 0,
          .eastNorthUp M M, .utmNorth 31⟩).toXYZ XYZIdentity XYZIdentity).fwd [fin 45, fin 3, fin 100] buf =
      (do let p ← ((ProjectionSpec.utmNorth 31).appliedTo (ell "WGS 84" 6378137 6356752)).proj
            (llh (Real.pi / 60) (Real.pi / 4) 100)
          (ProjectedAxes.eastNorthUp M M).denormalize p buf) := by
  have hp := Real.pi_pos
  have hn := geodetic_normalize_fin (GeodeticSystem.northEastUp Real.pi 180 1 1) ⟨hp.ne', by norm_num, one_ne_zero, one_ne_zero⟩
    [45, 3, 100] rfl
  have e1 : (GeodeticSystem.northEastUp Real.pi 180 1 1).lonOf [45, 3, 100] = Real.pi / 60 := by
    simp [GeodeticSystem.lonOf]; ring
  have e2 : (GeodeticSystem.northEastUp Real.pi 180 1 1).latOf [45, 3, 100] = Real.pi / 4 := by
    simp [GeodeticSystem.latOf]; ring
  have e3 : (GeodeticSystem.northEastUp Real.pi 180 1 1).heightOf [45, 3, 100] = 100 := by
    simp [GeodeticSystem.heightOf]
  rw [e1, e2, e3, remR_id (by linarith) (by linarith), clampR_id (by linarith) (by linarith)] at hn
  exact C91_project (by norm_num) (by norm_num) _ _ _ _ .identity _ _ _ _ _ (.utmNorth 31) _ buf hn (by linarith)
    (by linarith) (earth_high _ _ (by norm_num))

/-- From Greenwich to Paris (2.33° East, rounded): the longitude decreases by 2.33°. -/
example (buf : List XR) : ∃ l', SameDirection l' (Real.pi / 60 + 0 - 233 / 100 * (Real.pi / 180)) ∧
    (CrsXYZTransformation.new
        (AnyCrs.geographic ⟨"g", dat "D" "E" "Greenwich" 6378137 6356752 0, (GeodeticSystem.northEastUp Real.pi 180 1 1).axes⟩).toXYZ
        (AnyCrs.geographic ⟨"p", dat "D'" "E" "Paris" 6378137 6356752 (233 / 100 * (Real.pi / 180)),
          (GeodeticSystem.northEastUp Real.pi 180 1 1).axes⟩).toXYZ XYZIdentity XYZIdentity).fwd [fin 45, fin 3, fin 100] buf =
      (GeodeticSystem.northEastUp Real.pi 180 1 1).axes.denormalize (llh l' (Real.pi / 4) 100) buf := by
  have hp := Real.pi_pos
  have hn := geodetic_normalize_fin (GeodeticSystem.northEastUp Real.pi 180 1 1) ⟨hp.ne', by norm_num, one_ne_zero, one_ne_zero⟩
    [45, 3, 100] rfl
  have e1 : (GeodeticSystem.northEastUp Real.pi 180 1 1).lonOf [45, 3, 100] = Real.pi / 60 := by
    simp [GeodeticSystem.lonOf]; ring
  have e2 : (GeodeticSystem.northEastUp Real.pi 180 1 1).latOf [45, 3, 100] = Real.pi / 4 := by
    simp [GeodeticSystem.latOf]; ring
  have e3 : (GeodeticSystem.northEastUp Real.pi 180 1 1).heightOf [45, 3, 100] = 100 := by
    simp [GeodeticSystem.heightOf]
  rw [e1, e2, e3, remR_id (by linarith) (by linarith), clampR_id (by linarith) (by linarith)] at hn
  obtain ⟨l', _, _, q, r⟩ := C91_meridian (by norm_num) (by norm_num) "D" "D'" "E" "E" "Greenwich" "Paris" 0
    (233 / 100 * (Real.pi / 180)) .identity "g" "p" _ (GeodeticSystem.northEastUp Real.pi 180 1 1).axes _ buf hn
    (by linarith) (by linarith) (earth_high _ _ (by norm_num))
  exact ⟨l', q, r⟩

end Geo
