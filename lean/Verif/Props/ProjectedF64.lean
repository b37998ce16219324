import Verif.Lemmas.ProjectedRead

/-! # C111: reading projected coordinates, and transformations from a projected CRS, in IEEE arithmetic -/

namespace Geo
open XR Spec
variable {L : Libm}

/-! ### Reading coordinates -/

/-- Projected axes in doubles, and the same axes with units of the exact sizes. -/
inductive ProjectedNear : ProjectedAxes (F64 L) → ProjectedSystem → Prop
  | eastNorthUp {u v : LengthUnit (F64 L)} {p q p' q' : ℝ} (hu : UnitNear u.mPerUnit (p / q)) (hv : UnitNear v.mPerUnit (p' / q')) :
      ProjectedNear (.eastNorthUp u v) (.eastNorthUp p q p' q')
  | eastNorth {u : LengthUnit (F64 L)} {p q : ℝ} (hu : UnitNear u.mPerUnit (p / q)) : ProjectedNear (.eastNorth u) (.eastNorth p q)

theorem ProjectedNear.valid {A : ProjectedAxes (F64 L)} {s : ProjectedSystem} (h : ProjectedNear A s) : s.Valid := by
  cases h with
  | eastNorthUp hu hv => exact ⟨hu.ne.1, hu.ne.2, hv.ne.1, hv.ne.2⟩
  | eastNorth hu => exact hu.ne

/-- One finite number per axis, up to 100 000 km in the plane and 10 000 km in height. -/
structure PlaneCoords (s : ProjectedSystem) (c : List (F64 L)) : Prop where
  fits : s.Fits (reals c)
  finite : ∀ x ∈ c, x.isFinite
  east : |s.eastOf (reals c)| ≤ 100000000
  north : |s.northOf (reals c)| ≤ 100000000
  height : |s.heightOf (reals c)| ≤ 10000000

/-- **C111**: reading projected coordinates in IEEE arithmetic, for every system of axes: the easting and the northing are within 30 nm of the
exact ones, and the height within 3 nm. -/
theorem C111_normalize {A : ProjectedAxes (F64 L)} {s : ProjectedSystem} (h : ProjectedNear A s) (c : List (F64 L)) (hc : PlaneCoords s c) :
    ∃ E N ht : F64 L, A.normalize c = .ok ⟨⟨E⟩, ⟨N⟩, ⟨ht⟩⟩ ∧ Near E (s.eastOf (reals c)) 3e-8 ∧ Near N (s.northOf (reals c)) 3e-8 ∧
      Near ht (s.heightOf (reals c)) 3e-9 := by
  obtain ⟨f, fin, b1, b2, b3⟩ := hc
  cases h with
  | eastNorthUp hu hv =>
    obtain ⟨x, y, z, rfl⟩ := List.length_eq_three.1 ((List.length_map _).symm.trans f)
    exact ⟨_, _, _, rfl, quantity_near (fin x (by simp)) hu b1 (by norm_num) (by norm_num) (by norm_num),
      quantity_near (fin y (by simp)) hu b2 (by norm_num) (by norm_num) (by norm_num),
      quantity_near (fin z (by simp)) hv b3 (by norm_num) (by norm_num) (by norm_num)⟩
  | eastNorth hu =>
    obtain ⟨x, y, rfl⟩ := List.length_eq_two.1 ((List.length_map _).symm.trans f)
    refine ⟨_, _, _, rfl, quantity_near (fin x (by simp)) hu b1 (by norm_num) (by norm_num) (by norm_num),
      quantity_near (fin y (by simp)) hu b2 (by norm_num) (by norm_num) (by norm_num),
      zero_near.mono (by norm_num)⟩

/-! ### Projections -/

/-- A projection of an ellipsoid by the same parameters, doubles, in IEEE and in exact arithmetic, a point `(E, N)` of the plane within the range
where `C111_read` bounds the error, and that bound in metres. -/
inductive ProjectsNear (el : Ellipsoid (F64 L)) : ProjectionSpec (F64 L) → ProjectionSpec XR → ℝ → ℝ → ℝ → Prop
  | webMercator {l0 fe fn : F64 L} {E N : ℝ} (hl0 : InLonRange l0) (hfe : fe.isFinite) (hfn : fn.isFinite)
      (bE : |E - fe.toQ| ≤ 4.9 * el.a.m.toQ) (bN : |N - fn.toQ| ≤ 8.9 * el.a.m.toQ) (lat0 : Lat (F64 L)) (lat0' : Lat XR) :
      ProjectsNear el (.webMercator ⟨⟨l0⟩⟩ lat0 ⟨fe⟩ ⟨fn⟩) (.webMercator (lonR l0.toQ) lat0' ⟨fin fe.toQ⟩ ⟨fin fn.toQ⟩) E N 5e-7
  | mercator1SP {l0 fe fn k0 : F64 L} {E N : ℝ} (hl0 : InLonRange l0) (hfe : fe.isFinite) (hfn : fn.isFinite)
      (hk : k0.isFinite) (h1 : 0.5 ≤ k0.toQ) (h2 : k0.toQ ≤ 2)
      (bE : |E - fe.toQ| ≤ 4.9 * (k0.toQ * el.a.m.toQ)) (bN : |N - fn.toQ| ≤ 8.9 * (k0.toQ * el.a.m.toQ)) :
      ProjectsNear el (.mercator1SP ⟨⟨l0⟩⟩ k0 ⟨fe⟩ ⟨fn⟩) (.mercator1SP (lonR l0.toQ) (fin k0.toQ) ⟨fin fe.toQ⟩ ⟨fin fn.toQ⟩) E N 2.3e-6
  | mercator2SP {l0 fe fn φ1 : F64 L} {E N : ℝ} (hl0 : InLonRange l0) (hfe : fe.isFinite) (hfn : fn.isFinite)
      (hf : φ1.isFinite) (h1 : -(Real.pi / 2) < (φ1.toQ : ℝ)) (h2 : (φ1.toQ : ℝ) < Real.pi / 2) (hc : 0.5 ≤ Real.cos φ1.toQ)
      (bE : |E - fe.toQ| ≤ 4.9 * (Real.cos φ1.toQ / Real.sqrt (1 - (1 - (el.b.m.toQ : ℝ) ^ 2 / (el.a.m.toQ : ℝ) ^ 2) *
        Real.sin φ1.toQ ^ 2) * el.a.m.toQ))
      (bN : |N - fn.toQ| ≤ 8.9 * (Real.cos φ1.toQ / Real.sqrt (1 - (1 - (el.b.m.toQ : ℝ) ^ 2 / (el.a.m.toQ : ℝ) ^ 2) *
        Real.sin φ1.toQ ^ 2) * el.a.m.toQ)) :
      ProjectsNear el (.mercator2SP ⟨⟨l0⟩⟩ ⟨⟨φ1⟩⟩ ⟨fe⟩ ⟨fn⟩) (.mercator2SP (lonR l0.toQ) (latR φ1.toQ) ⟨fin fe.toQ⟩ ⟨fin fn.toQ⟩) E N 2.3e-6
  | transverse {l0 φ0 k0 fe fn : F64 L} {E N : ℝ} (hfl : 0.995 * el.a.m.toQ ≤ el.b.m.toQ) (hl0 : InLonRange l0) (hφ0 : φ0.isFinite)
      (hb0 : |φ0.toQ| ≤ 1.4836) (hk : k0.isFinite) (hk1 : 0.9 ≤ k0.toQ) (hk2 : k0.toQ ≤ 1.1) (hfe : fe.isFinite) (hfn : fn.isFinite)
      (bE : |E - fe.toQ| ≤ 0.54 * k0.toQ * el.b.m.toQ)
      (bN : |N - fn.toQ + k0.toQ * tmM0 el.a.m.toQ el.b.m.toQ φ0.toQ| ≤ 1.48 * k0.toQ * el.b.m.toQ) :
      ProjectsNear el (.transverseMercator ⟨⟨l0⟩⟩ ⟨⟨φ0⟩⟩ k0 ⟨fe⟩ ⟨fn⟩)
        (.transverseMercator (lonR l0.toQ) (latR φ0.toQ) (fin k0.toQ) ⟨fin fe.toQ⟩ ⟨fin fn.toQ⟩) E N 7e-5
  | transverseZone {l0 φ0 k0 fe fn : F64 L} {E N : ℝ} (hfl : 0.995 * el.a.m.toQ ≤ el.b.m.toQ) (hl0 : InLonRange l0) (hφ0 : φ0.isFinite)
      (hb0 : |φ0.toQ| ≤ 1.4836) (hk : k0.isFinite) (hk1 : 0.9 ≤ k0.toQ) (hk2 : k0.toQ ≤ 1.1) (hfe : fe.isFinite) (hfn : fn.isFinite)
      (bE : |E - fe.toQ| ≤ 0.1 * k0.toQ * el.b.m.toQ)
      (bN : |N - fn.toQ + k0.toQ * tmM0 el.a.m.toQ el.b.m.toQ φ0.toQ| ≤ 1.46 * k0.toQ * el.b.m.toQ) :
      ProjectsNear el (.transverseMercator ⟨⟨l0⟩⟩ ⟨⟨φ0⟩⟩ k0 ⟨fe⟩ ⟨fn⟩)
        (.transverseMercator (lonR l0.toQ) (latR φ0.toQ) (fin k0.toQ) ⟨fin fe.toQ⟩ ⟨fin fn.toQ⟩) E N 1.3e-5
  | utmNorth {z : ℕ} {E N : ℝ} (hfl : 0.995 * el.a.m.toQ ≤ el.b.m.toQ) (h1 : 1 ≤ z) (h2 : z ≤ 60)
      (bE : |E - 500000| ≤ 0.099 * el.b.m.toQ) (bN : |N| ≤ 1.459 * el.b.m.toQ) :
      ProjectsNear el (.utmNorth z) (.utmNorth z) E N 1.3e-5
  | utmSouth {z : ℕ} {E N : ℝ} (hfl : 0.995 * el.a.m.toQ ≤ el.b.m.toQ) (h1 : 1 ≤ z) (h2 : z ≤ 60)
      (bE : |E - 500000| ≤ 0.099 * el.b.m.toQ) (bN : |N - 10000000| ≤ 1.459 * el.b.m.toQ) :
      ProjectsNear el (.utmSouth z) (.utmSouth z) E N 1.3e-5

theorem utm_unproj_near (hL : AccurateProjection L) {el : Ellipsoid (F64 L)} (h : EarthSized el) (hfl : 0.995 * el.a.m.toQ ≤ el.b.m.toQ)
    {z : ℕ} (h1 : 1 ≤ z) (h2 : z ≤ 60) {E N : ℝ} (bE : |E - 500000| ≤ 0.099 * el.b.m.toQ) (s : String) :
    (|N| ≤ 1.459 * el.b.m.toQ → UnprojNear ((ProjectionSpec.utmNorth z).appliedTo el) (utmN s el.a.m.toQ el.b.m.toQ z) E N 3.9e-13 2.2e-13) ∧
    (|N - 10000000| ≤ 1.459 * el.b.m.toQ → UnprojNear ((ProjectionSpec.utmSouth z).appliedTo el) (utmS s el.a.m.toQ el.b.m.toQ z) E N 3.9e-13 2.2e-13) := by
  obtain ⟨e1, e2, e3⟩ := earth_real h
  obtain ⟨⟨k1, k2⟩, ⟨fe1, fe2⟩, ⟨n1, n2⟩, ⟨s1, s2⟩, ⟨p1, p2⟩⟩ := utm_values
  obtain ⟨c1, c2⟩ := utm_lon0_near (L := L) h1 h2
  have hk : Near (TransverseMercator.UTM_K0 : F64 L) 0.9996 1.2e-16 := by
    refine ⟨k1, ?_⟩
    have := cast_abs_le k2
    push_cast at this
    exact this
  have pp : |(TransverseMercator.UTM_LAT0 : Lat (F64 L)).angle.rad.toQ| ≤ 1.4836 := by
    change |B64.toQ (TransverseMercator.UTM_LAT0 : Lat (F64 noLibm)).angle.rad| ≤ _; rw [p2]; norm_num
  have q1 : (((TransverseMercator.UTM_FE : Length (F64 L)).m.toQ : ℚ) : ℝ) = 500000 := by
    change ((B64.toQ (TransverseMercator.UTM_FE : Length (F64 noLibm)).m : ℚ) : ℝ) = _; rw [fe2]; norm_num
  have q2 : (((TransverseMercator.UTM_FN_NORTH : Length (F64 L)).m.toQ : ℚ) : ℝ) = 0 := by
    change ((B64.toQ (TransverseMercator.UTM_FN_NORTH : Length (F64 noLibm)).m : ℚ) : ℝ) = _; rw [n2]; norm_num
  have q3 : (((TransverseMercator.UTM_FN_SOUTH : Length (F64 L)).m.toQ : ℚ) : ℝ) = 10000000 := by
    change ((B64.toQ (TransverseMercator.UTM_FN_SOUTH : Length (F64 noLibm)).m : ℚ) : ℝ) = _; rw [s2]; norm_num
  have q4 : (((TransverseMercator.UTM_LAT0 : Lat (F64 L)).angle.rad.toQ : ℚ) : ℝ) = 0 := by
    change ((B64.toQ (TransverseMercator.UTM_LAT0 : Lat (F64 noLibm)).angle.rad : ℚ) : ℝ) = _; rw [p2]; norm_num
  have hb : (0 : ℝ) < el.b.m.toQ := by linarith
  have hM : tmM0 el.a.m.toQ el.b.m.toQ 0 = 0 := by simp [tmM0]
  have bE' : |tmEta' el.a.m.toQ el.b.m.toQ 0.9996 (TransverseMercator.UTM_FE : Length (F64 L)).m.toQ E| ≤ 0.1 := by
    rw [q1]
    refine tm_range hb e2 (by norm_num) (c := 0.1) (by norm_num) (bE.trans ?_) le_rfl
    exact mul_le_mul_of_nonneg_right (by norm_num) hb.le
  constructor
  · intro bN
    have bN' : |tmXi' el.a.m.toQ el.b.m.toQ (TransverseMercator.UTM_LAT0 : Lat (F64 L)).angle.rad.toQ 0.9996
        (TransverseMercator.UTM_FN_NORTH : Length (F64 L)).m.toQ N| ≤ 1.46 := by
      rw [q2, q4, tmXi', hM]
      have bN : |N - 0 + 0.9996 * 0| ≤ 1.459 * el.b.m.toQ := by rw [sub_zero, mul_zero, add_zero]; exact bN
      refine tm_range hb e2 (by norm_num) (c := 1.46) (by norm_num) (bN.trans ?_) le_rfl
      exact mul_le_mul_of_nonneg_right (by norm_num) hb.le
    have := tm_unproj_zone hL h hfl (E' := E) (N' := N) c1 c2 (φ0 := (TransverseMercator.UTM_LAT0 : Lat (F64 L)).angle.rad) p1 pp hk (by norm_num) (by norm_num)
      (fe := (TransverseMercator.UTM_FE : Length (F64 L)).m) fe1
      (fn := (TransverseMercator.UTM_FN_NORTH : Length (F64 L)).m) n1 bE' bN' s
    rw [q1, q2, q4, ← utmN_eq] at this
    exact this
  · intro bN
    have bN' : |tmXi' el.a.m.toQ el.b.m.toQ (TransverseMercator.UTM_LAT0 : Lat (F64 L)).angle.rad.toQ 0.9996
        (TransverseMercator.UTM_FN_SOUTH : Length (F64 L)).m.toQ N| ≤ 1.46 := by
      rw [q3, q4, tmXi', hM]
      rw [← add_zero (N - 10000000), ← mul_zero (0.9996 : ℝ)] at bN
      refine tm_range hb e2 (by norm_num) (c := 1.46) (by norm_num) (bN.trans ?_) le_rfl
      exact mul_le_mul_of_nonneg_right (by norm_num) hb.le
    have := tm_unproj_zone hL h hfl (E' := E) (N' := N) c1 c2 (φ0 := (TransverseMercator.UTM_LAT0 : Lat (F64 L)).angle.rad) p1 pp hk (by norm_num) (by norm_num)
      (fe := (TransverseMercator.UTM_FE : Length (F64 L)).m) fe1
      (fn := (TransverseMercator.UTM_FN_SOUTH : Length (F64 L)).m) s1 bE' bN' s
    rw [q1, q3, q4, ← utmS_eq] at this
    exact this

theorem ProjectsNear.unproj (hL : AccurateProjection L) {el : Ellipsoid (F64 L)} (h : EarthSized el) {sp : ProjectionSpec (F64 L)}
    {sp' : ProjectionSpec XR} {E N ε : ℝ} (hp : ProjectsNear el sp sp' E N ε) (s : String) :
    ∃ f g, UnprojNear (sp.appliedTo el) (sp'.appliedTo (ell s el.a.m.toQ el.b.m.toQ)) E N f g ∧ g ≤ 1e-9 ∧
      errXyz 0 g 3e-9 + 1.84e7 * f ≤ ε ∧ ε ≤ 7e-5 := by
  obtain ⟨e1, e2, e3⟩ := earth_real h
  have hb : (0 : ℝ) < el.b.m.toQ := by linarith
  unfold errXyz
  cases hp with
  | webMercator hl0 hfe hfn bE bN lat0 lat0' =>
    exact ⟨_, _, web_unproj_near hL h hl0 hfe hfn bE bN lat0 lat0' s, by norm_num, by norm_num, by norm_num⟩
  | mercator1SP hl0 hfe hfn hk h1 h2 bE bN =>
    exact ⟨_, _, merc_unproj_near hL h (s := s) (.oneSP _ hk h1 h2) hl0 hfe hfn bE bN, by norm_num, by norm_num, by norm_num⟩
  | mercator2SP hl0 hfe hfn hf h1 h2 hc bE bN =>
    exact ⟨_, _, merc_unproj_near hL h (s := s) (.twoSP _ hf h1 h2 hc) hl0 hfe hfn bE bN, by norm_num, by norm_num, by norm_num⟩
  | transverse hfl hl0 hφ0 hb0 hk hk1 hk2 hfe hfn bE bN =>
    have k1 := (Rat.cast_le (K := ℝ)).2 hk1
    have k2 := (Rat.cast_le (K := ℝ)).2 hk2
    push_cast at k1 k2
    have k0 := lt_of_lt_of_le (show (0 : ℝ) < 0.9 by norm_num) k1
    exact ⟨_, _, tm_unproj_near hL h hfl hl0 ((Near.exact hl0.1).mono (by norm_num)) hφ0 hb0 ((Near.exact hk).mono (by norm_num)) k1 k2 hfe hfn
      (tm_range hb e2 k0 (by norm_num) bE (by norm_num)) (tm_range hb e2 k0 (by norm_num) bN (by norm_num)) s, by norm_num, by norm_num, by norm_num⟩
  | transverseZone hfl hl0 hφ0 hb0 hk hk1 hk2 hfe hfn bE bN =>
    have k1 := (Rat.cast_le (K := ℝ)).2 hk1
    have k2 := (Rat.cast_le (K := ℝ)).2 hk2
    push_cast at k1 k2
    have k0 := lt_of_lt_of_le (show (0 : ℝ) < 0.9 by norm_num) k1
    exact ⟨_, _, tm_unproj_zone hL h hfl hl0 ((Near.exact hl0.1).mono (by norm_num)) hφ0 hb0 ((Near.exact hk).mono (by norm_num)) k1 k2 hfe hfn
      (tm_range hb e2 k0 (by norm_num) bE (by norm_num)) (tm_range hb e2 k0 (by norm_num) bN (by norm_num)) s, by norm_num, by norm_num, by norm_num⟩
  | utmNorth hfl h1 h2 bE bN =>
    exact ⟨_, _, (utm_unproj_near hL h hfl h1 h2 bE s).1 bN, by norm_num, by norm_num, by norm_num⟩
  | utmSouth hfl h1 h2 bE bN =>
    exact ⟨_, _, (utm_unproj_near hL h hfl h1 h2 bE s).2 bN, by norm_num, by norm_num, by norm_num⟩

/-- A CRS in doubles and the same CRS in exact arithmetic with coordinates to read in it, and a bound in metres of the error of the position read. -/
inductive ReadsNear : AnyCrs (F64 L) → AnyCrs XR → List (F64 L) → ℝ → Prop
  | direct {src : AnyCrs (F64 L)} {src' : AnyCrs XR} {c : List (F64 L)} (h : CrsNear src src' c) : ReadsNear src src' c 1.6e-7
  | projected {cid : String} {d : GeodeticDatum (F64 L)} {A : ProjectedAxes (F64 L)} {s : ProjectedSystem}
      (he : EarthSized d.ellipsoid) (h0 : InLonRange d.primeMeridian.lon.angle.rad) (hs : ProjectedNear A s)
      {c : List (F64 L)} (hc : PlaneCoords s c) {sp : ProjectionSpec (F64 L)} {sp' : ProjectionSpec XR} {ε : ℝ}
      (hp : ProjectsNear d.ellipsoid sp sp' (s.eastOf (reals c)) (s.northOf (reals c)) ε) (id n pn : String) :
      ReadsNear (.projected ⟨cid, d, A, sp⟩)
        (.projected ⟨cid, dat id n pn d.ellipsoid.a.m.toQ d.ellipsoid.b.m.toQ d.primeMeridian.lon.angle.rad.toQ, s.axes, sp'⟩) c ε

/-- **C111**: the geocentric position that a CRS reads from coordinates in IEEE arithmetic is near the exact one: to 500 nm for Web Mercator,
2.3 µm for Mercator, 13 µm for UTM and for transverse Mercator up to a tenth of a semi-axis from the central meridian, 70 µm for transverse
Mercator up to half a semi-axis. -/
theorem C111_read (hL : AccurateProjection L) {src : AnyCrs (F64 L)} {src' : AnyCrs XR} {c : List (F64 L)} {ε : ℝ} (h : ReadsNear src src' c ε) :
    ∃ p P, src.toXYZ.toXyz c = .ok p ∧ src'.toXYZ.toXyz ((reals c).map fin) = .ok P ∧ Within 1.84e7 P ∧ NearXyz p P ε ∧ ε ≤ 7e-5 := by
  cases h with
  | direct h =>
    obtain ⟨p, P, h1, h2, h3, h4⟩ := C99_read hL.toAccurate h
    exact ⟨p, P, h1, h2, h3, h4, by norm_num⟩
  | @projected cid d A s he h0 hs _ hc sp sp' _ hp id n pn =>
    obtain ⟨e1, e2, e3⟩ := earth_real he
    obtain ⟨E, N, ht, hn, kE, kN, kh⟩ := C111_normalize hs c hc
    obtain ⟨f, g, hu, g1, b1, b2⟩ := hp.unproj hL he n
    obtain ⟨l, φ, l', φ', m, u1, u2, u3, u4, u5, u6⟩ := hu E N ht (s.heightOf (reals c)) kE kN
    have hφ : InLonRange φ := near_lon_range u4 (u5.trans (by have := Real.pi_lt_d2; norm_num at *; linarith)) (g1.trans (by norm_num))
    rw [abs_le] at u5
    have hr := C97_geocentric_error hL.toAccurate d he h0 ⟨⟨⟨l⟩⟩, ⟨⟨φ⟩⟩, ⟨ht⟩⟩ u3 hφ (Near.exact u3.1) u4 kh hc.height (by norm_num) g1 (by norm_num) id n pn
    have hr2 := parallel_move e1 e2 e3 id n pn _ (Real.cos_nonneg_of_neg_pi_div_two_le_of_le u5.1 u5.2) hc.height u6 hr
    refine ⟨_, _, ?_, ?_, geocentric_within e1 e2 e3 hc.height id n pn _ _ _, hr2.mono b1, b2⟩
    · simp only [AnyCrs.toXYZ, ProjectedCrs.toXyzTransformation, hn]
      show ((sp.appliedTo d.ellipsoid).unproj ⟨⟨E⟩, ⟨N⟩, ⟨ht⟩⟩ >>= fun q => pure (d.llhToXyz q)) = _
      rw [u1]
      rfl
    · simp only [AnyCrs.toXYZ, ProjectedCrs.toXyzTransformation, C16_projected_normalize s hs.valid (reals c) hc.fits]
      show ((sp'.appliedTo (ell n d.ellipsoid.a.m.toQ d.ellipsoid.b.m.toQ)).unproj
        (enh (s.eastOf (reals c)) (s.northOf (reals c)) (s.heightOf (reals c))) >>= fun q => pure (GeodeticDatum.llhToXyz _ q)) = _
      rw [u2]
      rfl

/-! ### Transformations -/

/-- **C111**: a transformation to a geocentric CRS in IEEE arithmetic, forward or (the roles exchanged) backward, from any CRS: the coordinates
written are near those that the exact transformation by the same parameters writes. -/
theorem C111_to_geocentric (hL : AccurateProjection L) {src : AnyCrs (F64 L)} {src' : AnyCrs XR} {c : List (F64 L)} {ε : ℝ}
    (h : ReadsNear src src' c ε)
    (dst : GeocentricCrs (F64 L)) (dst' : GeocentricCrs XR) {S D : XYZTransformation (F64 L)} {S' D' : XYZTransformation XR}
    (hS : ShiftNear S S') (hD : ShiftNear D D') (buf : List (F64 L)) (buf' : List XR) (hb : buf.length = 3)
    (hb' : buf'.length = 3) :
    ∃ u v w : F64 L, ∃ x y z : ℝ,
      (CrsXYZTransformation.new src.toXYZ dst.toXyzTransformation S D).fwd c buf = .ok [u, v, w] ∧
      (CrsXYZTransformation.new dst.toXyzTransformation src.toXYZ D S).bwd c buf = .ok [u, v, w] ∧
      (CrsXYZTransformation.new src'.toXYZ dst'.toXyzTransformation S' D').fwd ((reals c).map fin) buf' =
        .ok [fin x, fin y, fin z] ∧
      Near u x (1.03 * ε + 5.1e-8) ∧ Near v y (1.03 * ε + 5.1e-8) ∧ Near w z (1.03 * ε + 5.1e-8) := by
  obtain ⟨p, P, hp, hP, hW, hn, he⟩ := C111_read hL h
  have ε0 : 0 ≤ ε := by obtain ⟨_, _, _, _, k, _⟩ := hn; exact k.nonneg
  have n1 := (hS.near p P (hW.inSpace (by norm_num)) (he.trans (by norm_num)) hn).1
  have n2 := (hD.near _ _ (hS.within hW).1 (by norm_num at *; linarith) n1).2
  obtain ⟨x, y, z, e, kx, ky, kz⟩ := n2
  obtain ⟨b1, b2, b3, rfl⟩ := List.length_eq_three.1 hb
  obtain ⟨b1', b2', b3', rfl⟩ := List.length_eq_three.1 hb'
  refine ⟨_, _, _, x, y, z, ?_, ?_, ?_, kx.mono ?_, ky.mono ?_, kz.mono ?_⟩
  · simp only [CrsXYZTransformation.fwd, CrsXYZTransformation.new, hp]
    rfl
  · simp only [CrsXYZTransformation.bwd, CrsXYZTransformation.new, hp]
    rfl
  · simp only [CrsXYZTransformation.fwd, CrsXYZTransformation.new, hP]
    show dst'.toXyzTransformation.fromXyz (D'.fromRef (S'.toRef P)) [b1', b2', b3'] = _
    rw [e]
    rfl
  all_goals norm_num; linarith

/-- The geodetic coordinates of the position that a transformation arrives at: computed in doubles and in exact arithmetic. -/
theorem arrive_near (hL : AccurateInverse L) {p : XYZ (F64 L)} {P : XYZ XR} {ε : ℝ} (hW : Within 1.84e7 P) (hn : NearXyz p P ε) (hε : ε ≤ 7e-5)
    {d : GeodeticDatum (F64 L)} (he : EarthSized d.ellipsoid) (hlt : d.ellipsoid.b.m.toQ < d.ellipsoid.a.m.toQ)
    (hfl : 0.995 * d.ellipsoid.a.m.toQ ≤ d.ellipsoid.b.m.toQ) (h0 : InLonRange d.primeMeridian.lon.angle.rad)
    {S D : XYZTransformation (F64 L)} {S' D' : XYZTransformation XR} (hS : ShiftNear S S')
    (hD : ShiftNear D D') (id n pn : String) {l φ h : ℝ}
    (hq : (dat id n pn d.ellipsoid.a.m.toQ d.ellipsoid.b.m.toQ d.primeMeridian.lon.angle.rad.toQ).llhToXyz (llh l φ h) =
      D'.fromRef (S'.toRef P))
    (hφ1 : -(Real.pi / 2) ≤ φ) (hφ2 : φ ≤ Real.pi / 2) (hh1 : -500000 ≤ h) (hh2 : h ≤ 2500000) :
    ∃ (x y z : F64 L) (l' : ℝ), d.xyzToLlh (D.fromRef (S.toRef p)) = ⟨⟨⟨x⟩⟩, ⟨⟨y⟩⟩, ⟨z⟩⟩ ∧
      (dat id n pn d.ellipsoid.a.m.toQ d.ellipsoid.b.m.toQ d.primeMeridian.lon.angle.rad.toQ).xyzToLlh (D'.fromRef (S'.toRef P)) = llh l' φ h ∧
      InLonRange x ∧ InLonRange y ∧ (∃ j : ℤ, Real.cos φ * |(x.toQ : ℝ) - (l' + j * (2 * Real.pi))| ≤ 1.04e-6 * ε + 5.7e-14) ∧
      Near y φ (3.3e-7 * ε + 2.63e-14) ∧ Near z h (1.78 * ε + 1.9e-7) ∧ (Real.cos φ ≠ 0 → ∃ j : ℤ, l' = l + j * (2 * Real.pi)) := by
  have ε0 : 0 ≤ ε := by obtain ⟨_, _, _, _, k, _⟩ := hn; exact k.nonneg
  have n1 := (hS.near p P (hW.inSpace (by norm_num)) (hε.trans (by norm_num)) hn).1
  have n2 := (hD.near _ _ (hS.within hW).1 (by norm_num at *; linarith) n1).2
  rw [← hq] at n2
  obtain ⟨r1, r2, ⟨m, r3⟩, r4, r5⟩ := C103_geodetic_error hL d he hlt hfl h0 _ id n pn hφ1 hφ2 hh1 hh2 (by norm_num at *; linarith) n2
  obtain ⟨e1, e2, e3⟩ := earth_real he
  have hflR : 0.995 * (d.ellipsoid.a.m.toQ : ℝ) ≤ d.ellipsoid.b.m.toQ := by
    have := (Rat.cast_le (K := ℝ)).2 hfl
    push_cast at this
    exact this
  obtain ⟨l', x1, -, -, x2⟩ := datum_from_llh (by linarith) e2 id n pn d.primeMeridian.lon.angle.rad.toQ l φ h hφ1 hφ2
    (high_enough e1 e2 hflR φ hh1)
  rw [← hq]
  refine ⟨_, _, _, l', rfl, x1, r1, r2, ?_, r4.mono (by norm_num; linarith), r5.mono (by norm_num; linarith), x2⟩
  by_cases hcos : Real.cos φ = 0
  · exact ⟨0, by rw [hcos, zero_mul]; norm_num; linarith⟩
  · obtain ⟨j, hj⟩ := x2 hcos
    refine ⟨m - j, ?_⟩
    have hj' : l' + ((m - j : ℤ) : ℝ) * (2 * Real.pi) = l + m * (2 * Real.pi) := by rw [hj]; push_cast; ring
    rw [hj']
    exact r3.trans (by norm_num; linarith)

/-- **C111**: a transformation to a geographic CRS in IEEE arithmetic, forward or (the roles exchanged) backward, from any CRS, when the exact
result lies between 500 km below and 2500 km above the ellipsoid: the coordinates written stand for nearly the position that the exact
transformation by the same parameters writes. -/
theorem C111_to_geographic (hL : AccurateInverse L) (hL' : AccurateProjection L) {src : AnyCrs (F64 L)} {src' : AnyCrs XR} {c : List (F64 L)} {ε : ℝ}
    (hc : ReadsNear src src' c ε) {d : GeodeticDatum (F64 L)} {A : GeodeticAxes (F64 L)} {s : GeodeticSystem}
    (he : EarthSized d.ellipsoid) (hlt : d.ellipsoid.b.m.toQ < d.ellipsoid.a.m.toQ)
    (hfl : 0.995 * d.ellipsoid.a.m.toQ ≤ d.ellipsoid.b.m.toQ) (h0 : InLonRange d.primeMeridian.lon.angle.rad)
    (hA : SystemOut A s) {S D : XYZTransformation (F64 L)} {S' D' : XYZTransformation XR} (hS : ShiftNear S S')
    (hD : ShiftNear D D') (cid id n pn : String) {P : XYZ XR} {l φ h : ℝ}
    (hP : src'.toXYZ.toXyz ((reals c).map fin) = .ok P)
    (hq : (dat id n pn d.ellipsoid.a.m.toQ d.ellipsoid.b.m.toQ d.primeMeridian.lon.angle.rad.toQ).llhToXyz (llh l φ h) =
      D'.fromRef (S'.toRef P))
    (hφ1 : -(Real.pi / 2) ≤ φ) (hφ2 : φ ≤ Real.pi / 2) (hh1 : -500000 ≤ h) (hh2 : h ≤ 2500000)
    (buf : List (F64 L)) (buf' : List XR) (hb : buf.length = s.axes.dim) (hb' : buf'.length = s.axes.dim) :
    ∃ (out : List (F64 L)) (out' : List ℝ),
      (CrsXYZTransformation.new src.toXYZ (GeographicCrs.mk cid d A).toXyzTransformation S D).fwd c buf = .ok out ∧
      (CrsXYZTransformation.new (GeographicCrs.mk cid d A).toXyzTransformation src.toXYZ D S).bwd c buf = .ok out ∧
      (CrsXYZTransformation.new src'.toXYZ (GeographicCrs.mk cid
        (dat id n pn d.ellipsoid.a.m.toQ d.ellipsoid.b.m.toQ d.primeMeridian.lon.angle.rad.toQ) s.axes).toXyzTransformation
        S' D').fwd ((reals c).map fin) buf' = .ok (out'.map fin) ∧
      SamePosition s out out' (1.04e-6 * ε + 5.9e-14) (3.3e-7 * ε + 2.8e-14) (1.78 * ε + 1.95e-7) := by
  obtain ⟨p, P', hp, hP', hW, hn, hε⟩ := C111_read hL' hc
  rw [hP] at hP'
  cases hP'
  obtain ⟨x, y, z, l', q1, q2, rx, ry, ⟨j, kx⟩, ky, kz, -⟩ := arrive_near hL hW hn hε he hlt hfl h0 hS hD id n pn hq hφ1 hφ2 hh1 hh2
  have hbig : |(z.toQ : ℝ)| ≤ 10000000 := by
    obtain ⟨k1, k2⟩ := abs_le.1 kz.2
    rw [abs_le]
    norm_num at k1 k2 hε
    constructor <;> linarith
  obtain ⟨out, o1, o2, o3, o4, o5, o6⟩ := C104_denormalize hA ⟨⟨⟨x⟩⟩, ⟨⟨y⟩⟩, ⟨z⟩⟩ rx ry kz.1 hbig buf hb
  obtain ⟨out', y1, y2, y3, y4, y5, -⟩ := geodetic_denormalize_fin s hA.valid l' φ h buf' hb'.symm.le
  rw [← hb', List.drop_length, List.append_nil] at y2
  have c0 := Real.cos_nonneg_of_neg_pi_div_two_le_of_le hφ1 hφ2
  refine ⟨out, out', ?_, ?_, ?_, o2, y1, o3, ⟨j, ?_⟩, ?_, fun h3 => ?_⟩
  · simp only [CrsXYZTransformation.fwd, CrsXYZTransformation.new, hp]
    show A.denormalize (d.xyzToLlh (D.fromRef (S.toRef p))) buf = _
    rw [q1]
    exact o1
  · simp only [CrsXYZTransformation.bwd, CrsXYZTransformation.new, hp]
    show A.denormalize (d.xyzToLlh (D.fromRef (S.toRef p))) buf = _
    rw [q1]
    exact o1
  · simp only [CrsXYZTransformation.fwd, CrsXYZTransformation.new, hP]
    show GeodeticAxes.denormalize _ (GeodeticDatum.xyzToLlh _ (D'.fromRef (S'.toRef P))) buf' = _
    rw [q2]
    exact y2
  · rw [y3, y4]
    have k1 := mul_le_mul_of_nonneg_left (abs_sub_le (s.lonOf (reals out)) (x.toQ : ℝ) (l' + j * (2 * Real.pi))) c0
    have k2 := mul_le_mul (Real.cos_le_one φ) o4 (abs_nonneg _) zero_le_one
    rw [mul_add] at k1
    norm_num at kx k2 ⊢
    linarith
  · rw [y4]
    exact (write_shift o5 ky.2).trans (by norm_num; linarith)
  · rw [y5 h3]
    exact (write_shift (o6 h3) kz.2).trans (by norm_num; linarith)

/-- A position between 300 km below and 2300 km above one ellipsoid is, after the datum shifts, between 500 km below and 2500 km above another
of about the same size. -/
theorem position_moved {d₁ d : GeodeticDatum (F64 L)} (he₁ : EarthSized d₁.ellipsoid) (hfl₁ : 0.995 * d₁.ellipsoid.a.m.toQ ≤ d₁.ellipsoid.b.m.toQ)
    (he : EarthSized d.ellipsoid) (hlt : d.ellipsoid.b.m.toQ < d.ellipsoid.a.m.toQ)
    (hfl : 0.995 * d.ellipsoid.a.m.toQ ≤ d.ellipsoid.b.m.toQ) (hd : |d₁.ellipsoid.a.m.toQ - d.ellipsoid.a.m.toQ| ≤ 10000)
    {S' D' : XYZTransformation XR} (hm : MovesLittle S' D') (id₁ n₁ pn₁ id n pn : String) (l0 l0' l φ : ℝ) {h : ℝ} (hh1 : -300000 ≤ h)
    (hh2 : h ≤ 2300000) :
    ∃ l' φ' h', (dat id n pn d.ellipsoid.a.m.toQ d.ellipsoid.b.m.toQ l0').llhToXyz (llh l' φ' h') =
      D'.fromRef (S'.toRef ((dat id₁ n₁ pn₁ d₁.ellipsoid.a.m.toQ d₁.ellipsoid.b.m.toQ l0).llhToXyz (llh l φ h))) ∧
      -(Real.pi / 2) ≤ φ' ∧ φ' ≤ Real.pi / 2 ∧ -500000 ≤ h' ∧ h' ≤ 2500000 := by
  obtain ⟨e1, e2, e3⟩ := earth_real he₁
  have hflR : 0.995 * (d₁.ellipsoid.a.m.toQ : ℝ) ≤ d₁.ellipsoid.b.m.toQ := by
    have := (Rat.cast_le (K := ℝ)).2 hfl₁
    push_cast at this
    exact this
  have hflR' : 0.995 * (d.ellipsoid.a.m.toQ : ℝ) ≤ d.ellipsoid.b.m.toQ := by
    have := (Rat.cast_le (K := ℝ)).2 hfl
    push_cast at this
    exact this
  have hltR : (d.ellipsoid.b.m.toQ : ℝ) < d.ellipsoid.a.m.toQ := by exact_mod_cast hlt
  obtain ⟨f1, f2, f3⟩ := earth_real he
  obtain ⟨hd1, hd2⟩ : (-10000 : ℝ) ≤ d₁.ellipsoid.a.m.toQ - d.ellipsoid.a.m.toQ ∧
      (d₁.ellipsoid.a.m.toQ : ℝ) - d.ellipsoid.a.m.toQ ≤ 10000 := by
    obtain ⟨k1, k2⟩ := abs_le.1 hd
    exact ⟨by exact_mod_cast k1, by exact_mod_cast k2⟩
  obtain ⟨x, y, z, e⟩ := llhToXyz_xyz (show (0 : ℝ) < d₁.ellipsoid.b.m.toQ by linarith) e2 id₁ n₁ pn₁ l0 l φ h
  rw [e]
  rw [llhToXyz_all (by linarith) e2] at e
  have r0 := Real.sqrt_nonneg (x ^ 2 + y ^ 2 + z ^ 2)
  have hr : Real.sqrt (x ^ 2 + y ^ 2 + z ^ 2) ^ 2 = x ^ 2 + y ^ 2 + z ^ 2 := Real.sq_sqrt (by positivity)
  obtain ⟨b1, b2⟩ := geo_radius e1 e2 hflR (by linarith) e r0 hr
  generalize Real.sqrt (x ^ 2 + y ^ 2 + z ^ 2) = r at *
  obtain ⟨u, v, w, hq, hm⟩ := hm x y z (by
    rw [← hr]
    refine pow_le_pow_left₀ r0 ?_ 2
    linarith)
  have r0' := Real.sqrt_nonneg ((x - u) ^ 2 + (y - v) ^ 2 + (z - w) ^ 2)
  have hr' : Real.sqrt ((x - u) ^ 2 + (y - v) ^ 2 + (z - w) ^ 2) ^ 2 = (x - u) ^ 2 + (y - v) ^ 2 + (z - w) ^ 2 :=
    Real.sq_sqrt (by positivity)
  obtain ⟨b3, b4⟩ := radius_move r0 r0' (by norm_num) hr hm hr'
  rw [hq]
  exact position_exists f1 hltR f3 hflR' r0' hr' (by linarith) (by linarith) id n pn l0'

/-- **C111**, between a projected and a geographic CRS on ellipsoids of about the same size, for heights between -300 km and 2300 km. -/
theorem C111_projected_to_geographic (hL : AccurateInverse L) (hL' : AccurateProjection L) {d₁ d : GeodeticDatum (F64 L)}
    {A₁ : ProjectedAxes (F64 L)} {A : GeodeticAxes (F64 L)} {s₁ : ProjectedSystem} {s : GeodeticSystem} {c : List (F64 L)}
    (he₁ : EarthSized d₁.ellipsoid) (hfl₁ : 0.995 * d₁.ellipsoid.a.m.toQ ≤ d₁.ellipsoid.b.m.toQ) (h0₁ : InLonRange d₁.primeMeridian.lon.angle.rad)
    (hs₁ : ProjectedNear A₁ s₁) (hc : PlaneCoords s₁ c) {sp : ProjectionSpec (F64 L)} {sp' : ProjectionSpec XR} {ε : ℝ}
    (hp : ProjectsNear d₁.ellipsoid sp sp' (s₁.eastOf (reals c)) (s₁.northOf (reals c)) ε)
    (hh1 : -300000 ≤ s₁.heightOf (reals c)) (hh2 : s₁.heightOf (reals c) ≤ 2300000)
    (he : EarthSized d.ellipsoid) (hlt : d.ellipsoid.b.m.toQ < d.ellipsoid.a.m.toQ)
    (hfl : 0.995 * d.ellipsoid.a.m.toQ ≤ d.ellipsoid.b.m.toQ) (h0 : InLonRange d.primeMeridian.lon.angle.rad)
    (hA : SystemOut A s) (hd : |d₁.ellipsoid.a.m.toQ - d.ellipsoid.a.m.toQ| ≤ 10000)
    {S D : XYZTransformation (F64 L)} {S' D' : XYZTransformation XR} (hS : ShiftNear S S') (hD : ShiftNear D D')
    (hm : MovesLittle S' D') (cid₁ id₁ n₁ pn₁ cid id n pn : String)
    (buf : List (F64 L)) (buf' : List XR) (hb : buf.length = s.axes.dim) (hb' : buf'.length = s.axes.dim) :
    ∃ (out : List (F64 L)) (out' : List ℝ),
      (CrsXYZTransformation.new (AnyCrs.projected ⟨cid₁, d₁, A₁, sp⟩).toXYZ (GeographicCrs.mk cid d A).toXyzTransformation S D).fwd c buf = .ok out ∧
      (CrsXYZTransformation.new (GeographicCrs.mk cid d A).toXyzTransformation (AnyCrs.projected ⟨cid₁, d₁, A₁, sp⟩).toXYZ D S).bwd c buf = .ok out ∧
      (CrsXYZTransformation.new (AnyCrs.projected ⟨cid₁,
        dat id₁ n₁ pn₁ d₁.ellipsoid.a.m.toQ d₁.ellipsoid.b.m.toQ d₁.primeMeridian.lon.angle.rad.toQ, s₁.axes, sp'⟩).toXYZ (GeographicCrs.mk cid
        (dat id n pn d.ellipsoid.a.m.toQ d.ellipsoid.b.m.toQ d.primeMeridian.lon.angle.rad.toQ) s.axes).toXyzTransformation
        S' D').fwd ((reals c).map fin) buf' = .ok (out'.map fin) ∧
      SamePosition s out out' (1.04e-6 * ε + 5.9e-14) (3.3e-7 * ε + 2.8e-14) (1.78 * ε + 1.95e-7) := by
  obtain ⟨E, N, ht, hn, kE, kN, kh⟩ := C111_normalize hs₁ c hc
  obtain ⟨f, g, hu, g1, b1, b2⟩ := hp.unproj hL' he₁ n₁
  obtain ⟨l, φ, l', φ', m, u1, u2, u3, u4, u5, u6⟩ := hu E N ht (s₁.heightOf (reals c)) kE kN
  have hP : (AnyCrs.projected ⟨cid₁, dat id₁ n₁ pn₁ d₁.ellipsoid.a.m.toQ d₁.ellipsoid.b.m.toQ
      d₁.primeMeridian.lon.angle.rad.toQ, s₁.axes, sp'⟩).toXYZ.toXyz ((reals c).map fin) = .ok ((dat id₁ n₁ pn₁ d₁.ellipsoid.a.m.toQ d₁.ellipsoid.b.m.toQ
      d₁.primeMeridian.lon.angle.rad.toQ).llhToXyz (llh l' φ' (s₁.heightOf (reals c)))) := by
    simp only [AnyCrs.toXYZ, ProjectedCrs.toXyzTransformation, C16_projected_normalize s₁ hs₁.valid (reals c) hc.fits]
    show ((sp'.appliedTo (ell n₁ d₁.ellipsoid.a.m.toQ d₁.ellipsoid.b.m.toQ)).unproj
      (enh (s₁.eastOf (reals c)) (s₁.northOf (reals c)) (s₁.heightOf (reals c))) >>= fun q => pure (GeodeticDatum.llhToXyz _ q)) = _
    rw [u2]
    rfl
  obtain ⟨l2, φ2, h2, k1, k2, k3, k4, k5⟩ := position_moved he₁ hfl₁ he hlt hfl hd hm id₁ n₁ pn₁ id n pn d₁.primeMeridian.lon.angle.rad.toQ
    d.primeMeridian.lon.angle.rad.toQ l' φ' hh1 hh2
  exact C111_to_geographic hL hL' (.projected he₁ h0₁ hs₁ hc hp id₁ n₁ pn₁) he hlt hfl h0 hA hS hD cid id n pn hP k1 k2 k3 k4 k5 buf buf' hb hb'

theorem utm_lits : (B64.isFinite (B64.lit 650000) = true ∧ (B64.lit 650000).toQ = 650000) ∧
    B64.isFinite (B64.lit 5400000) = true ∧ (B64.lit 5400000).toQ = 5400000 := by decide +kernel

/-- From easting 650 000 m, northing 5 400 000 m of zone 31 on WGS 84, through a translation, to degrees north and degrees east. -/
example (buf : List (F64 roundLibm)) (hb : buf.length = 2) : ∃ (out : List (F64 roundLibm)) (out' : List ℝ),
    (CrsXYZTransformation.new
      (AnyCrs.projected ⟨"EPSG:32631", GeodeticDatum.consts.WGS84, .eastNorth M, .utmNorth 31⟩).toXYZ
      (GeographicCrs.mk "local" GeodeticDatum.consts.WGS84 (.northEast DEG)).toXyzTransformation XYZIdentity
      (GeocentricTranslation.mk ⟨Flt.lit (-100)⟩ ⟨Flt.lit 2⟩ ⟨Flt.lit 2⟩).toTransformation).fwd
      [Flt.lit 650000, Flt.lit 5400000] buf = .ok out ∧
    SamePosition (.northEast Real.pi 180) out out' 1.5e-11 5e-12 3e-5 := by
  obtain ⟨-, -, c, -, e⟩ := usual_fin
  obtain ⟨f1, q1, f2, q2, f3, q3⟩ := lits_fin
  obtain ⟨⟨i1, v1⟩, i2, v2⟩ := utm_lits
  have q0 : (B64.lit (-100)).toQ = -100 := by decide +kernel
  have t : |(B64.lit 2).toQ| ≤ 100000 := by rw [q2]; norm_num
  have hB : (6000000 : ℝ) ≤ (GeodeticDatum.consts.WGS84 : GeodeticDatum (F64 roundLibm)).ellipsoid.b.m.toQ :=
    (earth_real (wgs84_earthSized (L := roundLibm))).1
  have r : reals [(Flt.lit 650000 : F64 roundLibm), Flt.lit 5400000] = [650000, 5400000] := by
    show [(((B64.lit 650000).toQ : ℚ) : ℝ), (((B64.lit 5400000).toQ : ℚ) : ℝ)] = _
    rw [v1, v2]; norm_num
  have hc : PlaneCoords (.eastNorth 1 1) [(Flt.lit 650000 : F64 roundLibm), Flt.lit 5400000] := by
    refine ⟨rfl, ?_, ?_, ?_, ?_⟩
    · intro x hx
      simp only [List.mem_cons, List.not_mem_nil, or_false] at hx
      rcases hx with rfl | rfl
      · exact i1
      · exact i2
    · rw [r]; show |(650000 : ℝ) * (1 / 1)| ≤ 100000000; norm_num
    · rw [r]; show |(5400000 : ℝ) * (1 / 1)| ≤ 100000000; norm_num
    · show |(0 : ℝ)| ≤ 10000000; norm_num
  obtain ⟨out, out', k1, -, -, k2⟩ := C111_projected_to_geographic roundLibm_accurateInverse roundLibm_accurateProjection
    (d₁ := GeodeticDatum.consts.WGS84) (d := GeodeticDatum.consts.WGS84) wgs84_earthSized wgs84_flat.2
    greenwich_inLonRange (.eastNorth m_unit) hc
    (.utmNorth (z := 31) wgs84_flat.2 (by norm_num) (by norm_num)
      (by rw [r]; show |(650000 : ℝ) * (1 / 1) - 500000| ≤ _; norm_num; linarith)
      (by rw [r]; show |(5400000 : ℝ) * (1 / 1)| ≤ _; norm_num; linarith))
    (by show (-300000 : ℝ) ≤ 0; norm_num) (by show (0 : ℝ) ≤ 2300000; norm_num)
    wgs84_earthSized wgs84_flat.1 wgs84_flat.2 greenwich_inLonRange (.northEast deg_out) (by rw [sub_self, abs_zero]; norm_num)
    .identity (.translation c f2 f2 e t t) (fun x y z _ => ⟨(B64.lit (-100)).toQ, (B64.lit 2).toQ, (B64.lit 2).toQ, rfl, by
      rw [q0, q2]; norm_num⟩) "EPSG:32631" "" "" "" "local" "" "" "" buf [fin 0, fin 0] hb rfl
  obtain ⟨x1, x2, x3, ⟨m, x4⟩, x5, x6⟩ := k2
  exact ⟨out, out', k1, x1, x2, x3, ⟨m, x4.trans (by norm_num)⟩, x5.trans (by norm_num), fun h => (x6 h).trans (by norm_num)⟩

/-- Web Mercator of WGS 84, in US survey feet and feet. -/
example : ReadsNear (L := roundLibm)
    (.projected ⟨"local", GeodeticDatum.consts.WGS84, .eastNorthUp US_FT FT, .webMercator ⟨⟨Flt.lit 0⟩⟩ ⟨⟨Flt.lit 0⟩⟩ ⟨Flt.lit 0⟩ ⟨Flt.lit 0⟩⟩)
    (.projected ⟨"local", dat "WGS84" "WGS 84" "Greenwich"
        (GeodeticDatum.consts.WGS84 : GeodeticDatum (F64 roundLibm)).ellipsoid.a.m.toQ
        (GeodeticDatum.consts.WGS84 : GeodeticDatum (F64 roundLibm)).ellipsoid.b.m.toQ
        (GeodeticDatum.consts.WGS84 : GeodeticDatum (F64 roundLibm)).primeMeridian.lon.angle.rad.toQ,
        (ProjectedSystem.eastNorthUp 1200 3937 0.3048 1).axes,
        .webMercator (lonR (Flt.lit 0 : F64 roundLibm).toQ) (latR 0) ⟨fin (Flt.lit 0 : F64 roundLibm).toQ⟩ ⟨fin (Flt.lit 0 : F64 roundLibm).toQ⟩⟩)
    [Flt.lit 650000, Flt.lit 5400000, Flt.lit 1000] 5e-7 := by
  obtain ⟨f1, q1, f2, q2, f3, q3⟩ := lits_fin
  obtain ⟨⟨i1, v1⟩, i2, v2⟩ := utm_lits
  have a1 : (6000000 : ℝ) ≤ (GeodeticDatum.consts.WGS84 : GeodeticDatum (F64 roundLibm)).ellipsoid.a.m.toQ :=
    (earth_a (wgs84_earthSized (L := roundLibm))).1
  have z : (B64.lit 0).isFinite = true ∧ (B64.lit 0).toQ = 0 := by decide +kernel
  have z' : ((F64.toQ (L := roundLibm) (B64.lit 0) : ℚ) : ℝ) = 0 := by
    show (((B64.lit 0).toQ : ℚ) : ℝ) = 0
    rw [z.2]; norm_num
  have r : reals [(Flt.lit 650000 : F64 roundLibm), Flt.lit 5400000, Flt.lit 1000] = [650000, 5400000, 1000] := by
    show [(((B64.lit 650000).toQ : ℚ) : ℝ), (((B64.lit 5400000).toQ : ℚ) : ℝ), (((B64.lit 1000).toQ : ℚ) : ℝ)] = _
    rw [v1, v2, q3]; norm_num
  refine .projected wgs84_earthSized greenwich_inLonRange (.eastNorthUp us_ft_unit ft_unit) (.mk ?_ ?_ ?_ ?_ ?_)
    (.webMercator ⟨z.1, ?_⟩ z.1 z.1 ?_ ?_ _ _) _ _ _
  · rfl
  · intro x hx
    simp only [List.mem_cons, List.not_mem_nil, or_false] at hx
    rcases hx with rfl | rfl | rfl
    · exact i1
    · exact i2
    · exact f3
  · rw [r]; show |(650000 : ℝ) * (1200 / 3937)| ≤ 100000000; norm_num
  · rw [r]; show |(5400000 : ℝ) * (1200 / 3937)| ≤ 100000000; norm_num
  · rw [r]; show |(1000 : ℝ) * (0.3048 / 1)| ≤ 10000000; norm_num
  · show |(B64.lit 0).toQ| ≤ (Flt.pi : F64 roundLibm).toQ
    rw [z.2, show (Flt.pi : F64 roundLibm).toQ = B64.pi.toQ from rfl, pi_fin.2]; norm_num
  · rw [r, z']; show |(650000 : ℝ) * (1200 / 3937) - 0| ≤ _; norm_num; linarith
  · rw [r, z']; show |(5400000 : ℝ) * (1200 / 3937) - 0| ≤ _; norm_num; linarith

end Geo
