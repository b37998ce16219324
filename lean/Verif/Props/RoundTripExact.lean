import Verif.Props.TransformationsExact
import Verif.Props.TransformAny
import Verif.Props.TransverseMercatorExact

/-! # C44: from a CRS to another and back, in exact arithmetic -/

namespace Geo
open XR Spec

/-- High enough above the centre of the ellipsoid for `xyz_to_llh` to find the position again (C27, C29):
`h > -(1 - 2e²) N`, with `e² = 1 - b²/a²` and `N` the radius of curvature in the prime vertical. -/
def HighEnough (a b φ h : ℝ) : Prop :=
  -((1 - 2 * (1 - b ^ 2 / a ^ 2)) * (a / Real.sqrt (1 - (1 - b ^ 2 / a ^ 2) * Real.sin φ ^ 2))) < h

/-- On Earth-like ellipsoids, everything above -6 000 000 m is high enough. -/
theorem earth_high (φ h : ℝ) (hh : -6000000 < h) : HighEnough 6378137 6356752 φ h := by
  unfold HighEnough
  refine lt_of_le_of_lt ?_ hh
  have hs : 0 ≤ Real.sin φ ^ 2 := sq_nonneg _
  have hw : 0 < 1 - (1 - (6356752:ℝ) ^ 2 / 6378137 ^ 2) * Real.sin φ ^ 2 := by nlinarith [Real.sin_sq_le_one φ]
  have h1 : Real.sqrt (1 - (1 - (6356752:ℝ) ^ 2 / 6378137 ^ 2) * Real.sin φ ^ 2) ≤ 1 := by
    rw [Real.sqrt_le_left (by norm_num)]; nlinarith
  have h2 : (6378137:ℝ) ≤ 6378137 / Real.sqrt (1 - (1 - (6356752:ℝ) ^ 2 / 6378137 ^ 2) * Real.sin φ ^ 2) := by
    rw [le_div_iff₀ (Real.sqrt_pos.2 hw)]; nlinarith
  nlinarith

theorem datum_from_llh {a b : ℝ} (hb : 0 < b) (hab : b ≤ a) (id n pn : String) (l0 l φ h : ℝ)
    (h1 : -(Real.pi / 2) ≤ φ) (h2 : φ ≤ Real.pi / 2) (hh : HighEnough a b φ h) :
    ∃ l', (dat id n pn a b l0).xyzToLlh ((dat id n pn a b l0).llhToXyz (llh l φ h)) = llh l' φ h ∧
      -Real.pi ≤ l' ∧ l' ≤ Real.pi ∧ (Real.cos φ ≠ 0 → SameDirection l' l) := by
  rcases lt_or_eq_of_le hab with hlt | heq
  · refine C27_round_trip_heights hb hlt id n pn l0 l φ h h1 h2 (ell_N hb hab n φ) ?_
    unfold HighEnough at hh
    rw [show (1 - b ^ 2 / a ^ 2) = ecc2 a b by linarith [one_sub_ecc2 hb hab]] at hh ⊢
    exact hh
  · subst heq
    refine C29_llh_round_trip hb id n pn l0 l φ h h1 h2 ?_
    unfold HighEnough at hh
    rw [div_self (pow_ne_zero 2 hb.ne')] at hh
    simpa using hh

theorem datum_from_xyz {a b : ℝ} (hb : 0 < b) (hab : b ≤ a) (id n pn : String) (l0 x y z : ℝ)
    (hd : b < a → Convertible a b x y z) :
    ∃ l φ h, (dat id n pn a b l0).xyzToLlh (xyz x y z) = llh l φ h ∧
      (dat id n pn a b l0).llhToXyz (llh l φ h) = xyz x y z ∧
      -Real.pi ≤ l ∧ l ≤ Real.pi ∧ -(Real.pi / 2) ≤ φ ∧ φ ≤ Real.pi / 2 ∧
      (¬ (x = 0 ∧ y = 0) → -(Real.pi / 2) < φ ∧ φ < Real.pi / 2) := by
  have main : ∃ l φ h, (dat id n pn a b l0).xyzToLlh (xyz x y z) = llh l φ h ∧
      (dat id n pn a b l0).llhToXyz (llh l φ h) = xyz x y z ∧
      -Real.pi ≤ l ∧ l ≤ Real.pi ∧ -(Real.pi / 2) ≤ φ ∧ φ ≤ Real.pi / 2 := by
    rcases lt_or_eq_of_le hab with hlt | heq
    · obtain ⟨l, φ, h, hres, r1, r2, r3, r4, _, hg⟩ := xyzToLlh_fin hb hlt id n pn l0 x y z (hd hlt)
      exact ⟨l, φ, h, hres, by rw [llhToXyz_fin hb hlt, hg], r1, r2, r3, r4⟩
    · subst heq
      have h3 := abs_le.1 ((Complex.abs_arg_le_pi_div_two_iff (z := ⟨Real.sqrt (x ^ 2 + y ^ 2), z⟩)).2
        (Real.sqrt_nonneg _))
      refine ⟨_, _, _, xyzToLlh_sphere hb id n pn l0 x y z, ?_, (Complex.neg_pi_lt_arg _).le, Complex.arg_le_pi _,
        h3.1, h3.2⟩
      rw [← xyzToLlh_sphere hb id n pn l0 x y z, C29_xyz_round_trip hb]
  obtain ⟨l, φ, h, e1, e2, r1, r2, r3, r4⟩ := main
  refine ⟨l, φ, h, e1, e2, r1, r2, r3, r4, fun hne => ?_⟩
  have hc : Real.cos φ ≠ 0 := by
    intro hc
    apply hne
    rw [llhToXyz_all hb hab] at e2
    simp only [geo, xyz, hc, mul_zero, zero_mul, XYZ.mk.injEq, Length.mk.injEq, fin_inj] at e2
    exact ⟨e2.1.symm, e2.2.1.symm⟩
  constructor
  · refine lt_of_le_of_ne r3 fun he => hc ?_
    rw [← he, Real.cos_neg, Real.cos_pi_div_two]
  · refine lt_of_le_of_ne r4 fun he => hc ?_
    rw [he, Real.cos_pi_div_two]

theorem llhToXyz_congr {a b : ℝ} (hb : 0 < b) (hab : b ≤ a) (id n pn : String) (l0 φ h : ℝ) {l l' : ℝ}
    (hs : SameDirection l' l) :
    (dat id n pn a b l0).llhToXyz (llh l' φ h) = (dat id n pn a b l0).llhToXyz (llh l φ h) := by
  rw [llhToXyz_all hb hab, llhToXyz_all hb hab]
  have he : SameDirection (effLon a b l0 l') (effLon a b l0 l) := by
    unfold effLon
    split
    · exact hs.add (SameDirection.refl l0)
    · exact hs
  simp only [geo, he.cos, he.sin]

theorem llhToXyz_xyz {a b : ℝ} (hb : 0 < b) (hab : b ≤ a) (id n pn : String) (l0 l φ h : ℝ) :
    ∃ x y z, (dat id n pn a b l0).llhToXyz (llh l φ h) = xyz x y z :=
  ⟨_, _, _, llhToXyz_all hb hab id n pn l0 l φ h⟩

/-! ### The projections that invert exactly -/

/-- The projections of the crate without a series: Web Mercator, and Mercator on a sphere, with the half width of their
image. -/
inductive Cylindrical (n : String) (a b : ℝ) : ProjectionSpec XR → (E0 K : ℝ) → Prop
  | web (l0 : ℝ) (lat0 : Lat XR) (fe fn : ℝ) :
      Cylindrical n a b (.webMercator (lonR l0) lat0 ⟨fin fe⟩ ⟨fin fn⟩) fe a
  | merc1 (hs : a = b) (l0 k0 fe fn : ℝ) (hk : 0 < k0) :
      Cylindrical n a b (.mercator1SP (lonR l0) (fin k0) ⟨fin fe⟩ ⟨fin fn⟩) fe (k0 * a)
  | merc2 (hs : a = b) (l0 φ1 fe fn : ℝ) (h1 : -(Real.pi / 2) < φ1) (h2 : φ1 < Real.pi / 2) :
      Cylindrical n a b (.mercator2SP (lonR l0) (latR φ1) ⟨fin fe⟩ ⟨fin fn⟩) fe (Real.cos φ1 * a)

/-- What the round trip uses of a projection. -/
structure ExactProj (p : Projection XR) (E0 K : ℝ) : Prop where
  fwd : ∀ l φ h, -(Real.pi / 2) < φ → φ < Real.pi / 2 → ∃ E N l', p.proj (llh l φ h) = .ok (enh E N h) ∧
    p.unproj (enh E N h) = .ok (llh l' φ h) ∧ SameDirection l' l
  bwd : ∀ E N h, -(Real.pi * K) < E - E0 → E - E0 ≤ Real.pi * K → ∃ l φ, p.unproj (enh E N h) = .ok (llh l φ h) ∧
    -(Real.pi / 2) < φ ∧ φ < Real.pi / 2 ∧ ∀ l', SameDirection l' l → p.proj (llh l' φ h) = .ok (enh E N h)

theorem webMerc_exact (n : String) {a : ℝ} (ha : 0 < a) (b l0 : ℝ) (lat0 : Lat XR) (fe fn : ℝ) :
    ExactProj (webMerc n a b l0 lat0 fe fn) fe a where
  fwd l φ h h1 h2 := by
    obtain ⟨E, N, l', e1, e2, _, _, e3, _⟩ := C32_unproj_proj n ha b l0 lat0 fe fn l φ h h1 h2
    exact ⟨E, N, l', e1, e2, e3⟩
  bwd E N h h1 h2 := by
    obtain ⟨l, φ, e1, _, _, g1, g2, e2⟩ := C32_proj_unproj n ha b l0 lat0 fe fn E N h h1 h2
    refine ⟨l, φ, e1, g1, g2, fun l' hl => ?_⟩
    rw [← e2, webMerc_proj n a b l0 lat0 fe fn l' φ h g1 g2, webMerc_proj n a b l0 lat0 fe fn l φ h g1 g2,
      normR_congr (hl.sub (SameDirection.refl l0))]

theorem merc_exact {n : String} {r l0 fe fn k : ℝ} (hr : 0 < r) {p : Projection XR}
    (hp : IsMercator n r r l0 fe fn k p) : ExactProj p fe (k * r) where
  fwd l φ h h1 h2 := by
    obtain ⟨E, N, l', e1, e2, _, _, e3, _⟩ := C34_sphere hr hp l φ h h1 h2
    exact ⟨E, N, l', e1, e2, e3⟩
  bwd E N h h1 h2 := by
    obtain ⟨l, φ, e1, g1, g2, e2⟩ := C34_sphere_unproj_proj hr hp E N h h1 h2
    refine ⟨l, φ, e1, g1, g2, fun l' hl => ?_⟩
    rw [← e2, hp.proj hr le_rfl l' φ h g1 g2, hp.proj hr le_rfl l φ h g1 g2,
      normR_congr (hl.sub (SameDirection.refl l0))]

theorem Cylindrical.exact {n : String} {a b : ℝ} (ha : 0 < a) {spec : ProjectionSpec XR} {E0 K : ℝ}
    (h : Cylindrical n a b spec E0 K) : ExactProj (spec.appliedTo (ell n a b)) E0 K := by
  cases h with
  | web l0 lat0 fe fn => exact webMerc_exact n ha b l0 lat0 _ fn
  | merc1 hs l0 k0 fe fn hk => subst hs; exact merc_exact ha (.oneSP k0 hk)
  | merc2 hs l0 φ1 fe fn h1 h2 =>
    subst hs
    have := merc_exact ha (.twoSP φ1 h1 h2 : IsMercator n a a l0 E0 fn _ _)
    rw [div_self (pow_ne_zero 2 ha.ne')] at this
    simpa [Geo.merc2] using this

/-! ### Domains -/

/-- Coordinates `c` of a position the CRS can express again after a trip through geocentric coordinates. -/
inductive Reads : AnyCrs XR → List ℝ → Prop
  | geocentric (crs : GeocentricCrs XR) (x y z : ℝ) : Reads (.geocentric crs) [x, y, z]
  | geographic {a b : ℝ} (hb : 0 < b) (hab : b ≤ a) (cid id n pn : String) (l0 : ℝ) (s : GeodeticSystem)
      (hv : s.Valid) (c : List ℝ) (hc : s.Fits c) (h1 : -Real.pi < s.lonOf c) (h2 : s.lonOf c < Real.pi)
      (h3 : -(Real.pi / 2) < s.latOf c) (h4 : s.latOf c < Real.pi / 2) (hh : HighEnough a b (s.latOf c) (s.heightOf c)) :
      Reads (.geographic ⟨cid, dat id n pn a b l0, s.axes⟩) c
  | projected {a b : ℝ} (hb : 0 < b) (hab : b ≤ a) (cid id n pn : String) (l0 : ℝ) (s : ProjectedSystem)
      (hv : s.Valid) (spec : ProjectionSpec XR) {E0 K : ℝ} (hp : Cylindrical n a b spec E0 K) (c : List ℝ)
      (hc : s.Fits c) (h1 : -(Real.pi * K) < s.eastOf c - E0) (h2 : s.eastOf c - E0 ≤ Real.pi * K) {l φ h : ℝ}
      (hu : (spec.appliedTo (ell n a b)).unproj (enh (s.eastOf c) (s.northOf c) (s.heightOf c)) = .ok (llh l φ h))
      (hh : HighEnough a b φ h) :
      Reads (.projected ⟨cid, dat id n pn a b l0, s.axes, spec⟩) c

/-- Geocentric positions the CRS can express: it has a height axis, the datum can convert the position (C28, C29), and
it is off the polar axis for a projected CRS. -/
inductive Writes : AnyCrs XR → ℝ → ℝ → ℝ → Prop
  | geocentric (crs : GeocentricCrs XR) (x y z : ℝ) : Writes (.geocentric crs) x y z
  | geographic {a b : ℝ} (hb : 0 < b) (hab : b ≤ a) (cid id n pn : String) (l0 : ℝ) (s : GeodeticSystem)
      (hv : s.Valid) (h3 : s.Is3D) (x y z : ℝ) (hd : b < a → Convertible a b x y z) :
      Writes (.geographic ⟨cid, dat id n pn a b l0, s.axes⟩) x y z
  | projected {a b : ℝ} (hb : 0 < b) (hab : b ≤ a) (cid id n pn : String) (l0 : ℝ) (s : ProjectedSystem)
      (hv : s.Valid) (h3 : s.Is3D) (spec : ProjectionSpec XR) {E0 K : ℝ} (hp : Cylindrical n a b spec E0 K)
      (x y z : ℝ) (hd : b < a → Convertible a b x y z) (haxis : ¬ (x = 0 ∧ y = 0)) :
      Writes (.projected ⟨cid, dat id n pn a b l0, s.axes, spec⟩) x y z

/-- Coordinates `c` and the geocentric position `x, y, z` convert to each other. -/
def Represents (crs : AnyCrs XR) (c : List ℝ) (x y z : ℝ) : Prop :=
  crs.toXYZ.toXyz (c.map fin) = .ok (xyz x y z) ∧
    ∀ buf : List XR, buf.length = crs.dim → crs.toXYZ.fromXyz (xyz x y z) buf = .ok (c.map fin)

theorem Reads.represents {crs : AnyCrs XR} {c : List ℝ} (h : Reads crs c) : ∃ x y z, Represents crs c x y z := by
  cases h with
  | geocentric crs x y z =>
    exact ⟨x, y, z, (C16_geocentric x y z crs.axes [0, 0, 0] rfl).2, fun buf hbuf => (C16_geocentric x y z crs.axes buf hbuf).1⟩
  | @geographic a b hb hab cid id n pn l0 s hv _ hc h1 h2 h3 h4 hh =>
    have hn := geodetic_normalize_fin s hv c hc
    rw [remR_id h1.le h2.le, clampR_id h3.le h4.le] at hn
    obtain ⟨x, y, z, e⟩ := llhToXyz_xyz hb hab id n pn l0 (s.lonOf c) (s.latOf c) (s.heightOf c)
    refine ⟨x, y, z, ?_, fun buf hbuf => ?_⟩
    · simp only [AnyCrs.toXYZ, GeographicCrs.toXyzTransformation, hn]
      exact congrArg Except.ok e
    · obtain ⟨l', r, q1, q2, q3⟩ := datum_from_llh hb hab id n pn l0 (s.lonOf c) (s.latOf c) (s.heightOf c) h3.le h4.le hh
      have hl : l' = s.lonOf c := same_open q1 q2 h1 h2 (q3 (cos_pos_of_lat h3 h4).ne')
      rw [e] at r
      obtain ⟨p, g1, g2⟩ := C14_denormalize_normalize s hv c hc h1.le h2.le h3.le h4.le buf hbuf
      rw [hn] at g1
      cases g1
      simp only [AnyCrs.toXYZ, GeographicCrs.toXyzTransformation]
      rw [r, hl, g2]
  | @projected a b hb hab cid id n pn l0 s hv spec E0 K hp _ hc h1 h2 l φ h hu hh =>
    have hx := hp.exact (lt_of_lt_of_le hb hab)
    have hn := C16_projected_normalize s hv c hc
    obtain ⟨l₁, φ₁, e1, g1, g2, e2⟩ := hx.bwd _ (s.northOf c) (s.heightOf c) h1 h2
    rw [e1] at hu
    simp only [llh, Except.ok.injEq, LLH.mk.injEq, Lon.mk.injEq, Lat.mk.injEq, Angle.mk.injEq, Length.mk.injEq,
      fin_inj] at hu
    obtain ⟨rfl, rfl, rfl⟩ := hu
    obtain ⟨x, y, z, e⟩ := llhToXyz_xyz hb hab id n pn l0 l₁ φ₁ (s.heightOf c)
    refine ⟨x, y, z, ?_, fun buf hbuf => ?_⟩
    · simp only [AnyCrs.toXYZ, ProjectedCrs.toXyzTransformation, hn]
      show (do let llh ← (spec.appliedTo (ell n a b)).unproj _; pure _) = _
      rw [e1]
      exact congrArg Except.ok e
    · obtain ⟨l', r, q1, q2, q3⟩ := datum_from_llh hb hab id n pn l0 l₁ φ₁ (s.heightOf c) g1.le g2.le hh
      rw [e] at r
      obtain ⟨p, k1, k2⟩ := C16_projected_denormalize_normalize s hv c hc buf hbuf
      rw [hn] at k1
      cases k1
      simp only [AnyCrs.toXYZ, ProjectedCrs.toXyzTransformation]
      rw [r]
      show (do let enh ← (spec.appliedTo (ell n a b)).proj _; _) = _
      rw [e2 l' (q3 (cos_pos_of_lat g1 g2).ne')]
      exact k2

theorem Writes.represents {crs : AnyCrs XR} {x y z : ℝ} (h : Writes crs x y z) : ∃ c, Represents crs c x y z := by
  cases h with
  | geocentric crs x y z =>
    exact ⟨[x, y, z], (C16_geocentric x y z crs.axes [0, 0, 0] rfl).2,
      fun buf hbuf => (C16_geocentric x y z crs.axes buf hbuf).1⟩
  | @geographic a b hb hab cid id n pn l0 s hv h3 _ _ _ hd =>
    obtain ⟨l, φ, h, e1, e2, r1, r2, r3, r4, _⟩ := datum_from_xyz hb hab id n pn l0 x y z hd
    obtain ⟨c, hc, _, k1, k2, k3, _⟩ := geodetic_denormalize_fin s hv l φ h (List.replicate s.axes.dim 0) (by simp)
    have hn := geodetic_normalize_fin s hv c hc
    rw [k1, k2, k3 h3, remR_id r1 r2, clampR_id r3 r4] at hn
    refine ⟨c, ?_, fun buf hbuf => ?_⟩
    · simp only [AnyCrs.toXYZ, GeographicCrs.toXyzTransformation, hn]
      exact congrArg Except.ok e2
    · obtain ⟨p, g1, g2⟩ := C14_denormalize_normalize s hv c hc (by rw [k1]; exact r1) (by rw [k1]; exact r2)
        (by rw [k2]; exact r3) (by rw [k2]; exact r4) buf hbuf
      rw [hn] at g1
      cases g1
      simp only [AnyCrs.toXYZ, GeographicCrs.toXyzTransformation]
      rw [e1, g2]
  | @projected a b hb hab cid id n pn l0 s hv h3 spec E0 K hp _ _ _ hd haxis =>
    have hx := hp.exact (lt_of_lt_of_le hb hab)
    obtain ⟨l, φ, h, e1, e2, r1, r2, _, _, hs⟩ := datum_from_xyz hb hab id n pn l0 x y z hd
    obtain ⟨r3, r4⟩ := hs haxis
    obtain ⟨E, N, l', p1, p2, p3⟩ := hx.fwd l φ h r3 r4
    obtain ⟨c, hc, _, k1, k2, k3, _⟩ := projected_denormalize_fin s hv E N h (List.replicate s.axes.dim 0) (by simp)
    have hn := C16_projected_normalize s hv c hc
    rw [k1, k2, k3 h3] at hn
    refine ⟨c, ?_, fun buf hbuf => ?_⟩
    · simp only [AnyCrs.toXYZ, ProjectedCrs.toXyzTransformation, hn]
      show (do let llh ← (spec.appliedTo (ell n a b)).unproj _; pure _) = _
      rw [p2]
      exact congrArg Except.ok ((llhToXyz_congr hb hab id n pn l0 φ h p3).trans e2)
    · obtain ⟨p, g1, g2⟩ := C16_projected_denormalize_normalize s hv c hc buf hbuf
      rw [hn] at g1
      cases g1
      simp only [AnyCrs.toXYZ, ProjectedCrs.toXyzTransformation]
      rw [e1]
      show (do let enh ← (spec.appliedTo (ell n a b)).proj _; _) = _
      rw [p1]
      exact g2

/-! ### C44 -/

/-- The datum shifts of the claim, with the vector from the datum to the reference. -/
inductive IsShift : XYZTransformation XR → ℝ → ℝ → ℝ → Prop
  | identity : IsShift XYZIdentity 0 0 0
  | translation (a b c : ℝ) : IsShift (GeocentricTranslation.toTransformation ⟨⟨fin a⟩, ⟨fin b⟩, ⟨fin c⟩⟩) a b c

theorem IsShift.eq {t : XYZTransformation XR} {a b c : ℝ} (h : IsShift t a b c) (x y z : ℝ) :
    t.toRef (xyz x y z) = xyz (x + a) (y + b) (z + c) ∧ t.fromRef (xyz x y z) = xyz (x - a) (y - b) (z - c) := by
  cases h with
  | identity => simp [XYZIdentity]
  | translation => exact ⟨rfl, rfl⟩

/-- **C44**: from any CRS of the three kinds to any other, with identity or translation datum shifts: coordinates in the
domain of the source have a geocentric position; if the destination covers it (moved by the shifts), `fwd` gives
coordinates and `bwd` brings them back exactly. -/
theorem C44_round_trip (src dst : AnyCrs XR) (s d : XYZTransformation XR) {s1 s2 s3 d1 d2 d3 : ℝ}
    (hs : IsShift s s1 s2 s3) (hd : IsShift d d1 d2 d3) (c : List ℝ) (hc : Reads src c) :
    ∃ x y z, src.toXYZ.toXyz (c.map fin) = .ok (xyz x y z) ∧
      (Writes dst (x + s1 - d1) (y + s2 - d2) (z + s3 - d3) →
        ∀ buf buf' : List XR, buf.length = dst.dim → buf'.length = src.dim →
        ∃ c' : List ℝ, (CrsXYZTransformation.new src.toXYZ dst.toXYZ s d).fwd (c.map fin) buf = .ok (c'.map fin) ∧
          (CrsXYZTransformation.new src.toXYZ dst.toXYZ s d).bwd (c'.map fin) buf' = .ok (c.map fin)) := by
  obtain ⟨x, y, z, h1, h2⟩ := hc.represents
  refine ⟨x, y, z, h1, fun hw buf buf' hbuf hbuf' => ?_⟩
  obtain ⟨c', k1, k2⟩ := hw.represents
  refine ⟨c', ?_, ?_⟩
  · simp only [CrsXYZTransformation.fwd, CrsXYZTransformation.new, h1]
    show dst.toXYZ.fromXyz (d.fromRef (s.toRef (xyz x y z))) buf = _
    rw [(hs.eq x y z).1, (hd.eq _ _ _).2, k2 buf hbuf]
  · simp only [CrsXYZTransformation.bwd, CrsXYZTransformation.new, k1]
    show src.toXYZ.fromXyz (s.fromRef (d.toRef (xyz _ _ _))) buf' = _
    rw [(hd.eq _ _ _).1, (hs.eq _ _ _).2, sub_add_cancel, sub_add_cancel, sub_add_cancel, add_sub_cancel_right,
      add_sub_cancel_right, add_sub_cancel_right, h2 buf' hbuf']

/-- From degrees on the WGS 84 ellipsoid to Web Mercator on another ellipsoid with a translation, and back. -/
example : ∃ x y z, (AnyCrs.geographic ⟨"EPSG:4979", dat "WGS84" "WGS 84" "Greenwich" 6378137 6356752 0,
      (GeodeticSystem.northEastUp Real.pi 180 1 1).axes⟩).toXYZ.toXyz ([45, 2, 100].map fin) = .ok (xyz x y z) ∧
    (¬ (x + 10 = 0 ∧ y = 0) → ∀ buf buf' : List XR, buf.length = 3 → buf'.length = 3 →
      ∃ c' : List ℝ, (CrsXYZTransformation.new
        (AnyCrs.geographic ⟨"EPSG:4979", dat "WGS84" "WGS 84" "Greenwich" 6378137 6356752 0,
          (GeodeticSystem.northEastUp Real.pi 180 1 1).axes⟩).toXYZ
        (AnyCrs.projected ⟨"test", dat "S" "S" "Greenwich" 6370000 6370000 0,
          (ProjectedSystem.eastNorthUp 1 1 1 1).axes, .webMercator (lonR 0) (latR 0) ⟨fin 0⟩ ⟨fin 0⟩⟩).toXYZ
        XYZIdentity (GeocentricTranslation.toTransformation ⟨⟨fin (-10)⟩, ⟨fin 0⟩, ⟨fin 0⟩⟩)).fwd ([45, 2, 100].map fin) buf
          = .ok (c'.map fin) ∧
      (CrsXYZTransformation.new
        (AnyCrs.geographic ⟨"EPSG:4979", dat "WGS84" "WGS 84" "Greenwich" 6378137 6356752 0,
          (GeodeticSystem.northEastUp Real.pi 180 1 1).axes⟩).toXYZ
        (AnyCrs.projected ⟨"test", dat "S" "S" "Greenwich" 6370000 6370000 0,
          (ProjectedSystem.eastNorthUp 1 1 1 1).axes, .webMercator (lonR 0) (latR 0) ⟨fin 0⟩ ⟨fin 0⟩⟩).toXYZ
        XYZIdentity (GeocentricTranslation.toTransformation ⟨⟨fin (-10)⟩, ⟨fin 0⟩, ⟨fin 0⟩⟩)).bwd (c'.map fin) buf'
          = .ok ([45, 2, 100].map fin)) := by
  have hp := Real.pi_pos
  obtain ⟨x, y, z, h1, h2⟩ := C44_round_trip
    (AnyCrs.geographic ⟨"EPSG:4979", dat "WGS84" "WGS 84" "Greenwich" 6378137 6356752 0,
      (GeodeticSystem.northEastUp Real.pi 180 1 1).axes⟩)
    (AnyCrs.projected ⟨"test", dat "S" "S" "Greenwich" 6370000 6370000 0,
      (ProjectedSystem.eastNorthUp 1 1 1 1).axes, .webMercator (lonR 0) (latR 0) ⟨fin 0⟩ ⟨fin 0⟩⟩)
    _ _ .identity (.translation (-10) 0 0) [45, 2, 100]
    (.geographic (by norm_num) (by norm_num) _ _ _ _ _ (.northEastUp Real.pi 180 1 1)
      ⟨hp.ne', by norm_num, by norm_num, by norm_num⟩ _ rfl
      (by simp only [GeodeticSystem.lonOf]; linarith) (by simp only [GeodeticSystem.lonOf]; linarith)
      (by simp only [GeodeticSystem.latOf]; linarith) (by simp only [GeodeticSystem.latOf]; linarith)
      (earth_high _ _ (by simp only [GeodeticSystem.heightOf]; norm_num)))
  refine ⟨x, y, z, h1, fun hne buf buf' hb hb' => h2 ?_ buf buf' hb hb'⟩
  refine .projected (by norm_num) le_rfl _ _ _ _ _ (.eastNorthUp 1 1 1 1) ⟨by norm_num, by norm_num, by norm_num, by norm_num⟩
    trivial _ (.web 0 (latR 0) 0 0) _ _ _ (fun h => absurd h (lt_irrefl _)) ?_
  simpa using hne

end Geo
