import Verif.Lemmas.Datum
import Verif.Props.EllipsoidExact
import Verif.Props.AxesExact

/-!
C19 (3D geographic), C24, C26, C27, C28, C29, C30, C31: geodetic and geocentric coordinates, in exact
arithmetic.

`dat id n pn a b l0` is the datum with semi-axes `a ≥ b` (as built by `Ellipsoid::from_ab`, see `fromAb_eq`)
and a prime meridian at longitude `l0` radians from Greenwich.
-/

namespace Geo
open XR GeodeticDatum Spec
open Classical

/-- `dat` is what the constructors of the crate build. -/
theorem dat_constructed (id n pn : String) {a b l0 : ℝ} {e : Ellipsoid XR}
    (he : Ellipsoid.fromAb n ⟨fin a⟩ ⟨fin b⟩ = .ok e) (h1 : -Real.pi < l0) (h2 : l0 ≤ Real.pi) :
    (⟨id, e, PrimeMeridian.new pn (Lon.new ⟨fin l0⟩)⟩ : GeodeticDatum XR) = dat id n pn a b l0 := by
  obtain ⟨_, _, rfl⟩ := fromAb_eq he
  have : PrimeMeridian.new pn (Lon.new (⟨fin l0⟩ : Angle XR)) = ⟨pn, lonR l0⟩ := by
    rw [PrimeMeridian.new, lon_new_fin, remR_id h1.le h2]
    have : ¬ l0 ≤ -Real.pi := not_le.2 h1
    simp [Lon.normalized, Lon.le, Lon.MIN, Angle.le, Angle.M_PI, this, lonR]
  rw [this]; rfl

/-! ### C26 -/

/-- The longitude that enters the conversion: on a sphere the prime meridian is ignored (see C30). -/
noncomputable def effLon (a b l0 l : ℝ) : ℝ := if b < a then l + l0 else l

theorem llhToXyz_all {a b : ℝ} (hb : 0 < b) (hab : b ≤ a) (id n pn : String) (l0 l φ h : ℝ) :
    (dat id n pn a b l0).llhToXyz (llh l φ h) = geo a b (effLon a b l0 l) φ h := by
  rcases lt_or_eq_of_le hab with hlt | heq
  · rw [llhToXyz_fin hb hlt, effLon, if_pos hlt]
  · subst heq
    rw [llhToXyz_sphere hb, effLon, if_neg (lt_irrefl _)]

/-- **C26**: the point at height 0 is on the ellipsoid, and the point at height `h` is `h` along the outward unit
normal, whose latitude is `φ`. -/
theorem C26_on_ellipsoid_and_normal {a b : ℝ} (hb : 0 < b) (hab : b ≤ a) (id n pn : String) (l0 l φ : ℝ) :
    ∃ x y z nx ny nz : ℝ,
      (dat id n pn a b l0).llhToXyz (llh l φ 0) = xyz x y z ∧ OnEllipsoid a b x y z ∧
      OutwardNormal a b (x, y, z) (nx, ny, nz) ∧
      nz = Real.sin φ ∧ Real.sqrt (nx ^ 2 + ny ^ 2) = |Real.cos φ| ∧
      (b < a → nx = Real.cos φ * Real.cos (l + l0) ∧ ny = Real.cos φ * Real.sin (l + l0)) ∧
      ∀ h, (dat id n pn a b l0).llhToXyz (llh l φ h) = xyz (x + h * nx) (y + h * ny) (z + h * nz) ∧
        dist (point3 x y z) (point3 (x + h * nx) (y + h * ny) (z + h * nz)) = |h| := by
  have ha : 0 < a := lt_of_lt_of_le hb hab
  set μ := effLon a b l0 l with hμ
  have hw := wf_pos hb hab φ
  have hs := Real.sqrt_pos.2 hw
  have hN2 : pvr a b φ ^ 2 * wf a b φ = a ^ 2 := by
    rw [pvr, div_pow, Real.sq_sqrt hw.le]; field_simp
  have hNp : 0 < pvr a b φ := div_pos ha hs
  have hsc := Real.sin_sq_add_cos_sq φ
  have hsl := Real.sin_sq_add_cos_sq μ
  have hee := one_sub_ecc2 hb hab
  have hunit : (Real.cos φ * Real.cos μ) ^ 2 + (Real.cos φ * Real.sin μ) ^ 2 + Real.sin φ ^ 2 = 1 := by
    linear_combination Real.cos φ ^ 2 * hsl + hsc
  refine ⟨_, _, _, Real.cos φ * Real.cos μ, Real.cos φ * Real.sin μ, Real.sin φ,
    (by rw [llhToXyz_all hb hab]; rfl), ?_, ?_, rfl, ?_, ?_, ?_⟩
  · unfold OnEllipsoid
    rw [hee]
    rw [wf_eq hb hab] at hN2
    have e1 : pvr a b φ ^ 2 * (a ^ 2 * Real.cos φ ^ 2 + b ^ 2 * Real.sin φ ^ 2) = a ^ 4 := by
      field_simp at hN2; linear_combination hN2
    rw [← hμ]
    field_simp
    linear_combination b ^ 2 * e1 + pvr a b φ ^ 2 * a ^ 2 * b ^ 2 * Real.cos φ ^ 2 * hsl
  · refine ⟨hunit, a ^ 2 / pvr a b φ, by positivity, ?_, ?_, ?_⟩
    · simp only [add_zero]; field_simp; rfl
    · simp only [add_zero]; field_simp; rfl
    · simp only [add_zero, hee]; field_simp
  · rw [← Real.sqrt_sq_eq_abs]; congr 1
    linear_combination Real.cos φ ^ 2 * hsl
  · intro hlt
    rw [hμ, effLon, if_pos hlt]; exact ⟨rfl, rfl⟩
  · intro h
    constructor
    · rw [llhToXyz_all hb hab, geo, ← hμ]
      congr 1 <;> ring
    · rw [dist_point3, ← Real.sqrt_sq_eq_abs]
      congr 1
      linear_combination h ^ 2 * hunit

example : ∃ x y z : ℝ, (dat "d" "e" "g" 3 2 0).llhToXyz (llh 1 (1 / 2) 0) = xyz x y z ∧ OnEllipsoid 3 2 x y z := by
  obtain ⟨x, y, z, _, _, _, h, h', _⟩ :=
    C26_on_ellipsoid_and_normal (a := 3) (b := 2) (by norm_num) (by norm_num) "d" "e" "g" 0 1 (1 / 2)
  exact ⟨x, y, z, h, h'⟩

/-! ### C19, 3D geographic CRS -/

/-- **C19**: the distance of a 3D geographic CRS is the Euclidean distance between the geocentric positions. -/
theorem C19_geographic_3d {a b : ℝ} (hb : 0 < b) (hab : b ≤ a) (id n pn : String) (l0 : ℝ)
    (s : GeodeticSystem) (hv : s.Valid) (h3 : s.Is3D) (crs : GeographicCrs XR)
    (hax : crs.axes = s.axes) (hdat : crs.datum = dat id n pn a b l0)
    (c d : List ℝ) (hc : s.Fits c) (hd : s.Fits d) :
    ∃ pc pd x y z x' y' z', s.axes.normalize (c.map fin) = .ok pc ∧ s.axes.normalize (d.map fin) = .ok pd ∧
      (dat id n pn a b l0).llhToXyz pc = xyz x y z ∧ (dat id n pn a b l0).llhToXyz pd = xyz x' y' z' ∧
      crs.toCrs.dist (c.map fin) (d.map fin) = .ok ⟨fin (dist (point3 x y z) (point3 x' y' z'))⟩ := by
  have n1 := geodetic_normalize_fin s hv c hc
  have n2 := geodetic_normalize_fin s hv d hd
  have x1 := llhToXyz_all hb hab id n pn l0 (remR (s.lonOf c)) (clampR (s.latOf c)) (s.heightOf c)
  have x2 := llhToXyz_all hb hab id n pn l0 (remR (s.lonOf d)) (clampR (s.latOf d)) (s.heightOf d)
  refine ⟨_, _, _, _, _, _, _, _, n1, n2, x1, x2, ?_⟩
  have hdim : s.axes.dim = 3 := by
    cases s <;> first | rfl | exact h3.elim
  have e1 : (c.map fin).length = 3 := by rw [List.length_map, ← hdim]; exact hc
  have e2 : (d.map fin).length = 3 := by rw [List.length_map, ← hdim]; exact hd
  simp only [GeographicCrs.toCrs, GeographicCrs.dist, hax, hdat, hdim, e1, e2, n1, n2]
  simp [x1, x2, geo, (C19_dist_to _ _ _ _ _ _).1]

/-! ### C28, C27 -/

/-- **C28**: geocentric to geodetic and back, for every position on or outside the evolute or on the polar axis
(other than the centre and the surface where the method divides by zero). -/
theorem C28_round_trip {a b : ℝ} (hb : 0 < b) (hab : b < a) (id n pn : String) (l0 x y z : ℝ)
    (hd : Convertible a b x y z) :
    (dat id n pn a b l0).llhToXyz ((dat id n pn a b l0).xyzToLlh (xyz x y z)) = xyz x y z := by
  obtain ⟨l, φ, h, hres, _, _, _, _, _, hg⟩ := xyzToLlh_fin hb hab id n pn l0 x y z hd
  rw [hres, llhToXyz_fin hb hab, hg]

/-- **C27**: geodetic to geocentric and back, for every position whose geocentric position is convertible, on the
near side of the equatorial plane (`h > -(1 - e²) N`). -/
theorem C27_round_trip {a b : ℝ} (hb : 0 < b) (hab : b < a) (id n pn : String) (l0 l φ h : ℝ)
    (h1 : -(Real.pi / 2) ≤ φ) (h2 : φ ≤ Real.pi / 2)
    {N x y z : ℝ} (hN : (ell n a b).primeVerticalRadius (latR φ) = ⟨fin N⟩) (hh : -(b ^ 2 / a ^ 2 * N) < h)
    (hx : (dat id n pn a b l0).llhToXyz (llh l φ h) = xyz x y z) (hd : Convertible a b x y z) :
    ∃ l', (dat id n pn a b l0).xyzToLlh ((dat id n pn a b l0).llhToXyz (llh l φ h)) = llh l' φ h ∧
      -Real.pi ≤ l' ∧ l' ≤ Real.pi ∧ (Real.cos φ ≠ 0 → SameDirection l' l) := by
  rw [ell_N hb hab.le] at hN
  have hN' : N = pvr a b φ := by
    simp only [Length.mk.injEq, fin_inj] at hN; rw [← hN]; rfl
  have hgeo : geo a b (l + l0) φ h = xyz x y z := by rw [← hx, llhToXyz_fin hb hab]
  obtain ⟨l', φ', h', hres, b1, b2, c1, c2, hk, hg⟩ := xyzToLlh_fin hb hab id n pn l0 x y z hd
  have hh' : -(1 - ecc2 a b) * pvr a b φ < h := by
    rw [one_sub_ecc2 hb hab.le, ← hN']; linarith
  obtain ⟨u1, u2, u3⟩ := geo_unique hb hab c1 c2 h1 h2 hk hh' (hg.trans hgeo.symm)
  refine ⟨l', ?_, b1, b2, ?_⟩
  · rw [hx, hres, u1, u2]
  · intro hc
    rw [u1] at u3
    have := (u3 hc).sub (SameDirection.refl l0)
    simpa using this

/-- A height above `-(1 - 2 e²) N` (about -6300 km on Earth) is high enough for C27. -/
theorem convertible_of_height {a b : ℝ} (hb : 0 < b) (hab : b < a) (l φ h : ℝ)
    (hh : -(1 - 2 * ecc2 a b) * pvr a b φ < h) :
    Convertible a b ((pvr a b φ + h) * Real.cos φ * Real.cos l) ((pvr a b φ + h) * Real.cos φ * Real.sin l)
      ((pvr a b φ * (1 - ecc2 a b) + h) * Real.sin φ) := by
  have ha : 0 < a := hb.trans hab
  have he : 0 < ecc2 a b := by
    unfold ecc2
    have : 0 < a - b := by linarith
    positivity
  have he1 := ecc2_lt_one hb hab.le
  have hw := wf_pos hb hab.le φ
  have hN2 : pvr a b φ ^ 2 * wf a b φ = a ^ 2 := by
    rw [pvr, div_pow, Real.sq_sqrt hw.le]; field_simp
  have hNp : 0 < pvr a b φ := div_pos ha (Real.sqrt_pos.2 hw)
  rw [← kdomain_iff hb hab]
  set N := pvr a b φ with hN
  set e2 := ecc2 a b with he2
  set k := 1 - e2 + h / N with hk
  have hkN : k * N = N * (1 - e2) + h := by rw [hk]; field_simp
  have hke : e2 < k := by
    have : e2 * N < k * N := by rw [hkN]; linarith
    exact lt_of_mul_lt_mul_right this hNp.le
  have hk0 : 0 < k := he.trans hke
  have e1 : N + h = (k + e2) * N := by linear_combination -hkN
  have hsl := Real.sin_sq_add_cos_sq l
  have hp : pOf a ((N + h) * Real.cos φ * Real.cos l) ((N + h) * Real.cos φ * Real.sin l) =
      ((k + e2) * N * Real.cos φ) ^ 2 / a ^ 2 := by
    unfold pOf
    have : ((N + h) * Real.cos φ * Real.cos l) ^ 2 + ((N + h) * Real.cos φ * Real.sin l) ^ 2 =
        ((k + e2) * N * Real.cos φ) ^ 2 := by
      rw [e1]; linear_combination ((k + e2) * N * Real.cos φ) ^ 2 * hsl
    rw [div_mul_div_comm, Real.mul_self_sqrt (by positivity), this, pow_two a]
  have hq : qOf a b ((N * (1 - e2) + h) * Real.sin φ) = (1 - e2) * (k * N * Real.sin φ) ^ 2 / a ^ 2 := by
    unfold qOf; rw [← hkN, ← he2]; field_simp
  rw [hp, hq]
  have hsum : k ^ 2 ≤ ((k + e2) * N * Real.cos φ) ^ 2 / a ^ 2 + (1 - e2) * (k * N * Real.sin φ) ^ 2 / a ^ 2 := by
    rw [← add_div, le_div_iff₀ (by positivity), ← hN2]
    rw [wf, ← he2]
    have hsc := Real.sin_sq_add_cos_sq φ
    have hcc : Real.cos φ ^ 2 = 1 - Real.sin φ ^ 2 := by linarith
    have h3 : (k ^ 2 * (N ^ 2 * (1 - e2 * Real.sin φ ^ 2))) =
        k ^ 2 * N ^ 2 * Real.cos φ ^ 2 + (1 - e2) * (k * N * Real.sin φ) ^ 2 := by
      linear_combination (-(k ^ 2 * N ^ 2)) * hcc
    rw [h3]
    have h4 : k ^ 2 * N ^ 2 * Real.cos φ ^ 2 ≤ ((k + e2) * N * Real.cos φ) ^ 2 := by
      rw [mul_pow, mul_pow]; gcongr; linarith
    linarith
  have hgt : e2 ^ 2 < ((k + e2) * N * Real.cos φ) ^ 2 / a ^ 2 + (1 - e2) * (k * N * Real.sin φ) ^ 2 / a ^ 2 := by
    refine lt_of_lt_of_le ?_ hsum
    gcongr
  have hp0 : 0 ≤ ((k + e2) * N * Real.cos φ) ^ 2 / a ^ 2 := by positivity
  have hq0 : 0 ≤ (1 - e2) * (k * N * Real.sin φ) ^ 2 / a ^ 2 := by
    have : 0 ≤ 1 - e2 := by linarith
    positivity
  refine ⟨hgt.ne', Or.inl ?_, ?_⟩
  · have : 0 < (((k + e2) * N * Real.cos φ) ^ 2 / a ^ 2 + (1 - e2) * (k * N * Real.sin φ) ^ 2 / a ^ 2 - e2 ^ 2) / 6 := by
      linarith
    positivity
  · rintro ⟨h0, h0'⟩
    rw [h0] at hgt; linarith

/-- **C27**: in particular the round trip holds at every height above `-(1 - 2 e²) N`, `e² = 1 - b²/a²`. -/
theorem C27_round_trip_heights {a b : ℝ} (hb : 0 < b) (hab : b < a) (id n pn : String) (l0 l φ h : ℝ)
    (h1 : -(Real.pi / 2) ≤ φ) (h2 : φ ≤ Real.pi / 2)
    {N : ℝ} (hN : (ell n a b).primeVerticalRadius (latR φ) = ⟨fin N⟩)
    (hh : -((1 - 2 * (1 - b ^ 2 / a ^ 2)) * N) < h) :
    ∃ l', (dat id n pn a b l0).xyzToLlh ((dat id n pn a b l0).llhToXyz (llh l φ h)) = llh l' φ h ∧
      -Real.pi ≤ l' ∧ l' ≤ Real.pi ∧ (Real.cos φ ≠ 0 → SameDirection l' l) := by
  have hN0 := hN
  rw [ell_N hb hab.le] at hN
  have hN' : N = pvr a b φ := by
    simp only [Length.mk.injEq, fin_inj] at hN; rw [← hN]; rfl
  have hee := one_sub_ecc2 hb hab.le
  have ha : 0 < a := hb.trans hab
  have he : 0 < ecc2 a b := by
    unfold ecc2
    have : 0 < a - b := by linarith
    positivity
  have hNp : 0 < N := by rw [hN']; exact div_pos ha (Real.sqrt_pos.2 (wf_pos hb hab.le φ))
  have hh2 : -(1 - 2 * ecc2 a b) * pvr a b φ < h := by
    rw [← hN', show ecc2 a b = 1 - b ^ 2 / a ^ 2 by linarith]; linarith
  refine C27_round_trip hb hab id n pn l0 l φ h h1 h2 hN0 ?_ (llhToXyz_fin hb hab id n pn l0 l φ h)
    (convertible_of_height hb hab (l + l0) φ h hh2)
  rw [← hN'] at hh2
  rw [← hee]
  nlinarith

/-- WGS 84, any position with `h > -6 000 000 m`. -/
example (l φ h : ℝ) (h1 : -(Real.pi / 2) ≤ φ) (h2 : φ ≤ Real.pi / 2) (hh : -6000000 < h) :
    ∃ l', (dat "WGS84" "WGS 84" "Greenwich" 6378137 6356752 0).xyzToLlh
      ((dat "WGS84" "WGS 84" "Greenwich" 6378137 6356752 0).llhToXyz (llh l φ h)) = llh l' φ h ∧
      -Real.pi ≤ l' ∧ l' ≤ Real.pi ∧ (Real.cos φ ≠ 0 → SameDirection l' l) := by
  have hN := ell_N (a := 6378137) (b := 6356752) (by norm_num) (by norm_num) "WGS 84" φ
  refine C27_round_trip_heights (by norm_num) (by norm_num) "WGS84" "WGS 84" "Greenwich" 0 l φ h h1 h2 hN ?_
  obtain ⟨e, he, _⟩ := (C21_from_ab "WGS 84" 6378137 6356752).1 (by norm_num)
  obtain ⟨N, M, R, e1, _, _, e2, _⟩ := C23_bounds he φ
  obtain ⟨_, _, rfl⟩ := fromAb_eq he
  rw [e1] at hN
  simp only [Length.mk.injEq, fin_inj] at hN
  rw [← hN]
  norm_num
  nlinarith

/-! ### C31 -/

/-- **C31**, exactly: `xyz_to_llh` returns finite in-range coordinates exactly on the convertible positions; on all
others the height is NaN. -/
theorem C31_finite_exactly_on {a b : ℝ} (hb : 0 < b) (hab : b < a) (id n pn : String) (l0 x y z : ℝ) :
    (Convertible a b x y z → ∃ l φ h : ℝ, (dat id n pn a b l0).xyzToLlh (xyz x y z) = llh l φ h ∧
      -Real.pi ≤ l ∧ l ≤ Real.pi ∧ -(Real.pi / 2) ≤ φ ∧ φ ≤ Real.pi / 2) ∧
    (¬ Convertible a b x y z → ((dat id n pn a b l0).xyzToLlh (xyz x y z)).height = ⟨nan⟩) := by
  constructor
  · intro hd
    obtain ⟨l, φ, h, hres, b1, b2, c1, c2, _⟩ := xyzToLlh_fin hb hab id n pn l0 x y z hd
    exact ⟨l, φ, h, hres, b1, b2, c1, c2⟩
  · intro hd
    have ha : 0 < a := hb.trans hab
    have he : 0 < ecc2 a b := by
      unfold ecc2
      have : 0 < a - b := by linarith
      positivity
    have he1 : ecc2 a b < 1 := ecc2_lt_one hb hab.le
    have hp : 0 ≤ pOf a x y := mul_self_nonneg _
    have hq : 0 ≤ qOf a b z := by
      unfold qOf; rw [mul_assoc]; exact mul_nonneg (by linarith) (mul_self_nonneg _)
    have hval := xyzToLlh_k hb hab id n pn l0 x y z
    rw [← kdomain_iff hb hab] at hd
    rw [hval]
    rcases vermeilleK_undefined he hp hq hd with hk | ⟨hk, hq0⟩
    · simp [hk, Length.new]
    · have hz : z = 0 := by
        unfold qOf at hq0
        have h1 : 1 - ecc2 a b ≠ 0 := by linarith
        have : z / a * (z / a) = 0 := by
          rw [mul_assoc] at hq0
          exact (mul_eq_zero.1 hq0).resolve_left h1
        have := mul_self_eq_zero.1 this
        exact (div_eq_zero_iff.1 this).resolve_right ha.ne'
      subst hz
      simp only [hk, mul_fin, add_fin, zero_mul, zero_add]
      rw [div_fin _ he.ne', zero_div, hypot_fin, sub_fin, div_fin_ite, if_pos rfl, signInf_neg (by linarith)]
      have : (ninf : XR) * fin (Real.sqrt (0 ^ 2 + 0 ^ 2)) = nan := by
        show signInf (-(Real.sqrt (0 ^ 2 + 0 ^ 2))) = nan
        simp
      rw [this]
      simp [Length.new]

/-- **C31** is violated: at the centre of the Earth the height is NaN, on every (non-spherical) datum. -/
theorem C31_centre_violated {a b : ℝ} (hb : 0 < b) (hab : b < a) (id n pn : String) (l0 : ℝ) :
    ((dat id n pn a b l0).xyzToLlh (xyz 0 0 0)).height = ⟨nan⟩ := by
  apply (C31_finite_exactly_on hb hab id n pn l0 0 0 0).2
  rintro ⟨_, _, h⟩
  apply h
  refine ⟨rfl, ?_⟩
  simp; nlinarith

/-- **C31** is violated away from the centre too: on the surface `a² R² + b² z² = (a² - b²)²` (about 43 km around
the centre), for example on the polar axis. -/
theorem C31_surface_violated {a b : ℝ} (hb : 0 < b) (hab : b < a) (id n pn : String) (l0 : ℝ) :
    ((dat id n pn a b l0).xyzToLlh (xyz 0 0 ((a ^ 2 - b ^ 2) / b))).height = ⟨nan⟩ := by
  apply (C31_finite_exactly_on hb hab id n pn l0 0 0 _).2
  rintro ⟨h, _, _⟩
  apply h
  simp; field_simp

/-- **C31**, the part that holds: every position at a height above `-(1 - 2e²) N` (C27) is converted. -/
theorem C31_partial {a b : ℝ} (hb : 0 < b) (hab : b < a) (id n pn : String) (l0 x y z : ℝ)
    (hfar : (a ^ 2 - b ^ 2) ^ 2 < b ^ 2 * (x ^ 2 + y ^ 2 + z ^ 2)) :
    ∃ l φ h : ℝ, (dat id n pn a b l0).xyzToLlh (xyz x y z) = llh l φ h ∧
      -Real.pi ≤ l ∧ l ≤ Real.pi ∧ -(Real.pi / 2) ≤ φ ∧ φ ≤ Real.pi / 2 := by
  apply (C31_finite_exactly_on hb hab id n pn l0 x y z).1
  have ha : 0 < a := hb.trans hab
  have hR2 : Real.sqrt (x ^ 2 + y ^ 2) ^ 2 = x ^ 2 + y ^ 2 := Real.sq_sqrt (by positivity)
  have hgt : (a ^ 2 - b ^ 2) ^ 2 < a ^ 2 * Real.sqrt (x ^ 2 + y ^ 2) ^ 2 + b ^ 2 * z ^ 2 := by
    rw [hR2]
    have : b ^ 2 * (x ^ 2 + y ^ 2) ≤ a ^ 2 * (x ^ 2 + y ^ 2) := by gcongr
    linarith
  refine ⟨hgt.ne', Or.inl ?_, ?_⟩
  · -- power means: outside the evolute
    unfold OutsideEvolute
    set R := Real.sqrt (x ^ 2 + y ^ 2)
    have hR0 : 0 ≤ R := Real.sqrt_nonneg _
    have hc0 : 0 < a ^ 2 - b ^ 2 := by nlinarith
    set A := (a * R) ^ (2 / 3 : ℝ) with hA
    set B := (b * |z|) ^ (2 / 3 : ℝ) with hB
    set C := (a ^ 2 - b ^ 2) ^ (2 / 3 : ℝ) with hC
    have hA3 : A ^ 3 = (a * R) ^ 2 := rpow_two_thirds_cube (by positivity)
    have hB3 : B ^ 3 = (b * |z|) ^ 2 := rpow_two_thirds_cube (by positivity)
    have hC3 : C ^ 3 = (a ^ 2 - b ^ 2) ^ 2 := rpow_two_thirds_cube hc0.le
    have hA0 : 0 ≤ A := by positivity
    have hB0 : 0 ≤ B := by positivity
    by_contra hc
    push Not at hc
    have h3 : (A + B) ^ 3 < C ^ 3 := by gcongr
    rw [hC3] at h3
    have h4 : A ^ 3 + B ^ 3 ≤ (A + B) ^ 3 := by
      have : 0 ≤ 3 * A * B * (A + B) := by positivity
      nlinarith
    rw [hA3, hB3, mul_pow, mul_pow, sq_abs] at h4
    linarith
  · rintro ⟨rfl, h⟩
    have hc0 : 0 < a ^ 2 - b ^ 2 := by nlinarith
    have : (a * Real.sqrt (x ^ 2 + y ^ 2)) ^ 2 ≤ (a ^ 2 - b ^ 2) ^ 2 := by
      have := Real.sqrt_nonneg (x ^ 2 + y ^ 2)
      gcongr
    rw [mul_pow] at this
    simp at hgt
    linarith

/-! ### C29 -/

theorem polar_arg (x y : ℝ) : Real.sqrt (x ^ 2 + y ^ 2) * Real.cos (Complex.arg ⟨x, y⟩) = x ∧
    Real.sqrt (x ^ 2 + y ^ 2) * Real.sin (Complex.arg ⟨x, y⟩) = y := by
  have hn : ‖(⟨x, y⟩ : ℂ)‖ = Real.sqrt (x ^ 2 + y ^ 2) := by
    rw [Complex.norm_eq_sqrt_sq_add_sq]
  rw [← hn]
  exact ⟨Complex.norm_mul_cos_arg _, Complex.norm_mul_sin_arg _⟩

theorem xyzToLlh_sphere {r : ℝ} (hr : 0 < r) (id n pn : String) (l0 x y z : ℝ) :
    (dat id n pn r r l0).xyzToLlh (xyz x y z) =
      llh (Complex.arg ⟨x, y⟩) (Complex.arg ⟨Real.sqrt (x ^ 2 + y ^ 2), z⟩)
        (Real.sqrt (Real.sqrt (x ^ 2 + y ^ 2) ^ 2 + z ^ 2) - r) := by
  have hs : (ell n r r).isSpherical = true := by
    rw [ell_isSpherical hr le_rfl]; simp
  have h1 := Complex.neg_pi_lt_arg ⟨x, y⟩
  have h2 := Complex.arg_le_pi ⟨x, y⟩
  have h3 := abs_le.1 ((Complex.abs_arg_le_pi_div_two_iff (z := ⟨Real.sqrt (x ^ 2 + y ^ 2), z⟩)).2
    (Real.sqrt_nonneg _))
  simp only [xyzToLlh, dat, hs, xyz, if_true, sphericalXyzToLlh, atan2_fin, hypot_fin, angle_new_rad, lon_new_fin,
    lat_new_fin, remR_id h1.le h2, clampR_id h3.1 h3.2]
  have : (ell n r r).a.m = fin r := rfl
  rw [this, sub_fin, length_new_m]
  rfl

/-- **C29**: on a sphere, geocentric to geodetic and back is the identity, at every position. -/
theorem C29_xyz_round_trip {r : ℝ} (hr : 0 < r) (id n pn : String) (l0 x y z : ℝ) :
    (dat id n pn r r l0).llhToXyz ((dat id n pn r r l0).xyzToLlh (xyz x y z)) = xyz x y z := by
  rw [xyzToLlh_sphere hr, llhToXyz_sphere hr]
  obtain ⟨h1, h2⟩ := polar_arg x y
  obtain ⟨h3, h4⟩ := polar_arg (Real.sqrt (x ^ 2 + y ^ 2)) z
  unfold geo
  rw [pvr_self, ecc2_self]
  have e1 : ∀ t : ℝ, r + (t - r) = t := fun t => by ring
  rw [e1, h3, h1, h2, sub_zero, mul_one, e1, h4]

/-- **C29**: on a sphere, geodetic to geocentric and back gives the same latitude and height, and the same
longitude up to whole turns off the poles, at every position above the centre. -/
theorem C29_llh_round_trip {r : ℝ} (hr : 0 < r) (id n pn : String) (l0 l φ h : ℝ)
    (h1 : -(Real.pi / 2) ≤ φ) (h2 : φ ≤ Real.pi / 2) (hh : -r < h) :
    ∃ l', (dat id n pn r r l0).xyzToLlh ((dat id n pn r r l0).llhToXyz (llh l φ h)) = llh l' φ h ∧
      -Real.pi ≤ l' ∧ l' ≤ Real.pi ∧ (Real.cos φ ≠ 0 → SameDirection l' l) := by
  rw [llhToXyz_sphere hr]
  unfold geo
  rw [xyzToLlh_sphere hr, pvr_self, ecc2_self]
  have hd : 0 < r + h := by linarith
  have hcos : 0 ≤ Real.cos φ := Real.cos_nonneg_of_mem_Icc ⟨h1, h2⟩
  have hsl := Real.sin_sq_add_cos_sq l
  have hsc := Real.sin_sq_add_cos_sq φ
  have hR : Real.sqrt (((r + h) * Real.cos φ * Real.cos l) ^ 2 + ((r + h) * Real.cos φ * Real.sin l) ^ 2) =
      (r + h) * Real.cos φ := by
    rw [show ((r + h) * Real.cos φ * Real.cos l) ^ 2 + ((r + h) * Real.cos φ * Real.sin l) ^ 2 =
      ((r + h) * Real.cos φ) ^ 2 by linear_combination ((r + h) * Real.cos φ) ^ 2 * hsl]
    exact Real.sqrt_sq (by positivity)
  rw [hR]
  simp only [sub_zero, mul_one]
  have hpi := Real.pi_pos
  have harg : Complex.arg ⟨(r + h) * Real.cos φ, (r + h) * Real.sin φ⟩ = φ := by
    refine Eq.trans ?_ (Complex.arg_mul_cos_add_sin_mul_I hd (θ := φ) ⟨by linarith, by linarith⟩)
    congr 1
    apply Complex.ext <;> simp [Complex.cos_ofReal_re, Complex.sin_ofReal_re]
  have hH : Real.sqrt (((r + h) * Real.cos φ) ^ 2 + ((r + h) * Real.sin φ) ^ 2) = r + h := by
    rw [show ((r + h) * Real.cos φ) ^ 2 + ((r + h) * Real.sin φ) ^ 2 = (r + h) ^ 2 by
      linear_combination (r + h) ^ 2 * hsc]
    exact Real.sqrt_sq hd.le
  rw [harg, hH]
  refine ⟨_, by rw [add_sub_cancel_left], (Complex.neg_pi_lt_arg _).le, Complex.arg_le_pi _, ?_⟩
  intro hc
  obtain ⟨p1, p2⟩ := polar_arg ((r + h) * Real.cos φ * Real.cos l) ((r + h) * Real.cos φ * Real.sin l)
  rw [hR] at p1 p2
  have hne : (r + h) * Real.cos φ ≠ 0 := by positivity
  exact SameDirection.of_cos_sin (mul_left_cancel₀ hne p1) (mul_left_cancel₀ hne p2)

example : (0 : ℝ) < 6371000 ∧ -(Real.pi / 2) ≤ Real.pi / 4 ∧ Real.pi / 4 ≤ Real.pi / 2 ∧ (-6371000 : ℝ) < 100 := by
  have := Real.pi_pos
  refine ⟨by norm_num, by linarith, by linarith, by norm_num⟩

/-! ### C30 -/

/-- **C30** on ellipsoids that are not spheres: the prime meridian is added to the longitude, and subtracted by the
inverse conversion. -/
theorem C30_shift_partial {a b : ℝ} (hb : 0 < b) (hab : b < a) (id n pn pn' : String) (l0 : ℝ) :
    (∀ l φ h, (dat id n pn a b l0).llhToXyz (llh l φ h) = (dat id n pn' a b 0).llhToXyz (llh (l + l0) φ h)) ∧
    (∀ x y z l φ h, (dat id n pn' a b 0).xyzToLlh (xyz x y z) = llh l φ h →
      ∃ l', (dat id n pn a b l0).xyzToLlh (xyz x y z) = llh l' φ h ∧ WrapsTo l' (l - l0)) := by
  constructor
  · intro l φ h
    rw [llhToXyz_fin hb hab, llhToXyz_fin hb hab, add_zero]
  · intro x y z l φ h hres
    have hv1 := xyzToLlh_k hb hab id n pn l0 x y z
    have hv2 := xyzToLlh_k hb hab id n pn' 0 x y z
    rw [hres] at hv2
    have hlon := congrArg LLH.lon hv2
    have hlat := congrArg LLH.lat hv2
    have hht := congrArg LLH.height hv2
    simp only [llh, lonR, Lon.mk.injEq, Angle.mk.injEq, fin_inj, sub_zero] at hlon hlat hht
    rw [remR_id (le_remR _) (remR_le _)] at hlon
    refine ⟨remR (l - l0), ?_, remR_wraps _⟩
    rw [hv1, ← hlon]
    simp only [llh, lonR, ← hlat, ← hht]

/-- Paris on WGS 84: a position converted with the Greenwich datum. -/
example : ∃ l φ h : ℝ, (dat "d" "WGS 84" "Greenwich" 6378137 6356752 0).xyzToLlh (xyz 6378137 0 0) = llh l φ h := by
  obtain ⟨l', h, _⟩ := C27_round_trip_heights (a := 6378137) (b := 6356752) (by norm_num) (by norm_num) "d" "WGS 84"
    "Greenwich" 0 0 0 0 (by have := Real.pi_pos; linarith) (by have := Real.pi_pos; linarith)
    (ell_N (by norm_num) (by norm_num) "WGS 84" 0) (by norm_num [wf, ecc2])
  refine ⟨l', 0, 0, ?_⟩
  rw [← h, llhToXyz_fin (by norm_num) (by norm_num)]
  norm_num [geo, pvr, wf, ecc2]

/-- **C30** on a sphere: the prime meridian is ignored by both conversions. -/
theorem C30_sphere_ignores_prime_meridian {r : ℝ} (hr : 0 < r) (id n pn pn' : String) (l0 l0' : ℝ) :
    (∀ l φ h, (dat id n pn r r l0).llhToXyz (llh l φ h) = (dat id n pn' r r l0').llhToXyz (llh l φ h)) ∧
    (∀ x y z, (dat id n pn r r l0).xyzToLlh (xyz x y z) = (dat id n pn' r r l0').xyzToLlh (xyz x y z)) := by
  constructor
  · intro l φ h
    rw [llhToXyz_sphere hr, llhToXyz_sphere hr]
  · intro x y z
    rw [xyzToLlh_sphere hr, xyzToLlh_sphere hr]

/-- **C30** is therefore violated on a sphere: with a prime meridian 90° east of Greenwich, the origin of
coordinates is converted to the point at Greenwich's longitude, not at 90° east. -/
theorem C30_sphere_violated :
    (dat "d" "sphere" "p" 1 1 (Real.pi / 2)).llhToXyz (llh 0 0 0) = xyz 1 0 0 ∧
    (dat "d" "sphere" "Greenwich" 1 1 0).llhToXyz (llh (0 + Real.pi / 2) 0 0) = xyz 0 1 0 ∧
    xyz 1 0 0 ≠ xyz 0 1 0 := by
  refine ⟨?_, ?_, ?_⟩
  · rw [llhToXyz_sphere one_pos]; simp [geo, pvr_self]
  · rw [llhToXyz_sphere one_pos]; simp [geo, pvr_self]
  · simp [xyz]

/-! ### C24 -/

theorem reduced_fin {a b : ℝ} (hb : 0 < b) (hab : b ≤ a) (n : String) {φ : ℝ} (hc : Real.cos φ ≠ 0) :
    (ell n a b).reducedLatitude (latR φ) = ⟨fin (Real.arctan (b / a * Real.tan φ))⟩ := by
  have ha : 0 < a := lt_of_lt_of_le hb hab
  simp only [Ellipsoid.reducedLatitude, ell_f hb hab, latR, Lat.tan, Angle.tan, tan_fin hc, one_eq, sub_fin, mul_fin,
    atan_fin, angle_new_rad]
  have : 1 - (a - b) / a = b / a := by field_simp; ring
  rw [this]

theorem geocentric_fin {a b : ℝ} (hb : 0 < b) (hab : b ≤ a) (n : String) {φ : ℝ} (hc : Real.cos φ ≠ 0) :
    (ell n a b).geocentricLatitude (latR φ) = ⟨fin (Real.arctan (b ^ 2 / a ^ 2 * Real.tan φ))⟩ := by
  simp only [Ellipsoid.geocentricLatitude, ell_eSq hb hab, latR, Lat.tan, Angle.tan, tan_fin hc, one_eq, sub_fin,
    mul_fin, atan_fin, angle_new_rad, one_sub_ecc2 hb hab]

/-- **C24**: the reduced latitude parametrises the meridian ellipse, the geocentric latitude is the direction from the
centre. -/
theorem C24_meaning {a b : ℝ} (hb : 0 < b) (hab : b ≤ a) (id n pn : String) (l0 l φ : ℝ)
    (h1 : -(Real.pi / 2) < φ) (h2 : φ < Real.pi / 2) :
    ∃ β ψ x y z : ℝ, (ell n a b).reducedLatitude (latR φ) = ⟨fin β⟩ ∧
      (ell n a b).geocentricLatitude (latR φ) = ⟨fin ψ⟩ ∧
      -(Real.pi / 2) < β ∧ β < Real.pi / 2 ∧ -(Real.pi / 2) < ψ ∧ ψ < Real.pi / 2 ∧
      (dat id n pn a b l0).llhToXyz (llh l φ 0) = xyz x y z ∧
      Real.sqrt (x ^ 2 + y ^ 2) = a * Real.cos β ∧ z = b * Real.sin β ∧
      0 < Real.sqrt (x ^ 2 + y ^ 2) ∧ z / Real.sqrt (x ^ 2 + y ^ 2) = Real.tan ψ := by
  have ha : 0 < a := lt_of_lt_of_le hb hab
  have hc : 0 < Real.cos φ := Real.cos_pos_of_mem_Ioo ⟨h1, h2⟩
  have hw := wf_pos hb hab φ
  have hsw := Real.sqrt_pos.2 hw
  have hNp : 0 < pvr a b φ := div_pos ha hsw
  set μ := effLon a b l0 l with hμ
  have hsl := Real.sin_sq_add_cos_sq μ
  have hsc := Real.sin_sq_add_cos_sq φ
  have hR : Real.sqrt (((pvr a b φ + 0) * Real.cos φ * Real.cos μ) ^ 2 + ((pvr a b φ + 0) * Real.cos φ * Real.sin μ) ^ 2)
      = pvr a b φ * Real.cos φ := by
    rw [show ((pvr a b φ + 0) * Real.cos φ * Real.cos μ) ^ 2 + ((pvr a b φ + 0) * Real.cos φ * Real.sin μ) ^ 2 =
      (pvr a b φ * Real.cos φ) ^ 2 by linear_combination (pvr a b φ * Real.cos φ) ^ 2 * hsl]
    exact Real.sqrt_sq (by positivity)
  have hrt : Real.sqrt (1 + (b / a * Real.tan φ) ^ 2) = Real.sqrt (wf a b φ) / Real.cos φ := by
    rw [Real.sqrt_eq_iff_mul_self_eq (by positivity) (by positivity), div_mul_div_comm, Real.mul_self_sqrt hw.le,
      wf_eq hb hab, Real.tan_eq_sin_div_cos]
    field_simp
  refine ⟨_, _, _, _, _, reduced_fin hb hab n hc.ne', geocentric_fin hb hab n hc.ne',
    Real.neg_pi_div_two_lt_arctan _, Real.arctan_lt_pi_div_two _, Real.neg_pi_div_two_lt_arctan _,
    Real.arctan_lt_pi_div_two _, (by rw [llhToXyz_all hb hab]; rfl), ?_, ?_, ?_, ?_⟩
  · rw [hR, Real.cos_arctan, hrt, pvr]; field_simp
  · rw [Real.sin_arctan, hrt, pvr, one_sub_ecc2 hb hab, Real.tan_eq_sin_div_cos]; field_simp; ring
  · rw [hR]; positivity
  · rw [hR, Real.tan_arctan, one_sub_ecc2 hb hab, Real.tan_eq_sin_div_cos]; field_simp; ring

/-- **C24**: both latitudes are odd and strictly increasing, and `|geocentric| ≤ |reduced| ≤ |lat|`. -/
theorem C24_order {a b : ℝ} (hb : 0 < b) (hab : b ≤ a) (n : String) (φ φ' : ℝ)
    (h1 : -(Real.pi / 2) < φ) (h2 : φ < Real.pi / 2) (h1' : -(Real.pi / 2) < φ') (h2' : φ' < Real.pi / 2) :
    ∃ β ψ β' ψ' : ℝ, (ell n a b).reducedLatitude (latR φ) = ⟨fin β⟩ ∧
      (ell n a b).geocentricLatitude (latR φ) = ⟨fin ψ⟩ ∧
      (ell n a b).reducedLatitude (latR φ') = ⟨fin β'⟩ ∧ (ell n a b).geocentricLatitude (latR φ') = ⟨fin ψ'⟩ ∧
      (ell n a b).reducedLatitude (latR (-φ)) = ⟨fin (-β)⟩ ∧
      (ell n a b).geocentricLatitude (latR (-φ)) = ⟨fin (-ψ)⟩ ∧
      (φ < φ' → β < β' ∧ ψ < ψ') ∧ |ψ| ≤ |β| ∧ |β| ≤ |φ| := by
  have ha : 0 < a := lt_of_lt_of_le hb hab
  have hc : 0 < Real.cos φ := Real.cos_pos_of_mem_Ioo ⟨h1, h2⟩
  have hc' : 0 < Real.cos φ' := Real.cos_pos_of_mem_Ioo ⟨h1', h2'⟩
  have hcn : Real.cos (-φ) ≠ 0 := by rw [Real.cos_neg]; exact hc.ne'
  have hr : 0 < b / a := by positivity
  have hr2 : 0 < b ^ 2 / a ^ 2 := by positivity
  have hr1 : b / a ≤ 1 := by rw [div_le_one ha]; exact hab
  have hr3 : b ^ 2 / a ^ 2 = b / a * (b / a) := by field_simp
  have habs : ∀ t : ℝ, |Real.arctan t| = Real.arctan |t| := by
    intro t
    rcases le_total 0 t with h | h
    · rw [abs_of_nonneg h, abs_of_nonneg (Real.arctan_nonneg.2 h)]
    · rw [abs_of_nonpos h, Real.arctan_neg, abs_of_nonpos (by have := Real.arctan_strictMono.monotone h; rwa [Real.arctan_zero] at this)]
  refine ⟨_, _, _, _, reduced_fin hb hab n hc.ne', geocentric_fin hb hab n hc.ne', reduced_fin hb hab n hc'.ne',
    geocentric_fin hb hab n hc'.ne', ?_, ?_, ?_, ?_, ?_⟩
  · rw [reduced_fin hb hab n hcn, Real.tan_neg, mul_neg, Real.arctan_neg]
  · rw [geocentric_fin hb hab n hcn, Real.tan_neg, mul_neg, Real.arctan_neg]
  · intro hlt
    have := Real.tan_lt_tan_of_lt_of_lt_pi_div_two h1 h2' hlt
    exact ⟨Real.arctan_strictMono (by gcongr), Real.arctan_strictMono (by gcongr)⟩
  · rw [habs, habs]
    apply Real.arctan_strictMono.monotone
    rw [abs_mul, abs_mul, hr3, abs_mul, abs_of_pos hr]
    have := abs_nonneg (Real.tan φ)
    nlinarith [mul_nonneg hr.le this]
  · rw [habs]
    have e : |φ| = Real.arctan |Real.tan φ| := by
      rw [← habs, Real.arctan_tan h1 h2]
    rw [e]
    apply Real.arctan_strictMono.monotone
    rw [abs_mul, abs_of_pos hr]
    have := abs_nonneg (Real.tan φ)
    nlinarith

/-- **C24** at the poles: both latitudes are the pole. -/
theorem C24_poles {a b : ℝ} (hb : 0 < b) (hab : b ≤ a) (n : String) :
    (ell n a b).reducedLatitude (latR (Real.pi / 2)) = ⟨fin (Real.pi / 2)⟩ ∧
    (ell n a b).geocentricLatitude (latR (Real.pi / 2)) = ⟨fin (Real.pi / 2)⟩ ∧
    (ell n a b).reducedLatitude (latR (-(Real.pi / 2))) = ⟨fin (-(Real.pi / 2))⟩ ∧
    (ell n a b).geocentricLatitude (latR (-(Real.pi / 2))) = ⟨fin (-(Real.pi / 2))⟩ := by
  have ha : 0 < a := lt_of_lt_of_le hb hab
  have e1 : 1 - (a - b) / a = b / a := by field_simp; ring
  have p1 : (0 : ℝ) < b / a := by positivity
  have p2 : (0 : ℝ) < b ^ 2 / a ^ 2 := by positivity
  have t1 : Flt.tan (fin (Real.pi / 2)) = pinf := by
    rw [tan_fin_ite, if_pos Real.cos_pi_div_two, Real.sin_pi_div_two, signInf_pos one_pos]
  have t2 : Flt.tan (fin (-(Real.pi / 2))) = ninf := by
    rw [tan_fin_ite, if_pos (by rw [Real.cos_neg, Real.cos_pi_div_two]), Real.sin_neg, Real.sin_pi_div_two,
      signInf_neg (by norm_num)]
  have m1 : ∀ c : ℝ, 0 < c → (fin c * pinf : XR) = pinf := fun c hc => by
    show signInf c = pinf
    exact signInf_pos hc
  have m2 : ∀ c : ℝ, 0 < c → (fin c * ninf : XR) = ninf := fun c hc => by
    show signInf (-c) = ninf
    exact signInf_neg (by linarith)
  refine ⟨?_, ?_, ?_, ?_⟩
  · simp only [Ellipsoid.reducedLatitude, ell_f hb hab, latR, Lat.tan, Angle.tan, t1, one_eq, sub_fin, e1, m1 _ p1,
      atan_pinf, angle_new_rad]
  · simp only [Ellipsoid.geocentricLatitude, ell_eSq hb hab, latR, Lat.tan, Angle.tan, t1, one_eq, sub_fin,
      one_sub_ecc2 hb hab, m1 _ p2, atan_pinf, angle_new_rad]
  · simp only [Ellipsoid.reducedLatitude, ell_f hb hab, latR, Lat.tan, Angle.tan, t2, one_eq, sub_fin, e1, m2 _ p1,
      atan_ninf, angle_new_rad]
  · simp only [Ellipsoid.geocentricLatitude, ell_eSq hb hab, latR, Lat.tan, Angle.tan, t2, one_eq, sub_fin,
      one_sub_ecc2 hb hab, m2 _ p2, atan_ninf, angle_new_rad]

example : -(Real.pi / 2) < 1 ∧ (1 : ℝ) < Real.pi / 2 := by
  have := Real.pi_gt_three
  constructor <;> linarith

end Geo
