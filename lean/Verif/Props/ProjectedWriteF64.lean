import Verif.Lemmas.TransverseWrite

/-! # C112: writing projected coordinates, and transformations to a projected CRS, in IEEE arithmetic -/

namespace Geo

open XR Spec

variable {L : Libm}

/-! ### Writing coordinates -/

/-- Projected axes in doubles to write coordinates along, and the same axes with units of the exact sizes. -/
inductive ProjectedOut : ProjectedAxes (F64 L) → ProjectedSystem → Prop
  | eastNorthUp {u v : LengthUnit (F64 L)} {p q p' q' : ℝ} (hu : LengthUnitNear u p q) (hv : LengthUnitNear v p' q') :
      ProjectedOut (.eastNorthUp u v) (.eastNorthUp p q p' q')
  | eastNorth {u : LengthUnit (F64 L)} {p q : ℝ} (hu : LengthUnitNear u p q) : ProjectedOut (.eastNorth u) (.eastNorth p q)

theorem ProjectedOut.valid {A : ProjectedAxes (F64 L)} {s : ProjectedSystem} (h : ProjectedOut A s) : s.Valid := by
  cases h with
  | eastNorthUp hu hv => exact ⟨hu.ne.1, hu.ne.2, hv.ne.1, hv.ne.2⟩
  | eastNorth hu => exact hu.ne

/-- A length up to 150 000 km written in a unit. -/
theorem plane_val_near {l : F64 L} {u : LengthUnit (F64 L)} {p q : ℝ} (hu : LengthUnitNear u p q)
    (hf : l.isFinite) (hl : |(l.toQ : ℝ)| ≤ 1.5e8) :
    ((Length.mk l).val u).isFinite ∧ |(((Length.mk l).val u).toQ : ℝ) * (p / q) - l.toQ| ≤ 4.4e-8 := by
  obtain ⟨h1, p1, p2⟩ := hu
  have p0 : 0 < p / q := by norm_num at *; linarith
  have b3 : |(l.toQ : ℝ) / (p / q)| ≤ 1e30 := by
    rw [abs_div, abs_of_pos p0, div_le_iff₀ p0]
    norm_num at *
    linarith
  have k2 : Rel (l / u.mPerUnit) (l.toQ / (p / q)) 2.9e-16 1e-69 :=
    Rel.div (Rel.exact hf) h1 (C := 1e-10) (by rw [abs_of_pos p0]; exact p1) (by norm_num) b3 le_rfl (by norm_num)
      (by norm_num) (by norm_num) le_rfl (by norm_num) (by norm_num) (by norm_num)
  refine ⟨k2.1, ?_⟩
  exact (scaled_near k2.2 p0 (by norm_num at *; linarith) (by norm_num) (by norm_num) hl).trans (by norm_num)

/-- **C112**: writing projected coordinates in IEEE arithmetic, for every system of axes: one finite number per axis, which stand for the easting
and the northing to 44 nm and the height to 3 nm. -/
theorem C112_denormalize {A : ProjectedAxes (F64 L)} {s : ProjectedSystem} (h : ProjectedOut A s) (p : ENH (F64 L))
    (hE : p.easting.m.isFinite) (bE : |(p.easting.m.toQ : ℝ)| ≤ 1.5e8) (hN : p.northing.m.isFinite) (bN : |(p.northing.m.toQ : ℝ)| ≤ 1.5e8)
    (hf : p.height.m.isFinite) (hh : |(p.height.m.toQ : ℝ)| ≤ 10000000) (buf : List (F64 L)) (hb : buf.length = s.axes.dim) :
    ∃ c, A.denormalize p buf = .ok c ∧ s.Fits (reals c) ∧ (∀ x ∈ c, x.isFinite) ∧
      |s.eastOf (reals c) - p.easting.m.toQ| ≤ 4.4e-8 ∧ |s.northOf (reals c) - p.northing.m.toQ| ≤ 4.4e-8 ∧
      (s.Is3D → |s.heightOf (reals c) - p.height.m.toQ| ≤ 3e-9) := by
  cases h with
  | eastNorthUp hu hv =>
    obtain ⟨b1, b2, b3, rfl⟩ := List.length_eq_three.1 hb
    obtain ⟨l1, l2⟩ := plane_val_near hu hE bE
    obtain ⟨k1, k2⟩ := plane_val_near hu hN bN
    obtain ⟨j1, j2⟩ := length_val_near hv hf hh
    refine ⟨_, rfl, rfl, ?_, l2, k2, fun _ => j2⟩
    simpa using ⟨l1, k1, j1⟩
  | eastNorth hu =>
    obtain ⟨b1, b2, rfl⟩ := List.length_eq_two.1 hb
    obtain ⟨l1, l2⟩ := plane_val_near hu hE bE
    obtain ⟨k1, k2⟩ := plane_val_near hu hN bN
    refine ⟨_, rfl, rfl, ?_, l2, k2, fun h => h.elim⟩
    simpa using ⟨l1, k1⟩

/-- Coordinates written in doubles and exact ones: they stand for the same place of the map to `f` metres in easting, `g` in northing and `k` in
height. `A` is the radius of the map that repeats itself eastward every `2πA` from the false easting `fe` (0 if it does not): only a place at the
edge of the map, where `|E - fe| = πA`, may be written at the opposite edge. -/
structure SamePlace (s : ProjectedSystem) (out : List (F64 L)) (out' : List ℝ) (fe A f g k : ℝ) : Prop where
  fits : s.Fits (reals out)
  fits' : s.Fits out'
  finite : ∀ x ∈ out, x.isFinite
  east : ∃ m : ℤ, |s.eastOf (reals out) - (s.eastOf out' + m * (2 * Real.pi * A))| ≤ f ∧ (|s.eastOf out' - fe| ≤ 3.14159 * A → m = 0)
  north : |s.northOf (reals out) - s.northOf out'| ≤ g
  height : s.Is3D → |s.heightOf (reals out) - s.heightOf out'| ≤ k

/-! ### Projections -/

/-- A projection of an ellipsoid by the same parameters, doubles, in IEEE and in exact arithmetic, a position (longitude `l` and latitude `φ`)
within the range where `C112_to_projected` bounds the error, the false easting and the radius of the map, and the bounds of the errors of the
easting and of the northing in metres if the geocentric position is known to `ε` metres. -/
inductive WritesNear (el : Ellipsoid (F64 L)) : ProjectionSpec (F64 L) → ProjectionSpec XR → ℝ → ℝ → ℝ → ℝ → ℝ → ℝ → ℝ → Prop
  | webMercator {l0 fe fn : F64 L} {l φ ε : ℝ} (hl0 : InLonRange l0) (hfe : fe.isFinite) (hfe1 : |fe.toQ| ≤ 20000000) (hfn : fn.isFinite)
      (hfn1 : |fn.toQ| ≤ 20000000) (hc : 1.01e-3 ≤ Real.cos φ) (lat0 : Lat (F64 L)) (lat0' : Lat XR) :
      WritesNear el (.webMercator ⟨⟨l0⟩⟩ lat0 ⟨fe⟩ ⟨fn⟩) (.webMercator (lonR l0.toQ) lat0' ⟨fin fe.toQ⟩ ⟨fin fn.toQ⟩) l φ ε fe.toQ el.a.m.toQ
        (el.a.m.toQ / Real.cos φ * (1.04e-6 * ε + 5.7e-14) + 1.5e-7) (el.a.m.toQ / Real.cos φ * (3.31e-7 * ε + 3.1e-14) + 3.3e-7)
  | mercator1SP {l0 fe fn k0 : F64 L} {l φ ε : ℝ} (hl0 : InLonRange l0) (hfe : fe.isFinite) (hfe1 : |fe.toQ| ≤ 20000000) (hfn : fn.isFinite)
      (hfn1 : |fn.toQ| ≤ 20000000) (hk : k0.isFinite) (h1 : 0.5 ≤ k0.toQ) (h2 : k0.toQ ≤ 2) (hc : 1.01e-3 ≤ Real.cos φ) :
      WritesNear el (.mercator1SP ⟨⟨l0⟩⟩ k0 ⟨fe⟩ ⟨fn⟩) (.mercator1SP (lonR l0.toQ) (fin k0.toQ) ⟨fin fe.toQ⟩ ⟨fin fn.toQ⟩) l φ ε
        fe.toQ (k0.toQ * el.a.m.toQ) (k0.toQ * el.a.m.toQ / Real.cos φ * (1.04e-6 * ε + 5.7e-14) + 1.5e-7)
        (k0.toQ * el.a.m.toQ / Real.cos φ * (3.31e-7 * ε + 3.1e-14) + 3.3e-7)
  | mercator2SP {l0 fe fn φ1 : F64 L} {l φ ε K : ℝ} (hl0 : InLonRange l0) (hfe : fe.isFinite) (hfe1 : |fe.toQ| ≤ 20000000) (hfn : fn.isFinite)
      (hfn1 : |fn.toQ| ≤ 20000000) (hf : φ1.isFinite) (h1 : -(Real.pi / 2) < (φ1.toQ : ℝ)) (h2 : (φ1.toQ : ℝ) < Real.pi / 2)
      (hc1 : 0.5 ≤ Real.cos φ1.toQ) (hc : 1.01e-3 ≤ Real.cos φ)
      (hK : K = Real.cos φ1.toQ / Real.sqrt (1 - (1 - (el.b.m.toQ : ℝ) ^ 2 / (el.a.m.toQ : ℝ) ^ 2) * Real.sin φ1.toQ ^ 2)) :
      WritesNear el (.mercator2SP ⟨⟨l0⟩⟩ ⟨⟨φ1⟩⟩ ⟨fe⟩ ⟨fn⟩) (.mercator2SP (lonR l0.toQ) (latR φ1.toQ) ⟨fin fe.toQ⟩ ⟨fin fn.toQ⟩) l φ ε
        fe.toQ (K * el.a.m.toQ) (K * el.a.m.toQ / Real.cos φ * (1.04e-6 * ε + 5.7e-14) + 1.5e-7)
        (K * el.a.m.toQ / Real.cos φ * (3.31e-7 * ε + 3.1e-14) + 3.3e-7)
  | transverse {l0 φ0 k0 fe fn : F64 L} {l φ ε : ℝ} (hfl : 0.995 * el.a.m.toQ ≤ el.b.m.toQ) (hl0 : InLonRange l0) (hφ0 : φ0.isFinite)
      (hb0 : |φ0.toQ| ≤ 1.4836) (hk : k0.isFinite) (hk1 : 0 ≤ k0.toQ) (hk2 : k0.toQ ≤ 1.1) (hfe : fe.isFinite) (hfe1 : |fe.toQ| ≤ 20000000)
      (hfn : fn.isFinite) (hfn1 : |fn.toQ| ≤ 20000000) (hφ : |φ| ≤ 1.4835) (hc : 0 < Real.cos (l - l0.toQ)) (hs : |Real.sin (l - l0.toQ)| ≤ 0.4799) :
      WritesNear el (.transverseMercator ⟨⟨l0⟩⟩ ⟨⟨φ0⟩⟩ k0 ⟨fe⟩ ⟨fn⟩)
        (.transverseMercator (lonR l0.toQ) (latR φ0.toQ) (fin k0.toQ) ⟨fin fe.toQ⟩ ⟨fin fn.toQ⟩) l φ ε fe.toQ 0
        (k0.toQ * el.a.m.toQ * (1.74e-6 * ε + 1.06e-13) + 3e-7) (k0.toQ * el.a.m.toQ * (1.74e-6 * ε + 1.06e-13) + 5.5e-7)
  | utmNorth {z : ℕ} {l φ ε : ℝ} (hfl : 0.995 * el.a.m.toQ ≤ el.b.m.toQ) (h1 : 1 ≤ z) (h2 : z ≤ 60) (hφ : |φ| ≤ 1.4835)
      (hc : 0 < Real.cos (l - (6 * z - 180) * (Real.pi / 180))) (hs : |Real.sin (l - (6 * z - 180) * (Real.pi / 180))| ≤ 0.4799) :
      WritesNear el (.utmNorth z) (.utmNorth z) l φ ε 500000 0
        (0.9996 * el.a.m.toQ * (1.74e-6 * ε + 1.06e-13) + 3e-7) (0.9996 * el.a.m.toQ * (1.74e-6 * ε + 1.06e-13) + 5.5e-7)
  | utmSouth {z : ℕ} {l φ ε : ℝ} (hfl : 0.995 * el.a.m.toQ ≤ el.b.m.toQ) (h1 : 1 ≤ z) (h2 : z ≤ 60) (hφ : |φ| ≤ 1.4835)
      (hc : 0 < Real.cos (l - (6 * z - 180) * (Real.pi / 180))) (hs : |Real.sin (l - (6 * z - 180) * (Real.pi / 180))| ≤ 0.4799) :
      WritesNear el (.utmSouth z) (.utmSouth z) l φ ε 500000 0
        (0.9996 * el.a.m.toQ * (1.74e-6 * ε + 1.06e-13) + 3e-7) (0.9996 * el.a.m.toQ * (1.74e-6 * ε + 1.06e-13) + 5.5e-7)

theorem tm_budget {B ε : ℝ} (hB : 0 ≤ B) (hε : 0 ≤ ε) :
    B * (1.27 * (1.04e-6 * ε + 5.7e-14 + (3.3e-7 * ε + 2.63e-14))) ≤ B * (1.74e-6 * ε + 1.06e-13) := by
  refine mul_le_mul_of_nonneg_left ?_ hB
  norm_num
  linarith

theorem utm_write (hL : AccurateProjection L) {el : Ellipsoid (F64 L)} (h : EarthSized el) (hfl : 0.995 * el.a.m.toQ ≤ el.b.m.toQ)
    {z : ℕ} (h1 : 1 ≤ z) (h2 : z ≤ 60) {l' φ' f g : ℝ} (hφ : |φ'| ≤ 1.4835)
    (hcl : 0 < Real.cos (l' - (6 * z - 180) * (Real.pi / 180))) (hs : |Real.sin (l' - (6 * z - 180) * (Real.pi / 180))| ≤ 0.4799)
    (hf : f ≤ 1e-9) (hg : g ≤ 1e-9) (s : String) :
    ProjNear ((ProjectionSpec.utmNorth z).appliedTo el) (utmN s el.a.m.toQ el.b.m.toQ z) l' φ' f g 500000 0
      (2.5e-7 + 0.9996 * el.a.m.toQ * (1.27 * (f + g))) (5e-7 + 0.9996 * el.a.m.toQ * (1.27 * (f + g))) ∧
    ProjNear ((ProjectionSpec.utmSouth z).appliedTo el) (utmS s el.a.m.toQ el.b.m.toQ z) l' φ' f g 500000 0
      (2.5e-7 + 0.9996 * el.a.m.toQ * (1.27 * (f + g))) (5e-7 + 0.9996 * el.a.m.toQ * (1.27 * (f + g))) := by
  obtain ⟨⟨k1, k2⟩, ⟨e1, e2⟩, ⟨n1, n2⟩, ⟨s1, s2⟩, ⟨p1, p2⟩⟩ := utm_values
  obtain ⟨c1, c2⟩ := utm_lon0_near (L := L) h1 h2
  have hk : Near (TransverseMercator.UTM_K0 : F64 L) 0.9996 1.2e-16 := by
    refine ⟨k1, ?_⟩
    have := cast_abs_le k2
    push_cast at this
    exact this
  have hs' : |Real.sin (l' - remR ((6 * z - 180) * (Real.pi / 180)))| ≤ 0.4799 := by
    rw [((SameDirection.refl _).sub (remR_same _)).sin]; exact hs
  have hc' : 0 < Real.cos (l' - remR ((6 * z - 180) * (Real.pi / 180))) := by
    rw [((SameDirection.refl _).sub (remR_same _)).cos]; exact hcl
  have ee : |(TransverseMercator.UTM_FE : Length (F64 L)).m.toQ| ≤ 20000000 := by
    change |B64.toQ (TransverseMercator.UTM_FE : Length (F64 noLibm)).m| ≤ _; rw [e2]; norm_num
  have nn : |(TransverseMercator.UTM_FN_NORTH : Length (F64 L)).m.toQ| ≤ 20000000 := by
    change |B64.toQ (TransverseMercator.UTM_FN_NORTH : Length (F64 noLibm)).m| ≤ _; rw [n2]; norm_num
  have ss : |(TransverseMercator.UTM_FN_SOUTH : Length (F64 L)).m.toQ| ≤ 20000000 := by
    change |B64.toQ (TransverseMercator.UTM_FN_SOUTH : Length (F64 noLibm)).m| ≤ _; rw [s2]; norm_num
  have pp : |(TransverseMercator.UTM_LAT0 : Lat (F64 L)).angle.rad.toQ| ≤ 1.4836 := by
    change |B64.toQ (TransverseMercator.UTM_LAT0 : Lat (F64 noLibm)).angle.rad| ≤ _; rw [p2]; norm_num
  have q1 : (((TransverseMercator.UTM_FE : Length (F64 L)).m.toQ : ℚ) : ℝ) = 500000 := by
    change ((B64.toQ (TransverseMercator.UTM_FE : Length (F64 noLibm)).m : ℚ) : ℝ) = _; rw [e2]; norm_num
  have q2 : (((TransverseMercator.UTM_FN_NORTH : Length (F64 L)).m.toQ : ℚ) : ℝ) = 0 := by
    change ((B64.toQ (TransverseMercator.UTM_FN_NORTH : Length (F64 noLibm)).m : ℚ) : ℝ) = _; rw [n2]; norm_num
  have q3 : (((TransverseMercator.UTM_FN_SOUTH : Length (F64 L)).m.toQ : ℚ) : ℝ) = 10000000 := by
    change ((B64.toQ (TransverseMercator.UTM_FN_SOUTH : Length (F64 noLibm)).m : ℚ) : ℝ) = _; rw [s2]; norm_num
  have q4 : (((TransverseMercator.UTM_LAT0 : Lat (F64 L)).angle.rad.toQ : ℚ) : ℝ) = 0 := by
    change ((B64.toQ (TransverseMercator.UTM_LAT0 : Lat (F64 noLibm)).angle.rad : ℚ) : ℝ) = _; rw [p2]; norm_num
  constructor
  · have := tm_write hL h hfl c1 c2 (φ0 := (TransverseMercator.UTM_LAT0 : Lat (F64 L)).angle.rad) p1 pp hk (by norm_num) (by norm_num)
      (fe := (TransverseMercator.UTM_FE : Length (F64 L)).m) e1 ee
      (fn := (TransverseMercator.UTM_FN_NORTH : Length (F64 L)).m) n1 nn hφ hc' hs' hf hg s
    rw [q1, q2, q4, ← utmN_eq] at this
    exact this
  · have := tm_write hL h hfl c1 c2 (φ0 := (TransverseMercator.UTM_LAT0 : Lat (F64 L)).angle.rad) p1 pp hk (by norm_num) (by norm_num)
      (fe := (TransverseMercator.UTM_FE : Length (F64 L)).m) e1 ee
      (fn := (TransverseMercator.UTM_FN_SOUTH : Length (F64 L)).m) s1 ss hφ hc' hs' hf hg s
    rw [q1, q3, q4, ← utmS_eq] at this
    exact this

theorem merc_budget (A c ε : ℝ) :
    1e-7 + A * ((1.04e-6 * ε + 5.7e-14) / c) + 4.4e-8 ≤ A / c * (1.04e-6 * ε + 5.7e-14) + 1.5e-7 := by
  rw [show A * ((1.04e-6 * ε + 5.7e-14) / c) = A / c * (1.04e-6 * ε + 5.7e-14) by ring]
  norm_num
  linarith

theorem merc_budget' {A c ε : ℝ} (hA : 2.9e6 ≤ A) (hc : 0 < c) (hε : 0 ≤ ε) :
    2.8e-7 + 1.31e-8 / c + A * (1.001 / c * (3.3e-7 * ε + 2.63e-14)) + 4.4e-8 ≤ A / c * (3.31e-7 * ε + 3.1e-14) + 3.3e-7 := by
  have h1 : 1.31e-8 / c ≤ A / c * 4.6e-15 := by
    rw [div_mul_eq_mul_div, div_le_div_iff_of_pos_right hc]
    norm_num at *
    linarith
  have h0 : 0 ≤ A / c := div_nonneg (le_trans (by norm_num) hA) hc.le
  rw [show A * (1.001 / c * (3.3e-7 * ε + 2.63e-14)) = A / c * (1.001 * (3.3e-7 * ε + 2.63e-14)) by ring]
  have h2 : A / c * (1.001 * (3.3e-7 * ε + 2.63e-14)) ≤ A / c * (3.31e-7 * ε + 2.64e-14) := by
    refine mul_le_mul_of_nonneg_left ?_ h0
    norm_num
    linarith
  norm_num at *
  nlinarith

theorem same_merc_writes (hL : AccurateProjection L) {el : Ellipsoid (F64 L)} (h : EarthSized el) {l0 fe fn : F64 L} {l' φ ε K : ℝ} {s : String}
    {p : Projection (F64 L)} {p' : Projection XR} (hp : SameMercator s el l0 fe fn K p p')
    (hl0 : InLonRange l0) (hfe : fe.isFinite) (hfe1 : |fe.toQ| ≤ 20000000) (hfn : fn.isFinite) (hfn1 : |fn.toQ| ≤ 20000000) (ε0 : 0 ≤ ε)
    (hφ : |φ| ≤ Real.pi / 2) (hc : 1.01e-3 ≤ Real.cos φ) (b1 : 1.04e-6 * ε + 5.7e-14 ≤ 1e-9) (b2 : 3.3e-7 * ε + 2.63e-14 ≤ 1e-6) :
    ∃ e n, ProjNear p p' l' φ (1.04e-6 * ε + 5.7e-14) (3.3e-7 * ε + 2.63e-14) fe.toQ (K * el.a.m.toQ) e n ∧
      e + 4.4e-8 ≤ K * el.a.m.toQ / Real.cos φ * (1.04e-6 * ε + 5.7e-14) + 1.5e-7 ∧
      n + 4.4e-8 ≤ K * el.a.m.toQ / Real.cos φ * (3.31e-7 * ε + 3.1e-14) + 3.3e-7 := by
  obtain ⟨a0, -⟩ := earth_a h
  have c0 : 0 < Real.cos φ := lt_of_lt_of_le (by norm_num) hc
  obtain ⟨-, -, -, -, -, K1, -, -⟩ := hp.eq hL h
  have hA : 2.9e6 ≤ K * (el.a.m.toQ : ℝ) := by
    have := mul_le_mul K1 a0 (by norm_num) (le_trans (by norm_num) K1)
    norm_num at *
    linarith
  exact ⟨_, _, same_merc_write hL h hp hl0 hfe hfe1 hfn hfn1 hφ hc b1 b2, merc_budget _ _ _, merc_budget' hA c0 ε0⟩

theorem WritesNear.proj (hL : AccurateProjection L) {el : Ellipsoid (F64 L)} (h : EarthSized el) {sp : ProjectionSpec (F64 L)}
    {sp' : ProjectionSpec XR} {l φ ε fe A f g : ℝ} (hp : WritesNear el sp sp' l φ ε fe A f g) (ε0 : 0 ≤ ε) (hε : ε ≤ 7e-5)
    (hφ : |φ| ≤ Real.pi / 2) {l' : ℝ} (hl : Real.cos φ ≠ 0 → ∃ j : ℤ, l' = l + j * (2 * Real.pi)) (s : String) :
    ∃ e n, ProjNear (sp.appliedTo el) (sp'.appliedTo (ell s el.a.m.toQ el.b.m.toQ)) l' φ (1.04e-6 * ε + 5.7e-14) (3.3e-7 * ε + 2.63e-14)
      fe A e n ∧ e + 4.4e-8 ≤ f ∧ n + 4.4e-8 ≤ g := by
  obtain ⟨a0, a1⟩ := earth_a h
  have b1 : 1.04e-6 * ε + 5.7e-14 ≤ 1e-9 := by norm_num at *; linarith
  have b2 : 3.3e-7 * ε + 2.63e-14 ≤ 1e-6 := by norm_num at *; linarith
  have b3 : 3.3e-7 * ε + 2.63e-14 ≤ 1e-9 := by norm_num at *; linarith
  have move : ∀ L0 : ℝ, |φ| ≤ 1.4835 → Real.sin (l' - L0) = Real.sin (l - L0) ∧ Real.cos (l' - L0) = Real.cos (l - L0) := by
    intro L0 hφ5
    have := Real.pi_gt_d4
    obtain ⟨g1, g2⟩ := abs_le.1 hφ5
    obtain ⟨j, rfl⟩ := hl (Real.cos_pos_of_mem_Ioo ⟨by norm_num at *; linarith, by norm_num at *; linarith⟩).ne'
    rw [show l + j * (2 * Real.pi) - L0 = l - L0 + j * (2 * Real.pi) by ring, Real.sin_add_int_mul_two_pi, Real.cos_add_int_mul_two_pi]
    exact ⟨rfl, rfl⟩
  cases hp with
  | webMercator hl0 hfe hfe1 hfn hfn1 hc lat0 lat0' =>
    have c0 : 0 < Real.cos φ := lt_of_lt_of_le (by norm_num) hc
    exact ⟨_, _, web_write hL h hl0 hfe hfe1 hfn hfn1 hφ hc b1 b2 lat0 lat0' s, merc_budget _ _ _,
      merc_budget' (by norm_num at *; linarith) c0 ε0⟩
  | mercator1SP hl0 hfe hfe1 hfn hfn1 hk h1 h2 hc =>
    have c0 : 0 < Real.cos φ := lt_of_lt_of_le (by norm_num) hc
    exact same_merc_writes hL h (s := s) (.oneSP _ hk h1 h2) hl0 hfe hfe1 hfn hfn1 ε0 hφ hc b1 b2
  | mercator2SP hl0 hfe hfe1 hfn hfn1 hf h1 h2 hc1 hc hK =>
    subst hK
    exact same_merc_writes hL h (s := s) (.twoSP _ hf h1 h2 hc1) hl0 hfe hfe1 hfn hfn1 ε0 hφ hc b1 b2
  | @transverse l0 φ0 k0 fe fn _ _ _ hfl hl0 hφ0 hb0 hk hk1 hk2 hfe hfe1 hfn hfn1 hφ5 hc hs =>
    obtain ⟨m1, m2⟩ := move l0.toQ hφ5
    have k1 := (Rat.cast_le (K := ℝ)).2 hk1
    have k2 := (Rat.cast_le (K := ℝ)).2 hk2
    push_cast at k1 k2
    have B := tm_budget (ε := ε) (mul_nonneg k1 (le_trans (by norm_num) a0)) ε0
    refine ⟨_, _, tm_write hL h hfl hl0 ((Near.exact hl0.1).mono (by norm_num)) hφ0 hb0 ((Near.exact hk).mono (by norm_num)) k1 k2 hfe hfe1
      hfn hfn1 hφ5 (by rw [m2]; exact hc) (by rw [m1]; exact hs) b1 b3 s, ?_, ?_⟩
    · refine le_trans ?_ (add_le_add_left B 3e-7)
      linarith
    · refine le_trans ?_ (add_le_add_left B 5.5e-7)
      linarith
  | utmNorth hfl h1 h2 hφ5 hc hs =>
    obtain ⟨m1, m2⟩ := move _ hφ5
    have B := tm_budget (ε := ε) (mul_nonneg (show (0 : ℝ) ≤ 0.9996 by norm_num) (le_trans (by norm_num) a0)) ε0
    refine ⟨_, _, (utm_write hL h hfl h1 h2 hφ5 (by rw [m2]; exact hc) (by rw [m1]; exact hs) b1 b3 s).1, ?_, ?_⟩
    · refine le_trans ?_ (add_le_add_left B 3e-7)
      linarith
    · refine le_trans ?_ (add_le_add_left B 5.5e-7)
      linarith
  | utmSouth hfl h1 h2 hφ5 hc hs =>
    obtain ⟨m1, m2⟩ := move _ hφ5
    have B := tm_budget (ε := ε) (mul_nonneg (show (0 : ℝ) ≤ 0.9996 by norm_num) (le_trans (by norm_num) a0)) ε0
    refine ⟨_, _, (utm_write hL h hfl h1 h2 hφ5 (by rw [m2]; exact hc) (by rw [m1]; exact hs) b1 b3 s).2, ?_, ?_⟩
    · refine le_trans ?_ (add_le_add_left B 3e-7)
      linarith
    · refine le_trans ?_ (add_le_add_left B 5.5e-7)
      linarith

/-! ### Transformations -/

/-- **C112**: a transformation to a projected CRS in IEEE arithmetic, forward or (the roles exchanged) backward, from any CRS, when the exact
position lies between 500 km below and 2500 km above the ellipsoid: the coordinates written stand for nearly the place that the exact
transformation by the same parameters writes. -/
theorem C112_to_projected (hL : AccurateInverse L) (hL' : AccurateProjection L) {src : AnyCrs (F64 L)} {src' : AnyCrs XR} {c : List (F64 L)} {ε : ℝ}
    (hc : ReadsNear src src' c ε) {d : GeodeticDatum (F64 L)} {A : ProjectedAxes (F64 L)} {s : ProjectedSystem}
    (he : EarthSized d.ellipsoid) (hlt : d.ellipsoid.b.m.toQ < d.ellipsoid.a.m.toQ)
    (hfl : 0.995 * d.ellipsoid.a.m.toQ ≤ d.ellipsoid.b.m.toQ) (h0 : InLonRange d.primeMeridian.lon.angle.rad)
    (hA : ProjectedOut A s) {S D : XYZTransformation (F64 L)} {S' D' : XYZTransformation XR} (hS : ShiftNear S S')
    (hD : ShiftNear D D') (cid id n pn : String) {P : XYZ XR} {l φ h : ℝ}
    (hP : src'.toXYZ.toXyz ((reals c).map fin) = .ok P)
    (hq : (dat id n pn d.ellipsoid.a.m.toQ d.ellipsoid.b.m.toQ d.primeMeridian.lon.angle.rad.toQ).llhToXyz (llh l φ h) =
      D'.fromRef (S'.toRef P))
    (hφ1 : -(Real.pi / 2) ≤ φ) (hφ2 : φ ≤ Real.pi / 2) (hh1 : -500000 ≤ h) (hh2 : h ≤ 2500000)
    {sp : ProjectionSpec (F64 L)} {sp' : ProjectionSpec XR} {fe R f g : ℝ} (hp : WritesNear d.ellipsoid sp sp' l φ ε fe R f g)
    (buf : List (F64 L)) (buf' : List XR) (hb : buf.length = s.axes.dim) (hb' : buf'.length = s.axes.dim) :
    ∃ (out : List (F64 L)) (out' : List ℝ),
      (CrsXYZTransformation.new src.toXYZ (AnyCrs.projected ⟨cid, d, A, sp⟩).toXYZ S D).fwd c buf = .ok out ∧
      (CrsXYZTransformation.new (AnyCrs.projected ⟨cid, d, A, sp⟩).toXYZ src.toXYZ D S).bwd c buf = .ok out ∧
      (CrsXYZTransformation.new src'.toXYZ (AnyCrs.projected ⟨cid,
        dat id n pn d.ellipsoid.a.m.toQ d.ellipsoid.b.m.toQ d.primeMeridian.lon.angle.rad.toQ, s.axes, sp'⟩).toXYZ
        S' D').fwd ((reals c).map fin) buf' = .ok (out'.map fin) ∧
      SamePlace s out out' fe R f g (1.78 * ε + 1.95e-7) := by
  obtain ⟨p, P', hpp, hP', hW, hn, hε⟩ := C111_read hL' hc
  rw [hP] at hP'
  cases hP'
  have ε0 : 0 ≤ ε := by obtain ⟨_, _, _, _, k, _⟩ := hn; exact k.nonneg
  obtain ⟨x, y, z, l', q1, q2, rx, ry, hx, ky, kz, hl⟩ := arrive_near hL hW hn hε he hlt hfl h0 hS hD id n pn hq hφ1 hφ2 hh1 hh2
  have hbig : |(z.toQ : ℝ)| ≤ 10000000 := by
    obtain ⟨k1, k2⟩ := abs_le.1 kz.2
    rw [abs_le]
    norm_num at k1 k2 hε
    constructor <;> linarith
  obtain ⟨e, k, hw, b1, b2⟩ := hp.proj hL' he ε0 hε (abs_le.2 ⟨hφ1, hφ2⟩) hl n
  obtain ⟨E, N, E', N', m, w1, w2, w3, w4, w5, w6, w7, w8⟩ := hw x y z h rx ry hx ky
  obtain ⟨out, o1, o2, o3, o4, o5, o6⟩ := C112_denormalize hA ⟨⟨E⟩, ⟨N⟩, ⟨z⟩⟩ w3 w4 w7.1 w8 kz.1 hbig buf hb
  obtain ⟨out', y1, y2, y3, y4, y5, -⟩ := projected_denormalize_fin s hA.valid E' N' h buf' hb'.symm.le
  rw [← hb', List.drop_length, List.append_nil] at y2
  have write : (AnyCrs.projected ⟨cid, d, A, sp⟩).toXYZ.fromXyz (D.fromRef (S.toRef p)) buf = .ok out := by
    simp only [AnyCrs.toXYZ, ProjectedCrs.toXyzTransformation]
    rw [q1, w1]
    exact o1
  have write' : (AnyCrs.projected ⟨cid, dat id n pn d.ellipsoid.a.m.toQ d.ellipsoid.b.m.toQ d.primeMeridian.lon.angle.rad.toQ, s.axes, sp'⟩).toXYZ.fromXyz
      (D'.fromRef (S'.toRef P)) buf' = .ok (out'.map fin) := by
    simp only [AnyCrs.toXYZ, ProjectedCrs.toXyzTransformation]
    rw [q2]
    show ((sp'.appliedTo (ell n d.ellipsoid.a.m.toQ d.ellipsoid.b.m.toQ)).proj (llh l' φ h) >>= _) = _
    rw [w2]
    exact y2
  refine ⟨out, out', ?_, ?_, ?_, o2, y1, o3, ⟨m, ?_, ?_⟩, ?_, fun h3 => ?_⟩
  · simp only [CrsXYZTransformation.fwd, CrsXYZTransformation.new, hpp]
    exact write
  · simp only [CrsXYZTransformation.bwd, CrsXYZTransformation.new, hpp]
    exact write
  · simp only [CrsXYZTransformation.fwd, CrsXYZTransformation.new, hP]
    exact write'
  · rw [y3]
    rw [sub_sub] at w5
    exact (write_shift o4 w5).trans (by linarith)
  · rw [y3]
    exact w6
  · rw [y4]
    exact (write_shift o5 w7.2).trans (by linarith)
  · rw [y5 h3]
    exact (write_shift (o6 h3) kz.2).trans (by norm_num; linarith)

/-- **C112**, on one datum: the projected coordinates of a geographic position. The error of the easting and of the northing is that of
`WritesNear` for a position known to 160 nm: less than 3.1 µm for UTM, for example, and the height is written to 0.5 µm. -/
theorem C112_geographic_to_projected (hL : AccurateInverse L) (hL' : AccurateProjection L) {d : GeodeticDatum (F64 L)}
    {B : GeodeticAxes (F64 L)} {t : GeodeticSystem} (hB : SystemNear B t) {c : List (F64 L)} (hc : Coords t c)
    (hl : |t.lonOf (reals c)| ≤ Real.pi) (hφ : |t.latOf (reals c)| ≤ Real.pi / 2)
    (hh1 : -500000 ≤ t.heightOf (reals c)) (hh2 : t.heightOf (reals c) ≤ 2500000)
    {A : ProjectedAxes (F64 L)} {s : ProjectedSystem} (he : EarthSized d.ellipsoid) (hlt : d.ellipsoid.b.m.toQ < d.ellipsoid.a.m.toQ)
    (hfl : 0.995 * d.ellipsoid.a.m.toQ ≤ d.ellipsoid.b.m.toQ) (h0 : InLonRange d.primeMeridian.lon.angle.rad)
    (hA : ProjectedOut A s) (gid cid id n pn : String) {sp : ProjectionSpec (F64 L)} {sp' : ProjectionSpec XR} {fe R f g : ℝ}
    (hp : WritesNear d.ellipsoid sp sp' (t.lonOf (reals c)) (t.latOf (reals c)) 1.6e-7 fe R f g)
    (buf : List (F64 L)) (buf' : List XR) (hb : buf.length = s.axes.dim) (hb' : buf'.length = s.axes.dim) :
    ∃ (out : List (F64 L)) (out' : List ℝ),
      (CrsXYZTransformation.new (GeographicCrs.mk gid d B).toXyzTransformation (AnyCrs.projected ⟨cid, d, A, sp⟩).toXYZ
        XYZIdentity XYZIdentity).fwd c buf = .ok out ∧
      (CrsXYZTransformation.new (GeographicCrs.mk gid (dat id n pn d.ellipsoid.a.m.toQ d.ellipsoid.b.m.toQ
          d.primeMeridian.lon.angle.rad.toQ) t.axes).toXyzTransformation (AnyCrs.projected ⟨cid,
        dat id n pn d.ellipsoid.a.m.toQ d.ellipsoid.b.m.toQ d.primeMeridian.lon.angle.rad.toQ, s.axes, sp'⟩).toXYZ
        XYZIdentity XYZIdentity).fwd ((reals c).map fin) buf' = .ok (out'.map fin) ∧
      SamePlace s out out' fe R f g 4.8e-7 := by
  obtain ⟨l1, l2⟩ := abs_le.1 hl
  obtain ⟨p1, p2⟩ := abs_le.1 hφ
  have hP : (AnyCrs.geographic ⟨gid, dat id n pn d.ellipsoid.a.m.toQ d.ellipsoid.b.m.toQ d.primeMeridian.lon.angle.rad.toQ, t.axes⟩).toXYZ.toXyz
      ((reals c).map fin) = .ok ((dat id n pn d.ellipsoid.a.m.toQ d.ellipsoid.b.m.toQ d.primeMeridian.lon.angle.rad.toQ).llhToXyz
        (llh (t.lonOf (reals c)) (t.latOf (reals c)) (t.heightOf (reals c)))) := by
    simp only [AnyCrs.toXYZ, GeographicCrs.toXyzTransformation, geodetic_normalize_fin t hB.valid (reals c) hc.fits, remR_id l1 l2,
      clampR_id p1 p2]
    rfl
  obtain ⟨out, out', k1, -, k2, k3⟩ := C112_to_projected hL hL' (.direct (.geographic (cid := gid) he h0 hB hc id n pn)) he hlt hfl h0 hA
    .identity .identity cid id n pn hP rfl p1 p2 hh1 hh2 hp buf buf' hb hb'
  exact ⟨out, out', k1, k2, k3.fits, k3.fits', k3.finite, k3.east, k3.north, fun h => (k3.height h).trans (by norm_num)⟩

theorem m_out : LengthUnitNear (M : LengthUnit (F64 L)) 1 1 := by
  obtain ⟨h1, h2⟩ := m_unit (L := L)
  refine ⟨⟨h2.1, ?_⟩, by norm_num, by norm_num⟩
  rw [abs_of_pos h1, add_zero]
  exact h2.2

theorem deg_coords : Coords (.northEastUp Real.pi 180 0.3048 1) [(Flt.lit 45 : F64 roundLibm), Flt.lit 2, Flt.lit 1000] ∧
    reals [(Flt.lit 45 : F64 roundLibm), Flt.lit 2, Flt.lit 1000] = [45, 2, 1000] := by
  obtain ⟨f1, q1, f2, q2, f3, q3⟩ := lits_fin
  have hp := Real.pi_lt_four
  have hp0 := Real.pi_pos
  have r : reals [(Flt.lit 45 : F64 roundLibm), Flt.lit 2, Flt.lit 1000] = [45, 2, 1000] := by
    show [(((B64.lit 45).toQ : ℚ) : ℝ), (((B64.lit 2).toQ : ℚ) : ℝ), (((B64.lit 1000).toQ : ℚ) : ℝ)] = _
    rw [q1, q2, q3]; norm_num
  refine ⟨⟨rfl, ?_, ?_, ?_, ?_⟩, r⟩
  · intro x hx
    simp only [List.mem_cons, List.not_mem_nil, or_false] at hx
    rcases hx with rfl | rfl | rfl
    · exact f1
    · exact f2
    · exact f3
  · rw [r]; show |2 * (Real.pi / 180)| ≤ 7; rw [abs_of_pos (by positivity)]; linarith
  · rw [r]; show |45 * (Real.pi / 180)| ≤ 7; rw [abs_of_pos (by positivity)]; linarith
  · rw [r]; show |1000 * ((0.3048 : ℝ) / 1)| ≤ 10000000; norm_num

/-- 45° N, 2° E, 1000 feet, of WGS 84 in zone 31: written to 3.1 µm. -/
example (buf : List (F64 roundLibm)) (hb : buf.length = 3) : ∃ (out : List (F64 roundLibm)) (out' : List ℝ),
    (CrsXYZTransformation.new (GeographicCrs.mk "EPSG:4979" GeodeticDatum.consts.WGS84 (.northEastUp DEG FT)).toXyzTransformation
      (AnyCrs.projected ⟨"EPSG:32631", GeodeticDatum.consts.WGS84, .eastNorthUp M M, .utmNorth 31⟩).toXYZ
      XYZIdentity XYZIdentity).fwd [Flt.lit 45, Flt.lit 2, Flt.lit 1000] buf = .ok out ∧
    SamePlace (.eastNorthUp 1 1 1 1) out out' 500000 0 3.1e-6 3.4e-6 4.8e-7 := by
  obtain ⟨hc, r⟩ := deg_coords
  have g1 := Real.pi_lt_four
  have g2 := Real.pi_gt_three
  have g3 := Real.pi_lt_d4
  have hA : (GeodeticDatum.consts.WGS84 : GeodeticDatum (F64 roundLibm)).ellipsoid.a.m.toQ ≤ (7000000 : ℝ) :=
    (le_abs_self _).trans (earth_a (wgs84_earthSized (L := roundLibm))).2
  have hx : |2 * (Real.pi / 180) - (6 * ((31 : ℕ) : ℝ) - 180) * (Real.pi / 180)| ≤ 0.1 := by
    rw [abs_le]
    norm_num at *
    constructor <;> linarith
  obtain ⟨out, out', k1, -, k2⟩ := C112_geographic_to_projected roundLibm_accurateInverse roundLibm_accurateProjection
    (d := GeodeticDatum.consts.WGS84) (.northEastUp deg_unit ft_unit) hc
    (by rw [r]; show |2 * (Real.pi / 180)| ≤ Real.pi; rw [abs_of_pos (by positivity)]; linarith)
    (by rw [r]; show |45 * (Real.pi / 180)| ≤ Real.pi / 2; rw [abs_of_pos (by positivity)]; linarith)
    (by rw [r]; show _ ≤ 1000 * ((0.3048 : ℝ) / 1); norm_num)
    (by rw [r]; show 1000 * ((0.3048 : ℝ) / 1) ≤ _; norm_num)
    wgs84_earthSized wgs84_flat.1 wgs84_flat.2 greenwich_inLonRange (.eastNorthUp m_out m_out) "EPSG:4979" "EPSG:32631" "" "" ""
    (.utmNorth (z := 31) wgs84_flat.2 (by norm_num) (by norm_num)
      (by rw [r]; show |45 * (Real.pi / 180)| ≤ 1.4835; rw [abs_of_pos (by positivity)]; norm_num at *; linarith)
      (by
        rw [r]
        show 0 < Real.cos (2 * (Real.pi / 180) - (6 * ((31 : ℕ) : ℝ) - 180) * (Real.pi / 180))
        obtain ⟨h1, h2⟩ := abs_le.1 hx
        exact Real.cos_pos_of_mem_Ioo ⟨by norm_num at *; linarith, by norm_num at *; linarith⟩)
      (by
        rw [r]
        show |Real.sin (2 * (Real.pi / 180) - (6 * ((31 : ℕ) : ℝ) - 180) * (Real.pi / 180))| ≤ 0.4799
        exact (Real.abs_sin_le_abs.trans hx).trans (by norm_num)))
    buf [fin 0, fin 0, fin 0] hb rfl
  obtain ⟨x1, x2, x3, ⟨m, x4, x5⟩, x6, x7⟩ := k2
  exact ⟨out, out', k1, x1, x2, x3, ⟨m, x4.trans (by norm_num at *; linarith), x5⟩, x6.trans (by norm_num at *; linarith), x7⟩

/-- 45° N, 2° E on Web Mercator of WGS 84 in US survey feet and feet. -/
example : ∃ f g, WritesNear (L := roundLibm) (GeodeticDatum.consts.WGS84 : GeodeticDatum (F64 roundLibm)).ellipsoid
    (.webMercator ⟨⟨Flt.lit 0⟩⟩ ⟨⟨Flt.lit 0⟩⟩ ⟨Flt.lit 0⟩ ⟨Flt.lit 0⟩)
    (.webMercator (lonR (Flt.lit 0 : F64 roundLibm).toQ) (latR 0) ⟨fin (Flt.lit 0 : F64 roundLibm).toQ⟩ ⟨fin (Flt.lit 0 : F64 roundLibm).toQ⟩)
    (2 * (Real.pi / 180)) (Real.pi / 4) 1.6e-7 (Flt.lit 0 : F64 roundLibm).toQ
    (GeodeticDatum.consts.WGS84 : GeodeticDatum (F64 roundLibm)).ellipsoid.a.m.toQ f g ∧ f ≤ 2.5e-6 ∧ g ≤ 1.3e-6 := by
  have z : (B64.lit 0).isFinite = true ∧ (B64.lit 0).toQ = 0 := by decide +kernel
  have hA : (GeodeticDatum.consts.WGS84 : GeodeticDatum (F64 roundLibm)).ellipsoid.a.m.toQ ≤ (7000000 : ℝ) :=
    (le_abs_self _).trans (earth_a (wgs84_earthSized (L := roundLibm))).2
  have hA0 : (6000000 : ℝ) ≤ (GeodeticDatum.consts.WGS84 : GeodeticDatum (F64 roundLibm)).ellipsoid.a.m.toQ :=
    (earth_a (wgs84_earthSized (L := roundLibm))).1
  have h2 : (0.7 : ℝ) ≤ Real.cos (Real.pi / 4) := by
    rw [Real.cos_pi_div_four]
    have := Real.le_sqrt' (x := 1.4) (y := 2) (by norm_num)
    have := this.2 (by norm_num)
    linarith
  have h3 : (GeodeticDatum.consts.WGS84 : GeodeticDatum (F64 roundLibm)).ellipsoid.a.m.toQ / Real.cos (Real.pi / 4) ≤ (1e7 : ℝ) := by
    rw [div_le_iff₀ (by linarith)]
    norm_num at *
    linarith
  refine ⟨_, _, .webMercator ⟨z.1, ?_⟩ z.1 ?_ z.1 ?_ ?_ _ _, ?_, ?_⟩
  · show |(B64.lit 0).toQ| ≤ (Flt.pi : F64 roundLibm).toQ
    rw [z.2, show (Flt.pi : F64 roundLibm).toQ = B64.pi.toQ from rfl, pi_fin.2]; norm_num
  · show |(B64.lit 0).toQ| ≤ 20000000
    rw [z.2]; norm_num
  · show |(B64.lit 0).toQ| ≤ 20000000
    rw [z.2]; norm_num
  · exact le_trans (by norm_num) h2
  · norm_num at *; linarith
  · norm_num at *; linarith

end Geo
