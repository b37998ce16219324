import Verif.Lemmas.TransverseOverflow
import Verif.Lemmas.NearSpecial
import Verif.Props.TransverseInverseF64

/-! # C108: does the inverse of the transverse Mercator projection return, in IEEE arithmetic? -/

namespace Geo
open XR Spec
variable {L : Libm}

theorem finite_not_nan {x : F64 L} (h : x.isFinite) : ¬ x.isNaN := by
  intro k
  have h' : B64.isFinite x = true := h
  rw [show x = B64.nan from k] at h'
  cases h'

theorem hp_within {x : F64 L} {r ε : ℝ} (h : Near x r ε) (hb : |r| + ε ≤ 0.0625) : B64.Within (2 ^ (-4 : ℤ)) x := by
  refine ⟨h.1, ?_⟩
  have := h.abs_le_rat (q := 0.0625) (by push_cast; exact hb)
  refine le_trans this (by norm_num)

theorem kB_hi {el : Ellipsoid (F64 L)} (h : EarthSized el) {k0 : F64 L} {K0 : ℝ} (hk : Near k0 K0 1.2e-16) (k1 : 0.9 ≤ K0) (k2 : K0 ≤ 1.1) :
    let D := k0 * (el.a / (1.0 + el.n) * fastPoly [1, 0, 0.25, 0, 1 / 64] el.n : Length (F64 L)).m
    D.isFinite ∧ 5000000 ≤ D.toQ ∧ D.toQ ≤ 7730000 := by
  intro D
  obtain ⟨k, b1, b2⟩ := kB_near h hk k1 k2
  have := abs_le.1 k.2
  have h1 : ((5000000 : ℚ) : ℝ) ≤ (D.toQ : ℝ) := by push_cast; norm_num at *; linarith
  have h2 : (D.toQ : ℝ) ≤ ((7730000 : ℚ) : ℝ) := by push_cast; norm_num at *; linarith
  exact ⟨k.1, by exact_mod_cast h1, by exact_mod_cast h2⟩

/-- Coordinates are exact, the scale may be rounded. -/
theorem tm_hangs (hS : IeeeSpecial L) {el : Ellipsoid (F64 L)} (h : EarthSized el) {l0 : Lon (F64 L)} {φ0 : Lat (F64 L)} {k0 fe E N ht : F64 L}
    {fn : Length (F64 L)} {K0 : ℝ} (hk : Near k0 K0 1.2e-16) (k1 : 0.9 ≤ K0) (k2 : K0 ≤ 1.1) (hfe : fe.isFinite) (bfe : |fe.toQ| ≤ 20000000)
    (hE : E.isFinite) (bE : 720000000 ≤ |E.toQ|) :
    (TransverseMercator.new el l0 φ0 k0 ⟨fe⟩ fn).unproj ⟨⟨E⟩, ⟨N⟩, ⟨ht⟩⟩ = .error .diverge := by
  obtain ⟨d1, d2, d3⟩ := kB_hi h hk k1 k2
  refine unproj_overflow hS _ E N ht ?_
  have hs : B64.Far 700000000 (B64.sub E fe) := by
    refine B64.sub_far hE hfe ⟨700000000, 0, by norm_num, by norm_num, by norm_num⟩ (by norm_num) ?_
    have := abs_sub_abs_le_abs_sub (B64.toQ E) (B64.toQ fe)
    change 720000000 ≤ |B64.toQ E| at bE
    change |B64.toQ fe| ≤ 20000000 at bfe
    linarith
  exact B64.div_far (e := 7730000) d1 ⟨90, 0, by norm_num, by norm_num, by norm_num⟩ (lt_of_lt_of_le (by norm_num) d2) d3 hs (by norm_num) (by norm_num)

theorem tm_returns (hL : AccurateProjection L) (hS : IeeeSpecial L) {el : Ellipsoid (F64 L)} (h : EarthSized el) {l0 : Lon (F64 L)}
    {φ0 k0 fe fn E N ht : F64 L} {K0 : ℝ} (hφ0 : φ0.isFinite) (hb0 : |φ0.toQ| ≤ 1.4836) (hk : Near k0 K0 1.2e-16)
    (k1 : 0.9 ≤ K0) (k2 : K0 ≤ 1.1) (hfe : fe.isFinite) (bfe : |fe.toQ| ≤ 20000000) (hfn : fn.isFinite) (bfn : |fn.toQ| ≤ 20000000)
    (hE : E.isFinite) (bE : |E.toQ| ≤ 450000000) (hN : N.isFinite) (bN : |N.toQ| ≤ 1e50) :
    ∃ (l : Lon (F64 L)) (φ : F64 L), (TransverseMercator.new el l0 ⟨⟨φ0⟩⟩ k0 ⟨fe⟩ ⟨fn⟩).unproj ⟨⟨E⟩, ⟨N⟩, ⟨ht⟩⟩ = .ok ⟨l, ⟨⟨φ⟩⟩, ⟨ht⟩⟩ ∧
      φ.isFinite ∧ |φ.toQ| ≤ (Flt.pi_2 : F64 L).toQ := by
  obtain ⟨kn, bn⟩ := tm_n_near h
  obtain ⟨ke, ee0, ee1⟩ := tm_e_near hL.toAccurate h
  obtain ⟨kM, bM⟩ := arc_near hL h hφ0 hb0
  obtain ⟨kD, D1, D2⟩ := kB_near h hk k1 k2
  have cE : |(E.toQ : ℝ)| ≤ 450000000 := by have := cast_abs_le bE; push_cast at this; exact this
  have cfe : |(fe.toQ : ℝ)| ≤ 20000000 := by have := cast_abs_le bfe; push_cast at this; exact this
  have cN : |(N.toQ : ℝ)| ≤ 1e50 := by have := cast_abs_le bN; push_cast at this; exact this
  have cfn : |(fn.toQ : ℝ)| ≤ 20000000 := by have := cast_abs_le bfn; push_cast at this; exact this
  have hK : |K0| ≤ 1.1 := by rw [abs_of_nonneg (by norm_num at *; linarith)]; exact k2
  have dE : |(E.toQ : ℝ) - fe.toQ| ≤ 470000000 := (abs_sub _ _).trans (by linarith)
  have nE := Near.sub (Near.exact hE) (Near.exact hfe) (R := 470000000) (E := 6e-8) (by linarith) (by norm_num) (by norm_num) (by norm_num)
  have ny := Near.div' nE kD (A := 87.1) (B := 5400000) (C := 5000000) (R := 87.2) (E := 1e-10) (by norm_num at *; linarith) (by norm_num)
    D1 (by norm_num) (by norm_num) (by norm_num) (by norm_num) (by norm_num) (by norm_num)
  have dy : |((E.toQ : ℝ) - fe.toQ) / (K0 * tmB el.a.m.toQ el.b.m.toQ)| ≤ 87.1 := by
    rw [abs_div, abs_of_pos (show 0 < K0 * tmB (el.a.m.toQ : ℝ) el.b.m.toQ by linarith), div_le_iff₀ (by linarith)]
    norm_num at *; linarith
  have hy : B64.Within 88 _ := ⟨ny.1, ny.abs_le_rat (q := 88) (by push_cast; norm_num at *; linarith)⟩
  have dN : |(N.toQ : ℝ) - fn.toQ| ≤ 1.01e50 := (abs_sub _ _).trans (by norm_num at *; linarith)
  have nN := Near.sub (Near.exact hN) (Near.exact hfn) (R := 1.01e50) (E := 1.3e34) (by linarith) (by norm_num) (by norm_num) (by norm_num)
  have nM := Near.mul hk kM (A := 1.1) (B := 1.14e7) (R := 1.3e7) (E := 1) hK bM (by norm_num) (by norm_num) (by norm_num) (by norm_num)
  have dM : |K0 * tmM0 el.a.m.toQ el.b.m.toQ φ0.toQ| ≤ 1.3e7 := by
    rw [abs_mul]
    exact (mul_le_mul hK bM (abs_nonneg _) (by norm_num)).trans (by norm_num)
  have dS : |(N.toQ : ℝ) - fn.toQ + K0 * tmM0 el.a.m.toQ el.b.m.toQ φ0.toQ| ≤ 1.02e50 := (abs_add_le _ _).trans (by norm_num at *; linarith)
  have nS := Near.add nN nM (R := 1.03e50) (E := 3e34) (by norm_num at *; linarith) (by norm_num) (by norm_num) (by norm_num)
  have nx := Near.div' nS kD (A := 1e44) (B := 5400000) (C := 5000000) (R := 1.1e44) (E := 1e40) (by norm_num at *; linarith) (by norm_num)
    D1 (by norm_num) (by norm_num) (by norm_num) (by norm_num) (by norm_num) (by norm_num)
  have dx : |((N.toQ : ℝ) - fn.toQ + K0 * tmM0 el.a.m.toQ el.b.m.toQ φ0.toQ) / (K0 * tmB el.a.m.toQ el.b.m.toQ)| ≤ 1e44 := by
    rw [abs_div, abs_of_pos (show 0 < K0 * tmB (el.a.m.toQ : ℝ) el.b.m.toQ by linarith), div_le_iff₀ (by linarith)]
    norm_num at *; linarith
  have hx : B64.Within (2 ^ (1000 : ℤ)) _ := ⟨nx.1, (nx.abs_le_rat (q := 1e45) (by push_cast; norm_num at *; linarith)).trans
    (le_trans (by norm_num) (two_zpow_le (by norm_num : (200 : ℤ) ≤ 1000)))⟩
  have w0 := (tm_p0_near kn bn)
  have w1 := (tm_p1_near kn bn)
  have w2 := (tm_p2_near kn bn)
  have w3 := (tm_p3_near kn bn)
  obtain ⟨lon, u, u1, u2, u3⟩ := unproj_returns hL hS (TransverseMercator.new el l0 ⟨⟨φ0⟩⟩ k0 ⟨fe⟩ ⟨fn⟩) ke ee0 ee1
    (hp_within w0.1 (by have := w0.2; norm_num at *; linarith)) (hp_within w1.1 (by have := w1.2; norm_num at *; linarith))
    (hp_within w2.1 (by have := w2.2; norm_num at *; linarith)) (hp_within w3.1 (by have := w3.2; norm_num at *; linarith))
    (E := E) (N := N) (h := ht) hy hx
  have u4 : |u.toQ| ≤ 41.5 := by
    have : |(u.toQ : ℝ)| ≤ ((41.5 : ℚ) : ℝ) := u3.trans (by norm_num)
    exact_mod_cast this
  have f1 := hS.sinh_range u u2 (le_trans u4 (by norm_num))
  have ka := hL.atan (Flt.sinh u) f1.1
  have kc := lat_clamp_near (rad_near ka)
  refine ⟨lon, _, u1, kc.2.1, ?_⟩
  rcases inLatRange_clamp (Angle.new (Flt.atan (Flt.sinh u)) RAD : Angle (F64 L)).rad with hnan | ⟨_, b1, b2⟩
  · exact absurd hnan (finite_not_nan kc.2.1)
  · exact abs_le.2 ⟨b1, b2⟩

theorem k0_real {k0 : F64 L} (hk1 : 0.9 ≤ k0.toQ) (hk2 : k0.toQ ≤ 1.1) : (0.9 : ℝ) ≤ k0.toQ ∧ (k0.toQ : ℝ) ≤ 1.1 := by
  constructor
  · have : ((0.9 : ℚ) : ℝ) ≤ ((k0.toQ : ℚ) : ℝ) := by exact_mod_cast hk1
    push_cast at this; exact this
  · have : ((k0.toQ : ℚ) : ℝ) ≤ ((1.1 : ℚ) : ℝ) := by exact_mod_cast hk2
    push_cast at this; exact this

/-- **C108** does not hold: with a mathematical library that follows IEEE 754 on special values, on an ellipsoid of the size of
the Earth, `unproj` never returns when the easting, although finite, is 720 000 km or more from the axis, whatever the northing:
`cosh` overflows, the sine of the infinite sum is NaN and the loop never sees a difference below its tolerance. -/
theorem C108_returns_violated (hS : IeeeSpecial L) {el : Ellipsoid (F64 L)} (h : EarthSized el) (l0 : Lon (F64 L)) (φ0 : Lat (F64 L))
    {k0 fe : F64 L} (fn : Length (F64 L)) (hk : k0.isFinite) (hk1 : 0.9 ≤ k0.toQ) (hk2 : k0.toQ ≤ 1.1) (hfe : fe.isFinite)
    (bfe : |fe.toQ| ≤ 20000000) {E : F64 L} (N ht : F64 L) (hE : E.isFinite) (bE : 720000000 ≤ |E.toQ|) :
    ((ProjectionSpec.transverseMercator l0 φ0 k0 ⟨fe⟩ fn).appliedTo el).unproj ⟨⟨E⟩, ⟨N⟩, ⟨ht⟩⟩ = .error .diverge :=
  tm_hangs hS h ((Near.exact hk).mono (by norm_num)) (k0_real hk1 hk2).1 (k0_real hk1 hk2).2 hfe bfe hE bE

/-- **C108**, as far as it holds: for eastings up to 450 000 km and northings up to 1e50 m, whatever the flattening allowed by `EarthSized` (1/7), the loop
ends and the latitude returned is a number within 90 degrees. The height is unchanged. Missing: the eastings between 450 000 and
720 000 km. -/
theorem C108_returns_partial (hL : AccurateProjection L) (hS : IeeeSpecial L) {el : Ellipsoid (F64 L)} (h : EarthSized el) (l0 : Lon (F64 L))
    {φ0 k0 fe fn E N ht : F64 L} (hφ0 : φ0.isFinite) (hb0 : |φ0.toQ| ≤ 1.4836) (hk : k0.isFinite) (hk1 : 0.9 ≤ k0.toQ) (hk2 : k0.toQ ≤ 1.1)
    (hfe : fe.isFinite) (bfe : |fe.toQ| ≤ 20000000) (hfn : fn.isFinite) (bfn : |fn.toQ| ≤ 20000000)
    (hE : E.isFinite) (bE : |E.toQ| ≤ 450000000) (hN : N.isFinite) (bN : |N.toQ| ≤ 1e50) :
    ∃ (l : Lon (F64 L)) (φ : F64 L),
      ((ProjectionSpec.transverseMercator l0 ⟨⟨φ0⟩⟩ k0 ⟨fe⟩ ⟨fn⟩).appliedTo el).unproj ⟨⟨E⟩, ⟨N⟩, ⟨ht⟩⟩ = .ok ⟨l, ⟨⟨φ⟩⟩, ⟨ht⟩⟩ ∧
      φ.isFinite ∧ |φ.toQ| ≤ (Flt.pi_2 : F64 L).toQ :=
  tm_returns hL hS h hφ0 hb0 ((Near.exact hk).mono (by norm_num)) (k0_real hk1 hk2).1 (k0_real hk1 hk2).2 hfe bfe hfn bfn hE bE hN bN

/-- A grid with origin on the equator at 0.0625 rad of longitude, unit scale and false easting 500 000, on WGS 84, with a library that is both accurate and
follows IEEE 754 on special values: no answer for the finite easting 1e9, an answer for the easting 4e8, both at northing 9e9. -/
example : ((ProjectionSpec.transverseMercator ⟨⟨Flt.lit 0.0625⟩⟩ ⟨⟨Flt.lit 0⟩⟩ (Flt.lit 1) ⟨Flt.lit 500000⟩ ⟨Flt.lit 0⟩).appliedTo
      (Ellipsoid.consts.WGS84 : Ellipsoid (F64 specialLibm))).unproj ⟨⟨Flt.lit 1e9⟩, ⟨Flt.lit 9e9⟩, ⟨Flt.lit 12⟩⟩ = .error .diverge ∧
    ∃ (l : Lon (F64 specialLibm)) (φ : F64 specialLibm),
      ((ProjectionSpec.transverseMercator ⟨⟨Flt.lit 0.0625⟩⟩ ⟨⟨Flt.lit 0⟩⟩ (Flt.lit 1) ⟨Flt.lit 500000⟩ ⟨Flt.lit 0⟩).appliedTo
        (Ellipsoid.consts.WGS84 : Ellipsoid (F64 specialLibm))).unproj ⟨⟨Flt.lit 4e8⟩, ⟨Flt.lit 9e9⟩, ⟨Flt.lit 12⟩⟩ =
          .ok ⟨l, ⟨⟨φ⟩⟩, ⟨Flt.lit 12⟩⟩ ∧ φ.isFinite := by
  have v : (B64.isFinite (B64.lit 0) = true ∧ (B64.lit 0).toQ = 0) ∧
      (B64.isFinite (B64.lit 1) = true ∧ (B64.lit 1).toQ = 1) ∧ (B64.isFinite (B64.lit 500000) = true ∧ (B64.lit 500000).toQ = 500000) ∧
      (B64.isFinite (B64.lit 1e9) = true ∧ (B64.lit 1e9).toQ = 1e9) ∧ (B64.isFinite (B64.lit 4e8) = true ∧ (B64.lit 4e8).toQ = 4e8) ∧
      (B64.isFinite (B64.lit 9e9) = true ∧ (B64.lit 9e9).toQ = 9e9) := by decide +kernel
  obtain ⟨⟨f0, v0⟩, ⟨f1, v1⟩, ⟨f2, v2⟩, ⟨f3, v3⟩, ⟨f4, v4⟩, ⟨f5, v5⟩⟩ := v
  refine ⟨C108_returns_violated specialLibm_ieee wgs84_earthSized _ _ (k0 := B64.lit 1) (fe := B64.lit 500000) _ f1
    (by show _ ≤ (B64.lit 1).toQ; rw [v1]; norm_num) (by show (B64.lit 1).toQ ≤ _; rw [v1]; norm_num) f2
    (by show |(B64.lit 500000).toQ| ≤ _; rw [v2]; norm_num) (E := B64.lit 1e9) _ _ f3 (by show _ ≤ |(B64.lit 1e9).toQ|; rw [v3]; norm_num), ?_⟩
  obtain ⟨l, φ, h1, h2, -⟩ := C108_returns_partial specialLibm_accurate specialLibm_ieee wgs84_earthSized ⟨⟨Flt.lit 0.0625⟩⟩ (φ0 := B64.lit 0)
    (k0 := B64.lit 1) (fe := B64.lit 500000) (fn := B64.lit 0) (E := B64.lit 4e8) (N := B64.lit 9e9) (ht := B64.lit 12) f0
    (by show |(B64.lit 0).toQ| ≤ _; rw [v0]; norm_num) f1 (by show _ ≤ (B64.lit 1).toQ; rw [v1]; norm_num)
    (by show (B64.lit 1).toQ ≤ _; rw [v1]; norm_num) f2 (by show |(B64.lit 500000).toQ| ≤ _; rw [v2]; norm_num) f0
    (by show |(B64.lit 0).toQ| ≤ _; rw [v0]; norm_num) f4 (by show |(B64.lit 4e8).toQ| ≤ _; rw [v4]; norm_num) f5
    (by show |(B64.lit 9e9).toQ| ≤ _; rw [v5]; norm_num)
  exact ⟨l, φ, h1, h2⟩

theorem utm_k0_near : Near (TransverseMercator.UTM_K0 : F64 L) 0.9996 1.2e-16 := by
  obtain ⟨⟨k1, k2⟩, _⟩ := utm_values
  refine ⟨k1, ?_⟩
  have := cast_abs_le k2
  push_cast at this
  exact this

/-- **C108** in UTM: whatever the zone, `unproj` never returns from eastings of 720 000 km on. -/
theorem C108_utm_violated (hS : IeeeSpecial L) {el : Ellipsoid (F64 L)} (h : EarthSized el) (z : ℕ) {E : F64 L} (N ht : F64 L)
    (hE : E.isFinite) (bE : 720000000 ≤ |E.toQ|) :
    ((ProjectionSpec.utmNorth z).appliedTo el).unproj ⟨⟨E⟩, ⟨N⟩, ⟨ht⟩⟩ = .error .diverge ∧
    ((ProjectionSpec.utmSouth z).appliedTo el).unproj ⟨⟨E⟩, ⟨N⟩, ⟨ht⟩⟩ = .error .diverge := by
  obtain ⟨_, ⟨fe1, fe2⟩, _⟩ := utm_values
  have b : |(TransverseMercator.UTM_FE : Length (F64 L)).m.toQ| ≤ 20000000 := by
    change |B64.toQ (TransverseMercator.UTM_FE : Length (F64 noLibm)).m| ≤ _; rw [fe2]; norm_num
  exact ⟨tm_hangs hS h utm_k0_near (by norm_num) (by norm_num) (fe := (TransverseMercator.UTM_FE : Length (F64 L)).m) fe1 b hE bE,
    tm_hangs hS h utm_k0_near (by norm_num) (by norm_num) (fe := (TransverseMercator.UTM_FE : Length (F64 L)).m) fe1 b hE bE⟩

/-- **C108** in UTM, as far as it holds: whatever the zone, for eastings up to 450 000 km. -/
theorem C108_utm_partial (hL : AccurateProjection L) (hS : IeeeSpecial L) {el : Ellipsoid (F64 L)} (h : EarthSized el) (z : ℕ)
    {E N ht : F64 L} (hE : E.isFinite) (bE : |E.toQ| ≤ 450000000) (hN : N.isFinite) (bN : |N.toQ| ≤ 1e50) :
    (∃ (l : Lon (F64 L)) (φ : F64 L), ((ProjectionSpec.utmNorth z).appliedTo el).unproj ⟨⟨E⟩, ⟨N⟩, ⟨ht⟩⟩ = .ok ⟨l, ⟨⟨φ⟩⟩, ⟨ht⟩⟩ ∧
      φ.isFinite ∧ |φ.toQ| ≤ (Flt.pi_2 : F64 L).toQ) ∧
    (∃ (l : Lon (F64 L)) (φ : F64 L), ((ProjectionSpec.utmSouth z).appliedTo el).unproj ⟨⟨E⟩, ⟨N⟩, ⟨ht⟩⟩ = .ok ⟨l, ⟨⟨φ⟩⟩, ⟨ht⟩⟩ ∧
      φ.isFinite ∧ |φ.toQ| ≤ (Flt.pi_2 : F64 L).toQ) := by
  obtain ⟨_, ⟨fe1, fe2⟩, ⟨n1, n2⟩, ⟨s1, s2⟩, ⟨p1, p2⟩⟩ := utm_values
  have b : |(TransverseMercator.UTM_FE : Length (F64 L)).m.toQ| ≤ 20000000 := by
    change |B64.toQ (TransverseMercator.UTM_FE : Length (F64 noLibm)).m| ≤ _; rw [fe2]; norm_num
  have bn : |(TransverseMercator.UTM_FN_NORTH : Length (F64 L)).m.toQ| ≤ 20000000 := by
    change |B64.toQ (TransverseMercator.UTM_FN_NORTH : Length (F64 noLibm)).m| ≤ _; rw [n2]; norm_num
  have bs : |(TransverseMercator.UTM_FN_SOUTH : Length (F64 L)).m.toQ| ≤ 20000000 := by
    change |B64.toQ (TransverseMercator.UTM_FN_SOUTH : Length (F64 noLibm)).m| ≤ _; rw [s2]; norm_num
  have pp : |(TransverseMercator.UTM_LAT0 : Lat (F64 L)).angle.rad.toQ| ≤ 1.4836 := by
    change |B64.toQ (TransverseMercator.UTM_LAT0 : Lat (F64 noLibm)).angle.rad| ≤ _; rw [p2]; norm_num
  exact ⟨tm_returns hL hS h (φ0 := (TransverseMercator.UTM_LAT0 : Lat (F64 L)).angle.rad) p1 pp utm_k0_near (by norm_num) (by norm_num)
      (fe := (TransverseMercator.UTM_FE : Length (F64 L)).m) fe1 b (fn := (TransverseMercator.UTM_FN_NORTH : Length (F64 L)).m) n1 bn hE bE hN bN,
    tm_returns hL hS h (φ0 := (TransverseMercator.UTM_LAT0 : Lat (F64 L)).angle.rad) p1 pp utm_k0_near (by norm_num) (by norm_num)
      (fe := (TransverseMercator.UTM_FE : Length (F64 L)).m) fe1 b (fn := (TransverseMercator.UTM_FN_SOUTH : Length (F64 L)).m) s1 bs hE bE hN bN⟩

/-- Zone 31 on WGS 84: no answer for the finite easting 1e9, an answer for the easting 4e8. -/
example : ((ProjectionSpec.utmNorth 31).appliedTo (Ellipsoid.consts.WGS84 : Ellipsoid (F64 specialLibm))).unproj
      ⟨⟨Flt.lit 1e9⟩, ⟨Flt.lit 9e9⟩, ⟨Flt.lit 12⟩⟩ = .error .diverge ∧
    ∃ (l : Lon (F64 specialLibm)) (φ : F64 specialLibm),
      ((ProjectionSpec.utmSouth 31).appliedTo (Ellipsoid.consts.WGS84 : Ellipsoid (F64 specialLibm))).unproj
        ⟨⟨Flt.lit 4e8⟩, ⟨Flt.lit 9e9⟩, ⟨Flt.lit 12⟩⟩ = .ok ⟨l, ⟨⟨φ⟩⟩, ⟨Flt.lit 12⟩⟩ ∧ φ.isFinite := by
  have v : (B64.isFinite (B64.lit 1e9) = true ∧ (B64.lit 1e9).toQ = 1e9) ∧ (B64.isFinite (B64.lit 4e8) = true ∧ (B64.lit 4e8).toQ = 4e8) ∧
      (B64.isFinite (B64.lit 9e9) = true ∧ (B64.lit 9e9).toQ = 9e9) := by decide +kernel
  obtain ⟨⟨f3, v3⟩, ⟨f4, v4⟩, ⟨f5, v5⟩⟩ := v
  refine ⟨(C108_utm_violated specialLibm_ieee wgs84_earthSized 31 (E := B64.lit 1e9) _ _ f3
    (by show _ ≤ |(B64.lit 1e9).toQ|; rw [v3]; norm_num)).1, ?_⟩
  obtain ⟨l, φ, h1, h2, -⟩ := (C108_utm_partial specialLibm_accurate specialLibm_ieee wgs84_earthSized 31
    (E := B64.lit 4e8) (N := B64.lit 9e9) (ht := B64.lit 12) f4 (by show |(B64.lit 4e8).toQ| ≤ _; rw [v4]; norm_num) f5
    (by show |(B64.lit 9e9).toQ| ≤ _; rw [v5]; norm_num)).2
  exact ⟨l, φ, h1, h2⟩

end Geo
