import Verif.Props.VincentyF64

/-! The two direct solvers agree, and going along a geodesic in stages with the Vincenty solver, in IEEE arithmetic. -/

namespace Geo
open XR Spec
variable {L : Libm}

/-- **C118**: from the same start, with the same azimuth and over the same distance the Vincenty and the Karney direct solvers in IEEE arithmetic
return the same point up to Vincenty's truncation error `f⁴ (0.22 |s| + a / 400)` and nine micrometres, which is less than a millimetre
on every ellipsoid flattened at most by 1/290. The azimuths returned are those of the same direction up to the same truncation error and
`2.4·10⁻¹²`, divided by the cosine of the latitude. -/
theorem C118_direct_solvers_agree (hL : AccurateVincenty L) {el : Ellipsoid (F64 L)} (h : EarthSized el)
    (hfl : 0.995 * el.a.m.toQ ≤ el.b.m.toQ) (hf : Near el.f (((el.a.m.toQ : ℝ) - el.b.m.toQ) / el.a.m.toQ) 3e-16) {l φ α s : F64 L}
    (hl : InLonRange l) (hφ : φ.isFinite) (hφ2 : |φ.toQ| ≤ (Flt.pi_2 : F64 L).toQ) (hc : 0.1 ≤ Real.cos φ.toQ) (hα : InLonRange α)
    (hs : s.isFinite) (hs2 : |s.toQ| ≤ 21000000) :
    let a : ℝ := el.a.m.toQ
    let b : ℝ := el.b.m.toQ
    ∃ l₂ φ₂ α₂ l₃ φ₃ α₃ : F64 L,
      (GeodesicSolver.vincenty (⟨el⟩ : VincentyGeodesicSolver (F64 L))).solveDirect (⟨⟨l⟩⟩, ⟨⟨φ⟩⟩) ⟨⟨α⟩⟩ ⟨s⟩ =
        .ok ⟨(⟨⟨l⟩⟩, ⟨⟨φ⟩⟩), ⟨⟨α⟩⟩, (⟨⟨l₂⟩⟩, ⟨⟨φ₂⟩⟩), ⟨⟨α₂⟩⟩, ⟨s⟩⟩ ∧
      (GeodesicSolver.karney (KarneyGeodesicSolver.new el)).solveDirect (⟨⟨l⟩⟩, ⟨⟨φ⟩⟩) ⟨⟨α⟩⟩ ⟨s⟩ =
        .ok ⟨(⟨⟨l⟩⟩, ⟨⟨φ⟩⟩), ⟨⟨α⟩⟩, (⟨⟨l₃⟩⟩, ⟨⟨φ₃⟩⟩), ⟨⟨α₃⟩⟩, ⟨s⟩⟩ ∧
      ‖surfacePoint a b l₂.toQ φ₂.toQ - surfacePoint a b l₃.toQ φ₃.toQ‖ ≤
        ((a - b) / a) ^ 4 * (22 / 100 * |(s.toQ : ℝ)| + 1 / 400 * a) + 9e-6 ∧
      ((a - b) / a ≤ 1 / 290 → ‖surfacePoint a b l₂.toQ φ₂.toQ - surfacePoint a b l₃.toQ φ₃.toQ‖ ≤ 1e-3) ∧
      min (Real.cos φ₂.toQ) (Real.cos φ₃.toQ) * ‖direction l₂.toQ φ₂.toQ α₂.toQ - direction l₃.toQ φ₃.toQ α₃.toQ‖ ≤
        ((a - b) / a) ^ 4 * (22 / 100 * (|(s.toQ : ℝ)| / a) + 1 / 400) + 2.4e-12 := by
  intro a b
  obtain ⟨e1, e2, e3⟩ := earth_real h
  have hb : 0 < b := lt_of_lt_of_le (by norm_num) e1
  have hab : b ≤ a := e2
  have ha : 0 < a := lt_of_lt_of_le hb hab
  have ha7 : a ≤ 7000000 := e3
  have hs' : |(s.toQ : ℝ)| ≤ 21000000 := by exact_mod_cast cast_abs_le hs2
  obtain ⟨γ, l₂, φ₂, α₂, h1, -, -, -, -, hγ, g1, g2, p1, p2⟩ := C117_vincenty_direct hL h hfl hf hl hφ hφ2 hc hα hs hs2
  obtain ⟨l₃, φ₃, α₃, γ', k1, -, -, -, -, hγ', g1', g2', -, q1, q2⟩ :=
    C114_karney_forward hL.toAccurateGeodesic h hfl hf hl hφ hφ2 hc hα hs hs2
  obtain rfl : γ = γ' := C78_unique hb hab hγ hγ' (g1.trans g1'.symm) (g2.trans g2'.symm)
  have p1' : ‖surfacePoint a b l₂.toQ φ₂.toQ - γ s.toQ‖ ≤ ((a - b) / a) ^ 4 * (22 / 100 * |(s.toQ : ℝ)| + 1 / 400 * a) + 7e-7 := p1
  have q1' : ‖surfacePoint a b l₃.toQ φ₃.toQ - γ s.toQ‖ ≤ 8e-6 := q1
  have t := norm_sub_le_norm_sub_add_norm_sub (surfacePoint a b l₂.toQ φ₂.toQ) (γ s.toQ) (surfacePoint a b l₃.toQ φ₃.toQ)
  rw [norm_sub_rev (γ _)] at t
  have r : ‖surfacePoint a b l₂.toQ φ₂.toQ - surfacePoint a b l₃.toQ φ₃.toQ‖ ≤
      ((a - b) / a) ^ 4 * (22 / 100 * |(s.toQ : ℝ)| + 1 / 400 * a) + 9e-6 := by
    norm_num at p1' q1' ⊢
    linarith
  refine ⟨l₂, φ₂, α₂, l₃, φ₃, α₃, h1, k1, r, fun hn => r.trans ?_, ?_⟩
  · have hF0 : 0 ≤ (a - b) / a := div_nonneg (by linarith) ha.le
    have m := mul_le_mul (pow_le_pow_left₀ hF0 hn 4)
      (show 22 / 100 * |(s.toQ : ℝ)| + 1 / 400 * a ≤ 4637500 by linarith) (by positivity) (by positivity)
    norm_num at m ⊢
    linarith
  · have p2' : Real.cos φ₂.toQ * ‖direction l₂.toQ φ₂.toQ α₂.toQ - deriv γ s.toQ‖ ≤
        ((a - b) / a) ^ 4 * (22 / 100 * (|(s.toQ : ℝ)| / a) + 1 / 400) + 4e-13 := p2
    have u := norm_sub_le_norm_sub_add_norm_sub (direction l₂.toQ φ₂.toQ α₂.toQ) (deriv γ s.toQ) (direction l₃.toQ φ₃.toQ α₃.toQ)
    rw [norm_sub_rev (deriv γ _)] at u
    have m2 := mul_le_mul_of_nonneg_right (min_le_left (Real.cos φ₂.toQ) (Real.cos φ₃.toQ))
      (norm_nonneg (direction l₂.toQ φ₂.toQ α₂.toQ - deriv γ s.toQ))
    have m3 := mul_le_mul_of_nonneg_right (min_le_right (Real.cos φ₂.toQ) (Real.cos φ₃.toQ))
      (norm_nonneg (direction l₃.toQ φ₃.toQ α₃.toQ - deriv γ s.toQ))
    rcases le_or_gt 0 (min (Real.cos φ₂.toQ) (Real.cos φ₃.toQ)) with h0 | h0
    · have m := mul_le_mul_of_nonneg_left u h0
      rw [mul_add] at m
      norm_num at p2' q2 ⊢
      linarith
    · refine (mul_nonpos_of_nonpos_of_nonneg h0.le (norm_nonneg _)).trans ?_
      positivity

/-- **C119**: solving the direct problem with the Vincenty solver over one distance and then, from the point and with the azimuth returned, over
another, leads to the same point as solving it at once over a third distance, to `6·10⁻⁶ / cos φ₂` metres, the truncation errors, and
what the third distance differs from the sum of the two. With the opposite of the first distance as the second one and zero as the third
one this is the way there and back. -/
theorem C119_vincenty_stages (hL : AccurateVincenty L) {el : Ellipsoid (F64 L)} (h : EarthSized el) (hfl : 0.995 * el.a.m.toQ ≤ el.b.m.toQ)
    (hf : Near el.f (((el.a.m.toQ : ℝ) - el.b.m.toQ) / el.a.m.toQ) 3e-16) {l φ α s s₁ s₂ : F64 L} (hl : InLonRange l) (hφ : φ.isFinite)
    (hφ2 : |φ.toQ| ≤ (Flt.pi_2 : F64 L).toQ) (hc : 0.1 ≤ Real.cos φ.toQ) (hα : InLonRange α) (hs : s.isFinite) (hs2 : |s.toQ| ≤ 21000000)
    (hs₁ : s₁.isFinite) (hs₁2 : |s₁.toQ| ≤ 21000000) (hs₂ : s₂.isFinite) (hs₂2 : |s₂.toQ| ≤ 21000000) :
    let a : ℝ := el.a.m.toQ
    let b : ℝ := el.b.m.toQ
    let T : ℝ → ℝ := fun x => ((a - b) / a) ^ 4 * (22 / 100 * |x| + 1 / 400 * a)
    ∃ l₂ φ₂ α₂ l₄ φ₄ α₄ : F64 L,
      (GeodesicSolver.vincenty (⟨el⟩ : VincentyGeodesicSolver (F64 L))).solveDirect (⟨⟨l⟩⟩, ⟨⟨φ⟩⟩) ⟨⟨α⟩⟩ ⟨s₁⟩ =
        .ok ⟨(⟨⟨l⟩⟩, ⟨⟨φ⟩⟩), ⟨⟨α⟩⟩, (⟨⟨l₂⟩⟩, ⟨⟨φ₂⟩⟩), ⟨⟨α₂⟩⟩, ⟨s₁⟩⟩ ∧
      (GeodesicSolver.vincenty (⟨el⟩ : VincentyGeodesicSolver (F64 L))).solveDirect (⟨⟨l⟩⟩, ⟨⟨φ⟩⟩) ⟨⟨α⟩⟩ ⟨s⟩ =
        .ok ⟨(⟨⟨l⟩⟩, ⟨⟨φ⟩⟩), ⟨⟨α⟩⟩, (⟨⟨l₄⟩⟩, ⟨⟨φ₄⟩⟩), ⟨⟨α₄⟩⟩, ⟨s⟩⟩ ∧
      (0.1 ≤ Real.cos φ₂.toQ → ∃ l₃ φ₃ α₃ : F64 L,
        (GeodesicSolver.vincenty (⟨el⟩ : VincentyGeodesicSolver (F64 L))).solveDirect (⟨⟨l₂⟩⟩, ⟨⟨φ₂⟩⟩) ⟨⟨α₂⟩⟩ ⟨s₂⟩ =
          .ok ⟨(⟨⟨l₂⟩⟩, ⟨⟨φ₂⟩⟩), ⟨⟨α₂⟩⟩, (⟨⟨l₃⟩⟩, ⟨⟨φ₃⟩⟩), ⟨⟨α₃⟩⟩, ⟨s₂⟩⟩ ∧
        ‖surfacePoint a b l₃.toQ φ₃.toQ - surfacePoint a b l₄.toQ φ₄.toQ‖ ≤
          (2.34 * T s₁.toQ + 6e-6) / Real.cos φ₂.toQ + T s₂.toQ + T s.toQ + |(s₁.toQ : ℝ) + s₂.toQ - s.toQ|) := by
  intro a b T
  obtain ⟨e1, e2, e3⟩ := earth_real h
  obtain ⟨f1, f2⟩ := ba_bound h hfl
  have hb : 0 < b := lt_of_lt_of_le (by norm_num) e1
  have hab : b ≤ a := e2
  have ha : 0 < a := lt_of_lt_of_le hb hab
  have ha7 : a ≤ 7000000 := e3
  have hs₂' : |(s₂.toQ : ℝ)| ≤ 21000000 := by exact_mod_cast cast_abs_le hs₂2
  obtain ⟨γ, l₂, φ₂, α₂, h1, h2, h3, h4, h5, hγ, g1, g2, p1, p2⟩ := C117_vincenty_direct hL h hfl hf hl hφ hφ2 hc hα hs₁ hs₁2
  obtain ⟨γ', l₄, φ₄, α₄, k1, -, -, -, -, hγ', g1', g2', p1', -⟩ := C117_vincenty_direct hL h hfl hf hl hφ hφ2 hc hα hs hs2
  obtain rfl : γ = γ' := C78_unique hb hab hγ hγ' (g1.trans g1'.symm) (g2.trans g2'.symm)
  refine ⟨l₂, φ₂, α₂, l₄, φ₄, α₄, h1, k1, fun hc2 => ?_⟩
  obtain ⟨η, l₃, φ₃, α₃, j1, -, -, -, -, hη, i1, i2, q1, -⟩ := C117_vincenty_direct hL h hfl hf h2 h3 h4 hc2 h5 hs₂ hs₂2
  refine ⟨l₃, φ₃, α₃, j1, ?_⟩
  set c := Real.cos φ₂.toQ with hcd
  have hc0 : 0 < c := lt_of_lt_of_le (by norm_num) hc2
  have hc1 : c ≤ 1 := Real.cos_le_one _
  have hT : 0 ≤ T s₁.toQ := by
    have : 0 ≤ (a - b) / a := div_nonneg (by linarith) ha.le
    positivity
  have p1a : ‖surfacePoint a b l₂.toQ φ₂.toQ - γ s₁.toQ‖ ≤ T s₁.toQ + 7e-7 := p1
  have p2a : c * ‖direction l₂.toQ φ₂.toQ α₂.toQ - deriv γ s₁.toQ‖ ≤ T s₁.toQ / a + 4e-13 := by
    have p2b : c * ‖direction l₂.toQ φ₂.toQ α₂.toQ - deriv γ s₁.toQ‖ ≤
        ((a - b) / a) ^ 4 * (22 / 100 * (|(s₁.toQ : ℝ)| / a) + 1 / 400) + 4e-13 := p2
    refine p2b.trans (le_of_eq ?_)
    simp only [T]
    rw [mul_div_assoc, add_div, mul_div_assoc, mul_div_assoc, div_self ha.ne', mul_one]
  have ed : deriv (fun x => γ (s₁.toQ + x)) = fun x => deriv γ (s₁.toQ + x) := funext fun x => deriv_comp_const_add _ _ _
  have x1 : ‖η 0 - γ (s₁.toQ + 0)‖ ≤ (T s₁.toQ + 7e-7) / a * a := by
    rw [add_zero, i1, div_mul_cancel₀ _ ha.ne']
    exact p1a
  have x2 : ‖deriv η 0 - deriv (fun x => γ (s₁.toQ + x)) 0‖ ≤ (T s₁.toQ / a + 4e-13) / c := by
    rw [ed]
    simp only [add_zero]
    rw [i2, le_div_iff₀ hc0, mul_comm]
    exact p2a
  obtain ⟨c1, -⟩ := hη.close hb hab f1 (hγ.shift s₁.toQ) x1 x2 (t := s₂.toQ) (reach e1 hab hs₂')
  have q1' : ‖surfacePoint a b l₃.toQ φ₃.toQ - η s₂.toQ‖ ≤ T s₂.toQ + 7e-7 := q1
  have p1b : ‖surfacePoint a b l₄.toQ φ₄.toQ - γ s.toQ‖ ≤ T s.toQ + 7e-7 := p1'
  have hch : ‖γ (s₁.toQ + s₂.toQ) - γ s.toQ‖ ≤ |(s₁.toQ : ℝ) + s₂.toQ - s.toQ| := hγ.chord _ _
  have t := norm_sub_le_norm_sub_add_norm_sub (surfacePoint a b l₃.toQ φ₃.toQ) (η s₂.toQ) (surfacePoint a b l₄.toQ φ₄.toQ)
  have t1 := norm_sub_le_norm_sub_add_norm_sub (η s₂.toQ) (γ (s₁.toQ + s₂.toQ)) (surfacePoint a b l₄.toQ φ₄.toQ)
  have t2 := norm_sub_le_norm_sub_add_norm_sub (γ (s₁.toQ + s₂.toQ)) (γ s.toQ) (surfacePoint a b l₄.toQ φ₄.toQ)
  rw [norm_sub_rev (γ s.toQ)] at t2
  have c1' : ‖η s₂.toQ - γ (s₁.toQ + s₂.toQ)‖ ≤ (1.17 * c * (T s₁.toQ + 7e-7) + 1.17 * (T s₁.toQ + 4e-13 * a)) / c := by
    refine c1.trans (le_of_eq ?_)
    field_simp
  have c2 : (1.17 * c * (T s₁.toQ + 7e-7) + 1.17 * (T s₁.toQ + 4e-13 * a)) / c + 1.4e-6 ≤ (2.34 * T s₁.toQ + 6e-6) / c := by
    rw [div_add' _ _ _ hc0.ne']
    refine div_le_div_of_nonneg_right ?_ hc0.le
    have m := mul_le_mul_of_nonneg_right hc1 hT
    norm_num at m ⊢
    linarith
  norm_num at q1' p1b c1' c2 ⊢
  linarith

/-- WGS 84 is flattened by less than 1/290. -/
theorem wgs84_flat_290 : 290 * ((Ellipsoid.consts.WGS84 : Ellipsoid (F64 L)).a.m.toQ - (Ellipsoid.consts.WGS84 : Ellipsoid (F64 L)).b.m.toQ) ≤
    (Ellipsoid.consts.WGS84 : Ellipsoid (F64 L)).a.m.toQ := by
  change 290 * ((Ellipsoid.consts.WGS84 : Ellipsoid (F64 noLibm)).a.m.toQ - (Ellipsoid.consts.WGS84 : Ellipsoid (F64 noLibm)).b.m.toQ) ≤
    (Ellipsoid.consts.WGS84 : Ellipsoid (F64 noLibm)).a.m.toQ
  decide +kernel

theorem wgs84_flat_real : (((Ellipsoid.consts.WGS84 : Ellipsoid (F64 L)).a.m.toQ : ℝ) - (Ellipsoid.consts.WGS84 : Ellipsoid (F64 L)).b.m.toQ) /
    (Ellipsoid.consts.WGS84 : Ellipsoid (F64 L)).a.m.toQ ≤ 1 / 290 := by
  obtain ⟨e1, e2, e3⟩ := earth_real (wgs84_earthSized (L := L))
  have h : (290 : ℝ) * ((Ellipsoid.consts.WGS84 : Ellipsoid (F64 L)).a.m.toQ - (Ellipsoid.consts.WGS84 : Ellipsoid (F64 L)).b.m.toQ) ≤
      (Ellipsoid.consts.WGS84 : Ellipsoid (F64 L)).a.m.toQ := by exact_mod_cast wgs84_flat_290 (L := L)
  rw [div_le_iff₀ (lt_of_lt_of_le (by norm_num) (e1.trans e2))]
  linarith

/-- Vincenty's truncation error over at most 2000 km. -/
theorem trunc_small {a b x : ℝ} (ha : 0 < a) (ha7 : a ≤ 7000000) (hab : b ≤ a) (hn : (a - b) / a ≤ 1 / 290) (hx : |x| ≤ 2000000) :
    ((a - b) / a) ^ 4 * (22 / 100 * |x| + 1 / 400 * a) ≤ 6.6e-5 := by
  have hF0 : 0 ≤ (a - b) / a := div_nonneg (by linarith) ha.le
  have m := mul_le_mul (pow_le_pow_left₀ hF0 hn 4) (show 22 / 100 * |x| + 1 / 400 * a ≤ 457500 by linarith) (by positivity) (by positivity)
  norm_num at m ⊢
  linarith

/-- The end of the geodesic of the example is far from the poles. -/
theorem vincenty_sample_cos {l₂ φ₂ α₂ : F64 geodesicLibm}
    (k1 : (GeodesicSolver.vincenty ⟨(Ellipsoid.consts.WGS84 : Ellipsoid (F64 geodesicLibm))⟩).solveDirect
      (⟨⟨Flt.lit 0.0625⟩⟩, ⟨⟨Flt.lit 0.75⟩⟩) ⟨⟨Flt.lit 0.5⟩⟩ ⟨Flt.lit 1000000⟩ =
      .ok ⟨(⟨⟨Flt.lit 0.0625⟩⟩, ⟨⟨Flt.lit 0.75⟩⟩), ⟨⟨Flt.lit 0.5⟩⟩, (⟨⟨l₂⟩⟩, ⟨⟨φ₂⟩⟩), ⟨⟨α₂⟩⟩, ⟨Flt.lit 1000000⟩⟩) : 0.1 ≤ Real.cos φ₂.toQ := by
  obtain ⟨⟨i1, u1⟩, -, ⟨i2, i3, i4, u2⟩, ⟨i5, u3⟩, i6, i7, u4⟩ := sample_values
  have hE : EarthSized (Ellipsoid.consts.WGS84 : Ellipsoid (F64 geodesicLibm)) := wgs84_earthSized
  have hF := (wgs84_flat (L := geodesicLibm)).2
  obtain ⟨γ, l₂, φ₂, α₂, h1, -, -, h0, -, hγ, h2, -, h4, -⟩ :=
    C117_vincenty_direct geodesicLibm_accurateVincenty hE hF wgs84_f i1 i2 i3 i4 i5 i6 i7
  have e := h1.symm.trans k1
  simp only [Except.ok.injEq, Geodesic.mk.injEq, Prod.mk.injEq, Lon.mk.injEq, Lat.mk.injEq, Azimuth.mk.injEq, Angle.mk.injEq] at e
  obtain ⟨-, -, ⟨rfl, rfl⟩, rfl, -⟩ := e
  change γ 0 = surfacePoint _ _ ((B64.lit 0.0625).toQ : ℝ) ((B64.lit 0.75).toQ : ℝ) at h2
  change ‖_ - γ ((B64.lit 1000000).toQ : ℝ)‖ ≤ _ * (_ * |((B64.lit 1000000).toQ : ℝ)| + _) + _ at h4
  rw [u1, u2] at h2
  rw [u4] at h4
  obtain ⟨e1, e2, e3⟩ := earth_real hE
  have ht := trunc_small (x := 1000000) (lt_of_lt_of_le (by norm_num) (e1.trans e2)) e3 e2 wgs84_flat_real
    (by rw [abs_of_pos (by norm_num)]; norm_num)
  refine sample_end (l := l₂.toQ) e1 e2 (ba_bound hE hF).1 ?_ ?_
  · have t := abs_le.1 ((cast_abs_le h0).trans pi_2_real.2)
    exact Real.cos_nonneg_of_neg_pi_div_two_le_of_le t.1 t.2
  · rw [← h2]
    have t := norm_sub_le_norm_sub_add_norm_sub (surfacePoint (Ellipsoid.consts.WGS84 : Ellipsoid (F64 geodesicLibm)).a.m.toQ
      (Ellipsoid.consts.WGS84 : Ellipsoid (F64 geodesicLibm)).b.m.toQ l₂.toQ φ₂.toQ) (γ 1000000) (γ 0)
    have t2 : ‖γ 1000000 - γ 0‖ ≤ 1000000 := (hγ.chord 0 1000000).trans_eq (by norm_num)
    have h4' := h4.trans (add_le_add_left ht _)
    norm_num at t2 h4' ⊢
    linarith

/-- C118 on WGS 84: 1000 km with both solvers, to a millimetre. -/
example : ∃ l₂ φ₂ α₂ l₃ φ₃ α₃ : F64 geodesicLibm,
    (GeodesicSolver.vincenty ⟨(Ellipsoid.consts.WGS84 : Ellipsoid (F64 geodesicLibm))⟩).solveDirect
      (⟨⟨Flt.lit 0.0625⟩⟩, ⟨⟨Flt.lit 0.75⟩⟩) ⟨⟨Flt.lit 0.5⟩⟩ ⟨Flt.lit 1000000⟩ =
      .ok ⟨(⟨⟨Flt.lit 0.0625⟩⟩, ⟨⟨Flt.lit 0.75⟩⟩), ⟨⟨Flt.lit 0.5⟩⟩, (⟨⟨l₂⟩⟩, ⟨⟨φ₂⟩⟩), ⟨⟨α₂⟩⟩, ⟨Flt.lit 1000000⟩⟩ ∧
    (GeodesicSolver.karney (KarneyGeodesicSolver.new (Ellipsoid.consts.WGS84 : Ellipsoid (F64 geodesicLibm)))).solveDirect
      (⟨⟨Flt.lit 0.0625⟩⟩, ⟨⟨Flt.lit 0.75⟩⟩) ⟨⟨Flt.lit 0.5⟩⟩ ⟨Flt.lit 1000000⟩ =
      .ok ⟨(⟨⟨Flt.lit 0.0625⟩⟩, ⟨⟨Flt.lit 0.75⟩⟩), ⟨⟨Flt.lit 0.5⟩⟩, (⟨⟨l₃⟩⟩, ⟨⟨φ₃⟩⟩), ⟨⟨α₃⟩⟩, ⟨Flt.lit 1000000⟩⟩ ∧
    ‖surfacePoint (Ellipsoid.consts.WGS84 : Ellipsoid (F64 geodesicLibm)).a.m.toQ (Ellipsoid.consts.WGS84 : Ellipsoid (F64 geodesicLibm)).b.m.toQ
      l₂.toQ φ₂.toQ - surfacePoint (Ellipsoid.consts.WGS84 : Ellipsoid (F64 geodesicLibm)).a.m.toQ
      (Ellipsoid.consts.WGS84 : Ellipsoid (F64 geodesicLibm)).b.m.toQ l₃.toQ φ₃.toQ‖ ≤ 1e-3 := by
  obtain ⟨⟨i1, u1⟩, -, ⟨i2, i3, i4, u2⟩, ⟨i5, u3⟩, i6, i7, u4⟩ := sample_values
  obtain ⟨l₂, φ₂, α₂, l₃, φ₃, α₃, h1, h2, -, h3, -⟩ := C118_direct_solvers_agree (L := geodesicLibm) geodesicLibm_accurateVincenty
    (el := Ellipsoid.consts.WGS84) wgs84_earthSized (wgs84_flat (L := geodesicLibm)).2 wgs84_f i1 i2 i3 i4 i5 i6 i7
  exact ⟨l₂, φ₂, α₂, l₃, φ₃, α₃, h1, h2, h3 wgs84_flat_real⟩

/-- C119 on WGS 84: 1000 km and then 500 km, against 1500 km at once. -/
example : ∃ l₂ φ₂ α₂ l₄ φ₄ α₄ l₃ φ₃ α₃ : F64 geodesicLibm,
    (GeodesicSolver.vincenty ⟨(Ellipsoid.consts.WGS84 : Ellipsoid (F64 geodesicLibm))⟩).solveDirect
      (⟨⟨Flt.lit 0.0625⟩⟩, ⟨⟨Flt.lit 0.75⟩⟩) ⟨⟨Flt.lit 0.5⟩⟩ ⟨Flt.lit 1000000⟩ =
      .ok ⟨(⟨⟨Flt.lit 0.0625⟩⟩, ⟨⟨Flt.lit 0.75⟩⟩), ⟨⟨Flt.lit 0.5⟩⟩, (⟨⟨l₂⟩⟩, ⟨⟨φ₂⟩⟩), ⟨⟨α₂⟩⟩, ⟨Flt.lit 1000000⟩⟩ ∧
    (GeodesicSolver.vincenty ⟨(Ellipsoid.consts.WGS84 : Ellipsoid (F64 geodesicLibm))⟩).solveDirect
      (⟨⟨Flt.lit 0.0625⟩⟩, ⟨⟨Flt.lit 0.75⟩⟩) ⟨⟨Flt.lit 0.5⟩⟩ ⟨Flt.lit 1500000⟩ =
      .ok ⟨(⟨⟨Flt.lit 0.0625⟩⟩, ⟨⟨Flt.lit 0.75⟩⟩), ⟨⟨Flt.lit 0.5⟩⟩, (⟨⟨l₄⟩⟩, ⟨⟨φ₄⟩⟩), ⟨⟨α₄⟩⟩, ⟨Flt.lit 1500000⟩⟩ ∧
    (GeodesicSolver.vincenty ⟨(Ellipsoid.consts.WGS84 : Ellipsoid (F64 geodesicLibm))⟩).solveDirect
      (⟨⟨l₂⟩⟩, ⟨⟨φ₂⟩⟩) ⟨⟨α₂⟩⟩ ⟨Flt.lit 500000⟩ =
      .ok ⟨(⟨⟨l₂⟩⟩, ⟨⟨φ₂⟩⟩), ⟨⟨α₂⟩⟩, (⟨⟨l₃⟩⟩, ⟨⟨φ₃⟩⟩), ⟨⟨α₃⟩⟩, ⟨Flt.lit 500000⟩⟩ ∧
    ‖surfacePoint (Ellipsoid.consts.WGS84 : Ellipsoid (F64 geodesicLibm)).a.m.toQ (Ellipsoid.consts.WGS84 : Ellipsoid (F64 geodesicLibm)).b.m.toQ
      l₃.toQ φ₃.toQ - surfacePoint (Ellipsoid.consts.WGS84 : Ellipsoid (F64 geodesicLibm)).a.m.toQ
      (Ellipsoid.consts.WGS84 : Ellipsoid (F64 geodesicLibm)).b.m.toQ l₄.toQ φ₄.toQ‖ ≤ 2e-3 := by
  obtain ⟨⟨i1, u1⟩, -, ⟨i2, i3, i4, u2⟩, ⟨i5, u3⟩, i6, i7, u4⟩ := sample_values
  have v : (B64.isFinite (B64.lit 1500000) = true ∧ (B64.lit 1500000).toQ = 1500000) ∧
      B64.isFinite (B64.lit 500000) = true ∧ (B64.lit 500000).toQ = 500000 := by decide +kernel
  obtain ⟨⟨f1, v1⟩, f2, v2⟩ := v
  obtain ⟨l₂, φ₂, α₂, l₄, φ₄, α₄, h1, h2, h3⟩ := C119_vincenty_stages (L := geodesicLibm) geodesicLibm_accurateVincenty
    (el := Ellipsoid.consts.WGS84) wgs84_earthSized (wgs84_flat (L := geodesicLibm)).2 wgs84_f i1 i2 i3 i4 i5 (s := B64.lit 1500000) f1
    (by show |(B64.lit 1500000).toQ| ≤ 21000000
        rw [v1, abs_of_pos (by norm_num)]; norm_num) i6 i7 (s₂ := B64.lit 500000) f2
    (by show |(B64.lit 500000).toQ| ≤ 21000000
        rw [v2, abs_of_pos (by norm_num)]; norm_num)
  have hcos := vincenty_sample_cos h1
  obtain ⟨l₃, φ₃, α₃, h4, h5⟩ := h3 hcos
  refine ⟨l₂, φ₂, α₂, l₄, φ₄, α₄, l₃, φ₃, α₃, h1, h2, h4, h5.trans ?_⟩
  obtain ⟨e1, e2, e3⟩ := earth_real (wgs84_earthSized (L := geodesicLibm))
  have ha := lt_of_lt_of_le (show (0 : ℝ) < 6000000 by norm_num) (e1.trans e2)
  have T1 := trunc_small (x := ((B64.lit 1000000).toQ : ℝ)) ha e3 e2 wgs84_flat_real (by rw [u4, abs_of_pos (by norm_num)]; norm_num)
  have T2 := trunc_small (x := ((B64.lit 500000).toQ : ℝ)) ha e3 e2 wgs84_flat_real (by rw [v2]; norm_num)
  have T3 := trunc_small (x := ((B64.lit 1500000).toQ : ℝ)) ha e3 e2 wgs84_flat_real (by rw [v1]; norm_num)
  have d : |((B64.lit 1000000).toQ : ℝ) + ((B64.lit 500000).toQ : ℝ) - ((B64.lit 1500000).toQ : ℝ)| = 0 := by
    rw [u4, v1, v2]; norm_num
  have hc0 : 0 < Real.cos φ₂.toQ := lt_of_lt_of_le (by norm_num) hcos
  refine (add_le_add (add_le_add (add_le_add (div_le_div_of_nonneg_right
    (add_le_add_left (mul_le_mul_of_nonneg_left T1 (by norm_num)) _) hc0.le) T2) T3) d.le).trans ?_
  have q : (2.34 * 6.6e-5 + 6e-6) / Real.cos φ₂.toQ ≤ 1.7e-3 := by
    rw [div_le_iff₀ hc0]
    norm_num at hcos ⊢
    linarith
  norm_num at q ⊢
  linarith

end Geo
