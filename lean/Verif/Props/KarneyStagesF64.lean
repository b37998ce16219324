import Verif.Props.KarneyForwardF64

/-! Going along a geodesic in stages, in IEEE arithmetic. -/

namespace Geo
open XR Spec
variable {L : Libm}

/-- **C116**: solving the direct problem over one distance and then, from the point and with the azimuth returned, over another, leads to the same
point as solving it at once over a third distance, to `5·10⁻⁵ / cos φ₂` metres plus what the third distance differs from the sum of the
two. -/
theorem C116_karney_stages (hL : AccurateGeodesic L) {el : Ellipsoid (F64 L)} (h : EarthSized el) (hfl : 0.995 * el.a.m.toQ ≤ el.b.m.toQ)
    (hf : Near el.f (((el.a.m.toQ : ℝ) - el.b.m.toQ) / el.a.m.toQ) 3e-16) {l φ α s s₁ s₂ : F64 L} (hl : InLonRange l) (hφ : φ.isFinite)
    (hφ2 : |φ.toQ| ≤ (Flt.pi_2 : F64 L).toQ) (hc : 0.1 ≤ Real.cos φ.toQ) (hα : InLonRange α) (hs : s.isFinite) (hs2 : |s.toQ| ≤ 21000000)
    (hs₁ : s₁.isFinite) (hs₁2 : |s₁.toQ| ≤ 21000000) (hs₂ : s₂.isFinite) (hs₂2 : |s₂.toQ| ≤ 21000000) :
    let a : ℝ := el.a.m.toQ
    let b : ℝ := el.b.m.toQ
    ∃ l₂ φ₂ α₂ l₄ φ₄ α₄ : F64 L,
      (GeodesicSolver.karney (KarneyGeodesicSolver.new el)).solveDirect (⟨⟨l⟩⟩, ⟨⟨φ⟩⟩) ⟨⟨α⟩⟩ ⟨s₁⟩ =
        .ok ⟨(⟨⟨l⟩⟩, ⟨⟨φ⟩⟩), ⟨⟨α⟩⟩, (⟨⟨l₂⟩⟩, ⟨⟨φ₂⟩⟩), ⟨⟨α₂⟩⟩, ⟨s₁⟩⟩ ∧
      (GeodesicSolver.karney (KarneyGeodesicSolver.new el)).solveDirect (⟨⟨l⟩⟩, ⟨⟨φ⟩⟩) ⟨⟨α⟩⟩ ⟨s⟩ =
        .ok ⟨(⟨⟨l⟩⟩, ⟨⟨φ⟩⟩), ⟨⟨α⟩⟩, (⟨⟨l₄⟩⟩, ⟨⟨φ₄⟩⟩), ⟨⟨α₄⟩⟩, ⟨s⟩⟩ ∧
      (0.1 ≤ Real.cos φ₂.toQ → ∃ l₃ φ₃ α₃ : F64 L,
        (GeodesicSolver.karney (KarneyGeodesicSolver.new el)).solveDirect (⟨⟨l₂⟩⟩, ⟨⟨φ₂⟩⟩) ⟨⟨α₂⟩⟩ ⟨s₂⟩ =
          .ok ⟨(⟨⟨l₂⟩⟩, ⟨⟨φ₂⟩⟩), ⟨⟨α₂⟩⟩, (⟨⟨l₃⟩⟩, ⟨⟨φ₃⟩⟩), ⟨⟨α₃⟩⟩, ⟨s₂⟩⟩ ∧
        ‖surfacePoint a b l₃.toQ φ₃.toQ - surfacePoint a b l₄.toQ φ₄.toQ‖ ≤
          5e-5 / Real.cos φ₂.toQ + |(s₁.toQ : ℝ) + s₂.toQ - s.toQ|) := by
  intro a b
  obtain ⟨e1, e2, e3⟩ := earth_real h
  obtain ⟨f1, f2⟩ := ba_bound h hfl
  have hb : 0 < b := lt_of_lt_of_le (by norm_num) e1
  have hab : b ≤ a := e2
  have ha : 0 < a := lt_of_lt_of_le hb hab
  have ha6 : 6000000 ≤ a := e1.trans hab
  have ha7 : a ≤ 7000000 := e3
  have hs₂' : |(s₂.toQ : ℝ)| ≤ 21000000 := by exact_mod_cast cast_abs_le hs₂2
  obtain ⟨l₂, φ₂, α₂, γ, h1, h2, h3, h4, h5, hγ, g1, g2, -, p1, p2⟩ := C114_karney_forward hL h hfl hf hl hφ hφ2 hc hα hs₁ hs₁2
  obtain ⟨l₄, φ₄, α₄, γ', k1, -, -, -, -, hγ', g1', g2', -, p1', -⟩ := C114_karney_forward hL h hfl hf hl hφ hφ2 hc hα hs hs2
  obtain rfl : γ = γ' := C78_unique hb hab hγ hγ' (g1.trans g1'.symm) (g2.trans g2'.symm)
  refine ⟨l₂, φ₂, α₂, l₄, φ₄, α₄, h1, k1, fun hc2 => ?_⟩
  obtain ⟨l₃, φ₃, α₃, η, j1, -, -, -, -, hη, i1, i2, -, q1, -⟩ := C114_karney_forward hL h hfl hf h2 h3 h4 hc2 h5 hs₂ hs₂2
  refine ⟨l₃, φ₃, α₃, j1, ?_⟩
  set c := Real.cos φ₂.toQ with hcd
  have hc0 : 0 < c := lt_of_lt_of_le (by norm_num) hc2
  have hc1 : c ≤ 1 := Real.cos_le_one _
  have p1a : ‖surfacePoint a b l₂.toQ φ₂.toQ - γ s₁.toQ‖ ≤ 8e-6 := p1
  have ed : deriv (fun x => γ (s₁.toQ + x)) = fun x => deriv γ (s₁.toQ + x) := funext fun x => deriv_comp_const_add _ _ _
  have x1 : ‖η 0 - γ (s₁.toQ + 0)‖ ≤ 1.34e-12 * a := by
    rw [add_zero, i1]
    refine p1a.trans ?_
    norm_num; linarith
  have x2 : ‖deriv η 0 - deriv (fun x => γ (s₁.toQ + x)) 0‖ ≤ 2e-12 / c := by
    rw [ed]
    simp only [add_zero]
    rw [i2, le_div_iff₀ hc0, mul_comm]
    exact p2
  obtain ⟨c1, -⟩ := hη.close hb hab f1 (hγ.shift s₁.toQ) x1 x2 (t := s₂.toQ) (reach e1 hab hs₂')
  have q1' : ‖surfacePoint a b l₃.toQ φ₃.toQ - η s₂.toQ‖ ≤ 8e-6 := q1
  have p1b : ‖surfacePoint a b l₄.toQ φ₄.toQ - γ s.toQ‖ ≤ 8e-6 := p1'
  have hch : ‖γ (s₁.toQ + s₂.toQ) - γ s.toQ‖ ≤ |(s₁.toQ : ℝ) + s₂.toQ - s.toQ| := hγ.chord _ _
  have t := norm_sub_le_norm_sub_add_norm_sub (surfacePoint a b l₃.toQ φ₃.toQ) (η s₂.toQ) (surfacePoint a b l₄.toQ φ₄.toQ)
  have t1 := norm_sub_le_norm_sub_add_norm_sub (η s₂.toQ) (γ (s₁.toQ + s₂.toQ)) (surfacePoint a b l₄.toQ φ₄.toQ)
  have t2 := norm_sub_le_norm_sub_add_norm_sub (γ (s₁.toQ + s₂.toQ)) (γ s.toQ) (surfacePoint a b l₄.toQ φ₄.toQ)
  rw [norm_sub_rev (γ s.toQ)] at t2
  have hinv : 1 ≤ 1 / c := by rw [le_div_iff₀ hc0]; linarith
  have c1' : ‖η s₂.toQ - γ (s₁.toQ + s₂.toQ)‖ ≤ 2.8e-5 / c := by
    refine (c1.trans (mul_le_mul_of_nonneg_left ha7 (by positivity))).trans ?_
    rw [div_eq_mul_one_div 2e-12, div_eq_mul_one_div 2.8e-5]
    norm_num at hinv ⊢
    linarith
  have c2 : (8e-6 : ℝ) + 8e-6 ≤ 1.6e-5 / c := by
    rw [div_eq_mul_one_div]
    norm_num at hinv ⊢
    linarith
  have c3 : 2.8e-5 / c + 1.6e-5 / c ≤ 5e-5 / c := by
    rw [← add_div]
    exact div_le_div_of_nonneg_right (by norm_num) hc0.le
  linarith

/-- C116 on WGS 84: 1000 km and then 500 km, against 1500 km at once. -/
example : ∃ l₂ φ₂ α₂ l₄ φ₄ α₄ l₃ φ₃ α₃ : F64 geodesicLibm,
    (GeodesicSolver.karney (KarneyGeodesicSolver.new (Ellipsoid.consts.WGS84 : Ellipsoid (F64 geodesicLibm)))).solveDirect
      (⟨⟨Flt.lit 0.0625⟩⟩, ⟨⟨Flt.lit 0.75⟩⟩) ⟨⟨Flt.lit 0.5⟩⟩ ⟨Flt.lit 1000000⟩ =
      .ok ⟨(⟨⟨Flt.lit 0.0625⟩⟩, ⟨⟨Flt.lit 0.75⟩⟩), ⟨⟨Flt.lit 0.5⟩⟩, (⟨⟨l₂⟩⟩, ⟨⟨φ₂⟩⟩), ⟨⟨α₂⟩⟩, ⟨Flt.lit 1000000⟩⟩ ∧
    (GeodesicSolver.karney (KarneyGeodesicSolver.new (Ellipsoid.consts.WGS84 : Ellipsoid (F64 geodesicLibm)))).solveDirect
      (⟨⟨Flt.lit 0.0625⟩⟩, ⟨⟨Flt.lit 0.75⟩⟩) ⟨⟨Flt.lit 0.5⟩⟩ ⟨Flt.lit 1500000⟩ =
      .ok ⟨(⟨⟨Flt.lit 0.0625⟩⟩, ⟨⟨Flt.lit 0.75⟩⟩), ⟨⟨Flt.lit 0.5⟩⟩, (⟨⟨l₄⟩⟩, ⟨⟨φ₄⟩⟩), ⟨⟨α₄⟩⟩, ⟨Flt.lit 1500000⟩⟩ ∧
    (GeodesicSolver.karney (KarneyGeodesicSolver.new (Ellipsoid.consts.WGS84 : Ellipsoid (F64 geodesicLibm)))).solveDirect
      (⟨⟨l₂⟩⟩, ⟨⟨φ₂⟩⟩) ⟨⟨α₂⟩⟩ ⟨Flt.lit 500000⟩ =
      .ok ⟨(⟨⟨l₂⟩⟩, ⟨⟨φ₂⟩⟩), ⟨⟨α₂⟩⟩, (⟨⟨l₃⟩⟩, ⟨⟨φ₃⟩⟩), ⟨⟨α₃⟩⟩, ⟨Flt.lit 500000⟩⟩ ∧
    ‖surfacePoint (Ellipsoid.consts.WGS84 : Ellipsoid (F64 geodesicLibm)).a.m.toQ (Ellipsoid.consts.WGS84 : Ellipsoid (F64 geodesicLibm)).b.m.toQ
      l₃.toQ φ₃.toQ - surfacePoint (Ellipsoid.consts.WGS84 : Ellipsoid (F64 geodesicLibm)).a.m.toQ
      (Ellipsoid.consts.WGS84 : Ellipsoid (F64 geodesicLibm)).b.m.toQ l₄.toQ φ₄.toQ‖ ≤ 5e-4 := by
  obtain ⟨⟨i1, u1⟩, -, ⟨i2, i3, i4, u2⟩, ⟨i5, u3⟩, i6, i7, u4⟩ := sample_values
  have v : (B64.isFinite (B64.lit 1500000) = true ∧ (B64.lit 1500000).toQ = 1500000) ∧
      B64.isFinite (B64.lit 500000) = true ∧ (B64.lit 500000).toQ = 500000 := by decide +kernel
  obtain ⟨⟨f1, v1⟩, f2, v2⟩ := v
  obtain ⟨l₂, φ₂, α₂, l₄, φ₄, α₄, h1, h2, h3⟩ := C116_karney_stages (L := geodesicLibm) geodesicLibm_accurate
    (el := Ellipsoid.consts.WGS84) wgs84_earthSized (wgs84_flat (L := geodesicLibm)).2 wgs84_f i1 i2 i3 i4 i5 (s := B64.lit 1500000) f1
    (by show |(B64.lit 1500000).toQ| ≤ 21000000
        rw [v1, abs_of_pos (by norm_num)]; norm_num) i6 i7 (s₂ := B64.lit 500000) f2
    (by show |(B64.lit 500000).toQ| ≤ 21000000
        rw [v2, abs_of_pos (by norm_num)]; norm_num)
  have hcos := sample_cos h1
  obtain ⟨l₃, φ₃, α₃, h4, h5⟩ := h3 hcos
  refine ⟨l₂, φ₂, α₂, l₄, φ₄, α₄, l₃, φ₃, α₃, h1, h2, h4, h5.trans ?_⟩
  change _ + |((B64.lit 1000000).toQ : ℝ) + ((B64.lit 500000).toQ : ℝ) - ((B64.lit 1500000).toQ : ℝ)| ≤ _
  rw [u4, v1, v2]
  norm_num
  rw [div_le_iff₀ (lt_of_lt_of_le (by norm_num) hcos)]
  norm_num at hcos ⊢
  linarith

end Geo
