import Verif.Props.KarneyF64
import Verif.Props.GeodesicExact
import Verif.Lemmas.SurfaceStable
import Verif.Lemmas.SurfacePath

/-! How far the direct geodesic problem in IEEE arithmetic is from the geodesic of the given start and azimuth, how it responds to a
change of its input, and how it finds its way back. -/

namespace Geo
open XR Spec
variable {L : Libm}

theorem reach {a b s : ℝ} (e1 : 6000000 ≤ b) (e2 : b ≤ a) (h : |s| ≤ 21000000) : |s| ≤ 3.5 * a := by
  norm_num; linarith

/-- A geodesic of the ellipsoid leaves every point off the axis in every direction. -/
theorem geodesic_from {a b : ℝ} (hb : 0 < b) (hab : b ≤ a) (hfl : 0.995 ≤ b / a) (l φ α : ℝ) (hc : 0 < Real.cos φ) :
    ∃ γ : ℝ → E3, IsGeodesic a b γ ∧ γ 0 = surfacePoint a b l φ ∧ deriv γ 0 = direction l φ α := by
  have ha : 0 < a := lt_of_lt_of_le hb hab
  have hn : (a - b) / (a + b) ≤ 1 / 100 := by
    rw [le_div_iff₀ ha] at hfl
    rw [div_le_iff₀ (by positivity)]
    norm_num at hfl ⊢
    linarith
  obtain ⟨γ, -, -, -, h1, h2, h3, -⟩ := C78_karney_direct hb hab hn "" l φ α 0 hc
  exact ⟨γ, h1, h2, h3⟩

/-- **C114**: the Karney direct solver in IEEE arithmetic returns, to eight micrometres, the point at the given distance along the
geodesic of the ellipsoid that leaves the given point with the given azimuth, for every start at less than 84.2° of latitude, every
azimuth and every distance of at most 21000 km. The returned azimuth is the direction of that geodesic there to `2·10⁻¹² / cos φ₂`. There
is one such geodesic and no other. -/
theorem C114_karney_forward (hL : AccurateGeodesic L) {el : Ellipsoid (F64 L)} (h : EarthSized el) (hfl : 0.995 * el.a.m.toQ ≤ el.b.m.toQ)
    (hf : Near el.f (((el.a.m.toQ : ℝ) - el.b.m.toQ) / el.a.m.toQ) 3e-16) {l φ α s : F64 L} (hl : InLonRange l) (hφ : φ.isFinite)
    (hφ2 : |φ.toQ| ≤ (Flt.pi_2 : F64 L).toQ) (hc : 0.1 ≤ Real.cos φ.toQ) (hα : InLonRange α) (hs : s.isFinite) (hs2 : |s.toQ| ≤ 21000000) :
    let a : ℝ := el.a.m.toQ
    let b : ℝ := el.b.m.toQ
    ∃ (l₂ φ₂ α₂ : F64 L) (γ : ℝ → E3),
      (GeodesicSolver.karney (KarneyGeodesicSolver.new el)).solveDirect (⟨⟨l⟩⟩, ⟨⟨φ⟩⟩) ⟨⟨α⟩⟩ ⟨s⟩ =
        .ok ⟨(⟨⟨l⟩⟩, ⟨⟨φ⟩⟩), ⟨⟨α⟩⟩, (⟨⟨l₂⟩⟩, ⟨⟨φ₂⟩⟩), ⟨⟨α₂⟩⟩, ⟨s⟩⟩ ∧
      InLonRange l₂ ∧ φ₂.isFinite ∧ |φ₂.toQ| ≤ (Flt.pi_2 : F64 L).toQ ∧ InLonRange α₂ ∧
      IsGeodesic a b γ ∧ γ 0 = surfacePoint a b l.toQ φ.toQ ∧ deriv γ 0 = direction l.toQ φ.toQ α.toQ ∧
      (∀ η : ℝ → E3, IsGeodesic a b η → η 0 = surfacePoint a b l.toQ φ.toQ → deriv η 0 = direction l.toQ φ.toQ α.toQ → η = γ) ∧
      ‖surfacePoint a b l₂.toQ φ₂.toQ - γ s.toQ‖ ≤ 8e-6 ∧
      Real.cos φ₂.toQ * ‖direction l₂.toQ φ₂.toQ α₂.toQ - deriv γ s.toQ‖ ≤ 2e-12 := by
  intro a b
  obtain ⟨e1, e2, e3⟩ := earth_real h
  obtain ⟨f1, f2⟩ := ba_bound h hfl
  have hb : 0 < b := lt_of_lt_of_le (by norm_num) e1
  have hab : b ≤ a := e2
  have ha6 : 6000000 ≤ a := e1.trans hab
  have ha7 : a ≤ 7000000 := e3
  have hs' : |(s.toQ : ℝ)| ≤ 21000000 := by exact_mod_cast cast_abs_le hs2
  obtain ⟨η, l₂, φ₂, α₂, h1, h2, h3, h4, h5, h6, h7, h8, h9, h10⟩ := C113_karney_direct hL h hfl hf hl hφ hφ2 hc hα hs hs2
  obtain ⟨γ, g1, g2, g3⟩ := geodesic_from hb hab f1 l.toQ φ.toQ α.toQ (lt_of_lt_of_le (by norm_num) hc)
  refine ⟨l₂, φ₂, α₂, γ, h1, h2, h3, h4, h5, g1, g2, g3, fun ξ k k1 k2 => C78_unique hb hab k g1 (k1.trans g2.symm) (k2.trans g3.symm), ?_⟩
  rw [← g2] at h7
  rw [← g3] at h8
  obtain ⟨c1, c2⟩ := h6.close hb hab f1 g1 (x := 3.5e-14) (y := 6e-13) (h7.trans (by norm_num; linarith)) h8 (reach e1 hab hs')
  constructor
  · have t := norm_sub_le_norm_sub_add_norm_sub (surfacePoint a b l₂.toQ φ₂.toQ) (η s.toQ) (γ s.toQ)
    have h9' : ‖surfacePoint a b l₂.toQ φ₂.toQ - η s.toQ‖ ≤ 2e-6 := h9
    norm_num at c1 t h9' ⊢
    linarith
  · have t := norm_sub_le_norm_sub_add_norm_sub (direction l₂.toQ φ₂.toQ α₂.toQ) (deriv η s.toQ) (deriv γ s.toQ)
    have hcos : 0 ≤ Real.cos φ₂.toQ := by
      have t := abs_le.1 ((cast_abs_le h4).trans pi_2_real.2)
      exact Real.cos_nonneg_of_neg_pi_div_two_le_of_le t.1 t.2
    have t1 := mul_le_mul_of_nonneg_left t hcos
    have t2 := mul_le_mul (Real.cos_le_one φ₂.toQ) c2 (norm_nonneg _) zero_le_one
    rw [mul_add] at t1
    norm_num at t1 t2 h10 ⊢
    linarith

/-- **C114**: a change of the input of the Karney direct solver, however large, changes its answer, in position, by no more than 1.17 times the
change of the start and 1.17 times the semi-major axis per unit of change of the direction, up to sixteen micrometres. -/
theorem C114_karney_lipschitz (hL : AccurateGeodesic L) {el : Ellipsoid (F64 L)} (h : EarthSized el) (hfl : 0.995 * el.a.m.toQ ≤ el.b.m.toQ)
    (hf : Near el.f (((el.a.m.toQ : ℝ) - el.b.m.toQ) / el.a.m.toQ) 3e-16) {l φ α l' φ' α' s : F64 L} (hl : InLonRange l) (hφ : φ.isFinite)
    (hφ2 : |φ.toQ| ≤ (Flt.pi_2 : F64 L).toQ) (hc : 0.1 ≤ Real.cos φ.toQ) (hα : InLonRange α) (hl' : InLonRange l') (hφ' : φ'.isFinite)
    (hφ2' : |φ'.toQ| ≤ (Flt.pi_2 : F64 L).toQ) (hc' : 0.1 ≤ Real.cos φ'.toQ) (hα' : InLonRange α') (hs : s.isFinite) (hs2 : |s.toQ| ≤ 21000000) :
    let a : ℝ := el.a.m.toQ
    let b : ℝ := el.b.m.toQ
    ∃ l₂ φ₂ α₂ l₃ φ₃ α₃ : F64 L,
      (GeodesicSolver.karney (KarneyGeodesicSolver.new el)).solveDirect (⟨⟨l⟩⟩, ⟨⟨φ⟩⟩) ⟨⟨α⟩⟩ ⟨s⟩ =
        .ok ⟨(⟨⟨l⟩⟩, ⟨⟨φ⟩⟩), ⟨⟨α⟩⟩, (⟨⟨l₂⟩⟩, ⟨⟨φ₂⟩⟩), ⟨⟨α₂⟩⟩, ⟨s⟩⟩ ∧
      (GeodesicSolver.karney (KarneyGeodesicSolver.new el)).solveDirect (⟨⟨l'⟩⟩, ⟨⟨φ'⟩⟩) ⟨⟨α'⟩⟩ ⟨s⟩ =
        .ok ⟨(⟨⟨l'⟩⟩, ⟨⟨φ'⟩⟩), ⟨⟨α'⟩⟩, (⟨⟨l₃⟩⟩, ⟨⟨φ₃⟩⟩), ⟨⟨α₃⟩⟩, ⟨s⟩⟩ ∧
      ‖surfacePoint a b l₂.toQ φ₂.toQ - surfacePoint a b l₃.toQ φ₃.toQ‖ ≤
        1.17 * ‖surfacePoint a b l.toQ φ.toQ - surfacePoint a b l'.toQ φ'.toQ‖ +
        1.17 * a * ‖direction l.toQ φ.toQ α.toQ - direction l'.toQ φ'.toQ α'.toQ‖ + 16e-6 := by
  intro a b
  obtain ⟨e1, e2, e3⟩ := earth_real h
  obtain ⟨f1, f2⟩ := ba_bound h hfl
  have hb : 0 < b := lt_of_lt_of_le (by norm_num) e1
  have hab : b ≤ a := e2
  have ha : 0 < a := lt_of_lt_of_le hb hab
  have hs' : |(s.toQ : ℝ)| ≤ 21000000 := by exact_mod_cast cast_abs_le hs2
  obtain ⟨l₂, φ₂, α₂, γ, h1, -, -, -, -, h2, h3, h4, -, h5, -⟩ := C114_karney_forward hL h hfl hf hl hφ hφ2 hc hα hs hs2
  obtain ⟨l₃, φ₃, α₃, η, k1, -, -, -, -, k2, k3, k4, -, k5, -⟩ := C114_karney_forward hL h hfl hf hl' hφ' hφ2' hc' hα' hs hs2
  refine ⟨l₂, φ₂, α₂, l₃, φ₃, α₃, h1, k1, ?_⟩
  obtain ⟨c1, -⟩ := h2.close hb hab f1 k2 (x := ‖γ 0 - η 0‖ / a) (by rw [div_mul_cancel₀ _ ha.ne']) le_rfl (reach e1 hab hs')
  rw [show 1.17 * (‖γ 0 - η 0‖ / a + ‖deriv γ 0 - deriv η 0‖) * a = 1.17 * ‖γ 0 - η 0‖ + 1.17 * a * ‖deriv γ 0 - deriv η 0‖ by field_simp] at c1
  rw [← h3, ← h4, ← k3, ← k4]
  have h5' : ‖surfacePoint a b l₂.toQ φ₂.toQ - γ s.toQ‖ ≤ 8e-6 := h5
  have k5' : ‖surfacePoint a b l₃.toQ φ₃.toQ - η s.toQ‖ ≤ 8e-6 := k5
  have t := norm_sub_le_norm_sub_add_norm_sub (surfacePoint a b l₂.toQ φ₂.toQ) (γ s.toQ) (surfacePoint a b l₃.toQ φ₃.toQ)
  have t' := norm_sub_le_norm_sub_add_norm_sub (γ s.toQ) (η s.toQ) (surfacePoint a b l₃.toQ φ₃.toQ)
  rw [norm_sub_rev (η _)] at t'
  norm_num at h5' k5' c1 ⊢
  linarith

/-- **C115**: following the geodesic back from the end the Karney direct solver returned, with the azimuth it returned, over the opposite of the
distance, gives the start again to `2·10⁻⁵ / cos φ₂` metres and the azimuth of the start to `5·10⁻¹² / (cos φ₂ cos φ₃)`. -/
theorem C115_karney_return (hL : AccurateGeodesic L) {el : Ellipsoid (F64 L)} (h : EarthSized el) (hfl : 0.995 * el.a.m.toQ ≤ el.b.m.toQ)
    (hf : Near el.f (((el.a.m.toQ : ℝ) - el.b.m.toQ) / el.a.m.toQ) 3e-16) {l φ α s : F64 L} (hl : InLonRange l) (hφ : φ.isFinite)
    (hφ2 : |φ.toQ| ≤ (Flt.pi_2 : F64 L).toQ) (hc : 0.1 ≤ Real.cos φ.toQ) (hα : InLonRange α) (hs : s.isFinite) (hs2 : |s.toQ| ≤ 21000000) :
    let a : ℝ := el.a.m.toQ
    let b : ℝ := el.b.m.toQ
    ∃ l₂ φ₂ α₂ : F64 L,
      (GeodesicSolver.karney (KarneyGeodesicSolver.new el)).solveDirect (⟨⟨l⟩⟩, ⟨⟨φ⟩⟩) ⟨⟨α⟩⟩ ⟨s⟩ =
        .ok ⟨(⟨⟨l⟩⟩, ⟨⟨φ⟩⟩), ⟨⟨α⟩⟩, (⟨⟨l₂⟩⟩, ⟨⟨φ₂⟩⟩), ⟨⟨α₂⟩⟩, ⟨s⟩⟩ ∧
      (0.1 ≤ Real.cos φ₂.toQ → ∃ l₃ φ₃ α₃ : F64 L,
        (GeodesicSolver.karney (KarneyGeodesicSolver.new el)).solveDirect (⟨⟨l₂⟩⟩, ⟨⟨φ₂⟩⟩) ⟨⟨α₂⟩⟩ ⟨-s⟩ =
          .ok ⟨(⟨⟨l₂⟩⟩, ⟨⟨φ₂⟩⟩), ⟨⟨α₂⟩⟩, (⟨⟨l₃⟩⟩, ⟨⟨φ₃⟩⟩), ⟨⟨α₃⟩⟩, ⟨-s⟩⟩ ∧
        Real.cos φ₂.toQ * ‖surfacePoint a b l₃.toQ φ₃.toQ - surfacePoint a b l.toQ φ.toQ‖ ≤ 2e-5 ∧
        Real.cos φ₃.toQ * (Real.cos φ₂.toQ * ‖direction l₃.toQ φ₃.toQ α₃.toQ - direction l.toQ φ.toQ α.toQ‖) ≤ 5e-12) := by
  intro a b
  obtain ⟨e1, e2, e3⟩ := earth_real h
  obtain ⟨f1, f2⟩ := ba_bound h hfl
  have hb : 0 < b := lt_of_lt_of_le (by norm_num) e1
  have hab : b ≤ a := e2
  have ha : 0 < a := lt_of_lt_of_le hb hab
  have ha6 : 6000000 ≤ a := e1.trans hab
  have ha7 : a ≤ 7000000 := e3
  have hs' : |(s.toQ : ℝ)| ≤ 21000000 := by exact_mod_cast cast_abs_le hs2
  obtain ⟨γ, l₂, φ₂, α₂, h1, h2, h3, h4, h5, h6, h7, h8, h9, h10⟩ := C113_karney_direct hL h hfl hf hl hφ hφ2 hc hα hs hs2
  refine ⟨l₂, φ₂, α₂, h1, fun hc2 => ?_⟩
  have n2 : (-s : F64 L).toQ = -s.toQ := B64.neg_toQ s
  have n1 : (-s : F64 L).isFinite := (B64.neg_finite s).trans hs
  obtain ⟨η, l₃, φ₃, α₃, k1, -, -, k4, -, k6, k7, k8, k9, k10⟩ := C113_karney_direct hL h hfl hf h2 h3 h4 hc2 h5 (s := -s) n1 (by rw [n2, abs_neg]; exact hs2)
  have n2' : (((-s : F64 L).toQ : ℚ) : ℝ) = -(s.toQ : ℝ) := by rw [n2]; push_cast; rfl
  rw [n2'] at k9 k10
  refine ⟨l₃, φ₃, α₃, k1, ?_⟩
  set c := Real.cos φ₂.toQ with hcd
  have hc0 : 0 < c := lt_of_lt_of_le (by norm_num) hc2
  have hc1 : c ≤ 1 := Real.cos_le_one _
  -- the geodesic of the way there, from its end
  have ed : deriv (fun x => γ (s.toQ + x)) = fun x => deriv γ (s.toQ + x) := funext fun x => deriv_comp_const_add _ _ _
  have x1 : ‖η 0 - γ (s.toQ + 0)‖ ≤ 3.7e-13 * a := by
    rw [add_zero]
    have t := norm_sub_le_norm_sub_add_norm_sub (η 0) (surfacePoint a b l₂.toQ φ₂.toQ) (γ s.toQ)
    have h9' : ‖surfacePoint a b l₂.toQ φ₂.toQ - γ s.toQ‖ ≤ 2e-6 := h9
    have k7' : ‖η 0 - surfacePoint a b l₂.toQ φ₂.toQ‖ ≤ 2.1e-7 := k7
    norm_num at h9' k7' ⊢
    linarith
  have x2 : ‖deriv η 0 - deriv (fun x => γ (s.toQ + x)) 0‖ ≤ 6e-13 + 1e-12 / c := by
    rw [ed]
    simp only [add_zero]
    have t := norm_sub_le_norm_sub_add_norm_sub (deriv η 0) (direction l₂.toQ φ₂.toQ α₂.toQ) (deriv γ s.toQ)
    have h10' : ‖direction l₂.toQ φ₂.toQ α₂.toQ - deriv γ s.toQ‖ ≤ 1e-12 / c := by rw [le_div_iff₀ hc0, mul_comm]; exact h10
    linarith
  obtain ⟨c1, c2⟩ := k6.close hb hab f1 (h6.shift s.toQ) x1 x2 (t := -(s.toQ : ℝ)) (by rw [abs_neg]; exact reach e1 hab hs')
  rw [ed] at c2
  simp only [add_neg_cancel] at c1 c2
  have hz : c * (1.17 * (3.7e-13 + (6e-13 + 1e-12 / c))) = 1.17 * (9.7e-13 * c + 1e-12) := by field_simp; ring
  have c1' : c * ‖η (-(s.toQ : ℝ)) - γ 0‖ ≤ 1.17 * (9.7e-13 * c + 1e-12) * a := by
    rw [← hz, mul_assoc]; exact mul_le_mul_of_nonneg_left c1 hc0.le
  have c2' : c * ‖deriv η (-(s.toQ : ℝ)) - deriv γ 0‖ ≤ 1.17 * (9.7e-13 * c + 1e-12) := by
    rw [← hz]; exact mul_le_mul_of_nonneg_left c2 hc0.le
  have q : 1.17 * (9.7e-13 * c + 1e-12) ≤ 2.31e-12 := by norm_num; linarith
  constructor
  · have t := norm_sub_le_norm_sub_add_norm_sub (surfacePoint a b l₃.toQ φ₃.toQ) (η (-(s.toQ : ℝ))) (surfacePoint a b l.toQ φ.toQ)
    have t' := norm_sub_le_norm_sub_add_norm_sub (η (-(s.toQ : ℝ))) (γ 0) (surfacePoint a b l.toQ φ.toQ)
    have h7' : ‖γ 0 - surfacePoint a b l.toQ φ.toQ‖ ≤ 2.1e-7 := h7
    have k9' : ‖surfacePoint a b l₃.toQ φ₃.toQ - η (-(s.toQ : ℝ))‖ ≤ 2e-6 := k9
    have c1'' := c1'.trans (mul_le_mul q ha7 ha.le (by norm_num))
    have m1 := mul_le_mul hc1 k9' (norm_nonneg _) zero_le_one
    have m2 := mul_le_mul hc1 h7' (norm_nonneg _) zero_le_one
    have m := mul_le_mul_of_nonneg_left (t.trans (add_le_add_right t' _)) hc0.le
    rw [mul_add, mul_add] at m
    norm_num at m m1 m2 c1'' ⊢
    linarith
  · have hcos : 0 ≤ Real.cos φ₃.toQ := by
      have t := abs_le.1 ((cast_abs_le k4).trans pi_2_real.2)
      exact Real.cos_nonneg_of_neg_pi_div_two_le_of_le t.1 t.2
    have hcos1 := Real.cos_le_one φ₃.toQ
    have t := norm_sub_le_norm_sub_add_norm_sub (direction l₃.toQ φ₃.toQ α₃.toQ) (deriv η (-(s.toQ : ℝ))) (direction l.toQ φ.toQ α.toQ)
    have t' := norm_sub_le_norm_sub_add_norm_sub (deriv η (-(s.toQ : ℝ))) (deriv γ 0) (direction l.toQ φ.toQ α.toQ)
    have m1 := mul_le_mul hc1 k10 (by positivity) zero_le_one
    have m2 := mul_le_mul hcos1 (c2'.trans q) (by positivity) zero_le_one
    have m3 := mul_le_mul (mul_le_one₀ hcos1 hc0.le hc1) h8 (norm_nonneg _) zero_le_one
    have m := mul_le_mul_of_nonneg_left (mul_le_mul_of_nonneg_left (t.trans (add_le_add_right t' _)) hc0.le) hcos
    rw [mul_add, mul_add, mul_add, mul_add, mul_left_comm _ c, ← mul_assoc _ c ‖deriv γ 0 - _‖] at m
    norm_num at m m1 m2 m3 ⊢
    linarith

/-- The values of the examples: a point at 0.0625 rad of longitude and 0.75 rad of latitude, one 0.0001 rad to the east, an azimuth of 0.5 rad and a
distance of 1000 km. -/
theorem sample_values : (InLonRange (L := geodesicLibm) (B64.lit 0.0625) ∧ ((B64.lit 0.0625).toQ : ℝ) = 0.0625) ∧
    InLonRange (L := geodesicLibm) (B64.lit 0.0626) ∧
    (B64.isFinite (B64.lit 0.75) = true ∧ |(B64.lit 0.75).toQ| ≤ (Flt.pi_2 : F64 geodesicLibm).toQ ∧ 0.1 ≤ Real.cos (B64.lit 0.75).toQ ∧
      ((B64.lit 0.75).toQ : ℝ) = 0.75) ∧ (InLonRange (L := geodesicLibm) (B64.lit 0.5) ∧ ((B64.lit 0.5).toQ : ℝ) = 0.5) ∧
    B64.isFinite (B64.lit 1000000) = true ∧ |(B64.lit 1000000).toQ| ≤ 21000000 ∧ ((B64.lit 1000000).toQ : ℝ) = 1000000 := by
  have v : (B64.isFinite (B64.lit 0.0625) = true ∧ (B64.lit 0.0625).toQ = 0.0625) ∧
      (B64.isFinite (B64.lit 0.0626) = true ∧ -1 ≤ (B64.lit 0.0626).toQ ∧ (B64.lit 0.0626).toQ ≤ 1) ∧
      (B64.isFinite (B64.lit 0.75) = true ∧ (B64.lit 0.75).toQ = 0.75) ∧ (B64.isFinite (B64.lit 0.5) = true ∧ (B64.lit 0.5).toQ = 0.5) ∧
      B64.isFinite (B64.lit 1000000) = true ∧ (B64.lit 1000000).toQ = 1000000 := by decide +kernel
  obtain ⟨⟨f1, v1⟩, ⟨f5, v5, v6⟩, ⟨f2, v2⟩, ⟨f3, v3⟩, f4, v4⟩ := v
  refine ⟨⟨⟨f1, ?_⟩, by rw [v1]; norm_num⟩, ⟨f5, ?_⟩, ⟨f2, ?_, ?_, by rw [v2]; norm_num⟩, ⟨⟨f3, ?_⟩, by rw [v3]; norm_num⟩, f4, ?_, by rw [v4]; norm_num⟩
  · show |(B64.lit 0.0625).toQ| ≤ B64.pi.toQ
    rw [v1, pi_fin.2, abs_of_pos (by norm_num)]; norm_num
  · show |(B64.lit 0.0626).toQ| ≤ B64.pi.toQ
    exact (abs_le.2 ⟨v5, v6⟩).trans (by rw [pi_fin.2]; norm_num)
  · show |(B64.lit 0.75).toQ| ≤ B64.pi_2.toQ
    rw [v2, pi_2_fin.2, abs_of_pos (by norm_num)]; norm_num
  · rw [v2]
    have := Real.one_sub_sq_div_two_le_cos (x := 0.75)
    norm_num at this ⊢
    linarith
  · show |(B64.lit 0.5).toQ| ≤ B64.pi.toQ
    rw [v3, pi_fin.2, abs_of_pos (by norm_num)]; norm_num
  · rw [v4, abs_of_pos (by norm_num)]; norm_num

/-- C114 on WGS 84 with the correctly rounded library. -/
example : ∃ (l₂ φ₂ α₂ : F64 geodesicLibm) (γ : ℝ → E3),
    (GeodesicSolver.karney (KarneyGeodesicSolver.new (Ellipsoid.consts.WGS84 : Ellipsoid (F64 geodesicLibm)))).solveDirect
      (⟨⟨Flt.lit 0.0625⟩⟩, ⟨⟨Flt.lit 0.75⟩⟩) ⟨⟨Flt.lit 0.5⟩⟩ ⟨Flt.lit 1000000⟩ =
      .ok ⟨(⟨⟨Flt.lit 0.0625⟩⟩, ⟨⟨Flt.lit 0.75⟩⟩), ⟨⟨Flt.lit 0.5⟩⟩, (⟨⟨l₂⟩⟩, ⟨⟨φ₂⟩⟩), ⟨⟨α₂⟩⟩, ⟨Flt.lit 1000000⟩⟩ ∧
    γ 0 = surfacePoint (Ellipsoid.consts.WGS84 : Ellipsoid (F64 geodesicLibm)).a.m.toQ
      (Ellipsoid.consts.WGS84 : Ellipsoid (F64 geodesicLibm)).b.m.toQ 0.0625 0.75 ∧ deriv γ 0 = direction 0.0625 0.75 0.5 ∧
    ‖surfacePoint (Ellipsoid.consts.WGS84 : Ellipsoid (F64 geodesicLibm)).a.m.toQ (Ellipsoid.consts.WGS84 : Ellipsoid (F64 geodesicLibm)).b.m.toQ
      l₂.toQ φ₂.toQ - γ 1000000‖ ≤ 8e-6 := by
  obtain ⟨⟨i1, u1⟩, -, ⟨i2, i3, i4, u2⟩, ⟨i5, u3⟩, i6, i7, u4⟩ := sample_values
  obtain ⟨l₂, φ₂, α₂, γ, h1, -, -, -, -, -, h2, h3, -, h4, -⟩ := C114_karney_forward (L := geodesicLibm) geodesicLibm_accurate
    (el := Ellipsoid.consts.WGS84) wgs84_earthSized (wgs84_flat (L := geodesicLibm)).2 wgs84_f i1 i2 i3 i4 i5 i6 i7
  change γ 0 = surfacePoint _ _ ((B64.lit 0.0625).toQ : ℝ) ((B64.lit 0.75).toQ : ℝ) at h2
  change deriv γ 0 = direction ((B64.lit 0.0625).toQ : ℝ) ((B64.lit 0.75).toQ : ℝ) ((B64.lit 0.5).toQ : ℝ) at h3
  change ‖_ - γ ((B64.lit 1000000).toQ : ℝ)‖ ≤ _ at h4
  rw [u1, u2] at h2
  rw [u1, u2, u3] at h3
  rw [u4] at h4
  exact ⟨l₂, φ₂, α₂, γ, h1, h2, h3, h4⟩

/-- C114 for two starts at some hundreds of metres from each other. -/
example : ∃ l₂ φ₂ α₂ l₃ φ₃ α₃ : F64 geodesicLibm,
    (GeodesicSolver.karney (KarneyGeodesicSolver.new (Ellipsoid.consts.WGS84 : Ellipsoid (F64 geodesicLibm)))).solveDirect
      (⟨⟨Flt.lit 0.0625⟩⟩, ⟨⟨Flt.lit 0.75⟩⟩) ⟨⟨Flt.lit 0.5⟩⟩ ⟨Flt.lit 1000000⟩ =
      .ok ⟨(⟨⟨Flt.lit 0.0625⟩⟩, ⟨⟨Flt.lit 0.75⟩⟩), ⟨⟨Flt.lit 0.5⟩⟩, (⟨⟨l₂⟩⟩, ⟨⟨φ₂⟩⟩), ⟨⟨α₂⟩⟩, ⟨Flt.lit 1000000⟩⟩ ∧
    (GeodesicSolver.karney (KarneyGeodesicSolver.new (Ellipsoid.consts.WGS84 : Ellipsoid (F64 geodesicLibm)))).solveDirect
      (⟨⟨Flt.lit 0.0626⟩⟩, ⟨⟨Flt.lit 0.75⟩⟩) ⟨⟨Flt.lit 0.5⟩⟩ ⟨Flt.lit 1000000⟩ =
      .ok ⟨(⟨⟨Flt.lit 0.0626⟩⟩, ⟨⟨Flt.lit 0.75⟩⟩), ⟨⟨Flt.lit 0.5⟩⟩, (⟨⟨l₃⟩⟩, ⟨⟨φ₃⟩⟩), ⟨⟨α₃⟩⟩, ⟨Flt.lit 1000000⟩⟩ := by
  obtain ⟨⟨i1, -⟩, i1', ⟨i2, i3, i4, -⟩, ⟨i5, -⟩, i6, i7, -⟩ := sample_values
  obtain ⟨l₂, φ₂, α₂, l₃, φ₃, α₃, h1, h2, -⟩ := C114_karney_lipschitz (L := geodesicLibm) geodesicLibm_accurate
    (el := Ellipsoid.consts.WGS84) wgs84_earthSized (wgs84_flat (L := geodesicLibm)).2 wgs84_f i1 i2 i3 i4 i5 i1' i2 i3 i4 i5 i6 i7
  exact ⟨l₂, φ₂, α₂, l₃, φ₃, α₃, h1, h2⟩

/-- The end of the way of the examples is far from the axis. -/
theorem sample_end {a b l φ : ℝ} (e1 : 6000000 ≤ b) (hab : b ≤ a) (hfl : 0.995 ≤ b / a) (hc : 0 ≤ Real.cos φ)
    (h : ‖surfacePoint a b l φ - surfacePoint a b 0.0625 0.75‖ ≤ 1000001) : 0.1 ≤ Real.cos φ := by
  have hb : 0 < b := lt_of_lt_of_le (by norm_num) e1
  have ha : 0 < a := lt_of_lt_of_le hb hab
  have x := (PiLp.norm_apply_le (surfacePoint a b l φ - surfacePoint a b 0.0625 0.75) 0).trans h
  rw [Real.norm_eq_abs] at x
  simp only [surfacePoint, PiLp.sub_apply] at x
  have hN : ∀ φ : ℝ, a ≤ a ^ 2 / Real.sqrt (a ^ 2 * Real.cos φ ^ 2 + b ^ 2 * Real.sin φ ^ 2) ∧
      a ^ 2 / Real.sqrt (a ^ 2 * Real.cos φ ^ 2 + b ^ 2 * Real.sin φ ^ 2) ≤ a ^ 2 / b := by
    intro φ
    have hsc := Real.sin_sq_add_cos_sq φ
    have hab2 := pow_le_pow_left₀ hb.le hab 2
    have r1 : b ≤ Real.sqrt (a ^ 2 * Real.cos φ ^ 2 + b ^ 2 * Real.sin φ ^ 2) := by
      apply Real.le_sqrt_of_sq_le
      nlinarith [mul_le_mul_of_nonneg_right hab2 (sq_nonneg (Real.cos φ))]
    have r2 : Real.sqrt (a ^ 2 * Real.cos φ ^ 2 + b ^ 2 * Real.sin φ ^ 2) ≤ a := by
      rw [Real.sqrt_le_left ha.le]
      nlinarith [mul_le_mul_of_nonneg_right hab2 (sq_nonneg (Real.sin φ))]
    refine ⟨?_, div_le_div_of_nonneg_left (by positivity) hb r1⟩
    rw [le_div_iff₀ (lt_of_lt_of_le hb r1)]
    exact (mul_le_mul_of_nonneg_left r2 ha.le).trans_eq (pow_two a).symm
  have k1 := (hN 0.75).1
  have k2 := (hN φ).2
  have k0 : 0 ≤ a ^ 2 / Real.sqrt (a ^ 2 * Real.cos φ ^ 2 + b ^ 2 * Real.sin φ ^ 2) := by positivity
  set N := a ^ 2 / Real.sqrt (a ^ 2 * Real.cos φ ^ 2 + b ^ 2 * Real.sin φ ^ 2)
  set M := a ^ 2 / Real.sqrt (a ^ 2 * Real.cos 0.75 ^ 2 + b ^ 2 * Real.sin 0.75 ^ 2)
  simp at x
  have c1 := Real.one_sub_sq_div_two_le_cos (x := 0.75)
  have c2 := Real.one_sub_sq_div_two_le_cos (x := 0.0625)
  have m1 : a * 0.71 ≤ M * Real.cos 0.75 := mul_le_mul k1 (by norm_num at c1 ⊢; linarith) (by norm_num) (by linarith)
  have m2 : a * 0.71 * 0.9 ≤ M * Real.cos 0.75 * Real.cos 0.0625 := mul_le_mul m1 (by norm_num at c2 ⊢; linarith) (by norm_num) (by linarith [mul_pos ha (show (0 : ℝ) < 0.71 by norm_num)])
  have m3 : N * Real.cos φ * Real.cos l ≤ N * Real.cos φ := mul_le_of_le_one_right (mul_nonneg k0 hc) (Real.cos_le_one l)
  have k3 : a ^ 2 / b ≤ 1.1 * a := by
    rw [div_le_iff₀ hb]
    rw [le_div_iff₀ ha] at hfl
    norm_num at hfl ⊢
    nlinarith
  have m4 := mul_le_mul_of_nonneg_right (k2.trans k3) hc
  have x2 := (abs_le.1 x).1
  by_contra hlt
  have m5 := mul_le_mul_of_nonneg_left (not_le.1 hlt).le (show 0 ≤ 1.1 * a by positivity)
  norm_num at m2 m5 m4 x2
  linarith

theorem sample_cos {l₂ φ₂ α₂ : F64 geodesicLibm}
    (k1 : (GeodesicSolver.karney (KarneyGeodesicSolver.new (Ellipsoid.consts.WGS84 : Ellipsoid (F64 geodesicLibm)))).solveDirect
      (⟨⟨Flt.lit 0.0625⟩⟩, ⟨⟨Flt.lit 0.75⟩⟩) ⟨⟨Flt.lit 0.5⟩⟩ ⟨Flt.lit 1000000⟩ =
      .ok ⟨(⟨⟨Flt.lit 0.0625⟩⟩, ⟨⟨Flt.lit 0.75⟩⟩), ⟨⟨Flt.lit 0.5⟩⟩, (⟨⟨l₂⟩⟩, ⟨⟨φ₂⟩⟩), ⟨⟨α₂⟩⟩, ⟨Flt.lit 1000000⟩⟩) : 0.1 ≤ Real.cos φ₂.toQ := by
  obtain ⟨⟨i1, u1⟩, -, ⟨i2, i3, i4, u2⟩, ⟨i5, u3⟩, i6, i7, u4⟩ := sample_values
  have hE : EarthSized (Ellipsoid.consts.WGS84 : Ellipsoid (F64 geodesicLibm)) := wgs84_earthSized
  have hF := (wgs84_flat (L := geodesicLibm)).2
  obtain ⟨l₂, φ₂, α₂, γ, h1, -, -, h0, -, hγ, h2, -, -, h4, -⟩ := C114_karney_forward geodesicLibm_accurate hE hF wgs84_f i1 i2 i3 i4 i5 i6 i7
  have e := h1.symm.trans k1
  simp only [Except.ok.injEq, Geodesic.mk.injEq, Prod.mk.injEq, Lon.mk.injEq, Lat.mk.injEq, Azimuth.mk.injEq, Angle.mk.injEq] at e
  obtain ⟨-, -, ⟨rfl, rfl⟩, rfl, -⟩ := e
  change γ 0 = surfacePoint _ _ ((B64.lit 0.0625).toQ : ℝ) ((B64.lit 0.75).toQ : ℝ) at h2
  change ‖_ - γ ((B64.lit 1000000).toQ : ℝ)‖ ≤ _ at h4
  rw [u1, u2] at h2
  rw [u4] at h4
  obtain ⟨e1, e2, e3⟩ := earth_real hE
  refine sample_end (l := l₂.toQ) e1 e2 (ba_bound hE hF).1 ?_ ?_
  · have t := abs_le.1 ((cast_abs_le h0).trans pi_2_real.2)
    exact Real.cos_nonneg_of_neg_pi_div_two_le_of_le t.1 t.2
  · rw [← h2]
    have t := norm_sub_le_norm_sub_add_norm_sub (surfacePoint (Ellipsoid.consts.WGS84 : Ellipsoid (F64 geodesicLibm)).a.m.toQ
      (Ellipsoid.consts.WGS84 : Ellipsoid (F64 geodesicLibm)).b.m.toQ l₂.toQ φ₂.toQ) (γ 1000000) (γ 0)
    have t2 : ‖γ 1000000 - γ 0‖ ≤ 1000000 := (hγ.chord 0 1000000).trans_eq (by norm_num)
    norm_num at t2 h4 ⊢
    linarith

/-- C115: there and back over 1000 km on WGS 84. -/
example : ∃ l₂ φ₂ α₂ l₃ φ₃ α₃ : F64 geodesicLibm,
    (GeodesicSolver.karney (KarneyGeodesicSolver.new (Ellipsoid.consts.WGS84 : Ellipsoid (F64 geodesicLibm)))).solveDirect
      (⟨⟨Flt.lit 0.0625⟩⟩, ⟨⟨Flt.lit 0.75⟩⟩) ⟨⟨Flt.lit 0.5⟩⟩ ⟨Flt.lit 1000000⟩ =
      .ok ⟨(⟨⟨Flt.lit 0.0625⟩⟩, ⟨⟨Flt.lit 0.75⟩⟩), ⟨⟨Flt.lit 0.5⟩⟩, (⟨⟨l₂⟩⟩, ⟨⟨φ₂⟩⟩), ⟨⟨α₂⟩⟩, ⟨Flt.lit 1000000⟩⟩ ∧
    (GeodesicSolver.karney (KarneyGeodesicSolver.new (Ellipsoid.consts.WGS84 : Ellipsoid (F64 geodesicLibm)))).solveDirect
      (⟨⟨l₂⟩⟩, ⟨⟨φ₂⟩⟩) ⟨⟨α₂⟩⟩ ⟨-Flt.lit 1000000⟩ =
      .ok ⟨(⟨⟨l₂⟩⟩, ⟨⟨φ₂⟩⟩), ⟨⟨α₂⟩⟩, (⟨⟨l₃⟩⟩, ⟨⟨φ₃⟩⟩), ⟨⟨α₃⟩⟩, ⟨-Flt.lit 1000000⟩⟩ ∧
    ‖surfacePoint (Ellipsoid.consts.WGS84 : Ellipsoid (F64 geodesicLibm)).a.m.toQ (Ellipsoid.consts.WGS84 : Ellipsoid (F64 geodesicLibm)).b.m.toQ
      l₃.toQ φ₃.toQ - surfacePoint (Ellipsoid.consts.WGS84 : Ellipsoid (F64 geodesicLibm)).a.m.toQ
      (Ellipsoid.consts.WGS84 : Ellipsoid (F64 geodesicLibm)).b.m.toQ 0.0625 0.75‖ ≤ 2e-4 := by
  obtain ⟨⟨i1, u1⟩, -, ⟨i2, i3, i4, u2⟩, ⟨i5, u3⟩, i6, i7, u4⟩ := sample_values
  obtain ⟨l₂, φ₂, α₂, k1, k2⟩ := C115_karney_return (L := geodesicLibm) geodesicLibm_accurate (el := Ellipsoid.consts.WGS84) wgs84_earthSized
    (wgs84_flat (L := geodesicLibm)).2 wgs84_f i1 i2 i3 i4 i5 i6 i7
  have hcos := sample_cos k1
  obtain ⟨l₃, φ₃, α₃, k3, k4, -⟩ := k2 hcos
  refine ⟨l₂, φ₂, α₂, l₃, φ₃, α₃, k1, k3, ?_⟩
  change Real.cos φ₂.toQ * ‖_ - surfacePoint _ _ ((B64.lit 0.0625).toQ : ℝ) ((B64.lit 0.75).toQ : ℝ)‖ ≤ _ at k4
  rw [u1, u2] at k4
  have t := (mul_le_mul_of_nonneg_right hcos (norm_nonneg _)).trans k4
  norm_num at t ⊢
  linarith

end Geo
