import Verif.Props.GeodesicExact
import Verif.Props.VincentyGeodesicExact
import Verif.Props.RappGeodesicExact

/-! # C95: the direct solvers agree, in exact arithmetic; C63 for Karney's solver on ellipsoids -/

namespace Geo
open XR Spec

/-- **C63** (Karney, on every ellipsoid with `n = (a - b) / (a + b) ≤ 1/100`): a geodesic of length zero ends where it
starts and in the same direction, up to the truncation error `5 n⁷ a` of the two series (about a picometre on the
Earth). Missing: equality, since the truncated series are not inverse to each other. -/
theorem C63_karney_ellipsoid_partial {a b : ℝ} (hb : 0 < b) (hab : b ≤ a) (hn : (a - b) / (a + b) ≤ 1 / 100) (n : String)
    (l φ α : ℝ) (hc : 0 < Real.cos φ) :
    let g := (KarneyGeodesicSolver.new (ell n a b)).direct (lonR l, latR φ) (aziR α) (lenR 0)
    ∃ l₂ φ₂ α₂ : ℝ, g.p2 = (lonR l₂, latR φ₂) ∧ g.alpha2 = aziR α₂ ∧ -Real.pi ≤ l₂ ∧ l₂ ≤ Real.pi ∧ -(Real.pi / 2) ≤ φ₂ ∧
      φ₂ ≤ Real.pi / 2 ∧ -Real.pi < α₂ ∧ α₂ ≤ Real.pi ∧
      ‖surfacePoint a b l₂ φ₂ - surfacePoint a b l φ‖ ≤ 5 * ((a - b) / (a + b)) ^ 7 * a ∧
      (Real.cos φ₂ ≠ 0 → ‖direction l₂ φ₂ α₂ - direction l φ α‖ ≤ 5 * ((a - b) / (a + b)) ^ 7) := by
  intro g
  obtain ⟨γ, l₂, φ₂, α₂, -, g0, g1, p, q, h1, h2, h3, h4, h5, h6, w1, w2⟩ := C78_karney_direct hb hab hn n l φ α 0 hc
  refine ⟨l₂, φ₂, α₂, p, q, h1, h2, h3, h4, h5, h6, ?_, fun h => ?_⟩
  · rw [← g0]; refine w1.trans (le_of_eq ?_); rw [abs_zero]; ring
  · rw [← g1]; refine (w2 h).trans (le_of_eq ?_); rw [abs_zero]; ring

/-- On WGS 84, two picometres. -/
example : 5 * (((6378137 : ℝ) - 6356752.314245) / (6378137 + 6356752.314245)) ^ 7 * 6378137 ≤ 2e-12 := by norm_num

/-- The third flattening against the first. -/
theorem third_le {a b : ℝ} (hb : 0 < b) (hab : b ≤ a) (hf : (a - b) / a ≤ 1 / 51) : (a - b) / (a + b) ≤ 1 / 100 := by
  have ha : 0 < a := lt_of_lt_of_le hb hab
  rw [div_le_div_iff₀ ha (by norm_num)] at hf
  rw [div_le_div_iff₀ (by positivity) (by norm_num)]
  linarith

/-- **C95**, Vincenty and Karney: the two direct solvers return ends that are as close to each other as the sum of the
truncation errors of their series, in every azimuth and over every distance, and the same direction there. -/
theorem C95_vincenty_karney {a b : ℝ} (hb : 0 < b) (hab : b ≤ a) (hf : (a - b) / a ≤ 1 / 51) (n : String)
    (l φ α s : ℝ) (hc : 0 < Real.cos φ) :
    ∃ l₂ φ₂ α₂ l₂' φ₂' α₂' : ℝ,
      VincentyGeodesicSolver.direct ⟨ell n a b⟩ (lonR l, latR φ) (aziR α) (lenR s) =
        .ok ⟨(lonR l, latR φ), aziR α, (lonR l₂, latR φ₂), aziR α₂, lenR s⟩ ∧
      ((KarneyGeodesicSolver.new (ell n a b)).direct (lonR l, latR φ) (aziR α) (lenR s)).p2 = (lonR l₂', latR φ₂') ∧
      ((KarneyGeodesicSolver.new (ell n a b)).direct (lonR l, latR φ) (aziR α) (lenR s)).alpha2 = aziR α₂' ∧
      ‖surfacePoint a b l₂ φ₂ - surfacePoint a b l₂' φ₂'‖ ≤ ((a - b) / a) ^ 4 * (22 / 100 * |s| + a / 400) +
        1e-12 * ((a - b) / a) * a + ((a - b) / (a + b)) ^ 7 * (5 * a + 14 * |s|) ∧
      (Real.cos φ₂ ≠ 0 → Real.cos φ₂' ≠ 0 → ‖direction l₂ φ₂ α₂ - direction l₂' φ₂' α₂'‖ ≤
        ((a - b) / a) ^ 4 * (22 / 100 * (|s| / a) + 1 / 400) + 1e-12 * ((a - b) / a) +
          ((a - b) / (a + b)) ^ 7 * (5 + 14 * (|s| / a))) := by
  obtain ⟨g, hg, γ, l₂, φ₂, α₂, hγ, g0, g1, rfl, -, -, -, -, -, -, w1, w2⟩ :=
    C79_vincenty_direct hb hab (hf.trans (by norm_num)) n l φ α s hc
  obtain ⟨δ, l₂', φ₂', α₂', hδ, d0, d1, p, q, -, -, -, -, -, -, v1, v2⟩ :=
    C78_karney_direct hb hab (third_le hb hab hf) n l φ α s hc
  obtain rfl := C78_unique hb hab hγ hδ (g0.trans d0.symm) (g1.trans d1.symm)
  refine ⟨l₂, φ₂, α₂, l₂', φ₂', α₂', hg, p, q, ?_, fun h h' => ?_⟩
  · rw [norm_sub_rev] at v1
    exact (norm_sub_le_norm_sub_add_norm_sub _ (γ s) _).trans (add_le_add w1 v1)
  · have v2 := v2 h'
    rw [norm_sub_rev] at v2
    exact (norm_sub_le_norm_sub_add_norm_sub _ (deriv γ s) _).trans (add_le_add (w2 h) v2)

/-- On WGS 84, over ten thousand kilometres from (0, 1/2): less than a millimetre apart. -/
example : ∃ l₂ φ₂ α₂ l₂' φ₂' : ℝ,
    VincentyGeodesicSolver.direct ⟨ell "WGS 84" 6378137 6356752.314245⟩ (lonR 0, latR (1 / 2)) (aziR 1) (lenR 10000000) =
      .ok ⟨(lonR 0, latR (1 / 2)), aziR 1, (lonR l₂, latR φ₂), aziR α₂, lenR 10000000⟩ ∧
    ((KarneyGeodesicSolver.new (ell "WGS 84" 6378137 6356752.314245)).direct (lonR 0, latR (1 / 2)) (aziR 1)
      (lenR 10000000)).p2 = (lonR l₂', latR φ₂') ∧
    ‖surfacePoint 6378137 6356752.314245 l₂ φ₂ - surfacePoint 6378137 6356752.314245 l₂' φ₂'‖ ≤ 1e-3 := by
  obtain ⟨l₂, φ₂, α₂, l₂', φ₂', α₂', h1, h2, -, h3, -⟩ := C95_vincenty_karney (a := 6378137) (b := 6356752.314245) (by norm_num)
    (by norm_num) (by norm_num) "WGS 84" 0 (1 / 2) 1 10000000
    (Real.cos_pos_of_mem_Ioo ⟨by linarith [Real.pi_gt_three], by linarith [Real.pi_gt_three]⟩)
  exact ⟨l₂, φ₂, α₂, l₂', φ₂', h1, h2, h3.trans (by norm_num)⟩

/-- **C95**, Vincenty and Rapp: likewise, unless the azimuth is along a meridian and Rapp's solver returns a longitude
that is not a number. -/
theorem C95_vincenty_rapp {a b : ℝ} (hb : 0 < b) (hab : b ≤ a) (hf : (a - b) / a ≤ 1 / 50) (n : String)
    (l φ α s : ℝ) (hc : 0 < Real.cos φ) :
    ∃ g, (RappSolver.new (ell n a b)).direct (lonR l, latR φ) (aziR α) (lenR s) = .ok g ∧
      ((Real.sin α = 0 ∧ g.p2.1 = ⟨⟨nan⟩⟩) ∨ ∃ l₂ φ₂ α₂ l₂' φ₂' α₂' : ℝ,
        VincentyGeodesicSolver.direct ⟨ell n a b⟩ (lonR l, latR φ) (aziR α) (lenR s) =
          .ok ⟨(lonR l, latR φ), aziR α, (lonR l₂, latR φ₂), aziR α₂, lenR s⟩ ∧
        g = ⟨(lonR l, latR φ), aziR α, (lonR l₂', latR φ₂'), aziR α₂', lenR s⟩ ∧
        ‖surfacePoint a b l₂ φ₂ - surfacePoint a b l₂' φ₂'‖ ≤ ((a - b) / a) ^ 4 * (33 / 100 * |s| + a / 250) +
          1e-12 * ((a - b) / a) * a + 1.1e-14 * a / Real.cos φ) := by
  obtain ⟨g, hg, γ, l₂, φ₂, α₂, hγ, g0, g1, rfl, -, -, -, -, -, -, w1, -⟩ := C79_vincenty_direct hb hab hf n l φ α s hc
  obtain ⟨r, hr, δ, hδ, d0, d1, h⟩ := C81_rapp_direct hb hab hf n l φ α s hc
  refine ⟨r, hr, h.imp_right ?_⟩
  rintro ⟨l₂', φ₂', α₂', rfl, -, -, -, -, -, -, v1, -⟩
  obtain rfl := C78_unique hb hab hγ hδ (g0.trans d0.symm) (g1.trans d1.symm)
  refine ⟨l₂, φ₂, α₂, l₂', φ₂', α₂', hg, rfl, ?_⟩
  rw [norm_sub_rev] at v1
  refine (norm_sub_le_norm_sub_add_norm_sub _ (γ s) _).trans ((add_le_add w1 v1).trans ?_)
  have ha : 0 < a := lt_of_lt_of_le hb hab
  have f0 : 0 ≤ ((a - b) / a) ^ 4 := pow_nonneg (div_nonneg (by linarith) ha.le) 4
  have : ((a - b) / a) ^ 4 * (22 / 100 * |s| + a / 400) + ((a - b) / a) ^ 4 * (11 / 100 * |s| + a / 700) ≤
      ((a - b) / a) ^ 4 * (33 / 100 * |s| + a / 250) := by
    rw [← mul_add]
    exact mul_le_mul_of_nonneg_left (by linarith) f0
  linarith

/-- Azimuth 1 is not along a meridian. -/
example : Real.sin 1 ≠ 0 := (Real.sin_pos_of_pos_of_lt_pi one_pos (by linarith [Real.pi_gt_three])).ne'

end Geo
