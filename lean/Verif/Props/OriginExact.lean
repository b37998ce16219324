import Verif.Props.TransverseMercatorMeridian

/-!
C90: natural origins and false origins of the projections. Exact arithmetic.
-/

namespace Geo
open XR Spec

theorem solveQ_zero {e : ℝ} (h0 : 0 ≤ e) (h1 : e < 1) : TransverseMercator.solveQ (fin e) (fin 0) = .ok (fin 0) := by
  have hq : TransverseMercator.iterQ (fin e) (fin 0) (fin 0) = fin 0 := by
    rw [iterQ_fin h0 h1]; simp [iterR]
  unfold TransverseMercator.solveQ
  rw [hq]
  simp only []
  rw [loopUntil_eq_ok 0 _ (fun m hm => absurd hm (Nat.not_lt_zero m))]
  · show Except.ok (TransverseMercator.iterQ (fin e) (fin 0) (fin 0)) = _
    rw [hq]
  · simp only [iterate, hq, sub_fin, abs_fin, sci_eq, lt_fin, decide_eq_true_eq]
    norm_num

/-- **C90**, transverse Mercator: the natural origin goes to the false origin, whatever the latitude of origin, poles
included. -/
theorem C90_transverse_mercator {a b : ℝ} (hb : 0 < b) (hab : b ≤ a) (s : String) {l0 φ0 : ℝ}
    (h1 : -(Real.pi / 2) ≤ φ0) (h2 : φ0 ≤ Real.pi / 2) (k0 fe fn h : ℝ) :
    (tmSpec s a b l0 φ0 k0 fe fn).proj (llh l0 φ0 h) = .ok (enh fe fn h) := by
  rw [tm_meridian hb hab s l0 h1 h2 k0 fe fn h (SameDirection.refl l0) h1 h2]
  simp

/-- **C90**, inverse of the transverse Mercator projection with its origin on the equator: the false origin goes back to the
natural origin, without error. -/
theorem C90_transverse_mercator_inverse {a b : ℝ} (hb : 0 < b) (hab : b ≤ a) (s : String) {l0 : ℝ}
    (g1 : -Real.pi ≤ l0) (g2 : l0 ≤ Real.pi) {k0 : ℝ} (hk : k0 ≠ 0) (fe fn h : ℝ) :
    (tmSpec s a b l0 0 k0 fe fn).unproj (enh fe fn h) = .ok (llh l0 0 h) := by
  have hp := Real.pi_pos
  have he0 := Real.sqrt_nonneg (ecc2 a b)
  have he := sqrt_ecc2_lt hb hab
  have hM : tmM0 a b 0 = 0 := by simp [tmM0]
  have hB : k0 * tmB a b ≠ 0 := mul_ne_zero hk (tmB_pos hb hab).ne'
  have hla := lon_add_fin l0 0
  simp only [lonR] at hla
  have hq := solveQ_zero he0 he
  rw [tmSpec_eq hb hab s l0 (by linarith) (by linarith), Projection.unproj, hM]
  simp only [TransverseMercator.unproj, tmR, enh, lonR, Length.mk_sub, Length.mk_add, Length.mul_mk, Length.mk_mul,
    sub_fin, mul_fin, add_fin, Length.mk_div_mk, div_fin _ hB, sumSinCosh_fin, sumCosSinh_fin, sub_self, mul_zero, add_zero,
    zero_div, sCS_zero, sub_zero]
  have hS : ∀ p0 p1 p2 p3 : ℝ, sSC p0 p1 p2 p3 0 0 = 0 := by intros; simp [sSC]
  simp only [hS, sub_zero, sin_fin, cosh_fin, Real.sin_zero, Real.cosh_zero, div_fin _ one_ne_zero, zero_div]
  rw [asin_fin (by norm_num) (by norm_num), Real.arcsin_zero, tan_fin (by simp), Real.tan_zero, asinh_fin, Real.arsinh_zero, hq,
    cos_fin, Real.cos_zero, tanh_fin, Real.tanh_zero, div_fin _ one_ne_zero, zero_div, asin_fin (by norm_num) (by norm_num),
    Real.arcsin_zero]
  simp only [angle_new_rad, hla, ok_bind, sinh_fin, Real.sinh_zero, atan_fin, Real.arctan_zero, lat_new_fin, res_pure,
    add_zero, llh, lonR, latR]
  rw [clampR_id (by linarith) (by linarith), remR_id g1 g2]

/-- **C90**, UTM: the equator on the central meridian of a zone goes to (500 km, 0) in the north variant and to
(500 km, 10 000 km) in the south variant, and back. -/
theorem C90_utm {a b : ℝ} (hb : 0 < b) (hab : b ≤ a) (s : String) (z : ℕ) : ∃ l0, -Real.pi ≤ l0 ∧ l0 ≤ Real.pi ∧
    (TransverseMercator.utmLon0 z : Lon XR) = lonR l0 ∧ ∀ h,
    (utmN s a b z).proj (llh l0 0 h) = .ok (enh 500000 0 h) ∧ (utmN s a b z).unproj (enh 500000 0 h) = .ok (llh l0 0 h) ∧
    (utmS s a b z).proj (llh l0 0 h) = .ok (enh 500000 10000000 h) ∧
    (utmS s a b z).unproj (enh 500000 10000000 h) = .ok (llh l0 0 h) := by
  have hp := Real.pi_pos
  refine ⟨_, le_remR _, remR_le _, utmLon0_eq z, fun h => ?_⟩
  rw [utmN_eq, utmS_eq]
  exact ⟨C90_transverse_mercator hb hab s (by linarith) (by linarith) _ _ _ h,
    C90_transverse_mercator_inverse hb hab s (le_remR _) (remR_le _) (by norm_num) _ _ h,
    C90_transverse_mercator hb hab s (by linarith) (by linarith) _ _ _ h,
    C90_transverse_mercator_inverse hb hab s (le_remR _) (remR_le _) (by norm_num) _ _ h⟩

/-- **C90**, both variants of Mercator: the natural origin is on the equator; it goes to the false origin and back. -/
theorem C90_mercator {n : String} {a b l0 fe fn k : ℝ} (hb : 0 < b) (hab : b ≤ a) (g1 : -Real.pi ≤ l0) (g2 : l0 ≤ Real.pi)
    {p : Projection XR} (hp : IsMercator n a b l0 fe fn k p) (h : ℝ) :
    p.proj (llh l0 0 h) = .ok (enh fe fn h) ∧ p.unproj (enh fe fn h) = .ok (llh l0 0 h) := by
  have hpi := Real.pi_pos
  rw [hp.proj hb hab l0 0 h (by linarith) (by linarith), hp.unproj hb hab, isoQ_zero, sub_self, normR_id (by linarith) hpi.le,
    sub_self, sub_self]
  simp only [zero_div, Real.sinh_zero, Real.arctan_zero, mul_zero, add_zero]
  have : mercSeries (ecc2 a b) 0 = 0 := by simp [mercSeries]
  rw [this, clampR_id (by linarith) (by linarith), remR_id g1 g2]
  simp

/-- **C90**, Web Mercator, for a latitude of origin of 0. -/
theorem C90_web_mercator_partial (n : String) {a b l0 : ℝ} (ha : 0 < a) (g1 : -Real.pi ≤ l0) (g2 : l0 ≤ Real.pi) (fe fn h : ℝ) :
    (webMerc n a b l0 Lat.ZERO fe fn).proj (llh l0 0 h) = .ok (enh fe fn h) ∧
    (webMerc n a b l0 Lat.ZERO fe fn).unproj (enh fe fn h) = .ok (llh l0 0 h) := by
  have hpi := Real.pi_pos
  rw [webMerc_proj n a b l0 _ fe fn l0 0 h (by linarith) (by linarith), webMerc_unproj n ha.ne', sub_self,
    normR_id (by linarith) hpi.le, sub_self, sub_self]
  simp [remR_id g1 g2]

/-- **C90** is violated by Web Mercator with another latitude of origin: the parameter documented as the latitude of the
natural origin is ignored, and the natural origin goes elsewhere. -/
theorem C90_web_mercator_violated (n : String) {a b l0 φ0 : ℝ} (ha : 0 < a) (h0 : φ0 ≠ 0) (h1 : -(Real.pi / 2) < φ0)
    (h2 : φ0 < Real.pi / 2) (fe fn h : ℝ) :
    ∃ N, (webMerc n a b l0 (latR φ0) fe fn).proj (llh l0 φ0 h) = .ok (enh fe N h) ∧ N ≠ fn ∧ (0 < φ0 ↔ fn < N) := by
  have hpi := Real.pi_pos
  have key : ∀ {x y}, -(Real.pi / 2) < x → x < Real.pi / 2 → -(Real.pi / 2) < y → y < Real.pi / 2 →
      (Real.tan x < Real.tan y ↔ x < y) := fun a b c d => Real.strictMonoOn_tan.lt_iff_lt ⟨a, b⟩ ⟨c, d⟩
  have hpos : 0 < φ0 ↔ 0 < a * Real.arsinh (Real.tan φ0) := by
    rw [mul_pos_iff_of_pos_left ha, Real.arsinh_pos_iff]
    simpa using (key (x := 0) (by linarith) (by linarith) h1 h2).symm
  have hneg : φ0 < 0 ↔ Real.arsinh (Real.tan φ0) < 0 := by
    rw [Real.arsinh_neg_iff]
    simpa using (key (y := 0) h1 h2 (by linarith) (by linarith)).symm
  refine ⟨fn + a * Real.arsinh (Real.tan φ0), ?_, ?_, by rw [hpos]; simp⟩
  · rw [webMerc_proj n a b l0 _ fe fn l0 φ0 h h1 h2, sub_self, normR_id (by linarith) hpi.le, mul_zero, add_zero]
  · rcases lt_or_gt_of_ne h0 with g | g
    · have := mul_neg_of_pos_of_neg ha (hneg.1 g)
      intro e; linarith
    · have := hpos.1 g
      intro e; linarith

/-- Origin 49° N 2° W with false origin (400 km, -100 km), on WGS 84 (the parameters of the British
National Grid). -/
example : (tmSpec "WGS 84" 6378137 6356752.314245179 (-2 * (Real.pi / 180)) (49 * (Real.pi / 180)) 0.9996012717 400000
    (-100000)).proj (llh (-2 * (Real.pi / 180)) (49 * (Real.pi / 180)) 12) = .ok (enh 400000 (-100000) 12) :=
  C90_transverse_mercator (by norm_num) (by norm_num) _ (by linarith [Real.pi_pos]) (by linarith [Real.pi_pos]) _ _ _ _

example : ∃ N, (webMerc "WGS 84" 6378137 6356752.314245179 0 (latR (Real.pi / 4)) 0 0).proj (llh 0 (Real.pi / 4) 0) =
    .ok (enh 0 N 0) ∧ N ≠ 0 := by
  have hp := Real.pi_pos
  obtain ⟨N, h1, h2, -⟩ := C90_web_mercator_violated "WGS 84" (a := 6378137) (b := 6356752.314245179) (l0 := 0)
    (φ0 := Real.pi / 4) (by norm_num) (by linarith) (by linarith) (by linarith) 0 0 0
  exact ⟨N, h1, h2⟩

end Geo
