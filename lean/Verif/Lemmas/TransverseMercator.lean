import Verif.Props.CylindricalExact
import Verif.Spec.TransverseMercator

/-! The transverse Mercator projection in exact arithmetic. -/

namespace Geo
open XR Spec

/-- A transverse Mercator projection with real parameters. -/
def tmR (e l0 k0 fe fn B h0 h1 h2 h3 p0 p1 p2 p3 M0 : ℝ) : TransverseMercator XR :=
  ⟨fin e, lonR l0, fin k0, ⟨fin fe⟩, ⟨fin fn⟩, ⟨fin B⟩, fin h0, fin h1, fin h2, fin h3, fin p0, fin p1, fin p2, fin p3,
    ⟨fin M0⟩⟩

theorem confR_def (e φ : ℝ) : confR e φ = if Real.cos φ = 0 then φ else Real.arctan (Real.sinh (isoQ e φ)) := rfl

theorem nR_nonneg {a b : ℝ} (hb : 0 < b) (hab : b ≤ a) : 0 ≤ nR a b :=
  div_nonneg (by linarith) (by linarith)

theorem tmB_pos {a b : ℝ} (hb : 0 < b) (hab : b ≤ a) : 0 < tmB a b := by
  have h := nR_nonneg hb hab
  have ha : 0 < a := lt_of_lt_of_le hb hab
  unfold tmB
  positivity

theorem nR_self (a : ℝ) : nR a a = 0 := by simp [nR]
theorem tmB_self (a : ℝ) : tmB a a = a := by simp [tmB, nR_self]

theorem cos_eq_zero_pole {φ : ℝ} (h1 : -(Real.pi / 2) ≤ φ) (h2 : φ ≤ Real.pi / 2) (hc : Real.cos φ = 0) :
    φ = Real.pi / 2 ∨ φ = -(Real.pi / 2) := by
  by_contra hne
  push Not at hne
  have := cos_pos_of_lat (lt_of_le_of_ne h1 (Ne.symm hne.2)) (lt_of_le_of_ne h2 hne.1)
  linarith

theorem Q_beta_fin {e : ℝ} (h0 : 0 ≤ e) (he : e < 1) {φ : ℝ} (h1 : -(Real.pi / 2) ≤ φ) (h2 : φ ≤ Real.pi / 2) :
    TransverseMercator.beta (TransverseMercator.Q (fin e) (latR φ)) = fin (confR e φ) := by
  have hes := abs_e_sin_lt h0 he φ
  rw [confR_def]
  unfold TransverseMercator.beta TransverseMercator.Q
  simp only [latR, Lat.tan, Lat.sin, Angle.tan, Angle.sin, sin_fin, mul_fin, atanh_fin hes.1 hes.2]
  by_cases hc : Real.cos φ = 0
  · rw [if_pos hc, tan_fin_ite, if_pos hc]
    rcases cos_eq_zero_pole h1 h2 hc with h | h
    · rw [h, Real.sin_pi_div_two, signInf_pos one_pos]; rfl
    · rw [h, Real.sin_neg, Real.sin_pi_div_two, signInf_neg (by norm_num)]; rfl
  · rw [if_neg hc, tan_fin hc, asinh_fin, sub_fin, sinh_fin, atan_fin]; rfl

theorem confR_range {e : ℝ} {φ : ℝ} (h1 : -(Real.pi / 2) ≤ φ) (h2 : φ ≤ Real.pi / 2) :
    -(Real.pi / 2) ≤ confR e φ ∧ confR e φ ≤ Real.pi / 2 := by
  simp only [confR_def]
  split
  · exact ⟨h1, h2⟩
  · exact ⟨(Real.neg_pi_div_two_lt_arctan _).le, (Real.arctan_lt_pi_div_two _).le⟩

theorem confR_neg {e : ℝ} (h0 : 0 ≤ e) (he : e < 1) (φ : ℝ) : confR e (-φ) = -confR e φ := by
  simp only [confR_def]
  rw [Real.cos_neg, isoQ_neg h0 he, Real.sinh_neg, Real.arctan_neg]
  split <;> rfl

theorem confR_sphere {φ : ℝ} (h1 : -(Real.pi / 2) ≤ φ) (h2 : φ ≤ Real.pi / 2) : confR 0 φ = φ := by
  simp only [confR_def]
  split
  · rfl
  · rename_i hc
    have hne1 : φ ≠ Real.pi / 2 := fun h => hc (by rw [h, Real.cos_pi_div_two])
    have hne2 : φ ≠ -(Real.pi / 2) := fun h => hc (by rw [h, Real.cos_neg, Real.cos_pi_div_two])
    rw [isoQ_sphere, arctan_sinh_iso (lt_of_le_of_ne h1 hne2.symm) (lt_of_le_of_ne h2 hne1)]

theorem confR_eq_zero {e : ℝ} (h0 : 0 ≤ e) (he : e < 1) {φ : ℝ} (h1 : -(Real.pi / 2) ≤ φ) (h2 : φ ≤ Real.pi / 2) :
    confR e φ = 0 ↔ φ = 0 := by
  simp only [confR_def]
  split
  · rfl
  · rename_i hc
    have hne1 : φ ≠ Real.pi / 2 := fun h => hc (by rw [h, Real.cos_pi_div_two])
    have hne2 : φ ≠ -(Real.pi / 2) := fun h => hc (by rw [h, Real.cos_neg, Real.cos_pi_div_two])
    have hp := Real.pi_pos
    rw [Real.arctan_eq_zero_iff, Real.sinh_eq_zero]
    constructor
    · intro h
      have := (isoQ_strictMono h0 he).injOn (x₁ := φ) (x₂ := 0)
        ⟨lt_of_le_of_ne h1 hne2.symm, lt_of_le_of_ne h2 hne1⟩ ⟨by linarith, by linarith⟩
      exact this (by rw [h, isoQ_zero])
    · intro h
      rw [h, isoQ_zero]

theorem sumSinCosh_fin (h0 h1 h2 h3 x y : ℝ) :
    TransverseMercator.sumSinCosh (fin h0) (fin h1) (fin h2) (fin h3) (fin x) (fin y) = fin (sSC h0 h1 h2 h3 x y) := by
  simp only [TransverseMercator.sumSinCosh, two_sci, four_sci, six_sci, eight_sci, mul_fin, sin_fin, cosh_fin, fsum,
    List.foldl, zero_eq, add_fin, zero_add, sSC]

theorem sumCosSinh_fin (h0 h1 h2 h3 x y : ℝ) :
    TransverseMercator.sumCosSinh (fin h0) (fin h1) (fin h2) (fin h3) (fin x) (fin y) = fin (sCS h0 h1 h2 h3 x y) := by
  simp only [TransverseMercator.sumCosSinh, two_sci, four_sci, six_sci, eight_sci, mul_fin, cos_fin, sinh_fin, fsum,
    List.foldl, zero_eq, add_fin, zero_add, sCS]

theorem sSC_neg_left (h0 h1 h2 h3 x y : ℝ) : sSC h0 h1 h2 h3 (-x) y = -sSC h0 h1 h2 h3 x y := by
  simp only [sSC, mul_neg, Real.sin_neg]; ring
theorem sSC_neg_right (h0 h1 h2 h3 x y : ℝ) : sSC h0 h1 h2 h3 x (-y) = sSC h0 h1 h2 h3 x y := by
  simp only [sSC, mul_neg, Real.cosh_neg]
theorem sCS_neg_left (h0 h1 h2 h3 x y : ℝ) : sCS h0 h1 h2 h3 (-x) y = sCS h0 h1 h2 h3 x y := by
  simp only [sCS, mul_neg, Real.cos_neg]
theorem sCS_neg_right (h0 h1 h2 h3 x y : ℝ) : sCS h0 h1 h2 h3 x (-y) = -sCS h0 h1 h2 h3 x y := by
  simp only [sCS, mul_neg, Real.sinh_neg]; ring
theorem sCS_zero (h0 h1 h2 h3 x : ℝ) : sCS h0 h1 h2 h3 x 0 = 0 := by simp [sCS]

theorem ell_n {a b : ℝ} (hb : 0 < b) (hab : b ≤ a) (s : String) : (ell s a b).n = fin (nR a b) := by
  have : a + b ≠ 0 := by linarith
  simp only [ell, Ellipsoid.n, Length.mk_sub, Length.mk_add, sub_fin, add_fin, Length.mk_div_mk, div_fin _ this, nR]

theorem meridianArc_fin {a b : ℝ} (hb : 0 < b) (hab : b ≤ a) {φ0 : ℝ} (h1 : -(Real.pi / 2) ≤ φ0)
    (h2 : φ0 ≤ Real.pi / 2) :
    TransverseMercator.meridianArc (latR φ0) ⟨fin (tmB a b)⟩ (fin (Real.sqrt (ecc2 a b))) (fin (tmh0 (nR a b)))
      (fin (tmh1 (nR a b))) (fin (tmh2 (nR a b))) (fin (tmh3 (nR a b))) = ⟨fin (tmM0 a b φ0)⟩ := by
  have hz : (0.0 : XR) = fin 0 := by rw [sci_eq]; norm_num
  have hQ := Q_beta_fin (Real.sqrt_nonneg (ecc2 a b)) (sqrt_ecc2_lt hb hab) h1 h2
  unfold TransverseMercator.meridianArc tmM0
  have e1 : (latR φ0).beq Lat.ZERO = decide (φ0 = 0) := by
    simp [latR, Lat.beq, Lat.ZERO, Angle.ZERO, Angle.beq]
  have e2 : (latR φ0).abs.beq Lat.MAX = decide (|φ0| = Real.pi / 2) := by
    simp [latR, Lat.beq, Lat.MAX, Angle.PI_2, Angle.beq, Lat.abs, Angle.abs]
  rw [e1, e2]
  by_cases c1 : φ0 = 0
  · simp only [c1, decide_true, if_true, hz, length_new_m]
  · by_cases c2 : |φ0| = Real.pi / 2
    · simp only [c1, c2, decide_true, decide_false, if_true, if_false, latR, Length.mk_mul, mul_fin, Bool.false_eq_true]
      rw [mul_comm]
    · simp only [c1, c2, decide_false, if_false, Bool.false_eq_true, hQ, two_sci, four_sci, six_sci, eight_sci,
        mul_fin, sin_fin, fsum, List.foldl, zero_eq, add_fin, zero_add, Length.mk_mul]
      rw [mul_comm]; rfl

theorem tmNew_eq {a b : ℝ} (hb : 0 < b) (hab : b ≤ a) (s : String) (l0 : ℝ) {φ0 : ℝ} (h1 : -(Real.pi / 2) ≤ φ0)
    (h2 : φ0 ≤ Real.pi / 2) (k0 fe fn : ℝ) :
    TransverseMercator.new (ell s a b) (lonR l0) (latR φ0) (fin k0) ⟨fin fe⟩ ⟨fin fn⟩ =
      tmR (Real.sqrt (ecc2 a b)) l0 k0 fe fn (tmB a b) (tmh0 (nR a b)) (tmh1 (nR a b)) (tmh2 (nR a b))
        (tmh3 (nR a b)) (tmp0 (nR a b)) (tmp1 (nR a b)) (tmp2 (nR a b)) (tmp3 (nR a b)) (tmM0 a b φ0) := by
  have hn := nR_nonneg hb hab
  have hn1 : (1 + nR a b) ≠ 0 := by linarith
  have c0 : fastPoly [0, 0.5, -2 / 3, 5 / 16, 41 / 180] (fin (nR a b)) = fin (tmh0 (nR a b)) := by
    simp [fastPoly, Polynomial.fastEvalAt, div_fin_ite, tmh0]; ring
  have c1 : fastPoly [0, 0, 13 / 48, -3 / 5, 557 / 1440] (fin (nR a b)) = fin (tmh1 (nR a b)) := by
    simp [fastPoly, Polynomial.fastEvalAt, div_fin_ite, tmh1]; ring
  have c2 : fastPoly [0, 0, 0, 61 / 240, -103 / 140] (fin (nR a b)) = fin (tmh2 (nR a b)) := by
    simp [fastPoly, Polynomial.fastEvalAt, div_fin_ite, tmh2]; ring
  have c3 : fastPoly [0, 0, 0, 0, 49561 / 161280] (fin (nR a b)) = fin (tmh3 (nR a b)) := by
    simp [fastPoly, Polynomial.fastEvalAt, div_fin_ite, tmh3]; ring
  have d0 : fastPoly [0, 0.5, -2 / 3, 37 / 96, -1 / 360] (fin (nR a b)) = fin (tmp0 (nR a b)) := by
    simp [fastPoly, Polynomial.fastEvalAt, div_fin_ite, tmp0]; ring
  have d1 : fastPoly [0, 0, 1 / 48, 1 / 15, -437 / 1440] (fin (nR a b)) = fin (tmp1 (nR a b)) := by
    simp [fastPoly, Polynomial.fastEvalAt, div_fin_ite, tmp1]; ring
  have d2 : fastPoly [0, 0, 0, 17 / 480, -37 / 840] (fin (nR a b)) = fin (tmp2 (nR a b)) := by
    simp [fastPoly, Polynomial.fastEvalAt, div_fin_ite, tmp2]; ring
  have d3 : fastPoly [0, 0, 0, 0, 4397 / 161280] (fin (nR a b)) = fin (tmp3 (nR a b)) := by
    simp [fastPoly, Polynomial.fastEvalAt, div_fin_ite, tmp3]; ring
  have hB0 : fastPoly [1, 0, 0.25, 0, 1 / 64] (fin (nR a b)) = fin (1 + nR a b ^ 2 / 4 + nR a b ^ 4 / 64) := by
    simp [fastPoly, Polynomial.fastEvalAt, div_fin_ite]; ring
  have hB : ((ell s a b).a / ((1.0 : XR) + fin (nR a b)) : Length XR) * fastPoly [1, 0, 0.25, 0, 1 / 64] (fin (nR a b))
      = ⟨fin (tmB a b)⟩ := by
    rw [hB0, one_sci, add_fin]
    simp only [ell, Length.mk_div, div_fin _ hn1, Length.mk_mul, mul_fin, tmB]
    rw [mul_comm]
  simp only [TransverseMercator.new, ell_e hb hab, ell_n hb hab, hB, c0, c1, c2, c3, d0, d1, d2, d3,
    meridianArc_fin hb hab h1 h2, tmR]

/-! ### The forward projection -/

theorem cosh_artanh_sq {x : ℝ} (h1 : -1 < x) (h2 : x < 1) : Real.cosh (Real.artanh x) = 1 / Real.sqrt (1 - x ^ 2) :=
  Real.cosh_artanh ⟨h1, h2⟩

theorem sin_cosh_le {β Δ : ℝ} (hd : |Real.cos β * Real.sin Δ| < 1) :
    -1 ≤ Real.sin β * Real.cosh (Real.artanh (Real.cos β * Real.sin Δ)) ∧
    Real.sin β * Real.cosh (Real.artanh (Real.cos β * Real.sin Δ)) ≤ 1 := by
  rw [← abs_le]
  obtain ⟨g1, g2⟩ := abs_lt.1 hd
  rw [cosh_artanh_sq g1 g2]
  have hpos : 0 < 1 - (Real.cos β * Real.sin Δ) ^ 2 := by nlinarith
  have hs := Real.sqrt_pos.2 hpos
  rw [abs_mul, abs_of_pos (by positivity : (0 : ℝ) < 1 / _), mul_one_div, div_le_one hs]
  apply Real.le_sqrt_of_sq_le
  rw [sq_abs]
  have h1 := Real.sin_sq_add_cos_sq β
  have h2 := Real.sin_sq_le_one Δ
  have h3 := mul_le_mul_of_nonneg_left h2 (sq_nonneg (Real.cos β))
  nlinarith

section
variable (e l0 k0 fe fn B h0 h1 h2 h3 p0 p1 p2 p3 M0 : ℝ)

theorem tmR_proj (he0 : 0 ≤ e) (he : e < 1) (l φ h : ℝ) (hφ1 : -(Real.pi / 2) ≤ φ) (hφ2 : φ ≤ Real.pi / 2)
    (hd : |Real.cos (confR e φ) * Real.sin (l - l0)| < 1) :
    let η := Real.artanh (Real.cos (confR e φ) * Real.sin (l - l0))
    let ξ := Real.arcsin (Real.sin (confR e φ) * Real.cosh η)
    (tmR e l0 k0 fe fn B h0 h1 h2 h3 p0 p1 p2 p3 M0).proj (llh l φ h) =
      .ok (enh (fe + k0 * B * (η + sCS h0 h1 h2 h3 ξ η)) (fn + k0 * (B * (ξ + sSC h0 h1 h2 h3 ξ η) - M0)) h) := by
  intro η ξ
  have hQ := Q_beta_fin he0 he hφ1 hφ2
  have hs := lon_sub_fin l l0
  have hsin : Real.sin (normR (l - l0)) = Real.sin (l - l0) := (normR_same _).sin
  obtain ⟨g1, g2⟩ := abs_lt.1 hd
  obtain ⟨g3, g4⟩ := sin_cosh_le hd
  simp only [latR, lonR] at hQ hs
  simp only [TransverseMercator.proj, tmR, llh, lonR, hQ, hs, cos_fin, Angle.sin, sin_fin, mul_fin, hsin,
    atanh_fin g1 g2, cosh_fin, asin_fin g3 g4, sumSinCosh_fin, sumCosSinh_fin, add_fin]
  simp only [Length.mul_mk, Length.mk_mul, mul_fin, Length.mk_add, add_fin, Length.mk_sub, sub_fin, enh]
  congr 3
  · congr 1; ring
  · congr 2; ring
end

theorem tm_domain {e : ℝ} (h0 : 0 ≤ e) (he : e < 1) {φ Δ : ℝ} (h1 : -(Real.pi / 2) ≤ φ) (h2 : φ ≤ Real.pi / 2)
    (hd : ¬ (φ = 0 ∧ Real.cos Δ = 0)) : |Real.cos (confR e φ) * Real.sin Δ| < 1 := by
  have hc := Real.cos_le_one (confR e φ)
  have hr := confR_range (e := e) h1 h2
  have hc0 : 0 ≤ Real.cos (confR e φ) := Real.cos_nonneg_of_mem_Icc hr
  rw [abs_mul, abs_of_nonneg hc0]
  have hs := Real.abs_sin_le_one Δ
  by_cases hφ : φ = 0
  · have : Real.cos Δ ≠ 0 := fun h => hd ⟨hφ, h⟩
    have hlt : |Real.sin Δ| < 1 := by
      rw [← sq_lt_one_iff_abs_lt_one]
      have := Real.sin_sq_add_cos_sq Δ
      have : 0 < Real.cos Δ ^ 2 := by positivity
      linarith
    calc Real.cos (confR e φ) * |Real.sin Δ| ≤ 1 * |Real.sin Δ| := by
          exact mul_le_mul_of_nonneg_right hc (abs_nonneg _)
      _ < 1 := by linarith
  · have hne : confR e φ ≠ 0 := fun h => hφ ((confR_eq_zero h0 he h1 h2).1 h)
    have hlt : Real.cos (confR e φ) < 1 := by
      refine lt_of_le_of_ne hc fun h => hne ?_
      have hp := Real.pi_pos
      exact (Real.cos_eq_one_iff_of_lt_of_lt (by linarith [hr.1]) (by linarith [hr.2])).1 h
    calc Real.cos (confR e φ) * |Real.sin Δ| ≤ Real.cos (confR e φ) * 1 :=
          mul_le_mul_of_nonneg_left hs hc0
      _ < 1 := by linarith

/-! ### The inverse: the fixed-point loop -/

/-- `g(x) = Q' + e artanh(e tanh x)` -/
noncomputable def iterR (e q x : ℝ) : ℝ := q + e * Real.artanh (e * Real.tanh x)

theorem abs_tanh_lt (x : ℝ) : |Real.tanh x| < 1 := by
  rw [Real.tanh_eq_sinh_div_cosh, abs_div, abs_of_pos (Real.cosh_pos x), div_lt_one (Real.cosh_pos x)]
  have := Real.cosh_sq x
  apply abs_lt_of_sq_lt_sq _ (Real.cosh_pos x).le
  linarith

theorem abs_e_tanh_lt {e : ℝ} (h0 : 0 ≤ e) (h1 : e < 1) (x : ℝ) : -1 < e * Real.tanh x ∧ e * Real.tanh x < 1 := by
  have := abs_lt.1 (abs_tanh_lt x)
  constructor <;> nlinarith [this.1, this.2]

theorem iterQ_fin {e : ℝ} (h0 : 0 ≤ e) (h1 : e < 1) (q x : ℝ) :
    TransverseMercator.iterQ (fin e) (fin q) (fin x) = fin (iterR e q x) := by
  obtain ⟨g1, g2⟩ := abs_e_tanh_lt h0 h1 x
  simp only [TransverseMercator.iterQ, tanh_fin, mul_fin, atanh_fin g1 g2, add_fin, iterR]

theorem hasDerivAt_tanh (x : ℝ) : HasDerivAt Real.tanh (1 - Real.tanh x ^ 2) x := by
  have h := (Real.hasDerivAt_sinh x).div (Real.hasDerivAt_cosh x) (Real.cosh_pos x).ne'
  have e1 : Real.tanh = (Real.sinh / Real.cosh : ℝ → ℝ) := by
    funext y; rw [Real.tanh_eq_sinh_div_cosh]; rfl
  rw [e1]
  refine h.congr_deriv ?_
  have hc := (Real.cosh_pos x).ne'
  rw [Pi.div_apply]
  field_simp

theorem iterR_lip {e : ℝ} (h0 : 0 ≤ e) (h1 : e < 1) (q x y : ℝ) :
    |iterR e q x - iterR e q y| ≤ e ^ 2 * |x - y| := by
  have key := Convex.norm_image_sub_le_of_norm_hasDerivWithin_le (f := iterR e q)
    (f' := fun x => e ^ 2 * (1 - Real.tanh x ^ 2) / (1 - e ^ 2 * Real.tanh x ^ 2)) (C := e ^ 2) (s := Set.univ)
    (x := y) (y := x) ?_ ?_ convex_univ (Set.mem_univ _) (Set.mem_univ _)
  · simpa [Real.norm_eq_abs] using key
  · intro z _
    obtain ⟨g1, g2⟩ := abs_e_tanh_lt h0 h1 z
    have d := (((hasDerivAt_artanh g1 g2).comp z ((hasDerivAt_tanh z).const_mul e)).const_mul e).const_add q
    refine (d.congr_deriv ?_).hasDerivWithinAt
    rw [show (e * Real.tanh z) ^ 2 = e ^ 2 * Real.tanh z ^ 2 by ring]
    ring
  · intro z _
    have ht := abs_lt.1 (abs_tanh_lt z)
    have ht2 : Real.tanh z ^ 2 < 1 := by nlinarith [ht.1, ht.2]
    have he2 : e ^ 2 < 1 := by nlinarith
    have hpos : 0 < 1 - e ^ 2 * Real.tanh z ^ 2 := by nlinarith [sq_nonneg (Real.tanh z), sq_nonneg e]
    have hn : 0 ≤ 1 - Real.tanh z ^ 2 := by linarith
    rw [Real.norm_eq_abs, abs_of_nonneg (by positivity), div_le_iff₀ hpos]
    have : 0 ≤ e ^ 2 * ((1 - e ^ 2) * Real.tanh z ^ 2) := by
      have : 0 ≤ 1 - e ^ 2 := by linarith
      positivity
    nlinarith

/-- The successive iterates. -/
theorem iterate_solveQ {e : ℝ} (h0 : 0 ≤ e) (h1 : e < 1) (q : ℝ) (m : ℕ) (x y : ℝ) :
    ∃ u v, iterate (fun st : XR × XR => (TransverseMercator.iterQ (fin e) (fin q) st.1, st.1)) (m + 1) (fin x, fin y) =
      (fin u, fin v) ∧ u = iterR e q v ∧ |u - v| ≤ (e ^ 2) ^ m * |iterR e q x - x| := by
  induction m generalizing x y with
  | zero =>
    refine ⟨iterR e q x, x, ?_, rfl, by simp⟩
    simp only [iterate, iterQ_fin h0 h1]
  | succ m ih =>
    obtain ⟨u, v, e1, e2, e3⟩ := ih (iterR e q x) x
    refine ⟨u, v, ?_, e2, ?_⟩
    · rw [iterate, iterQ_fin h0 h1]; exact e1
    · refine e3.trans ?_
      rw [pow_succ (e ^ 2) m, mul_assoc]
      exact mul_le_mul_of_nonneg_left (iterR_lip h0 h1 q _ _) (by positivity)

/-- The loop stops, on a value satisfying the equation to within `e² 1e-12`. -/
theorem solveQ_fin {e : ℝ} (h0 : 0 ≤ e) (h1 : e < 1) (q : ℝ) :
    ∃ u, TransverseMercator.solveQ (fin e) (fin q) = .ok (fin u) ∧
      |u - iterR e q u| ≤ e ^ 2 * 1e-12 := by
  unfold TransverseMercator.solveQ
  simp only [iterQ_fin h0 h1]
  set x0 := iterR e q q
  have hex : ∃ m, (fun st : XR × XR => Flt.abs (st.1 - st.2) <. 1e-12)
      (iterate (fun st : XR × XR => (TransverseMercator.iterQ (fin e) (fin q) st.1, st.1)) (m + 1) (fin x0, fin x0))
      = true := by
    have hlim : ∃ m : ℕ, (e ^ 2) ^ m * |iterR e q x0 - x0| < 1e-12 := by
      have he2 : e ^ 2 < 1 := by nlinarith
      obtain ⟨m, hm⟩ := exists_pow_lt_of_lt_one
        (show (0 : ℝ) < 1e-12 / (|iterR e q x0 - x0| + 1) by positivity) he2
      refine ⟨m, ?_⟩
      rw [lt_div_iff₀ (by positivity)] at hm
      have : (0 : ℝ) ≤ (e ^ 2) ^ m := by positivity
      nlinarith
    obtain ⟨m, hm⟩ := hlim
    obtain ⟨u, v, e1, _, e3⟩ := iterate_solveQ h0 h1 q m x0 x0
    refine ⟨m, ?_⟩
    rw [e1]
    simp only [sub_fin, abs_fin, sci_eq, lt_fin, decide_eq_true_eq]
    exact lt_of_le_of_lt e3 hm
  obtain ⟨u, v, e1, e2, _⟩ := iterate_solveQ h0 h1 q (Nat.find hex) x0 x0
  have hdone := Nat.find_spec hex
  unfold loopUntil
  rw [dif_pos hex, e1]
  rw [e1] at hdone
  simp only [sub_fin, abs_fin, sci_eq, lt_fin, decide_eq_true_eq] at hdone
  refine ⟨u, rfl, ?_⟩
  calc |u - iterR e q u| = |iterR e q v - iterR e q u| := by rw [← e2]
    _ ≤ e ^ 2 * |v - u| := iterR_lip h0 h1 q v u
    _ ≤ e ^ 2 * 1e-12 := by
        rw [abs_sub_comm]
        exact mul_le_mul_of_nonneg_left hdone.le (sq_nonneg e)

end Geo
