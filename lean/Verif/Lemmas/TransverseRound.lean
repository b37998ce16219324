import Verif.Lemmas.Conformal
import Verif.Lemmas.TransverseSeries
import Mathlib.Analysis.SpecialFunctions.Trigonometric.Series
import Mathlib.Analysis.SpecialFunctions.Trigonometric.Bounds

/-!
The transverse Mercator round trip: the conformal sphere between the plane and the ellipsoid, and how distances carry over.
-/

namespace Geo.TmRound
open Geo.Spec Geo.Frame Geo.MerArc Geo.Conf

/-! ### The correction series as complex functions -/

theorem sin_re_im (k ξ η : ℝ) : Complex.sin ((k : ℂ) * ⟨ξ, η⟩) =
    ⟨Real.sin (k * ξ) * Real.cosh (k * η), Real.cos (k * ξ) * Real.sinh (k * η)⟩ := by
  rw [show ((k : ℂ) * ⟨ξ, η⟩) = ((k * ξ : ℝ) : ℂ) + ((k * η : ℝ) : ℂ) * Complex.I by
    apply Complex.ext <;> simp, Complex.sin_add_mul_I]
  rw [← Complex.ofReal_sin, ← Complex.ofReal_cos, ← Complex.ofReal_cosh, ← Complex.ofReal_sinh]
  generalize Real.sin (k * ξ) = s, Real.cos (k * ξ) = c, Real.cosh (k * η) = ch, Real.sinh (k * η) = sh
  apply Complex.ext <;> simp

theorem sumC_re_im (f : ℕ → List ℚ) (n ξ η : ℝ) : Ser.Tm.sumC f n ⟨ξ, η⟩ =
    ⟨sSC (Ser.qeval n (f 1)) (Ser.qeval n (f 2)) (Ser.qeval n (f 3)) (Ser.qeval n (f 4)) ξ η,
     sCS (Ser.qeval n (f 1)) (Ser.qeval n (f 2)) (Ser.qeval n (f 3)) (Ser.qeval n (f 4)) ξ η⟩ := by
  have h := fun k : ℝ => sin_re_im k ξ η
  have h1 := h 2
  have h2 := h 4
  have h3 := h 6
  have h4 := h 8
  push_cast at h1 h2 h3 h4
  simp only [Ser.Tm.sumC, Finset.sum_range_succ, Finset.sum_range_zero, ← Ser.qeval_ofReal, zero_add]
  norm_num
  rw [h1, h2, h3, h4]
  apply Complex.ext <;> simp [sSC, sCS] <;> ring

theorem qeval_h (n : ℝ) : Ser.qeval n (Ser.Tm.hQ 1) = tmh0 n ∧ Ser.qeval n (Ser.Tm.hQ 2) = tmh1 n ∧
    Ser.qeval n (Ser.Tm.hQ 3) = tmh2 n ∧ Ser.qeval n (Ser.Tm.hQ 4) = tmh3 n := by
  simp only [Ser.qeval, Ser.Tm.hQ, tmh0, tmh1, tmh2, tmh3]
  push_cast
  refine ⟨?_, ?_, ?_, ?_⟩ <;> ring

theorem qeval_p (n : ℝ) : Ser.qeval n (Ser.Tm.pQ 1) = -tmp0 n ∧ Ser.qeval n (Ser.Tm.pQ 2) = -tmp1 n ∧
    Ser.qeval n (Ser.Tm.pQ 3) = -tmp2 n ∧ Ser.qeval n (Ser.Tm.pQ 4) = -tmp3 n := by
  simp only [Ser.qeval, Ser.Tm.pQ, tmp0, tmp1, tmp2, tmp3]
  push_cast
  refine ⟨?_, ?_, ?_, ?_⟩ <;> ring

/-- The forward series. -/
noncomputable def fwd (n ξ η : ℝ) : ℝ × ℝ :=
  (ξ + sSC (tmh0 n) (tmh1 n) (tmh2 n) (tmh3 n) ξ η, η + sCS (tmh0 n) (tmh1 n) (tmh2 n) (tmh3 n) ξ η)
/-- The inverse series. -/
noncomputable def bwd (n ξ η : ℝ) : ℝ × ℝ :=
  (ξ - sSC (tmp0 n) (tmp1 n) (tmp2 n) (tmp3 n) ξ η, η - sCS (tmp0 n) (tmp1 n) (tmp2 n) (tmp3 n) ξ η)

theorem fwd_eq (n ξ η : ℝ) : (⟨(fwd n ξ η).1, (fwd n ξ η).2⟩ : ℂ) = ⟨ξ, η⟩ + Ser.Tm.sumC Ser.Tm.hQ n ⟨ξ, η⟩ := by
  obtain ⟨e1, e2, e3, e4⟩ := qeval_h n
  rw [sumC_re_im, e1, e2, e3, e4]
  apply Complex.ext <;> simp [fwd]

theorem bwd_eq (n ξ η : ℝ) : (⟨(bwd n ξ η).1, (bwd n ξ η).2⟩ : ℂ) = ⟨ξ, η⟩ + Ser.Tm.sumC Ser.Tm.pQ n ⟨ξ, η⟩ := by
  obtain ⟨e1, e2, e3, e4⟩ := qeval_p n
  rw [sumC_re_im, e1, e2, e3, e4]
  apply Complex.ext <;> simp [bwd, sSC, sCS] <;> ring

theorem norm_mk_sq (x y : ℝ) : ‖(⟨x, y⟩ : ℂ)‖ ^ 2 = x ^ 2 + y ^ 2 := by
  rw [Complex.sq_norm, Complex.normSq_mk]; ring

/-- The inverse series undoes the forward series. -/
theorem bwd_fwd {M C : ℚ} (hc : Ser.Tm.check M Ser.Tm.hQ Ser.Tm.pQ C = true) {n ξ η : ℝ} (h0 : 0 ≤ n) (h1 : n ≤ 1 / 190)
    (hz : Real.exp (2 * |η|) ≤ M) (hC : 0 ≤ C) {ξ' η' : ℝ} (hb : bwd n (fwd n ξ η).1 (fwd n ξ η).2 = (ξ', η')) :
    (ξ' - ξ) ^ 2 + (η' - η) ^ 2 ≤ (C * n ^ 5) ^ 2 := by
  have hr := Ser.Tm.residual hc (n := n) (z := ⟨ξ, η⟩) (by rw [abs_of_nonneg h0]; norm_num [Ser.Tm.r0]; linarith) hz
  rw [← fwd_eq] at hr
  have e := bwd_eq n (fwd n ξ η).1 (fwd n ξ η).2
  rw [hb] at e
  have e2 : (⟨ξ' - ξ, η' - η⟩ : ℂ) = Ser.Tm.sumC Ser.Tm.hQ n ⟨ξ, η⟩ +
      Ser.Tm.sumC Ser.Tm.pQ n ⟨(fwd n ξ η).1, (fwd n ξ η).2⟩ := by
    have h2 := fwd_eq n ξ η
    have : (⟨ξ' - ξ, η' - η⟩ : ℂ) = ⟨ξ', η'⟩ - ⟨ξ, η⟩ := by apply Complex.ext <;> simp
    rw [this, e, h2]; ring
  rw [← e2, abs_of_nonneg h0] at hr
  rw [← norm_mk_sq]
  exact pow_le_pow_left₀ (norm_nonneg _) hr 2

/-- The forward series undoes the inverse series. -/
theorem fwd_bwd {M C : ℚ} (hc : Ser.Tm.check M Ser.Tm.pQ Ser.Tm.hQ C = true) {n ξ η : ℝ} (h0 : 0 ≤ n) (h1 : n ≤ 1 / 190)
    (hz : Real.exp (2 * |η|) ≤ M) (hC : 0 ≤ C) {ξ' η' : ℝ} (hb : fwd n (bwd n ξ η).1 (bwd n ξ η).2 = (ξ', η')) :
    (ξ' - ξ) ^ 2 + (η' - η) ^ 2 ≤ (C * n ^ 5) ^ 2 := by
  have hr := Ser.Tm.residual hc (n := n) (z := ⟨ξ, η⟩) (by rw [abs_of_nonneg h0]; norm_num [Ser.Tm.r0]; linarith) hz
  rw [← bwd_eq] at hr
  have e := fwd_eq n (bwd n ξ η).1 (bwd n ξ η).2
  rw [hb] at e
  have e2 : (⟨ξ' - ξ, η' - η⟩ : ℂ) = Ser.Tm.sumC Ser.Tm.pQ n ⟨ξ, η⟩ +
      Ser.Tm.sumC Ser.Tm.hQ n ⟨(bwd n ξ η).1, (bwd n ξ η).2⟩ := by
    have h2 := bwd_eq n ξ η
    have : (⟨ξ' - ξ, η' - η⟩ : ℂ) = ⟨ξ', η'⟩ - ⟨ξ, η⟩ := by apply Complex.ext <;> simp
    rw [this, e, h2]; ring
  rw [← e2, abs_of_nonneg h0] at hr
  rw [← norm_mk_sq]
  exact pow_le_pow_left₀ (norm_nonneg _) hr 2

/-! ### The conformal sphere -/

noncomputable def sph (χ l : ℝ) : E3 := !₂[Real.cos χ * Real.cos l, Real.cos χ * Real.sin l, Real.sin χ]
/-- By transverse coordinates. -/
noncomputable def sch (ξ η : ℝ) : E3 := !₂[Real.cos ξ / Real.cosh η, Real.sinh η / Real.cosh η, Real.sin ξ / Real.cosh η]

theorem norm_sq3 (v : E3) : ‖v‖ ^ 2 = v 0 ^ 2 + v 1 ^ 2 + v 2 ^ 2 := by
  rw [EuclideanSpace.norm_sq_eq, Fin.sum_univ_three]
  simp [sq_abs]

theorem sph_sub_sq (χ l χ' l' : ℝ) : ‖sph χ l - sph χ' l'‖ ^ 2 =
    2 * (1 - Real.cos (χ - χ')) + 2 * (Real.cos χ * Real.cos χ') * (1 - Real.cos (l - l')) := by
  rw [norm_sq3, Real.cos_sub, Real.cos_sub]
  simp [sph]
  have h1 := Real.sin_sq_add_cos_sq χ
  have h2 := Real.sin_sq_add_cos_sq χ'
  have h3 := Real.sin_sq_add_cos_sq l
  have h4 := Real.sin_sq_add_cos_sq l'
  linear_combination h1 + h2 + Real.cos χ ^ 2 * h3 + Real.cos χ' ^ 2 * h4

theorem sch_sub_sq (ξ η ξ' η' : ℝ) : ‖sch ξ η - sch ξ' η'‖ ^ 2 =
    2 * (Real.cosh (η - η') - Real.cos (ξ - ξ')) / (Real.cosh η * Real.cosh η') := by
  rw [norm_sq3, Real.cosh_sub, Real.cos_sub]
  have c1 := (Real.cosh_pos η).ne'
  have c2 := (Real.cosh_pos η').ne'
  simp [sch]
  have h1 := Real.sin_sq_add_cos_sq ξ
  have h2 := Real.sin_sq_add_cos_sq ξ'
  have h3 := Real.cosh_sq η
  have h4 := Real.cosh_sq η'
  field_simp
  have h3' : Real.sinh η ^ 2 = Real.cosh η ^ 2 - 1 := by linarith
  have h4' : Real.sinh η' ^ 2 = Real.cosh η' ^ 2 - 1 := by linarith
  linear_combination Real.cosh η' ^ 2 * h1 + Real.cosh η ^ 2 * h2 + Real.cosh η' ^ 2 * h3' + Real.cosh η ^ 2 * h4'

theorem cosh_le_sq {y : ℝ} (h : |y| ≤ 1 / 10) : 2 * (Real.cosh y - 1) ≤ 101 / 100 * y ^ 2 := by
  have hb := Real.cosh_le_exp_half_sq y
  have hy : y ^ 2 ≤ 1 / 100 := by rw [← sq_abs]; nlinarith [abs_nonneg y]
  have h1 : Real.exp (y ^ 2 / 2) ≤ 1 / (1 - y ^ 2 / 2) := by
    have := Real.add_one_le_exp (-(y ^ 2 / 2))
    rw [le_div_iff₀ (by linarith)]
    have h2 := Real.exp_add (y ^ 2 / 2) (-(y ^ 2 / 2))
    rw [add_neg_cancel, Real.exp_zero] at h2
    nlinarith [Real.exp_pos (y ^ 2 / 2)]
  have h3 : 1 / (1 - y ^ 2 / 2) ≤ 1 + 101 / 200 * y ^ 2 := by
    rw [div_le_iff₀ (by linarith)]
    nlinarith [sq_nonneg y]
  linarith

theorem sch_near {ξ η ξ' η' t : ℝ} (ht : 0 ≤ t) (ht1 : t ≤ 1 / 10) (h : (ξ' - ξ) ^ 2 + (η' - η) ^ 2 ≤ t ^ 2) :
    ‖sch ξ' η' - sch ξ η‖ ≤ 1006 / 1000 * t := by
  have hy : |η' - η| ≤ 1 / 10 := by
    apply abs_le_of_sq_le_sq' _ (by norm_num) |> abs_le.2
    nlinarith [sq_nonneg (ξ' - ξ)]
  have h1 := cosh_le_sq hy
  have h2 := Real.one_sub_sq_div_two_le_cos (x := ξ' - ξ)
  have h3 : 1 ≤ Real.cosh η' * Real.cosh η := one_le_mul_of_one_le_of_one_le (Real.one_le_cosh _) (Real.one_le_cosh _)
  apply le_of_sq_le_sq _ (by positivity)
  rw [sch_sub_sq]
  have h4 : 0 ≤ 2 * (Real.cosh (η' - η) - Real.cos (ξ' - ξ)) := by
    have := Real.one_le_cosh (η' - η)
    have := Real.cos_le_one (ξ' - ξ)
    linarith
  refine (div_le_self h4 h3).trans ?_
  nlinarith [sq_nonneg (ξ' - ξ), sq_nonneg (η' - η)]

theorem angle_le {x K : ℝ} (hx : |x| ≤ Real.pi) (hK : 2 * (1 - Real.cos x) ≤ K) (hK1 : K ≤ 1 / 100) :
    x ^ 2 ≤ 101 / 100 * (2 * (1 - Real.cos x)) := by
  have h1 := Real.cos_le_one_sub_mul_cos_sq hx
  have hp := Real.pi_pos
  have hp2 : Real.pi ^ 2 ≤ 10 := by nlinarith [Real.pi_lt_d2]
  have h2 : 2 / Real.pi ^ 2 * x ^ 2 ≤ 1 / 200 := by linarith
  have h3 : x ^ 2 ≤ 1 / 40 := by
    rw [div_mul_eq_mul_div, div_le_iff₀ (by positivity)] at h2
    nlinarith
  have h4 : |x| ≤ 1 := by
    apply abs_le_of_sq_le_sq' _ (by norm_num) |> abs_le.2
    linarith
  have h5 := abs_le.1 (Real.cos_bound h4)
  have h6 : |x| ^ 4 = x ^ 2 * x ^ 2 := by rw [show |x| ^ 4 = (|x| ^ 2) ^ 2 by ring, sq_abs]; ring
  rw [h6] at h5
  nlinarith [h5.2, sq_nonneg x]

theorem sph_same_lon (χ χ' l : ℝ) : ‖sph χ l - sph χ' l‖ ≤ |χ - χ'| := by
  apply le_of_sq_le_sq _ (abs_nonneg _)
  rw [sph_sub_sq, sub_self, Real.cos_zero, sq_abs]
  have := Real.one_sub_sq_div_two_le_cos (x := χ - χ')
  linarith

/-! ### From the conformal sphere to the ellipsoid -/

theorem artanh_le {x : ℝ} (h0 : 0 ≤ x) (h1 : x < 1) : Real.artanh x ≤ x / (1 - x) := by
  rw [artanh_eq (by linarith) h1]
  have a1 := Real.log_le_sub_one_of_pos (show 0 < 1 + x by linarith)
  have a2 := Real.one_sub_inv_le_log_of_pos (show 0 < 1 - x by linarith)
  have e : (1 - x)⁻¹ = 1 + x / (1 - x) := by
    have : 1 - x ≠ 0 := by linarith
    field_simp; ring
  rw [e] at a2
  have : x ≤ x / (1 - x) := by
    rw [le_div_iff₀ (by linarith)]
    nlinarith
  linarith

theorem wE_abs {e : ℝ} (h0 : 0 ≤ e) (h1 : e ≤ 1 / 7) (φ : ℝ) : |wE e φ| ≤ 7 / 6 * e ^ 2 := by
  have key : ∀ s : ℝ, 0 ≤ s → s ≤ 1 → e * Real.artanh (e * s) ≤ 7 / 6 * e ^ 2 ∧ 0 ≤ e * Real.artanh (e * s) := by
    intro s hs0 hs1
    have hx0 : 0 ≤ e * s := by positivity
    have hx1 : e * s ≤ 1 / 7 := by nlinarith
    have h := artanh_le hx0 (by linarith)
    have h2 : e * s / (1 - e * s) ≤ 7 / 6 * e := by
      rw [div_le_iff₀ (by linarith)]
      nlinarith
    have h3 : 0 ≤ Real.artanh (e * s) := Real.artanh_nonneg hx0
    exact ⟨by nlinarith, by positivity⟩
  have hs := abs_le.1 (Real.abs_sin_le_one φ)
  rw [wE]
  rcases le_total 0 (Real.sin φ) with h | h
  · obtain ⟨k1, k2⟩ := key _ h hs.2
    rwa [abs_of_nonneg k2]
  · obtain ⟨k1, k2⟩ := key (-Real.sin φ) (by linarith) (by linarith)
    have hes := abs_e_sin_lt h0 (by linarith) φ
    rw [mul_neg, artanh_neg' hes.1 hes.2, mul_neg] at k1 k2
    rw [abs_of_nonpos (by linarith)]
    exact k1

theorem sin_sinh_nonneg {e : ℝ} (h0 : 0 ≤ e) (h1 : e < 1) (φ : ℝ) : 0 ≤ Real.sin φ * Real.sinh (wE e φ) := by
  have hes := abs_e_sin_lt h0 h1 φ
  rcases le_total 0 (Real.sin φ) with h | h
  · exact mul_nonneg h (Real.sinh_nonneg_iff.2 (mul_nonneg h0 (Real.artanh_nonneg (by positivity))))
  · refine mul_nonneg_of_nonpos_of_nonpos h (Real.sinh_nonpos_iff.2 ?_)
    have := Real.artanh_nonneg (show 0 ≤ e * (-Real.sin φ) by nlinarith)
    rw [mul_neg, artanh_neg' hes.1 hes.2] at this
    exact mul_nonpos_of_nonneg_of_nonpos h0 (by linarith)

theorem dE_near {e : ℝ} (h0 : 0 ≤ e) (h1 : e ^ 2 ≤ 1 / 50) (φ : ℝ) : dE e φ ≤ 10003 / 10000 := by
  have he : e ≤ 1 / 7 := by nlinarith
  have hw := wE_abs h0 he φ
  have h2 := cosh_le_sq (y := wE e φ) (by linarith)
  have h3 := sin_sinh_nonneg h0 (by linarith) φ
  have h4 : wE e φ ^ 2 ≤ (7 / 300) ^ 2 := by
    rw [← sq_abs]; exact pow_le_pow_left₀ (abs_nonneg _) (by linarith) 2
  unfold dE
  linarith

/-- Radius of the parallel over its radius on the unit sphere. -/
noncomputable def ratio (a b φ : ℝ) : ℝ :=
  a ^ 2 / Real.sqrt (a ^ 2 * Real.cos φ ^ 2 + b ^ 2 * Real.sin φ ^ 2) * dE (Real.sqrt (ecc2 a b)) φ

theorem ratio_pos {a b : ℝ} (ha : 0 < a) (hb : 0 < b) (φ : ℝ) : 0 < ratio a b φ := by
  have := Real.sqrt_pos.2 (q_pos ha hb φ)
  have := dE_pos (Real.sqrt (ecc2 a b)) φ
  unfold ratio; positivity

theorem ratio_le {a b : ℝ} (hb : 0 < b) (hab : b ≤ a) (hE : ecc2 a b ≤ 1 / 50) (φ : ℝ) :
    ratio a b φ ≤ 1011 / 1000 * a := by
  have ha : 0 < a := lt_of_lt_of_le hb hab
  have hd := dE_near (Real.sqrt_nonneg (ecc2 a b)) (by rw [Real.sq_sqrt (ecc2_nonneg hb hab)]; exact hE) φ
  have hd0 := dE_pos (Real.sqrt (ecc2 a b)) φ
  have hq : b ≤ Real.sqrt (a ^ 2 * Real.cos φ ^ 2 + b ^ 2 * Real.sin φ ^ 2) := by
    apply Real.le_sqrt_of_sq_le
    have := Real.sin_sq_add_cos_sq φ
    have : b ^ 2 ≤ a ^ 2 := by nlinarith
    nlinarith [sq_nonneg (Real.cos φ)]
  have hba : b ^ 2 = a ^ 2 * (1 - ecc2 a b) := by rw [one_sub_ecc2 hb hab]; field_simp
  have hb2 : (98 / 99 * a) ≤ b := by
    apply le_of_sq_le_sq _ hb.le
    rw [hba]; nlinarith [sq_nonneg a]
  have h1 : a ^ 2 / Real.sqrt (a ^ 2 * Real.cos φ ^ 2 + b ^ 2 * Real.sin φ ^ 2) ≤ 99 / 98 * a := by
    rw [div_le_iff₀ (by linarith)]
    nlinarith
  calc ratio a b φ ≤ (99 / 98 * a) * (10003 / 10000) := by unfold ratio; gcongr
    _ ≤ 1011 / 1000 * a := by linarith

theorem rpar_ratio {a b φ : ℝ} (h1 : -(Real.pi / 2) < φ) (h2 : φ < Real.pi / 2) :
    rpar a b φ = ratio a b φ * Real.cos (confR (Real.sqrt (ecc2 a b)) φ) := by
  have hd := (dE_pos (Real.sqrt (ecc2 a b)) φ).ne'
  rw [confR_cos h1 h2, rpar, ratio]
  field_simp

theorem rho_ratio {a b : ℝ} (hb : 0 < b) (hab : b ≤ a) (φ : ℝ) : rho a b φ = ratio a b φ *
    ((1 - Real.sqrt (ecc2 a b) ^ 2) / ((1 - Real.sqrt (ecc2 a b) ^ 2 * Real.sin φ ^ 2) * dE (Real.sqrt (ecc2 a b)) φ)) := by
  have ha : 0 < a := lt_of_lt_of_le hb hab
  have hd := (dE_pos (Real.sqrt (ecc2 a b)) φ).ne'
  have hq := q_pos ha hb φ
  have hs := Real.sqrt_pos.2 hq
  have hs2 := Real.sq_sqrt hq.le
  have hw : 1 - ecc2 a b * Real.sin φ ^ 2 = (a ^ 2 * Real.cos φ ^ 2 + b ^ 2 * Real.sin φ ^ 2) / a ^ 2 := by
    rw [show ecc2 a b = 1 - b ^ 2 / a ^ 2 by rw [← one_sub_ecc2 hb hab]; ring]
    have := Real.sin_sq_add_cos_sq φ
    field_simp
    linear_combination (-a ^ 2) * this
  rw [Real.sq_sqrt (ecc2_nonneg hb hab), one_sub_ecc2 hb hab, hw, rho, ratio, ← hs2, Real.sqrt_sq hs.le]
  field_simp

/-- Along a meridian. -/
theorem meridian_le {a b : ℝ} (hb : 0 < b) (hab : b ≤ a) (hE : ecc2 a b ≤ 1 / 50) (l : ℝ) {φ φ' : ℝ}
    (g1 : -(Real.pi / 2) < φ) (g2 : φ' < Real.pi / 2) (hle : φ ≤ φ') :
    ‖surfacePoint a b l φ' - surfacePoint a b l φ‖ ≤
      1011 / 1000 * a * (confR (Real.sqrt (ecc2 a b)) φ' - confR (Real.sqrt (ecc2 a b)) φ) := by
  have ha : 0 < a := lt_of_lt_of_le hb hab
  set e := Real.sqrt (ecc2 a b) with he
  have he0 : 0 ≤ e := Real.sqrt_nonneg _
  have he1 : e < 1 := sqrt_ecc2_lt hb hab
  have dP := fun t => (deriv_lat ha hb l t).sub_const (surfacePoint a b l φ)
  have dB : ∀ t, -(Real.pi / 2) < t → t < Real.pi / 2 → HasDerivAt (fun t => 1011 / 1000 * a * (confR e t - confR e φ))
      (1011 / 1000 * a * ((1 - e ^ 2) / ((1 - e ^ 2 * Real.sin t ^ 2) * dE e t))) t := fun t t1 t2 =>
    ((confR_deriv he0 he1 t1 t2).sub_const _).const_mul _
  have key := image_norm_le_of_norm_deriv_right_le_deriv_boundary' (a := φ) (b := φ')
    (f := fun t => surfacePoint a b l t - surfacePoint a b l φ) (f' := fun t => rho a b t • direction l t 0)
    (B := fun t => 1011 / 1000 * a * (confR e t - confR e φ))
    (B' := fun t => 1011 / 1000 * a * ((1 - e ^ 2) / ((1 - e ^ 2 * Real.sin t ^ 2) * dE e t)))
    (fun t _ => (dP t).continuousAt.continuousWithinAt) (fun t _ => (dP t).hasDerivWithinAt) (by simp)
    (fun t ht => (dB t (lt_of_lt_of_le g1 ht.1) (lt_of_le_of_lt ht.2 g2)).continuousAt.continuousWithinAt)
    (fun t ht => (dB t (lt_of_lt_of_le g1 ht.1) (ht.2.trans g2)).hasDerivWithinAt) ?_ (Set.right_mem_Icc.2 hle)
  · exact key
  · intro t ht
    rw [norm_smul, norm_direction_zero, mul_one, Real.norm_eq_abs, abs_of_pos (rho_pos ha hb t), rho_ratio hb hab]
    refine mul_le_mul_of_nonneg_right (ratio_le hb hab hE t) ?_
    have hes := abs_e_sin_lt he0 he1 t
    have hp : 0 < 1 - e ^ 2 * Real.sin t ^ 2 := by nlinarith [hes.1, hes.2]
    have := dE_pos e t
    have : 0 ≤ 1 - e ^ 2 := by nlinarith
    rw [← he]
    positivity

theorem meridian_sq {a b : ℝ} (hb : 0 < b) (hab : b ≤ a) (hE : ecc2 a b ≤ 1 / 50) (l : ℝ) {φ φ' : ℝ}
    (g1 : -(Real.pi / 2) < φ) (g2 : φ < Real.pi / 2) (g1' : -(Real.pi / 2) < φ') (g2' : φ' < Real.pi / 2) :
    ‖surfacePoint a b l φ' - surfacePoint a b l φ‖ ^ 2 ≤
      (1011 / 1000 * a) ^ 2 * (confR (Real.sqrt (ecc2 a b)) φ' - confR (Real.sqrt (ecc2 a b)) φ) ^ 2 := by
  rw [← mul_pow]
  rcases le_total φ φ' with h | h
  · exact pow_le_pow_left₀ (norm_nonneg _) (meridian_le hb hab hE l g1 g2' h) 2
  · have := pow_le_pow_left₀ (norm_nonneg _) (meridian_le hb hab hE l g1' g2 h) 2
    rw [norm_sub_rev]
    refine this.trans (le_of_eq ?_)
    ring

theorem surface_sub_sq (a b l φ l' φ' : ℝ) : ‖surfacePoint a b l φ - surfacePoint a b l' φ'‖ ^ 2 =
    ‖surfacePoint a b 0 φ - surfacePoint a b 0 φ'‖ ^ 2 + 2 * (rpar a b φ * rpar a b φ') * (1 - Real.cos (l - l')) := by
  rw [norm_sq3, norm_sq3, Real.cos_sub]
  simp only [surfacePoint]
  simp
  have h3 := Real.sin_sq_add_cos_sq l
  have h4 := Real.sin_sq_add_cos_sq l'
  have e1 : ∀ φ, a ^ 2 / Real.sqrt (a ^ 2 * Real.cos φ ^ 2 + b ^ 2 * Real.sin φ ^ 2) * Real.cos φ = rpar a b φ := fun _ => rfl
  rw [e1 φ, e1 φ']
  linear_combination rpar a b φ ^ 2 * h3 + rpar a b φ' ^ 2 * h4

/-- Distances on the ellipsoid against those on the conformal sphere. -/
theorem surface_le {a b : ℝ} (hb : 0 < b) (hab : b ≤ a) (hE : ecc2 a b ≤ 1 / 50) {l φ l' φ' t : ℝ}
    (g1 : -(Real.pi / 2) < φ) (g2 : φ < Real.pi / 2) (g1' : -(Real.pi / 2) < φ') (g2' : φ' < Real.pi / 2) (ht0 : 0 ≤ t)
    (ht : t ≤ 1 / 10)
    (h : ‖sph (confR (Real.sqrt (ecc2 a b)) φ) l - sph (confR (Real.sqrt (ecc2 a b)) φ') l'‖ ≤ t) :
    ‖surfacePoint a b l φ - surfacePoint a b l' φ'‖ ≤ 1017 / 1000 * a * t := by
  have ha : 0 < a := lt_of_lt_of_le hb hab
  set e := Real.sqrt (ecc2 a b) with he
  have h2 := pow_le_pow_left₀ (norm_nonneg _) h 2
  rw [sph_sub_sq] at h2
  obtain ⟨r1, r2⟩ := confR_range (e := e) g1.le g2.le
  obtain ⟨r1', r2'⟩ := confR_range (e := e) g1'.le g2'.le
  have c1 := Real.cos_nonneg_of_mem_Icc ⟨r1, r2⟩
  have c2 := Real.cos_nonneg_of_mem_Icc ⟨r1', r2'⟩
  have hK : 0 ≤ 2 * (Real.cos (confR e φ) * Real.cos (confR e φ')) * (1 - Real.cos (l - l')) := by
    have := Real.cos_le_one (l - l')
    have : 0 ≤ 1 - Real.cos (l - l') := by linarith
    positivity
  have ha1 := angle_le (x := confR e φ - confR e φ') (K := t ^ 2) (by rw [abs_le]; constructor <;> linarith) (by linarith)
    (by nlinarith)
  have hm := meridian_sq hb hab hE 0 g1' g2' g1 g2
  rw [← he] at hm
  have hp : rpar a b φ * rpar a b φ' ≤ (1011 / 1000 * a) ^ 2 * (Real.cos (confR e φ) * Real.cos (confR e φ')) := by
    rw [rpar_ratio g1 g2, rpar_ratio g1' g2', ← he]
    have k1 := ratio_le hb hab hE φ
    have k2 := ratio_le hb hab hE φ'
    have k3 := ratio_pos ha hb φ
    have k4 := ratio_pos ha hb φ'
    calc _ = (ratio a b φ * ratio a b φ') * (Real.cos (confR e φ) * Real.cos (confR e φ')) := by ring
      _ ≤ (1011 / 1000 * a * (1011 / 1000 * a)) * (Real.cos (confR e φ) * Real.cos (confR e φ')) := by gcongr
      _ = _ := by ring
  apply le_of_sq_le_sq _ (by positivity)
  rw [surface_sub_sq]
  have hc : 0 ≤ 1 - Real.cos (l - l') := by linarith [Real.cos_le_one (l - l')]
  have hp2 := mul_le_mul_of_nonneg_right hp hc
  set A := (1011 / 1000 * a) ^ 2 with hA
  have hA0 : 0 ≤ A := by positivity
  set X := 2 * (1 - Real.cos (confR e φ - confR e φ'))
  set Y := 2 * (Real.cos (confR e φ) * Real.cos (confR e φ')) * (1 - Real.cos (l - l')) with hY
  have step : ‖surfacePoint a b 0 φ - surfacePoint a b 0 φ'‖ ^ 2 + 2 * (rpar a b φ * rpar a b φ') * (1 - Real.cos (l - l'))
      ≤ A * (101 / 100 * (X + Y)) := by
    have s1 : A * (confR e φ - confR e φ') ^ 2 ≤ A * (101 / 100 * X) := mul_le_mul_of_nonneg_left ha1 hA0
    have s2 : 2 * (rpar a b φ * rpar a b φ') * (1 - Real.cos (l - l')) ≤ A * Y := by
      rw [hY]; nlinarith
    have s3 : 0 ≤ A * Y := mul_nonneg hA0 hK
    nlinarith
  refine step.trans ((mul_le_mul_of_nonneg_left (mul_le_mul_of_nonneg_left h2 (by norm_num)) hA0).trans ?_)
  rw [hA]
  have : 0 ≤ a ^ 2 * t ^ 2 := by positivity
  nlinarith

end Geo.TmRound
