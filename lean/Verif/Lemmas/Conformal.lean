import Verif.Spec.Conformal
import Verif.Lemmas.MeridianArc

/-!
Conformality: from the velocity on the surface to the rates of longitude and isometric latitude, and the transverse
Mercator formulas as a complex-analytic function of these.
-/

namespace Geo.Conf
open Geo.Spec Geo.Frame

theorem rpar_deriv {a b : ℝ} (ha : 0 < a) (hb : 0 < b) (φ : ℝ) : HasDerivAt (rpar a b) (-(rho a b φ * Real.sin φ)) φ := by
  have d := (EuclideanSpace.proj (𝕜 := ℝ) (0 : Fin 3)).hasFDerivAt.comp_hasDerivAt φ (deriv_lat ha hb 0 φ)
  refine HasDerivAt.congr_deriv (d.congr_of_eventuallyEq (.of_forall fun t => ?_)) ?_
  · simp [surfacePoint, rpar]
  · simp [direction]

/-- Height above the equator. -/
noncomputable def zpar (a b φ : ℝ) : ℝ :=
  b ^ 2 / a ^ 2 * (a ^ 2 / Real.sqrt (a ^ 2 * Real.cos φ ^ 2 + b ^ 2 * Real.sin φ ^ 2)) * Real.sin φ

theorem zpar_deriv {a b : ℝ} (ha : 0 < a) (hb : 0 < b) (φ : ℝ) : HasDerivAt (zpar a b) (rho a b φ * Real.cos φ) φ := by
  have d := (EuclideanSpace.proj (𝕜 := ℝ) (2 : Fin 3)).hasFDerivAt.comp_hasDerivAt φ (deriv_lat ha hb 0 φ)
  refine HasDerivAt.congr_deriv (d.congr_of_eventuallyEq (.of_forall fun t => ?_)) ?_
  · simp [surfacePoint, zpar]
  · simp [direction]

theorem curve_velocity {a b : ℝ} (ha : 0 < a) (hb : 0 < b) {lc φc : ℝ → ℝ} {l' φ' : ℝ} (hl : HasDerivAt lc l' 0)
    (hφ : HasDerivAt φc φ' 0) {α : ℝ} (hc : Real.cos (φc 0) ≠ 0)
    (hd : HasDerivAt (fun t => surfacePoint a b (lc t) (φc t)) (direction (lc 0) (φc 0) α) 0) :
    rho a b (φc 0) * φ' = Real.cos α ∧ rpar a b (φc 0) * l' = Real.sin α := by
  have dr := (rpar_deriv ha hb (φc 0)).comp (0 : ℝ) hφ
  have dz := (zpar_deriv ha hb (φc 0)).comp (0 : ℝ) hφ
  have dd := Bessel.hasDerivAt_vec3 (dr.mul hl.cos) (dr.mul hl.sin) dz
  have e := hd.unique (dd : HasDerivAt (fun t => surfacePoint a b (lc t) (φc t)) _ 0)
  have e0 := congrArg (fun v : E3 => v 0) e
  have e1 := congrArg (fun v : E3 => v 1) e
  have e2 := congrArg (fun v : E3 => v 2) e
  simp [direction] at e0 e1 e2
  have s1 := Real.sin_sq_add_cos_sq (lc 0)
  have k1 : rho a b (φc 0) * φ' = Real.cos α := by
    apply mul_right_cancel₀ hc
    linear_combination -e2
  refine ⟨k1, ?_⟩
  linear_combination (Real.sin (lc 0)) * e0 - (Real.cos (lc 0)) * e1 - (rpar a b (φc 0) * l' - Real.sin α) * s1

theorem rpar_pos {a b φ : ℝ} (ha : 0 < a) (hb : 0 < b) (hc : 0 < Real.cos φ) : 0 < rpar a b φ := by
  have := Real.sqrt_pos.2 (q_pos ha hb φ)
  unfold rpar; positivity

/-- The rate of the isometric latitude is the rate along the meridian over the radius of the parallel. -/
theorem isoQ_rate {a b φ : ℝ} (hb : 0 < b) (hab : b ≤ a) (h1 : -(Real.pi / 2) < φ) (h2 : φ < Real.pi / 2) :
    HasDerivAt (isoQ (Real.sqrt (ecc2 a b))) (rho a b φ / rpar a b φ) φ := by
  have ha : 0 < a := lt_of_lt_of_le hb hab
  have hc := cos_pos_of_lat h1 h2
  have d := isoQ_deriv (Real.sqrt_nonneg (ecc2 a b)) (sqrt_ecc2_lt hb hab) h1 h2
  refine d.congr_deriv ?_
  have hq := q_pos ha hb φ
  have hs := Real.sqrt_pos.2 hq
  have hs2 := Real.sq_sqrt hq.le
  have hw : 1 - ecc2 a b * Real.sin φ ^ 2 = (a ^ 2 * Real.cos φ ^ 2 + b ^ 2 * Real.sin φ ^ 2) / a ^ 2 := by
    rw [show ecc2 a b = 1 - b ^ 2 / a ^ 2 by rw [← one_sub_ecc2 hb hab]; ring]
    have := Real.sin_sq_add_cos_sq φ
    field_simp
    linear_combination (-a ^ 2) * this
  rw [Real.sq_sqrt (ecc2_nonneg hb hab), one_sub_ecc2 hb hab, hw, rho, rpar, ← hs2]
  rw [Real.sqrt_sq hs.le]
  field_simp

/-! ### The transverse Mercator formulas -/

noncomputable def xiR (q Δ : ℝ) : ℝ := Real.arctan (Real.sinh q / Real.cos Δ)
noncomputable def etaR (q Δ : ℝ) : ℝ := Real.artanh (Real.sin Δ / Real.cosh q)

theorem etaR_dom {q Δ : ℝ} (hΔ : 0 < Real.cos Δ) : -1 < Real.sin Δ / Real.cosh q ∧ Real.sin Δ / Real.cosh q < 1 := by
  have h1 := Real.one_le_cosh q
  have h2 := Real.sin_sq_add_cos_sq Δ
  have h3 : |Real.sin Δ| < 1 := abs_lt_of_sq_lt_sq (by nlinarith) zero_le_one |>.trans_eq (by simp)
  rw [← abs_lt, abs_div, abs_of_pos (Real.cosh_pos q), div_lt_one (Real.cosh_pos q)]
  linarith

theorem R_pos {q Δ : ℝ} (hΔ : 0 < Real.cos Δ) : 0 < Real.cos Δ ^ 2 + Real.sinh q ^ 2 := by positivity

theorem xiR_eq {q Δ : ℝ} (hΔ : 0 < Real.cos Δ) :
    Real.arcsin (Real.tanh q * Real.cosh (etaR q Δ)) = xiR q Δ := by
  obtain ⟨h1, h2⟩ := etaR_dom (q := q) hΔ
  have hR := R_pos (q := q) hΔ
  have hc := Real.cosh_pos q
  have e1 : 1 - (Real.sin Δ / Real.cosh q) ^ 2 = (Real.cos Δ ^ 2 + Real.sinh q ^ 2) / Real.cosh q ^ 2 := by
    have := Real.sin_sq_add_cos_sq Δ
    have := Real.cosh_sq q
    field_simp
    linarith
  have e2 : 1 + (Real.sinh q / Real.cos Δ) ^ 2 = (Real.cos Δ ^ 2 + Real.sinh q ^ 2) / Real.cos Δ ^ 2 := by
    field_simp
  have key : Real.tanh q * Real.cosh (etaR q Δ) = Real.sin (xiR q Δ) := by
    rw [etaR, cosh_artanh_sq h1 h2, e1, xiR, Real.sin_arctan, e2, Real.sqrt_div hR.le, Real.sqrt_sq hc.le,
      Real.sqrt_div hR.le, Real.sqrt_sq hΔ.le, Real.tanh_eq_sinh_div_cosh]
    have := Real.sqrt_pos.2 hR
    field_simp
  rw [key, Real.arcsin_sin]
  · exact (Real.neg_pi_div_two_lt_arctan _).le
  · exact (Real.arctan_lt_pi_div_two _).le

/-- The Gauss-Schreiber coordinates have conjugate rates. -/
theorem schreiber_rate {q Δ : ℝ → ℝ} {q' Δ' t : ℝ} (hq : HasDerivAt q q' t) (hΔ : HasDerivAt Δ Δ' t)
    (hc : 0 < Real.cos (Δ t)) :
    let R := Real.cos (Δ t) ^ 2 + Real.sinh (q t) ^ 2
    let A := Real.cosh (q t) * Real.cos (Δ t) / R
    let C := Real.sinh (q t) * Real.sin (Δ t) / R
    HasDerivAt (fun t => xiR (q t) (Δ t)) (A * q' + C * Δ') t ∧
      HasDerivAt (fun t => etaR (q t) (Δ t)) (A * Δ' - C * q') t := by
  intro R A C
  have hR : 0 < R := R_pos hc
  have hch := Real.cosh_pos (q t)
  have h1 := Real.sin_sq_add_cos_sq (Δ t)
  have h2 := Real.cosh_sq (q t)
  constructor
  · have d := ((hq.sinh).div hΔ.cos hc.ne').arctan
    refine d.congr_deriv ?_
    have e : 1 + (Real.sinh (q t) / Real.cos (Δ t)) ^ 2 = R / Real.cos (Δ t) ^ 2 := by
      simp only [R]; field_simp
    simp only [Pi.div_apply]
    rw [e]
    simp only [A, C]
    field_simp
    ring
  · obtain ⟨k1, k2⟩ := etaR_dom (q := q t) hc
    have d := (hasDerivAt_artanh k1 k2).comp t ((hΔ.sin).div hq.cosh hch.ne')
    refine d.congr_deriv ?_
    have e : 1 - (Real.sin (Δ t) / Real.cosh (q t)) ^ 2 = R / Real.cosh (q t) ^ 2 := by
      simp only [R]; field_simp; linarith
    rw [e]
    simp only [A, C]
    field_simp

/-- Real and imaginary part of `1 + 2 h0 cos 2z + 4 h1 cos 4z + 6 h2 cos 6z + 8 h3 cos 8z`. -/
noncomputable def serP (h0 h1 h2 h3 x y : ℝ) : ℝ :=
  1 + (2 * h0 * (Real.cos (2 * x) * Real.cosh (2 * y)) + 4 * h1 * (Real.cos (4 * x) * Real.cosh (4 * y))
    + 6 * h2 * (Real.cos (6 * x) * Real.cosh (6 * y)) + 8 * h3 * (Real.cos (8 * x) * Real.cosh (8 * y)))
noncomputable def serQ (h0 h1 h2 h3 x y : ℝ) : ℝ :=
  -(2 * h0 * (Real.sin (2 * x) * Real.sinh (2 * y)) + 4 * h1 * (Real.sin (4 * x) * Real.sinh (4 * y))
    + 6 * h2 * (Real.sin (6 * x) * Real.sinh (6 * y)) + 8 * h3 * (Real.sin (8 * x) * Real.sinh (8 * y)))

theorem series_rate {x y : ℝ → ℝ} {x' y' t : ℝ} (hx : HasDerivAt x x' t) (hy : HasDerivAt y y' t) (h0 h1 h2 h3 : ℝ) :
    let P := serP h0 h1 h2 h3 (x t) (y t)
    let Q := serQ h0 h1 h2 h3 (x t) (y t)
    HasDerivAt (fun t => x t + sSC h0 h1 h2 h3 (x t) (y t)) (P * x' - Q * y') t ∧
      HasDerivAt (fun t => y t + sCS h0 h1 h2 h3 (x t) (y t)) (Q * x' + P * y') t := by
  intro P Q
  have s := fun k : ℝ => (hx.const_mul k).sin
  have c := fun k : ℝ => (hx.const_mul k).cos
  have sh := fun k : ℝ => (hy.const_mul k).sinh
  have ch := fun k : ℝ => (hy.const_mul k).cosh
  constructor
  · refine HasDerivAt.congr_deriv (hx.add ((((((s 2).const_mul h0).mul (ch 2)).add (((s 4).const_mul h1).mul (ch 4))).add
      (((s 6).const_mul h2).mul (ch 6))).add (((s 8).const_mul h3).mul (ch 8)))) ?_
    simp only [P, Q, serP, serQ]
    ring
  · refine HasDerivAt.congr_deriv (hy.add ((((((c 2).const_mul h0).mul (sh 2)).add (((c 4).const_mul h1).mul (sh 4))).add
      (((c 6).const_mul h2).mul (sh 6))).add (((c 8).const_mul h3).mul (sh 8)))) ?_
    simp only [P, Q, serP, serQ]
    ring

/-- Polar form. -/
theorem polar (x y : ℝ) : ∃ k γ : ℝ, 0 ≤ k ∧ k ^ 2 = x ^ 2 + y ^ 2 ∧ x = k * Real.cos γ ∧ y = k * Real.sin γ := by
  refine ⟨‖(⟨x, y⟩ : ℂ)‖, Complex.arg ⟨x, y⟩, norm_nonneg _, ?_, ?_, ?_⟩
  · rw [Complex.sq_norm, Complex.normSq_mk]; ring
  · exact (Complex.norm_mul_cos_arg ⟨x, y⟩).symm
  · exact (Complex.norm_mul_sin_arg ⟨x, y⟩).symm

end Geo.Conf
