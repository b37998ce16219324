import Verif.Model.Geodesics
import Verif.Lemmas.Res
import Verif.Lemmas.Sphere

/-! # C67: formulas of the Rapp solver, in exact arithmetic -/

namespace Geo
open XR RappSolver

/-- **C67**: the short-line and the long-line formula for the azimuth at the end point agree (direct problem). -/
theorem C67_direct_azimuth (β₁ β₂ sl cl : ℝ) :
    directAlpha2 true ⟨fin β₁⟩ ⟨fin β₂⟩ (fin sl) (fin cl) = directAlpha2 false ⟨fin β₁⟩ ⟨fin β₂⟩ (fin sl) (fin cl) := by
  simp [directAlpha2, Angle.sin, Angle.cos, div_fin]
  congr 2
  rw [Real.sin_sub]
  ring

/-- **C67**: the same for the two azimuths of the inverse problem. -/
theorem C67_inverse_azimuths (β₁ β₂ l : ℝ) :
    inverseTans true ⟨fin β₁⟩ ⟨fin β₂⟩ (fin l) (fin (Real.cos l)) =
      inverseTans false ⟨fin β₁⟩ ⟨fin β₂⟩ (fin l) (fin (Real.cos l)) := by
  have e1 : Real.sin (β₂ - β₁) + 2 * Real.sin β₁ * Real.cos β₂ * ((1 - Real.cos l) / 2) =
      Real.sin β₂ * Real.cos β₁ - Real.cos l * Real.sin β₁ * Real.cos β₂ := by rw [Real.sin_sub]; ring
  have e2 : Real.sin (β₂ - β₁) - 2 * Real.cos β₁ * Real.sin β₂ * ((1 - Real.cos l) / 2) =
      Real.sin β₂ * Real.cos β₁ * Real.cos l - Real.sin β₁ * Real.cos β₂ := by rw [Real.sin_sub]; ring
  simp [inverseTans, Angle.sin, Angle.cos, div_fin, e1, e2]

/-- **C67**: the cosine of the longitude difference that the inverse problem uses in the short-line formula is that of
the last but one iterate; it is within the convergence threshold of the cosine of the result. -/
theorem C67_inverse_cos_lambda (self : RappSolver XR) (sb1 cb1 sb2 cb2 : XR) (L : ℝ) (st : InverseState XR)
    (h : loopMax (inverseStep self sb1 cb1 sb2 cb2 (fin L)) inverseDone
      "Inverse geodesic computation is not converging!" MAX_ITERATIONS (inverseInit (fin L)) = .ok st) :
    ∃ l c : ℝ, st.lambda = fin l ∧ st.cos_lambda = fin c ∧ |c - Real.cos l| ≤ 0.5e-14 := by
  obtain ⟨n, hn, rfl, hd, -⟩ := loopMax_ok h
  set s := iterate (inverseStep self sb1 cb1 sb2 cb2 (fin L)) n (inverseInit (fin L))
  rw [iterate_succ_apply'] at hd ⊢
  have hp : (inverseStep self sb1 cb1 sb2 cb2 (fin L) s).lambda_prev = s.lambda := rfl
  have hc : (inverseStep self sb1 cb1 sb2 cb2 (fin L) s).cos_lambda = Flt.cos s.lambda := rfl
  unfold inverseDone at hd
  rw [hp] at hd
  rw [hc]
  generalize (inverseStep self sb1 cb1 sb2 cb2 (fin L) s).lambda = x at hd ⊢
  generalize s.lambda = y at hd ⊢
  rw [sci_eq] at hd
  match x, y with
  | .fin x, .fin y =>
    refine ⟨x, Real.cos y, rfl, rfl, ?_⟩
    rw [sub_fin, abs_fin, lt_fin, decide_eq_true_eq] at hd
    rw [abs_sub_comm] at hd
    exact (Real.abs_cos_sub_cos_le y x).trans hd.le
  | .nan, y => simp at hd
  | x, .nan => simp at hd
  | .pinf, .pinf => cases hd
  | .pinf, .ninf => cases hd
  | .pinf, .fin _ => cases hd
  | .ninf, .pinf => cases hd
  | .ninf, .ninf => cases hd
  | .ninf, .fin _ => cases hd
  | .fin _, .pinf => cases hd
  | .fin _, .ninf => cases hd

/-- **C67** (direct problem): the multiple-angle terms are the sines and cosines of the multiples they name. -/
theorem C67_direct_multiples (β₁ ca u s0 σ : ℝ) (hβ : Real.cos β₁ ≠ 0) (st : DirectState XR) (hσ : st.sigma = fin σ) :
    ∃ θ : ℝ, θ = 2 * Complex.arg ⟨ca, Real.tan β₁⟩ + σ ∧
      let r := directStep ⟨fin β₁⟩ (fin ca) (fin u) (fin s0) st
      r.sin_sigma = fin (Real.sin σ) ∧ r.sin_2_sigma = fin (Real.sin (2 * σ)) ∧
      r.sin_3_sigma = fin (Real.sin (3 * σ)) ∧ r.cos_2_sigma_m = fin (Real.cos θ) ∧
      r.cos_4_sigma_m = fin (Real.cos (2 * θ)) ∧ r.cos_6_sigma_m = fin (Real.cos (3 * θ)) := by
  refine ⟨_, rfl, ?_⟩
  have h3 : ∀ x, 3 * Real.sin x * Real.cos x ^ 2 - Real.sin x ^ 3 = Real.sin (3 * x) := fun x => by
    rw [Real.sin_three_mul]
    linear_combination 3 * Real.sin x * Real.sin_sq_add_cos_sq x
  have h6 : ∀ x, Real.cos x ^ 3 - 3 * Real.cos x * (1 - Real.cos x ^ 2) = Real.cos (3 * x) := fun x => by
    rw [Real.cos_three_mul]; ring
  simp [directStep, hσ, Angle.tan, tan_fin hβ, h3, h6, Real.sin_two_mul, Real.cos_two_mul]

/-- Values of one iteration of the inverse problem. -/
theorem inverseStep_values (self : RappSolver XR) (β₁ β₂ l L : ℝ) (st : InverseState XR) (hl : st.lambda = fin l)
    (hs : Real.sin (arc β₁ β₂ l) ≠ 0) (hα : 1 - salpha β₁ β₂ l ^ 2 ≠ 0) :
    let r := inverseStep self (fin (Real.sin β₁)) (fin (Real.cos β₁)) (fin (Real.sin β₂)) (fin (Real.cos β₂)) (fin L) st
    let σ := arc β₁ β₂ l
    let c := Real.cos σ - 2 * Real.sin β₁ * Real.sin β₂ / (1 - salpha β₁ β₂ l ^ 2)
    r.sigma = fin σ ∧ r.sin_sigma = fin (Real.sin σ) ∧ r.sin_2_sigma = fin (2 * Real.sin σ * Real.cos σ) ∧
      r.sin_3_sigma = fin (3 * Real.sin σ * Real.cos σ ^ 2 - Real.sin σ ^ 3) ∧
      r.sin_4_sigma = fin (4 * Real.sin σ * Real.cos σ ^ 3 - 4 * Real.sin σ ^ 3 * Real.cos σ) ∧
      r.sin_alpha = fin (salpha β₁ β₂ l) ∧ r.cos_2_sigma_m = fin c ∧ r.cos_4_sigma_m = fin (2 * c ^ 2 - 1) ∧
      r.cos_6_sigma_m = fin (c ^ 3 - 3 * c * (1 - c ^ 2)) ∧
      r.cos_8_sigma_m = fin (c ^ 4 - 6 * c ^ 2 * (2 * Real.sin σ * Real.cos σ) ^ 2 +
        (2 * Real.sin σ * Real.cos σ) ^ 4) := by
  intro r σ c
  have e1 : (Real.sin l * Real.cos β₂) ^ 2 + (Real.sin β₂ * Real.cos β₁ - Real.sin β₁ * Real.cos β₂ * Real.cos l) ^ 2
      = ssq β₁ β₂ l := by unfold ssq; ring
  have e2 : Flt.sqrt (fin (ssq β₁ β₂ l)) = fin (Real.sin σ) := by rw [sqrt_fin (ssq_nonneg _ _ _), ← sin_arc]
  have e3 : Real.sin β₁ * Real.sin β₂ + Real.cos β₁ * Real.cos β₂ * Real.cos l = Real.cos σ := (cos_arc _ _ _).symm
  have e4 : Complex.arg ⟨Real.cos σ, Real.sin σ⟩ = σ := by
    show Complex.arg ⟨Real.cos (arc β₁ β₂ l), Real.sin (arc β₁ β₂ l)⟩ = arc β₁ β₂ l
    rw [cos_arc, sin_arc]; rfl
  have e5 : Real.cos β₁ * Real.cos β₂ * Real.sin l / Real.sin σ = salpha β₁ β₂ l := rfl
  have hs' : Real.sin σ ≠ 0 := hs
  refine ⟨?_, ?_, ?_, ?_, ?_, ?_, ?_, ?_, ?_, ?_⟩ <;>
    simp only [r, inverseStep, hl, sin_fin, cos_fin, mul_fin, add_fin, sub_fin, powi_fin, ofNat_eq, one_eq, zero_eq,
      e1, e2, e3, atan2_fin, e4, div_fin _ hs', e5, eq_fin, hα, decide_false, Bool.false_eq_true, if_false,
      div_fin _ hα, c, σ]

/-- **C67** (inverse problem, missing `cos 8σₘ`, see the next theorem): away from coincident or antipodal points and
from the equator, the other multiple-angle terms are the sines and cosines of the multiples they name. -/
theorem C67_inverse_multiples_partial (self : RappSolver XR) (β₁ β₂ l L : ℝ) (st : InverseState XR)
    (hl : st.lambda = fin l) (hs : Real.sin (arc β₁ β₂ l) ≠ 0) (hα : 1 - salpha β₁ β₂ l ^ 2 ≠ 0) :
    let r := inverseStep self (fin (Real.sin β₁)) (fin (Real.cos β₁)) (fin (Real.sin β₂)) (fin (Real.cos β₂)) (fin L) st
    ∃ σ θ : ℝ, Real.cos σ = Real.sin β₁ * Real.sin β₂ + Real.cos β₁ * Real.cos β₂ * Real.cos l ∧
      r.sigma = fin σ ∧ r.sin_sigma = fin (Real.sin σ) ∧ r.sin_2_sigma = fin (Real.sin (2 * σ)) ∧
      r.sin_3_sigma = fin (Real.sin (3 * σ)) ∧ r.sin_4_sigma = fin (Real.sin (4 * σ)) ∧
      r.cos_2_sigma_m = fin (Real.cos θ) ∧
      r.cos_4_sigma_m = fin (Real.cos (2 * θ)) ∧ r.cos_6_sigma_m = fin (Real.cos (3 * θ)) := by
  intro r
  obtain ⟨h1, h2, h3, h4, h5, _, h6, h7, h8, _⟩ := inverseStep_values self β₁ β₂ l L st hl hs hα
  obtain ⟨hm1, hm2⟩ := abs_le.1 (two_sigma_m β₁ β₂ l hs hα)
  refine ⟨arc β₁ β₂ l, Real.arccos (Real.cos (arc β₁ β₂ l) - 2 * Real.sin β₁ * Real.sin β₂ /
    (1 - salpha β₁ β₂ l ^ 2)), cos_arc _ _ _, h1, h2, ?_, ?_, ?_, ?_, ?_, ?_⟩
  · rw [Real.sin_two_mul]; exact h3
  · rw [h4, Real.sin_three_mul]
    congr 1
    linear_combination 3 * Real.sin (arc β₁ β₂ l) * Real.sin_sq_add_cos_sq (arc β₁ β₂ l)
  · rw [h5, show 4 * arc β₁ β₂ l = 2 * (2 * arc β₁ β₂ l) by ring, Real.sin_two_mul, Real.sin_two_mul, Real.cos_two_mul]
    congr 1
    linear_combination -4 * Real.sin (arc β₁ β₂ l) * Real.cos (arc β₁ β₂ l) * Real.sin_sq_add_cos_sq (arc β₁ β₂ l)
  · rw [Real.cos_arccos hm1 hm2]; exact h6
  · rw [Real.cos_two_mul, Real.cos_arccos hm1 hm2]; exact h7
  · rw [h8, Real.cos_three_mul, Real.cos_arccos hm1 hm2]
    congr 1
    ring

theorem arc_meridian : arc 0 (Real.pi / 4) 0 = Real.pi / 4 := by
  have h := Real.pi_pos
  rw [arc_eq_arccos, csig, Real.sin_zero, Real.cos_zero, zero_mul, zero_add, one_mul, mul_one,
    Real.arccos_cos (by positivity) (by linarith)]

theorem meridian_hyps : Real.sin (arc 0 (Real.pi / 4) 0) ≠ 0 ∧ 1 - salpha 0 (Real.pi / 4) 0 ^ 2 ≠ 0 := by
  rw [salpha, arc_meridian, Real.sin_zero]
  have h2 : 0 < Real.sqrt 2 := by positivity
  constructor
  · rw [Real.sin_pi_div_four]; positivity
  · simp

/-- The hypotheses are met: the meridian arc from the equator to 45° of reduced latitude. -/
example : ∃ β₁ β₂ l : ℝ, Real.sin (arc β₁ β₂ l) ≠ 0 ∧ 1 - salpha β₁ β₂ l ^ 2 ≠ 0 :=
  ⟨0, Real.pi / 4, 0, meridian_hyps⟩

/-- **C67, negation**: the term named `cos_8_sigma_m` is not `cos 8σₘ` (rapp.rs:210-212 uses `sin_2_sigma` where the
formula needs `sin 2σₘ`); on the meridian arc from the equator to 45° of reduced latitude it is `-7/4`, not even a
cosine. -/
theorem C67_cos_8_violated (self : RappSolver XR) (L : ℝ) (st : InverseState XR) (hl : st.lambda = fin 0) :
    (inverseStep self (fin (Real.sin 0)) (fin (Real.cos 0)) (fin (Real.sin (Real.pi / 4)))
      (fin (Real.cos (Real.pi / 4))) (fin L) st).cos_8_sigma_m = fin (-7 / 4) ∧ ¬ ∃ θ : ℝ, Real.cos θ = -7 / 4 := by
  obtain ⟨m1, m2⟩ := meridian_hyps
  constructor
  · obtain ⟨_, _, _, _, _, _, _, _, _, h⟩ := inverseStep_values self 0 (Real.pi / 4) 0 L st hl m1 m2
    rw [h, arc_meridian, Real.sin_pi_div_four, Real.cos_pi_div_four, Real.sin_zero]
    have h2 : Real.sqrt 2 ^ 2 = 2 := Real.sq_sqrt (by norm_num)
    have h4 : Real.sqrt 2 ^ 4 = 4 := by rw [show Real.sqrt 2 ^ 4 = (Real.sqrt 2 ^ 2) ^ 2 by ring, h2]; norm_num
    have e : 2 * (Real.sqrt 2 / 2) * (Real.sqrt 2 / 2) = 1 := by nlinarith
    rw [e]
    congr 1
    have : Real.sqrt 2 / 2 - 2 * 0 * (Real.sqrt 2 / 2) / (1 - salpha 0 (Real.pi / 4) 0 ^ 2) = Real.sqrt 2 / 2 := by simp
    rw [this, div_pow, div_pow, h2, h4]
    norm_num
  · rintro ⟨θ, h⟩
    have := Real.neg_one_le_cos θ
    linarith

end Geo
