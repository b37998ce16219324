import Verif.Lemmas.Karney
import Verif.Spec.Rapp
import Verif.Props.RappExact

/-! The direct problem of the Rapp solver over the reals. -/

namespace Geo
open XR Spec RappSolver

theorem b0_fin (u : ℝ) : b0 (fin u) = fin (rappB0 u) := by
  simp only [b0, one_eq, ofNat_eq, neg_fin, mul_fin, add_fin, ne_eq, OfNat.ofNat_ne_zero, not_false_eq_true, div_fin]
  rw [rappB0]; congr 1; ring

theorem b2_fin (u : ℝ) : b2 (fin u) = fin (rappB2 u) := by
  simp only [b2, one_eq, ofNat_eq, neg_fin, mul_fin, add_fin, ne_eq, OfNat.ofNat_ne_zero, not_false_eq_true, div_fin]
  rw [rappB2]; congr 1; ring

theorem b4_fin (u : ℝ) : b4 (fin u) = fin (rappB4 u) := by
  simp only [b4, one_eq, ofNat_eq, neg_fin, mul_fin, add_fin, ne_eq, OfNat.ofNat_ne_zero, not_false_eq_true, div_fin]
  rw [rappB4]; congr 1; ring

theorem b6_fin (u : ℝ) : b6 (fin u) = fin (rappB6 u) := by
  simp only [b6, one_eq, ofNat_eq, neg_fin, mul_fin, add_fin, ne_eq, OfNat.ofNat_ne_zero, not_false_eq_true, div_fin]
  rw [rappB6]; congr 1; ring

theorem rappB0_pos {u : ℝ} (h0 : 0 ≤ u) (h3 : u ≤ 3) : 0 < rappB0 u := by
  unfold rappB0
  have h1 : 0 ≤ u * (3 - u) := mul_nonneg h0 (by linarith)
  have h4 : 0 ≤ u ^ 2 * (u * (3 - u)) := mul_nonneg (by positivity) h1
  have h5 : 0 ≤ u * (u * (3 - u)) := mul_nonneg h0 h1
  nlinarith

theorem axs_fin {a b : ℝ} (hb : 0 < b) (hab : b ≤ a) (s : String) (c : ℝ) :
    (new (ell s a b)).a0.fastEvalAt (fin c) = fin (rappA0 ((a - b) / a) c) ∧
    (new (ell s a b)).a2.fastEvalAt (fin c) = fin (rappA2 ((a - b) / a) c) ∧
    (new (ell s a b)).a4.fastEvalAt (fin c) = fin (rappA4 ((a - b) / a) c) ∧
    (new (ell s a b)).a6.fastEvalAt (fin c) = fin (rappA6 ((a - b) / a) c) := by
  generalize hf : (a - b) / a = f
  have e : (ell s a b).f = fin f := by rw [ell_f hb hab, hf]
  refine ⟨?_, ?_, ?_, ?_⟩ <;>
    simp only [new, e, one_eq, zero_eq, ofNat_eq, neg_fin, mul_fin, add_fin, ne_eq, OfNat.ofNat_ne_zero,
      not_false_eq_true, div_fin] <;>
    simp only [← List.map_cons, ← List.map_nil (f := (fin : ℝ → XR)), fastEval_fin] <;>
    simp only [List.foldr_cons, List.foldr_nil, rappA0, rappA2, rappA4, rappA6, fin.injEq] <;> ring

/-- The state `st` after an iteration from the arc `q`. -/
structure RealR (st : DirectState XR) (m σ q : ℝ) : Prop where
  sigma : st.sigma = fin σ
  sin_sigma : st.sin_sigma = fin (Real.sin q)
  cos_sigma : st.cos_sigma = fin (Real.cos q)
  sin_2_sigma : st.sin_2_sigma = fin (Real.sin (2 * q))
  sin_3_sigma : st.sin_3_sigma = fin (Real.sin (3 * q))
  sigma_1 : st.sigma_1 = fin m
  c2 : st.cos_2_sigma_m = fin (Real.cos (2 * m + q))
  c4 : st.cos_4_sigma_m = fin (Real.cos (2 * (2 * m + q)))
  c6 : st.cos_6_sigma_m = fin (Real.cos (3 * (2 * m + q)))
  old : st.sigma_old = fin q

theorem rappStep_real {β ca u s0 q m : ℝ} (hβ : Real.cos β ≠ 0) (hm : m = Complex.arg ⟨ca, Real.tan β⟩)
    (hB : rappB0 u ≠ 0) (st : DirectState XR) (h : st.sigma = fin q) :
    RealR (directStep ⟨fin β⟩ (fin ca) (fin u) (fin s0) st) m (rappSigma u m s0 q) q := by
  obtain ⟨θ, hθ, k⟩ := C67_direct_multiples β ca u s0 q hβ st h
  rw [← hm] at hθ
  subst hθ
  obtain ⟨k1, k2, k3, k4, k5, k6⟩ := k
  have kc : (directStep ⟨fin β⟩ (fin ca) (fin u) (fin s0) st).cos_sigma = fin (Real.cos q) := by
    simp only [directStep, h, cos_fin]
  have ks : (directStep ⟨fin β⟩ (fin ca) (fin u) (fin s0) st).sigma = fin s0
      - b2 (fin u) / b0 (fin u) * (directStep ⟨fin β⟩ (fin ca) (fin u) (fin s0) st).sin_sigma *
        (directStep ⟨fin β⟩ (fin ca) (fin u) (fin s0) st).cos_2_sigma_m
      - b4 (fin u) / b0 (fin u) * (directStep ⟨fin β⟩ (fin ca) (fin u) (fin s0) st).sin_2_sigma *
        (directStep ⟨fin β⟩ (fin ca) (fin u) (fin s0) st).cos_4_sigma_m
      - b6 (fin u) / b0 (fin u) * (directStep ⟨fin β⟩ (fin ca) (fin u) (fin s0) st).sin_3_sigma *
        (directStep ⟨fin β⟩ (fin ca) (fin u) (fin s0) st).cos_6_sigma_m := rfl
  refine ⟨?_, k1, kc, k2, k3, ?_, k4, k5, k6, h⟩
  · rw [ks, k1, k2, k3, k4, k5, k6, b0_fin, b2_fin, b4_fin, b6_fin, div_fin _ hB, div_fin _ hB, div_fin _ hB]
    simp only [mul_fin, sub_fin, rappSigma]
  · simp only [directStep, Angle.tan, tan_fin hβ, atan2_fin, hm]

theorem rappLoop_real {β ca u s0 m : ℝ} (hβ : Real.cos β ≠ 0) (hm : m = Complex.arg ⟨ca, Real.tan β⟩)
    (hB : rappB0 u ≠ 0) (msg : String) (n : ℕ) (q : ℝ) (st r : DirectState XR) (h : st.sigma = fin q)
    (hr : loopMax (directStep ⟨fin β⟩ (fin ca) (fin u) (fin s0)) directDone msg n st = .ok r) :
    ∃ q, RealR r m (rappSigma u m s0 q) q ∧ |rappSigma u m s0 q - q| < 0.5e-14 := by
  induction n generalizing q st with
  | zero => cases hr
  | succ n ih =>
    have h' := rappStep_real (s0 := s0) hβ hm hB st h
    rw [loopMax] at hr
    by_cases hd : directDone (directStep ⟨fin β⟩ (fin ca) (fin u) (fin s0) st) = true
    · simp only [hd, if_true] at hr
      cases hr
      refine ⟨q, h', ?_⟩
      simpa [directDone, h'.sigma, h'.old] using hd
    · simp only [hd] at hr
      exact ih _ _ h'.sigma hr

end Geo
