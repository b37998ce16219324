import Mathlib.Analysis.SpecialFunctions.Complex.Arg
import Verif.Lemmas.Angle

/-! # C48-C50: polynomials, Clenshaw summation, complex numbers, in exact arithmetic -/

namespace Geo
open XR

/-! ### C48 -/

theorem foldl_reverse_cons {α β : Type} (f : β → α → β) (b : β) (c : α) (cs : List α) :
    (c :: cs).reverse.foldl f b = f (cs.reverse.foldl f b) c := by
  simp [List.foldl_append]

/-- **C48**: `eval_at` on a float is `∑ c_i x^i`, for every number of coefficients. -/
theorem C48_eval_at (c : List ℝ) (x : ℝ) :
    Polynomial.evalAt ⟨c.map fin⟩ (fin x) = fin (∑ i ∈ Finset.range c.length, c.getD i 0 * x ^ i) := by
  unfold Polynomial.evalAt
  induction c with
  | nil => simp
  | cons c cs ih =>
    simp only [List.map_cons] at ih ⊢
    rw [foldl_reverse_cons, ih, List.length_cons, Finset.sum_range_succ', mul_fin, add_fin, Finset.mul_sum]
    congr 1
    simp only [List.getD_cons_succ, List.getD_cons_zero, pow_zero, mul_one, pow_succ]
    congr 1
    exact Finset.sum_congr rfl fun i _ => by ring

/-- **C48**: so is `fast_eval_at`. -/
theorem C48_fast_eval_at (c : List ℝ) (x : ℝ) :
    Polynomial.fastEvalAt ⟨c.map fin⟩ (fin x) = fin (∑ i ∈ Finset.range c.length, c.getD i 0 * x ^ i) := by
  unfold Polynomial.fastEvalAt
  induction c with
  | nil => simp
  | cons c cs ih =>
    simp only [List.map_cons] at ih ⊢
    rw [foldl_reverse_cons, ih, List.length_cons, Finset.sum_range_succ', mulAdd_fin, Finset.sum_mul]
    congr 1
    simp only [List.getD_cons_succ, List.getD_cons_zero, pow_zero, mul_one, pow_succ]
    congr 1
    exact Finset.sum_congr rfl fun i _ => by ring

/-- The complex number `z` as a value of the crate. -/
def cplx (z : ℂ) : Cplx XR := ⟨fin z.re, fin z.im⟩

theorem cplx_inj {z w : ℂ} : cplx z = cplx w ↔ z = w := by
  simp [cplx, Complex.ext_iff]

theorem cplx_mul (z w : ℂ) : (cplx z).mul (cplx w) = cplx (z * w) := by
  simp [cplx, Cplx.mul]

theorem cplx_addF (z : ℂ) (r : ℝ) : (cplx z).addF (fin r) = cplx (z + r) := by
  simp [cplx, Cplx.addF]

/-- **C48**: `eval_at` on a complex number is `∑ c_i z^i`. -/
theorem C48_eval_at_complex (c : List ℝ) (z : ℂ) :
    Polynomial.evalAtCplx ⟨c.map fin⟩ (cplx z) = cplx (∑ i ∈ Finset.range c.length, (c.getD i 0 : ℂ) * z ^ i) := by
  unfold Polynomial.evalAtCplx
  induction c with
  | nil => simp [cplx, Cplx.zero]
  | cons c cs ih =>
    simp only [List.map_cons] at ih ⊢
    rw [foldl_reverse_cons, ih, List.length_cons, Finset.sum_range_succ', cplx_mul, cplx_addF, Finset.mul_sum]
    congr 1
    simp only [List.getD_cons_succ, List.getD_cons_zero, pow_zero, mul_one, pow_succ]
    congr 1
    exact Finset.sum_congr rfl fun i _ => by ring

/-- `1 - 2x + 3x²` at 2 and at `i`. -/
example : Polynomial.evalAt ⟨[1, -2, 3].map fin⟩ (fin 2) = fin 9 := by
  rw [C48_eval_at]; norm_num [Finset.sum_range_succ]
example : Polynomial.evalAtCplx ⟨[1, -2, 3].map fin⟩ (cplx Complex.I) = cplx (-2 - 2 * Complex.I) := by
  rw [C48_eval_at_complex]
  congr 1
  simp [Finset.sum_range_succ]
  ring

/-! ### C49 -/

/-- The loop, over the reals: `(y_{n+2}, y_{n+1}, y_n)` after the coefficients of the list. -/
theorem clenshaw_invariant (x : ℝ) (c : List ℝ) :
    ∃ u v w, (c.map fin).reverse.foldl (clenshawStep (2 * Flt.cos (fin x)) (-1)) { yn2 := 0, yn1 := 0, yn := 0 } =
        { yn2 := fin u, yn1 := fin v, yn := fin w } ∧
      ∀ m : ℝ, ∑ k ∈ Finset.range c.length, c.getD k 0 * Real.sin ((k + m) * x) =
        w * Real.sin (m * x) - v * Real.sin ((m - 1) * x) := by
  induction c with
  | nil => exact ⟨0, 0, 0, by simp, by simp⟩
  | cons c cs ih =>
    obtain ⟨u, v, w, h, hs⟩ := ih
    refine ⟨v, w, 2 * Real.cos x * w + -1 * v + c, ?_, ?_⟩
    · simp only [List.map_cons]
      rw [foldl_reverse_cons, h]
      simp [clenshawStep]
    · intro m
      rw [List.length_cons, Finset.sum_range_succ']
      simp only [List.getD_cons_succ, List.getD_cons_zero]
      have h1 := hs (m + 1)
      rw [show (∑ k ∈ Finset.range cs.length, cs.getD k 0 * Real.sin ((((k + 1 : ℕ) : ℝ) + m) * x)) =
        ∑ k ∈ Finset.range cs.length, cs.getD k 0 * Real.sin ((k + (m + 1)) * x) from
        Finset.sum_congr rfl fun k _ => by push_cast; ring_nf, h1]
      rw [show (m + 1) * x = m * x + x by ring, show (m - 1) * x = m * x - x by ring,
        show (m + 1 - 1) * x = m * x by ring, Real.sin_add, Real.sin_sub]
      push_cast
      rw [zero_add]
      ring

/-- **C49**: `clenshaw_sin_sum(c, x) = ∑ c_k sin(k x)`. -/
theorem C49_clenshaw (c : List ℝ) (x : ℝ) :
    clenshawSinSum (c.map fin) (fin x) = fin (∑ k ∈ Finset.range c.length, c.getD k 0 * Real.sin (k * x)) := by
  obtain ⟨u, v, w, h, hs⟩ := clenshaw_invariant x c
  have h0 := hs 0
  simp only [clenshawSinSum, h]
  simp only [add_zero, zero_mul, Real.sin_zero, mul_zero, zero_sub, neg_mul, one_mul, Real.sin_neg, mul_neg,
    neg_neg] at h0
  simp only [sin_fin, mul_fin]
  rw [h0, mul_comm]

/-- Three harmonics. -/
example : clenshawSinSum ([7, 1, 0, 2].map fin) (fin (Real.pi / 2)) = fin (1 - 2) := by
  rw [C49_clenshaw]
  congr 1
  simp only [Finset.sum_range_succ, Finset.sum_range_zero, List.length_cons, List.length_nil]
  have h3 : Real.sin (((3 : ℕ) : ℝ) * (Real.pi / 2)) = -1 := by
    rw [show ((3 : ℕ) : ℝ) * (Real.pi / 2) = Real.pi / 2 + Real.pi by push_cast; ring, Real.sin_add_pi,
      Real.sin_pi_div_two]
  rw [h3]
  norm_num

/-! ### C50 -/

/-- **C50**: addition, subtraction, multiplication (by complex and real numbers), conjugation. -/
theorem C50_ring (z w : ℂ) (r : ℝ) :
    (cplx z).add (cplx w) = cplx (z + w) ∧ (cplx z).sub (cplx w) = cplx (z - w) ∧
    (cplx z).mul (cplx w) = cplx (z * w) ∧ (cplx z).conj = cplx (starRingEnd ℂ z) ∧
    (cplx z).addF (fin r) = cplx (z + r) ∧ (cplx z).subF (fin r) = cplx (z - r) ∧
    (cplx z).mulF (fin r) = cplx (z * r) := by
  refine ⟨?_, ?_, ?_, ?_, ?_, ?_, ?_⟩ <;>
    simp [cplx, Cplx.add, Cplx.sub, Cplx.mul, Cplx.conj, Cplx.addF, Cplx.subF, Cplx.mulF]

/-- **C50**: modulus and argument. -/
theorem C50_polar (z : ℂ) :
    (cplx z).abs = fin ‖z‖ ∧ (cplx z).absSq = fin (‖z‖ ^ 2) ∧
    ∃ θ, (cplx z).arg = ⟨fin θ⟩ ∧ θ = z.arg ∧ -Real.pi < θ ∧ θ ≤ Real.pi ∧
      (‖z‖ : ℂ) * Complex.exp (θ * Complex.I) = z := by
  refine ⟨?_, ?_, z.arg, ?_, rfl, Complex.neg_pi_lt_arg z, Complex.arg_le_pi z, Complex.norm_mul_exp_arg_mul_I z⟩
  · simp only [cplx, Cplx.abs, hypot_fin]
    rw [pow_two, pow_two, ← Complex.normSq_apply, ← Complex.sq_norm, Real.sqrt_sq (norm_nonneg z)]
  · simp only [cplx, Cplx.absSq, mul_fin, add_fin]
    rw [Complex.sq_norm, Complex.normSq_apply]
  · simp [cplx, Cplx.arg, angle_new_rad]

/-- **C50**: `inv` and division are those of the field; they fail exactly when the divisor is zero. -/
theorem C50_div (z w : ℂ) (r : ℝ) :
    (w ≠ 0 → (cplx w).inv = .ok (cplx w⁻¹) ∧ (cplx z).div (cplx w) = .ok (cplx (z / w))) ∧
    (w = 0 → (∃ m, (cplx w).inv = .error (.err m)) ∧ ∃ m, (cplx z).div (cplx w) = .error (.err m)) ∧
    (r ≠ 0 → (cplx z).divF (fin r) = cplx (z / r)) := by
  have hz : (cplx w).isZero = decide (w = 0) := by
    simp [cplx, Cplx.isZero, Complex.ext_iff]
  have hdivF : ∀ (z : ℂ) (r : ℝ), r ≠ 0 → (cplx z).divF (fin r) = cplx (z / r) := by
    intro z r hr
    simp only [cplx, Cplx.divF, div_fin _ hr]
    rw [Complex.div_ofReal_re, Complex.div_ofReal_im]
  refine ⟨fun hw => ?_, fun hw => ?_, hdivF z r⟩
  · have hinv : (cplx w).inv = .ok (cplx w⁻¹) := by
      rw [Cplx.inv, hz, decide_eq_false hw]
      have hn : ‖w‖ ^ 2 ≠ 0 := by positivity
      rw [(C50_polar w).2.1, (C50_ring w w 0).2.2.2.1, hdivF _ _ hn, Complex.inv_def, ← Complex.sq_norm]
      simp [div_eq_mul_inv]
    refine ⟨hinv, ?_⟩
    simp only [Cplx.div, hinv, bind, Except.bind, pure, Except.pure]
    rw [cplx_mul, div_eq_mul_inv]
  · have hinv : (cplx w).inv = .error (.err "Complex not invertible: |z| = 0.0") := by
      rw [Cplx.inv, hz, decide_eq_true hw]; rfl
    exact ⟨⟨_, hinv⟩, "Complex not invertible: |z| = 0.0", by simp only [Cplx.div, hinv, bind, Except.bind]⟩

example : (cplx ⟨1, 2⟩).div (cplx ⟨0, 1⟩) = .ok (cplx ⟨2, -1⟩) := by
  have h : (⟨0, 1⟩ : ℂ) ≠ 0 := by simp [Complex.ext_iff]
  rw [((C50_div ⟨1, 2⟩ ⟨0, 1⟩ 0).1 h).2]
  congr 2
  rw [div_eq_iff h]
  simp [Complex.ext_iff]

end Geo
