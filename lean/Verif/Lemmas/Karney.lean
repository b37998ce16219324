import Verif.Lemmas.Direct
import Verif.Lemmas.TransverseMercator
import Verif.Spec.Karney
import Verif.Props.MathExact
import Mathlib.Tactic.IntervalCases

/-! The series and triangles of the Karney solver over the reals. -/

namespace Geo
open XR Spec KarneyGeodesicSolver

/-- Evaluation of a polynomial with real coefficients. -/
theorem fastEval_fin (c : List ℝ) (x : ℝ) :
    (Polynomial.mk (c.map fin)).fastEvalAt (fin x) = fin (c.foldr (fun a y => a + x * y) 0) := by
  rw [C48_fast_eval_at]
  congr 1
  induction c with
  | nil => simp
  | cons a c ih =>
    rw [List.foldr_cons, ← ih, List.length_cons, Finset.sum_range_succ', Finset.mul_sum]
    simp only [List.getD_cons_succ, List.getD_cons_zero, pow_zero, mul_one, pow_succ]
    rw [add_comm]
    congr 1
    exact Finset.sum_congr rfl fun i _ => by ring

theorem PA1_eq : (PA1 : Polynomial XR) = ⟨[1, 0, 1 / 4, 0, 1 / 64, 0, 1 / 256].map fin⟩ := by
  simp [PA1, one_eq, zero_eq, ofNat_eq, div_fin]

theorem C1L_eq : (C1L : List (Polynomial XR)) =
    [⟨[0, 0, 0, 0, 0, 0, 0].map fin⟩,
     ⟨[0, -0.5, 0, 3 / 16, 0, -1 / 32, 0].map fin⟩,
     ⟨[0, 0, -1 / 16, 0, 1 / 32, 0, -9 / 2048].map fin⟩,
     ⟨[0, 0, 0, -1 / 48, 0, 3 / 256, 0].map fin⟩,
     ⟨[0, 0, 0, 0, -5 / 512, 0, 3 / 512].map fin⟩,
     ⟨[0, 0, 0, 0, 0, -7 / 1280, 0].map fin⟩,
     ⟨[0, 0, 0, 0, 0, 0, -7 / 2048].map fin⟩] := by
  simp [C1L, one_eq, zero_eq, ofNat_eq, sci_eq, neg_fin, div_fin]

theorem CP1L_eq : (CP1L : List (Polynomial XR)) =
    [⟨[0, 1 / 2, 0, -9 / 32, 0, 205 / 1536, 0].map fin⟩,
     ⟨[0, 0, 5 / 16, 0, -37 / 96, 0, 1335 / 4096].map fin⟩,
     ⟨[0, 0, 0, 29 / 96, 0, -75 / 128, 0].map fin⟩,
     ⟨[0, 0, 0, 0, 539 / 1536, 0, -2391 / 2560].map fin⟩,
     ⟨[0, 0, 0, 0, 0, 3467 / 7680, 0].map fin⟩,
     ⟨[0, 0, 0, 0, 0, 0, 38081 / 61440].map fin⟩] := by
  simp [CP1L, one_eq, zero_eq, ofNat_eq, neg_fin, div_fin]

theorem A1_fin {ε : ℝ} (h : ε < 1) : A1 (fin ε) = fin (karneyA1 ε) := by
  rw [A1, PA1_eq, fastEval_fin, one_eq, sub_fin, div_fin _ (by linarith), karneyA1]
  congr 2
  simp
  ring

theorem sineSum_list {c : List ℝ} {d : ℕ → ℝ} (hl : c.length ≤ 7) (h0 : c.getD 0 0 = 0)
    (hd : ∀ k < 6, c.getD (k + 1) 0 = d (k + 1)) (x : ℝ) :
    ∑ k ∈ Finset.range c.length, c.getD k 0 * Real.sin (k * (2 * x)) = sineSum d x := by
  have e : ∑ k ∈ Finset.range c.length, c.getD k 0 * Real.sin (k * (2 * x)) =
      ∑ k ∈ Finset.range 7, c.getD k 0 * Real.sin (k * (2 * x)) := by
    refine Finset.sum_subset (Finset.range_mono hl) fun k _ hk => ?_
    rw [List.getD_eq_getElem?_getD, List.getElem?_eq_none (by simpa using hk), Option.getD_none, zero_mul]
  rw [e, Finset.sum_range_succ', h0, zero_mul, add_zero, sineSum]
  refine Finset.sum_congr rfl fun k hk => ?_
  rw [hd k (Finset.mem_range.1 hk)]
  congr 2
  push_cast
  ring

theorem I1_fin {ε : ℝ} (h : ε < 1) (σ : ℝ) : I1 (fin ε) (fin (karneyA1 ε)) ⟨fin σ⟩ = fin (karneyI1 ε σ) := by
  have hl : (C1L : List (Polynomial XR)).map (fun p => p.fastEvalAt (fin ε)) =
      [0, karneyC1 ε 1, karneyC1 ε 2, karneyC1 ε 3, karneyC1 ε 4, karneyC1 ε 5, karneyC1 ε 6].map fin := by
    rw [C1L_eq]
    simp only [List.map_cons, List.map_nil]
    simp only [← List.map_cons, ← List.map_nil (f := (fin : ℝ → XR)), fastEval_fin]
    simp only [List.map_cons, List.map_nil, List.foldr_cons, List.foldr_nil, karneyC1, List.cons.injEq, fin.injEq,
      and_true]
    refine ⟨?_, ?_, ?_, ?_, ?_, ?_, ?_⟩ <;> ring
  rw [I1, hl, show (2 : XR) * fin σ = fin (2 * σ) by rw [ofNat_eq, mul_fin]]
  rw [C49_clenshaw, add_fin, mul_fin, karneyI1]
  congr 3
  refine sineSum_list (by simp) rfl (fun k hk => ?_) σ
  interval_cases k <;> rfl

theorem Sigma_fin (ε τ : ℝ) : KarneyGeodesicSolver.Sigma (fin ε) ⟨fin τ⟩ = ⟨fin (karneySigma ε τ)⟩ := by
  have hl : (CP1L : List (Polynomial XR)).map (fun p => p.fastEvalAt (fin ε)) =
      [fin (karneyC1' ε 1), fin (karneyC1' ε 2), fin (karneyC1' ε 3), fin (karneyC1' ε 4), fin (karneyC1' ε 5),
        fin (karneyC1' ε 6)] := by
    rw [CP1L_eq]
    simp only [List.map_cons, List.map_nil]
    simp only [← List.map_cons, ← List.map_nil (f := (fin : ℝ → XR)), fastEval_fin]
    simp only [List.map_cons, List.map_nil, List.foldr_cons, List.foldr_nil, karneyC1', List.cons.injEq, fin.injEq,
      and_true]
    refine ⟨?_, ?_, ?_, ?_, ?_, ?_⟩ <;> ring
  rw [KarneyGeodesicSolver.Sigma, hl]
  simp only [List.zipIdx_cons, List.zipIdx_nil, List.map_cons, List.map_nil, fsum, List.foldl_cons, List.foldl_nil,
    ofNat_eq, zero_eq, Angle.mul_mk, Angle.mk_mul, mul_fin, lit_eq, Angle.sin, sin_fin, add_fin, angle_new_rad,
    Angle.mk_add, karneySigma, sineSum, Finset.sum_range_succ, Finset.sum_range_zero]
  congr 3
  norm_num
  ring_nf

theorem A3_fin {a b : ℝ} (hb : 0 < b) (hab : b ≤ a) (s : String) (ε : ℝ) :
    (new (ell s a b)).A3 (fin ε) = fin (karneyA3 (nR a b) ε) := by
  have h : (new (ell s a b)).a3 = ⟨[1, -(1 / 2 - nR a b / 2), -(1 / 4 + nR a b / 8 - 3 * nR a b ^ 2 / 8),
      -(1 / 16 + 3 * nR a b / 16 + nR a b ^ 2 / 16), -(3 / 64 + nR a b / 32), -3 / 128].map fin⟩ := by
    have e : ∀ c : List ℝ, (Polynomial.mk (c.map fin)).fastEvalAt (ell s a b).n =
        fin (c.foldr (fun y z => y + nR a b * z) 0) := fun c => by rw [ell_n hb hab, fastEval_fin]
    have d : ∀ x y : ℝ, y ≠ 0 → (fin x / fin y : XR) = fin (x / y) := fun x y h => div_fin _ h
    have k1 := e [1 / 2, -1 / 2]
    have k2 := e [1 / 4, 1 / 8, -3 / 8]
    have k3 := e [1 / 16, 3 / 16, 1 / 16]
    have k4 := e [3 / 64, 1 / 32]
    simp only [List.map_cons, List.map_nil, List.foldr_cons, List.foldr_nil] at k1 k2 k3 k4
    simp only [new, one_eq, ofNat_eq, neg_fin, ne_eq, OfNat.ofNat_ne_zero, not_false_eq_true, div_fin, k1, k2, k3, k4,
      List.map_cons, List.map_nil]
    simp only [Polynomial.mk.injEq, List.cons.injEq, fin.injEq, and_true, true_and]
    refine ⟨?_, ?_, ?_, ?_⟩ <;> ring
  rw [A3, h, fastEval_fin, karneyA3]
  congr 1
  simp only [List.foldr_cons, List.foldr_nil]
  ring

theorem I3_fin {a b : ℝ} (hb : 0 < b) (hab : b ≤ a) (s : String) (ε σ : ℝ) :
    (new (ell s a b)).I3 (fin (karneyA3 (nR a b) ε)) (fin ε) ⟨fin σ⟩ = fin (karneyI3 (nR a b) ε σ) := by
  have h : (new (ell s a b)).c3l =
      [⟨[0, 0, 0, 0, 0, 0].map fin⟩,
       ⟨[0, 1 / 4 - nR a b / 4, 1 / 8 - nR a b ^ 2 / 8, 3 / 64 + 3 * nR a b / 64 - nR a b ^ 2 / 64, 5 / 128 + nR a b / 64,
         3 / 128].map fin⟩,
       ⟨[0, 0, 1 / 16 - 3 * nR a b / 32 + nR a b ^ 2 / 32, 3 / 64 - nR a b / 32 - 3 * nR a b ^ 2 / 64,
         3 / 128 + nR a b / 128, 5 / 256].map fin⟩,
       ⟨[0, 0, 0, 5 / 192 - 3 * nR a b / 64 + 5 * nR a b ^ 2 / 192, 3 / 128 - 5 * nR a b / 192, 7 / 512].map fin⟩,
       ⟨[0, 0, 0, 0, 7 / 512 - 7 * nR a b / 256, 7 / 512].map fin⟩,
       ⟨[0, 0, 0, 0, 0, 21 / 2560].map fin⟩] := by
    have e : ∀ c : List ℝ, (Polynomial.mk (c.map fin)).fastEvalAt (ell s a b).n =
        fin (c.foldr (fun y z => y + nR a b * z) 0) := fun c => by rw [ell_n hb hab, fastEval_fin]
    have k1 := e [1 / 4, -1 / 4]
    have k2 := e [1 / 8, 0, -1 / 8]
    have k3 := e [3 / 64, 3 / 64, -1 / 64]
    have k4 := e [5 / 128, 1 / 64]
    have k5 := e [1 / 16, -3 / 32, 1 / 32]
    have k6 := e [3 / 64, -1 / 32, -3 / 64]
    have k7 := e [3 / 128, 1 / 128]
    have k8 := e [5 / 192, -3 / 64, 5 / 192]
    have k9 := e [3 / 128, -5 / 192]
    have k10 := e [7 / 512, -7 / 256]
    simp only [List.map_cons, List.map_nil, List.foldr_cons, List.foldr_nil] at k1 k2 k3 k4 k5 k6 k7 k8 k9 k10
    simp only [new, one_eq, zero_eq, ofNat_eq, neg_fin, ne_eq, OfNat.ofNat_ne_zero, not_false_eq_true, div_fin, k1, k2,
      k3, k4, k5, k6, k7, k8, k9, k10, List.map_cons, List.map_nil]
    simp only [Polynomial.mk.injEq, List.cons.injEq, fin.injEq, and_true, true_and]
    refine ⟨⟨?_, ?_, ?_, ?_⟩, ⟨?_, ?_, ?_⟩, ⟨?_, ?_⟩, ?_⟩ <;> ring
  have hl : (new (ell s a b)).c3l.map (fun p => p.fastEvalAt (fin ε)) =
      [0, karneyC3 (nR a b) ε 1, karneyC3 (nR a b) ε 2, karneyC3 (nR a b) ε 3, karneyC3 (nR a b) ε 4,
        karneyC3 (nR a b) ε 5].map fin := by
    rw [h]
    simp only [List.map_cons, List.map_nil]
    simp only [← List.map_cons, ← List.map_nil (f := (fin : ℝ → XR)), fastEval_fin]
    simp only [List.map_cons, List.map_nil, List.foldr_cons, List.foldr_nil, karneyC3, List.cons.injEq, fin.injEq,
      and_true]
    refine ⟨?_, ?_, ?_, ?_, ?_, ?_⟩ <;> ring
  rw [I3, hl, show (2 : XR) * fin σ = fin (2 * σ) by rw [ofNat_eq, mul_fin]]
  rw [C49_clenshaw, add_fin, mul_fin, karneyI3]
  congr 3
  refine sineSum_list (by simp) rfl (fun k hk => ?_) σ
  interval_cases k <;> rfl

/-! ### Triangles -/

/-- From the start of the geodesic. -/
theorem triangle_P (β α : ℝ) (hβ : 0 < Real.cos β) : ∃ α₀ σ ω : ℝ,
    solveTriangleFromP ⟨fin β⟩ ⟨⟨fin α⟩⟩ = ⟨⟨⟨fin α₀⟩⟩, ⟨⟨fin α⟩⟩, ⟨fin β⟩, ⟨fin σ⟩, ⟨fin ω⟩⟩ ∧
    Real.sin α₀ = Real.cos β * Real.sin α ∧ Real.cos α₀ = Real.sqrt (1 - (Real.cos β * Real.sin α) ^ 2) ∧
    Real.cos σ * Real.cos α₀ = Real.cos β * Real.cos α ∧ Real.sin σ * Real.cos α₀ = Real.sin β ∧
    Real.cos β * Real.cos ω = Real.cos σ ∧ Real.cos β * Real.sin ω = Real.sin α₀ * Real.sin σ ∧ -Real.pi < σ ∧
    σ ≤ Real.pi := by
  have qα := Real.sin_sq_add_cos_sq α
  have qβ := Real.sin_sq_add_cos_sq β
  set K := Real.sqrt (Real.cos α ^ 2 + (Real.sin α * Real.sin β) ^ 2) with hK
  have hK2 : K ^ 2 = 1 - (Real.cos β * Real.sin α) ^ 2 := by
    rw [hK, Real.sq_sqrt (by positivity)]
    linear_combination qα - Real.sin α ^ 2 * (1 - qβ) - Real.sin α ^ 2
  have hKs : K = Real.sqrt (1 - (Real.cos β * Real.sin α) ^ 2) := by rw [← hK2, Real.sqrt_sq (Real.sqrt_nonneg _)]
  set α₀ := Complex.arg ⟨K, Real.sin α * Real.cos β⟩ with hα₀
  obtain ⟨p1, p2⟩ := polar K (Real.sin α * Real.cos β)
  rw [show K ^ 2 + (Real.sin α * Real.cos β) ^ 2 = 1 by rw [hK2]; ring, Real.sqrt_one, one_mul, ← hα₀] at p1 p2
  set σ := Complex.arg ⟨Real.cos α * Real.cos β, Real.sin β⟩ with hσ
  obtain ⟨p3, p4⟩ := polar (Real.cos α * Real.cos β) (Real.sin β)
  rw [show (Real.cos α * Real.cos β) ^ 2 + Real.sin β ^ 2 = 1 - (Real.cos β * Real.sin α) ^ 2 by
    linear_combination Real.cos β ^ 2 * qα + qβ, ← hKs, ← hσ] at p3 p4
  set ω := Complex.arg ⟨Real.cos σ, Real.sin α₀ * Real.sin σ⟩ with hω
  obtain ⟨p5, p6⟩ := polar (Real.cos σ) (Real.sin α₀ * Real.sin σ)
  have hn : Real.sqrt (Real.cos σ ^ 2 + (Real.sin α₀ * Real.sin σ) ^ 2) = Real.cos β := by
    rw [← Real.sqrt_sq hβ.le]
    congr 1
    have q1 := Real.sin_sq_add_cos_sq σ
    have q2 := Real.sin_sq_add_cos_sq α₀
    rw [p1] at q2
    have : Real.sin β ^ 2 = K ^ 2 * Real.sin σ ^ 2 := by rw [← p4]; ring
    linear_combination q1 + Real.sin σ ^ 2 * q2 - qβ + this
  rw [hn, ← hω] at p5 p6
  refine ⟨α₀, σ, ω, ?_, by rw [p2]; ring, by rw [p1, hKs], by rw [p1]; linarith, by rw [p1]; linarith, p5, p6,
    Complex.neg_pi_lt_arg _, Complex.arg_le_pi _⟩
  simp only [solveTriangleFromP, Azimuth.sin, Azimuth.cos, Angle.sin, Angle.cos, sin_fin, cos_fin, mul_fin, Cplx.abs,
    Cplx.arg, hypot_fin, atan2_fin, angle_new_rad, ← hK, ← hα₀, ← hσ, ← hω]
  rw [Azimuth.new, normalized_fin, hα₀, normR_id (Complex.neg_pi_lt_arg _) (Complex.arg_le_pi _)]

/-- From the node. -/
theorem triangle_E (α₀ σ : ℝ) (h0 : 0 ≤ Real.cos α₀) : ∃ α β ω : ℝ,
    solveTriangleFromE ⟨⟨fin α₀⟩⟩ ⟨fin σ⟩ = ⟨⟨⟨fin α₀⟩⟩, ⟨⟨fin α⟩⟩, ⟨fin β⟩, ⟨fin σ⟩, ⟨fin ω⟩⟩ ∧
    -Real.pi < α ∧ α ≤ Real.pi ∧ 0 ≤ Real.cos β ∧ Real.sin β = Real.cos α₀ * Real.sin σ ∧
    Real.cos β * Real.sin α = Real.sin α₀ ∧ Real.cos β * Real.cos α = Real.cos α₀ * Real.cos σ ∧
    Real.cos β * Real.cos ω = Real.cos σ ∧ Real.cos β * Real.sin ω = Real.sin α₀ * Real.sin σ := by
  have q0 := Real.sin_sq_add_cos_sq α₀
  have q1 := Real.sin_sq_add_cos_sq σ
  set R := Real.sqrt ((Real.cos α₀ * Real.cos σ) ^ 2 + Real.sin α₀ ^ 2) with hR
  have hR2 : R ^ 2 = (Real.cos α₀ * Real.cos σ) ^ 2 + Real.sin α₀ ^ 2 := Real.sq_sqrt (by positivity)
  set α := Complex.arg ⟨Real.cos α₀ * Real.cos σ, Real.sin α₀⟩ with hα
  obtain ⟨p1, p2⟩ := polar (Real.cos α₀ * Real.cos σ) (Real.sin α₀)
  rw [← hR, ← hα] at p1 p2
  set β := Complex.arg ⟨R, Real.cos α₀ * Real.sin σ⟩ with hβ
  obtain ⟨p3, p4⟩ := polar R (Real.cos α₀ * Real.sin σ)
  rw [show R ^ 2 + (Real.cos α₀ * Real.sin σ) ^ 2 = 1 by
    rw [hR2]; linear_combination Real.cos α₀ ^ 2 * q1 + q0, Real.sqrt_one, one_mul, ← hβ] at p3 p4
  set ω := Complex.arg ⟨Real.cos σ, Real.sin α₀ * Real.sin σ⟩ with hω
  obtain ⟨p5, p6⟩ := polar (Real.cos σ) (Real.sin α₀ * Real.sin σ)
  rw [show Real.cos σ ^ 2 + (Real.sin α₀ * Real.sin σ) ^ 2 = R ^ 2 by
    rw [hR2]; linear_combination Real.sin α₀ ^ 2 * q1 - Real.cos σ ^ 2 * q0,
    Real.sqrt_sq (Real.sqrt_nonneg _), ← hω] at p5 p6
  refine ⟨α, β, ω, ?_, Complex.neg_pi_lt_arg _, Complex.arg_le_pi _, by rw [p3]; exact Real.sqrt_nonneg _, p4,
    by rw [p3, p2], by rw [p3, p1], by rw [p3, p5], by rw [p3, p6]⟩
  simp only [solveTriangleFromE, Azimuth.sin, Azimuth.cos, Angle.sin, Angle.cos, sin_fin, cos_fin, mul_fin, Cplx.abs,
    Cplx.arg, hypot_fin, atan2_fin, angle_new_rad, ← hR, ← hα, ← hβ, ← hω]
  rw [Azimuth.new, normalized_fin, hα, normR_id (Complex.neg_pi_lt_arg _) (Complex.arg_le_pi _)]

/-- The two triangles bound an arc. -/
theorem arcEnd_of_triangles {β α α₀ σ₁ ω₁ σ₂ α₂ β₂ ω₂ : ℝ} (hβ : 0 < Real.cos β)
    (s0 : Real.sin α₀ = Real.cos β * Real.sin α) (a1 : Real.cos σ₁ * Real.cos α₀ = Real.cos β * Real.cos α)
    (a2 : Real.sin σ₁ * Real.cos α₀ = Real.sin β) (a3 : Real.cos β * Real.cos ω₁ = Real.cos σ₁)
    (a4 : Real.cos β * Real.sin ω₁ = Real.sin α₀ * Real.sin σ₁) (hc : 0 ≤ Real.cos β₂)
    (b1 : Real.sin β₂ = Real.cos α₀ * Real.sin σ₂) (b2 : Real.cos β₂ * Real.sin α₂ = Real.sin α₀)
    (b3 : Real.cos β₂ * Real.cos α₂ = Real.cos α₀ * Real.cos σ₂) (b4 : Real.cos β₂ * Real.cos ω₂ = Real.cos σ₂)
    (b5 : Real.cos β₂ * Real.sin ω₂ = Real.sin α₀ * Real.sin σ₂) :
    ArcEnd β α (σ₂ - σ₁) β₂ (ω₂ - ω₁) α₂ := by
  have q0 := Real.sin_sq_add_cos_sq α₀
  have q1 := Real.sin_sq_add_cos_sq σ₁
  have qβ := Real.sin_sq_add_cos_sq β
  refine ⟨hc, ?_, ?_, ?_, b2.trans s0, ?_⟩
  · rw [b1, Real.cos_sub, Real.sin_sub]
    linear_combination (Real.cos σ₂ * Real.cos σ₁ + Real.sin σ₂ * Real.sin σ₁) * a2 +
      (Real.sin σ₂ * Real.cos σ₁ - Real.cos σ₂ * Real.sin σ₁) * a1 - Real.cos α₀ * Real.sin σ₂ * q1
  · refine mul_left_cancel₀ hβ.ne' ?_
    rw [Real.sin_sub, Real.sin_sub]
    linear_combination Real.cos β * Real.cos ω₁ * b5 - Real.cos β * Real.sin ω₁ * b4 +
      Real.sin α₀ * Real.sin σ₂ * a3 - Real.cos σ₂ * a4 +
      (Real.sin σ₂ * Real.cos σ₁ - Real.cos σ₂ * Real.sin σ₁) * s0
  · refine mul_left_cancel₀ hβ.ne' ?_
    rw [Real.sin_sub, Real.cos_sub, Real.cos_sub]
    have e1 : Real.cos β * (Real.cos β₂ * (Real.cos ω₂ * Real.cos ω₁ + Real.sin ω₂ * Real.sin ω₁)) =
        Real.cos σ₂ * Real.cos σ₁ + Real.sin α₀ * Real.sin σ₂ * (Real.sin α₀ * Real.sin σ₁) := by
      rw [← b4, ← b5, ← a3, ← a4]; ring
    have e2 : Real.cos β ^ 2 = 1 - Real.sin σ₁ ^ 2 * Real.cos α₀ ^ 2 := by rw [← mul_pow, a2]; linarith
    rw [e1]
    have e3 : Real.cos β * (Real.cos β * (Real.cos σ₂ * Real.cos σ₁ + Real.sin σ₂ * Real.sin σ₁) -
        Real.sin β * (Real.sin σ₂ * Real.cos σ₁ - Real.cos σ₂ * Real.sin σ₁) * Real.cos α) =
        Real.cos β ^ 2 * (Real.cos σ₂ * Real.cos σ₁ + Real.sin σ₂ * Real.sin σ₁) -
        (Real.sin σ₁ * Real.cos α₀) * (Real.cos σ₁ * Real.cos α₀) *
          (Real.sin σ₂ * Real.cos σ₁ - Real.cos σ₂ * Real.sin σ₁) := by rw [a1, a2]; ring
    rw [e3, e2]
    have e4 : Real.cos α₀ ^ 2 = 1 - Real.sin α₀ ^ 2 := by linarith
    have e5 : Real.cos σ₁ ^ 2 = 1 - Real.sin σ₁ ^ 2 := by linarith
    have e6 : Real.cos σ₁ ^ 3 = Real.cos σ₁ * (1 - Real.sin σ₁ ^ 2) := by rw [← e5]; ring
    ring_nf
    simp only [e4, e5]
    ring
  · rw [b3, Real.cos_sub, Real.sin_sub]
    linear_combination (-(Real.cos σ₂ * Real.cos σ₁ + Real.sin σ₂ * Real.sin σ₁)) * (-a1) +
      (Real.sin σ₂ * Real.cos σ₁ - Real.cos σ₂ * Real.sin σ₁) * (-a2) - Real.cos α₀ * Real.cos σ₂ * q1

end Geo
