import Verif.Lemmas.TransverseConformal

/-! The transverse Mercator projection in IEEE arithmetic: the series. -/

namespace Geo
open XR Spec
variable {L : Libm}

theorem lit_near {x : F64 L} {q : ℚ} {r : ℝ} (h : B64.isFinite x = true ∧ B64.toQ x = q) (hr : (q : ℝ) = r) : Near x r 0 :=
  const_near (q := q) (ε := 0) ⟨h.1, by rw [h.2, sub_self, abs_zero]⟩ hr (by simp)

theorem near_2 : Near (2.0 : F64 L) 2 0 := lit_near (q := 2) (show B64.isFinite (B64.lit 2.0) = true ∧ (B64.lit 2.0).toQ = 2 by decide +kernel) (by norm_num)
theorem near_4 : Near (4.0 : F64 L) 4 0 := lit_near (q := 4) (show B64.isFinite (B64.lit 4.0) = true ∧ (B64.lit 4.0).toQ = 4 by decide +kernel) (by norm_num)
theorem near_6 : Near (6.0 : F64 L) 6 0 := lit_near (q := 6) (show B64.isFinite (B64.lit 6.0) = true ∧ (B64.lit 6.0).toQ = 6 by decide +kernel) (by norm_num)
theorem near_8 : Near (8.0 : F64 L) 8 0 := lit_near (q := 8) (show B64.isFinite (B64.lit 8.0) = true ∧ (B64.lit 8.0).toQ = 8 by decide +kernel) (by norm_num)

/-- Hyperbolic functions of small numbers. -/
theorem hyp_le {k : ℕ} {K : ℝ} (hK : (2.7182818286 : ℝ) ^ k + 1 ≤ 2 * K) : Real.cosh k ≤ K ∧ Real.sinh k ≤ K := by
  have h1 : Real.exp k ≤ (2.7182818286 : ℝ) ^ k := by
    have : Real.exp k = Real.exp 1 ^ k := by rw [← Real.exp_nat_mul, mul_one]
    rw [this]
    exact pow_le_pow_left₀ (Real.exp_pos 1).le Real.exp_one_lt_d9.le k
  have h2 : Real.exp (-k) ≤ 1 := Real.exp_le_one_iff.2 (by simp)
  have h3 := Real.exp_pos (-(k : ℝ))
  rw [Real.cosh_eq, Real.sinh_eq]
  constructor <;> linarith

theorem sum4_near {t0 t1 t2 t3 : F64 L} {T0 T1 T2 T3 E0 E1 E2 E3 A0 A1 A2 A3 A S E : ℝ} (k0 : Near t0 T0 E0 ∧ |T0| ≤ A0)
    (k1 : Near t1 T1 E1 ∧ |T1| ≤ A1) (k2 : Near t2 T2 E2 ∧ |T2| ≤ A2) (k3 : Near t3 T3 E3 ∧ |T3| ≤ A3) (hA : A0 + A1 + A2 + A3 ≤ A)
    (hS : E0 + E1 + E2 + E3 ≤ S) (hA1 : A ≤ 1e3) (hS1 : S ≤ 1e3) (hE : S + 4.8e-16 * (A + S + 1e-3) ≤ E) :
    Near (fsum [t0, t1, t2, t3]) (T0 + T1 + T2 + T3) E ∧ |T0 + T1 + T2 + T3| ≤ A := by
  have p0 := k0.1.nonneg
  have p1 := k1.1.nonneg
  have p2 := k2.1.nonneg
  have p3 := k3.1.nonneg
  have c0 := k0.2
  have a0 := (abs_nonneg _).trans c0
  have c1 := k1.2
  have a1 := (abs_nonneg _).trans c1
  have c2 := k2.2
  have a2 := (abs_nonneg _).trans c2
  have c3 := k3.2
  have a3 := (abs_nonneg _).trans c3
  have b1 := abs_add_le T0 T1
  have b2 := abs_add_le (T0 + T1) T2
  have b3 := abs_add_le (T0 + T1 + T2) T3
  have hR : 1.2e-16 * (A + S + 1e-3) ≤ 2.5e-13 := by norm_num at *; linarith
  have s0 := (Near.add zero_near k0.1 (R := A + S + 1e-3) (E := E0 + 1.2e-16 * (A + S + 1e-3)) (by rw [zero_add]; norm_num at *; linarith)
    (by norm_num at *; linarith) (by norm_num at *; linarith) (by linarith)).congr (zero_add T0)
  have s1 := Near.add s0 k1.1 (R := A + S + 1e-3) (E := E0 + E1 + 2 * (1.2e-16 * (A + S + 1e-3))) (by norm_num at *; linarith)
    (by norm_num at *; linarith) (by norm_num at *; linarith) (by linarith)
  have s2 := Near.add s1 k2.1 (R := A + S + 1e-3) (E := E0 + E1 + E2 + 3 * (1.2e-16 * (A + S + 1e-3))) (by norm_num at *; linarith)
    (by norm_num at *; linarith) (by norm_num at *; linarith) (by linarith)
  have s3 := Near.add s2 k3.1 (R := A + S + 1e-3) (E := E) (by norm_num at *; linarith)
    (by norm_num at *; linarith) (by norm_num at *; linarith) (by norm_num at *; linarith)
  exact ⟨s3, by linarith⟩

section
variable {m x y h : F64 L} {M ξ η h' H γ ε δ X Y μ K E1 E2 E3 E : ℝ}

theorem scale_near (hm : Near m M 0) (hM0 : 1 ≤ M) (hM : M ≤ 8) (hx : Near x ξ ε) (bx : |ξ| ≤ X) (hε : ε ≤ 1e-6) (hX : X ≤ 10)
    (hX1 : 1e-3 ≤ X) : Near (m * x) (M * ξ) (M * ε + 1.21e-16 * (M * X + 1e-4)) ∧ |M * ξ| ≤ M * X := by
  have h0 := hx.nonneg
  have hM' : |M| ≤ M := by rw [abs_of_nonneg (by linarith)]
  have hMX : M * X ≤ 80 := by nlinarith
  have hMX0 : X ≤ M * X := by nlinarith
  have hMe : M * ε ≤ 1e-5 := by norm_num at *; nlinarith
  have hMe0 : 0 ≤ M * ε := by positivity
  refine ⟨Near.mul hm hx (A := M) (B := X) (R := M * X + 1e-4) hM' bx ?_ ?_ ?_ ?_, ?_⟩
  · norm_num at *; linarith
  · norm_num at *; linarith
  · norm_num at *; linarith
  · norm_num at *; linarith
  · rw [abs_mul]
    exact mul_le_mul hM' bx (abs_nonneg _) (by linarith)

theorem mul3_near {s c : F64 L} {S C : ℝ} (hh : Near h h' γ) (hH : |h'| ≤ H) (hs : Near s S E1) (bs : |S| ≤ 1) (hc : Near c C E2)
    (bc : |C| ≤ K) (hH1 : 1e-40 ≤ H) (hH2 : H ≤ 1) (hK0 : 1 ≤ K) (hK1 : K ≤ 1e5)
    (hE3 : H * E1 + γ + γ * E1 + 1.2e-16 * (H + (H * E1 + γ + γ * E1)) ≤ E3)
    (hE : H * E2 + K * E3 + E3 * E2 + 1.2e-16 * (H * K + (H * E2 + K * E3 + E3 * E2)) ≤ E) (hE4 : E ≤ 1) :
    Near (h * s * c) (h' * S * C) E ∧ |h' * S * C| ≤ H * K := by
  have p1 := hh.nonneg
  have p3 := hs.nonneg
  have p4 := hc.nonneg
  have hH0 : 0 ≤ H := (abs_nonneg _).trans hH
  have q1 : 0 ≤ H * E1 + γ + γ * E1 := by positivity
  have b5 : |h' * S| ≤ H := by
    rw [abs_mul]
    have := mul_le_mul hH bs (abs_nonneg _) ((abs_nonneg _).trans hH)
    rwa [mul_one] at this
  have u3 : H * E1 + γ + γ * E1 ≤ E3 := by
    refine le_trans ?_ hE3
    have : 0 ≤ 1.2e-16 * (H + (H * E1 + γ + γ * E1)) := by positivity
    linarith
  have p3' : 0 ≤ E3 := q1.trans u3
  have q2 : 0 ≤ H * E2 + K * E3 + E3 * E2 := by positivity
  have u4 : H * E2 + K * E3 + E3 * E2 ≤ 1 := by
    refine le_trans ?_ (hE.trans hE4)
    have : 0 ≤ 1.2e-16 * (H * K + (H * E2 + K * E3 + E3 * E2)) := by positivity
    linarith
  have u5 : E3 ≤ 1 := by
    have : E3 ≤ K * E3 := le_mul_of_one_le_left p3' hK0
    have : 0 ≤ H * E2 := by positivity
    have : 0 ≤ E3 * E2 := by positivity
    linarith
  have r1 : H + (H * E1 + γ + γ * E1) ≤ 1e20 := by
    norm_num at hH2 ⊢
    linarith
  have k5 := Near.mul hh hs (A := H) (B := 1) (R := H + (H * E1 + γ + γ * E1)) (E := E3) hH bs (by rw [mul_one, one_mul])
    (by norm_num at hH1 ⊢; linarith) (r1.trans (by norm_num)) (by rw [one_mul]; exact hE3)
  have hHK : H * K ≤ 1 * 1e5 := mul_le_mul hH2 hK1 (by linarith) zero_le_one
  have hHK0 : H ≤ H * K := le_mul_of_one_le_right hH0 hK0
  have r2 : H * K + (H * E2 + K * E3 + E3 * E2) ≤ 1e20 := by
    norm_num at hHK ⊢
    linarith
  refine ⟨Near.mul k5 hc (A := H) (B := K) (R := H * K + (H * E2 + K * E3 + E3 * E2)) b5 bc le_rfl ?_ (r2.trans (by norm_num)) hE, ?_⟩
  · norm_num at hH1 ⊢; linarith
  · rw [abs_mul]
    exact mul_le_mul b5 bc (abs_nonneg _) hH0

/-- One term of the real part of the series. -/
theorem sc_term (hL : AccurateProjection L) (hm : Near m M 0) (hM0 : 1 ≤ M) (hM : M ≤ 8) (hh : Near h h' γ) (hH : |h'| ≤ H)
    (hx : Near x ξ ε) (hy : Near y η δ) (bx : |ξ| ≤ X) (bY : |η| ≤ Y) (hX : X ≤ 3.9) (hX1 : 1e-3 ≤ X) (hY : M * Y + 1e-3 ≤ μ)
    (hY1 : 1e-3 ≤ Y) (hμ : μ ≤ 10) (hK : Real.cosh μ ≤ K ∧ Real.sinh μ ≤ K) (hε : ε ≤ 1e-6) (hδ : δ ≤ 1e-6) (hH1 : 1e-40 ≤ H)
    (hH2 : H ≤ 1) (hK1 : K ≤ 1e5)
    (hE1 : M * ε + 1.21e-16 * (M * X + 1e-4) + 2.3e-16 ≤ E1)
    (hE2 : K * (M * δ + 1.21e-16 * (M * Y + 1e-4)) + 4.5e-16 * (K + K * (M * δ + 1.21e-16 * (M * Y + 1e-4))) + 1e-70 ≤ E2)
    (hE3 : H * E1 + γ + γ * E1 + 1.2e-16 * (H + (H * E1 + γ + γ * E1)) ≤ E3)
    (hE : H * E2 + K * E3 + E3 * E2 + 1.2e-16 * (H * K + (H * E2 + K * E3 + E3 * E2)) ≤ E) (hE4 : E ≤ 1) :
    Near (h * Flt.sin (m * x) * Flt.cosh (m * y)) (h' * Real.sin (M * ξ) * Real.cosh (M * η)) E ∧
      |h' * Real.sin (M * ξ) * Real.cosh (M * η)| ≤ H * K := by
  have hK0 : 1 ≤ K := (Real.one_le_cosh μ).trans hK.1
  have hMY0 : Y ≤ M * Y := by nlinarith
  have hMe : M * ε ≤ 1e-5 := by have := hx.nonneg; norm_num at hε ⊢; nlinarith
  have hMd : M * δ ≤ 1e-5 := by have := hy.nonneg; norm_num at hδ ⊢; nlinarith
  have hMX : M * X ≤ 31.2 := by norm_num at hX hX1 ⊢; nlinarith
  obtain ⟨k1, b1⟩ := scale_near hm hM0 hM hx bx hε (hX.trans (by norm_num)) hX1
  obtain ⟨k2, b2⟩ := scale_near hm hM0 hM hy bY hδ (by norm_num at hY hμ ⊢; linarith) hY1
  have hMY1 : M * Y ≤ 10 := by norm_num at hY; linarith
  have k3 := Near.sin' hL k1 (E := E1) (by norm_num at b1 hMX hMe ⊢; linarith) hE1
  have b4 : |Real.cosh (M * η)| ≤ K := by
    rw [abs_of_pos (Real.cosh_pos _)]
    exact (cosh_mono (by norm_num at hY; linarith)).trans hK.1
  have k4 := Near.cosh hL k2 (m := μ) (K := K) (A := K) (E := E2) (by norm_num at hY hMY1 hMd b2 ⊢; linarith)
    (hμ.trans (by norm_num)) hK.2 ((le_abs_self _).trans b4) hE2
  exact mul3_near hh hH k3 (Real.abs_sin_le_one _) k4 b4 hH1 hH2 hK0 hK1 hE3 hE hE4

/-- One term of the imaginary part of the series. -/
theorem cs_term (hL : AccurateProjection L) (hm : Near m M 0) (hM0 : 1 ≤ M) (hM : M ≤ 8) (hh : Near h h' γ) (hH : |h'| ≤ H)
    (hx : Near x ξ ε) (hy : Near y η δ) (bx : |ξ| ≤ X) (bY : |η| ≤ Y) (hX : X ≤ 3.9) (hX1 : 1e-3 ≤ X) (hY : M * Y + 1e-3 ≤ μ)
    (hY1 : 1e-3 ≤ Y) (hμ : μ ≤ 10) (hK : Real.cosh μ ≤ K ∧ Real.sinh μ ≤ K) (hε : ε ≤ 1e-6) (hδ : δ ≤ 1e-6) (hH1 : 1e-40 ≤ H)
    (hH2 : H ≤ 1) (hK1 : K ≤ 1e5)
    (hE1 : M * ε + 1.21e-16 * (M * X + 1e-4) + 2.3e-16 ≤ E1)
    (hE2 : K * (M * δ + 1.21e-16 * (M * Y + 1e-4)) + 4.5e-16 * (K + K * (M * δ + 1.21e-16 * (M * Y + 1e-4))) + 1e-70 ≤ E2)
    (hE3 : H * E1 + γ + γ * E1 + 1.2e-16 * (H + (H * E1 + γ + γ * E1)) ≤ E3)
    (hE : H * E2 + K * E3 + E3 * E2 + 1.2e-16 * (H * K + (H * E2 + K * E3 + E3 * E2)) ≤ E) (hE4 : E ≤ 1) :
    Near (h * Flt.cos (m * x) * Flt.sinh (m * y)) (h' * Real.cos (M * ξ) * Real.sinh (M * η)) E ∧
      |h' * Real.cos (M * ξ) * Real.sinh (M * η)| ≤ H * K := by
  have hK0 : 1 ≤ K := (Real.one_le_cosh μ).trans hK.1
  have hMY0 : Y ≤ M * Y := by nlinarith
  have hMe : M * ε ≤ 1e-5 := by have := hx.nonneg; norm_num at hε ⊢; nlinarith
  have hMd : M * δ ≤ 1e-5 := by have := hy.nonneg; norm_num at hδ ⊢; nlinarith
  have hMX : M * X ≤ 31.2 := by norm_num at hX hX1 ⊢; nlinarith
  obtain ⟨k1, b1⟩ := scale_near hm hM0 hM hx bx hε (hX.trans (by norm_num)) hX1
  obtain ⟨k2, b2⟩ := scale_near hm hM0 hM hy bY hδ (by norm_num at hY hμ ⊢; linarith) hY1
  have hMY1 : M * Y ≤ 10 := by norm_num at hY; linarith
  have k3 := Near.cos' hL k1 (E := E1) (by norm_num at b1 hMX hMe ⊢; linarith) hE1
  have b4 : |Real.sinh (M * η)| ≤ K := (abs_sinh_mono (by norm_num at hY; linarith)).trans hK.2
  have k4 := Near.sinh hL k2 (m := μ) (K := K) (A := K) (E := E2) (by norm_num at hY hMY1 hMd b2 ⊢; linarith)
    (hμ.trans (by norm_num)) hK.1 b4 hE2
  exact mul3_near hh hH k3 (Real.abs_cos_le_one _) k4 b4 hH1 hH2 hK0 hK1 hE3 hE hE4

end

/-! ### The series of the forward projection -/

theorem fwd_sc (hL : AccurateProjection L) {x y h0 h1 h2 h3 : F64 L} {ξ η h0' h1' h2' h3' : ℝ}
    (k0 : Near h0 h0' 3.1e-17 ∧ |h0'| ≤ 4.4e-2)
    (k1 : Near h1 h1' 2.7e-18 ∧ |h1'| ≤ 2.1e-3)
    (k2 : Near h2 h2' 2.9e-19 ∧ |h2'| ≤ 1.6e-4)
    (k3 : Near h3 h3' 2.7e-20 ∧ |h3'| ≤ 1.2e-5)
    (hx : Near x ξ 2.7e-14) (hy : Near y η 8.6e-15) (bx : |ξ| ≤ 1.6) (bY : |η| ≤ 0.63) :
    Near (TransverseMercator.sumSinCosh h0 h1 h2 h3 x y) (sSC h0' h1' h2' h3' ξ η) 2.1e-14 ∧ |sSC h0' h1' h2' h3' ξ η| ≤ 0.214 := by
  have t0 := sc_term hL near_2 (by norm_num) (by norm_num) k0.1 k0.2 hx hy bx bY (by norm_num) (by norm_num) (μ := (2 : ℕ))
    (by norm_num) (by norm_num) (by norm_num) (hyp_le (K := 4.195) (by norm_num)) (by norm_num) (by norm_num) (by norm_num) (by norm_num)
    (by norm_num) (E1 := 5.5e-14) (E2 := 7.5e-14) (E3 := 2.5e-15) (E := 1.4e-14) (by norm_num) (by norm_num) (by norm_num) (by norm_num) (by norm_num)
  have t1 := sc_term hL near_4 (by norm_num) (by norm_num) k1.1 k1.2 hx hy bx bY (by norm_num) (by norm_num) (μ := (3 : ℕ))
    (by norm_num) (by norm_num) (by norm_num) (hyp_le (K := 1.055e1) (by norm_num)) (by norm_num) (by norm_num) (by norm_num) (by norm_num)
    (by norm_num) (E1 := 1.1e-13) (E2 := 3.8e-13) (E3 := 2.4e-16) (E := 3.4e-15) (by norm_num) (by norm_num) (by norm_num) (by norm_num) (by norm_num)
  have t2 := sc_term hL near_6 (by norm_num) (by norm_num) k2.1 k2.2 hx hy bx bY (by norm_num) (by norm_num) (μ := (4 : ℕ))
    (by norm_num) (by norm_num) (by norm_num) (hyp_le (K := 2.78e1) (by norm_num)) (by norm_num) (by norm_num) (by norm_num) (by norm_num)
    (by norm_num) (E1 := 1.7e-13) (E2 := 1.5e-12) (E3 := 2.8e-17) (E := 1.1e-15) (by norm_num) (by norm_num) (by norm_num) (by norm_num) (by norm_num)
  have t3 := sc_term hL near_8 (by norm_num) (by norm_num) k3.1 k3.2 hx hy bx bY (by norm_num) (by norm_num) (μ := (6 : ℕ))
    (by norm_num) (by norm_num) (by norm_num) (hyp_le (K := 2.023e2) (by norm_num)) (by norm_num) (by norm_num) (by norm_num) (by norm_num)
    (by norm_num) (E1 := 2.2e-13) (E2 := 1.5e-11) (E3 := 2.7e-18) (E := 7.3e-16) (by norm_num) (by norm_num) (by norm_num) (by norm_num) (by norm_num)
  exact sum4_near t0 t1 t2 t3 (S := 2e-14) (by norm_num) (by norm_num) (by norm_num) (by norm_num) (by norm_num)

theorem fwd_cs (hL : AccurateProjection L) {x y h0 h1 h2 h3 : F64 L} {ξ η h0' h1' h2' h3' : ℝ}
    (k0 : Near h0 h0' 3.1e-17 ∧ |h0'| ≤ 4.4e-2)
    (k1 : Near h1 h1' 2.7e-18 ∧ |h1'| ≤ 2.1e-3)
    (k2 : Near h2 h2' 2.9e-19 ∧ |h2'| ≤ 1.6e-4)
    (k3 : Near h3 h3' 2.7e-20 ∧ |h3'| ≤ 1.2e-5)
    (hx : Near x ξ 2.7e-14) (hy : Near y η 8.6e-15) (bx : |ξ| ≤ 1.6) (bY : |η| ≤ 0.63) :
    Near (TransverseMercator.sumCosSinh h0 h1 h2 h3 x y) (sCS h0' h1' h2' h3' ξ η) 2.1e-14 ∧ |sCS h0' h1' h2' h3' ξ η| ≤ 0.214 := by
  have t0 := cs_term hL near_2 (by norm_num) (by norm_num) k0.1 k0.2 hx hy bx bY (by norm_num) (by norm_num) (μ := (2 : ℕ))
    (by norm_num) (by norm_num) (by norm_num) (hyp_le (K := 4.195) (by norm_num)) (by norm_num) (by norm_num) (by norm_num) (by norm_num)
    (by norm_num) (E1 := 5.5e-14) (E2 := 7.5e-14) (E3 := 2.5e-15) (E := 1.4e-14) (by norm_num) (by norm_num) (by norm_num) (by norm_num) (by norm_num)
  have t1 := cs_term hL near_4 (by norm_num) (by norm_num) k1.1 k1.2 hx hy bx bY (by norm_num) (by norm_num) (μ := (3 : ℕ))
    (by norm_num) (by norm_num) (by norm_num) (hyp_le (K := 1.055e1) (by norm_num)) (by norm_num) (by norm_num) (by norm_num) (by norm_num)
    (by norm_num) (E1 := 1.1e-13) (E2 := 3.8e-13) (E3 := 2.4e-16) (E := 3.4e-15) (by norm_num) (by norm_num) (by norm_num) (by norm_num) (by norm_num)
  have t2 := cs_term hL near_6 (by norm_num) (by norm_num) k2.1 k2.2 hx hy bx bY (by norm_num) (by norm_num) (μ := (4 : ℕ))
    (by norm_num) (by norm_num) (by norm_num) (hyp_le (K := 2.78e1) (by norm_num)) (by norm_num) (by norm_num) (by norm_num) (by norm_num)
    (by norm_num) (E1 := 1.7e-13) (E2 := 1.5e-12) (E3 := 2.8e-17) (E := 1.1e-15) (by norm_num) (by norm_num) (by norm_num) (by norm_num) (by norm_num)
  have t3 := cs_term hL near_8 (by norm_num) (by norm_num) k3.1 k3.2 hx hy bx bY (by norm_num) (by norm_num) (μ := (6 : ℕ))
    (by norm_num) (by norm_num) (by norm_num) (hyp_le (K := 2.023e2) (by norm_num)) (by norm_num) (by norm_num) (by norm_num) (by norm_num)
    (by norm_num) (E1 := 2.2e-13) (E2 := 1.5e-11) (E3 := 2.7e-18) (E := 7.3e-16) (by norm_num) (by norm_num) (by norm_num) (by norm_num) (by norm_num)
  exact sum4_near t0 t1 t2 t3 (S := 2e-14) (by norm_num) (by norm_num) (by norm_num) (by norm_num) (by norm_num)


end Geo
