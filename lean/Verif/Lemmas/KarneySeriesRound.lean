import Verif.Lemmas.KarneyRound
import Verif.Lemmas.Karney
import Verif.Spec.Karney

/-! The series of the Karney solver in IEEE arithmetic. -/

namespace Geo
open XR Spec KarneyGeodesicSolver
variable {L : Libm}

/-! ### Coefficients -/

/-- Doubles within half a unit in the last place of 0.5 of rational coefficients. -/
def coefOk : List B64 → List ℚ → Bool
  | [], [] => true
  | c :: cs, q :: qs => c.isFinite && decide (|c.toQ - q| ≤ 6e-17) && decide (|q| ≤ 1) && coefOk cs qs
  | _, _ => false

theorem coef_of_ok : ∀ {cs : List B64} {qs : List ℚ}, coefOk cs qs = true → CoefNear (L := L) 6e-17 1 cs (qs.map (fun q : ℚ => (q : ℝ)))
  | [], [], _ => .nil
  | c :: cs, q :: qs, h => by
    simp only [coefOk, Bool.and_eq_true, decide_eq_true_eq] at h
    obtain ⟨⟨⟨h1, h2⟩, h3⟩, h4⟩ := h
    refine .cons (const_near (q := q) ⟨h1, h2⟩ rfl (by norm_num)) ?_ (coef_of_ok h4)
    have := cast_abs_le h3
    push_cast at this
    exact this

/-- A quotient of integers, as a double. -/
abbrev bq (p q : ℚ) : B64 := B64.div (B64.lit p) (B64.lit q)
/-- A negative quotient of integers, as a double. -/
abbrev bn (p q : ℚ) : B64 := B64.div (B64.neg (B64.lit p)) (B64.lit q)
/-- The double 0. -/
abbrev b0 : B64 := B64.lit 0

theorem pa1_ok : coefOk [bq 1 4, b0, bq 1 64, b0, bq 1 256] [1 / 4, 0, 1 / 64, 0, 1 / 256] = true := by decide +kernel

theorem c1_ok : coefOk [B64.neg (B64.lit 0.5), b0, bq 3 16, b0, bn 1 32, b0] [-1 / 2, 0, 3 / 16, 0, -1 / 32, 0] = true ∧
    coefOk [bn 1 16, b0, bq 1 32, b0, bn 9 2048] [-1 / 16, 0, 1 / 32, 0, -9 / 2048] = true ∧
    coefOk [b0, bn 1 48, b0, bq 3 256, b0] [0, -1 / 48, 0, 3 / 256, 0] = true ∧
    coefOk [b0, b0, bn 5 512, b0, bq 3 512] [0, 0, -5 / 512, 0, 3 / 512] = true ∧
    coefOk [b0, b0, b0, bn 7 1280, b0] [0, 0, 0, -7 / 1280, 0] = true ∧
    coefOk [b0, b0, b0, b0, bn 7 2048] [0, 0, 0, 0, -7 / 2048] = true := by decide +kernel

theorem cp1_ok : coefOk [bq 1 2, b0, bn 9 32, b0, bq 205 1536, b0] [1 / 2, 0, -9 / 32, 0, 205 / 1536, 0] = true ∧
    coefOk [bq 5 16, b0, bn 37 96, b0, bq 1335 4096] [5 / 16, 0, -37 / 96, 0, 1335 / 4096] = true ∧
    coefOk [b0, bq 29 96, b0, bn 75 128, b0] [0, 29 / 96, 0, -75 / 128, 0] = true ∧
    coefOk [b0, b0, bq 539 1536, b0, bn 2391 2560] [0, 0, 539 / 1536, 0, -2391 / 2560] = true ∧
    coefOk [b0, b0, b0, bq 3467 7680, b0] [0, 0, 0, 3467 / 7680, 0] = true ∧
    coefOk [b0, b0, b0, b0, bq 38081 61440] [0, 0, 0, 0, 38081 / 61440] = true := by decide +kernel

theorem a3_ok : coefOk [bq 1 2, bn 1 2] [1 / 2, -1 / 2] = true ∧ coefOk [bq 1 4, bq 1 8, bn 3 8] [1 / 4, 1 / 8, -3 / 8] = true ∧
    coefOk [bq 1 16, bq 3 16, bq 1 16] [1 / 16, 3 / 16, 1 / 16] = true ∧ coefOk [bq 3 64, bq 1 32] [3 / 64, 1 / 32] = true ∧
    coefOk [bn 3 128] [-3 / 128] = true := by decide +kernel

theorem c3_ok : coefOk [bq 1 4, bn 1 4] [1 / 4, -1 / 4] = true ∧ coefOk [bq 1 8, b0, bn 1 8] [1 / 8, 0, -1 / 8] = true ∧
    coefOk [bq 3 64, bq 3 64, bn 1 64] [3 / 64, 3 / 64, -1 / 64] = true ∧ coefOk [bq 5 128, bq 1 64] [5 / 128, 1 / 64] = true ∧
    coefOk [bq 3 128] [3 / 128] = true ∧
    coefOk [bq 1 16, bn 3 32, bq 1 32] [1 / 16, -3 / 32, 1 / 32] = true ∧ coefOk [bq 3 64, bn 1 32, bn 3 64] [3 / 64, -1 / 32, -3 / 64] = true ∧
    coefOk [bq 3 128, bq 1 128] [3 / 128, 1 / 128] = true ∧ coefOk [bq 5 256] [5 / 256] = true ∧
    coefOk [bq 5 192, bn 3 64, bq 5 192] [5 / 192, -3 / 64, 5 / 192] = true ∧ coefOk [bq 3 128, bn 5 192] [3 / 128, -5 / 192] = true ∧
    coefOk [bq 7 512] [7 / 512] = true ∧ coefOk [bq 7 512, bn 7 256] [7 / 512, -7 / 256] = true ∧
    coefOk [bq 21 2560] [21 / 2560] = true := by decide +kernel

/-! ### The distance integral -/

theorem karneyA1_le {ε : ℝ} (h0 : 0 ≤ ε) (h1 : ε ≤ 0.0026) : 1 ≤ karneyA1 ε ∧ karneyA1 ε ≤ 1.00261 := by
  unfold karneyA1
  have e2 : ε ^ 2 ≤ 0.0026 ^ 2 := pow_le_pow_left₀ h0 h1 2
  have e4 : ε ^ 4 ≤ 0.0026 ^ 4 := pow_le_pow_left₀ h0 h1 4
  have e6 : ε ^ 6 ≤ 0.0026 ^ 6 := pow_le_pow_left₀ h0 h1 6
  have := pow_nonneg h0 2
  have := pow_nonneg h0 4
  have := pow_nonneg h0 6
  rw [le_div_iff₀ (by norm_num at h1; linarith), div_le_iff₀ (by norm_num at h1; linarith)]
  norm_num at *
  constructor <;> linarith

variable {x : F64 L} {ε : ℝ}

theorem A1_near (hx : Near x ε 3e-16) (h0 : 0 ≤ ε) (h1 : ε ≤ 0.0026) : Near (A1 x) (karneyA1 ε) 7e-16 := by
  have hX : |ε| ≤ 0.0026 := by rwa [abs_of_nonneg h0]
  obtain ⟨k1, k2⟩ := poly1_near hx hX (by norm_num) (by norm_num) (by norm_num) (by norm_num) (coef_of_ok (L := L) pa1_ok)
  have hb : |pev ε (0 :: List.map (fun q : ℚ => (q : ℝ)) [1 / 4, 0, 1 / 64, 0, 1 / 256]) * ε + 1| ≤ 1.001 := by
    refine (abs_add_le _ _).trans ?_
    rw [abs_mul]
    have := mul_le_mul k2 hX (abs_nonneg _) (by norm_num)
    norm_num at *
    linarith
  have k3 := Near.mulAdd k1 hx int_1 k2 hX (R := 1.0011) (E := 1.3e-16) (by norm_num at * <;> linarith) (by norm_num) (by norm_num) (by norm_num)
  rw [← fastEval_cons] at k3
  have k4 := Near.sub int_1 hx (R := 1.001) (E := 4.3e-16) (by
    have : |1 - ε| ≤ 1 := by rw [abs_le]; norm_num at *; constructor <;> linarith
    norm_num at *; linarith) (by norm_num) (by norm_num) (by norm_num)
  have e : pev ε (0 :: List.map (fun q : ℚ => (q : ℝ)) [1 / 4, 0, 1 / 64, 0, 1 / 256]) * ε + 1 = 1 + ε ^ 2 / 4 + ε ^ 4 / 64 + ε ^ 6 / 256 := by
    simp only [pev, List.map]
    push_cast
    ring
  rw [e] at k3
  obtain ⟨a1, a2⟩ := karneyA1_le h0 h1
  have hpos : 0 < 1 - ε := by norm_num at h1; linarith
  have hA : |1 + ε ^ 2 / 4 + ε ^ 4 / 64 + ε ^ 6 / 256| ≤ 1.00261 * (1 - ε) := by
    rw [abs_of_pos (by positivity)]
    rwa [karneyA1, div_le_iff₀ hpos] at a2
  exact Near.div' k3 k4 hA (by norm_num) (B := 0.9974) (by norm_num at * <;> linarith) (C := 0.997) (by norm_num) (by norm_num) (R := 1.003)
    (by norm_num) (by norm_num) (by norm_num) (by norm_num)

theorem sineSum_sinSum {c : ℕ → ℝ} (σ : ℝ) : sineSum c σ = sinSum (2 * σ) 1 [c 1, c 2, c 3, c 4, c 5, c 6] := by
  simp only [sineSum, Finset.sum_range_succ, Finset.sum_range_zero, sinSum]
  push_cast
  ring_nf

/-- `A (σ + ∑)`. -/
theorem series_near (hL : AccurateGeodesic L) {A s c0 c1 : F64 L} {a a' σ e E v1 : ℝ} {cs : List (F64 L)} {vs : List ℝ} (kA : Near A a 7e-16) (ha : |a| ≤ a')
    (ha' : a' ≤ 1.0028)
    (ks : Near s σ e) (hσ : |σ| ≤ 7.6) (he : e ≤ 1.15e-13) (h1 : Near c1 v1 3.1e-16) (h1' : |v1| ≤ 0.002634) (h : CoefNear 2e-18 7e-6 cs vs) (hl : cs.length ≤ 5)
    (hE : 1.014 * e + 1.65e-14 ≤ E) :
    Near (A * (s + clenshawSinSum (c0 :: c1 :: cs) (2 * s))) (a * (σ + sinSum (2 * σ) 1 (v1 :: vs))) E ∧ |a * (σ + sinSum (2 * σ) 1 (v1 :: vs))| ≤ 1.0028 * (|σ| + 0.0053) := by
  have e0 := ks.nonneg
  have k2 := Near.mul int_2 ks (A := 2) (B := 7.6) (R := 15.3) (E := 2 * e + 1.9e-15) (by norm_num) hσ (by norm_num at * <;> linarith) (by norm_num)
    (by norm_num) (by norm_num at * <;> linarith)
  obtain ⟨k3, k4⟩ := clenshaw_near hL.toAccurateProjection k2 (by rw [abs_mul]; norm_num at *; linarith) (by norm_num at * <;> linarith) h1 h1' h hl (c0 := c0)
  have hb := abs_add_le σ (sinSum (2 * σ) 1 (v1 :: vs))
  have k5 := Near.add ks k3 (R := 7.61) (E := 1.011 * e + 8.4e-15) (by norm_num at * <;> linarith) (by norm_num) (by norm_num) (by norm_num at * <;> linarith)
  have ha1 : |a| ≤ 1.0028 := ha.trans ha'
  refine ⟨Near.mul kA k5 ha1 (B := 7.606) (by norm_num at * <;> linarith) (R := 7.63) (by norm_num at * <;> linarith) (by norm_num) (by norm_num)
    (by norm_num at * <;> linarith), ?_⟩
  rw [abs_mul]
  exact mul_le_mul ha1 (hb.trans (by linarith)) (abs_nonneg _) (by norm_num)

theorem I1_near (hL : AccurateGeodesic L) (hx : Near x ε 3e-16) (h0 : 0 ≤ ε) (h1 : ε ≤ 0.0026) {s : F64 L} {σ e E : ℝ} (ks : Near s σ e) (hσ : |σ| ≤ 7.6)
    (he : e ≤ 1.15e-13) (hE : 1.014 * e + 1.65e-14 ≤ E) :
    Near (I1 x (A1 x) ⟨s⟩) (karneyI1 ε σ) E ∧ |karneyI1 ε σ| ≤ 1.0028 * (|σ| + 0.0053) := by
  have hX : |ε| ≤ 0.0026 := by rwa [abs_of_nonneg h0]
  obtain ⟨a1, a2⟩ := karneyA1_le h0 h1
  obtain ⟨o1, o2, o3, o4, o5, o6⟩ := c1_ok
  obtain ⟨p1, q1⟩ := poly1_near hx hX (by norm_num) (by norm_num) (by norm_num) (by norm_num) (coef_of_ok (L := L) o1)
  obtain ⟨p2, q2⟩ := poly2_near hx hX (by norm_num) (by norm_num) (by norm_num) (by norm_num) (coef_of_ok (L := L) o2)
  obtain ⟨p3, q3⟩ := poly2_near hx hX (by norm_num) (by norm_num) (by norm_num) (by norm_num) (coef_of_ok (L := L) o3)
  obtain ⟨p4, q4⟩ := poly2_near hx hX (by norm_num) (by norm_num) (by norm_num) (by norm_num) (coef_of_ok (L := L) o4)
  obtain ⟨p5, q5⟩ := poly2_near hx hX (by norm_num) (by norm_num) (by norm_num) (by norm_num) (coef_of_ok (L := L) o5)
  obtain ⟨p6, q6⟩ := poly2_near hx hX (by norm_num) (by norm_num) (by norm_num) (by norm_num) (coef_of_ok (L := L) o6)
  have k := series_near hL (A1_near hx h0 h1) (a' := 1.0028) (by rw [abs_of_nonneg (by linarith)]; norm_num at *; linarith) le_rfl ks hσ he p1 q1
    (.cons p2 q2 (.cons p3 q3 (.cons p4 q4 (.cons p5 q5 (.cons p6 q6 .nil))))) (by simp) hE (c0 := (Polynomial.mk [0, 0, 0, 0, 0, 0, 0]).fastEvalAt x)
  have e : ∀ v1 v2 v3 v4 v5 v6 : ℝ, v1 = karneyC1 ε 1 → v2 = karneyC1 ε 2 → v3 = karneyC1 ε 3 → v4 = karneyC1 ε 4 → v5 = karneyC1 ε 5 → v6 = karneyC1 ε 6 →
      karneyA1 ε * (σ + sinSum (2 * σ) 1 [v1, v2, v3, v4, v5, v6]) = karneyI1 ε σ := by
    intro v1 v2 v3 v4 v5 v6 h1 h2 h3 h4 h5 h6
    rw [karneyI1, sineSum_sinSum, h1, h2, h3, h4, h5, h6]
  rw [e] at k
  · exact k
  all_goals
    simp only [pev, List.map, karneyC1]
    push_cast
    ring

/-! ### The reverted series -/

theorem Near.sin_far (hL : AccurateGeodesic L) {x : F64 L} {r ε E : ℝ} (h : Near x r ε) (hr : |r| + ε ≤ 100) (hE : ε + 2.3e-16 ≤ E) :
    Near (Flt.sin x) (Real.sin r) E := by
  obtain ⟨f, k⟩ := hL.sin_far x h.1 (h.abs_le_rat (by push_cast; exact hr))
  refine ⟨f, ?_⟩
  have := abs_sub_le ((Flt.sin x : F64 L).toQ : ℝ) (Real.sin x.toQ) (Real.sin r)
  have := (abs_sin_sub_le x.toQ r).trans h.2
  norm_num at *
  linarith

theorem sig_arg (hL : AccurateGeodesic L) {t : F64 L} {τ e : ℝ} (k2 : Near (2 * t) (2 * τ) (2 * e + 1.82e-15)) (b2 : |2 * τ| ≤ 15) (e0 : 0 ≤ e)
    (he : e ≤ 1.1e-13) (k : ℚ) (hk : B64.isFinite (B64.lit k) = true ∧ (B64.lit k).toQ = k) (g1 : 1 ≤ k) (g2 : k ≤ 6) :
    Near (Flt.sin (2 * t * Flt.lit k)) (Real.sin (2 * τ * k)) (12 * e + 3e-14) := by
  have g1' : (1 : ℝ) ≤ k := by exact_mod_cast g1
  have g2' : (k : ℝ) ≤ 6 := by exact_mod_cast g2
  have g3 : |(k : ℝ)| ≤ 6 := by rw [abs_of_nonneg (by linarith)]; exact g2'
  have kk : Near (Flt.lit k : F64 L) (k : ℝ) 0 := lit_near (q := k) hk (by norm_num)
  have k3 := Near.mul k2 kk b2 g3 (R := 90.1) (E := 12 * e + 2.9e-14) (by norm_num at * <;> linarith)
    (by norm_num) (by norm_num) (by norm_num at * <;> linarith)
  refine Near.sin_far hL k3 ?_ (by norm_num at * <;> linarith)
  have : |2 * τ * (k : ℝ)| ≤ 90 := by
    rw [abs_mul]
    exact (mul_le_mul b2 g3 (abs_nonneg _) (by norm_num)).trans (by norm_num)
  norm_num at *
  linarith

theorem sig_term (hL : AccurateGeodesic L) {t : F64 L} {τ e : ℝ} (k2 : Near (2 * t) (2 * τ) (2 * e + 1.82e-15)) (b2 : |2 * τ| ≤ 15) (e0 : 0 ≤ e)
    (he : e ≤ 1.1e-13) {c : F64 L} {v : ℝ} (k : ℚ) (hc : Near c v 2e-18) (hv : |v| ≤ 7e-6)
    (hk : B64.isFinite (B64.lit k) = true ∧ (B64.lit k).toQ = k) (g1 : 1 ≤ k) (g2 : k ≤ 6) :
    Near (c * Flt.sin (2 * t * Flt.lit k)) (v * Real.sin (2 * τ * k)) (9e-5 * e + 2.3e-18) ∧ |v * Real.sin (2 * τ * k)| ≤ 7e-6 := by
  have sb := Real.abs_sin_le_one (2 * τ * k)
  refine ⟨Near.mul hc (sig_arg hL k2 b2 e0 he k hk g1 g2) hv sb (R := 7.1e-6) (by norm_num at * <;> linarith) (by norm_num) (by norm_num)
    (by norm_num at * <;> linarith), ?_⟩
  rw [abs_mul]
  exact (mul_le_mul hv sb (abs_nonneg _) (by norm_num)).trans (by norm_num)

theorem sig_step {u w : F64 L} {U W B E e : ℝ} (hu : Near u U E) (hU : |U| ≤ B) (hB : B ≤ 0.00267) (hw : Near w W (9e-5 * e + 2.3e-18))
    (hW : |W| ≤ 7e-6) (hE : E ≤ 1e-10) (he : e ≤ 1.1e-13) : Near (u + w) (U + W) (E + 9e-5 * e + 3e-18) ∧ |U + W| ≤ B + 7e-6 := by
  have := abs_add_le U W
  refine ⟨Near.add hu hw (R := 0.00268) (by norm_num at * <;> linarith) (by norm_num) (by norm_num) (by norm_num at * <;> linarith), by linarith⟩

theorem sig_sum (hL : AccurateGeodesic L) {t c1 c2 c3 c4 c5 c6 : F64 L} {v1 v2 v3 v4 v5 v6 τ e : ℝ} (ks : Near t τ e) (hτ : |τ| ≤ 7.5) (he : e ≤ 1.1e-13)
    (p1 : Near c1 v1 3.1e-16) (q1 : |v1| ≤ 0.002634) (p2 : Near c2 v2 2e-18) (q2 : |v2| ≤ 7e-6) (p3 : Near c3 v3 2e-18) (q3 : |v3| ≤ 7e-6)
    (p4 : Near c4 v4 2e-18) (q4 : |v4| ≤ 7e-6) (p5 : Near c5 v5 2e-18) (q5 : |v5| ≤ 7e-6) (p6 : Near c6 v6 2e-18) (q6 : |v6| ≤ 7e-6) :
    Near (0 + c1 * Flt.sin (2 * t * Flt.lit 1) + c2 * Flt.sin (2 * t * Flt.lit 2) + c3 * Flt.sin (2 * t * Flt.lit 3) +
      c4 * Flt.sin (2 * t * Flt.lit 4) + c5 * Flt.sin (2 * t * Flt.lit 5) + c6 * Flt.sin (2 * t * Flt.lit 6))
      (v1 * Real.sin (2 * τ * (1 : ℚ)) + v2 * Real.sin (2 * τ * (2 : ℚ)) + v3 * Real.sin (2 * τ * (3 : ℚ)) + v4 * Real.sin (2 * τ * (4 : ℚ)) +
        v5 * Real.sin (2 * τ * (5 : ℚ)) + v6 * Real.sin (2 * τ * (6 : ℚ))) (0.00576 * e + 3.5e-16) ∧
    |v1 * Real.sin (2 * τ * (1 : ℚ)) + v2 * Real.sin (2 * τ * (2 : ℚ)) + v3 * Real.sin (2 * τ * (3 : ℚ)) + v4 * Real.sin (2 * τ * (4 : ℚ)) +
        v5 * Real.sin (2 * τ * (5 : ℚ)) + v6 * Real.sin (2 * τ * (6 : ℚ))| ≤ 0.0027 := by
  have e0 := ks.nonneg
  have k2 := Near.mul int_2 ks (A := 2) (B := 7.5) (R := 15.1) (E := 2 * e + 1.82e-15) (by norm_num) hτ (by norm_num at * <;> linarith) (by norm_num)
    (by norm_num) (by norm_num at * <;> linarith)
  have b2 : |2 * τ| ≤ 15 := by rw [abs_mul]; norm_num at * <;> linarith
  have kk1 : Near (Flt.lit 1 : F64 L) ((1 : ℚ) : ℝ) 0 := int_1.congr (by norm_num)
  have a1 := Near.mul k2 kk1 b2 (B := 1) (by norm_num) (R := 15.1) (E := 2 * e + 3.7e-15) (by norm_num at * <;> linarith) (by norm_num) (by norm_num)
    (by norm_num at * <;> linarith)
  have a2 := Near.sin_far hL a1 (E := 2 * e + 4e-15) (by rw [Rat.cast_one, mul_one]; norm_num at * <;> linarith) (by norm_num at * <;> linarith)
  have sb1 := Real.abs_sin_le_one (2 * τ * (1 : ℚ))
  have t1 := Near.mul p1 a2 q1 sb1 (R := 0.00264) (E := 0.0053 * e + 3.3e-16) (by norm_num at * <;> linarith) (by norm_num) (by norm_num) (by norm_num at * <;> linarith)
  have c1 : |v1 * Real.sin (2 * τ * (1 : ℚ))| ≤ 0.002634 := by
    rw [abs_mul]
    exact (mul_le_mul q1 sb1 (abs_nonneg _) (by norm_num)).trans (by norm_num)
  obtain ⟨t2, c2⟩ := sig_term hL k2 b2 e0 he 2 p2 q2 (by decide +kernel) (by norm_num) (by norm_num)
  obtain ⟨t3, c3⟩ := sig_term hL k2 b2 e0 he 3 p3 q3 (by decide +kernel) (by norm_num) (by norm_num)
  obtain ⟨t4, c4⟩ := sig_term hL k2 b2 e0 he 4 p4 q4 (by decide +kernel) (by norm_num) (by norm_num)
  obtain ⟨t5, c5⟩ := sig_term hL k2 b2 e0 he 5 p5 q5 (by decide +kernel) (by norm_num) (by norm_num)
  obtain ⟨t6, c6⟩ := sig_term hL k2 b2 e0 he 6 p6 q6 (by decide +kernel) (by norm_num) (by norm_num)
  have z1 := Near.add zero_near t1 (R := 0.00264) (E := 0.0053 * e + 3.31e-16) (by rw [zero_add]; norm_num at * <;> linarith) (by norm_num) (by norm_num)
    (by norm_num at * <;> linarith)
  rw [zero_add] at z1
  clear p1 p2 p3 p4 p5 p6 a1 a2 k2 kk1
  obtain ⟨s2, d2⟩ := sig_step z1 c1 (by norm_num) t2 c2 (by norm_num at he ⊢ <;> linarith) he
  obtain ⟨s3, d3⟩ := sig_step s2 d2 (by norm_num) t3 c3 (by norm_num at he ⊢ <;> linarith) he
  obtain ⟨s4, d4⟩ := sig_step s3 d3 (by norm_num) t4 c4 (by norm_num at he ⊢ <;> linarith) he
  obtain ⟨s5, d5⟩ := sig_step s4 d4 (by norm_num) t5 c5 (by norm_num at he ⊢ <;> linarith) he
  obtain ⟨s6, d6⟩ := sig_step s5 d5 (by norm_num) t6 c6 (by norm_num at he ⊢ <;> linarith) he
  exact ⟨s6.mono (by norm_num <;> linarith), d6.trans (by norm_num)⟩

theorem Sigma_near (hL : AccurateGeodesic L) (hx : Near x ε 3e-16) (h0 : 0 ≤ ε) (h1 : ε ≤ 0.0026) {t : F64 L} {τ e E : ℝ} (ks : Near t τ e) (hτ : |τ| ≤ 7.5)
    (he : e ≤ 1.1e-13) (hE : 1.006 * e + 1.4e-15 ≤ E) :
    Near (KarneyGeodesicSolver.Sigma x ⟨t⟩).rad (karneySigma ε τ) E ∧ |karneySigma ε τ| ≤ |τ| + 0.0027 := by
  have hX : |ε| ≤ 0.0026 := by rwa [abs_of_nonneg h0]
  obtain ⟨o1, o2, o3, o4, o5, o6⟩ := cp1_ok
  obtain ⟨p1, q1⟩ := poly1_near hx hX (by norm_num) (by norm_num) (by norm_num) (by norm_num) (coef_of_ok (L := L) o1)
  obtain ⟨p2, q2⟩ := poly2_near hx hX (by norm_num) (by norm_num) (by norm_num) (by norm_num) (coef_of_ok (L := L) o2)
  obtain ⟨p3, q3⟩ := poly2_near hx hX (by norm_num) (by norm_num) (by norm_num) (by norm_num) (coef_of_ok (L := L) o3)
  obtain ⟨p4, q4⟩ := poly2_near hx hX (by norm_num) (by norm_num) (by norm_num) (by norm_num) (coef_of_ok (L := L) o4)
  obtain ⟨p5, q5⟩ := poly2_near hx hX (by norm_num) (by norm_num) (by norm_num) (by norm_num) (coef_of_ok (L := L) o5)
  obtain ⟨p6, q6⟩ := poly2_near hx hX (by norm_num) (by norm_num) (by norm_num) (by norm_num) (coef_of_ok (L := L) o6)
  obtain ⟨s6, d6⟩ := sig_sum hL ks hτ he p1 q1 p2 q2 p3 q3 p4 q4 p5 q5 p6 q6
  clear p1 q1 p2 q2 p3 q3 p4 q4 p5 q5 p6 q6 o1 o2 o3 o4 o5 o6
  have eS : karneySigma ε τ = τ + sineSum (karneyC1' ε) τ := rfl
  have eq : ∀ v1 v2 v3 v4 v5 v6 : ℝ, v1 = karneyC1' ε 1 → v2 = karneyC1' ε 2 → v3 = karneyC1' ε 3 → v4 = karneyC1' ε 4 → v5 = karneyC1' ε 5 → v6 = karneyC1' ε 6 →
      v1 * Real.sin (2 * τ * (1 : ℚ)) + v2 * Real.sin (2 * τ * (2 : ℚ)) + v3 * Real.sin (2 * τ * (3 : ℚ)) + v4 * Real.sin (2 * τ * (4 : ℚ)) +
        v5 * Real.sin (2 * τ * (5 : ℚ)) + v6 * Real.sin (2 * τ * (6 : ℚ)) = sineSum (karneyC1' ε) τ := by
    intro v1 v2 v3 v4 v5 v6 h1 h2 h3 h4 h5 h6
    rw [h1, h2, h3, h4, h5, h6]
    simp only [sineSum, Finset.sum_range_succ, Finset.sum_range_zero]
    push_cast
    ring_nf
  rw [eq] at s6 d6
  · have e0 := ks.nonneg
    have hb := abs_add_le τ (sineSum (karneyC1' ε) τ)
    have s7 := Near.add ks (rad_near s6) (R := 7.51) (E := E) (by norm_num at * <;> linarith) (by norm_num) (by norm_num) (by norm_num at hE ⊢ <;> linarith)
    exact ⟨s7, by rw [eS]; linarith⟩
  all_goals
    simp only [pev, List.map, karneyC1']
    push_cast
    ring

end Geo
