import Verif.Lemmas.KarneySeries
import Mathlib.Tactic.IntervalCases

/-!
The error of the series of Karney's method: the distance integral, its reversion and the longitude integral.
-/

namespace Geo.Ser.Kar

/-! ### What the computation shows -/

open Geo.Spec

theorem checks4 : ((Mod.exact (ser C1 sinK 6)).co.head?.all Co.isZero && decide ((Mod.exact (ser C1 sinK 6)).slope 7 r0 1 ≤ 1) &&
    DM.co.head?.all Co.isZero && decide (DM.slope 7 r0 1 ≤ 1)) = true := by decide +kernel

/-- The parameter `ε` and the angle `2 σ`. -/
noncomputable def env {ε : ℝ} (h0 : 0 ≤ ε) (h1 : ε ≤ 1 / 100) (σ : ℝ) : Env ℝ r0 1 :=
  realEnv ε (2 * σ) (by rw [abs_of_nonneg h0]; norm_num [r0]; linarith)

section
variable {ε : ℝ} (h0 : 0 ≤ ε) (h1 : ε ≤ 1 / 100) (σ : ℝ)

theorem env_ε : (env h0 h1 σ).ε = ε := rfl
theorem env_C (k : ℕ) : (env h0 h1 σ).C k = Real.cos (k * (2 * σ)) := rfl
theorem env_S (k : ℕ) : (env h0 h1 σ).S k = Real.sin (k * (2 * σ)) := rfl

theorem sv_sin (f : ℕ → List ℚ) : sv (env h0 h1 σ) (ser f sinK 6) = sineSum (fun k => qeval ε (f k)) σ := by
  rw [sv_ser, sineSum]
  refine Finset.sum_congr rfl fun k _ => ?_
  rw [cv_sinK, env_ε, env_S]
  push_cast; ring_nf

theorem qeval_map (x : ℝ) (c : ℚ) : ∀ l : List ℚ, qeval x (l.map (c * ·)) = c * qeval x l
  | [] => by simp [qeval]
  | q :: l => by simp only [List.map_cons, qeval, qeval_map x c l]; push_cast; ring

theorem sv_cos (f : ℕ → List ℚ) : sv (env h0 h1 σ) (ser (dbl f) cosK 6) =
    ∑ k ∈ Finset.range 6, 2 * (k + 1) * qeval ε (f (k + 1)) * Real.cos (2 * (k + 1) * σ) := by
  rw [sv_ser]
  refine Finset.sum_congr rfl fun k _ => ?_
  rw [cv_cosK, env_ε, env_C, dbl, qeval_map]
  push_cast; ring_nf

end

theorem qeval_C1 (ε : ℝ) (k : ℕ) : qeval ε (C1 k) = karneyC1 ε k := by
  unfold C1 karneyC1
  split <;> simp [qeval] <;> ring

theorem qeval_C1p (ε : ℝ) (k : ℕ) : qeval ε (C1p k) = karneyC1' ε k := by
  unfold C1p karneyC1'
  split <;> simp [qeval] <;> ring

theorem qeval_A1 {ε : ℝ} (h : ε < 1) : qeval ε A1 = (1 - ε) * karneyA1 ε := by
  have : 1 - ε ≠ 0 := by linarith
  rw [karneyA1]
  field_simp
  simp [qeval, A1]; ring

theorem qeval_A3 (n ε : ℝ) : karneyA3 n ε = qeval ε (A3 0) + n * qeval ε (A3 1) + n ^ 2 * qeval ε (A3 2) := by
  simp [qeval, A3, karneyA3]; ring

theorem qeval_C3 (n ε : ℝ) {k : ℕ} (h1 : 1 ≤ k) (h6 : k ≤ 6) :
    karneyC3 n ε k = qeval ε (C3 0 k) + n * qeval ε (C3 1 k) + n ^ 2 * qeval ε (C3 2 k) := by
  interval_cases k <;> simp [qeval, C3, karneyC3] <;> ring

/-- The derivative of a sum of sines. -/
noncomputable def cosSum (c : ℕ → ℝ) (x : ℝ) : ℝ :=
  ∑ k ∈ Finset.range 6, 2 * (k + 1) * c (k + 1) * Real.cos (2 * (k + 1) * x)

theorem sineSum_deriv (c : ℕ → ℝ) (x : ℝ) : HasDerivAt (sineSum c) (cosSum c x) x := by
  unfold sineSum cosSum
  refine HasDerivAt.fun_sum fun k _ => ?_
  have := ((((hasDerivAt_id x).const_mul (2 * ((k : ℝ) + 1))).sin).const_mul (c (k + 1)))
  refine HasDerivAt.congr_deriv this ?_
  simp; ring

/-- The square root of which the distance is the integral. -/
noncomputable def root (ε σ : ℝ) : ℝ := Real.sqrt (1 - 2 * ε * Real.cos (2 * σ) + ε ^ 2)

theorem root_arg {ε : ℝ} (h0 : 0 ≤ ε) (σ : ℝ) : (1 - ε) ^ 2 ≤ 1 - 2 * ε * Real.cos (2 * σ) + ε ^ 2 := by
  have := Real.cos_le_one (2 * σ)
  nlinarith

theorem root_ge {ε : ℝ} (h0 : 0 ≤ ε) (σ : ℝ) : 1 - ε ≤ root ε σ := Real.le_sqrt_of_sq_le (root_arg h0 σ)

theorem root_sq {ε : ℝ} (h0 : 0 ≤ ε) (σ : ℝ) : root ε σ ^ 2 = 1 - 2 * ε * Real.cos (2 * σ) + ε ^ 2 :=
  Real.sq_sqrt ((sq_nonneg _).trans (root_arg h0 σ))

section
variable {ε : ℝ} (h0 : 0 ≤ ε) (h1 : ε ≤ 1 / 100) (σ : ℝ)

/-- The derivative of the distance series. -/
noncomputable def pR (ε σ : ℝ) : ℝ := (1 - ε) * karneyA1 ε * (1 + cosSum (karneyC1 ε) σ)

include h0 h1

theorem is_p : Is 7 (env h0 h1 σ) pM (pR ε σ) := by
  have i1 : Is 7 (env h0 h1 σ) oneM (1 : ℝ) := (Is.const _ _).congr (by rw [cv_ofQ]; norm_num)
  have i2 := (Is.exact (N := 7) (env h0 h1 σ) (ser (dbl C1) cosK 6)).congr (sv_cos h0 h1 σ C1)
  refine ((Is.qM (env h0 h1 σ) A1).mul (i1.add i2)).congr ?_
  rw [env_ε, qeval_A1 (by linarith), pR, cosSum]
  simp only [qeval_C1]

theorem p_near : |pR ε σ - root ε σ| ≤ 3 / 25 * ε ^ 7 := by
  have hc := checks1
  simp only [Bool.and_eq_true, decide_eq_true_eq] at hc
  obtain ⟨⟨⟨c1, c2⟩, c3⟩, c4⟩ := hc
  have ip := is_p h0 h1 σ
  have i1 : Is 7 (env h0 h1 σ) oneM (1 : ℝ) := (Is.const _ _).congr (by rw [cv_ofQ]; norm_num)
  have iq : Is 7 (env h0 h1 σ) (.exact qqL) (root ε σ ^ 2) := by
    refine (Is.exact _ _).congr ?_
    rw [root_sq h0]
    simp only [sv, qqL, peval, cv_mul, cv_ofQ, cv_cosC, env_ε, env_C]
    push_cast; ring_nf
  have hb := ((ip.mul ip).sub iq).bound c1 c2
  have hs := (ip.sub i1).slope (by norm_num) c3
  rw [Real.norm_eq_abs, Real.norm_eq_abs, env_ε, abs_of_nonneg h0] at hb hs
  have hs' : |pR ε σ - 1| ≤ 2 * ε := hs.trans (mul_le_mul_of_nonneg_right (by exact_mod_cast c4) h0)
  have hp := (abs_le.1 hs').1
  have hr := root_ge h0 σ
  have hsum : (197 : ℝ) / 100 - 1 / 50 ≤ pR ε σ + root ε σ := by linarith
  have e : pR ε σ * pR ε σ - root ε σ ^ 2 = (pR ε σ - root ε σ) * (pR ε σ + root ε σ) := by ring
  rw [e, abs_mul, abs_of_pos (show 0 < pR ε σ + root ε σ by linarith)] at hb
  push_cast at hb
  have hk : 0 ≤ |pR ε σ - root ε σ| := abs_nonneg _
  nlinarith

/-- The sums are small. -/
theorem abs_C1 : |sineSum (karneyC1 ε) σ| ≤ ε := by
  have hc := checks4
  simp only [Bool.and_eq_true, decide_eq_true_eq] at hc
  obtain ⟨⟨⟨c1, c2⟩, -⟩, -⟩ := hc
  have i := (Is.exact (N := 7) (env h0 h1 σ) (ser C1 sinK 6)).slope (by norm_num) c1
  rw [sv_sin, Real.norm_eq_abs, Real.norm_eq_abs, env_ε, abs_of_nonneg h0] at i
  simp only [qeval_C1] at i
  refine i.trans ?_
  have : ((Mod.exact (ser C1 sinK 6)).slope 7 r0 1 : ℝ) ≤ 1 := by exact_mod_cast c2
  nlinarith

theorem abs_C1' : |sineSum (karneyC1' ε) σ| ≤ ε := by
  have hc := checks4
  simp only [Bool.and_eq_true, decide_eq_true_eq] at hc
  obtain ⟨⟨-, c3⟩, c4⟩ := hc
  have i := (Is.exact (N := 7) (env h0 h1 σ) (ser C1p sinK 6)).slope (by norm_num) c3
  rw [sv_sin, Real.norm_eq_abs, Real.norm_eq_abs, env_ε, abs_of_nonneg h0] at i
  simp only [qeval_C1p] at i
  refine i.trans ?_
  have : (DM.slope 7 r0 1 : ℝ) ≤ 1 := by exact_mod_cast c4
  exact (mul_le_mul_of_nonneg_right this h0).trans (by rw [one_mul])

/-- The reversion. -/
theorem reversion : |karneySigma ε σ + sineSum (karneyC1 ε) (karneySigma ε σ) - σ| ≤ 33 / 10 * ε ^ 7 := by
  have hc := checks2a
  have hb := checks2b
  simp only [Bool.and_eq_true, decide_eq_true_eq] at hc hb
  obtain ⟨⟨⟨c1, c2⟩, cS⟩, cC⟩ := hc
  set E := env h0 h1 σ with hE
  set D := sineSum (karneyC1' ε) σ with hD
  have iD : Is 7 E DM D := by
    refine (Is.exact E _).congr ?_
    rw [hE, sv_sin, hD]
    congr 1
    funext k
    exact qeval_C1p ε k
  have i2 : Is 7 E D2 (2 * D) := (iD.smul 2).congr (by push_cast; ring)
  have iS : Is 7 E sDw (Real.sin (2 * D)) := Is.weak (m := sD) (i2.comp (by norm_num) c1 (by norm_num [expK, Nat.factorial]) c2 (rsin_taylor (by norm_num))) cS
  have iC : Is 7 E cDw (Real.cos (2 * D)) := Is.weak (m := cD) (i2.comp (by norm_num) c1 (by norm_num [expK, Nat.factorial]) c2 (rcos_taylor (by norm_num))) cC
  have is : Is 7 E (.const sinC) (Real.sin (2 * σ)) := (Is.const E _).congr (by rw [cv_sinC, hE, env_S]; simp)
  have ic : Is 7 E (.const cosC) (Real.cos (2 * σ)) := (Is.const E _).congr (by rw [cv_cosC, hE, env_C]; simp)
  set x := 2 * σ + 2 * D with hx
  have iX : Is 7 E X1 (Real.sin x) := ((is.mulF iC).add (ic.mulF iS)).congr (by rw [hx, Real.sin_add])
  have iY : Is 7 E Y1 (Real.cos x) := ((ic.mulF iC).sub (is.mulF iS)).congr (by rw [hx, Real.cos_add])
  have iXY : ∀ k : ℕ, Is 7 E (XY k).1 (Real.sin (k * x)) ∧ Is 7 E (XY k).2 (Real.cos (k * x)) := by
    intro k
    induction k with
    | zero =>
      exact ⟨(Is.const E _).congr (by rw [cv_zero]; simp), (Is.const E _).congr (by rw [cv_ofQ]; simp)⟩
    | succ k ih =>
      refine ⟨((iX.mulF ih.2).add (iY.mulF ih.1)).congr ?_, ((iY.mulF ih.2).sub (iX.mulF ih.1)).congr ?_⟩
      · push_cast; rw [show ((k : ℝ) + 1) * x = k * x + x by ring, Real.sin_add (k * x) x]; ring
      · push_cast; rw [show ((k : ℝ) + 1) * x = k * x + x by ring, Real.cos_add (k * x) x]; ring
  have iSum : ∀ m : ℕ, Is 7 E (sumM m) (D + ∑ k ∈ Finset.range m, qeval ε (C1 (k + 1)) * Real.sin ((k + 1 : ℕ) * x)) := by
    intro m
    induction m with
    | zero => simpa [sumM] using iD
    | succ m ih =>
      refine (ih.add ((Is.qM E (C1 (m + 1))).mulF (iXY (m + 1)).1)).congr ?_
      rw [Finset.sum_range_succ, hE, env_ε]; ring
  have hb := (iSum 6).bound hb.1 hb.2
  rw [Real.norm_eq_abs, Real.norm_eq_abs, hE, env_ε, abs_of_nonneg h0] at hb
  push_cast at hb
  convert hb using 2
  rw [karneySigma, ← hD, sineSum]
  simp only [qeval_C1]
  rw [show σ + D + ∑ k ∈ Finset.range 6, karneyC1 ε (k + 1) * Real.sin (2 * (k + 1) * (σ + D)) - σ =
    D + ∑ k ∈ Finset.range 6, karneyC1 ε (k + 1) * Real.sin (2 * (k + 1) * (σ + D)) by ring]
  congr 1
  refine Finset.sum_congr rfl fun k _ => ?_
  rw [hx]; ring_nf

/-- The derivative of the longitude series. -/
theorem lon_near {n : ℝ} (hn : ε ≤ n) (hn1 : n ≤ 1 / 100) :
    |karneyA3 n ε * (1 + cosSum (karneyC3 n ε) σ) - 2 * (1 - ε) / ((1 + n) * (1 - ε) + (1 - n) * root ε σ)| ≤ 6 * n ^ 6 := by
  have hc := checks3
  simp only [Bool.and_eq_true, decide_eq_true_eq] at hc
  obtain ⟨⟨⟨⟨⟨⟨⟨⟨⟨⟨⟨z0, b0⟩, z1⟩, b1⟩, z2⟩, b2⟩, z3⟩, b3⟩, z4⟩, b4⟩, z5⟩, b5⟩ := hc
  set E := env h0 h1 σ with hE
  set y := root ε σ with hy
  have iroot : Is 7 E ⟨pM.co, pM.rem + 3/25⟩ y := by
    have ip := is_p h0 h1 σ
    have h := p_near h0 h1 σ
    refine ⟨add_nonneg ip.1 (by norm_num), ?_⟩
    have h2 := ip.2
    have e : y - sv E pM.co = (pR ε σ - sv E pM.co) + (y - pR ε σ) := by ring
    rw [e]
    refine (norm_add_le _ _).trans ?_
    push_cast
    rw [add_mul]
    refine add_le_add h2 ?_
    rw [Real.norm_eq_abs, Real.norm_eq_abs, abs_sub_comm, hE, env_ε, abs_of_nonneg h0]
    exact h
  have il : ∀ N, Is N E leM (1 - ε) := fun N => (Is.qM E _).congr (by rw [hE, env_ε]; simp [qeval]; ring)
  set a0 := qeval ε (A3 0)
  set a1 := qeval ε (A3 1)
  set a2 := qeval ε (A3 2)
  have ia0 : ∀ N, Is N E (qM (A3 0)) a0 := fun N => Is.qM E _
  have ia1 : ∀ N, Is N E (qM (A3 1)) a1 := fun N => Is.qM E _
  have ia2 : ∀ N, Is N E (qM (A3 2)) a2 := fun N => Is.qM E _
  set f0 := cosSum (fun k => qeval ε (C3 0 k)) σ
  set f1 := cosSum (fun k => qeval ε (C3 1 k)) σ
  set f2 := cosSum (fun k => qeval ε (C3 2 k)) σ
  have ib0 : ∀ N, Is N E (B3 0) (1 + f0) := fun N =>
    ((Is.const E (Co.ofQ 1)).congr (by rw [cv_ofQ]; norm_num)).add ((Is.exact E _).congr (sv_cos h0 h1 σ (C3 0)))
  have ib1 : ∀ N, Is N E (B3 1) f1 := fun N => (Is.exact E _).congr (sv_cos h0 h1 σ (C3 1))
  have ib2 : ∀ N, Is N E (B3 2) f2 := fun N => (Is.exact E _).congr (sv_cos h0 h1 σ (C3 2))
  have iP0 : ∀ N, Is N E (P3 N 0) (a0 * (1 + f0)) := fun N => (ia0 N).mul (ib0 N)
  have iP1 : ∀ N, Is N E (P3 N 1) (a0 * f1 + a1 * (1 + f0)) := fun N => ((ia0 N).mul (ib1 N)).add ((ia1 N).mul (ib0 N))
  have iP2 : ∀ N, Is N E (P3 N 2) (a0 * f2 + a1 * f1 + a2 * (1 + f0)) := fun N =>
    (((ia0 N).mul (ib2 N)).add ((ia1 N).mul (ib1 N))).add ((ia2 N).mul (ib0 N))
  have iP3 : ∀ N, Is N E (P3 N 3) (a1 * f2 + a2 * f1) := fun N => ((ia1 N).mul (ib2 N)).add ((ia2 N).mul (ib1 N))
  have iP4 : ∀ N, Is N E (P3 N 4) (a2 * f2) := fun N => (ia2 N).mul (ib2 N)
  have r0' : |a0 * (1 + f0) * (1 - ε + y) - 2 * (1 - ε)| ≤ 12 / 10 * ε ^ 6 := by
    have := (((iP0 6).mul ((il 6).add (iroot.lower (N := 6) (k := 1)))).sub ((il 6).smul 2)).bound z0 b0
    rw [Real.norm_eq_abs, Real.norm_eq_abs, hE, env_ε, abs_of_nonneg h0] at this
    push_cast at this
    exact this
  have r1' : |(a0 * f1 + a1 * (1 + f0)) * (1 - ε + y) + a0 * (1 + f0) * (1 - ε - y)| ≤ 22 / 10 * ε ^ 5 := by
    have := (((iP1 5).mul ((il 5).add (iroot.lower (N := 5) (k := 2)))).add
      ((iP0 5).mul ((il 5).sub (iroot.lower (N := 5) (k := 2))))).bound z1 b1
    rw [Real.norm_eq_abs, Real.norm_eq_abs, hE, env_ε, abs_of_nonneg h0] at this
    push_cast at this
    exact this
  have r2' : |(a0 * f2 + a1 * f1 + a2 * (1 + f0)) * (1 - ε + y) + (a0 * f1 + a1 * (1 + f0)) * (1 - ε - y)| ≤
      36 / 10 * ε ^ 4 := by
    have := (((iP2 4).mul ((il 4).add (iroot.lower (N := 4) (k := 3)))).add
      ((iP1 4).mul ((il 4).sub (iroot.lower (N := 4) (k := 3))))).bound z2 b2
    rw [Real.norm_eq_abs, Real.norm_eq_abs, hE, env_ε, abs_of_nonneg h0] at this
    push_cast at this
    exact this
  have r3' : |(a1 * f2 + a2 * f1) * (1 - ε + y) + (a0 * f2 + a1 * f1 + a2 * (1 + f0)) * (1 - ε - y)| ≤
      28 / 10 * ε ^ 3 := by
    have := (((iP3 3).mul ((il 3).add (iroot.lower (N := 3) (k := 4)))).add
      ((iP2 3).mul ((il 3).sub (iroot.lower (N := 3) (k := 4))))).bound z3 b3
    rw [Real.norm_eq_abs, Real.norm_eq_abs, hE, env_ε, abs_of_nonneg h0] at this
    push_cast at this
    exact this
  have r4' : |a2 * f2 * (1 - ε + y) + (a1 * f2 + a2 * f1) * (1 - ε - y)| ≤ 1 / 100 * ε ^ 2 := by
    have := (((iP4 2).mul ((il 2).add (iroot.lower (N := 2) (k := 5)))).add
      ((iP3 2).mul ((il 2).sub (iroot.lower (N := 2) (k := 5))))).bound z4 b4
    rw [Real.norm_eq_abs, Real.norm_eq_abs, hE, env_ε, abs_of_nonneg h0] at this
    push_cast at this
    exact this
  have r5' : |a2 * f2 * (1 - ε - y)| ≤ 1 / 100 * ε := by
    have := ((iP4 1).mul ((il 1).sub (iroot.lower (N := 1) (k := 6)))).bound z5 b5
    rw [Real.norm_eq_abs, Real.norm_eq_abs, hE, env_ε, abs_of_nonneg h0] at this
    push_cast at this
    rw [pow_one] at this
    exact this
  have hn0 : 0 ≤ n := h0.trans hn
  have hA := qeval_A3 n ε
  have hC : cosSum (karneyC3 n ε) σ = f0 + n * f1 + n ^ 2 * f2 := by
    simp only [f0, f1, f2, cosSum, Finset.mul_sum, ← Finset.sum_add_distrib]
    refine Finset.sum_congr rfl fun k hk => ?_
    have := Finset.mem_range.1 hk
    rw [qeval_C3 n ε (by omega) (by omega)]
    ring
  have hyge : 1 - ε ≤ y := root_ge h0 σ
  have hden : (19 : ℝ) / 10 ≤ (1 + n) * (1 - ε) + (1 - n) * y := by nlinarith
  have hden0 : 0 < (1 + n) * (1 - ε) + (1 - n) * y := by linarith
  rw [hA, hC, ← mul_le_mul_iff_left₀ hden0, ← abs_of_pos hden0, ← abs_mul, abs_of_pos hden0, sub_mul,
    div_mul_cancel₀ _ hden0.ne']
  have key : (a0 + n * a1 + n ^ 2 * a2) * (1 + (f0 + n * f1 + n ^ 2 * f2)) * ((1 + n) * (1 - ε) + (1 - n) * y) - 2 * (1 - ε) =
      (a0 * (1 + f0) * (1 - ε + y) - 2 * (1 - ε)) +
      n * ((a0 * f1 + a1 * (1 + f0)) * (1 - ε + y) + a0 * (1 + f0) * (1 - ε - y)) +
      n ^ 2 * ((a0 * f2 + a1 * f1 + a2 * (1 + f0)) * (1 - ε + y) + (a0 * f1 + a1 * (1 + f0)) * (1 - ε - y)) +
      n ^ 3 * ((a1 * f2 + a2 * f1) * (1 - ε + y) + (a0 * f2 + a1 * f1 + a2 * (1 + f0)) * (1 - ε - y)) +
      n ^ 4 * (a2 * f2 * (1 - ε + y) + (a1 * f2 + a2 * f1) * (1 - ε - y)) +
      n ^ 5 * (a2 * f2 * (1 - ε - y)) := by ring
  rw [key]
  have pw : ∀ j k : ℕ, ∀ c z : ℝ, 0 ≤ c → |z| ≤ c * ε ^ k → |n ^ j * z| ≤ c * n ^ (j + k) := by
    intro j k c z hc hz
    rw [abs_mul, abs_of_nonneg (by positivity), pow_add]
    calc n ^ j * |z| ≤ n ^ j * (c * n ^ k) := by
          refine mul_le_mul_of_nonneg_left (hz.trans ?_) (by positivity)
          gcongr
      _ = _ := by ring
  have q0 := pw 0 6 _ _ (by norm_num) r0'
  have q1 := pw 1 5 _ _ (by norm_num) r1'
  have q2 := pw 2 4 _ _ (by norm_num) r2'
  have q3 := pw 3 3 _ _ (by norm_num) r3'
  have q4 := pw 4 2 _ _ (by norm_num) r4'
  have q5 := pw 5 1 (1 / 100) _ (by norm_num) (by rw [pow_one]; exact r5')
  rw [pow_zero, one_mul] at q0
  rw [pow_one] at q1
  have h6 : 0 ≤ n ^ 6 := by positivity
  have hD : 6 * n ^ 6 * (19 / 10) ≤ 6 * n ^ 6 * ((1 + n) * (1 - ε) + (1 - n) * y) :=
    mul_le_mul_of_nonneg_left hden (by positivity)
  simp only [Nat.reduceAdd] at q0 q1 q2 q3 q4 q5
  obtain ⟨u0, v0⟩ := abs_le.1 q0
  obtain ⟨u1, v1⟩ := abs_le.1 q1
  obtain ⟨u2, v2⟩ := abs_le.1 q2
  obtain ⟨u3, v3⟩ := abs_le.1 q3
  obtain ⟨u4, v4⟩ := abs_le.1 q4
  obtain ⟨u5, v5⟩ := abs_le.1 q5
  refine abs_le.2 ⟨?_, ?_⟩
  · linarith
  · linarith

end

end Geo.Ser.Kar
