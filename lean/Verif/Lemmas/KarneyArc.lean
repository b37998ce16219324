import Verif.Lemmas.KarneyTriangle

/-! The arc on the auxiliary sphere of the Karney solver in IEEE arithmetic. -/

namespace Geo
open XR Spec KarneyGeodesicSolver
variable {L : Libm} {el : Ellipsoid (F64 L)}

section
variable (h : EarthSized el) (hfl : 0.995 * el.a.m.toQ ≤ el.b.m.toQ)
include h hfl

theorem ePrime_near : Near el.ePrimeSq (((el.a.m.toQ : ℝ) ^ 2 - (el.b.m.toQ : ℝ) ^ 2) / (el.b.m.toQ : ℝ) ^ 2) 3.6e-16 ∧
    0 ≤ ((el.a.m.toQ : ℝ) ^ 2 - (el.b.m.toQ : ℝ) ^ 2) / (el.b.m.toQ : ℝ) ^ 2 ∧
    ((el.a.m.toQ : ℝ) ^ 2 - (el.b.m.toQ : ℝ) ^ 2) / (el.b.m.toQ : ℝ) ^ 2 ≤ 0.0102 := by
  obtain ⟨h1, h2, h3⟩ := earth_real h
  have hfl' := (Rat.cast_le (K := ℝ)).2 hfl
  push_cast at hfl'
  have ka := Near.exact h.a_finite
  have kb := Near.exact h.b_finite
  set a : ℝ := ((el.a.m.toQ : ℚ) : ℝ) with ha
  set b : ℝ := ((el.b.m.toQ : ℚ) : ℝ) with hb
  have b0 : 0 < b := by linarith
  have hab : b ^ 2 ≤ a ^ 2 := pow_le_pow_left₀ b0.le h2 2
  have hab2 : a ^ 2 - b ^ 2 ≤ 0.0102 * b ^ 2 := by
    have : a ≤ b / 0.995 := by rw [le_div_iff₀ (by norm_num)]; linarith
    have := pow_le_pow_left₀ (by linarith) this 2
    rw [div_pow] at this
    norm_num at *
    nlinarith
  have hb2 : 3.6e13 ≤ b ^ 2 := by
    have := pow_le_pow_left₀ (by norm_num) h1 2
    norm_num at *; linarith
  have hb3 : b ^ 2 ≤ 4.9e13 := by
    have := pow_le_pow_left₀ b0.le (h2.trans h3) 2
    norm_num at *; linarith
  have ha3 : a ^ 2 ≤ 4.9e13 := by
    have := pow_le_pow_left₀ (by linarith) h3 2
    norm_num at *; linarith
  have aa : |a| ≤ a := (abs_of_nonneg (by linarith)).le
  have ab : |b| ≤ b := (abs_of_nonneg (by linarith)).le
  have k1 := Near.mul ka ka aa aa (R := a ^ 2) (E := 1.2e-16 * a ^ 2) (by nlinarith) (by norm_num at *; linarith) (by norm_num at *; linarith) (by nlinarith)
  have k2 := Near.mul kb kb ab ab (R := b ^ 2) (E := 1.2e-16 * b ^ 2) (by nlinarith) (by norm_num at *; linarith) (by norm_num at *; linarith) (by nlinarith)
  have k3 := Near.sub k1 k2 (R := 0.0103 * b ^ 2) (E := 2.43e-16 * b ^ 2) (by
    rw [show a * a - b * b = a ^ 2 - b ^ 2 by ring, abs_of_nonneg (by linarith)]
    norm_num at *; linarith) (by norm_num at *; linarith) (by norm_num at *; linarith) (by norm_num at *; linarith)
  have e : ∀ k : ℝ, (k * b ^ 2) / (0.999 * b ^ 2) = k / 0.999 := fun k => by field_simp
  have k4 := Near.div' k3 k2 (A := 0.0102) (B := b ^ 2) (C := 0.999 * b ^ 2) (R := 0.0103) (E := 2.5e-16) (by
    rw [show a * a - b * b = a ^ 2 - b ^ 2 by ring, abs_of_nonneg (by linarith)]
    linarith) (by norm_num) (by nlinarith) (by positivity) (by norm_num at *; linarith)
    (by rw [← mul_assoc, ← add_mul, e]; norm_num) (by norm_num) (by norm_num) (by rw [← mul_assoc, ← add_mul, e]; norm_num)
  refine ⟨?_, div_nonneg (by linarith) (by positivity), by rw [div_le_iff₀ (by positivity)]; exact hab2⟩
  rw [show a * a - b * b = a ^ 2 - b ^ 2 by ring, show b * b = b ^ 2 by ring] at k4
  exact k4.mono (by norm_num)

/-- The expansion parameter. -/
theorem eps_near (hL : AccurateGeodesic L) {ca : F64 L} {c0 k2 ε : ℝ} (kc : Near ca c0 2.3e-16) (hc : |c0| ≤ 1)
    (hk : k2 = c0 ^ 2 * (((el.a.m.toQ : ℝ) ^ 2 - (el.b.m.toQ : ℝ) ^ 2) / (el.b.m.toQ : ℝ) ^ 2))
    (hε : ε = (Real.sqrt (1 + k2) - 1) / (Real.sqrt (1 + k2) + 1)) :
    Near ((Flt.sqrt (1 + el.ePrimeSq * ca * ca) - 1) / (Flt.sqrt (1 + el.ePrimeSq * ca * ca) + 1)) ε 3e-16 ∧ 0 ≤ ε ∧ ε ≤ 0.0026 := by
  obtain ⟨e1, e2, e3⟩ := ePrime_near h hfl
  set q := ((el.a.m.toQ : ℝ) ^ 2 - (el.b.m.toQ : ℝ) ^ 2) / (el.b.m.toQ : ℝ) ^ 2 with hq
  have aq : |q| ≤ 0.0102 := by rw [abs_of_nonneg e2]; exact e3
  have m1 := Near.mul e1 kc aq hc (R := 0.0103) (E := 3.7e-16) (by norm_num) (by norm_num) (by norm_num) (by norm_num)
  have aq2 : |q * c0| ≤ 0.0102 := by
    rw [abs_mul]; exact (mul_le_mul aq hc (abs_nonneg _) (by norm_num)).trans (by norm_num)
  have m2 := Near.mul m1 kc aq2 hc (R := 0.0103) (E := 3.8e-16) (by norm_num) (by norm_num) (by norm_num) (by norm_num)
  have c2 : c0 ^ 2 ≤ 1 := by rw [← sq_abs]; exact pow_le_one₀ (abs_nonneg _) hc
  have ek : q * c0 * c0 = k2 := by rw [hk]; ring
  rw [ek] at m2
  have k0 : 0 ≤ k2 := by rw [hk]; exact mul_nonneg (sq_nonneg _) e2
  have k1 : k2 ≤ 0.0102 := by rw [hk]; nlinarith [sq_nonneg c0]
  have m3 := Near.add int_1 m2 (R := 1.0103) (E := 5.02e-16) (by rw [abs_of_nonneg (by linarith)]; norm_num at *; linarith) (by norm_num) (by norm_num) (by norm_num)
  have m4 := Rel.sqrt hL.toAccurate (m3.toRel (B := 1) (δ := 5.02e-16) (η := 0) (by rw [abs_of_nonneg (by linarith)]; linarith) (by norm_num) (by norm_num))
    (by linarith) (by norm_num) (by norm_num) (D := 4.75e-16) (H := 1e-70) (by norm_num) le_rfl
  have s1 : 1 ≤ Real.sqrt (1 + k2) := Real.one_le_sqrt.2 (by linarith)
  have s2 : Real.sqrt (1 + k2) ≤ 1.0051 := Real.sqrt_le_iff.2 ⟨by norm_num, by norm_num at *; linarith⟩
  have m5 := m4.toNear (A := 1.0051) (E := 4.78e-16) (by rw [abs_of_nonneg (by linarith)]; exact s2) (by norm_num) (by norm_num)
  set t := Real.sqrt (1 + k2) with ht
  have m6 := Near.sub m5 int_1 (R := 0.0052) (E := 4.8e-16) (by rw [abs_of_nonneg (by linarith)]; norm_num at *; linarith) (by norm_num) (by norm_num) (by norm_num)
  have m7 := Near.add m5 int_1 (R := 2.006) (E := 7.2e-16) (by rw [abs_of_nonneg (by linarith)]; norm_num at *; linarith) (by norm_num) (by norm_num) (by norm_num)
  have hb : t - 1 ≤ 0.0026 * (t + 1) := by norm_num at *; linarith
  refine ⟨?_, by rw [hε]; exact div_nonneg (by linarith) (by linarith), by rw [hε, div_le_iff₀ (by linarith)]; exact hb⟩
  rw [hε]
  exact Near.div' m6 m7 (A := 0.0026) (B := 2) (C := 1.9999) (R := 0.0027) (by rw [abs_of_nonneg (by linarith)]; exact hb) (by norm_num) (by linarith)
    (by norm_num) (by norm_num) (by norm_num) (by norm_num) (by norm_num) (by norm_num)

/-- The arc from the node to the end. -/
theorem karney_arc_near (hL : AccurateGeodesic L) {x σ s : F64 L} {ε : ℝ} (kx : Near x ε 3e-16) (h0 : 0 ≤ ε) (h1 : ε ≤ 0.0026) (hσ : σ.isFinite)
    (hσ2 : |(σ.toQ : ℝ)| ≤ 3.2) (hs : s.isFinite) (hs2 : |s.toQ| ≤ 21000000) :
    ∃ τ : ℝ, (el.b.m.toQ : ℝ) * karneyA1 ε * τ = el.b.m.toQ * karneyI1 ε σ.toQ + s.toQ ∧
      Near (KarneyGeodesicSolver.Sigma x ((ArcLength.mk (el.b * I1 x (A1 x) ⟨σ⟩ + ⟨s⟩)).divLength (el.b * A1 x))).rad (karneySigma ε τ) 2.7e-14 ∧
      |karneySigma ε τ| ≤ 6.8 := by
  obtain ⟨b1, b2, b3⟩ := earth_real h
  have kb := Near.exact h.b_finite
  obtain ⟨a1, a2⟩ := karneyA1_le h0 h1
  have kA := A1_near kx h0 h1
  obtain ⟨kI, hI⟩ := I1_near hL kx h0 h1 (Near.exact hσ) (hσ2.trans (by norm_num)) (by norm_num) (E := 1.65e-14) (by norm_num)
  have hs3 : |(s.toQ : ℝ)| ≤ 21000000 := by have := cast_abs_le hs2; push_cast at this; exact this
  set b : ℝ := ((el.b.m.toQ : ℚ) : ℝ) with hb
  have b0 : 0 < b := by linarith
  have hI2 : |karneyI1 ε σ.toQ| ≤ 3.2143 := hI.trans (by norm_num at *; linarith)
  have ab : |b| ≤ b := (abs_of_nonneg (by linarith)).le
  have aA : |karneyA1 ε| ≤ 1.00261 := by rw [abs_of_nonneg (by linarith)]; exact a2
  have m1 := Near.mul kI kb hI2 ab (R := 3.215 * b) (E := 1.69e-14 * b) (by norm_num at *; linarith) (by norm_num at *; linarith) (by norm_num at *; linarith)
    (by norm_num at *; linarith)
  have hm : |karneyI1 ε σ.toQ * b| ≤ 3.2143 * b := by rw [abs_mul]; exact mul_le_mul hI2 ab (abs_nonneg _) (by norm_num)
  have hsum : |karneyI1 ε σ.toQ * b + s.toQ| ≤ 6.7143 * b := by
    refine (abs_add_le _ _).trans ?_
    norm_num at *
    linarith
  have m2 := Near.add m1 (Near.exact hs) (R := 6.72 * b) (E := 1.78e-14 * b) (by norm_num at *; linarith) (by norm_num at *; linarith) (by norm_num at *; linarith)
    (by norm_num at *; linarith)
  have m3 := Near.mul kA kb aA ab (R := 1.003 * b) (E := 8.3e-16 * b) (by norm_num at *; linarith) (by norm_num at *; linarith) (by norm_num at *; linarith)
    (by norm_num at *; linarith)
  have hA1 : b ≤ karneyA1 ε * b := by nlinarith
  have e : ∀ k : ℝ, (k * b) / (0.999 * b) = k / 0.999 := fun k => by field_simp
  have m4 := Near.div' m2 m3 (A := 6.7143) (B := b) (C := 0.999 * b) (R := 6.72) (E := 2.43e-14) (hsum.trans (by nlinarith)) (by norm_num) hA1 (by positivity)
    (by norm_num at *; linarith) (by rw [← mul_assoc, ← add_mul, e]; norm_num) (by norm_num) (by norm_num) (by rw [← mul_assoc, ← add_mul, e]; norm_num)
  set τ := (karneyI1 ε σ.toQ * b + s.toQ) / (karneyA1 ε * b) with hτ
  have hτ2 : |τ| ≤ 6.7143 := by
    rw [hτ, abs_div, abs_of_pos (by nlinarith : 0 < karneyA1 ε * b), div_le_iff₀ (by nlinarith)]
    exact hsum.trans (by nlinarith)
  obtain ⟨g1, g2⟩ := Sigma_near hL kx h0 h1 m4 (hτ2.trans (by norm_num)) (by norm_num) (E := 2.7e-14) (by norm_num)
  refine ⟨τ, ?_, by rw [ArcLength.divLength, rad_f64]; exact g1, g2.trans (by norm_num at *; linarith)⟩
  rw [hτ, mul_comm b (karneyA1 ε), mul_div_cancel₀ _ (by nlinarith : karneyA1 ε * b ≠ 0)]
  ring

end
end Geo
