import Verif.Lemmas.KarneyArc
import Verif.Lemmas.KarneyEndRound
import Verif.Lemmas.VincentyGeodesic

/-! The start of the direct Vincenty solver in IEEE arithmetic. -/

namespace Geo
open XR Spec VincentyGeodesicSolver
variable {L : Libm} {el : Ellipsoid (F64 L)}

section
variable (h : EarthSized el) (hfl : 0.995 * el.a.m.toQ ≤ el.b.m.toQ)
  (hf : Near el.f (((el.a.m.toQ : ℝ) - el.b.m.toQ) / el.a.m.toQ) 3e-16)
include h hfl hf

/-- The reduced latitude of the start: its tangent, cosine and sine. -/
theorem vin_beta_near (hL : AccurateGeodesic L) {φ : F64 L} (hφ : φ.isFinite) (hφ2 : |φ.toQ| ≤ (Flt.pi_2 : F64 L).toQ) (hc : 0.1 ≤ Real.cos φ.toQ)
    {tb cb : F64 L} (htb : tb = (1 - el.f) * Flt.tan φ) (hcb : cb = 1 / Flt.sqrt (1 + tb * tb)) {t : ℝ}
    (ht : t = el.b.m.toQ / el.a.m.toQ * Real.tan φ.toQ) :
    |t| ≤ 10 ∧ Near tb t 1e-14 ∧ Near cb (Real.cos (Real.arctan t)) 2e-15 ∧ Near (tb * cb) (Real.sin (Real.arctan t)) 3.2e-15 := by
  obtain ⟨b1, b2⟩ := ba_bound h hfl
  have ht0 : |Real.tan φ.toQ| ≤ 10 := by
    rw [Real.tan_eq_sin_div_cos, abs_div, abs_of_pos (by linarith : 0 < Real.cos φ.toQ), div_le_iff₀ (by linarith)]
    have := Real.abs_sin_le_one φ.toQ
    linarith
  have k := Rel.mul (one_sub_f h hfl hf) (tan_rel hL.toAccurateProjection hφ hφ2) (A := 1) (B := 10) (by rw [abs_of_nonneg (by linarith)]; exact b2) ht0
    (D := 9.9e-16) (H := 1.1e-69)
    (by norm_num) (by norm_num) (by norm_num) (by norm_num) (by norm_num) (by norm_num) (by norm_num) (by norm_num) (by norm_num) (by norm_num) (by norm_num)
  rw [← htb, ← ht] at k
  have ht1 : |t| ≤ 10 := by
    rw [ht, abs_mul, abs_of_nonneg (by linarith)]
    exact (mul_le_mul b2 ht0 (abs_nonneg _) zero_le_one).trans (by norm_num)
  have k2 := Rel.mul k k ht1 ht1 (D := 2.11e-15) (H := 1e-67)
    (by norm_num) (by norm_num) (by norm_num) (by norm_num) (by norm_num) (by norm_num) (by norm_num) (by norm_num) (by norm_num) (by norm_num) (by norm_num)
  have t0 : 0 ≤ t * t := mul_self_nonneg t
  have t100 : t * t ≤ 100 := by have := abs_le.1 ht1; nlinarith
  have i1 : Rel (1 : F64 L) 1 2.11e-15 0 := int_1.toRel (B := 0) (abs_nonneg _) (by norm_num) (by norm_num)
  have k3 := Rel.add i1 k2 (by norm_num) t0 (by norm_num at *; linarith) (by norm_num) (by norm_num) (by norm_num) (by norm_num) (by norm_num)
    (D := 2.23e-15) (H := 2e-67) (by norm_num) (by norm_num)
  have k4 := k3.absorb (B := 1) (by rw [abs_of_nonneg (by linarith)]; linarith) (D := 2.231e-15) (by norm_num) (by norm_num)
  have k5 := k4.sqrt hL.toAccurate (by linarith) (by norm_num) (by norm_num) (D := 1.342e-15) (H := 1e-70) (by norm_num) le_rfl
  have s1 : 1 ≤ Real.sqrt (1 + t * t) := Real.one_le_sqrt.2 (by linarith)
  have k6 := k5.absorb (B := 1) (by rw [abs_of_nonneg (by linarith)]; linarith) (D := 1.343e-15) (by norm_num) (by norm_num)
  have hq : |1 / Real.sqrt (1 + t * t)| ≤ 1 := by
    rw [abs_of_nonneg (by positivity), div_le_one (by linarith)]; exact s1
  have j1 : Rel (1 : F64 L) 1 0 0 := int_1.toRel (B := 0) (abs_nonneg _) le_rfl (by norm_num)
  have k7 := Rel.div j1 k6 (C := 1) (by rw [abs_of_nonneg (by linarith)]; linarith) (by norm_num) (hq.trans (by norm_num)) le_rfl (by norm_num) (by norm_num)
    (by norm_num) le_rfl (by norm_num) (D := 1.46e-15) (H := 1e-70) (by norm_num) (by norm_num)
  rw [← hcb] at k7
  have k8 := Rel.mul k k7 ht1 hq (D := 2.57e-15) (H := 1e-67)
    (by norm_num) (by norm_num) (by norm_num) (by norm_num) (by norm_num) (by norm_num) (by norm_num) (by norm_num) (by norm_num) (by norm_num) (by norm_num)
  rw [Real.cos_arctan, Real.sin_arctan, pow_two]
  refine ⟨ht1, k.toNear ht1 (by norm_num) (by norm_num), k7.toNear hq (by norm_num) (by norm_num), ?_⟩
  rw [← mul_one_div]
  refine k8.toNear (A := 1) ?_ (by norm_num) (by norm_num)
  rw [mul_one_div, ← pow_two, ← Real.sin_arctan]
  exact Real.abs_sin_le_one _

end

/-! ### The series -/

theorem seriesA_near {u : F64 L} {U : ℝ} (k : Near u U 4.4e-16) (h0 : 0 ≤ U) (h1 : U ≤ 0.0102) : Near (seriesA u) (vincentyA U) 2.6e-16 := by
  have i16384 : Near (16384 : F64 L) 16384 0 := lit_near (q := 16384) (show B64.isFinite (B64.lit 16384) = true ∧ (B64.lit 16384).toQ = 16384 by decide +kernel) (by norm_num)
  have i4096 : Near (4096 : F64 L) 4096 0 := lit_near (q := 4096) (show B64.isFinite (B64.lit 4096) = true ∧ (B64.lit 4096).toQ = 4096 by decide +kernel) (by norm_num)
  have i768 : Near (-768 : F64 L) (-768) 0 := (lit_near (q := 768) (show B64.isFinite (B64.lit 768) = true ∧ (B64.lit 768).toQ = 768 by decide +kernel) (by norm_num) : Near (768 : F64 L) 768 0).neg
  have i320 : Near (320 : F64 L) 320 0 := lit_near (q := 320) (show B64.isFinite (B64.lit 320) = true ∧ (B64.lit 320).toQ = 320 by decide +kernel) (by norm_num)
  have i175 : Near (175 : F64 L) 175 0 := lit_near (q := 175) (show B64.isFinite (B64.lit 175) = true ∧ (B64.lit 175).toQ = 175 by decide +kernel) (by norm_num)
  have aU : |U| ≤ 0.0102 := by rw [abs_of_nonneg h0]; exact h1
  norm_num at h1
  have m1 := Near.mul i175 k (A := 175) (by norm_num) aU (R := 1.8) (E := 8e-14) (by norm_num) (by norm_num) (by norm_num) (by norm_num)
  have m2 := Near.sub i320 m1 (R := 321) (E := 1.2e-13) (by rw [abs_of_nonneg (by linarith)]; norm_num; linarith) (by norm_num) (by norm_num) (by norm_num)
  have m3 := Near.mul k m2 aU (B := 320) (by rw [abs_of_nonneg (by linarith)]; linarith) (R := 3.3) (E := 1.5e-13) (by norm_num) (by norm_num) (by norm_num) (by norm_num)
  have p3 : 0 ≤ U * (320 - 175 * U) := mul_nonneg h0 (by linarith)
  have q3 : U * (320 - 175 * U) ≤ 3.3 := by norm_num; nlinarith
  norm_num at q3
  have m4 := Near.add i768 m3 (R := 769) (E := 2.5e-13) (by rw [abs_of_nonpos (by linarith)]; norm_num; linarith) (by norm_num) (by norm_num) (by norm_num)
  have m5 := Near.mul k m4 aU (B := 768) (by rw [abs_of_nonpos (by linarith)]; linarith) (R := 7.9) (E := 3.5e-13) (by norm_num) (by norm_num) (by norm_num) (by norm_num)
  have p5 : U * (-768 + U * (320 - 175 * U)) ≤ 0 := mul_nonpos_of_nonneg_of_nonpos h0 (by linarith)
  have q5 : -8 ≤ U * (-768 + U * (320 - 175 * U)) := by nlinarith
  have m6 := Near.add i4096 m5 (R := 4097) (E := 8.5e-13) (by rw [abs_of_nonneg (by linarith)]; norm_num; linarith) (by norm_num) (by norm_num) (by norm_num)
  have m7 := Near.div' k i16384 (A := 6.3e-7) (B := 16384) (C := 16384) (by rw [abs_of_nonneg h0]; norm_num; linarith) (by norm_num) le_rfl (by norm_num)
    (by norm_num) (R := 6.4e-7) (E := 2.7e-20) (by norm_num) (by norm_num) (by norm_num) (by norm_num)
  have q7 : |U / 16384| ≤ 6.3e-7 := by rw [abs_of_nonneg (by positivity)]; norm_num; linarith
  have m8 := Near.mul m7 m6 q7 (B := 4096) (by rw [abs_of_nonneg (by linarith)]; linarith) (R := 0.0026) (E := 1.2e-16) (by norm_num) (by norm_num) (by norm_num) (by norm_num)
  have p8 : 0 ≤ U / 16384 * (4096 + U * (-768 + U * (320 - 175 * U))) := mul_nonneg (by positivity) (by linarith)
  have q8 : U / 16384 * (4096 + U * (-768 + U * (320 - 175 * U))) ≤ 6.3e-7 * 4096 :=
    mul_le_mul ((le_abs_self _).trans q7) (by linarith) (by linarith) (by norm_num)
  exact Near.add int_1 m8 (R := 1.003) (by rw [abs_of_nonneg (by linarith)]; norm_num at *; linarith) (by norm_num) (by norm_num) (by norm_num)

theorem seriesB_near {u : F64 L} {U : ℝ} (k : Near u U 4.4e-16) (h0 : 0 ≤ U) (h1 : U ≤ 0.0102) : Near (seriesB u) (vincentyB U) 1.2e-16 := by
  have i1024 : Near (1024 : F64 L) 1024 0 := lit_near (q := 1024) (show B64.isFinite (B64.lit 1024) = true ∧ (B64.lit 1024).toQ = 1024 by decide +kernel) (by norm_num)
  have i256 : Near (256 : F64 L) 256 0 := lit_near (q := 256) (show B64.isFinite (B64.lit 256) = true ∧ (B64.lit 256).toQ = 256 by decide +kernel) (by norm_num)
  have i128 : Near (-128 : F64 L) (-128) 0 := (lit_near (q := 128) (show B64.isFinite (B64.lit 128) = true ∧ (B64.lit 128).toQ = 128 by decide +kernel) (by norm_num) : Near (128 : F64 L) 128 0).neg
  have i74 : Near (74 : F64 L) 74 0 := lit_near (q := 74) (show B64.isFinite (B64.lit 74) = true ∧ (B64.lit 74).toQ = 74 by decide +kernel) (by norm_num)
  have i47 : Near (47 : F64 L) 47 0 := lit_near (q := 47) (show B64.isFinite (B64.lit 47) = true ∧ (B64.lit 47).toQ = 47 by decide +kernel) (by norm_num)
  have aU : |U| ≤ 0.0102 := by rw [abs_of_nonneg h0]; exact h1
  norm_num at h1
  have m1 := Near.mul i47 k (A := 47) (by norm_num) aU (R := 0.5) (E := 2.2e-14) (by norm_num) (by norm_num) (by norm_num) (by norm_num)
  have m2 := Near.sub i74 m1 (R := 75) (E := 3.2e-14) (by rw [abs_of_nonneg (by linarith)]; norm_num; linarith) (by norm_num) (by norm_num) (by norm_num)
  have m3 := Near.mul k m2 aU (B := 74) (by rw [abs_of_nonneg (by linarith)]; linarith) (R := 0.76) (E := 3.4e-14) (by norm_num) (by norm_num) (by norm_num) (by norm_num)
  have p3 : 0 ≤ U * (74 - 47 * U) := mul_nonneg h0 (by linarith)
  have q3 : U * (74 - 47 * U) ≤ 1 := by nlinarith
  have m4 := Near.add i128 m3 (R := 129) (E := 5e-14) (by rw [abs_of_nonpos (by linarith)]; norm_num; linarith) (by norm_num) (by norm_num) (by norm_num)
  have m5 := Near.mul k m4 aU (B := 128) (by rw [abs_of_nonpos (by linarith)]; linarith) (R := 1.4) (E := 6e-14) (by norm_num) (by norm_num) (by norm_num) (by norm_num)
  have p5 : U * (-128 + U * (74 - 47 * U)) ≤ 0 := mul_nonpos_of_nonneg_of_nonpos h0 (by linarith)
  have q5 : -2 ≤ U * (-128 + U * (74 - 47 * U)) := by nlinarith
  have m6 := Near.add i256 m5 (R := 257) (E := 1e-13) (by rw [abs_of_nonneg (by linarith)]; norm_num; linarith) (by norm_num) (by norm_num) (by norm_num)
  have m7 := Near.div' k i1024 (A := 1e-5) (B := 1024) (C := 1024) (by rw [abs_of_nonneg h0]; norm_num; linarith) (by norm_num) le_rfl (by norm_num)
    (by norm_num) (R := 1.01e-5) (E := 4.4e-19) (by norm_num) (by norm_num) (by norm_num) (by norm_num)
  have q7 : |U / 1024| ≤ 1e-5 := by rw [abs_of_nonneg (by positivity)]; norm_num; linarith
  exact Near.mul m7 m6 q7 (B := 256) (by rw [abs_of_nonneg (by linarith)]; linarith) (R := 0.0026) (by norm_num) (by norm_num) (by norm_num) (by norm_num)

theorem i16 : Near (16 : F64 L) 16 0 := lit_near (q := 16) (show B64.isFinite (B64.lit 16) = true ∧ (B64.lit 16).toQ = 16 by decide +kernel) (by norm_num)
theorem i3 : Near (3 : F64 L) 3 0 := lit_near (q := 3) (show B64.isFinite (B64.lit 3) = true ∧ (B64.lit 3).toQ = 3 by decide +kernel) (by norm_num)
theorem i4 : Near (4 : F64 L) 4 0 := lit_near (q := 4) (show B64.isFinite (B64.lit 4) = true ∧ (B64.lit 4).toQ = 4 by decide +kernel) (by norm_num)
theorem i6 : Near (6 : F64 L) 6 0 := lit_near (q := 6) (show B64.isFinite (B64.lit 6) = true ∧ (B64.lit 6).toQ = 6 by decide +kernel) (by norm_num)

theorem seriesC_near {f c : F64 L} {F K : ℝ} (kf : Near f F 3e-16) (f0 : 0 ≤ F) (f1 : F ≤ 0.005) (k : Near c K 5.4e-15) (h0 : 0 ≤ K) (h1 : K ≤ 1) :
    Near (seriesC f c) (vincentyC F K) 1.2e-16 := by
  have aF : |F| ≤ 0.005 := by rw [abs_of_nonneg f0]; exact f1
  have aK : |K| ≤ 1 := by rw [abs_of_nonneg h0]; exact h1
  norm_num at f1
  have m1 := Near.mul i3 k (A := 3) (by norm_num) aK (R := 3.01) (E := 1.7e-14) (by norm_num) (by norm_num) (by norm_num) (by norm_num)
  have m2 := Near.sub i4 m1 (R := 4.1) (E := 1.8e-14) (by rw [abs_of_nonneg (by linarith)]; norm_num; linarith) (by norm_num) (by norm_num) (by norm_num)
  have m3 := Near.mul kf m2 aF (B := 4) (by rw [abs_of_nonneg (by linarith)]; linarith) (R := 0.021) (E := 1.3e-15) (by norm_num) (by norm_num) (by norm_num) (by norm_num)
  have p3 : 0 ≤ F * (4 - 3 * K) := mul_nonneg f0 (by linarith)
  have q3 : F * (4 - 3 * K) ≤ 0.02 := by norm_num; nlinarith
  norm_num at q3
  have m4 := Near.add i4 m3 (R := 4.03) (E := 1.8e-15) (by rw [abs_of_nonneg (by linarith)]; norm_num; linarith) (by norm_num) (by norm_num) (by norm_num)
  have m5 := Near.div' kf i16 (A := 0.00032) (B := 16) (C := 16) (by rw [abs_of_nonneg f0]; norm_num; linarith) (by norm_num) le_rfl (by norm_num)
    (by norm_num) (R := 0.00033) (E := 1.9e-17) (by norm_num) (by norm_num) (by norm_num) (by norm_num)
  have q5 : |F / 16| ≤ 0.00032 := by rw [abs_of_nonneg (by positivity)]; norm_num; linarith
  have m6 := Near.mul m5 k q5 aK (R := 0.00033) (E := 2.1e-17) (by norm_num) (by norm_num) (by norm_num) (by norm_num)
  have q6 : |F / 16 * K| ≤ 0.00032 := by rw [abs_mul]; exact (mul_le_mul q5 aK (abs_nonneg _) (by norm_num)).trans (by norm_num)
  exact Near.mul m6 m4 q6 (B := 4.02) (by rw [abs_of_nonneg (by linarith)]; norm_num; linarith) (R := 0.0013) (by norm_num) (by norm_num) (by norm_num) (by norm_num)

theorem deltaSigma_near (hL : AccurateGeodesic L) {Bf sf cf c2 : F64 L} {B σ c : ℝ} (kB : Near Bf B 1.2e-16) (B0 : 0 ≤ B) (B1 : B ≤ 0.00255)
    (ks : Near sf (Real.sin σ) 2.3e-16) (kc : Near cf (Real.cos σ) 2.3e-16) (k2 : Near c2 c 2.6e-15) (hc : |c| ≤ 1) :
    Near (deltaSigma Bf sf cf c2) (vincentyDeltaSigma B σ c) 1.5e-16 ∧ |vincentyDeltaSigma B σ c| ≤ 0.0027 := by
  have aB : |B| ≤ 0.00255 := by rw [abs_of_nonneg B0]; exact B1
  have us := Real.abs_sin_le_one σ
  have uc := Real.abs_cos_le_one σ
  have sq1 : ∀ x : ℝ, |x| ≤ 1 → 0 ≤ x ^ 2 ∧ x ^ 2 ≤ 1 := fun x hx => ⟨by positivity, by rw [← sq_abs]; exact pow_le_one₀ (abs_nonneg _) hx⟩
  obtain ⟨c0, c1⟩ := sq1 c hc
  obtain ⟨s0, s1⟩ := sq1 _ us
  norm_num at B1
  have m1 := Near.mul kB ks aB us (R := 0.0026) (E := 1.22e-16) (by norm_num) (by norm_num) (by norm_num) (by norm_num)
  have q1 : |B * Real.sin σ| ≤ 0.00255 := by rw [abs_mul]; exact (mul_le_mul aB us (abs_nonneg _) (by norm_num)).trans (by norm_num)
  have p1 := k2.powi2 hL.toAccurate hc (by norm_num) (E := 5.5e-15) (by norm_num)
  have p2 := ks.powi2 hL.toAccurate us (by norm_num) (E := 7e-16) (by norm_num)
  have n1 : Near (-1 : F64 L) (-1) 0 := int_1.neg
  have n3 : Near (-3 : F64 L) (-3) 0 := i3.neg
  have bx : ∀ {x k m : ℝ}, 0 ≤ x → x ≤ 1 → 0 ≤ k → k ≤ 4 → 0 ≤ m → m ≤ 3 → |-m + k * x| ≤ 4 := by
    intro x k m x0 x1 k0 k1 m0 m1
    rw [abs_le]
    constructor <;> nlinarith
  have t1 := Near.mul int_2 p1 (A := 2) (B := 1) (by norm_num) (by rw [abs_of_nonneg c0]; exact c1) (R := 2.01) (E := 1.2e-14) (by norm_num) (by norm_num) (by norm_num) (by norm_num)
  have t2 := Near.add n1 t1 (R := 4.01) (E := 1.3e-14) (by have := bx c0 c1 (k := 2) (m := 1) (by norm_num) (by norm_num) (by norm_num) (by norm_num); norm_num at *; linarith) (by norm_num) (by norm_num) (by norm_num)
  have t3 := Near.mul i4 p2 (A := 4) (B := 1) (by norm_num) (by rw [abs_of_nonneg s0]; exact s1) (R := 4.01) (E := 3.5e-15) (by norm_num) (by norm_num) (by norm_num) (by norm_num)
  have t4 := Near.add n3 t3 (R := 4.01) (E := 4.1e-15) (by have := bx s0 s1 (k := 4) (m := 3) (by norm_num) (by norm_num) (by norm_num) (by norm_num); norm_num at *; linarith) (by norm_num) (by norm_num) (by norm_num)
  have t5 := Near.mul i4 p1 (A := 4) (B := 1) (by norm_num) (by rw [abs_of_nonneg c0]; exact c1) (R := 4.01) (E := 2.3e-14) (by norm_num) (by norm_num) (by norm_num) (by norm_num)
  have t6 := Near.add n3 t5 (R := 4.01) (E := 2.4e-14) (by have := bx c0 c1 (k := 4) (m := 3) (by norm_num) (by norm_num) (by norm_num) (by norm_num); norm_num at *; linarith) (by norm_num) (by norm_num) (by norm_num)
  have b2 := bx c0 c1 (k := 2) (m := 1) (by norm_num) (by norm_num) (by norm_num) (by norm_num)
  have b4 := bx s0 s1 (k := 4) (m := 3) (by norm_num) (by norm_num) (by norm_num) (by norm_num)
  have b6 := bx c0 c1 (k := 4) (m := 3) (by norm_num) (by norm_num) (by norm_num) (by norm_num)
  have d6 := Near.div' kB i6 (A := 0.00043) (B := 6) (C := 6) (by rw [abs_of_nonneg B0]; norm_num; linarith) (by norm_num) le_rfl (by norm_num)
    (by norm_num) (R := 0.00044) (E := 2.1e-17) (by norm_num) (by norm_num) (by norm_num) (by norm_num)
  have q6 : |B / 6| ≤ 0.00043 := by rw [abs_of_nonneg (by positivity)]; norm_num; linarith
  have d4 := Near.div' kB i4 (A := 0.00064) (B := 4) (C := 4) (by rw [abs_of_nonneg B0]; norm_num; linarith) (by norm_num) le_rfl (by norm_num)
    (by norm_num) (R := 0.00065) (E := 3.1e-17) (by norm_num) (by norm_num) (by norm_num) (by norm_num)
  have q4 : |B / 4| ≤ 0.00064 := by rw [abs_of_nonneg (by positivity)]; norm_num; linarith
  have e1 := Near.mul d6 k2 q6 hc (R := 0.00044) (E := 2.3e-17) (by norm_num) (by norm_num) (by norm_num) (by norm_num)
  have r1 : |B / 6 * c| ≤ 0.00043 := by rw [abs_mul]; exact (mul_le_mul q6 hc (abs_nonneg _) (by norm_num)).trans (by norm_num)
  have e2 := Near.mul e1 t4 r1 b4 (R := 0.0018) (E := 1e-16) (by norm_num) (by norm_num) (by norm_num) (by norm_num)
  have r2 : |B / 6 * c * (-3 + 4 * Real.sin σ ^ 2)| ≤ 0.00172 := by rw [abs_mul]; exact (mul_le_mul r1 b4 (abs_nonneg _) (by norm_num)).trans (by norm_num)
  have e3 := Near.mul e2 t6 r2 b6 (R := 0.007) (E := 5e-16) (by norm_num) (by norm_num) (by norm_num) (by norm_num)
  have r3 : |B / 6 * c * (-3 + 4 * Real.sin σ ^ 2) * (-3 + 4 * c ^ 2)| ≤ 0.0069 := by rw [abs_mul]; exact (mul_le_mul r2 b6 (abs_nonneg _) (by norm_num)).trans (by norm_num)
  have e4 := Near.mul kc t2 uc b2 (R := 4.01) (E := 1.5e-14) (by norm_num) (by norm_num) (by norm_num) (by norm_num)
  have r4 : |Real.cos σ * (-1 + 2 * c ^ 2)| ≤ 4 := by rw [abs_mul]; exact (mul_le_mul uc b2 (abs_nonneg _) (by norm_num)).trans (by norm_num)
  have r5 := (abs_sub (Real.cos σ * (-1 + 2 * c ^ 2)) (B / 6 * c * (-3 + 4 * Real.sin σ ^ 2) * (-3 + 4 * c ^ 2))).trans (add_le_add r4 r3)
  have e5 := Near.sub e4 e3 (R := 4.01) (E := 1.7e-14) (by norm_num at *; linarith) (by norm_num) (by norm_num) (by norm_num)
  have e6 := Near.mul d4 e5 q4 (B := 4.01) (by norm_num at *; linarith) (R := 0.0026) (E := 1.4e-16) (by norm_num) (by norm_num) (by norm_num) (by norm_num)
  have r6 := mul_le_mul q4 r5 (abs_nonneg _) (by norm_num)
  rw [← abs_mul] at r6
  have r7 := (abs_add_le c (B / 4 * (Real.cos σ * (-1 + 2 * c ^ 2) - B / 6 * c * (-3 + 4 * Real.sin σ ^ 2) * (-3 + 4 * c ^ 2)))).trans (add_le_add hc r6)
  have e7 := Near.add k2 e6 (R := 1.01) (E := 2.9e-15) (by norm_num at *; linarith) (by norm_num) (by norm_num) (by norm_num)
  refine ⟨Near.mul m1 e7 q1 (B := 1.005) (by norm_num at *; linarith) (R := 0.0027) (by norm_num) (by norm_num) (by norm_num) (by norm_num), ?_⟩
  have r8 := mul_le_mul q1 r7 (abs_nonneg _) (by norm_num)
  rw [← abs_mul] at r8
  exact r8.trans (by norm_num)

end Geo
