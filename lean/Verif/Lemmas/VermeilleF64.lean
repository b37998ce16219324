import Verif.Lemmas.Rel
import Verif.Lemmas.Vermeille

/-! Vermeille's number `k` in IEEE arithmetic. -/

namespace Geo
open XR Spec GeodeticDatum
variable {L : Libm}

/-- The intermediate results of Vermeille's method. -/
structure VK (E p q r s t u v w k : ℝ) : Prop where
  hr : r = (p + q - E * E) / 6
  hs : s = E * E * p * q / (4 * r ^ 3)
  ht0 : 0 < t
  ht : t ^ 3 = 1 + s + Real.sqrt (s * (2 + s))
  hu : u = r * (1 + t + 1 / t)
  hv : v = Real.sqrt (u * u + E * E * q)
  hw : w = E * (u + v - q) / (2 * v)
  hk : k = Real.sqrt (u + v + w * w) - w

/-- Where the error of `k` is bounded. -/
structure VDom (E p q : ℝ) : Prop where
  e0 : 0 < E
  e1 : E ≤ 0.01
  p0 : 0 ≤ p
  q0 : 0 ≤ q
  lo : 0.5 ≤ p + q
  hi : p + q ≤ 12

variable {E p q r s t u v w k : ℝ}

structure VBounds (E p q r s t u v w k : ℝ) : Prop where
  r1 : 0.083 ≤ r
  r2 : r ≤ 2
  s0 : 0 ≤ s
  s1 : s ≤ 0.0028
  g1 : Real.sqrt (s * (2 + s)) ≤ 0.075
  t1 : 1 ≤ t
  t2 : t ≤ 1.026
  u1 : 0.4999 * (p + q) ≤ u
  u2 : u ≤ 0.5002 * (p + q)
  v1 : 0.4999 * (p + q) ≤ v
  v2 : v ≤ 0.5006 * (p + q)
  w1 : |E * (u + v - q)| ≤ 0.01002 * (2 * v)
  w2 : |w| ≤ 0.01002
  m1 : 0.7 ≤ Real.sqrt (u + v + w * w)
  m2 : Real.sqrt (u + v + w * w) ≤ 3.48
  k1 : 0.985 * Real.sqrt (u + v + w * w) ≤ k
  k2 : k ≤ 3.5

set_option maxHeartbeats 1000000 in
theorem VK.bounds (h : VK E p q r s t u v w k) (d : VDom E p q) : VBounds E p q r s t u v w k := by
  obtain ⟨hr, hs, ht0, ht, hu, hv, hw, hk⟩ := h
  obtain ⟨e0, e1, p0, q0, lo, hi⟩ := d
  have E2 : E * E ≤ 1e-4 := (mul_le_mul e1 e1 e0.le (by norm_num)).trans (by norm_num)
  have E20 : 0 < E * E := mul_pos e0 e0
  set P := p + q with hP
  have r0 : 0.9998 * P ≤ 6 * r := by rw [hr]; linarith
  have r1 : 0.083 ≤ r := by linarith
  have r2 : r ≤ 2 := by rw [hr]; linarith
  have r3 : 0 < 4 * r ^ 3 := by positivity
  have P0 : 0 < P := by linarith
  have s0 : 0 ≤ s := by rw [hs]; positivity
  have s1 : s ≤ 0.0028 := by
    rw [hs, div_le_iff₀ r3]
    have a1 : p * q ≤ P ^ 2 / 4 := by rw [hP]; nlinarith [sq_nonneg (p - q)]
    have a2 : E * E * p * q ≤ 1e-4 * (P ^ 2 / 4) := by
      rw [mul_assoc]
      exact mul_le_mul E2 a1 (mul_nonneg p0 q0) (by norm_num)
    have a3 : (0.1666 * P) ^ 3 ≤ r ^ 3 := pow_le_pow_left₀ (by positivity) (by linarith) 3
    have a4 : 0.5 * P ^ 2 ≤ P ^ 3 := by
      have := mul_le_mul_of_nonneg_right lo (sq_nonneg P)
      calc _ ≤ _ := this
        _ = _ := by ring
    have a5 : (0.1666 * P) ^ 3 = 0.1666 ^ 3 * P ^ 3 := by ring
    have a6 : 0 < P ^ 2 := by positivity
    rw [a5] at a3
    linarith
  have ss0 : 0 ≤ s * (2 + s) := by positivity
  have ss1 : s * (2 + s) ≤ 0.075 ^ 2 := (mul_le_mul s1 (add_le_add_right s1 2) (by linarith) (by norm_num)).trans (by norm_num)
  have g0 := Real.sqrt_nonneg (s * (2 + s))
  have g1 : Real.sqrt (s * (2 + s)) ≤ 0.075 := Real.sqrt_le_iff.2 ⟨by norm_num, ss1⟩
  have t1 : 1 ≤ t := by
    by_contra hc
    push Not at hc
    have := pow_lt_one₀ ht0.le hc (show 3 ≠ 0 by norm_num)
    linarith
  have t2 : t ≤ 1.026 := by
    by_contra hc
    push Not at hc
    have := pow_lt_pow_left₀ hc (by norm_num) (show 3 ≠ 0 by norm_num)
    norm_num at this g1 s1
    linarith
  have f1 : 3 ≤ 1 + t + 1 / t ∧ 1 + t + 1 / t ≤ 3.001 := by
    have e : 1 + t + 1 / t = 3 + (t - 1) ^ 2 / t := by field_simp; ring
    have b1 : 0 ≤ (t - 1) ^ 2 / t := by positivity
    have b2 : (t - 1) ^ 2 / t ≤ 0.001 := by
      rw [div_le_iff₀ ht0]
      nlinarith
    rw [e]
    constructor <;> linarith
  have r0' : 0 < r := by linarith
  have u1 : 0.4999 * P ≤ u := by
    rw [hu]
    have := mul_le_mul_of_nonneg_left f1.1 r0'.le
    linarith
  have u2 : u ≤ 0.5002 * P := by
    rw [hu]
    have := mul_le_mul_of_nonneg_left f1.2 r0'.le
    have : 6 * r ≤ P := by rw [hr]; linarith
    linarith
  have u0 : 0 < u := by linarith
  have v1' : u ≤ v := by rw [hv]; exact Real.le_sqrt_of_sq_le (by rw [pow_two]; linarith [mul_nonneg E20.le q0])
  have v2 : v ≤ 0.5006 * P := by
    rw [hv]
    refine Real.sqrt_le_iff.2 ⟨by positivity, ?_⟩
    have b1 : u * u ≤ 0.5002 * P * (0.5002 * P) := mul_le_mul u2 u2 u0.le (by positivity)
    have b2 : E * E * q ≤ 1e-4 * P := mul_le_mul E2 (by linarith) q0 (by norm_num)
    have b3 : 0.5 * P ≤ P ^ 2 := by rw [pow_two]; exact mul_le_mul_of_nonneg_right lo P0.le
    nlinarith
  have v0 : 0 < v := by linarith
  have w1 : |E * (u + v - q)| ≤ 0.01002 * (2 * v) := by
    rw [abs_mul, abs_of_pos e0]
    have b : |u + v - q| ≤ 1.0008 * P := by
      rw [abs_le]; constructor <;> linarith
    have b1 : u + v ≤ 2 * v := by linarith
    have b2 : |u + v - q| ≤ 1.001 * (2 * v) := by
      rw [abs_le]
      constructor <;> linarith
    exact (mul_le_mul e1 b2 (abs_nonneg _) (by norm_num)).trans (by linarith)
  have w2 : |w| ≤ 0.01002 := by
    rw [hw, abs_div, abs_of_pos (show 0 < 2 * v by linarith), div_le_iff₀ (by linarith)]
    exact w1
  have ww : w * w ≤ 0.0002 := by
    have := mul_le_mul w2 w2 (abs_nonneg _) (by norm_num)
    rw [abs_mul_abs_self] at this
    linarith
  have ww0 := mul_self_nonneg w
  have m1 : 0.7 ≤ Real.sqrt (u + v + w * w) := Real.le_sqrt_of_sq_le (by linarith)
  have m2 : Real.sqrt (u + v + w * w) ≤ 3.48 := Real.sqrt_le_iff.2 ⟨by norm_num, by linarith⟩
  have w3 := abs_le.1 w2
  refine ⟨r1, r2, s0, s1, g1, t1, t2, u1, u2, u1.trans v1', v2, w1, w2, m1, m2, ?_, ?_⟩
  · rw [hk]; linarith
  · rw [hk]; linarith

theorem VK.exists (d : VDom E p q) : ∃ r s t u v w k, VK E p q r s t u v w k := by
  have h : 0 ≤ 1 + E * E * p * q / (4 * ((p + q - E * E) / 6) ^ 3) +
      Real.sqrt (E * E * p * q / (4 * ((p + q - E * E) / 6) ^ 3) * (2 + E * E * p * q / (4 * ((p + q - E * E) / 6) ^ 3))) := by
    obtain ⟨e0, e1, p0, q0, lo, hi⟩ := d
    have E2 : E * E ≤ 1e-4 := (mul_le_mul e1 e1 e0.le (by norm_num)).trans (by norm_num)
    have : 0 < p + q - E * E := by norm_num at *; linarith
    positivity
  refine ⟨_, _, cbrtR (1 + E * E * p * q / (4 * ((p + q - E * E) / 6) ^ 3) +
      Real.sqrt (E * E * p * q / (4 * ((p + q - E * E) / 6) ^ 3) * (2 + E * E * p * q / (4 * ((p + q - E * E) / 6) ^ 3)))),
    _, _, _, _, rfl, rfl, ?_, cbrtR_cube _, rfl, rfl, rfl, rfl⟩
  by_contra hc
  push Not at hc
  have h3 := cbrtR_cube (1 + E * E * p * q / (4 * ((p + q - E * E) / 6) ^ 3) +
      Real.sqrt (E * E * p * q / (4 * ((p + q - E * E) / 6) ^ 3) * (2 + E * E * p * q / (4 * ((p + q - E * E) / 6) ^ 3))))
  have h4 : 1 ≤ 1 + E * E * p * q / (4 * ((p + q - E * E) / 6) ^ 3) +
      Real.sqrt (E * E * p * q / (4 * ((p + q - E * E) / 6) ^ 3) * (2 + E * E * p * q / (4 * ((p + q - E * E) / 6) ^ 3))) := by
    obtain ⟨e0, e1, p0, q0, lo, hi⟩ := d
    have E2 : E * E ≤ 1e-4 := (mul_le_mul e1 e1 e0.le (by norm_num)).trans (by norm_num)
    have : 0 < p + q - E * E := by norm_num at *; linarith
    have : 0 ≤ E * E * p * q / (4 * ((p + q - E * E) / 6) ^ 3) := by positivity
    have := Real.sqrt_nonneg (E * E * p * q / (4 * ((p + q - E * E) / 6) ^ 3) * (2 + E * E * p * q / (4 * ((p + q - E * E) / 6) ^ 3)))
    linarith
  generalize cbrtR _ = c at *
  nlinarith [sq_nonneg c]

theorem VK.fin (h : VK E p q r s t u v w k) (d : VDom E p q) : vermeilleK (fin E) (fin p) (fin q) = fin k := by
  obtain ⟨r1, r2, s0, s1, g1, t1, t2, u1, u2, v1, v2, w1, w2, m1, m2, k1, k2⟩ := h.bounds d
  obtain ⟨hr, hs, ht0, ht, hu, hv, hw, hk⟩ := h
  have P0 : 0 < p + q := by have := d.lo; linarith
  have v0 : 0 < v := by linarith
  have htc : t = cbrtR (1 + s + Real.sqrt (s * (2 + s))) := by
    have := cbrtR_cube (1 + s + Real.sqrt (s * (2 + s)))
    rw [← ht] at this ⊢
    exact ((Odd.strictMono_pow (by decide : Odd 3)).injective this).symm
  have m0 : 0 ≤ u + v + w * w := by linarith [mul_self_nonneg w]
  have n0 : 0 ≤ u * u + E * E * q := add_nonneg (mul_self_nonneg u) (mul_nonneg (mul_self_nonneg E) d.q0)
  have r3 : 4 * r ^ 3 ≠ 0 := by positivity
  simp only [vermeilleK, mul_fin, add_fin, sub_fin, ofNat_eq, one_eq]
  rw [div_fin _ (by norm_num : (6 : ℝ) ≠ 0), ← hr, powi_fin, mul_fin, div_fin _ r3, ← hs, add_fin, add_fin, mul_fin,
    sqrt_fin (mul_nonneg s0 (by linarith)), add_fin, cbrt_fin, ← htc, div_fin _ ht0.ne', add_fin, add_fin, mul_fin, ← hu, mul_fin, add_fin,
    sqrt_fin n0, ← hv, add_fin, sub_fin, mul_fin, mul_fin, div_fin _ (by positivity), ← hw, mul_fin, add_fin, sqrt_fin m0,
    sub_fin, ← hk]

theorem small_lits : ((B64.lit 1).isFinite = true ∧ (B64.lit 1).toQ = 1) ∧ ((B64.lit 2).isFinite = true ∧ (B64.lit 2).toQ = 2) ∧
    ((B64.lit 4).isFinite = true ∧ (B64.lit 4).toQ = 4) ∧ ((B64.lit 6).isFinite = true ∧ (B64.lit 6).toQ = 6) := by
  decide +kernel

theorem rel_of {x : F64 L} {n : ℚ} (h : x.isFinite) (h2 : x.toQ = n) : Rel x n 0 0 :=
  ⟨h, by rw [h2]; simp⟩

theorem rel_one : Rel (1 : F64 L) 1 0 0 := (rel_of (L := L) (n := 1) (x := 1) small_lits.1.1 small_lits.1.2).congr (by norm_num)
theorem rel_two : Rel (2 : F64 L) 2 0 0 := (rel_of (L := L) (n := 2) (x := 2) small_lits.2.1.1 small_lits.2.1.2).congr (by norm_num)
theorem rel_four : Rel (4 : F64 L) 4 0 0 := (rel_of (L := L) (n := 4) (x := 4) small_lits.2.2.1.1 small_lits.2.2.1.2).congr (by norm_num)
theorem rel_six : Rel (6 : F64 L) 6 0 0 := (rel_of (L := L) (n := 6) (x := 6) small_lits.2.2.2.1 small_lits.2.2.2.2).congr (by norm_num)

theorem mul_toQ_nonneg {x y : F64 L} (h : (x * y).isFinite) (h0 : 0 ≤ x.toQ * y.toQ) : 0 ≤ (x * y).toQ := by
  have e : (x * y).toQ = rndQ (x.toQ * y.toQ) := (B64.mul_finite h).2.2
  rw [e]
  exact rndQ_nonneg h0

theorem div_toQ_nonneg {x y : B64} (hx : x.isFinite = true) (hy : y.isFinite = true) (y0 : y.toQ ≠ 0)
    (h : (B64.div x y).isFinite = true) (h0 : 0 ≤ x.toQ / y.toQ) : 0 ≤ (B64.div x y).toQ := by
  rw [B64.div_fin hx hy, B64.divFin.eq_def, if_neg y0] at h ⊢
  rw [B64.ofQ_toQ h]
  exact rndQ_nonneg h0

section
variable {e2 p' q' : F64 L}

/-- First part: `r` and `s`. -/
theorem rs_rel (hL : AccurateInverse L) (h : VK E p q r s t u v w k) (d : VDom E p q) (he : Rel e2 E 6e-16 1e-65)
    (hp : Rel p' p 8e-16 1e-60) (hq : Rel q' q 6e-16 1e-60) (hp0 : 0 ≤ p'.toQ) (hq0 : 0 ≤ q'.toQ) :
    Rel (e2 * e2) (E * E) 1.32e-15 1e-64 ∧ Rel ((p' + q' - e2 * e2) / 6) r 1.18e-15 0 ∧
      Rel (e2 * e2 * p' * q' / (4 * Flt.powi ((p' + q' - e2 * e2) / 6) 3)) s 7.3e-15 8e-57 ∧
      0 ≤ (e2 * e2 * p' * q' / (4 * Flt.powi ((p' + q' - e2 * e2) / 6) 3)).toQ := by
  have b := h.bounds d
  have aE : |E| ≤ 0.01 := by rw [abs_of_pos d.e0]; exact d.e1
  have EE0 : 0 ≤ E * E := mul_self_nonneg E
  have aEE : |E * E| ≤ 1e-4 := by rw [abs_mul]; exact (mul_le_mul aE aE (abs_nonneg _) (by norm_num)).trans (by norm_num)
  have EE1 : E * E ≤ 1e-4 := (le_abs_self _).trans aEE
  have pp := d.lo
  have pp2 := d.hi
  have p0 := d.p0
  have q0 := d.q0
  have ap : |p| ≤ 12 := by rw [abs_of_nonneg p0]; linarith
  have aq : |q| ≤ 12 := by rw [abs_of_nonneg q0]; linarith
  have k1 : Rel (e2 * e2) (E * E) 1.32e-15 1e-64 := he.mul he aE aE (by norm_num) (by norm_num) (by norm_num) (by norm_num)
    (by norm_num) (by norm_num) (by norm_num) (by norm_num) (by norm_num) (by norm_num) (by norm_num)
  have k2 : Rel (p' + q') (p + q) 9.3e-16 0 := Rel.absorb (B := 0.5) (δ := 9.2e-16) (η := 2.1e-60)
    (hp.add (hq.mono (by norm_num) le_rfl) p0 q0 (by linarith) (by norm_num) (by norm_num) (by norm_num) (by norm_num)
      (by norm_num) (by norm_num) (by norm_num)) (by rw [abs_of_nonneg (by linarith)]; exact pp) (by norm_num) (by norm_num)
  have k3 : Rel (p' + q' - e2 * e2) (p + q - E * E) 1.06e-15 0 := Rel.absorb (B := 0.49) (δ := 1.05e-15) (η := 2e-64)
    (k2.sub (c := 2e-4) k1 (by linarith) EE0 (by linarith) (by norm_num) (by linarith) (by norm_num) (by norm_num)
      (by norm_num) (by norm_num) (by norm_num) (by norm_num) (by norm_num) (by norm_num))
    (by rw [abs_of_nonneg (by linarith)]; linarith) (by norm_num) (by norm_num)
  have hr := b.r1
  have hr2 := b.r2
  have k4 : Rel ((p' + q' - e2 * e2) / 6) r 1.18e-15 0 := Rel.absorb (B := 0.08) (δ := 1.175e-15) (η := 1e-70)
    ((k3.div rel_six (C := 6) (by norm_num) (by norm_num)
      (by rw [← h.hr, abs_of_nonneg (by linarith)]; linarith) (by norm_num) (by norm_num) (by norm_num) (by norm_num) (by norm_num)
      (by norm_num) (by norm_num) (by norm_num)).congr h.hr.symm)
    (by rw [abs_of_nonneg (by linarith)]; linarith) (by norm_num) (by norm_num)
  have k5 : Rel (Flt.powi ((p' + q' - e2 * e2) / 6) 3) (r ^ 3) 4e-15 0 := k4.cube hL (by linarith) (by linarith) (by norm_num)
    (by norm_num) (by norm_num) le_rfl
  have r3 : 0.0005 ≤ r ^ 3 := le_trans (by norm_num) (pow_le_pow_left₀ (by norm_num) hr 3)
  have r3' : r ^ 3 ≤ 8 := le_trans (pow_le_pow_left₀ (by linarith) hr2 3) (by norm_num)
  have k6 : Rel (4 * Flt.powi ((p' + q' - e2 * e2) / 6) 3) (4 * r ^ 3) 4.13e-15 0 := Rel.absorb (B := 0.002) (δ := 4.12e-15) (η := 1e-70)
    (rel_four.mul k5 (A := 4) (B := 8) (by norm_num) (by rw [abs_of_nonneg (by linarith)]; exact r3') (by norm_num) (by norm_num)
      (by norm_num) (by norm_num) (by norm_num) (by norm_num) (by norm_num) (by norm_num) (by norm_num) (by norm_num) (by norm_num))
    (by rw [abs_of_nonneg (by linarith)]; linarith) (by norm_num) (by norm_num)
  have k7 : Rel (e2 * e2 * p') (E * E * p) 2.24e-15 1.1e-60 := k1.mul hp aEE ap (by norm_num) (by norm_num) (by norm_num)
    (by norm_num) (by norm_num) (by norm_num) (by norm_num) (by norm_num) (by norm_num) (by norm_num) (by norm_num)
  have aEp : |E * E * p| ≤ 1.2e-3 := by rw [abs_mul]; exact (mul_le_mul aEE ap (abs_nonneg _) (by norm_num)).trans (by norm_num)
  have k8 : Rel (e2 * e2 * p' * q') (E * E * p * q) 2.96e-15 1.5e-59 := k7.mul hq aEp aq (by norm_num) (by norm_num) (by norm_num)
    (by norm_num) (by norm_num) (by norm_num) (by norm_num) (by norm_num) (by norm_num) (by norm_num) (by norm_num)
  have k9 : Rel (e2 * e2 * p' * q' / (4 * Flt.powi ((p' + q' - e2 * e2) / 6) 3)) s 7.3e-15 8e-57 :=
    (k8.div k6 (C := 0.002) (by rw [abs_of_nonneg (by linarith)]; linarith) (by norm_num)
      (by rw [← h.hs, abs_of_nonneg b.s0]; have := b.s1; linarith) (by norm_num) (by norm_num)
      (by norm_num) (by norm_num) (by norm_num) (by norm_num) (by norm_num) (by norm_num)).congr h.hs.symm
  refine ⟨k1, k4, k9, ?_⟩
  have n1 := mul_toQ_nonneg k1.1 (mul_self_nonneg _)
  have n2 := mul_toQ_nonneg k7.1 (mul_nonneg n1 hp0)
  have n3 := mul_toQ_nonneg k8.1 (mul_nonneg n2 hq0)
  have n4 : 0 < (4 * Flt.powi ((p' + q' - e2 * e2) / 6) 3 : F64 L).toQ := by
    have := k6.pos_of (c := 0.9) (by linarith) (by norm_num) (by norm_num)
    have : (0 : ℝ) < (4 * Flt.powi ((p' + q' - e2 * e2) / 6) 3 : F64 L).toQ := by linarith
    exact_mod_cast this
  exact div_toQ_nonneg k8.1 k6.1 n4.ne' k9.1 (div_nonneg n3 n4.le)

/-- Second part: `t` and `u`. -/
theorem u_rel (hL : AccurateInverse L) (h : VK E p q r s t u v w k) (d : VDom E p q) {r' s' : F64 L} (hr : Rel r' r 1.18e-15 0)
    (hs : Rel s' s 7.3e-15 8e-57) (hs0 : 0 ≤ s'.toQ) :
    Rel (r' * (1 + Flt.cbrt (1 + s' + Flt.sqrt (s' * (2 + s'))) + 1 / Flt.cbrt (1 + s' + Flt.sqrt (s' * (2 + s'))))) u 2.31e-15 0 := by
  have b := h.bounds d
  have s0 := b.s0
  have s1 := b.s1
  have as : |s| ≤ 0.0028 := by rw [abs_of_nonneg s0]; exact s1
  have k1 : Rel (2 + s') (2 + s) 7.5e-15 0 := Rel.absorb (B := 2) (δ := 7.42e-15) (η := 8.1e-57)
    ((rel_two.mono (by norm_num) le_rfl).add hs (by norm_num) s0 (by linarith) (by norm_num) (by norm_num) (by norm_num)
      (by norm_num) (by norm_num) (by norm_num) (by norm_num))
    (by rw [abs_of_nonneg (by linarith)]; linarith) (by norm_num) (by norm_num)
  have k2 : Rel (s' * (2 + s')) (s * (2 + s)) 1.5e-14 1.7e-56 := hs.mul k1 as (B := 2.01)
    (by rw [abs_of_nonneg (by linarith)]; linarith) (by norm_num) (by norm_num) (by norm_num)
    (by norm_num) (by norm_num) (by norm_num) (by norm_num) (by norm_num) (by norm_num) (by norm_num) (by norm_num)
  have n2 : 0 ≤ (2 + s').toQ := by
    have := k1.pos_of (c := 0.9) (by linarith) (by norm_num) (by norm_num)
    have : (0 : ℝ) ≤ (2 + s').toQ := by linarith
    exact_mod_cast this
  have n3 := mul_toQ_nonneg k2.1 (mul_nonneg hs0 n2)
  have k3 : Rel (Flt.sqrt (s' * (2 + s'))) (Real.sqrt (s * (2 + s))) 1.53e-14 1.5e-28 := k2.sqrt0 (G := 1.4e-28) hL.toAccurate n3
    (mul_nonneg s0 (by linarith)) (by norm_num) (by norm_num) (by norm_num) (by norm_num) (by norm_num) (by norm_num) (by norm_num)
  have g0 := Real.sqrt_nonneg (s * (2 + s))
  have g1 := b.g1
  have k4 : Near (Flt.sqrt (s' * (2 + s'))) (Real.sqrt (s * (2 + s))) 1.15e-15 := k3.toNear (A := 0.075)
    (by rw [abs_of_nonneg g0]; exact g1) (by norm_num) (by norm_num)
  have k5 : Near s' s 2.1e-17 := hs.toNear as (by norm_num) (by norm_num)
  have k6 : Near (1 : F64 L) 1 0 := rel_one.toNear (A := 1) (by norm_num) le_rfl (by norm_num)
  have k7 : Near (1 + s') (1 + s) 1.43e-16 := k6.add k5 (R := 1.003) (by rw [abs_of_nonneg (by linarith)]; linarith) (by norm_num)
    (by norm_num) (by norm_num)
  have k8 : Near (1 + s' + Flt.sqrt (s' * (2 + s'))) (t ^ 3) 1.43e-15 := (k7.add k4 (R := 1.08)
    (by rw [abs_of_nonneg (by linarith)]; linarith) (by norm_num) (by norm_num) (by norm_num)).congr h.ht.symm
  have t3 : 1 ≤ t ^ 3 := by rw [h.ht]; linarith
  have k9 : Rel (1 + s' + Flt.sqrt (s' * (2 + s'))) (t ^ 3) 1.43e-15 0 := k8.toRel (B := 1) (by rw [abs_of_nonneg (by linarith)]; exact t3)
    (by norm_num) (by norm_num)
  generalize (1 + s' + Flt.sqrt (s' * (2 + s')) : F64 L) = τ at *
  have t1 := b.t1
  have t2 := b.t2
  have at0 : |t| = t := abs_of_nonneg (by linarith)
  have k10 : Rel (Flt.cbrt τ) t 7.6e-16 0 := Rel.absorb (B := 1) (δ := 7.55e-16) (η := 1e-70)
    (k9.cbrt hL t3 (by norm_num) (by norm_num) rfl (by norm_num) (by norm_num)) (by rw [at0]; exact t1) (by norm_num) (by norm_num)
  have k11 : Rel (1 + Flt.cbrt τ) (1 + t) 8.8e-16 0 := Rel.absorb (B := 1) (δ := 8.75e-16) (η := 1e-70)
    ((rel_one.mono (by norm_num) le_rfl).add k10 (by norm_num) (by linarith) (by linarith) (by norm_num) (by norm_num) (by norm_num)
      (by norm_num) (by norm_num) (by norm_num) (by norm_num))
    (by rw [abs_of_nonneg (by linarith)]; linarith) (by norm_num) (by norm_num)
  have t0 : 0 < t := by linarith
  have i1 : 1 / t ≤ 1 := by rw [div_le_iff₀ t0]; linarith
  have i0 : 0.9 ≤ 1 / t := by rw [le_div_iff₀ t0]; linarith
  have k12 : Rel (1 / Flt.cbrt τ) (1 / t) 8.8e-16 0 := Rel.absorb (B := 0.9) (δ := 8.75e-16) (η := 1e-70)
    (rel_one.div k10 (C := 1) (by rw [at0]; exact t1) (by norm_num) (by rw [abs_of_nonneg (by linarith)]; linarith) (by norm_num)
      (by norm_num) (by norm_num) (by norm_num) (by norm_num) (by norm_num) (by norm_num) (by norm_num))
    (by rw [abs_of_nonneg (by linarith)]; exact i0) (by norm_num) (by norm_num)
  have k13 : Rel (1 + Flt.cbrt τ + 1 / Flt.cbrt τ) (1 + t + 1 / t) 1e-15 0 := Rel.absorb (B := 1) (δ := 9.95e-16) (η := 1e-70)
    (k11.add k12 (by linarith) (by linarith) (by linarith) (by norm_num) (by norm_num) (by norm_num)
      (by norm_num) (by norm_num) (by norm_num) (by norm_num))
    (by rw [abs_of_nonneg (by linarith)]; linarith) (by norm_num) (by norm_num)
  have r1 := b.r1
  have r2 := b.r2
  have u1 := b.u1
  have pp := d.lo
  refine Rel.absorb (B := 0.2) (δ := 2.3e-15) (η := 1e-70)
    ((hr.mul k13 (A := 2) (B := 3.1) (by rw [abs_of_nonneg (by linarith)]; exact r2) (by rw [abs_of_nonneg (by linarith)]; linarith)
      (by norm_num) (by norm_num) (by norm_num) (by norm_num) (by norm_num) (by norm_num) (by norm_num)
      (by norm_num) (by norm_num) (by norm_num) (by norm_num)).congr h.hu.symm)
    (by rw [abs_of_nonneg (by linarith)]; linarith) (by norm_num) (by norm_num)

set_option maxHeartbeats 1000000 in
/-- Third part: `v`, `w` and `k`. -/
theorem k_rel (hL : AccurateInverse L) (h : VK E p q r s t u v w k) (d : VDom E p q) {u' e4 : F64 L} (he : Rel e2 E 6e-16 1e-65)
    (h4 : Rel e4 (E * E) 1.32e-15 1e-64) (hq : Rel q' q 6e-16 1e-60) (hu : Rel u' u 2.31e-15 0) :
    let v' := Flt.sqrt (u' * u' + e4 * q')
    let w' := e2 * (u' + v' - q') / (2 * v')
    Rel (Flt.sqrt (u' + v' + w' * w') - w') k 2e-15 0 := by
  have b := h.bounds d
  have pp := d.lo
  have pp2 := d.hi
  have p0 := d.p0
  have q0 := d.q0
  have u1 := b.u1
  have u2 := b.u2
  have v1 := b.v1
  have v2 := b.v2
  set P := p + q with hP
  have aq : |q| ≤ 12 := by rw [abs_of_nonneg q0]; linarith
  have qP : q ≤ P := by linarith
  have EE0 : 0 ≤ E * E := mul_self_nonneg E
  have aE : |E| ≤ 0.01 := by rw [abs_of_pos d.e0]; exact d.e1
  have aEE : |E * E| ≤ 1e-4 := by rw [abs_mul]; exact (mul_le_mul aE aE (abs_nonneg _) (by norm_num)).trans (by norm_num)
  have au : |u| ≤ 6.1 := by rw [abs_of_nonneg (by linarith)]; linarith
  have uu : 0.04 ≤ u * u := (mul_le_mul (show 0.2 ≤ u by linarith) (show 0.2 ≤ u by linarith) (by norm_num) (by linarith)).trans' (by norm_num)
  have uu2 : u * u ≤ 40 := (mul_le_mul ((le_abs_self u).trans au) ((le_abs_self u).trans au) (by linarith) (by norm_num)).trans (by norm_num)
  have k1 : Rel (u' * u') (u * u) 4.75e-15 1e-69 := hu.mul hu au au (by norm_num) (by norm_num) (by norm_num) (by norm_num)
    (by norm_num) (by norm_num) (by norm_num) (by norm_num) (by norm_num) (by norm_num) (by norm_num)
  have k2 : Rel (e4 * q') (E * E * q) 4.75e-15 1.1e-60 := h4.mul hq aEE aq (by norm_num) (by norm_num) (by norm_num) (by norm_num)
    (by norm_num) (by norm_num) (by norm_num) (by norm_num) (by norm_num) (by norm_num) (by norm_num)
  have eq0 : 0 ≤ E * E * q := mul_nonneg EE0 q0
  have eq1 : E * E * q ≤ 0.0012 := by
    have := mul_le_mul ((le_abs_self _).trans aEE) ((le_abs_self _).trans aq) q0 (by norm_num)
    linarith
  have k3 : Rel (u' * u' + e4 * q') (u * u + E * E * q) 4.9e-15 0 := Rel.absorb (B := 0.04) (δ := 4.87e-15) (η := 1.2e-60)
    (k1.add k2 (by linarith) eq0 (by linarith) (by norm_num) (by norm_num) (by norm_num)
      (by norm_num) (by norm_num) (by norm_num) (by norm_num)) (by rw [abs_of_nonneg (by linarith)]; linarith) (by norm_num) (by norm_num)
  have av : |v| = v := abs_of_nonneg (by linarith)
  have k4 : Rel (Flt.sqrt (u' * u' + e4 * q')) v 2.7e-15 0 := Rel.absorb (B := 0.2) (δ := 2.68e-15) (η := 1e-70)
    ((k3.sqrt hL.toAccurate (by linarith) (by norm_num) (by norm_num) (by norm_num) le_rfl).congr h.hv.symm)
    (by rw [av]; linarith) (by norm_num) (by norm_num)
  intro v' w'
  change Rel v' v 2.7e-15 0 at k4
  have k5 : Rel (u' + v') (u + v) 2.83e-15 0 := Rel.absorb (B := 0.2) (δ := 2.82e-15) (η := 1e-70)
    ((hu.mono (by norm_num) le_rfl).add k4 (by linarith) (by linarith) (by linarith) (by norm_num) (by norm_num) (by norm_num)
      (by norm_num) (by norm_num) (by norm_num) (by norm_num)) (by rw [abs_of_nonneg (by linarith)]; linarith) (by norm_num) (by norm_num)
  have k6 : Near (u' + v') (u + v) (2.84e-15 * P) := k5.toNear (A := 1.001 * P) (by rw [abs_of_nonneg (by linarith)]; linarith)
    (by norm_num) (by norm_num at pp ⊢; linarith)
  have k7 : Near q' q (6.01e-16 * P) := hq.toNear (A := P) (by rw [abs_of_nonneg q0]; exact qP) (by norm_num)
    (by norm_num at pp ⊢; linarith)
  have aw : |u + v - q| ≤ 1.0008 * P := by rw [abs_le]; constructor <;> linarith
  have k8 : Near (u' + v' - q') (u + v - q) (3.6e-15 * P) := k6.sub k7 (R := 1.001 * P) (by norm_num at pp aw ⊢; linarith)
    (by norm_num at pp ⊢; linarith) (by norm_num at pp2 ⊢; linarith) (by norm_num at pp ⊢; linarith)
  have k9 : Near e2 E 6.01e-18 := he.toNear aE (by norm_num) (by norm_num)
  have k10 : Near (e2 * (u' + v' - q')) (E * (u + v - q)) (4.5e-17 * P) := k9.mul k8 (A := 0.01) (B := 1.0008 * P) (R := 0.0101 * P)
    aE aw (by norm_num at pp ⊢; linarith) (by norm_num at pp ⊢; linarith) (by norm_num at pp2 ⊢; linarith)
    (by norm_num at pp ⊢; linarith)
  have k11 : Rel (2 * v') (2 * v) 2.83e-15 0 := Rel.absorb (B := 0.2) (δ := 2.82e-15) (η := 1e-70)
    (rel_two.mul k4 (A := 2) (B := 7) (by norm_num) (by rw [av]; linarith) (by norm_num) (by norm_num) (by norm_num) (by norm_num)
    (by norm_num) (by norm_num) (by norm_num) (by norm_num) (by norm_num) (by norm_num) (by norm_num))
    (by rw [abs_of_nonneg (by linarith)]; linarith) (by norm_num) (by norm_num)
  have k12 : Near (2 * v') (2 * v) (2.84e-15 * P) := k11.toNear (A := 1.0012 * P) (by rw [abs_of_nonneg (by linarith)]; linarith)
    (by norm_num) (by norm_num at pp ⊢; linarith)
  have P0 : 0 < P := by linarith
  have kd : (4.5e-17 * P + 0.01002 * (2.84e-15 * P)) / (0.999 * P) ≤ 7.4e-17 := by
    rw [div_le_iff₀ (by positivity)]
    norm_num at P0 ⊢
    linarith
  have k13 : Near w' w 7.6e-17 := (k10.div' k12 (A := 0.01002) (B := 0.9998 * P) (C := 0.999 * P) (R := 0.0101) b.w1 (by norm_num) (by linarith)
    (by positivity) (by norm_num at P0 ⊢; linarith) (by norm_num at kd ⊢; linarith) (by norm_num) (by norm_num)
    (by norm_num at kd ⊢; linarith)).congr h.hw.symm
  have w2 := b.w2
  have k14 : Near (w' * w') (w * w) 1.6e-18 := k13.mul k13 w2 w2 (R := 1.01e-4) (by norm_num) (by norm_num) (by norm_num) (by norm_num)
  have ww0 := mul_self_nonneg w
  have ww : w * w ≤ 0.0002 := by
    have := mul_le_mul w2 w2 (abs_nonneg _) (by norm_num)
    rw [abs_mul_abs_self] at this
    norm_num at this ⊢
    linarith
  have k15 : Near (u' + v' + w' * w') (u + v + w * w) (2.966e-15 * P) := k6.add k14 (R := 1.002 * P)
    (by rw [abs_of_nonneg (by linarith)]; norm_num at pp u2 v2 ww ⊢; linarith) (by norm_num at pp ⊢; linarith) (by norm_num at pp2 ⊢; linarith)
    (by norm_num at pp ⊢; linarith)
  have k16 : Rel (u' + v' + w' * w') (u + v + w * w) 2.97e-15 0 := k15.toRel (B := 0.9998 * P)
    (by rw [abs_of_nonneg (by linarith)]; linarith) (by norm_num) (by norm_num at P0 ⊢; linarith)
  have m1 := b.m1
  have m2 := b.m2
  have k17 : Rel (Flt.sqrt (u' + v' + w' * w')) (Real.sqrt (u + v + w * w)) 1.72e-15 0 := Rel.absorb (B := 0.2) (δ := 1.715e-15) (η := 1e-70)
    (k16.sqrt hL.toAccurate (by linarith) (by norm_num) (by norm_num) (by norm_num) le_rfl)
    (by rw [abs_of_nonneg (by linarith)]; linarith) (by norm_num) (by norm_num)
  have kk1 := b.k1
  have hk := h.hk
  generalize Real.sqrt (u + v + w * w) = m at *
  have k18 : Near (Flt.sqrt (u' + v' + w' * w')) m (1.72e-15 * m) := k17.toNear (A := m) (by rw [abs_of_nonneg (by linarith)])
    (by norm_num) (by norm_num)
  have w3 := abs_le.1 w2
  have k19 : Near (Flt.sqrt (u' + v' + w' * w') - w') k (1.965e-15 * m) := (k18.sub k13 (R := 1.02 * m)
    (by rw [← hk, abs_of_nonneg (by linarith)]; norm_num at m1 w3 ⊢; linarith) (by norm_num at m1 ⊢; linarith) (by norm_num at m2 ⊢; linarith)
    (by norm_num at m1 ⊢; linarith)).congr hk.symm
  exact k19.toRel (B := 0.985 * m) (by rw [abs_of_nonneg (by linarith)]; exact kk1) (by norm_num) (by norm_num at m1 ⊢; linarith)

/-- The error of `k`. -/
theorem vermeilleK_rel (hL : AccurateInverse L) (h : VK E p q r s t u v w k) (d : VDom E p q) (he : Rel e2 E 6e-16 1e-65)
    (hp : Rel p' p 8e-16 1e-60) (hq : Rel q' q 6e-16 1e-60) (hp0 : 0 ≤ p'.toQ) (hq0 : 0 ≤ q'.toQ) :
    Rel (vermeilleK e2 p' q') k 2e-15 0 := by
  obtain ⟨h1, h2, h3, h4⟩ := rs_rel hL h d he hp hq hp0 hq0
  exact k_rel hL h d he h1 hq (u_rel hL h d h2 h3 h4)

end

end Geo
