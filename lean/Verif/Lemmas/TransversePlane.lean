import Verif.Lemmas.TransverseLoop
import Mathlib.Analysis.SpecialFunctions.Trigonometric.Series

/-! The transverse Mercator projection in IEEE arithmetic: the inverse up to the conformal sphere. -/

namespace Geo
open XR Spec
variable {L : Libm}

theorem hyp_113 : Real.cosh 1.13 ≤ 1.9 ∧ Real.sinh 1.13 ≤ 1.9 := by
  have h1 : Real.cosh 1.13 ≤ 1.9 := by
    refine (Real.cosh_le_exp_half_sq 1.13).trans ?_
    have h2 : Real.exp (1.13 ^ 2 / 2) ≤ Real.exp (16 / 25) := Real.exp_le_exp.2 (by norm_num)
    refine h2.trans ?_
    by_contra hc
    push Not at hc
    have h3 := pow_lt_pow_left₀ hc (by norm_num) (n := 25) (by norm_num)
    rw [← Real.exp_nat_mul] at h3
    have h4 : Real.exp (((25 : ℕ) : ℝ) * (16 / 25)) = Real.exp 1 ^ 16 := by rw [← Real.exp_nat_mul]; norm_num
    rw [h4] at h3
    have h5 := pow_le_pow_left₀ (Real.exp_pos 1).le Real.exp_one_lt_d9.le 16
    norm_num at h3 h5
    linarith
  exact ⟨h1, (Real.sinh_lt_cosh _).le.trans h1⟩

/-- The third flattening for flattenings up to 1/200, and the coefficients of the inverse series. -/
theorem nR_flat {a b : ℝ} (hb : 6000000 ≤ b) (hab : b ≤ a) (hf : 0.995 * a ≤ b) : 0 ≤ nR a b ∧ nR a b ≤ 0.002507 := by
  refine ⟨nR_nonneg (by linarith) hab, ?_⟩
  rw [nR, div_le_iff₀ (by linarith)]
  norm_num at *
  linarith

theorem tmp_flat {n : ℝ} (h0 : 0 ≤ n) (h1 : n ≤ 0.002507) :
    |tmp0 n| ≤ 1.26e-3 ∧ |tmp1 n| ≤ 1.4e-7 ∧ |tmp2 n| ≤ 5.8e-10 ∧ |tmp3 n| ≤ 1.1e-12 := by
  have p2 : n ^ 2 ≤ 0.002507 ^ 2 := pow_le_pow_left₀ h0 h1 2
  have p3 : n ^ 3 ≤ 0.002507 ^ 3 := pow_le_pow_left₀ h0 h1 3
  have p4 : n ^ 4 ≤ 0.002507 ^ 4 := pow_le_pow_left₀ h0 h1 4
  have q2 : 0 ≤ n ^ 2 := by positivity
  have q3 : 0 ≤ n ^ 3 := by positivity
  have q4 : 0 ≤ n ^ 4 := by positivity
  unfold tmp0 tmp1 tmp2 tmp3
  generalize n ^ 2 = a2 at *
  generalize n ^ 3 = a3 at *
  generalize n ^ 4 = a4 at *
  refine ⟨?_, ?_, ?_, ?_⟩ <;> rw [abs_le] <;> constructor <;> norm_num at * <;> linarith

theorem inv_sc (hL : AccurateProjection L) {x y p0 p1 p2 p3 : F64 L} {ξ η p0' p1' p2' p3' : ℝ}
    (k0 : Near p0 p0' 3.1e-17 ∧ |p0'| ≤ 1.26e-3)
    (k1 : Near p1 p1' 2.4e-19 ∧ |p1'| ≤ 1.4e-7)
    (k2 : Near p2 p2' 3.3e-20 ∧ |p2'| ≤ 5.8e-10)
    (k3 : Near p3 p3' 2.5e-21 ∧ |p3'| ≤ 1.1e-12)
    (hx : Near x ξ 1.11e-13) (hy : Near y η 4.8e-14) (bx : |ξ| ≤ 1.482) (bY : |η| ≤ 0.55) :
    Near (TransverseMercator.sumSinCosh p0 p1 p2 p3 x y) (sSC p0' p1' p2' p3' ξ η) 8.9e-16 ∧ |sSC p0' p1' p2' p3' ξ η| ≤ 2.4e-3 := by
  have t0 := sc_term hL near_2 (by norm_num) (by norm_num) k0.1 k0.2 hx hy bx bY (by norm_num) (by norm_num) (μ := 1.13)
    (by norm_num) (by norm_num) (by norm_num) hyp_113 (by norm_num) (by norm_num) (by norm_num) (by norm_num)
    (by norm_num) (E1 := 2.3e-13) (E2 := 1.9e-13) (E3 := 3.3e-16) (E := 8.7e-16) (by norm_num) (by norm_num) (by norm_num) (by norm_num) (by norm_num)
  have t1 := sc_term hL near_4 (by norm_num) (by norm_num) k1.1 k1.2 hx hy bx bY (by norm_num) (by norm_num) (μ := (3 : ℕ))
    (by norm_num) (by norm_num) (by norm_num) (hyp_le (K := 1.055e1) (by norm_num)) (by norm_num) (by norm_num) (by norm_num) (by norm_num)
    (by norm_num) (E1 := 4.5e-13) (E2 := 2.1e-12) (E3 := 3.1e-19) (E := 3.6e-18) (by norm_num) (by norm_num) (by norm_num) (by norm_num) (by norm_num)
  have t2 := sc_term hL near_6 (by norm_num) (by norm_num) k2.1 k2.2 hx hy bx bY (by norm_num) (by norm_num) (μ := (4 : ℕ))
    (by norm_num) (by norm_num) (by norm_num) (hyp_le (K := 2.78e1) (by norm_num)) (by norm_num) (by norm_num) (by norm_num) (by norm_num)
    (by norm_num) (E1 := 6.7e-13) (E2 := 8.1e-12) (E3 := 3.4e-20) (E := 9.5e-19) (by norm_num) (by norm_num) (by norm_num) (by norm_num) (by norm_num)
  have t3 := sc_term hL near_8 (by norm_num) (by norm_num) k3.1 k3.2 hx hy bx bY (by norm_num) (by norm_num) (μ := (5 : ℕ))
    (by norm_num) (by norm_num) (by norm_num) (hyp_le (K := 7.471e1) (by norm_num)) (by norm_num) (by norm_num) (by norm_num) (by norm_num)
    (by norm_num) (E1 := 8.9e-13) (E2 := 2.9e-11) (E3 := 2.6e-21) (E := 2e-19) (by norm_num) (by norm_num) (by norm_num) (by norm_num) (by norm_num)
  exact sum4_near t0 t1 t2 t3 (S := 8.8e-16) (by norm_num) (by norm_num) (by norm_num) (by norm_num) (by norm_num)

theorem inv_cs (hL : AccurateProjection L) {x y p0 p1 p2 p3 : F64 L} {ξ η p0' p1' p2' p3' : ℝ}
    (k0 : Near p0 p0' 3.1e-17 ∧ |p0'| ≤ 1.26e-3)
    (k1 : Near p1 p1' 2.4e-19 ∧ |p1'| ≤ 1.4e-7)
    (k2 : Near p2 p2' 3.3e-20 ∧ |p2'| ≤ 5.8e-10)
    (k3 : Near p3 p3' 2.5e-21 ∧ |p3'| ≤ 1.1e-12)
    (hx : Near x ξ 1.11e-13) (hy : Near y η 4.8e-14) (bx : |ξ| ≤ 1.482) (bY : |η| ≤ 0.55) :
    Near (TransverseMercator.sumCosSinh p0 p1 p2 p3 x y) (sCS p0' p1' p2' p3' ξ η) 8.9e-16 ∧ |sCS p0' p1' p2' p3' ξ η| ≤ 2.4e-3 := by
  have t0 := cs_term hL near_2 (by norm_num) (by norm_num) k0.1 k0.2 hx hy bx bY (by norm_num) (by norm_num) (μ := 1.13)
    (by norm_num) (by norm_num) (by norm_num) hyp_113 (by norm_num) (by norm_num) (by norm_num) (by norm_num)
    (by norm_num) (E1 := 2.3e-13) (E2 := 1.9e-13) (E3 := 3.3e-16) (E := 8.7e-16) (by norm_num) (by norm_num) (by norm_num) (by norm_num) (by norm_num)
  have t1 := cs_term hL near_4 (by norm_num) (by norm_num) k1.1 k1.2 hx hy bx bY (by norm_num) (by norm_num) (μ := (3 : ℕ))
    (by norm_num) (by norm_num) (by norm_num) (hyp_le (K := 1.055e1) (by norm_num)) (by norm_num) (by norm_num) (by norm_num) (by norm_num)
    (by norm_num) (E1 := 4.5e-13) (E2 := 2.1e-12) (E3 := 3.1e-19) (E := 3.6e-18) (by norm_num) (by norm_num) (by norm_num) (by norm_num) (by norm_num)
  have t2 := cs_term hL near_6 (by norm_num) (by norm_num) k2.1 k2.2 hx hy bx bY (by norm_num) (by norm_num) (μ := (4 : ℕ))
    (by norm_num) (by norm_num) (by norm_num) (hyp_le (K := 2.78e1) (by norm_num)) (by norm_num) (by norm_num) (by norm_num) (by norm_num)
    (by norm_num) (E1 := 6.7e-13) (E2 := 8.1e-12) (E3 := 3.4e-20) (E := 9.5e-19) (by norm_num) (by norm_num) (by norm_num) (by norm_num) (by norm_num)
  have t3 := cs_term hL near_8 (by norm_num) (by norm_num) k3.1 k3.2 hx hy bx bY (by norm_num) (by norm_num) (μ := (5 : ℕ))
    (by norm_num) (by norm_num) (by norm_num) (hyp_le (K := 7.471e1) (by norm_num)) (by norm_num) (by norm_num) (by norm_num) (by norm_num)
    (by norm_num) (E1 := 8.9e-13) (E2 := 2.9e-11) (E3 := 2.6e-21) (E := 2e-19) (by norm_num) (by norm_num) (by norm_num) (by norm_num) (by norm_num)
  exact sum4_near t0 t1 t2 t3 (S := 8.8e-16) (by norm_num) (by norm_num) (by norm_num) (by norm_num) (by norm_num)


section
variable {el : Ellipsoid (F64 L)} {E N k0 fe fn φ0 : F64 L} {E' N' K0 : ℝ}

theorem kB_near (h : EarthSized el) (hk : Near k0 K0 1.2e-16) (k1 : 0.9 ≤ K0) (k2 : K0 ≤ 1.1) :
    Near (k0 * (el.a / (1.0 + el.n) * fastPoly [1, 0, 0.25, 0, 1 / 64] el.n : Length (F64 L)).m) (K0 * tmB el.a.m.toQ el.b.m.toQ) 6.8e-9 ∧
      5400000 ≤ K0 * tmB el.a.m.toQ el.b.m.toQ ∧ K0 * tmB el.a.m.toQ el.b.m.toQ ≤ 7722000 := by
  obtain ⟨kB, B1, B2⟩ := tm_B_near h
  have hk0 : 0 ≤ K0 := by norm_num at *; linarith
  have rk : |K0| ≤ 1.1 := by rw [abs_of_nonneg hk0]; exact k2
  have bB : |tmB (el.a.m.toQ : ℝ) el.b.m.toQ| ≤ 7020000 := by rw [abs_of_nonneg (by linarith)]; exact B2
  refine ⟨Near.mul hk kB (A := 1.1) (B := 7020000) (R := 7723000) rk bB (by norm_num) (by norm_num) (by norm_num) (by norm_num), ?_, ?_⟩
  · norm_num at *; nlinarith
  · norm_num at *; nlinarith

theorem eta_near (h : EarthSized el) (hk : Near k0 K0 1.2e-16) (k1 : 0.9 ≤ K0) (k2 : K0 ≤ 1.1) (hE : Near E E' 2.5e-7)
    (hfe : fe.isFinite) (b : |tmEta' el.a.m.toQ el.b.m.toQ K0 fe.toQ E'| ≤ 0.55) :
    Near ((E - fe) / (k0 * (el.a / (1.0 + el.n) * fastPoly [1, 0, 0.25, 0, 1 / 64] el.n : Length (F64 L)).m))
      (tmEta' el.a.m.toQ el.b.m.toQ K0 fe.toQ E') 4.8e-14 := by
  obtain ⟨kB, B1, B2⟩ := kB_near h hk k1 k2
  unfold tmEta' at *
  generalize K0 * tmB (el.a.m.toQ : ℝ) el.b.m.toQ = D at *
  have hD : 0 < D := by linarith
  rw [abs_div, abs_of_pos hD, div_le_iff₀ hD] at b
  have kn := Near.sub hE (Near.exact hfe) (R := 4300000) (E := 2.51e-7) (by norm_num at *; linarith) (by norm_num) (by norm_num) (by norm_num)
  exact Near.div' kn kB (A := 0.55) (B := 5400000) (C := 5390000) (R := 0.56) b (by norm_num) B1 (by norm_num) (by norm_num) (by norm_num) (by norm_num)
    (by norm_num) (by norm_num)

theorem xi_near (h : EarthSized el) {m : F64 L} {M : ℝ} (kM : Near m M 6.8e-8) (bM : |M| ≤ 1.14e7) (hk : Near k0 K0 1.2e-16)
    (k1 : 0.9 ≤ K0) (k2 : K0 ≤ 1.1) (hN : Near N N' 5e-7) (hfn : fn.isFinite)
    (b : |(N' - fn.toQ + K0 * M) / (K0 * tmB el.a.m.toQ el.b.m.toQ)| ≤ 1.482) :
    Near ((N - fn + k0 * m) / (k0 * (el.a / (1.0 + el.n) * fastPoly [1, 0, 0.25, 0, 1 / 64] el.n : Length (F64 L)).m))
      ((N' - fn.toQ + K0 * M) / (K0 * tmB el.a.m.toQ el.b.m.toQ)) 1.11e-13 := by
  obtain ⟨kB, B1, B2⟩ := kB_near h hk k1 k2
  have rk : |K0| ≤ 1.1 := by rw [abs_of_nonneg (by norm_num at *; linarith)]; exact k2
  generalize K0 * tmB (el.a.m.toQ : ℝ) el.b.m.toQ = D at *
  have hD : 0 < D := by linarith
  rw [abs_div, abs_of_pos hD, div_le_iff₀ hD] at b
  have kKM := Near.mul hk kM (A := 1.1) (B := 1.14e7) (R := 12600000) (E := 7.8e-8) rk bM (by norm_num) (by norm_num) (by norm_num) (by norm_num)
  have bKM : |K0 * M| ≤ 12540000 := by rw [abs_mul]; exact (mul_le_mul rk bM (abs_nonneg _) (by norm_num)).trans (by norm_num)
  have bN : |N' - fn.toQ| ≤ 23990000 := by
    have := abs_sub (N' - fn.toQ + K0 * M) (K0 * M)
    rw [add_sub_cancel_right] at this
    norm_num at *; linarith
  have kn := Near.sub hN (Near.exact hfn) (R := 24000000) (E := 5.03e-7) (by norm_num at *; linarith) (by norm_num) (by norm_num) (by norm_num)
  have ks := Near.add kn kKM (R := 11500000) (E := 5.83e-7) (by norm_num at *; linarith) (by norm_num) (by norm_num) (by norm_num)
  exact Near.div' ks kB (A := 1.482) (B := 5400000) (C := 5390000) (R := 1.49) b (by norm_num) B1 (by norm_num) (by norm_num) (by norm_num) (by norm_num)
    (by norm_num) (by norm_num)

end
end Geo
