import Verif.Lemmas.TransverseSchreiber

/-! The transverse Mercator projection in IEEE arithmetic: meridian arc of the origin and projected point. -/

namespace Geo
open XR Spec
variable {L : Libm}

/-! ### Meridian arc -/

section
variable {m x h : F64 L} {M ξ h' H γ ε X E1 E : ℝ}

theorem s_term (hL : AccurateProjection L) (hm : Near m M 0) (hM0 : 1 ≤ M) (hM : M ≤ 8) (hh : Near h h' γ) (hH : |h'| ≤ H)
    (hx : Near x ξ ε) (bx : |ξ| ≤ X) (hX : X ≤ 3.9) (hX1 : 1e-3 ≤ X) (hε : ε ≤ 1e-6) (hH1 : 1e-40 ≤ H) (hH2 : H ≤ 1)
    (hE1 : M * ε + 1.21e-16 * (M * X + 1e-4) + 2.3e-16 ≤ E1)
    (hE : H * E1 + γ + γ * E1 + 1.2e-16 * (H + (H * E1 + γ + γ * E1)) ≤ E) (hE4 : E ≤ 1) :
    Near (h * Flt.sin (m * x)) (h' * Real.sin (M * ξ)) E ∧ |h' * Real.sin (M * ξ)| ≤ H := by
  have hMe : M * ε ≤ 1e-5 := by have := hx.nonneg; norm_num at hε ⊢; nlinarith
  have hMX : M * X ≤ 31.2 := by norm_num at hX hX1 ⊢; nlinarith
  obtain ⟨k1, b1⟩ := scale_near hm hM0 hM hx bx hε (hX.trans (by norm_num)) hX1
  have k3 := Near.sin' hL k1 (E := E1) (by norm_num at b1 hMX hMe ⊢; linarith) hE1
  have bs := Real.abs_sin_le_one (M * ξ)
  have p1 := hh.nonneg
  have p3 := k3.nonneg
  have hH0 : 0 ≤ H := (abs_nonneg _).trans hH
  have q1 : 0 ≤ H * E1 + γ + γ * E1 := by positivity
  have u3 : H * E1 + γ + γ * E1 ≤ 1 := by
    refine le_trans ?_ (hE.trans hE4)
    have : 0 ≤ 1.2e-16 * (H + (H * E1 + γ + γ * E1)) := by positivity
    linarith
  refine ⟨Near.mul hh k3 (A := H) (B := 1) (R := H + (H * E1 + γ + γ * E1)) (E := E) hH bs (by rw [mul_one, one_mul])
    (by norm_num at hH1 ⊢; linarith) (le_trans (by linarith) (by norm_num : (2 : ℝ) ≤ 1e60)) (by rw [one_mul]; exact hE), ?_⟩
  rw [abs_mul]
  have := mul_le_mul hH bs (abs_nonneg _) ((abs_nonneg _).trans hH)
  rwa [mul_one] at this
end

theorem arc_sum_near (hL : AccurateProjection L) {b h0 h1 h2 h3 : F64 L} {β h0' h1' h2' h3' : ℝ}
    (k0 : Near h0 h0' 3.1e-17 ∧ |h0'| ≤ 4.4e-2) (k1 : Near h1 h1' 2.7e-18 ∧ |h1'| ≤ 2.1e-3)
    (k2 : Near h2 h2' 2.9e-19 ∧ |h2'| ≤ 1.6e-4) (k3 : Near h3 h3' 2.7e-20 ∧ |h3'| ≤ 1.2e-5)
    (hb : Near b β 6e-15) (bb : |β| ≤ 1.5708) :
    Near (fsum [b, h0 * Flt.sin (2.0 * b), h1 * Flt.sin (4.0 * b), h2 * Flt.sin (6.0 * b), h3 * Flt.sin (8.0 * b)])
      (β + h0' * Real.sin (2 * β) + h1' * Real.sin (4 * β) + h2' * Real.sin (6 * β) + h3' * Real.sin (8 * β)) 8.1e-15 ∧
      |β + h0' * Real.sin (2 * β) + h1' * Real.sin (4 * β) + h2' * Real.sin (6 * β) + h3' * Real.sin (8 * β)| ≤ 1.62 := by
  obtain ⟨t0, a0⟩ := s_term hL near_2 (by norm_num) (by norm_num) k0.1 k0.2 hb bb (by norm_num) (by norm_num) (by norm_num) (by norm_num)
    (by norm_num) (E1 := 1.27e-14) (E := 6.1e-16) (by norm_num) (by norm_num) (by norm_num)
  obtain ⟨t1, a1⟩ := s_term hL near_4 (by norm_num) (by norm_num) k1.1 k1.2 hb bb (by norm_num) (by norm_num) (by norm_num) (by norm_num)
    (by norm_num) (E1 := 2.6e-14) (E := 6e-17) (by norm_num) (by norm_num) (by norm_num)
  obtain ⟨t2, a2⟩ := s_term hL near_6 (by norm_num) (by norm_num) k2.1 k2.2 hb bb (by norm_num) (by norm_num) (by norm_num) (by norm_num)
    (by norm_num) (E1 := 4e-14) (E := 1e-17) (by norm_num) (by norm_num) (by norm_num)
  obtain ⟨t3, a3⟩ := s_term hL near_8 (by norm_num) (by norm_num) k3.1 k3.2 hb bb (by norm_num) (by norm_num) (by norm_num) (by norm_num)
    (by norm_num) (E1 := 6e-14) (E := 1e-17) (by norm_num) (by norm_num) (by norm_num)
  generalize h0' * Real.sin (2 * β) = T0 at *
  generalize h1' * Real.sin (4 * β) = T1 at *
  generalize h2' * Real.sin (6 * β) = T2 at *
  generalize h3' * Real.sin (8 * β) = T3 at *
  have c1 := abs_add_le β T0
  have c2 := abs_add_le (β + T0) T1
  have c3 := abs_add_le (β + T0 + T1) T2
  have c4 := abs_add_le (β + T0 + T1 + T2) T3
  norm_num at bb a0 a1 a2 a3
  have s := (Near.add zero_near hb (R := 1.63) (E := 6.2e-15) (by rw [zero_add]; norm_num; linarith) (by norm_num) (by norm_num)
    (by norm_num)).congr (zero_add β)
  have s0 := Near.add s t0 (R := 1.63) (E := 7.1e-15) (by norm_num; linarith) (by norm_num) (by norm_num) (by norm_num)
  have s1 := Near.add s0 t1 (R := 1.63) (E := 7.4e-15) (by norm_num; linarith) (by norm_num) (by norm_num) (by norm_num)
  have s2 := Near.add s1 t2 (R := 1.63) (E := 7.7e-15) (by norm_num; linarith) (by norm_num) (by norm_num) (by norm_num)
  have s3 := Near.add s2 t3 (R := 1.63) (E := 8.1e-15) (by norm_num; linarith) (by norm_num) (by norm_num) (by norm_num)
  exact ⟨s3, by norm_num; linarith⟩

theorem eq_zero_b64 {x : B64} (h : x.isFinite = true) : B64.eq x (B64.lit 0) = decide (x.toQ = 0) := by
  have hz : (B64.lit 0).isFinite = true ∧ (B64.lit 0).toQ = 0 := by decide +kernel
  rw [B64.eq_fin h hz.1, hz.2]

theorem ne_pi_2_b64 {x : B64} (h : x.isFinite = true) (hb : |x.toQ| ≤ 1.4836) : B64.eq (B64.abs x) B64.pi_2 = false := by
  rw [B64.eq_fin (by rw [B64.abs_finite]; exact h) pi_2_fin.1, B64.abs_toQ, pi_2_fin.2, decide_eq_false_iff_not]
  intro h0
  rw [h0] at hb
  norm_num at hb

theorem arc_near (hL : AccurateProjection L) {el : Ellipsoid (F64 L)} (h : EarthSized el) {φ : F64 L} (hφ : φ.isFinite)
    (hb : |φ.toQ| ≤ 1.4836) :
    Near (TransverseMercator.meridianArc ⟨⟨φ⟩⟩ (el.a / (1.0 + el.n) * fastPoly [1, 0, 0.25, 0, 1 / 64] el.n : Length (F64 L)) el.e
      (fastPoly [0, 0.5, -2 / 3, 5 / 16, 41 / 180] el.n) (fastPoly [0, 0, 13 / 48, -3 / 5, 557 / 1440] el.n)
      (fastPoly [0, 0, 0, 61 / 240, -103 / 140] el.n) (fastPoly [0, 0, 0, 0, 49561 / 161280] el.n)).m
      (tmM0 el.a.m.toQ el.b.m.toQ φ.toQ) 6.8e-8 ∧ |tmM0 el.a.m.toQ el.b.m.toQ φ.toQ| ≤ 1.14e7 := by
  obtain ⟨kn, bn⟩ := tm_n_near h
  obtain ⟨kB, B1, B2⟩ := tm_B_near h
  obtain ⟨ke, e0, e1⟩ := tm_e_near hL.toAccurate h
  obtain ⟨kβ, bβ, _⟩ := conf_near hL ke e0 e1 hφ hb
  obtain ⟨ks, bs⟩ := arc_sum_near hL (tm_h0_near kn bn) (tm_h1_near kn bn) (tm_h2_near kn bn) (tm_h3_near kn bn) kβ bβ
  have hp1 := Real.pi_gt_d2
  have hbR : |(φ.toQ : ℝ)| ≤ 1.4836 := by
    have := cast_abs_le hb
    push_cast at this
    exact this
  have q1 : (⟨⟨φ⟩⟩ : Lat (F64 L)).beq Lat.ZERO = decide (φ.toQ = 0) := eq_zero_b64 hφ
  have q2 : (⟨⟨φ⟩⟩ : Lat (F64 L)).abs.beq Lat.MAX = false := ne_pi_2_b64 hφ hb
  by_cases h0 : φ.toQ = 0
  · have e1 : TransverseMercator.meridianArc ⟨⟨φ⟩⟩ (el.a / (1.0 + el.n) * fastPoly [1, 0, 0.25, 0, 1 / 64] el.n : Length (F64 L)) el.e
      (fastPoly [0, 0.5, -2 / 3, 5 / 16, 41 / 180] el.n) (fastPoly [0, 0, 13 / 48, -3 / 5, 557 / 1440] el.n)
      (fastPoly [0, 0, 0, 61 / 240, -103 / 140] el.n) (fastPoly [0, 0, 0, 0, 49561 / 161280] el.n) = Length.new 0.0 M := by
      rw [TransverseMercator.meridianArc, q1, if_pos (by simpa using h0)]
    have e2 : tmM0 el.a.m.toQ el.b.m.toQ φ.toQ = 0 := by rw [tmM0, if_pos (by exact_mod_cast h0)]
    rw [e1, e2]
    refine ⟨?_, by norm_num⟩
    refine (lit_near (L := L) (q := 0) (r := 0) ?_ (by simp)).mono (by norm_num)
    show B64.isFinite (B64.mul (B64.lit 0.0) (B64.div (B64.lit 1) (B64.lit 1))) = true ∧
      (B64.mul (B64.lit 0.0) (B64.div (B64.lit 1) (B64.lit 1))).toQ = 0
    decide +kernel
  · rw [tmM0, if_neg (by exact_mod_cast h0), if_neg (by intro hh; rw [hh] at hbR; norm_num at hbR hp1; linarith),
      TransverseMercator.meridianArc, q1, q2, if_neg (by simpa using h0), if_neg (by simp)]
    constructor
    · refine (Near.mul ks kB (A := 1.62) (B := 7020000) (R := 1.14e7) (E := 6.8e-8) bs (by rw [abs_of_nonneg (by linarith)]; exact B2)
        (by norm_num) (by norm_num) (by norm_num) (by norm_num)).congr (mul_comm _ _)
    · show |tmB el.a.m.toQ el.b.m.toQ * _| ≤ _
      rw [abs_mul, abs_of_nonneg (by linarith)]
      refine (mul_le_mul B2 bs (abs_nonneg _) (by norm_num)).trans (by norm_num)

/-! ### The projected point -/

theorem tm_proj_near (hL : AccurateProjection L) {el : Ellipsoid (F64 L)} (h : EarthSized el) {l l0 φ φ0 k0 fe fn ht : F64 L} {L0 K0 : ℝ}
    (hl : InLonRange l) (hl0 : InLonRange l0) (kl0 : Near l0 L0 1.3e-15) (hφ : φ.isFinite) (hb : |φ.toQ| ≤ 1.4836) (hφ0 : φ0.isFinite) (hb0 : |φ0.toQ| ≤ 1.4836)
    (hk : Near k0 K0 1.2e-16) (rk : |K0| ≤ 1.1) (hfe : fe.isFinite) (hfe1 : |fe.toQ| ≤ 20000000) (hfn : fn.isFinite)
    (hfn1 : |fn.toQ| ≤ 20000000) (hs : |Real.sin ((l.toQ : ℝ) - L0)| ≤ 0.48) :
    let β := confR (Real.sqrt (ecc2 el.a.m.toQ el.b.m.toQ)) φ.toQ
    let η := Real.artanh (Real.cos β * Real.sin ((l.toQ : ℝ) - L0))
    let ξ := Real.arcsin (Real.sin β * Real.cosh η)
    let n := nR el.a.m.toQ el.b.m.toQ
    ∃ E N : F64 L, (TransverseMercator.new el ⟨⟨l0⟩⟩ ⟨⟨φ0⟩⟩ k0 ⟨fe⟩ ⟨fn⟩).proj ⟨⟨⟨l⟩⟩, ⟨⟨φ⟩⟩, ⟨ht⟩⟩ = .ok ⟨⟨E⟩, ⟨N⟩, ⟨ht⟩⟩ ∧
      Near E (fe.toQ + K0 * tmB el.a.m.toQ el.b.m.toQ * (η + sCS (tmh0 n) (tmh1 n) (tmh2 n) (tmh3 n) ξ η)) 2.5e-7 ∧
      Near N (fn.toQ + K0 * (tmB el.a.m.toQ el.b.m.toQ * (ξ + sSC (tmh0 n) (tmh1 n) (tmh2 n) (tmh3 n) ξ η)
        - tmM0 el.a.m.toQ el.b.m.toQ φ0.toQ)) 5e-7 := by
  intro β η ξ n
  obtain ⟨kn, bn⟩ := tm_n_near h
  obtain ⟨kB, B1, B2⟩ := tm_B_near h
  obtain ⟨ke, e0, e1⟩ := tm_e_near hL.toAccurate h
  obtain ⟨kβ, bβ, cβ⟩ := conf_near hL ke e0 e1 hφ hb
  obtain ⟨kM, bM⟩ := arc_near hL h hφ0 hb0
  obtain ⟨_, bη, _, _, _⟩ := gs_real cβ hs
  obtain ⟨kη, kξ⟩ := gs_near hL kβ (sin_diff_near hL hl hl0 kl0) bβ cβ hs
  have bξ : |ξ| ≤ 1.5708 := by
    have := Real.pi_lt_d4
    rw [abs_le]
    have := Real.neg_pi_div_two_le_arcsin (Real.sin β * Real.cosh η)
    have := Real.arcsin_le_pi_div_two (Real.sin β * Real.cosh η)
    constructor <;> norm_num at * <;> linarith
  have bξ6 : |ξ| ≤ 1.6 := bξ.trans (by norm_num)
  obtain ⟨kc, bc⟩ := fwd_cs hL (tm_h0_near kn bn) (tm_h1_near kn bn) (tm_h2_near kn bn) (tm_h3_near kn bn) kξ kη bξ6 bη
  obtain ⟨ks, bs⟩ := fwd_sc hL (tm_h0_near kn bn) (tm_h1_near kn bn) (tm_h2_near kn bn) (tm_h3_near kn bn) kξ kη bξ6 bη
  have re : |(fe.toQ : ℝ)| ≤ 20000000 := by have := cast_abs_le hfe1; push_cast at this; exact this
  have rn : |(fn.toQ : ℝ)| ≤ 20000000 := by have := cast_abs_le hfn1; push_cast at this; exact this
  have bB : |tmB (el.a.m.toQ : ℝ) el.b.m.toQ| ≤ 7020000 := by rw [abs_of_nonneg (by linarith)]; exact B2
  refine ⟨_, _, rfl, ?_, ?_⟩
  · have b1 : |η + sCS (tmh0 n) (tmh1 n) (tmh2 n) (tmh3 n) ξ η| ≤ 0.844 := by
      have := abs_add_le η (sCS (tmh0 n) (tmh1 n) (tmh2 n) (tmh3 n) ξ η)
      norm_num at *
      linarith
    have k1 := Near.add kη kc (R := 0.85) (E := 3e-14) (by norm_num at *; linarith) (by norm_num) (by norm_num) (by norm_num)
    have k2 := Near.mul hk kB (A := 1.1) (B := 7020000) (R := 7723000) (E := 6.8e-9) rk bB (by norm_num) (by norm_num)
      (by norm_num) (by norm_num)
    have b2 : |K0 * tmB el.a.m.toQ el.b.m.toQ| ≤ 7722000 := by
      rw [abs_mul]; exact (mul_le_mul rk bB (abs_nonneg _) (by norm_num)).trans (by norm_num)
    have k3 := Near.mul k1 k2 (A := 0.844) (B := 7722000) (R := 6530000) (E := 2.4e-7) b1 b2 (by norm_num) (by norm_num)
      (by norm_num) (by norm_num)
    have b3 := (mul_le_mul b1 b2 (abs_nonneg _) (by norm_num))
    rw [← abs_mul] at b3
    have b4 := abs_add_le (fe.toQ : ℝ) ((η + sCS (tmh0 n) (tmh1 n) (tmh2 n) (tmh3 n) ξ η) * (K0 * tmB el.a.m.toQ el.b.m.toQ))
    refine (Near.add (Near.exact hfe) k3 (R := 26600000) (E := 2.5e-7) ?_ (by norm_num) (by norm_num) (by norm_num)).congr ?_
    · refine (add_le_add (b4.trans (add_le_add re b3)) le_rfl).trans (by norm_num)
    · rw [mul_comm (η + _)]
  · have b1 : |ξ + sSC (tmh0 n) (tmh1 n) (tmh2 n) (tmh3 n) ξ η| ≤ 1.785 := by
      have := abs_add_le ξ (sSC (tmh0 n) (tmh1 n) (tmh2 n) (tmh3 n) ξ η)
      norm_num at *
      linarith
    have k1 := Near.add kξ ks (R := 1.79) (E := 4.9e-14) (by norm_num at *; linarith) (by norm_num) (by norm_num) (by norm_num)
    have k2 := Near.mul k1 kB (A := 1.785) (B := 7020000) (R := 12531000) (E := 3.55e-7) b1 bB (by norm_num) (by norm_num)
      (by norm_num) (by norm_num)
    have b2 := (mul_le_mul b1 bB (abs_nonneg _) (by norm_num))
    rw [← abs_mul] at b2
    have b3 := abs_sub ((ξ + sSC (tmh0 n) (tmh1 n) (tmh2 n) (tmh3 n) ξ η) * tmB el.a.m.toQ el.b.m.toQ) (tmM0 el.a.m.toQ el.b.m.toQ φ0.toQ)
    have b4 := b3.trans (add_le_add b2 bM)
    have k3 := Near.sub k2 kM (R := 24000000) (E := 4.27e-7) ((add_le_add b4 le_rfl).trans (by norm_num)) (by norm_num) (by norm_num) (by norm_num)
    have k4 := Near.mul hk k3 (A := 1.1) (B := 23940000) (R := 26400000) (E := 4.8e-7) rk (b4.trans (by norm_num)) (by norm_num) (by norm_num)
      (by norm_num) (by norm_num)
    have b5 := (mul_le_mul rk b4 (abs_nonneg _) (by norm_num))
    rw [← abs_mul] at b5
    refine (Near.add (Near.exact hfn) k4 (R := 46400000) (E := 5e-7) ?_ (by norm_num) (by norm_num) (by norm_num)).congr ?_
    · exact (add_le_add ((abs_add_le _ _).trans (add_le_add rn b5)) le_rfl).trans (by norm_num)
    · rw [mul_comm (ξ + _)]

end Geo
