import Verif.Lemmas.VincentyEnd
import Verif.Lemmas.KarneyClose

/-! The longitude of the direct Vincenty solver in IEEE arithmetic, and the geodesic of its end. -/

namespace Geo
open XR Spec VincentyGeodesicSolver
variable {L : Libm} {el : Ellipsoid (F64 L)}

theorem vinC_bounds {F K : ℝ} (f0 : 0 ≤ F) (f1 : F ≤ 0.005) (h0 : 0 ≤ K) (h1 : K ≤ 1) :
    0 ≤ vincentyC F K ∧ vincentyC F K ≤ 0.00126 * K := by
  unfold vincentyC
  have e1 : 0 ≤ F * (4 - 3 * K) := mul_nonneg f0 (by linarith)
  have e2 : F * (4 - 3 * K) ≤ 0.005 * 4 := mul_le_mul f1 (by linarith) (by linarith) (by norm_num)
  have e3 : F / 16 * (4 + F * (4 - 3 * K)) ≤ 0.005 / 16 * (4 + 0.005 * 4) := mul_le_mul (by linarith) (by linarith) (by linarith) (by norm_num)
  refine ⟨by positivity, ?_⟩
  have := mul_le_mul_of_nonneg_right e3 h0
  norm_num at this ⊢
  linarith

/-- The excess depends little on the arc from the node. -/
theorem excess_node {F S0 σ x m : ℝ} {k : ℤ} (f0 : 0 ≤ F) (f1 : F ≤ 0.005) (hS : |S0| ≤ 1)
    (hk : (1 - S0 ^ 2) * |x - (m + k * (2 * Real.pi))| ≤ 5.3e-14) :
    |vincentyExcess F S0 σ (Real.cos (2 * x + σ)) - vincentyExcess F S0 σ (Real.cos (2 * m + σ))| ≤ 1e-18 := by
  have K0 : 0 ≤ 1 - S0 ^ 2 := by rw [← sq_abs S0]; nlinarith [abs_nonneg S0]
  have K1 : 1 - S0 ^ 2 ≤ 1 := by nlinarith [sq_nonneg S0]
  obtain ⟨C0, C1⟩ := vinC_bounds f0 f1 K0 K1
  have e : Real.cos (2 * m + σ) = Real.cos (2 * (m + k * (2 * Real.pi)) + σ) := by
    rw [show 2 * (m + k * (2 * Real.pi)) + σ = 2 * m + σ + ((2 * k : ℤ) : ℝ) * (2 * Real.pi) by push_cast; ring, Real.cos_add_int_mul_two_pi]
  rw [e]
  generalize m + k * (2 * Real.pi) = y at *
  simp only [vincentyExcess]
  set C := vincentyC F (1 - S0 ^ 2) with hC
  have hd : C * |x - y| ≤ 6.7e-17 := by
    have := mul_le_mul_of_nonneg_right C1 (abs_nonneg (x - y))
    norm_num at *
    linarith
  have hcc := abs_cos_sub_le (2 * x + σ) (2 * y + σ)
  rw [show 2 * x + σ - (2 * y + σ) = 2 * (x - y) by ring, abs_mul, abs_of_pos (two_pos : (0 : ℝ) < 2)] at hcc
  have p1 := Real.abs_cos_le_one (2 * x + σ)
  have p2 := Real.abs_cos_le_one (2 * y + σ)
  generalize Real.cos (2 * x + σ) = c at *
  generalize Real.cos (2 * y + σ) = c' at *
  have C2 : C ≤ 0.00126 := C1.trans (by norm_num at *; linarith)
  rw [show (1 - C) * F * S0 * (σ + C * Real.sin σ * (c + C * Real.cos σ * (-1 + 2 * c ^ 2))) -
      (1 - C) * F * S0 * (σ + C * Real.sin σ * (c' + C * Real.cos σ * (-1 + 2 * c' ^ 2))) =
      ((1 - C) * F * S0 * Real.sin σ * (1 + C * Real.cos σ * (2 * (c + c')))) * (C * (c - c')) by ring, abs_mul, abs_mul C, abs_of_nonneg C0]
  have q1 : |(1 - C) * F * S0 * Real.sin σ| ≤ 0.005 := by
    rw [abs_mul, abs_mul, abs_mul, abs_of_nonneg (show 0 ≤ 1 - C by norm_num at *; linarith), abs_of_nonneg f0]
    have := Real.abs_sin_le_one σ
    calc (1 - C) * F * |S0| * |Real.sin σ| ≤ 1 * 0.005 * 1 * 1 := by gcongr; linarith
      _ = 0.005 := by norm_num
  have q2 : |1 + C * Real.cos σ * (2 * (c + c'))| ≤ 1.1 := by
    refine (abs_add_le _ _).trans ?_
    rw [abs_one, abs_mul, abs_mul, abs_of_nonneg C0, abs_mul 2, abs_of_pos (two_pos : (0 : ℝ) < 2)]
    have r1 := Real.abs_cos_le_one σ
    have r2 : |c + c'| ≤ 2 := (abs_add_le _ _).trans (by linarith)
    calc 1 + C * |Real.cos σ| * (2 * |c + c'|) ≤ 1 + 0.00126 * 1 * (2 * 2) := by gcongr
      _ ≤ 1.1 := by norm_num
  have q3 : C * |c - c'| ≤ 1.34e-16 := by
    have := mul_le_mul_of_nonneg_left hcc C0
    norm_num at *
    linarith
  rw [abs_mul]
  calc _ ≤ 0.005 * 1.1 * (1.34e-16 : ℝ) := mul_le_mul (mul_le_mul q1 q2 (abs_nonneg _) (by norm_num)) q3 (by positivity) (by norm_num)
    _ ≤ 1e-18 := by norm_num

set_option maxHeartbeats 1000000 in
/-- The excess of the longitude. -/
theorem excess_near (hL : AccurateGeodesic L) {f kf sal ss cs c2 sg : F64 L} {F S0 c : ℝ} (hf : Near f F 3e-16) (f0 : 0 ≤ F) (f1 : F ≤ 0.005)
    (hS : |S0| ≤ 1) (kk : Near kf (1 - S0 ^ 2) 5.4e-15) (ks : Near sal S0 2.4e-15) (hg : sg.isFinite) (hg2 : |(sg.toQ : ℝ)| ≤ 3.6)
    (k1 : Near ss (Real.sin sg.toQ) 2.3e-16) (k2 : Near cs (Real.cos sg.toQ) 2.3e-16) (k3 : Near c2 c 2.6e-15) (hc : |c| ≤ 1) :
    Near ((1 - seriesC f kf) * f * sal * (sg + seriesC f kf * ss * (c2 + seriesC f kf * cs * (-1 + 2 * Flt.powi c2 2))))
      (vincentyExcess F S0 sg.toQ c) 1.16e-15 ∧ |vincentyExcess F S0 sg.toQ c| ≤ 0.0182 := by
  have K0 : 0 ≤ 1 - S0 ^ 2 := by rw [← sq_abs S0]; nlinarith [abs_nonneg S0]
  have K1 : 1 - S0 ^ 2 ≤ 1 := by nlinarith [sq_nonneg S0]
  obtain ⟨C0, C1⟩ := vinC_bounds f0 f1 K0 K1
  have kC := seriesC_near hf f0 f1 kk K0 K1
  simp only [vincentyExcess]
  set C := vincentyC F (1 - S0 ^ 2) with hC
  have C2 : C ≤ 0.00127 := C1.trans (by norm_num at *; linarith)
  have aC : |C| ≤ 0.00127 := by rw [abs_of_nonneg C0]; exact C2
  have aF : |F| ≤ 0.005 := by rw [abs_of_nonneg f0]; exact f1
  have a1C : |1 - C| ≤ 1 := by rw [abs_of_nonneg (by norm_num at *; linarith)]; linarith
  have us := Real.abs_sin_le_one (sg.toQ : ℝ)
  have uc := Real.abs_cos_le_one (sg.toQ : ℝ)
  have n1 := Near.sub int_1 kC (R := 1.001) (E := 2.5e-16) (by norm_num at *; linarith) (by norm_num) (by norm_num) (by norm_num)
  have n2 := Near.mul n1 hf a1C aF (R := 0.0051) (E := 3.03e-16) (by norm_num) (by norm_num) (by norm_num) (by norm_num)
  have b2 : |(1 - C) * F| ≤ 0.005 := by
    rw [abs_mul]; exact (mul_le_mul a1C aF (abs_nonneg _) zero_le_one).trans (by norm_num)
  have n3 := Near.mul n2 ks b2 hS (R := 0.0051) (E := 3.17e-16) (by norm_num) (by norm_num) (by norm_num) (by norm_num)
  have b3 : |(1 - C) * F * S0| ≤ 0.005 := by
    rw [abs_mul]; exact (mul_le_mul b2 hS (abs_nonneg _) (by norm_num)).trans (by norm_num)
  have m1 := k3.powi2 hL.toAccurate hc (by norm_num) (E := 5.5e-15) (by norm_num)
  have c20 : 0 ≤ c ^ 2 := sq_nonneg c
  have c21 : c ^ 2 ≤ 1 := by rw [← sq_abs]; exact pow_le_one₀ (abs_nonneg _) hc
  have m2 := Near.mul int_2 m1 (A := 2) (B := 1) (by norm_num) (by rw [abs_of_nonneg c20]; exact c21) (R := 2.01) (E := 1.13e-14) (by norm_num) (by norm_num) (by norm_num) (by norm_num)
  have b4 : |(-1) + 2 * c ^ 2| ≤ 1 := abs_le.2 ⟨by linarith, by linarith⟩
  have m3 := Near.add int_1.neg m2 (R := 1.01) (E := 1.15e-14) (by norm_num at *; linarith) (by norm_num) (by norm_num) (by norm_num)
  have m4 := Near.mul kC k2 aC uc (R := 0.0013) (E := 1.21e-16) (by norm_num) (by norm_num) (by norm_num) (by norm_num)
  have b5 : |C * Real.cos sg.toQ| ≤ 0.00127 := by
    rw [abs_mul]; exact (mul_le_mul aC uc (abs_nonneg _) (by norm_num)).trans (by norm_num)
  have m5 := Near.mul m4 m3 b5 b4 (R := 0.0013) (E := 1.37e-16) (by norm_num) (by norm_num) (by norm_num) (by norm_num)
  have b6 : |C * Real.cos sg.toQ * ((-1) + 2 * c ^ 2)| ≤ 0.00127 := by
    rw [abs_mul]; exact (mul_le_mul b5 b4 (abs_nonneg _) (by norm_num)).trans (by norm_num)
  have b7 := abs_add_le c (C * Real.cos sg.toQ * ((-1) + 2 * c ^ 2))
  have b8 : |c + C * Real.cos sg.toQ * ((-1) + 2 * c ^ 2)| ≤ 1.002 := by norm_num at *; linarith
  have m6 := Near.add k3 m5 (R := 1.003) (E := 2.9e-15) (by norm_num at *; linarith) (by norm_num) (by norm_num) (by norm_num)
  have m7 := Near.mul kC k1 aC us (R := 0.0013) (E := 1.21e-16) (by norm_num) (by norm_num) (by norm_num) (by norm_num)
  have b9 : |C * Real.sin sg.toQ| ≤ 0.00127 := by
    rw [abs_mul]; exact (mul_le_mul aC us (abs_nonneg _) (by norm_num)).trans (by norm_num)
  have m8 := Near.mul m7 m6 b9 b8 (R := 0.0013) (E := 1.27e-16) (by norm_num) (by norm_num) (by norm_num) (by norm_num)
  have b10 : |C * Real.sin sg.toQ * (c + C * Real.cos sg.toQ * ((-1) + 2 * c ^ 2))| ≤ 0.0013 := by
    rw [abs_mul]; exact (mul_le_mul b9 b8 (abs_nonneg _) (by norm_num)).trans (by norm_num)
  have b11 := abs_add_le (sg.toQ : ℝ) (C * Real.sin sg.toQ * (c + C * Real.cos sg.toQ * ((-1) + 2 * c ^ 2)))
  have b12 : |(sg.toQ : ℝ) + C * Real.sin sg.toQ * (c + C * Real.cos sg.toQ * ((-1) + 2 * c ^ 2))| ≤ 3.61 := by norm_num at *; linarith
  have m9 := Near.add (Near.exact hg) m8 (R := 3.62) (E := 5.7e-16) (by norm_num at *; linarith) (by norm_num) (by norm_num) (by norm_num)
  refine ⟨Near.mul n3 m9 b3 b12 (R := 0.0182) (by norm_num) (by norm_num) (by norm_num) (by norm_num), ?_⟩
  rw [abs_mul]; exact (mul_le_mul b3 b12 (abs_nonneg _) (by norm_num)).trans (by norm_num)

/-- The longitude of the end. -/
theorem vin_lon_near {l om ex : F64 L} {X : ℝ} (hl : InLonRange l) (ho : om.isFinite) (ho2 : |(om.toQ : ℝ)| ≤ 3.2) (kx : Near ex X 1.16e-15)
    (hX : |X| ≤ 0.0182) :
    ∃ n : ℤ, InLonRange ((⟨⟨l⟩⟩ : Lon (F64 L)).addAngle (⟨om⟩ - ⟨ex⟩ : Angle (F64 L))).angle.rad ∧
      |(((⟨⟨l⟩⟩ : Lon (F64 L)).addAngle (⟨om⟩ - ⟨ex⟩ : Angle (F64 L))).angle.rad.toQ : ℝ) - (l.toQ + (om.toQ - X) + n * (2 * Real.pi))| ≤ 2.9e-15 := by
  have c1 := abs_sub (om.toQ : ℝ) X
  have n1 := Near.sub (Near.exact ho) kx (R := 3.22) (E := 1.56e-15) (by norm_num at *; linarith) (by norm_num) (by norm_num) (by norm_num)
  have hπ : (Flt.pi : F64 L).toQ = 884279719003555 / 2 ^ 48 := pi_fin.2
  have b : |(l.toQ : ℝ)| ≤ 3.15 := by
    have := cast_abs_le (hl.2.trans (show (Flt.pi : F64 L).toQ ≤ 3.15 by rw [hπ]; norm_num))
    push_cast at this; exact this
  have c4 := abs_add_le (l.toQ : ℝ) (om.toQ - X)
  have n4 := Near.add (Near.exact hl.1) n1 (R := 6.4) (E := 2.35e-15) (by norm_num at *; linarith) (by norm_num) (by norm_num) (by norm_num)
  obtain ⟨n, r1, r2⟩ := wrapped_near_far n4 (n4.abs_le_rat (by push_cast; norm_num at *; linarith))
  refine ⟨-n, r1, ?_⟩
  refine le_trans (le_of_eq ?_) (r2.2.trans (by norm_num))
  congr 1
  have e : ((⟨⟨l⟩⟩ : Lon (F64 L)).addAngle (⟨om⟩ - ⟨ex⟩ : Angle (F64 L))).angle.rad = (⟨l + (om - ex)⟩ : Angle (F64 L)).wrapped.rad := rfl
  rw [e]
  push_cast
  ring

set_option maxHeartbeats 1000000 in
/-- The geodesic of exact arithmetic. -/
theorem vincenty_ideal {a b : ℝ} (hb : 0 < b) (hab : b ≤ a) (hfl : 0.995 ≤ b / a) {l φ β α σ₁ s0 c0 σ σ' β₂ lam α₂ x s : ℝ}
    (hβ : 0 < Real.cos β) (hr : Bessel.Reduced a b φ β) (hs : s0 = Real.cos β * Real.sin α) (hc : Real.cos σ₁ * c0 = Real.cos β * Real.cos α)
    (hn : Real.sin σ₁ * c0 = Real.sin β) (h1 : s0 ^ 2 + c0 ^ 2 = 1) (hx : x = c0 ^ 2 * ((a ^ 2 - b ^ 2) / b ^ 2)) (hend : ArcEnd β α σ β₂ lam α₂)
    (d1 : |σ - σ'| ≤ 1.1e-12)
    (d2 : |σ - (s / (b * vincentyA x) + vincentyDeltaSigma (vincentyB x) σ' (Real.cos (2 * σ₁ + σ')))| ≤ 2.8e-15) :
    ∃ γ : ℝ → E3, IsGeodesic a b γ ∧ γ 0 = surfacePoint a b l φ ∧ deriv γ 0 = direction l φ α ∧
      ‖surfacePoint a b (l + (lam - vincentyExcess ((a - b) / a) s0 σ (Real.cos (2 * σ₁ + σ)))) (Complex.arg ⟨b / a * Real.cos β₂, Real.sin β₂⟩) - γ s‖ ≤
        ((a - b) / a) ^ 4 * (22 / 100 * |s| + 1 / 400 * a) + a * 6.1e-15 ∧
      (Real.cos β₂ ≠ 0 → ‖direction (l + (lam - vincentyExcess ((a - b) / a) s0 σ (Real.cos (2 * σ₁ + σ))))
        (Complex.arg ⟨b / a * Real.cos β₂, Real.sin β₂⟩) α₂ - deriv γ s‖ ≤ ((a - b) / a) ^ 4 * (22 / 100 * (|s| / a) + 1 / 400) + 6.3e-15) := by
  have ha : 0 < a := lt_of_lt_of_le hb hab
  have hba : 0.995 * a ≤ b := by rwa [le_div_iff₀ ha] at hfl
  obtain ⟨hr2, -, -, -⟩ := reduced_arg hb hab hend.cos_nonneg
  obtain ⟨γ, hγ, g0, g1, hE⟩ := Bessel.arc_geodesic hb hab (l := l) hβ hr hs hc hn h1
  obtain ⟨k1, k2⟩ := hE σ β₂ lam α₂ _ hend hr2
  set φ₂ := Complex.arg ⟨b / a * Real.cos β₂, Real.sin β₂⟩ with hφ₂
  have f0 : 0 ≤ (a - b) / a := div_nonneg (by linarith) ha.le
  have f1 : (a - b) / a ≤ 0.005 := by rw [div_le_iff₀ ha]; norm_num at *; linarith
  obtain ⟨x0, x1, x2, x3⟩ := Bessel.x_facts hb hab h1 hx (f1.trans (by norm_num))
  obtain ⟨A0, A1⟩ := Bessel.vinA_bounds x0 x1
  have xs : x ≤ 0.0102 := by
    rw [hx]
    have c1 : c0 ^ 2 ≤ 1 := by nlinarith [sq_nonneg s0]
    have : (a ^ 2 - b ^ 2) / b ^ 2 ≤ 0.0102 := by
      rw [div_le_iff₀ (by positivity)]
      norm_num at *
      nlinarith
    have h0 : 0 ≤ (a ^ 2 - b ^ 2) / b ^ 2 := div_nonneg (by nlinarith) (by positivity)
    calc c0 ^ 2 * ((a ^ 2 - b ^ 2) / b ^ 2) ≤ 1 * 0.0102 := mul_le_mul c1 this h0 zero_le_one
      _ = 0.0102 := one_mul _
  have A2 : vincentyA x ≤ 1.003 := by norm_num at *; linarith
  set A := vincentyA x with hA
  set Δ := vincentyDeltaSigma (vincentyB x) σ' (Real.cos (2 * σ₁ + σ')) with hΔ
  set s' := b * A * (σ - Δ) with hs'
  have hbA : 0 < b * A := by positivity
  obtain ⟨v1, v2⟩ := Bessel.vin_arc (s := s') (m := σ₁) hb hab h1 hx (f1.trans (by norm_num)) d1 (by rw [hs', ← hA]; field_simp; ring)
  have v3 := Bessel.vin_lon hb hab h1 rfl (f1.trans (by norm_num)) σ₁ (σ₁ + σ)
  have ex := Bessel.excess_eq ((a - b) / a) s0 σ₁ σ
  rw [show 1 - s0 ^ 2 = c0 ^ 2 by linarith, mul_sub] at ex
  rw [← ex, show σ₁ + σ - σ₁ = σ by ring] at v3
  set X := vincentyExcess ((a - b) / a) s0 σ (Real.cos (2 * σ₁ + σ)) with hX
  set t := Bessel.T a b s0 c0 (σ₁ + σ) - Bessel.T a b s0 c0 σ₁ with ht
  set y := Bessel.G a b s0 c0 (σ₁ + σ) - Bessel.G a b s0 c0 σ₁ with hy
  set f := (a - b) / a with hf
  have f4 : f ^ 4 ≤ 6.3e-10 := (pow_le_pow_left₀ f0 f1 4).trans (by norm_num)
  have f40 : 0 ≤ f ^ 4 := by positivity
  have ds : |s' - s| ≤ a * 2.81e-15 := by
    have e : s' - s = b * A * (σ - (s / (b * A) + Δ)) := by rw [hs']; field_simp; ring
    rw [e, abs_mul, abs_of_pos hbA]
    calc b * A * |σ - (s / (b * A) + Δ)| ≤ a * 1.003 * 2.8e-15 := by gcongr
      _ ≤ a * 2.81e-15 := by norm_num; linarith
  have ds' : |s'| ≤ |s| + a * 2.81e-15 := by
    have := abs_sub_abs_le_abs_sub s' s; linarith
  have w1 : |t - s| ≤ f ^ 4 * (1 / 20 * |s| + 1 / 1800 * a) + a * 5.9e-15 := by
    have e := abs_sub_le t s' s
    have u1 : 55 / 100 * a * f * 1.1e-12 ≤ a * 3.04e-15 := by
      have := mul_le_mul_of_nonneg_left f1 ha.le
      norm_num at *
      linarith
    have u2 : f ^ 4 * (1 / 20 * |s'|) ≤ f ^ 4 * (1 / 20 * |s|) + a * 1e-20 := by
      have p1 := mul_le_mul_of_nonneg_left ds' (by positivity : 0 ≤ f ^ 4 * (1 / 20))
      have p2 := mul_le_mul_of_nonneg_right f4 (by positivity : 0 ≤ a * (2.81e-15 / 20))
      norm_num at *
      linarith
    rw [mul_add] at v2 ⊢
    norm_num at v2 u1 u2 ds ⊢
    linarith
  have hσ : |σ| ≤ |s| / b + 1 / 90 + 2.9e-15 := by
    have : |s'| / b ≤ (|s| + a * 2.81e-15) / b := div_le_div_of_nonneg_right ds' hb.le
    have e : a * 2.81e-15 / b ≤ 2.9e-15 := by rw [div_le_iff₀ hb]; norm_num at *; linarith
    rw [add_div] at this
    linarith
  have w2 : |y - X| ≤ 4 / 25 * f ^ 4 * (|s| / b + 1 / 90 + 2.9e-15) := v3.trans (mul_le_mul_of_nonneg_left hσ (by positivity))
  have ab : a ≤ 1.0051 * b := by norm_num at *; linarith
  have sb : a * (|s| / b) ≤ 1.0051 * |s| := by
    rw [← mul_div_assoc, div_le_iff₀ hb]
    have := mul_le_mul_of_nonneg_right ab (abs_nonneg s)
    linarith
  have sb2 : |s| / b ≤ 1.0051 * (|s| / a) := by
    rw [← mul_div_assoc, div_le_div_iff₀ hb ha]
    have := mul_le_mul_of_nonneg_left ab (abs_nonneg s)
    linarith
  refine ⟨γ, hγ, g0, g1, ?_, fun h => ?_⟩
  · have p1 := Bessel.surfacePoint_sub (l := l + (lam - X)) (l' := l + (lam - y)) ha.le hr2
    have p2 := hγ.chord s t
    rw [k1] at p2
    rw [show l + (lam - X) - (l + (lam - y)) = y - X by ring] at p1
    refine (norm_sub_le_norm_sub_add_norm_sub _ (surfacePoint a b (l + (lam - y)) φ₂) _).trans ?_
    have p3 := mul_le_mul_of_nonneg_left w2 ha.le
    have p4 := mul_le_mul_of_nonneg_left sb (by positivity : 0 ≤ 4 / 25 * f ^ 4)
    have p5 := mul_le_mul_of_nonneg_right f4 ha.le
    have p6 : 0 ≤ f ^ 4 * a := by positivity
    have p7 : 0 ≤ f ^ 4 * |s| := by positivity
    norm_num at p1 p2 p3 p4 p5 w1 ⊢
    linarith
  · have p1 := direction_sub (l + (lam - X)) (l + (lam - y)) φ₂ α₂
    have p2 := hγ.turn hb hab s t
    rw [k2 h] at p2
    rw [show l + (lam - X) - (l + (lam - y)) = y - X by ring] at p1
    refine (norm_sub_le_norm_sub_add_norm_sub _ (direction (l + (lam - y)) φ₂ α₂) _).trans ?_
    have r1 : a / b ^ 2 * a ≤ 1.0103 := by
      rw [div_mul_eq_mul_div, div_le_iff₀ (by positivity)]
      nlinarith
    have r0 : 0 ≤ a / b ^ 2 := by positivity
    have r2 : a / b ^ 2 * |s| ≤ 1.0103 * (|s| / a) := by
      rw [show a / b ^ 2 * |s| = a / b ^ 2 * a * (|s| / a) by field_simp]
      exact mul_le_mul_of_nonneg_right r1 (by positivity)
    have p3 := mul_le_mul_of_nonneg_left w1 r0
    have p4 := mul_le_mul_of_nonneg_left sb2 (by positivity : 0 ≤ 4 / 25 * f ^ 4)
    have p5 := mul_le_mul_of_nonneg_left r2 (by positivity : 0 ≤ f ^ 4 * (1 / 20))
    have p6 := mul_le_mul_of_nonneg_left r1 (by positivity : 0 ≤ f ^ 4 * (1 / 1800))
    have p7 : 0 ≤ f ^ 4 * (|s| / a) := by positivity
    have p8 := mul_le_mul_of_nonneg_right r1 (by norm_num : (0 : ℝ) ≤ 5.9e-15)
    rw [show a / b ^ 2 * (f ^ 4 * (1 / 20 * |s| + 1 / 1800 * a) + a * 5.9e-15) =
      f ^ 4 * (1 / 20) * (a / b ^ 2 * |s|) + f ^ 4 * (1 / 1800) * (a / b ^ 2 * a) + a / b ^ 2 * a * 5.9e-15 by ring] at p3
    norm_num at p1 p2 p3 p4 p5 p6 p8 w2 ⊢
    linarith

/-- The end. -/
theorem vin_end_close {a b l₂ l' φ₂ α₂ α' β₂ : ℝ} (hb : 0 < b) (hab : b ≤ a) (hfl : 0.995 ≤ b / a) (hc : 0 ≤ Real.cos β₂)
    (kl : Real.cos β₂ * |l₂ - l'| ≤ 3.3e-14) (kα : Real.cos β₂ * |α₂ - α'| ≤ 3.1e-14)
    (kφ : |φ₂ - Complex.arg ⟨b / a * Real.cos β₂, Real.sin β₂⟩| ≤ 5.2e-14) :
    ‖surfacePoint a b l₂ φ₂ - surfacePoint a b l' (Complex.arg ⟨b / a * Real.cos β₂, Real.sin β₂⟩)‖ ≤ a * 8.6e-14 ∧
    Real.cos β₂ * ‖direction l₂ φ₂ α₂ - direction l' (Complex.arg ⟨b / a * Real.cos β₂, Real.sin β₂⟩) α'‖ ≤ 2e-13 ∧
    Real.cos φ₂ ≤ Real.cos β₂ + 5.2e-14 := by
  have ha : 0 < a := lt_of_lt_of_le hb hab
  obtain ⟨r1, p1, p2, -⟩ := reduced_arg hb hab hc
  set φ' := Complex.arg ⟨b / a * Real.cos β₂, Real.sin β₂⟩ with hφ'
  have hab2 : a ^ 2 / b ≤ a * 1.01 := by
    rw [le_div_iff₀ ha] at hfl
    rw [div_le_iff₀ hb]
    norm_num at hfl ⊢
    nlinarith
  refine ⟨?_, ?_, ?_⟩
  · have t1 := surfacePoint_lat (l := l₂) (φ := φ') (φ' := φ₂) hb hab
    have t3 := surface_parallel (l := l₂) (l' := l') ha.le r1 hc
    have t4 := mul_le_mul hab2 kφ (abs_nonneg _) (by positivity)
    have t5 := mul_le_mul_of_nonneg_left kl ha.le
    have t6 := norm_sub_le_norm_sub_add_norm_sub (surfacePoint a b l₂ φ₂) (surfacePoint a b l₂ φ') (surfacePoint a b l' φ')
    norm_num at t1 t3 t4 t5 t6 ⊢
    linarith
  · have t1 := direction_sub l₂ l' φ' α'
    have t2 := direction_meridian l₂ φ₂ φ' α₂ α'
    have t3 := abs_cos_sub_le α₂ α'
    have t4 := abs_sin_sub_le α₂ α'
    have t6 := norm_sub_le_norm_sub_add_norm_sub (direction l₂ φ₂ α₂) (direction l₂ φ' α') (direction l' φ' α')
    have t5 : ‖direction l₂ φ₂ α₂ - direction l' φ' α'‖ ≤ 2 * |α₂ - α'| + |l₂ - l'| + 2 * |φ₂ - φ'| := by linarith
    have t7 := mul_le_mul_of_nonneg_left t5 hc
    have t8 := mul_le_mul (Real.cos_le_one β₂) kφ (abs_nonneg _) zero_le_one
    norm_num at kl kα t7 t8 ⊢
    linarith
  · have t1 := r1.cos_le hb hab (Real.cos_nonneg_of_neg_pi_div_two_le_of_le p1 p2)
    have t2 := (abs_le.1 ((abs_cos_sub_le φ₂ φ').trans kφ)).2
    linarith

end Geo
