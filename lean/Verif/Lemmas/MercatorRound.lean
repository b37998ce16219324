import Verif.Lemmas.CylindricalRound
import Verif.Lemmas.TransverseProj
import Verif.Props.MercatorLatExact

/-! The Mercator projection in IEEE arithmetic: scale, isometric latitude and inverse series. -/

namespace Geo
open XR Spec
variable {L : Libm} {el : Ellipsoid (F64 L)}

/-! ### Isometric latitude -/

theorem log_ratio_bound {x : ℝ} (h : |x| ≤ 0.52) : |Real.log (1 - x)| ≤ 1.09 ∧ |Real.log (1 + x)| ≤ 1.09 ∧
    |Real.log (1 - x) - Real.log (1 + x)| ≤ 1.61 := by
  obtain ⟨h1, h2⟩ := abs_le.1 h
  have key : ∀ y : ℝ, -0.52 ≤ y → y ≤ 0.52 → -1.084 ≤ Real.log (1 + y) ∧ Real.log (1 + y) ≤ 0.52 ∧ (0 ≤ y → 0 ≤ Real.log (1 + y)) := by
    intro y a b
    have hp : 0 < 1 + y := by norm_num at *; linarith
    have c1 := Real.one_sub_inv_le_log_of_pos hp
    have c2 := Real.log_le_sub_one_of_pos hp
    have c3 : (1 + y)⁻¹ ≤ 2.084 := by
      rw [inv_le_comm₀ hp (by norm_num)]; norm_num at *; linarith
    refine ⟨by norm_num at *; linarith, by norm_num at *; linarith, fun h => Real.log_nonneg (by linarith)⟩
  obtain ⟨a1, a2, a3⟩ := key x (by norm_num at *; linarith) (by norm_num at *; linarith)
  obtain ⟨b1, b2, b3⟩ := key (-x) (by norm_num at *; linarith) (by norm_num at *; linarith)
  rw [← sub_eq_add_neg] at b1 b2 b3
  refine ⟨abs_le.2 ⟨?_, ?_⟩, abs_le.2 ⟨?_, ?_⟩, abs_le.2 ⟨?_, ?_⟩⟩ <;> norm_num at * <;> linarith

theorem iso_factor_near (hL : AccurateProjection L) (h : EarthSized el) {φ : F64 L} (hφ : φ.isFinite)
    (h1 : -(Real.pi / 2) < (φ.toQ : ℝ)) (h2 : (φ.toQ : ℝ) < Real.pi / 2) :
    LNear (Flt.powf ((1.0 - el.e * Flt.sin φ) / (1.0 + el.e * Flt.sin φ)) (el.e / 2.0))
      (-(Real.sqrt (ecc2 el.a.m.toQ el.b.m.toQ) * Real.artanh (Real.sqrt (ecc2 el.a.m.toQ el.b.m.toQ) * Real.sin φ.toQ))) 2.4e-15 ∧
    |Real.sqrt (ecc2 el.a.m.toQ el.b.m.toQ) * Real.artanh (Real.sqrt (ecc2 el.a.m.toQ el.b.m.toQ) * Real.sin φ.toQ)| ≤ 0.42 := by
  obtain ⟨ke, e0, e1⟩ := tm_e_near hL.toAccurate h
  have hp := Real.pi_lt_d2
  have ks := Near.sin' hL (Near.exact hφ) (E := 2.3e-16) (by
    have : |(φ.toQ : ℝ)| ≤ 2 := by rw [abs_le]; constructor <;> norm_num at * <;> linarith
    linarith) (by norm_num)
  have bs := Real.abs_sin_le_one (φ.toQ : ℝ)
  generalize Real.sqrt (ecc2 el.a.m.toQ el.b.m.toQ) = e at *
  generalize Real.sin (φ.toQ : ℝ) = s at *
  have be : |e| ≤ 0.52 := by rw [abs_of_nonneg e0]; exact e1
  have kx := Near.mul ke ks (A := 0.52) (B := 1) (R := 0.53) (E := 6.4e-16) be bs (by norm_num) (by norm_num) (by norm_num) (by norm_num)
  have bx : |e * s| ≤ 0.52 := by
    rw [abs_mul]; exact (mul_le_mul be bs (abs_nonneg _) (by norm_num)).trans (by norm_num)
  obtain ⟨l1, l2, l3⟩ := log_ratio_bound bx
  obtain ⟨x1, x2⟩ := abs_le.1 bx
  have hart := artanh_eq (x := e * s) (by norm_num at *; linarith) (by norm_num at *; linarith)
  have kn := Near.sub near_1 kx (R := 1.53) (E := 8.3e-16) (by
    rw [abs_of_pos (by norm_num at *; linarith)]; norm_num at *; linarith) (by norm_num) (by norm_num) (by norm_num)
  have kd := Near.add near_1 kx (R := 1.53) (E := 8.3e-16) (by
    rw [abs_of_pos (by norm_num at *; linarith)]; norm_num at *; linarith) (by norm_num) (by norm_num) (by norm_num)
  have ln := kn.log (B := 0.48) (δ := 1.73e-15) (E := 1.74e-15) (by norm_num) (by norm_num at *; linarith) (by norm_num) (by norm_num)
    (by norm_num) (by norm_num)
  have ld := kd.log (B := 0.48) (δ := 1.73e-15) (E := 1.74e-15) (by norm_num) (by norm_num at *; linarith) (by norm_num) (by norm_num)
    (by norm_num) (by norm_num)
  have lr := ln.div ld (E := 3.6e-15) (by norm_num at *; linarith) (by norm_num at *; linarith) (by norm_num)
  have kh := Near.div' ke near_2 (A := 0.26) (B := 2) (C := 2) (R := 0.27) (E := 2.6e-16) (by norm_num at *; linarith) (by norm_num)
    (by norm_num) (by norm_num) (by norm_num) (by norm_num) (by norm_num) (by norm_num) (by norm_num)
  have bh : |e / 2| ≤ 0.26 := by rw [abs_div]; norm_num at *; linarith
  have lp := lr.powf hL kh (S := 0.27) (A := 1.61) (E := 2.4e-15) (by norm_num at *; linarith) (by norm_num at *; linarith) (by norm_num) l3
    (by norm_num)
  have ee : e / 2 * (Real.log (1 - e * s) - Real.log (1 + e * s)) = -(e * Real.artanh (e * s)) := by rw [hart]; ring
  refine ⟨lp.congr ee, ?_⟩
  rw [← abs_neg, ← ee, abs_mul]
  exact (mul_le_mul bh l3 (abs_nonneg _) (by norm_num)).trans (by norm_num)

/-- The isometric latitude. -/
theorem iso_ln_near (hL : AccurateProjection L) (h : EarthSized el) {φ : F64 L} (hφ : φ.isFinite)
    (h1 : -(Real.pi / 2) < (φ.toQ : ℝ)) (h2 : (φ.toQ : ℝ) < Real.pi / 2) (hc : 1e-3 ≤ Real.cos φ.toQ) :
    Near (Flt.ln ((((⟨⟨φ⟩⟩ : Lat (F64 L)).divF 2.0).addAngle (Angle.new pi_4 RAD)).tan *
        Flt.powf ((1.0 - el.e * Flt.sin φ) / (1.0 + el.e * Flt.sin φ)) (el.e / 2.0)))
      (isoQ (Real.sqrt (ecc2 el.a.m.toQ el.b.m.toQ)) φ.toQ) (9.11e-16 / Real.cos φ.toQ + 6.9e-15) ∧
    |isoQ (Real.sqrt (ecc2 el.a.m.toQ el.b.m.toQ)) φ.toQ| ≤ 8.42 ∧
    |isoQ (Real.sqrt (ecc2 el.a.m.toQ el.b.m.toQ)) φ.toQ - Real.arsinh (Real.tan φ.toQ)| ≤ 0.42 := by
  have hcp : 0 < Real.cos (φ.toQ : ℝ) := lt_of_lt_of_le (by norm_num) hc
  obtain ⟨_, i2⟩ := lat_inside h1 h2 hc
  have kt := half_tan_near hL hφ h1 h2 hc
  obtain ⟨kf, bf⟩ := iso_factor_near hL h hφ h1 h2
  have e1 : 9.1e-16 / Real.cos (φ.toQ : ℝ) = 9.1e-16 * (1 / Real.cos φ.toQ) := by ring
  have e2 : 9.11e-16 / Real.cos (φ.toQ : ℝ) = 9.11e-16 * (1 / Real.cos φ.toQ) := by ring
  have g0 : 0 ≤ 1 / Real.cos (φ.toQ : ℝ) := by positivity
  have g1 : 1 / Real.cos (φ.toQ : ℝ) ≤ 1000 := by rw [div_le_iff₀ hcp]; norm_num at *; linarith
  rw [e1] at kt
  rw [e2]
  generalize 1 / Real.cos (φ.toQ : ℝ) = g at *
  unfold isoQ
  generalize Real.sqrt (ecc2 el.a.m.toQ el.b.m.toQ) * Real.artanh (Real.sqrt (ecc2 el.a.m.toQ el.b.m.toQ) * Real.sin φ.toQ) = w at *
  generalize Real.arsinh (Real.tan (φ.toQ : ℝ)) = ψ at *
  have km := kt.mul kf (E := 9.1e-16 * g + 3e-15) (by norm_num at *; linarith) (by rw [abs_neg]; norm_num at *; linarith) (by norm_num at *; linarith)
  have b : |ψ - w| ≤ 8.42 := (abs_sub _ _).trans (by norm_num at *; linarith)
  refine ⟨(km.congr (by ring : ψ + -w = ψ - w)).ln hL (A := 8.42) (by norm_num at *; linarith) b (by norm_num at *; linarith), b, ?_⟩
  rw [show ψ - w - ψ = -w by ring, abs_neg]
  exact bf

/-! ### Scale -/

theorem scale_mul_near {k0 m : F64 L} {K κ : ℝ} (hm : m.isFinite) (hm1 : 6000000 ≤ (m.toQ : ℝ)) (hm2 : (m.toQ : ℝ) ≤ 7000000) (hk : Near k0 K κ)
    (h1 : 0.49 ≤ K) (h2 : K ≤ 2.01) (hκ : κ ≤ 1e-3) : Near (k0 * m) (K * m.toQ) (K * m.toQ * (2.05 * κ + 1.3e-16)) := by
  have h0 := hk.nonneg
  generalize ha : ((m.toQ : ℚ) : ℝ) = a at *
  have hw : a * κ ≤ 2.05 * (K * a * κ) := by
    have := mul_nonneg (show (0 : ℝ) ≤ a by linarith) h0
    have := mul_le_mul_of_nonneg_right h1 this
    norm_num at *
    nlinarith
  have hw2 : K * a * κ ≤ 1e-3 * (K * a) := by
    rw [mul_comm]; exact mul_le_mul_of_nonneg_right hκ (by positivity)
  have hw3 : K * a ≤ 14070000 := by
    have := mul_le_mul h2 hm2 (by linarith) (by norm_num)
    norm_num at *
    linarith
  have hw4 : 2940000 ≤ K * a := by
    have := mul_le_mul h1 hm1 (by norm_num) (by linarith)
    norm_num at *
    linarith
  have e : K * a * (2.05 * κ + 1.3e-16) = 2.05 * (K * a * κ) + 1.3e-16 * (K * a) := by ring
  rw [e]
  have k := Near.mul hk (Near.exact hm) (A := K) (B := a) (R := K * a + a * κ) (E := 2.05 * (K * a * κ) + 1.3e-16 * (K * a))
    (abs_of_nonneg (by norm_num at *; linarith)).le (by rw [ha]; exact (abs_of_nonneg (by linarith)).le) (by linarith)
    (by have : 0 ≤ a * κ := mul_nonneg (by linarith) h0
        norm_num at *; linarith) (by norm_num at *; linarith) (by norm_num at *; linarith)
  rw [ha] at k
  exact k

/-! ### Inverse series -/

theorem e2_step {acc x c : F64 L} {r n c' A E γ C A' E' : ℝ} (ha : Near acc r E ∧ |r| ≤ A) (hx : Near x n 2.5e-16)
    (hn : |n| ≤ 0.27) (hc : Near c c' γ) (hc' : |c'| ≤ C) (hA' : A * 0.27 + C ≤ A') (h1 : 1e-40 ≤ A') (h2 : A' ≤ 1e10)
    (hE' : A * 2.5e-16 + 0.27 * E + E * 2.5e-16 + γ + 1.2e-16 * (A' + (A * 2.5e-16 + 0.27 * E + E * 2.5e-16 + γ)) ≤ E') (hE1 : E' ≤ 1) :
    Near (Flt.mulAdd acc x c) (r * n + c') E' ∧ |r * n + c'| ≤ A' := by
  have hb : |r * n + c'| ≤ A' := by
    refine (abs_add_le _ _).trans ((add_le_add ?_ hc').trans hA')
    rw [abs_mul]
    exact mul_le_mul ha.2 hn (abs_nonneg _) ((abs_nonneg _).trans ha.2)
  have h0 : 0 ≤ A * 2.5e-16 + 0.27 * E + E * 2.5e-16 + γ := by
    have := ha.1.nonneg
    have := hc.nonneg
    have := (abs_nonneg _).trans ha.2
    positivity
  have hE0 : A * 2.5e-16 + 0.27 * E + E * 2.5e-16 + γ ≤ A' + (A * 2.5e-16 + 0.27 * E + E * 2.5e-16 + γ) := by
    linarith [(abs_nonneg _).trans hb]
  refine ⟨Near.mulAdd ha.1 hx hc ha.2 hn (R := A' + (A * 2.5e-16 + 0.27 * E + E * 2.5e-16 + γ)) (add_le_add hb le_rfl)
    (by norm_num at *; linarith) ?_ hE', hb⟩
  norm_num at *
  linarith

theorem merc_consts :
    (B64.isFinite (B64.lit 0) = true ∧ |(B64.lit 0).toQ - (0)| ≤ 0) ∧
    (B64.isFinite (B64.lit 0.5) = true ∧ |(B64.lit 0.5).toQ - (1 / 2)| ≤ 0) ∧
    (B64.isFinite (B64.div (B64.lit 5) (B64.lit 24)) = true ∧ |(B64.div (B64.lit 5) (B64.lit 24)).toQ - (5 / 24)| ≤ 1.4e-17) ∧
    (B64.isFinite (B64.div (B64.lit 1) (B64.lit 12)) = true ∧ |(B64.div (B64.lit 1) (B64.lit 12)).toQ - (1 / 12)| ≤ 7e-18) ∧
    (B64.isFinite (B64.div (B64.lit 13) (B64.lit 360)) = true ∧ |(B64.div (B64.lit 13) (B64.lit 360)).toQ - (13 / 360)| ≤ 3.5e-18) ∧
    (B64.isFinite (B64.div (B64.lit 7) (B64.lit 48)) = true ∧ |(B64.div (B64.lit 7) (B64.lit 48)).toQ - (7 / 48)| ≤ 1.4e-17) ∧
    (B64.isFinite (B64.div (B64.lit 29) (B64.lit 240)) = true ∧ |(B64.div (B64.lit 29) (B64.lit 240)).toQ - (29 / 240)| ≤ 7e-18) ∧
    (B64.isFinite (B64.div (B64.lit 811) (B64.lit 11520)) = true ∧ |(B64.div (B64.lit 811) (B64.lit 11520)).toQ - (811 / 11520)| ≤ 7e-18) ∧
    (B64.isFinite (B64.div (B64.lit 7) (B64.lit 120)) = true ∧ |(B64.div (B64.lit 7) (B64.lit 120)).toQ - (7 / 120)| ≤ 3.5e-18) ∧
    (B64.isFinite (B64.div (B64.lit 81) (B64.lit 1120)) = true ∧ |(B64.div (B64.lit 81) (B64.lit 1120)).toQ - (81 / 1120)| ≤ 7e-18) ∧
    (B64.isFinite (B64.div (B64.lit 4279) (B64.lit 161280)) = true ∧ |(B64.div (B64.lit 4279) (B64.lit 161280)).toQ - (4279 / 161280)| ≤ 1.8e-18) := by
  decide +kernel

theorem merc_c0_near {x : F64 L} {n : ℝ} (hx : Near x n 2.5e-16) (hn : |n| ≤ 0.27) :
    Near (fastPoly [0, 0.5, 5 / 24, 1 / 12, 13 / 360] x) (n / 2 + 5 / 24 * n ^ 2 + n ^ 3 / 12 + 13 / 360 * n ^ 4) 2.1e-16 ∧
      |n / 2 + 5 / 24 * n ^ 2 + n ^ 3 / 12 + 13 / 360 * n ^ 4| ≤ 0.153 := by
  obtain ⟨z, c1, c2, c3, c4, -⟩ := merc_consts
  have s0 := e2_step zero_acc hx hn (const_near (q := 13 / 360) (r := 13 / 360) (E := 3.5e-18) c4 (by norm_num) (by norm_num))
    (C := 13 / 360) (A' := 0.0362) (E' := 8e-18) (by norm_num [abs_le]) (by norm_num) (by norm_num) (by norm_num) (by norm_num) (by norm_num)
  have s1 := e2_step s0 hx hn (const_near (q := 1 / 12) (r := 1 / 12) (E := 7e-18) c3 (by norm_num) (by norm_num))
    (C := 1 / 12) (A' := 0.0932) (E' := 3e-17) (by norm_num [abs_le]) (by norm_num) (by norm_num) (by norm_num) (by norm_num) (by norm_num)
  have s2 := e2_step s1 hx hn (const_near (q := 5 / 24) (r := 5 / 24) (E := 1.4e-17) c2 (by norm_num) (by norm_num))
    (C := 5 / 24) (A' := 0.234) (E' := 7.5e-17) (by norm_num [abs_le]) (by norm_num) (by norm_num) (by norm_num) (by norm_num) (by norm_num)
  have s3 := e2_step s2 hx hn (const_near (q := 1 / 2) (r := 1 / 2) (E := 0) c1 (by norm_num) (by norm_num))
    (C := 1 / 2) (A' := 0.564) (E' := 1.5e-16) (by norm_num [abs_le]) (by norm_num) (by norm_num) (by norm_num) (by norm_num) (by norm_num)
  have s4 := e2_step s3 hx hn (const_near (q := 0) (r := 0) (E := 0) z (by norm_num) (by norm_num))
    (C := 0) (A' := 0.153) (E' := 2.1e-16) (by norm_num [abs_le]) (by norm_num) (by norm_num) (by norm_num) (by norm_num) (by norm_num)
  have e : (((((0) * n + (13 / 360)) * n + (1 / 12)) * n + (5 / 24)) * n + (1 / 2)) * n + (0) =
      n / 2 + 5 / 24 * n ^ 2 + n ^ 3 / 12 + 13 / 360 * n ^ 4 := by ring
  rw [e] at s4
  exact s4

theorem merc_c1_near {x : F64 L} {n : ℝ} (hx : Near x n 2.5e-16) (hn : |n| ≤ 0.27) :
    Near (fastPoly [0, 0, 7 / 48, 29 / 240, 811 / 11520] x) (7 / 48 * n ^ 2 + 29 / 240 * n ^ 3 + 811 / 11520 * n ^ 4) 4e-17 ∧
      |7 / 48 * n ^ 2 + 29 / 240 * n ^ 3 + 811 / 11520 * n ^ 4| ≤ 0.0136 := by
  obtain ⟨z, -, -, -, -, c2, c3, c4, -⟩ := merc_consts
  have s0 := e2_step zero_acc hx hn (const_near (q := 811 / 11520) (r := 811 / 11520) (E := 7e-18) c4 (by norm_num) (by norm_num))
    (C := 811 / 11520) (A' := 0.0705) (E' := 1.6e-17) (by norm_num [abs_le]) (by norm_num) (by norm_num) (by norm_num) (by norm_num) (by norm_num)
  have s1 := e2_step s0 hx hn (const_near (q := 29 / 240) (r := 29 / 240) (E := 7e-18) c3 (by norm_num) (by norm_num))
    (C := 29 / 240) (A' := 0.14) (E' := 5e-17) (by norm_num [abs_le]) (by norm_num) (by norm_num) (by norm_num) (by norm_num) (by norm_num)
  have s2 := e2_step s1 hx hn (const_near (q := 7 / 48) (r := 7 / 48) (E := 1.4e-17) c2 (by norm_num) (by norm_num))
    (C := 7 / 48) (A' := 0.184) (E' := 9e-17) (by norm_num [abs_le]) (by norm_num) (by norm_num) (by norm_num) (by norm_num) (by norm_num)
  have s3 := e2_step s2 hx hn (const_near (q := 0) (r := 0) (E := 0) z (by norm_num) (by norm_num))
    (C := 0) (A' := 0.05) (E' := 8e-17) (by norm_num [abs_le]) (by norm_num) (by norm_num) (by norm_num) (by norm_num) (by norm_num)
  have s4 := e2_step s3 hx hn (const_near (q := 0) (r := 0) (E := 0) z (by norm_num) (by norm_num))
    (C := 0) (A' := 0.0136) (E' := 4e-17) (by norm_num [abs_le]) (by norm_num) (by norm_num) (by norm_num) (by norm_num) (by norm_num)
  have e : (((((0) * n + (811 / 11520)) * n + (29 / 240)) * n + (7 / 48)) * n + (0)) * n + (0) =
      7 / 48 * n ^ 2 + 29 / 240 * n ^ 3 + 811 / 11520 * n ^ 4 := by ring
  rw [e] at s4
  exact s4

theorem merc_c2_near {x : F64 L} {n : ℝ} (hx : Near x n 2.5e-16) (hn : |n| ≤ 0.27) :
    Near (fastPoly [0, 0, 0, 7 / 120, 81 / 1120] x) (7 / 120 * n ^ 3 + 81 / 1120 * n ^ 4) 1e-17 ∧
      |7 / 120 * n ^ 3 + 81 / 1120 * n ^ 4| ≤ 0.0016 := by
  obtain ⟨z, -, -, -, -, -, -, -, c3, c4, -⟩ := merc_consts
  have s0 := e2_step zero_acc hx hn (const_near (q := 81 / 1120) (r := 81 / 1120) (E := 7e-18) c4 (by norm_num) (by norm_num))
    (C := 81 / 1120) (A' := 0.0724) (E' := 1.6e-17) (by norm_num [abs_le]) (by norm_num) (by norm_num) (by norm_num) (by norm_num) (by norm_num)
  have s1 := e2_step s0 hx hn (const_near (q := 7 / 120) (r := 7 / 120) (E := 3.5e-18) c3 (by norm_num) (by norm_num))
    (C := 7 / 120) (A' := 0.0780) (E' := 4e-17) (by norm_num [abs_le]) (by norm_num) (by norm_num) (by norm_num) (by norm_num) (by norm_num)
  have s2 := e2_step s1 hx hn (const_near (q := 0) (r := 0) (E := 0) z (by norm_num) (by norm_num))
    (C := 0) (A' := 0.0212) (E' := 3.5e-17) (by norm_num [abs_le]) (by norm_num) (by norm_num) (by norm_num) (by norm_num) (by norm_num)
  have s3 := e2_step s2 hx hn (const_near (q := 0) (r := 0) (E := 0) z (by norm_num) (by norm_num))
    (C := 0) (A' := 0.0058) (E' := 1.6e-17) (by norm_num [abs_le]) (by norm_num) (by norm_num) (by norm_num) (by norm_num) (by norm_num)
  have s4 := e2_step s3 hx hn (const_near (q := 0) (r := 0) (E := 0) z (by norm_num) (by norm_num))
    (C := 0) (A' := 0.0016) (E' := 1e-17) (by norm_num [abs_le]) (by norm_num) (by norm_num) (by norm_num) (by norm_num) (by norm_num)
  have e : (((((0) * n + (81 / 1120)) * n + (7 / 120)) * n + (0)) * n + (0)) * n + (0) =
      7 / 120 * n ^ 3 + 81 / 1120 * n ^ 4 := by ring
  rw [e] at s4
  exact s4

theorem merc_c3_near {x : F64 L} {n : ℝ} (hx : Near x n 2.5e-16) (hn : |n| ≤ 0.27) :
    Near (fastPoly [0, 0, 0, 0, 4279 / 161280] x) (4279 / 161280 * n ^ 4) 2e-18 ∧ |4279 / 161280 * n ^ 4| ≤ 1.5e-4 := by
  obtain ⟨z, -, -, -, -, -, -, -, -, -, c4⟩ := merc_consts
  have s0 := e2_step zero_acc hx hn (const_near (q := 4279 / 161280) (r := 4279 / 161280) (E := 1.8e-18) c4 (by norm_num) (by norm_num))
    (C := 4279 / 161280) (A' := 0.0266) (E' := 5.1e-18) (by norm_num [abs_le]) (by norm_num) (by norm_num) (by norm_num) (by norm_num) (by norm_num)
  have s1 := e2_step s0 hx hn (const_near (q := 0) (r := 0) (E := 0) z (by norm_num) (by norm_num))
    (C := 0) (A' := 0.00719) (E' := 9e-18) (by norm_num [abs_le]) (by norm_num) (by norm_num) (by norm_num) (by norm_num) (by norm_num)
  have s2 := e2_step s1 hx hn (const_near (q := 0) (r := 0) (E := 0) z (by norm_num) (by norm_num))
    (C := 0) (A' := 0.00195) (E' := 5e-18) (by norm_num [abs_le]) (by norm_num) (by norm_num) (by norm_num) (by norm_num) (by norm_num)
  have s3 := e2_step s2 hx hn (const_near (q := 0) (r := 0) (E := 0) z (by norm_num) (by norm_num))
    (C := 0) (A' := 0.000527) (E' := 2e-18) (by norm_num [abs_le]) (by norm_num) (by norm_num) (by norm_num) (by norm_num) (by norm_num)
  have s4 := e2_step s3 hx hn (const_near (q := 0) (r := 0) (E := 0) z (by norm_num) (by norm_num))
    (C := 0) (A' := 1.5e-4) (E' := 2e-18) (by norm_num [abs_le]) (by norm_num) (by norm_num) (by norm_num) (by norm_num) (by norm_num)
  have e : (((((0) * n + (4279 / 161280)) * n + (0)) * n + (0)) * n + (0)) * n + (0) = 4279 / 161280 * n ^ 4 := by ring
  rw [e] at s4
  exact s4

/-- The series. -/
theorem merc_series_near (hL : AccurateProjection L) {x e2 : F64 L} {χ n ε : ℝ} (hn : Near e2 n 2.5e-16) (bn : |n| ≤ 0.27)
    (hx : Near x χ ε) (bx : |χ| ≤ 1.571) (hε : ε ≤ 1e-6) :
    Near (x + fastPoly [0, 0.5, 5 / 24, 1 / 12, 13 / 360] e2 * Flt.sin (2.0 * x) + fastPoly [0, 0, 7 / 48, 29 / 240, 811 / 11520] e2 * Flt.sin (4.0 * x)
      + fastPoly [0, 0, 0, 7 / 120, 81 / 1120] e2 * Flt.sin (6.0 * x) + fastPoly [0, 0, 0, 0, 4279 / 161280] e2 * Flt.sin (8.0 * x))
      (mercSeries n χ) (1.4 * ε + 1.5e-15) := by
  have h0 := hx.nonneg
  have k0 := merc_c0_near hn bn
  have k1 := merc_c1_near hn bn
  have k2 := merc_c2_near hn bn
  have k3 := merc_c3_near hn bn
  obtain ⟨t0, a0⟩ := s_term hL near_2 (by norm_num) (by norm_num) k0.1 k0.2 hx bx (by norm_num) (by norm_num) hε (by norm_num)
    (by norm_num) (E1 := 2 * ε + 6.2e-16) (E := 0.3061 * ε + 3.3e-16) (by norm_num; linarith) (by norm_num; linarith) (by norm_num at *; linarith)
  obtain ⟨t1, a1⟩ := s_term hL near_4 (by norm_num) (by norm_num) k1.1 k1.2 hx bx (by norm_num) (by norm_num) hε (by norm_num)
    (by norm_num) (E1 := 4 * ε + 1e-15) (E := 0.0545 * ε + 5.6e-17) (by norm_num; linarith) (by norm_num; linarith) (by norm_num at *; linarith)
  obtain ⟨t2, a2⟩ := s_term hL near_6 (by norm_num) (by norm_num) k2.1 k2.2 hx bx (by norm_num) (by norm_num) hε (by norm_num)
    (by norm_num) (E1 := 6 * ε + 1.4e-15) (E := 0.0097 * ε + 1.3e-17) (by norm_num; linarith) (by norm_num; linarith) (by norm_num at *; linarith)
  obtain ⟨t3, a3⟩ := s_term hL near_8 (by norm_num) (by norm_num) k3.1 k3.2 hx bx (by norm_num) (by norm_num) hε (by norm_num)
    (by norm_num) (E1 := 8 * ε + 1.8e-15) (E := 0.0013 * ε + 3e-18) (by norm_num; linarith) (by norm_num; linarith) (by norm_num at *; linarith)
  unfold mercSeries
  generalize (n / 2 + 5 / 24 * n ^ 2 + n ^ 3 / 12 + 13 / 360 * n ^ 4) * Real.sin (2 * χ) = T0 at *
  generalize (7 / 48 * n ^ 2 + 29 / 240 * n ^ 3 + 811 / 11520 * n ^ 4) * Real.sin (4 * χ) = T1 at *
  generalize (7 / 120 * n ^ 3 + 81 / 1120 * n ^ 4) * Real.sin (6 * χ) = T2 at *
  generalize 4279 / 161280 * n ^ 4 * Real.sin (8 * χ) = T3 at *
  have c1 := abs_add_le χ T0
  have c2 := abs_add_le (χ + T0) T1
  have c3 := abs_add_le (χ + T0 + T1) T2
  have c4 := abs_add_le (χ + T0 + T1 + T2) T3
  have u0 := hx.add t0 (R := 1.73) (E := 1.3061 * ε + 5.4e-16) (by norm_num at *; linarith) (by norm_num) (by norm_num) (by norm_num; linarith)
  have u1 := u0.add t1 (R := 1.74) (E := 1.3606 * ε + 8.1e-16) (by norm_num at *; linarith) (by norm_num) (by norm_num) (by norm_num; linarith)
  have u2 := u1.add t2 (R := 1.75) (E := 1.3703 * ε + 1.1e-15) (by norm_num at *; linarith) (by norm_num) (by norm_num) (by norm_num; linarith)
  exact u2.add t3 (R := 1.75) (E := 1.4 * ε + 1.5e-15) (by norm_num at *; linarith) (by norm_num) (by norm_num) (by norm_num; linarith)

/-- The series in exact arithmetic does not move two latitudes apart by more than a factor of 1.4. -/
theorem mercSeries_lip {n : ℝ} (bn : |n| ≤ 0.27) (x y : ℝ) : |mercSeries n x - mercSeries n y| ≤ 1.4 * |x - y| := by
  have hs : ∀ c m : ℝ, 0 ≤ m → |c * Real.sin (m * x) - c * Real.sin (m * y)| ≤ |c| * (m * |x - y|) := by
    intro c m hm
    rw [← mul_sub, abs_mul]
    refine mul_le_mul_of_nonneg_left ?_ (abs_nonneg _)
    have := Real.abs_sin_sub_sin_le (m * x) (m * y)
    rw [← mul_sub, abs_mul, abs_of_nonneg hm] at this
    exact this
  obtain ⟨n1, n2⟩ := abs_le.1 bn
  have b2 : |n ^ 2| ≤ 0.0729 := by rw [abs_pow]; exact (pow_le_pow_left₀ (abs_nonneg _) bn 2).trans (by norm_num)
  have b3 : |n ^ 3| ≤ 0.0197 := by rw [abs_pow]; exact (pow_le_pow_left₀ (abs_nonneg _) bn 3).trans (by norm_num)
  have b4 : |n ^ 4| ≤ 0.00532 := by rw [abs_pow]; exact (pow_le_pow_left₀ (abs_nonneg _) bn 4).trans (by norm_num)
  have q0 : |n / 2 + 5 / 24 * n ^ 2 + n ^ 3 / 12 + 13 / 360 * n ^ 4| ≤ 0.153 := by
    rw [abs_le] at *; constructor <;> norm_num at * <;> linarith
  have q1 : |7 / 48 * n ^ 2 + 29 / 240 * n ^ 3 + 811 / 11520 * n ^ 4| ≤ 0.0136 := by
    rw [abs_le] at *; constructor <;> norm_num at * <;> linarith
  have q2 : |7 / 120 * n ^ 3 + 81 / 1120 * n ^ 4| ≤ 0.0016 := by
    rw [abs_le] at *; constructor <;> norm_num at * <;> linarith
  have q3 : |4279 / 161280 * n ^ 4| ≤ 1.5e-4 := by
    rw [abs_le] at *; constructor <;> norm_num at * <;> linarith
  unfold mercSeries
  have s0 := hs (n / 2 + 5 / 24 * n ^ 2 + n ^ 3 / 12 + 13 / 360 * n ^ 4) 2 (by norm_num)
  have s1 := hs (7 / 48 * n ^ 2 + 29 / 240 * n ^ 3 + 811 / 11520 * n ^ 4) 4 (by norm_num)
  have s2 := hs (7 / 120 * n ^ 3 + 81 / 1120 * n ^ 4) 6 (by norm_num)
  have s3 := hs (4279 / 161280 * n ^ 4) 8 (by norm_num)
  have d := abs_nonneg (x - y)
  have r0 := s0.trans (mul_le_mul_of_nonneg_right q0 (by positivity))
  have r1 := s1.trans (mul_le_mul_of_nonneg_right q1 (by positivity))
  have r2 := s2.trans (mul_le_mul_of_nonneg_right q2 (by positivity))
  have r3 := s3.trans (mul_le_mul_of_nonneg_right q3 (by positivity))
  have dd := abs_le.1 (le_refl |x - y|)
  rw [abs_le] at r0 r1 r2 r3 ⊢
  norm_num at *
  constructor <;> linarith

/-- Conformal and geographic latitude have cosines of the same size. -/
theorem cos_gd_le {ψ φ w : ℝ} (h1 : -(Real.pi / 2) < φ) (h2 : φ < Real.pi / 2) (h : |ψ - Real.arsinh (Real.tan φ)| ≤ w) :
    Real.cos (Real.arctan (Real.sinh ψ)) ≤ Real.exp w * Real.cos φ := by
  have hc : 0 < Real.cos φ := Real.cos_pos_of_mem_Ioo ⟨h1, h2⟩
  have e1 : Real.cos φ = (Real.cosh (Real.arsinh (Real.tan φ)))⁻¹ := by
    rw [Real.cosh_arsinh, ← Real.inv_sqrt_one_add_tan_sq hc]
  have e2 : Real.cos (Real.arctan (Real.sinh ψ)) = (Real.cosh ψ)⁻¹ := by
    rw [Real.cos_arctan, add_comm, ← Real.cosh_sq, Real.sqrt_sq (Real.cosh_pos _).le, one_div]
  rw [e1, e2]
  generalize Real.arsinh (Real.tan φ) = ψ' at *
  rw [inv_le_iff_one_le_mul₀ (Real.cosh_pos _), mul_comm, ← mul_assoc, ← div_eq_mul_inv, le_div_iff₀ (Real.cosh_pos _), one_mul,
    Real.cosh_eq, Real.cosh_eq]
  obtain ⟨a, b⟩ := abs_le.1 h
  have g1 : Real.exp ψ' ≤ Real.exp ψ * Real.exp w := by rw [← Real.exp_add]; exact Real.exp_le_exp.2 (by linarith)
  have g2 : Real.exp (-ψ') ≤ Real.exp (-ψ) * Real.exp w := by rw [← Real.exp_add]; exact Real.exp_le_exp.2 (by linarith)
  linarith

end Geo
