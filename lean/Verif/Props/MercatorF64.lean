import Verif.Lemmas.MercatorRound
import Verif.Props.WebMercatorF64
import Verif.Props.TransverseF64

/-! # C110: the Mercator projection in IEEE arithmetic

The doubles computed by the code are compared with the values of the same formulas in exact arithmetic, which C34 and C35
describe. -/

namespace Geo
open XR Spec
variable {L : Libm} {el : Ellipsoid (F64 L)} {l0 fe fn k0 : F64 L} {K κ : ℝ}

/-- A Mercator projection built on the same parameters, which are doubles, in IEEE and in exact arithmetic, with its scale on the equator:
scale factors between 0.5 and 2, or standard parallels up to 60°. -/
inductive SameMercator (s : String) (el : Ellipsoid (F64 L)) (l0 fe fn : F64 L) : ℝ → Projection (F64 L) → Projection XR → Prop
  | oneSP (k0 : F64 L) (hf : k0.isFinite) (h1 : 0.5 ≤ k0.toQ) (h2 : k0.toQ ≤ 2) :
      SameMercator s el l0 fe fn k0.toQ ((ProjectionSpec.mercator1SP ⟨⟨l0⟩⟩ k0 ⟨fe⟩ ⟨fn⟩).appliedTo el)
        (merc1 s el.a.m.toQ el.b.m.toQ l0.toQ k0.toQ fe.toQ fn.toQ)
  | twoSP (φ1 : F64 L) (hf : φ1.isFinite) (h1 : -(Real.pi / 2) < (φ1.toQ : ℝ)) (h2 : (φ1.toQ : ℝ) < Real.pi / 2)
      (hc : 0.5 ≤ Real.cos φ1.toQ) :
      SameMercator s el l0 fe fn (Real.cos φ1.toQ / Real.sqrt (1 - (1 - (el.b.m.toQ : ℝ) ^ 2 / (el.a.m.toQ : ℝ) ^ 2) * Real.sin φ1.toQ ^ 2))
        ((ProjectionSpec.mercator2SP ⟨⟨l0⟩⟩ ⟨⟨φ1⟩⟩ ⟨fe⟩ ⟨fn⟩).appliedTo el)
        (merc2 s el.a.m.toQ el.b.m.toQ l0.toQ φ1.toQ fe.toQ fn.toQ)

theorem k2sp_near (hL : AccurateProjection L) (h : EarthSized el) {φ1 : F64 L} (hf : φ1.isFinite)
    (h1 : -(Real.pi / 2) < (φ1.toQ : ℝ)) (h2 : (φ1.toQ : ℝ) < Real.pi / 2) (hc : 0.5 ≤ Real.cos φ1.toQ) :
    Near (Flt.cos (Flt.abs φ1) / Flt.sqrt (1.0 - el.eSq * Flt.sin (Flt.abs φ1) * Flt.sin (Flt.abs φ1)))
      (k2sp el.a.m.toQ el.b.m.toQ φ1.toQ) 1.5e-15 ∧
    0.5 ≤ k2sp el.a.m.toQ el.b.m.toQ φ1.toQ ∧ k2sp el.a.m.toQ el.b.m.toQ φ1.toQ ≤ 1 := by
  obtain ⟨e1, e2, e3⟩ := earth_real h
  obtain ⟨q0, q1⟩ := ecc2_le e1 e2 e3
  have kq := eSq_near h
  have hp := Real.pi_lt_d2
  have ka : Near (Flt.abs φ1 : F64 L) |(φ1.toQ : ℝ)| 0 := by
    refine ⟨(B64.abs_finite φ1).trans hf, ?_⟩
    rw [show (Flt.abs φ1 : F64 L).toQ = |φ1.toQ| from B64.abs_toQ φ1]
    push_cast
    simp
  have ba : abs (|(φ1.toQ : ℝ)|) ≤ 2 := by rw [abs_abs, abs_le]; constructor <;> norm_num at * <;> linarith
  have ks := Near.sin' hL ka (E := 2.3e-16) (by linarith) (by norm_num)
  have kc := Near.cos' hL ka (E := 2.3e-16) (by linarith) (by norm_num)
  rw [Real.cos_abs] at kc
  have bs := Real.abs_sin_le_one |(φ1.toQ : ℝ)|
  have es : Real.sin |(φ1.toQ : ℝ)| ^ 2 = Real.sin φ1.toQ ^ 2 := by
    have a := Real.sin_sq_add_cos_sq |(φ1.toQ : ℝ)|
    have b := Real.sin_sq_add_cos_sq (φ1.toQ : ℝ)
    rw [Real.cos_abs] at a
    linarith
  have c1 := Real.cos_le_one (φ1.toQ : ℝ)
  have hsc := Real.sin_sq_add_cos_sq (φ1.toQ : ℝ)
  rw [k2sp, wf]
  generalize Real.sin |(φ1.toQ : ℝ)| = s at *
  generalize Real.cos (φ1.toQ : ℝ) = c at *
  rw [← es] at hsc ⊢
  generalize ecc2 el.a.m.toQ el.b.m.toQ = q at *
  have bq : |q| ≤ 0.27 := by rw [abs_of_nonneg q0]; exact q1
  have k1 := Near.mul kq ks (A := 0.27) (B := 1) (R := 0.28) (E := 3.5e-16) bq bs (by norm_num) (by norm_num) (by norm_num) (by norm_num)
  have b1 : |q * s| ≤ 0.27 := by rw [abs_mul]; exact (mul_le_mul bq bs (abs_nonneg _) (by norm_num)).trans (by norm_num)
  have k2 := Near.mul k1 ks (A := 0.27) (B := 1) (R := 0.28) (E := 4.6e-16) b1 bs (by norm_num) (by norm_num) (by norm_num) (by norm_num)
  have k2 := k2.congr (show q * s * s = q * s ^ 2 by ring)
  have s0 := sq_nonneg s
  have s1 : s ^ 2 ≤ 1 := by nlinarith
  have w1 : q * s ^ 2 ≤ 0.27 := by norm_num at *; nlinarith
  have w0 : 0 ≤ q * s ^ 2 := mul_nonneg q0 s0
  have k3 := Near.sub near_1 k2 (R := 1.01) (E := 5.9e-16) (by
    rw [abs_of_nonneg (by norm_num at *; linarith)]; norm_num at *; linarith) (by norm_num) (by norm_num) (by norm_num)
  have r1 : Real.sqrt (1 - q * s ^ 2) ≤ 1 := Real.sqrt_le_one.2 (by linarith)
  have r0 : 0.85 ≤ Real.sqrt (1 - q * s ^ 2) := Real.le_sqrt_of_sq_le (by norm_num at *; linarith)
  have k4 := Near.sqrt hL.toAccurate k3 (B := 0.85) (A := 1) (E := 9.3e-16) (by norm_num) (by norm_num at *; linarith) (by norm_num) r1 (by norm_num)
  have cr : c ≤ Real.sqrt (1 - q * s ^ 2) := Real.le_sqrt_of_sq_le (by nlinarith)
  have c0 : 0 ≤ c := by norm_num at *; linarith
  generalize Real.sqrt (1 - q * s ^ 2) = r at *
  have rp : 0 < r := by norm_num at *; linarith
  refine ⟨Near.div' kc k4 (A := 1) (B := 0.85) (C := 0.849) (R := 1.01) (E := 1.5e-15) (by rw [abs_of_nonneg c0]; linarith) (by norm_num) r0
    (by norm_num) (by norm_num) (by norm_num) (by norm_num) (by norm_num) (by norm_num), ?_, (div_le_one rp).2 cr⟩
  rw [le_div_iff₀ rp]
  norm_num at *
  nlinarith

theorem SameMercator.eq (hL : AccurateProjection L) (h : EarthSized el) {s : String} {p : Projection (F64 L)} {p' : Projection XR}
    (hp : SameMercator s el l0 fe fn K p p') :
    ∃ (k0 : F64 L) (lat0 : Lat (F64 L)) (κ : ℝ), p = .mercator (Mercator.new el ⟨⟨l0⟩⟩ lat0 k0 ⟨fe⟩ ⟨fn⟩) ∧ Near k0 K κ ∧ 0.5 ≤ K ∧
      ((κ = 0 ∧ K ≤ 2) ∨ (κ = 1.5e-15 ∧ K ≤ 1)) ∧ IsMercator s el.a.m.toQ el.b.m.toQ l0.toQ fe.toQ fn.toQ K p' := by
  obtain ⟨e1, e2, e3⟩ := earth_real h
  cases hp with
  | oneSP k0 hf h1 h2 =>
    have h1' : (0.5 : ℝ) ≤ k0.toQ := by have := (Rat.cast_le (K := ℝ)).2 h1; push_cast at this; norm_num at *; linarith
    have h2' : (k0.toQ : ℝ) ≤ 2 := by have := (Rat.cast_le (K := ℝ)).2 h2; push_cast at this; exact this
    exact ⟨k0, Lat.ZERO, 0, rfl, Near.exact hf, h1', Or.inl ⟨rfl, h2'⟩, .oneSP _ (lt_of_lt_of_le (by norm_num) h1')⟩
  | twoSP φ1 hf h1 h2 hc =>
    obtain ⟨k1, k2, k3⟩ := k2sp_near hL h hf h1 h2 hc
    have e := k2sp_eq (show (0 : ℝ) < el.b.m.toQ by linarith) e2 (φ1.toQ : ℝ)
    have hi := IsMercator.twoSP (n := s) (a := el.a.m.toQ) (b := el.b.m.toQ) (l0 := l0.toQ) (fe := fe.toQ) (fn := fn.toQ) _ h1 h2
    rw [e] at hi ⊢
    exact ⟨_, _, 1.5e-15, rfl, k1, k2, Or.inr ⟨rfl, k3⟩, hi⟩

/-! ### Both directions for a known error of the scale -/

theorem merc_forward (hL : AccurateProjection L) (h : EarthSized el) (lat0 : Lat (F64 L)) (hk : Near k0 K κ) (hK1 : 0.49 ≤ K) (hK2 : K ≤ 2.01)
    (hκ : κ ≤ 1e-14) {l φ ht : F64 L} (hl : InLonRange l) (hl0 : InLonRange l0) (hφ : φ.isFinite) (h1 : -(Real.pi / 2) < (φ.toQ : ℝ))
    (h2 : (φ.toQ : ℝ) < Real.pi / 2) (hc : 1e-3 ≤ Real.cos φ.toQ) (hfe : fe.isFinite) (hfe1 : |fe.toQ| ≤ 20000000) (hfn : fn.isFinite)
    (hfn1 : |fn.toQ| ≤ 20000000) :
    ∃ (E N : F64 L) (n : ℤ),
      (Mercator.new el ⟨⟨l0⟩⟩ lat0 k0 ⟨fe⟩ ⟨fn⟩).proj ⟨⟨⟨l⟩⟩, ⟨⟨φ⟩⟩, ⟨ht⟩⟩ = .ok ⟨⟨E⟩, ⟨N⟩, ⟨ht⟩⟩ ∧
      E.isFinite ∧ |(E.toQ : ℝ) - (fe.toQ + K * el.a.m.toQ * normR ((l.toQ : ℝ) - l0.toQ)) - n * (2 * Real.pi * (K * el.a.m.toQ))| ≤
        K * el.a.m.toQ * (6.5 * κ + 2.7e-15) + 2.6e-9 ∧
      |normR ((l.toQ : ℝ) - l0.toQ) + n * (2 * Real.pi)| ≤ 3.142 ∧
      ((∃ j : ℤ, |(l.toQ : ℝ) - l0.toQ - j * (2 * Real.pi)| ≤ 3.14159265358979) → n = 0) ∧
      Near N (fn.toQ + K * el.a.m.toQ * isoQ (Real.sqrt (ecc2 el.a.m.toQ el.b.m.toQ)) φ.toQ)
        (K * el.a.m.toQ * (9.11e-16 / Real.cos φ.toQ + 18.7 * κ + 1.05e-14) + 2.6e-9) := by
  obtain ⟨a0, a1⟩ := earth_a h
  have a2 := (abs_le.1 a1).2
  have kM := scale_mul_near h.a_finite a0 a2 hk hK1 hK2 (hκ.trans (by norm_num))
  have κ0 := hk.nonneg
  have M1 : 1 ≤ K * el.a.m.toQ := by norm_num at *; nlinarith
  have M2 : K * el.a.m.toQ ≤ 1.5e7 := by
    have := mul_le_mul hK2 a2 (by linarith) (by norm_num); norm_num at *; linarith
  obtain ⟨ki, bi, -⟩ := iso_ln_near hL h hφ h1 h2 hc
  have hcp : 0 < Real.cos (φ.toQ : ℝ) := lt_of_lt_of_le (by norm_num) hc
  have e2 : 9.11e-16 / Real.cos (φ.toQ : ℝ) = 9.11e-16 * (1 / Real.cos φ.toQ) := by ring
  have g0 : 0 ≤ 1 / Real.cos (φ.toQ : ℝ) := by positivity
  have g1 : 1 / Real.cos (φ.toQ : ℝ) ≤ 1000 := by rw [div_le_iff₀ hcp]; norm_num at *; linarith
  rw [e2] at ki ⊢
  generalize 1 / Real.cos (φ.toQ : ℝ) = g at *
  have bM : |K * (el.a.m.toQ : ℝ)| ≤ K * el.a.m.toQ := (abs_of_nonneg (by linarith)).le
  generalize K * (el.a.m.toQ : ℝ) = M at *
  have w0 : 0 ≤ M * κ := mul_nonneg (by linarith) κ0
  have w1 : M * κ ≤ 1.5e-7 := (mul_le_mul M2 hκ κ0 (by norm_num)).trans (by norm_num)
  have hεM : M * (2.05 * κ + 1.3e-16) ≤ 1e-6 := by norm_num at *; linarith
  obtain ⟨n, j1, j2, j3, j4⟩ := easting_near hl hl0 kM bM M1 (M2.trans (by norm_num)) hεM hfe hfe1
    (E := M * (6.5 * κ + 2.7e-15) + 2.6e-9) (by norm_num at *; linarith)
  have kN := northing_near ki (bi.trans (by norm_num)) (by norm_num at *; linarith) kM bM M1 (M2.trans (by norm_num)) hεM hfn hfn1
    (E := M * (9.11e-16 * g + 18.7 * κ + 1.05e-14) + 2.6e-9) (by norm_num at *; linarith)
  exact ⟨_, _, n, rfl, j2, j1, j3, j4, kN⟩

theorem merc_inverse (hL : AccurateProjection L) (h : EarthSized el) (lat0 : Lat (F64 L)) (hk : Near k0 K κ) (hK1 : 0.49 ≤ K) (hK2 : K ≤ 2.01)
    (hκ : κ ≤ 1e-14) {E N ht : F64 L} (hl0 : InLonRange l0) (hE : E.isFinite) (hN : N.isFinite) (hfe : fe.isFinite) (hfn : fn.isFinite)
    (bE : |(E.toQ : ℝ) - fe.toQ| ≤ 5 * (K * el.a.m.toQ)) (bN : |(N.toQ : ℝ) - fn.toQ| ≤ 9 * (K * el.a.m.toQ)) :
    ∃ (l φ : F64 L) (n : ℤ),
      (Mercator.new el ⟨⟨l0⟩⟩ lat0 k0 ⟨fe⟩ ⟨fn⟩).unproj ⟨⟨E⟩, ⟨N⟩, ⟨ht⟩⟩ = .ok ⟨⟨⟨l⟩⟩, ⟨⟨φ⟩⟩, ⟨ht⟩⟩ ∧
      Near φ (clampR (mercSeries (ecc2 el.a.m.toQ el.b.m.toQ) (Real.arctan (Real.sinh (((N.toQ : ℝ) - fn.toQ) / (K * el.a.m.toQ))))))
        (25.9 * κ + 1.01e-14) ∧
      InLonRange l ∧ |(l.toQ : ℝ) - remR (l0.toQ + ((E.toQ : ℝ) - fe.toQ) / (K * el.a.m.toQ)) - n * (2 * Real.pi)| ≤ 10.3 * κ + 3.2e-15 := by
  obtain ⟨a0, a1⟩ := earth_a h
  have a2 := (abs_le.1 a1).2
  obtain ⟨e1, e2, e3⟩ := earth_real h
  obtain ⟨q0, q1⟩ := ecc2_le e1 e2 e3
  have bq : |ecc2 el.a.m.toQ el.b.m.toQ| ≤ 0.27 := by rw [abs_of_nonneg q0]; exact q1
  have kM := scale_mul_near h.a_finite a0 a2 hk hK1 hK2 (hκ.trans (by norm_num))
  have κ0 := hk.nonneg
  have M1 : 1 ≤ K * el.a.m.toQ := by norm_num at *; nlinarith
  have M2 : K * el.a.m.toQ ≤ 1.5e7 := by
    have := mul_le_mul hK2 a2 (by linarith) (by norm_num); norm_num at *; linarith
  generalize K * (el.a.m.toQ : ℝ) = M at *
  have w0 : 0 ≤ M * κ := mul_nonneg (by linarith) κ0
  have w1 : M * κ ≤ 1.5e-7 := (mul_le_mul M2 hκ κ0 (by norm_num)).trans (by norm_num)
  have w2 : M * κ * κ ≤ 1e-14 * (M * κ) := by rw [mul_comm _ (M * κ)]; exact mul_le_mul_of_nonneg_left hκ w0
  have hεM : M * (2.05 * κ + 1.3e-16) ≤ 1e-6 := by norm_num at *; linarith
  obtain ⟨x1, x2⟩ := offset_div_near hE hfe kM (K := 5) (δ := 5.001 * (2.05 * κ + 2.5e-16)) (E := 10.3 * κ + 1.9e-15) M1 (M2.trans (by norm_num)) hεM (by norm_num)
    (by norm_num) bE (by norm_num at *; nlinarith) (by norm_num at *; linarith) (by norm_num at *; linarith)
  obtain ⟨y1, y2⟩ := offset_div_near hfn hN kM (K := 9) (δ := 9.001 * (2.05 * κ + 2.5e-16)) (E := 18.5 * κ + 3.4e-15) M1 (M2.trans (by norm_num)) hεM (by norm_num)
    (by norm_num) (by rw [abs_sub_comm]; exact bN) (by norm_num at *; nlinarith) (by norm_num at *; linarith) (by norm_num at *; linarith)
  obtain ⟨n, l1, l2⟩ := lon_back_near hl0 x1 x2 (by norm_num at *; linarith) (E := 10.3 * κ + 3.2e-15) (by norm_num at *; linarith)
  have hψ : |((N.toQ : ℝ) - fn.toQ) / M| ≤ 9 := by
    rw [← neg_sub, neg_div, abs_neg]; exact y2
  have kg := gd_neg_near hL (y1.congr (show ((fn.toQ : ℝ) - N.toQ) / M = -(((N.toQ : ℝ) - fn.toQ) / M) by ring)) hψ (by norm_num at *; linarith)
    (E := 18.5 * κ + 6.02e-15) (by norm_num; linarith)
  have g1 := Real.neg_pi_div_two_lt_arctan (Real.sinh (((N.toQ : ℝ) - fn.toQ) / M))
  have g2 := Real.arctan_lt_pi_div_two (Real.sinh (((N.toQ : ℝ) - fn.toQ) / M))
  have hp := Real.pi_lt_d4
  have kφ := (lat_clamp_near (rad_near (merc_series_near hL (eSq_near h) bq kg (by rw [abs_le]; constructor <;> norm_num at * <;> linarith)
    (by norm_num at *; linarith)))).2
  exact ⟨_, _, n, rfl, kφ.mono (by norm_num at *; linarith), l1, l2⟩

theorem merc_round_trip (hL : AccurateProjection L) (h : EarthSized el) (he : ((el.a.m.toQ : ℝ) ^ 2 - el.b.m.toQ ^ 2) / el.a.m.toQ ^ 2 ≤ 1 / 50)
    (lat0 : Lat (F64 L)) (hk : k0.isFinite) (hK1 : 0.49 ≤ (k0.toQ : ℝ)) (hK2 : (k0.toQ : ℝ) ≤ 2.01)
    {l φ ht : F64 L} (hl : InLonRange l) (hl0 : InLonRange l0) (hφ : φ.isFinite) (h1 : -(Real.pi / 2) < (φ.toQ : ℝ))
    (h2 : (φ.toQ : ℝ) < Real.pi / 2) (hc : 1e-3 ≤ Real.cos φ.toQ) (hfe : fe.isFinite) (hfe1 : |fe.toQ| ≤ 20000000) (hfn : fn.isFinite)
    (hfn1 : |fn.toQ| ≤ 20000000) :
    ∃ (E N x y : F64 L) (n : ℤ),
      (Mercator.new el ⟨⟨l0⟩⟩ lat0 k0 ⟨fe⟩ ⟨fn⟩).proj ⟨⟨⟨l⟩⟩, ⟨⟨φ⟩⟩, ⟨ht⟩⟩ = .ok ⟨⟨E⟩, ⟨N⟩, ⟨ht⟩⟩ ∧
      (Mercator.new el ⟨⟨l0⟩⟩ lat0 k0 ⟨fe⟩ ⟨fn⟩).unproj ⟨⟨E⟩, ⟨N⟩, ⟨ht⟩⟩ = .ok ⟨⟨⟨x⟩⟩, ⟨⟨y⟩⟩, ⟨ht⟩⟩ ∧
      Near y φ.toQ (3 / 2 * (((el.a.m.toQ : ℝ) ^ 2 - el.b.m.toQ ^ 2) / el.a.m.toQ ^ 2) ^ 5 + 2.9e-14) ∧
      x.isFinite ∧ |(x.toQ : ℝ) - l.toQ - n * (2 * Real.pi)| ≤ 7e-15 := by
  obtain ⟨E, N, n, k1, k2, k3, k4, -, k5⟩ := merc_forward hL h lat0 (Near.exact hk) hK1 hK2 (by norm_num) (ht := ht) hl hl0 hφ h1 h2 hc
    hfe hfe1 hfn hfn1
  obtain ⟨-, bi, bd⟩ := iso_ln_near hL h hφ h1 h2 hc
  obtain ⟨a0, a1⟩ := earth_a h
  have a2 := (abs_le.1 a1).2
  obtain ⟨e1, e2, e3⟩ := earth_real h
  obtain ⟨q0, q1⟩ := ecc2_le e1 e2 e3
  have bq : |ecc2 el.a.m.toQ el.b.m.toQ| ≤ 0.27 := by rw [abs_of_nonneg q0]; exact q1
  have inv := fun bE bN => merc_inverse hL h lat0 (Near.exact hk) hK1 hK2 (by norm_num) (E := E) (N := N) (ht := ht) hl0 k2 k5.1 hfe hfn bE bN
  have M1 : 2940000 ≤ (k0.toQ : ℝ) * el.a.m.toQ := by
    have := mul_le_mul hK1 a0 (by norm_num) (by linarith); norm_num at *; linarith
  have ee : ecc2 el.a.m.toQ el.b.m.toQ = ((el.a.m.toQ : ℝ) ^ 2 - el.b.m.toQ ^ 2) / el.a.m.toQ ^ 2 := by
    have : (el.a.m.toQ : ℝ) ≠ 0 := by linarith
    unfold ecc2; field_simp; ring
  have hcp : 0 < Real.cos (φ.toQ : ℝ) := lt_of_lt_of_le (by norm_num) hc
  have hc1 := Real.cos_le_one (φ.toQ : ℝ)
  rw [← ee] at he ⊢
  obtain ⟨c1, c2, c3⟩ := merc_latitude q0 he h1 h2
  rw [← mercSeries_eq] at c1 c2 c3
  rw [confL] at c1 c2 c3
  have cosχ := cos_gd_le h1 h2 bd
  generalize hR : normR ((l.toQ : ℝ) - l0.toQ) = δ at *
  obtain ⟨m, hm⟩ := normR_same ((l.toQ : ℝ) - l0.toQ)
  rw [hR] at hm
  generalize (k0.toQ : ℝ) * (el.a.m.toQ : ℝ) = M at *
  generalize hI : isoQ (Real.sqrt (ecc2 el.a.m.toQ el.b.m.toQ)) (φ.toQ : ℝ) = ψ at *
  generalize ecc2 el.a.m.toQ el.b.m.toQ = q at *
  have hM : 0 < M := by linarith
  have g1 : 9.11e-16 / Real.cos (φ.toQ : ℝ) ≤ 9.11e-13 := by rw [div_le_iff₀ hcp]; norm_num at *; linarith
  have g0 : 0 ≤ 9.11e-16 / Real.cos (φ.toQ : ℝ) := by positivity
  have dE : |((E.toQ : ℝ) - fe.toQ) / M - δ - n * (2 * Real.pi)| ≤ 3.6e-15 := by
    have e : ((E.toQ : ℝ) - fe.toQ) / M - δ - n * (2 * Real.pi) =
        ((E.toQ : ℝ) - (fe.toQ + M * δ) - n * (2 * Real.pi * M)) / M := by field_simp; ring
    rw [e, abs_div, abs_of_pos hM, div_le_iff₀ hM]
    refine k3.trans ?_
    norm_num at *
    linarith
  have dN : |((N.toQ : ℝ) - fn.toQ) / M - ψ| ≤ 9.11e-16 / Real.cos φ.toQ + 1.14e-14 := by
    have e : ((N.toQ : ℝ) - fn.toQ) / M - ψ = ((N.toQ : ℝ) - (fn.toQ + M * ψ)) / M := by field_simp; ring
    rw [e, abs_div, abs_of_pos hM, div_le_iff₀ hM]
    refine k5.2.trans ?_
    generalize 9.11e-16 / Real.cos (φ.toQ : ℝ) = g at *
    norm_num at *
    linarith
  obtain ⟨x, y, j, r1, r2, r3, r4⟩ := inv (by
    have : |((E.toQ : ℝ) - fe.toQ) / M| ≤ 5 := by
      have := abs_add_le (((E.toQ : ℝ) - fe.toQ) / M - δ - n * (2 * Real.pi)) (δ + n * (2 * Real.pi))
      rw [show ((E.toQ : ℝ) - fe.toQ) / M - δ - n * (2 * Real.pi) + (δ + n * (2 * Real.pi)) = ((E.toQ : ℝ) - fe.toQ) / M by ring] at this
      norm_num at *
      linarith
    rwa [abs_div, abs_of_pos hM, div_le_iff₀ hM] at this) (by
    have : |((N.toQ : ℝ) - fn.toQ) / M| ≤ 9 := by
      have := abs_add_le (((N.toQ : ℝ) - fn.toQ) / M - ψ) ψ
      rw [sub_add_cancel] at this
      generalize 9.11e-16 / Real.cos (φ.toQ : ℝ) = g at *
      norm_num at *
      linarith
    rwa [abs_div, abs_of_pos hM, div_le_iff₀ hM] at this)
  obtain ⟨i, hi⟩ := remR_same ((l0.toQ : ℝ) + ((E.toQ : ℝ) - fe.toQ) / M)
  rw [hi] at r4
  refine ⟨E, N, x, y, j + i + n + m, k1, r1, ⟨r2.1, ?_⟩, r3.1, ?_⟩
  · have t1 := Real.neg_pi_div_two_lt_arctan (Real.sinh ψ)
    have t2 := Real.arctan_lt_pi_div_two (Real.sinh ψ)
    have w := gd_lip_local t1 t2 (δ := 9.11e-16 / Real.cos φ.toQ + 1.14e-14)
      (by rw [Real.tan_arctan, Real.arsinh_sinh]; exact dN) (by
        generalize 9.11e-16 / Real.cos (φ.toQ : ℝ) = g at *
        norm_num at *
        linarith)
    have hexp : Real.exp 0.42 ≤ 1.53 := by
      have := Real.exp_bound' (x := 0.42) (by norm_num) (by norm_num) (n := 5) (by norm_num)
      refine this.trans ?_
      norm_num [Finset.sum_range_succ, Nat.factorial]
    have w2 : 1.002 * Real.cos (Real.arctan (Real.sinh ψ)) * (9.11e-16 / Real.cos φ.toQ + 1.14e-14) ≤ 1.3e-14 := by
      have u1 : Real.cos (Real.arctan (Real.sinh ψ)) * (9.11e-16 / Real.cos φ.toQ) ≤ 1.4e-15 := by
        have := mul_le_mul_of_nonneg_right (cosχ.trans (mul_le_mul_of_nonneg_right hexp hcp.le)) g0
        rw [show 1.53 * Real.cos (φ.toQ : ℝ) * (9.11e-16 / Real.cos φ.toQ) = 1.53 * 9.11e-16 by field_simp] at this
        norm_num at *
        linarith
      have u2 := Real.cos_le_one (Real.arctan (Real.sinh ψ))
      rw [mul_add, mul_assoc]
      generalize Real.cos (Real.arctan (Real.sinh ψ)) * (9.11e-16 / Real.cos φ.toQ) = v at *
      norm_num at *
      linarith
    have lip := mercSeries_lip bq (Real.arctan (Real.sinh (((N.toQ : ℝ) - fn.toQ) / M))) (Real.arctan (Real.sinh ψ))
    have cl := clampR_lip (mercSeries q (Real.arctan (Real.sinh (((N.toQ : ℝ) - fn.toQ) / M)))) (mercSeries q (Real.arctan (Real.sinh ψ)))
    rw [clampR_id c1.le c2.le] at cl
    have z1 := abs_sub_le (y.toQ : ℝ) (clampR (mercSeries q (Real.arctan (Real.sinh (((N.toQ : ℝ) - fn.toQ) / M))))) φ.toQ
    have z2 := abs_sub_le (clampR (mercSeries q (Real.arctan (Real.sinh (((N.toQ : ℝ) - fn.toQ) / M))))) (mercSeries q (Real.arctan (Real.sinh ψ))) φ.toQ
    have z3 := r2.2
    have z4 := w.trans w2
    norm_num at *
    linarith
  · have e : (x.toQ : ℝ) - l.toQ - ((j + i + n + m : ℤ) : ℝ) * (2 * Real.pi) =
        ((x.toQ : ℝ) - ((l0.toQ : ℝ) + ((E.toQ : ℝ) - fe.toQ) / M + i * (2 * Real.pi)) - j * (2 * Real.pi))
          + (((E.toQ : ℝ) - fe.toQ) / M - δ - n * (2 * Real.pi)) := by
      push_cast
      linear_combination hm
    rw [e]
    exact (abs_add_le _ _).trans ((add_le_add r4 dE).trans (by norm_num))

/-! ### C110 -/

/-- **C110**, forward: easting within 100 nm, up to whole circumferences (none away from the antimeridian of the origin), northing within
`280 nm + 13 nm / cos φ` of the values in exact arithmetic, for latitudes up to 89.94°. -/
theorem C110_forward (hL : AccurateProjection L) (h : EarthSized el) {s : String} {p : Projection (F64 L)} {p' : Projection XR}
    (hp : SameMercator s el l0 fe fn K p p') {l φ ht : F64 L} (hl : InLonRange l) (hl0 : InLonRange l0) (hφ : φ.isFinite)
    (h1 : -(Real.pi / 2) < (φ.toQ : ℝ)) (h2 : (φ.toQ : ℝ) < Real.pi / 2) (hc : 1e-3 ≤ Real.cos φ.toQ) (hfe : fe.isFinite)
    (hfe1 : |fe.toQ| ≤ 20000000) (hfn : fn.isFinite) (hfn1 : |fn.toQ| ≤ 20000000) (h' : ℝ) :
    ∃ (E N : F64 L) (E' N' : ℝ) (n : ℤ), p.proj ⟨⟨⟨l⟩⟩, ⟨⟨φ⟩⟩, ⟨ht⟩⟩ = .ok ⟨⟨E⟩, ⟨N⟩, ⟨ht⟩⟩ ∧
      p'.proj (llh l.toQ φ.toQ h') = .ok (enh E' N' h') ∧
      E.isFinite ∧ |(E.toQ : ℝ) - E' - n * (2 * Real.pi * (K * el.a.m.toQ))| ≤ 1e-7 ∧
      ((∃ j : ℤ, |(l.toQ : ℝ) - l0.toQ - j * (2 * Real.pi)| ≤ 3.14159265358979) → n = 0) ∧
      Near N N' (2.8e-7 + 1.3e-8 / Real.cos φ.toQ) := by
  obtain ⟨e1, e2, e3⟩ := earth_real h
  obtain ⟨k0, lat0, κ, rfl, hk, K1, hκ, hi⟩ := hp.eq hL h
  have K2 : K ≤ 2.01 := by rcases hκ with ⟨-, hκ⟩ | ⟨-, hκ⟩ <;> norm_num <;> linarith
  have k14 : κ ≤ 1e-14 := by rcases hκ with ⟨rfl, -⟩ | ⟨rfl, -⟩ <;> norm_num
  obtain ⟨E, N, n, k1, k2, k3, -, k4, k5⟩ := merc_forward hL h lat0 hk (le_trans (by norm_num) K1) K2 k14 (ht := ht) hl hl0 hφ h1 h2 hc hfe hfe1 hfn hfn1
  refine ⟨E, N, _, _, n, k1, hi.proj (by linarith) e2 _ _ h' h1 h2, k2, k3.trans ?_, k4, k5.mono ?_⟩
  · rcases hκ with ⟨rfl, hκ⟩ | ⟨rfl, hκ⟩
    · have : K * el.a.m.toQ ≤ 1.4e7 := (mul_le_mul hκ e3 (by linarith) (by norm_num)).trans (by norm_num)
      norm_num at *; linarith
    · have : K * el.a.m.toQ ≤ 7e6 := (mul_le_mul hκ e3 (by linarith) (by norm_num)).trans (by norm_num)
      norm_num at *; linarith
  · have hcp : 0 < Real.cos (φ.toQ : ℝ) := lt_of_lt_of_le (by norm_num) hc
    have g0 : 0 ≤ 1 / Real.cos (φ.toQ : ℝ) := by positivity
    rw [show 9.11e-16 / Real.cos (φ.toQ : ℝ) = 9.11e-16 * (1 / Real.cos φ.toQ) by ring,
      show 1.3e-8 / Real.cos (φ.toQ : ℝ) = 1.3e-8 * (1 / Real.cos φ.toQ) by ring]
    generalize 1 / Real.cos (φ.toQ : ℝ) = g at *
    rcases hκ with ⟨rfl, hκ⟩ | ⟨rfl, hκ⟩
    · have u : K * el.a.m.toQ ≤ 1.4e7 := (mul_le_mul hκ e3 (by linarith) (by norm_num)).trans (by norm_num)
      have := mul_le_mul_of_nonneg_right u g0
      norm_num at *; linarith
    · have u : K * el.a.m.toQ ≤ 7e6 := (mul_le_mul hκ e3 (by linarith) (by norm_num)).trans (by norm_num)
      have := mul_le_mul_of_nonneg_right u g0
      norm_num at *; linarith

/-- **C110**, inverse: for eastings up to five, and northings up to nine, scaled semi-major axes from the origin, latitude within `5e-14` rad and
longitude within `1.9e-14` rad, up to whole turns, of the values in exact arithmetic. -/
theorem C110_inverse (hL : AccurateProjection L) (h : EarthSized el) {s : String} {p : Projection (F64 L)} {p' : Projection XR}
    (hp : SameMercator s el l0 fe fn K p p') {E N ht : F64 L} (hl0 : InLonRange l0) (hE : E.isFinite) (hN : N.isFinite) (hfe : fe.isFinite)
    (hfn : fn.isFinite) (bE : |(E.toQ : ℝ) - fe.toQ| ≤ 5 * (K * el.a.m.toQ)) (bN : |(N.toQ : ℝ) - fn.toQ| ≤ 9 * (K * el.a.m.toQ)) (h' : ℝ) :
    ∃ (l φ : F64 L) (l' φ' : ℝ) (n : ℤ), p.unproj ⟨⟨E⟩, ⟨N⟩, ⟨ht⟩⟩ = .ok ⟨⟨⟨l⟩⟩, ⟨⟨φ⟩⟩, ⟨ht⟩⟩ ∧
      p'.unproj (enh E.toQ N.toQ h') = .ok (llh l' φ' h') ∧
      Near φ φ' 5e-14 ∧ InLonRange l ∧ |(l.toQ : ℝ) - l' - n * (2 * Real.pi)| ≤ 1.9e-14 := by
  obtain ⟨e1, e2, e3⟩ := earth_real h
  obtain ⟨k0, lat0, κ, rfl, hk, K1, hκ, hi⟩ := hp.eq hL h
  have K2 : K ≤ 2.01 := by rcases hκ with ⟨-, hκ⟩ | ⟨-, hκ⟩ <;> norm_num <;> linarith
  have k15 : κ ≤ 1.5e-15 := by rcases hκ with ⟨rfl, -⟩ | ⟨rfl, -⟩ <;> norm_num
  obtain ⟨l, φ, n, k1, k2, k3, k4⟩ := merc_inverse hL h lat0 hk (le_trans (by norm_num) K1) K2 (k15.trans (by norm_num)) (ht := ht) hl0 hE hN hfe hfn bE bN
  exact ⟨l, φ, _, _, n, k1, hi.unproj (by linarith) e2 _ _ h', k2.mono (by norm_num at *; linarith), k3, k4.trans (by norm_num at *; linarith)⟩

/-- **C110**, round trip: both directions in doubles give the latitude back within the `3/2 e¹⁰` of C34 and `2.9e-14` rad, and the
longitude within `7e-15` rad, up to whole turns, for latitudes up to 89.94° and `e² ≤ 1/50`. -/
theorem C110_round_trip (hL : AccurateProjection L) (h : EarthSized el) (he : ((el.a.m.toQ : ℝ) ^ 2 - el.b.m.toQ ^ 2) / el.a.m.toQ ^ 2 ≤ 1 / 50)
    {s : String} {p : Projection (F64 L)} {p' : Projection XR} (hp : SameMercator s el l0 fe fn K p p')
    {l φ ht : F64 L} (hl : InLonRange l) (hl0 : InLonRange l0) (hφ : φ.isFinite)
    (h1 : -(Real.pi / 2) < (φ.toQ : ℝ)) (h2 : (φ.toQ : ℝ) < Real.pi / 2) (hc : 1e-3 ≤ Real.cos φ.toQ) (hfe : fe.isFinite)
    (hfe1 : |fe.toQ| ≤ 20000000) (hfn : fn.isFinite) (hfn1 : |fn.toQ| ≤ 20000000) :
    ∃ (E N x y : F64 L) (n : ℤ), p.proj ⟨⟨⟨l⟩⟩, ⟨⟨φ⟩⟩, ⟨ht⟩⟩ = .ok ⟨⟨E⟩, ⟨N⟩, ⟨ht⟩⟩ ∧
      p.unproj ⟨⟨E⟩, ⟨N⟩, ⟨ht⟩⟩ = .ok ⟨⟨⟨x⟩⟩, ⟨⟨y⟩⟩, ⟨ht⟩⟩ ∧
      Near y φ.toQ (3 / 2 * (((el.a.m.toQ : ℝ) ^ 2 - el.b.m.toQ ^ 2) / el.a.m.toQ ^ 2) ^ 5 + 2.9e-14) ∧
      x.isFinite ∧ |(x.toQ : ℝ) - l.toQ - n * (2 * Real.pi)| ≤ 7e-15 := by
  obtain ⟨k0, lat0, κ, rfl, hk, K1, hκ, hi⟩ := hp.eq hL h
  have K2 : K ≤ 2 := by rcases hκ with ⟨-, hκ⟩ | ⟨-, hκ⟩ <;> linarith
  have k15 : κ ≤ 1.5e-15 := by rcases hκ with ⟨rfl, -⟩ | ⟨rfl, -⟩ <;> norm_num
  obtain ⟨b1, b2⟩ := abs_le.1 hk.2
  exact merc_round_trip hL h he lat0 hk.1 (by norm_num at *; linarith) (by norm_num at *; linarith) hl hl0 hφ h1 h2 hc hfe hfe1 hfn hfn1

/-- WGS 84, with the scale factor 0.9996 and with the standard parallel 0.75 rad; the point 0.5 rad east, 1.25 rad north. -/
example {K : ℝ} {p : Projection (F64 roundLibm)} {p' : Projection XR}
    (hp : SameMercator "WGS 84" (Ellipsoid.consts.WGS84 : Ellipsoid (F64 roundLibm)) (Flt.lit 0.25) (Flt.lit 500000) (Flt.lit 0) K p p') :
    ∃ (E N : F64 roundLibm) (E' N' : ℝ) (x y : F64 roundLibm) (n : ℤ),
      p.proj ⟨⟨⟨Flt.lit 0.5⟩⟩, ⟨⟨Flt.lit 1.25⟩⟩, ⟨Flt.lit 0⟩⟩ = .ok ⟨⟨E⟩, ⟨N⟩, ⟨Flt.lit 0⟩⟩ ∧
      p'.proj (llh 0.5 1.25 0) = .ok (enh E' N' 0) ∧ Near E E' 1e-7 ∧ Near N N' 3.5e-7 ∧
      p.unproj ⟨⟨E⟩, ⟨N⟩, ⟨Flt.lit 0⟩⟩ = .ok ⟨⟨⟨x⟩⟩, ⟨⟨y⟩⟩, ⟨Flt.lit 0⟩⟩ ∧
      Near y 1.25 2.1e-11 ∧ |(x.toQ : ℝ) - 0.5 - n * (2 * Real.pi)| ≤ 7e-15 := by
  have v : (B64.isFinite (B64.lit 1.25) = true ∧ (B64.lit 1.25).toQ = 1.25) ∧
      (B64.isFinite (B64.lit 0.5) = true ∧ (B64.lit 0.5).toQ = 0.5) ∧ (B64.isFinite (B64.lit 0) = true ∧ (B64.lit 0).toQ = 0) ∧
      (B64.isFinite (B64.lit 500000) = true ∧ (B64.lit 500000).toQ = 500000) ∧ (B64.isFinite (B64.lit 0.25) = true ∧ (B64.lit 0.25).toQ = 0.25) ∧
      |(0.25 : ℚ)| ≤ B64.pi.toQ ∧ |(0.5 : ℚ)| ≤ B64.pi.toQ := by decide +kernel
  obtain ⟨⟨f1, v1⟩, ⟨f2, v2⟩, ⟨f3, v3⟩, ⟨f4, v4⟩, ⟨f5, v5⟩, i1, i2⟩ := v
  obtain ⟨φ, hφ, f1, v1⟩ : ∃ x : F64 roundLibm, Flt.lit 1.25 = x ∧ x.isFinite ∧ x.toQ = 1.25 := ⟨_, rfl, f1, v1⟩
  obtain ⟨l, hl, f2, v2⟩ : ∃ x : F64 roundLibm, Flt.lit 0.5 = x ∧ x.isFinite ∧ x.toQ = 0.5 := ⟨_, rfl, f2, v2⟩
  obtain ⟨z, hz, f3, v3⟩ : ∃ x : F64 roundLibm, Flt.lit 0 = x ∧ x.isFinite ∧ x.toQ = 0 := ⟨_, rfl, f3, v3⟩
  obtain ⟨fe, hfe, f4, v4⟩ : ∃ x : F64 roundLibm, Flt.lit 500000 = x ∧ x.isFinite ∧ x.toQ = 500000 := ⟨_, rfl, f4, v4⟩
  obtain ⟨l0, hl0, f5, v5⟩ : ∃ x : F64 roundLibm, Flt.lit 0.25 = x ∧ x.isFinite ∧ x.toQ = 0.25 := ⟨_, rfl, f5, v5⟩
  rw [hz, hfe, hl0] at hp
  rw [hφ, hl, hz]
  have u1 : (φ.toQ : ℝ) = 1.25 := by rw [v1]; norm_num
  have u2 : (l.toQ : ℝ) = 0.5 := by rw [v2]; norm_num
  have u5 : (l0.toQ : ℝ) = 0.25 := by rw [v5]; norm_num
  have hpi := Real.pi_gt_d2
  have hc := Real.one_sub_sq_div_two_le_cos (x := 1.25)
  have hc' : (0.2 : ℝ) ≤ Real.cos 1.25 := by norm_num at *; linarith
  have g1 : -(Real.pi / 2) < (φ.toQ : ℝ) := by rw [u1]; norm_num at *; linarith
  have g2 : (φ.toQ : ℝ) < Real.pi / 2 := by rw [u1]; norm_num at *; linarith
  have g3 : 1e-3 ≤ Real.cos (φ.toQ : ℝ) := by rw [u1]; norm_num at *; linarith
  have z1 : |z.toQ| ≤ 20000000 := by rw [v3]; norm_num
  have z2 : |fe.toQ| ≤ 20000000 := by rw [v4]; norm_num
  have hl : InLonRange l := ⟨f2, by rw [v2]; exact i2⟩
  have hl0 : InLonRange l0 := ⟨f5, by rw [v5]; exact i1⟩
  have e2 : (((Ellipsoid.consts.WGS84 : Ellipsoid (F64 roundLibm)).a.m.toQ : ℝ) ^ 2 - (Ellipsoid.consts.WGS84 : Ellipsoid (F64 roundLibm)).b.m.toQ ^ 2) /
      (Ellipsoid.consts.WGS84 : Ellipsoid (F64 roundLibm)).a.m.toQ ^ 2 ≤ 0.0067 ∧ 0 ≤ (((Ellipsoid.consts.WGS84 : Ellipsoid (F64 roundLibm)).a.m.toQ : ℝ) ^ 2 -
      (Ellipsoid.consts.WGS84 : Ellipsoid (F64 roundLibm)).b.m.toQ ^ 2) / (Ellipsoid.consts.WGS84 : Ellipsoid (F64 roundLibm)).a.m.toQ ^ 2 := by
    have h : ((Ellipsoid.consts.WGS84 : Ellipsoid (F64 noLibm)).a.m.toQ ^ 2 - (Ellipsoid.consts.WGS84 : Ellipsoid (F64 noLibm)).b.m.toQ ^ 2) /
      (Ellipsoid.consts.WGS84 : Ellipsoid (F64 noLibm)).a.m.toQ ^ 2 ≤ 0.0067 ∧ 0 ≤ ((Ellipsoid.consts.WGS84 : Ellipsoid (F64 noLibm)).a.m.toQ ^ 2 -
      (Ellipsoid.consts.WGS84 : Ellipsoid (F64 noLibm)).b.m.toQ ^ 2) / (Ellipsoid.consts.WGS84 : Ellipsoid (F64 noLibm)).a.m.toQ ^ 2 := by decide +kernel
    change ((Ellipsoid.consts.WGS84 : Ellipsoid (F64 roundLibm)).a.m.toQ ^ 2 - (Ellipsoid.consts.WGS84 : Ellipsoid (F64 roundLibm)).b.m.toQ ^ 2) /
      (Ellipsoid.consts.WGS84 : Ellipsoid (F64 roundLibm)).a.m.toQ ^ 2 ≤ 0.0067 ∧ 0 ≤ ((Ellipsoid.consts.WGS84 : Ellipsoid (F64 roundLibm)).a.m.toQ ^ 2 -
      (Ellipsoid.consts.WGS84 : Ellipsoid (F64 roundLibm)).b.m.toQ ^ 2) / (Ellipsoid.consts.WGS84 : Ellipsoid (F64 roundLibm)).a.m.toQ ^ 2 at h
    have h1 := (Rat.cast_le (K := ℝ)).2 h.1
    have h2 := (Rat.cast_le (K := ℝ)).2 h.2
    push_cast at h1 h2
    exact ⟨h1.trans (by norm_num), h2⟩
  obtain ⟨E, N, E', N', n, k1, k2, k3, k4, k5, k6⟩ := C110_forward (ht := z) roundLibm_accurateProjection
    wgs84_earthSized hp hl hl0 f1 g1 g2 g3 f4 z2 f3 z1 0
  obtain ⟨E1, N1, x, y, j, q1, q2, q3, q4, q5⟩ := C110_round_trip (ht := z) roundLibm_accurateProjection
    wgs84_earthSized (e2.1.trans (by norm_num)) hp hl hl0 f1 g1 g2 g3 f4 z2 f3 z1
  rw [k1] at q1
  cases q1
  rw [u1] at k2 k6 q3
  rw [u2, u5] at k5
  rw [u2] at k2 q5
  obtain rfl := k5 ⟨0, by norm_num [abs_le]⟩
  refine ⟨E, N, E', N', x, y, j, k1, k2, ⟨k3, by simpa using k4⟩, k6.mono ?_, q2, q3.mono ?_, q5⟩
  · have : 1.3e-8 / Real.cos (1.25 : ℝ) ≤ 5e-8 + 1.5e-8 := by rw [div_le_iff₀ (by linarith)]; norm_num at *; linarith
    norm_num at *
    linarith
  · have := pow_le_pow_left₀ e2.2 e2.1 5
    norm_num at *
    linarith

/-- Both projections are covered. -/
example : (∃ K p', SameMercator "WGS 84" (Ellipsoid.consts.WGS84 : Ellipsoid (F64 roundLibm)) (Flt.lit 0.25) (Flt.lit 500000) (Flt.lit 0) K
      ((ProjectionSpec.mercator1SP ⟨⟨Flt.lit 0.25⟩⟩ (Flt.lit 0.9996) ⟨Flt.lit 500000⟩ ⟨Flt.lit 0⟩).appliedTo Ellipsoid.consts.WGS84) p') ∧
    ∃ K p', SameMercator "WGS 84" (Ellipsoid.consts.WGS84 : Ellipsoid (F64 roundLibm)) (Flt.lit 0.25) (Flt.lit 500000) (Flt.lit 0) K
      ((ProjectionSpec.mercator2SP ⟨⟨Flt.lit 0.25⟩⟩ ⟨⟨Flt.lit 0.75⟩⟩ ⟨Flt.lit 500000⟩ ⟨Flt.lit 0⟩).appliedTo Ellipsoid.consts.WGS84) p' := by
  have v1 : B64.isFinite (B64.lit 0.9996) = true ∧ 0.5 ≤ (B64.lit 0.9996).toQ ∧ (B64.lit 0.9996).toQ ≤ 2 := by decide +kernel
  have v : B64.isFinite (B64.lit 0.75) = true ∧ (B64.lit 0.75).toQ = 0.75 := by decide +kernel
  have u : ((Flt.lit 0.75 : F64 roundLibm).toQ : ℝ) = 0.75 := by
    rw [show (Flt.lit 0.75 : F64 roundLibm).toQ = 0.75 from v.2]; norm_num
  have hp := Real.pi_gt_d2
  have hc := Real.one_sub_sq_div_two_le_cos (x := 0.75)
  refine ⟨⟨_, _, .oneSP _ v1.1 v1.2.1 v1.2.2⟩, _, _, .twoSP _ v.1 ?_ ?_ ?_⟩ <;> rw [u] <;> norm_num at * <;> linarith

/-- A point 500 km east and 8388608 m north of the origin of Mercator with scale 1. -/
example : ∃ (l φ : F64 roundLibm) (l' φ' : ℝ) (n : ℤ),
    ((ProjectionSpec.mercator1SP ⟨⟨Flt.lit 0.25⟩⟩ (Flt.lit 1) ⟨Flt.lit 0⟩ ⟨Flt.lit 0⟩).appliedTo
      (Ellipsoid.consts.WGS84 : Ellipsoid (F64 roundLibm))).unproj
      ⟨⟨Flt.lit 500000⟩, ⟨Flt.lit 8388608⟩, ⟨Flt.lit 0⟩⟩ = .ok ⟨⟨⟨l⟩⟩, ⟨⟨φ⟩⟩, ⟨Flt.lit 0⟩⟩ ∧
    Near φ φ' 5e-14 ∧ |(l.toQ : ℝ) - l' - n * (2 * Real.pi)| ≤ 1.9e-14 := by
  have v : (B64.isFinite (B64.lit 500000) = true ∧ (B64.lit 500000).toQ = 500000) ∧
      (B64.isFinite (B64.lit 8388608) = true ∧ (B64.lit 8388608).toQ = 8388608) ∧ (B64.isFinite (B64.lit 0) = true ∧ (B64.lit 0).toQ = 0) ∧
      (B64.isFinite (B64.lit 1) = true ∧ (B64.lit 1).toQ = 1) ∧ (B64.isFinite (B64.lit 0.25) = true ∧ (B64.lit 0.25).toQ = 0.25) ∧
      |(0.25 : ℚ)| ≤ B64.pi.toQ := by decide +kernel
  obtain ⟨⟨f1, v1⟩, ⟨f2, v2⟩, ⟨f3, v3⟩, ⟨f4, v4⟩, ⟨f5, v5⟩, i1⟩ := v
  obtain ⟨E, hE, f1, v1⟩ : ∃ x : F64 roundLibm, Flt.lit 500000 = x ∧ x.isFinite ∧ x.toQ = 500000 := ⟨_, rfl, f1, v1⟩
  obtain ⟨N, hN, f2, v2⟩ : ∃ x : F64 roundLibm, Flt.lit 8388608 = x ∧ x.isFinite ∧ x.toQ = 8388608 := ⟨_, rfl, f2, v2⟩
  obtain ⟨z, hz, f3, v3⟩ : ∃ x : F64 roundLibm, Flt.lit 0 = x ∧ x.isFinite ∧ x.toQ = 0 := ⟨_, rfl, f3, v3⟩
  obtain ⟨k, hk, f4, v4⟩ : ∃ x : F64 roundLibm, Flt.lit 1 = x ∧ x.isFinite ∧ x.toQ = 1 := ⟨_, rfl, f4, v4⟩
  obtain ⟨l0, hl0, f5, v5⟩ : ∃ x : F64 roundLibm, Flt.lit 0.25 = x ∧ x.isFinite ∧ x.toQ = 0.25 := ⟨_, rfl, f5, v5⟩
  rw [hE, hN, hz, hk, hl0]
  have u1 : (E.toQ : ℝ) = 500000 := by rw [v1]; norm_num
  have u2 : (N.toQ : ℝ) = 8388608 := by rw [v2]; norm_num
  have u3 : (z.toQ : ℝ) = 0 := by rw [v3]; norm_num
  have u4 : (k.toQ : ℝ) = 1 := by rw [v4]; norm_num
  obtain ⟨a0, a1⟩ := earth_a (wgs84_earthSized (L := roundLibm))
  obtain ⟨l, φ, l', φ', n, k1, -, k3, -, k5⟩ := C110_inverse (ht := z) roundLibm_accurateProjection
    wgs84_earthSized (.oneSP (s := "WGS 84") (l0 := l0) (fe := z) (fn := z) k f4 (by rw [v4]; norm_num) (by rw [v4]; norm_num))
    ⟨f5, by rw [v5]; exact i1⟩ f1 f2 f3 f3
    (by rw [u1, u3, u4, abs_of_nonneg (by norm_num)]; linarith) (by rw [u2, u3, u4, abs_of_nonneg (by norm_num)]; linarith) 0
  exact ⟨l, φ, l', φ', n, k1, k3, k5⟩

end Geo
