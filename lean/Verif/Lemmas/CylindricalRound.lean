import Verif.Lemmas.LogNear
import Verif.Lemmas.TransverseSchreiber
import Verif.Props.CylindricalExact
import Verif.Props.CrsF64

/-! The Web Mercator and Mercator projections in IEEE arithmetic: steps they share. -/

namespace Geo
open XR Spec
variable {L : Libm}

theorem near_1 : Near (1.0 : F64 L) 1 0 :=
  lit_near (q := 1) (show B64.isFinite (B64.lit 1.0) = true ∧ (B64.lit 1.0).toQ = 1 by decide +kernel) (by norm_num)

theorem pi_4_near : Near (pi_4 : F64 L) (Real.pi / 4) 3.1e-17 := by
  have h : B64.isFinite B64.pi_4 = true ∧ |B64.pi_4.toQ - 0.785398163397448309615| ≤ 3.07e-17 := by decide +kernel
  refine ⟨h.1, ?_⟩
  show |((B64.pi_4.toQ : ℚ) : ℝ) - _| ≤ _
  have h2 := cast_abs_le h.2
  push_cast at h2
  have g1 := Real.pi_gt_d20
  have g2 := Real.pi_lt_d20
  rw [abs_le] at *
  norm_num at *
  constructor <;> linarith

/-- Latitudes whose cosine is at least a thousandth, up to 89.94°. -/
theorem lat_inside {φ : ℝ} (h1 : -(Real.pi / 2) < φ) (h2 : φ < Real.pi / 2) (hc : 1e-3 ≤ Real.cos φ) :
    |φ| ≤ Real.pi / 2 - 1e-3 ∧ |Real.arsinh (Real.tan φ)| ≤ 8 := by
  have hcp : 0 < Real.cos φ := lt_of_lt_of_le (by norm_num) hc
  constructor
  · have g1 : Real.cos φ ≤ φ + Real.pi / 2 := by
      rw [← Real.sin_add_pi_div_two]; exact Real.sin_le (by linarith)
    have g2 : Real.cos φ ≤ Real.pi / 2 - φ := by
      rw [← Real.sin_pi_div_two_sub]; exact Real.sin_le (by linarith)
    rw [abs_le]
    constructor <;> linarith
  · have key : ∀ t : ℝ, 0 ≤ t → t ≤ 1000 → Real.arsinh t ≤ 8 := fun t t0 t1 => by
      have e8 : (2001 : ℝ) ≤ Real.exp 8 := by
        have h1 := Real.exp_one_gt_d9
        rw [show (8 : ℝ) = ((8 : ℕ) : ℝ) * 1 by norm_num, Real.exp_nat_mul]
        exact le_trans (by norm_num) (pow_le_pow_left₀ (by norm_num) h1.le 8)
      rw [Real.arsinh, Real.log_le_iff_le_exp (by positivity)]
      have : Real.sqrt (1 + t ^ 2) ≤ 1001 := Real.sqrt_le_iff.2 ⟨by norm_num, by nlinarith⟩
      linarith
    have ht : |Real.tan φ| ≤ 1000 := by
      rw [Real.tan_eq_sin_div_cos, abs_div, abs_of_pos hcp, div_le_iff₀ hcp]
      have := Real.abs_sin_le_one φ
      norm_num at hc
      linarith
    rcases le_total 0 (Real.tan φ) with h | h
    · rw [abs_of_nonneg (Real.arsinh_nonneg_iff.2 h)]
      exact key _ h ((le_abs_self _).trans ht)
    · rw [abs_of_nonpos (Real.arsinh_nonpos_iff.2 h), ← Real.arsinh_neg]
      exact key _ (by linarith) ((neg_le_abs _).trans ht)

/-- The tangent of half the latitude plus 45°. -/
theorem half_tan_near (hL : AccurateProjection L) {φ : F64 L} (hφ : φ.isFinite) (h1 : -(Real.pi / 2) < (φ.toQ : ℝ))
    (h2 : (φ.toQ : ℝ) < Real.pi / 2) (hc : 1e-3 ≤ Real.cos φ.toQ) :
    LNear ((((⟨⟨φ⟩⟩ : Lat (F64 L)).divF 2.0).addAngle (Angle.new pi_4 RAD)).tan) (Real.arsinh (Real.tan φ.toQ))
      (9.1e-16 / Real.cos φ.toQ + 4.7e-16) := by
  have hp := Real.pi_lt_d4
  have hp0 := Real.pi_gt_d4
  obtain ⟨i1, i2⟩ := lat_inside h1 h2 hc
  have hcp : 0 < Real.cos (φ.toQ : ℝ) := lt_of_lt_of_le (by norm_num) hc
  have a1 : |(φ.toQ : ℝ)| ≤ 1.571 := by norm_num at *; linarith
  have k1 : Near (φ / 2.0) ((φ.toQ : ℝ) / 2) 9.5e-17 := Near.div' (Near.exact hφ) near_2 (A := 0.7855) (B := 2) (C := 2) (R := 0.7856)
    (by norm_num at a1 ⊢; linarith) (by norm_num) (by norm_num) (by norm_num) (by norm_num) (by norm_num) (by norm_num) (by norm_num) (by norm_num)
  have k2 := (lat_clamp_near k1).2
  rw [clampR_id (by linarith [(abs_le.1 i1).1]) (by linarith [(abs_le.1 i1).2])] at k2
  have k3 := rad_near (pi_4_near (L := L))
  have b4 : |(φ.toQ : ℝ) / 2 + Real.pi / 4| ≤ Real.pi / 2 - 5e-4 := by
    have := (abs_le.1 i1).1
    have := (abs_le.1 i1).2
    rw [abs_le]
    norm_num at *
    constructor <;> linarith
  have k4 := Near.add k2 k3 (R := 1.571) (E := 3.85e-16) (by norm_num at *; linarith) (by norm_num) (by norm_num) (by norm_num)
  have k5 := (lat_clamp_near k4).2
  rw [clampR_id (by have := (abs_le.1 b4).1; norm_num at *; linarith) (by have := (abs_le.1 b4).2; norm_num at *; linarith)] at k5
  have k6 := k5.mono (E := 4.5e-16) (by norm_num)
  change LNear (Flt.tan (F := F64 L) _) _ _
  generalize hx : ((⟨_⟩ : Angle (F64 L)).clamped Angle.M_PI_2 Angle.PI_2).rad = x at k6
  have hx' : (((⟨⟨φ⟩⟩ : Lat (F64 L)).divF 2.0).addAngle (Angle.new pi_4 RAD)).angle.rad = x := hx
  rw [hx']
  clear hx hx' k5 k4
  have q : |x.toQ| ≤ (Flt.pi_2 : F64 L).toQ := by
    refine (k6.abs_le_rat (q := 1.5704) (by push_cast; norm_num at *; linarith)).trans ?_
    rw [show (Flt.pi_2 : F64 L).toQ = B64.pi_2.toQ from rfl, pi_2_fin.2]; norm_num
  have t1 := tan_rel hL k6.1 q
  have hd : |(2 * (x.toQ : ℝ) - Real.pi / 2) - φ.toQ| ≤ 9e-16 := by
    have := k6.2
    rw [abs_le] at *
    norm_num at *
    constructor <;> linarith
  obtain ⟨j1, j2, j3⟩ := iso_sphere_lip (c := 1e-3) (by norm_num) hc h1 h2 hd (by norm_num)
  have e : (2 * (x.toQ : ℝ) - Real.pi / 2) / 2 + Real.pi / 4 = x.toQ := by ring
  have hl := log_tan_half j1 j2
  have hpos := tan_half_pos j1 j2
  rw [e] at hl hpos
  rw [← hl] at j3
  have hj : 1.002 / Real.cos (φ.toQ : ℝ) * 9e-16 ≤ 9.1e-16 / Real.cos φ.toQ := by
    rw [div_mul_eq_mul_div, div_le_div_iff_of_pos_right hcp]; norm_num
  have hj2 : 9.1e-16 / Real.cos (φ.toQ : ℝ) ≤ 1e-12 := by
    rw [div_le_iff₀ hcp]; norm_num at *; linarith
  have hlow : 1e-20 ≤ Real.tan x.toQ := by
    rw [← Real.exp_log hpos]
    refine exp_neg_40 ?_
    have h3 := (abs_le.1 j3).1
    have h4 := (abs_le.1 i2).1
    norm_num at *
    linarith
  have k7 : |((Flt.tan x : F64 L).toQ : ℝ) - Real.tan x.toQ| ≤ 4.6e-16 * Real.tan x.toQ := by
    refine t1.2.trans ?_
    rw [abs_of_pos hpos]
    norm_num at *
    linarith
  obtain ⟨m1, m2⟩ := log_rel hpos k7 (by norm_num)
  refine ⟨t1.1, m1, ?_⟩
  refine (abs_sub_le _ (Real.log (Real.tan x.toQ)) _).trans ?_
  norm_num at *
  linarith

/-! ### Easting and northing -/

theorem easting_near {l l0 m fe : F64 L} {M' B εM E : ℝ} (hl : InLonRange l) (hl0 : InLonRange l0) (kM : Near m M' εM) (bM : |M'| ≤ B)
    (hB1 : 1 ≤ B) (hB2 : B ≤ 1e8) (hεM : εM ≤ 1e-6) (hfe : fe.isFinite) (hfe1 : |fe.toQ| ≤ 20000000)
    (hE : 1.4e-15 * B + 3.15 * εM + 1.2e-16 * (6.4 * B + 2.1e7) ≤ E) : ∃ n : ℤ,
    |(((fe + ((⟨⟨l⟩⟩ : Lon (F64 L)).sub ⟨⟨l0⟩⟩).rad * m).toQ : ℚ) : ℝ) - (fe.toQ + M' * normR ((l.toQ : ℝ) - l0.toQ)) - n * (2 * Real.pi * M')| ≤ E ∧
    (fe + ((⟨⟨l⟩⟩ : Lon (F64 L)).sub ⟨⟨l0⟩⟩).rad * m).isFinite ∧
    |normR ((l.toQ : ℝ) - l0.toQ) + n * (2 * Real.pi)| ≤ 3.142 ∧ ((∃ j : ℤ, |(l.toQ : ℝ) - l0.toQ - j * (2 * Real.pi)| ≤ 3.14159265358979) → n = 0) := by
  obtain ⟨n, k1, k2⟩ := lon_diff_near hl hl0
  have hp := Real.pi_lt_d20
  have hp0 := Real.pi_gt_d20
  have hπ : (Flt.pi : F64 L).toQ = 884279719003555 / 2 ^ 48 := pi_fin.2
  have b0 : |(((⟨⟨l⟩⟩ : Lon (F64 L)).sub ⟨⟨l0⟩⟩).rad.toQ : ℝ)| ≤ Real.pi := by
    have := cast_abs_le k2
    refine this.trans ?_
    rw [hπ]
    push_cast
    norm_num at *
    linarith
  have b1 : |(l.toQ : ℝ) - l0.toQ - n * (2 * Real.pi)| ≤ Real.pi + 1.3e-15 := by
    have := k1.2
    rw [abs_le] at *
    constructor <;> linarith [this.1, this.2, b0.1, b0.2]
  obtain ⟨m', hm⟩ := normR_same ((l.toQ : ℝ) - l0.toQ)
  have re : |(fe.toQ : ℝ)| ≤ 20000000 := by have := cast_abs_le hfe1; push_cast at this; exact this
  have hεM0 := kM.nonneg
  have p1 : |(l.toQ : ℝ) - l0.toQ - n * (2 * Real.pi)| ≤ 3.142 := by norm_num at *; linarith
  have k3 := Near.mul k1 kM (A := 3.142) (B := B) (R := 3.143 * B + 3.143 * εM) (E := 1.4e-15 * B + 3.15 * εM + 1.2e-16 * (3.15 * B) - 1e-17 * B) p1 bM
    (by norm_num at *; nlinarith) (by norm_num at *; nlinarith) (by norm_num at *; nlinarith) (by norm_num at *; nlinarith)
  have b3 : |((l.toQ : ℝ) - l0.toQ - n * (2 * Real.pi)) * M'| ≤ 3.142 * B := by
    rw [abs_mul]; exact mul_le_mul p1 bM (abs_nonneg _) (by norm_num)
  have k4 := Near.add (Near.exact hfe) k3 (R := 3.15 * B + 2.05e7) (E := E)
    (by have := abs_add_le (fe.toQ : ℝ) (((l.toQ : ℝ) - l0.toQ - n * (2 * Real.pi)) * M'); norm_num at *; linarith)
    (by norm_num at *; linarith) (by norm_num at *; linarith) (by norm_num at *; linarith)
  refine ⟨-n - m', ?_, k4.1, le_trans (le_of_eq (by congr 1; rw [hm]; push_cast; ring)) p1, ?_⟩
  · refine le_trans (le_of_eq ?_) k4.2
    congr 1
    rw [hm]
    push_cast
    ring
  · rintro ⟨j, hj⟩
    have h3 : |((n - j : ℤ) : ℝ) * (2 * Real.pi)| < 2 * Real.pi := by
      have e : ((n - j : ℤ) : ℝ) * (2 * Real.pi) = ((l.toQ : ℝ) - l0.toQ - j * (2 * Real.pi)) - ((l.toQ : ℝ) - l0.toQ - n * (2 * Real.pi)) := by
        push_cast; ring
      rw [e]
      refine (abs_sub _ _).trans_lt ?_
      norm_num at *
      linarith
    have h4 : n - j = 0 := by
      rw [abs_mul, abs_of_pos (by positivity : 0 < 2 * Real.pi)] at h3
      have h5 : |((n - j : ℤ) : ℝ)| < 1 := by
        by_contra hn
        push Not at hn
        nlinarith [Real.pi_pos]
      have h6 : |n - j| < 1 := by exact_mod_cast h5
      exact Int.abs_lt_one_iff.1 h6
    have h7 : normR ((l.toQ : ℝ) - l0.toQ) = (l.toQ : ℝ) - l0.toQ - j * (2 * Real.pi) := by
      have hs : SameDirection (normR ((l.toQ : ℝ) - l0.toQ)) ((l.toQ : ℝ) - l0.toQ - j * (2 * Real.pi)) :=
        ⟨m' + j, by rw [hm]; push_cast; ring⟩
      have hin := normR_normalizes ((l.toQ : ℝ) - l0.toQ)
      refine same_unique hin.1 hin.2.1 ?_ ?_ hs
      · have := (abs_le.1 hj).1; norm_num at *; linarith
      · have := (abs_le.1 hj).2; norm_num at *; linarith
    have h8 : ((m' + j : ℤ) : ℝ) * (2 * Real.pi) = 0 := by
      push_cast
      linarith
    have h9 : m' + j = 0 := by
      rcases mul_eq_zero.1 h8 with h | h
      · exact_mod_cast h
      · exact absurd h (by positivity)
    omega

theorem northing_near {p m fn : F64 L} {ψ M' B εM η E : ℝ} (kψ : Near p ψ η) (bψ : |ψ| ≤ 9) (hη : η ≤ 1e-9) (kM : Near m M' εM) (bM : |M'| ≤ B)
    (hB1 : 1 ≤ B) (hB2 : B ≤ 1e8) (hεM : εM ≤ 1e-6) (hfn : fn.isFinite) (hfn1 : |fn.toQ| ≤ 20000000)
    (hE : B * η + 9.1 * εM + 1.2e-16 * (19 * B + 2.1e7) ≤ E) :
    Near (fn + p * m) (fn.toQ + M' * ψ) E := by
  have rn : |(fn.toQ : ℝ)| ≤ 20000000 := by have := cast_abs_le hfn1; push_cast at this; exact this
  have hεM0 := kM.nonneg
  have hη0 := kψ.nonneg
  have u1 : η * εM ≤ 1e-9 * εM := mul_le_mul_of_nonneg_right hη hεM0
  have u2 : B * η ≤ B * 1e-9 := mul_le_mul_of_nonneg_left hη (by linarith)
  have k3 := Near.mul kψ kM (A := 9) (B := B) (R := 9.1 * B + 9.1 * εM) (E := B * η + 9.05 * εM + 1.2e-16 * (9.2 * B)) bψ bM
    (by norm_num at *; linarith) (by norm_num at *; linarith) (by norm_num at *; linarith) (by norm_num at *; linarith)
  have b3 : |ψ * M'| ≤ 9 * B := by
    rw [abs_mul]; exact mul_le_mul bψ bM (abs_nonneg _) (by norm_num)
  refine (Near.add (Near.exact hfn) k3 (R := 9.5 * B + 2.05e7) (E := E)
    (by have := abs_add_le (fn.toQ : ℝ) (ψ * M'); norm_num at *; linarith)
    (by norm_num at *; linarith) (by norm_num at *; linarith) (by norm_num at *; linarith)).congr (by ring)

/-! ### The inverse -/

theorem offset_div_near {x f m : F64 L} {M' K εM E δ : ℝ} (hx : x.isFinite) (hf : f.isFinite) (kM : Near m M' εM) (hM : 1 ≤ M') (hM2 : M' ≤ 1e8)
    (hεM : εM ≤ 1e-6) (hK : 1 ≤ K) (hK9 : K ≤ 9) (hb : |(x.toQ : ℝ) - f.toQ| ≤ K * M') (hδ : 1.2e-16 * (K * M') + K * εM ≤ (M' - εM) * δ)
    (hδ1 : δ ≤ 1e-3) (hE : δ + 1.21e-16 * K ≤ E) :
    Near ((x - f) / m) (((x.toQ : ℝ) - f.toQ) / M') E ∧ |((x.toQ : ℝ) - f.toQ) / M'| ≤ K := by
  have hMp : 0 < M' := by linarith
  have hεM0 := kM.nonneg
  have hKM : K * M' ≤ 9e8 := (mul_le_mul hK9 hM2 (by linarith) (by norm_num)).trans (by norm_num)
  have hKM1 : 1 ≤ K * M' := by nlinarith
  have k1 := Near.sub (Near.exact hx) (Near.exact hf) (R := K * M') (E := 1.2e-16 * (K * M')) (by linarith) (by norm_num; linarith)
    (by norm_num at *; linarith) (by linarith)
  have hC : 0 < M' - εM := by norm_num at *; linarith
  have hq : (1.2e-16 * (K * M') + K * εM) / (M' - εM) ≤ δ := by rw [div_le_iff₀ hC]; linarith
  refine ⟨Near.div' k1 kM (A := K) (B := M') (C := M' - εM) (R := K + δ) hb (by linarith) le_rfl hC le_rfl (by linarith) ?_ ?_ ?_, ?_⟩
  · have : 0 ≤ δ := le_trans (by positivity) hq
    norm_num; linarith
  · norm_num at *; linarith
  · norm_num at *; linarith
  · rw [abs_div, abs_of_pos hMp, div_le_iff₀ hMp]; exact hb

/-- The latitude on the sphere of an isometric latitude `ψ`, from `-ψ`. -/
theorem gd_neg_near (hL : AccurateProjection L) {d : F64 L} {ψ ε E : ℝ} (k : Near d (-ψ) ε) (hψ : |ψ| ≤ 9) (hε : ε ≤ 1e-3) (hE : ε + 2.62e-15 ≤ E) :
    Near (pi_2 - 2.0 * Flt.atan (Flt.exp d)) (Real.arctan (Real.sinh ψ)) E := by
  have hp := Real.pi_lt_d4
  have hp0 := Real.pi_gt_d4
  have k1 := Near.exp hL k (E := ε + 4.6e-16) (by rw [abs_neg]; norm_num at *; linarith) le_rfl
  have k2 := k1.atan hL (E := ε / 2 + 9.37e-16) (by norm_num; linarith)
  have g := gd_eq ψ
  have g1 := Real.neg_pi_div_two_lt_arctan (Real.sinh ψ)
  have g2 := Real.arctan_lt_pi_div_two (Real.sinh ψ)
  generalize Real.arctan (Real.exp (-ψ)) = t at *
  have t0 : 0 < t := by linarith
  have t1 : t < Real.pi / 2 := by linarith
  have h0 := k.nonneg
  have k3 := Near.mul near_2 k2 (A := 2) (B := 1.5708) (R := 3.15) (E := ε + 2.26e-15) (by norm_num)
    (by rw [abs_of_pos t0]; norm_num at *; linarith) (by norm_num at *; linarith) (by norm_num) (by norm_num) (by norm_num at *; linarith)
  refine (Near.sub pi_2_near k3 (R := 1.58) (E := E) ?_ (by norm_num) (by norm_num) (by norm_num at *; linarith)).congr g
  rw [g]
  have : |Real.arctan (Real.sinh ψ)| ≤ 1.571 := by rw [abs_le]; constructor <;> norm_num at * <;> linarith
  norm_num at *
  linarith

/-- The longitude from the easting. -/
theorem lon_back_near {y l0 : F64 L} {Y ε E : ℝ} (hl0 : InLonRange l0) (k : Near y Y ε) (hY : |Y| ≤ 5) (hε : ε ≤ 1e-3) (hE : ε + 1.25e-15 ≤ E) :
    ∃ n : ℤ, InLonRange ((⟨⟨l0⟩⟩ : Lon (F64 L)).addAngle (Angle.new y RAD)).angle.rad ∧
      |(((⟨⟨l0⟩⟩ : Lon (F64 L)).addAngle (Angle.new y RAD)).angle.rad.toQ : ℝ) - remR (l0.toQ + Y) - n * (2 * Real.pi)| ≤ E := by
  have hπ : (Flt.pi : F64 L).toQ = 884279719003555 / 2 ^ 48 := pi_fin.2
  have b : |(l0.toQ : ℝ)| ≤ 3.15 := by
    have := cast_abs_le (hl0.2.trans (show (Flt.pi : F64 L).toQ ≤ 3.15 by rw [hπ]; norm_num))
    push_cast at this; exact this
  have h0 := k.nonneg
  have b2 := abs_add_le (l0.toQ : ℝ) Y
  have k1 := Near.add (Near.exact hl0.1) (rad_near k) (R := 8.2) (E := ε + 9.9e-16) (by norm_num at *; linarith) (by norm_num) (by norm_num)
    (by norm_num)
  obtain ⟨n, r1, r2⟩ := wrapped_near k1 (k1.abs_le_rat (by push_cast; norm_num at *; linarith))
  obtain ⟨i, hi⟩ := remR_same ((l0.toQ : ℝ) + Y)
  refine ⟨-n - i, ⟨r2.1, r1⟩, ?_⟩
  refine le_trans (le_of_eq ?_) (r2.2.trans ?_)
  · have e : ((⟨⟨l0⟩⟩ : Lon (F64 L)).addAngle (Angle.new y RAD)).angle.rad = (⟨l0 + (Angle.new y RAD).rad⟩ : Angle (F64 L)).wrapped.rad := rfl
    rw [e]
    congr 1
    rw [hi]
    push_cast
    ring
  · norm_num at *
    linarith

/-- The latitude on the sphere moves less than the isometric latitude, by the cosine of the latitude. -/
theorem gd_lip_local {φ ψ' δ : ℝ} (h1 : -(Real.pi / 2) < φ) (h2 : φ < Real.pi / 2) (h : |ψ' - Real.arsinh (Real.tan φ)| ≤ δ) (hδ : δ ≤ 1e-3) :
    |Real.arctan (Real.sinh ψ') - φ| ≤ 1.002 * Real.cos φ * δ := by
  have hc := cos_pos_of_lat h1 h2
  have hδ0 := (abs_nonneg _).trans h
  have e0 : Real.arctan (Real.sinh (Real.arsinh (Real.tan φ))) = φ := by rw [Real.sinh_arsinh, Real.arctan_tan h1 h2]
  have ech : Real.cosh (Real.arsinh (Real.tan φ)) = 1 / Real.cos φ := by
    rw [Real.cosh_arsinh, Real.sqrt_eq_iff_mul_self_eq (by positivity) (by positivity), Real.tan_eq_sin_div_cos]
    field_simp
    linarith [Real.sin_sq_add_cos_sq φ]
  generalize Real.arsinh (Real.tan φ) = ψ at *
  have key := lip_of_deriv (f := fun z => Real.arctan (Real.sinh z)) (s := Set.Icc (ψ - δ) (ψ + δ))
    (C := 1.002 * Real.cos φ) (x := ψ') (y := ψ) (convex_Icc _ _) (fun z _ => (Real.hasDerivAt_sinh z).arctan)
    (fun z hz => by
      have hcz := Real.cosh_pos z
      have h1 := Real.cosh_sq z
      rw [abs_of_nonneg (by positivity), add_comm, ← h1, show 1 / Real.cosh z ^ 2 * Real.cosh z = 1 / Real.cosh z by field_simp]
      have e : Real.cosh z = Real.cosh ψ * Real.cosh (z - ψ) + Real.sinh ψ * Real.sinh (z - ψ) := by
        rw [← Real.cosh_add]; congr 1; ring
      have a1 := abs_sinh_le_cosh ψ
      have a2 : |Real.sinh (z - ψ)| ≤ 1.01e-3 := by
        have hz' : |z - ψ| ≤ 1e-3 := by rw [abs_le]; constructor <;> linarith [hz.1, hz.2]
        have s1 := sinh_lip (x := z - ψ) (y := 0) (M := 1e-3) hz' (by norm_num)
        rw [Real.sinh_zero, sub_zero, sub_zero] at s1
        have s2 : Real.cosh 1e-3 ≤ 1.01 := by
          have h3 := Real.exp_bound_div_one_sub_of_interval (x := (1e-3 : ℝ)) (by norm_num) (by norm_num)
          have h4 : Real.exp (-(1e-3)) ≤ 1 := Real.exp_le_one_iff.2 (by norm_num)
          rw [Real.cosh_eq]
          generalize Real.exp (-(1e-3)) = w at *
          norm_num at h3 ⊢
          linarith
        refine s1.trans ((mul_le_mul s2 hz' (abs_nonneg _) (by norm_num)).trans (by norm_num))
      have a3 := Real.one_le_cosh (z - ψ)
      have a4 := Real.cosh_pos ψ
      have a5 : |Real.sinh ψ * Real.sinh (z - ψ)| ≤ Real.cosh ψ * 1.01e-3 := by
        rw [abs_mul]; exact mul_le_mul a1 a2 (abs_nonneg _) a4.le
      have a6 : 0.9985 * Real.cosh ψ ≤ Real.cosh z := by
        rw [e]
        have a8 := (abs_le.1 a5).1
        have a9 := mul_le_mul_of_nonneg_left a3 a4.le
        generalize Real.cosh ψ * Real.cosh (z - ψ) = w1 at *
        generalize Real.sinh ψ * Real.sinh (z - ψ) = w2 at *
        clear ech e
        norm_num at a8 ⊢
        linarith
      rw [ech] at a6
      rw [div_le_iff₀ hcz]
      have a7 := mul_le_mul_of_nonneg_left a6 (by positivity : 0 ≤ 1.002 * Real.cos φ)
      refine le_trans ?_ a7
      rw [show 1.002 * Real.cos φ * (0.9985 * (1 / Real.cos φ)) = 1.002 * 0.9985 by field_simp]
      norm_num)
    ⟨by linarith [(abs_le.1 h).1], by linarith [(abs_le.1 h).2]⟩ ⟨by linarith, by linarith⟩
  simp only [e0] at key
  exact key.trans (mul_le_mul_of_nonneg_left h (by positivity))

end Geo
