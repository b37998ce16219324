import Verif.Lemmas.VincentyGeodesic
import Verif.Props.GeodesicExact

/-! # C79: the direct solver of Vincenty and the geodesics of the surface, in exact arithmetic -/

namespace Geo
open XR Spec VincentyGeodesicSolver

/-- The loop ends within `k + 1` iterations when the corrections shrink by `q` each time. -/
theorem directLoop_ends {B m σ₀ q : ℝ} (q0 : 0 ≤ q)
    (hq : ∀ x y : ℝ, |vincentyDeltaSigma B y (Real.cos (2 * m + y)) - vincentyDeltaSigma B x (Real.cos (2 * m + x))| ≤
      q * |y - x|) (msg : String) (k : ℕ) (D σ p : ℝ) (st : DirectState XR) (h : RealD st m σ p)
    (hD : |σ₀ + vincentyDeltaSigma B σ (Real.cos (2 * m + σ)) - σ| ≤ D) (hk : q ^ k * D < 1e-12) :
    ∃ r, loopMax (directStep (fin B) ⟨fin m⟩ ⟨fin σ₀⟩) directDone msg (k + 1) st = .ok r := by
  induction k generalizing D σ p st with
  | zero =>
    have h' := directStep_real B m σ₀ σ p st h
    rw [loopMax]
    rw [pow_zero, one_mul] at hk
    simp only [directDone_real h', decide_eq_true (hD.trans_lt hk), if_true]
    exact ⟨_, rfl⟩
  | succ k ih =>
    have h' := directStep_real B m σ₀ σ p st h
    rw [loopMax]
    simp only [directDone_real h']
    split
    · exact ⟨_, rfl⟩
    · refine ih (q * D) _ _ _ h' ?_ (by rw [← mul_assoc, ← pow_succ]; exact hk)
      have := hq σ (σ₀ + vincentyDeltaSigma B σ (Real.cos (2 * m + σ)))
      rw [add_sub_add_left_eq_sub]
      exact this.trans (mul_le_mul_of_nonneg_left hD q0)

/-- **C79**: the Vincenty direct solver always returns, from a start off the poles, when the flattening is at most 1/50. -/
theorem C79_vincenty_returns {a b : ℝ} (hb : 0 < b) (hab : b ≤ a) (hf : (a - b) / a ≤ 1 / 50) (n : String)
    (l φ α s : ℝ) (hc : 0 < Real.cos φ) :
    ∃ g, direct ⟨ell n a b⟩ (lonR l, latR φ) (aziR α) (lenR s) = .ok g := by
  set β := Real.arctan (b / a * Real.tan φ) with hβ
  set K := 1 - (Real.cos β * Real.sin α) ^ 2 with hK
  set u2 := K * ((a ^ 2 - b ^ 2) / b ^ 2) with hu
  set m := Complex.arg ⟨Real.cos α, b / a * Real.tan φ⟩ with hm
  have hK0 : 0 ≤ K := by
    have h1 := Real.cos_sq_le_one β
    have h2 := Real.sin_sq_le_one α
    rw [hK, mul_pow]
    nlinarith [sq_nonneg (Real.sin α)]
  have hc2 := Real.sq_sqrt hK0
  obtain ⟨x0, x1, -, -⟩ := Bessel.x_facts (s0 := Real.cos β * Real.sin α) (c0 := Real.sqrt K) hb hab
    (by rw [hc2, hK]; ring) (x := u2) (by rw [hc2]) hf
  obtain ⟨B0, B1⟩ := Bessel.vinB_bounds x0 x1
  have hA : vincentyA u2 * b ≠ 0 := by
    have := (Bessel.vinA_bounds x0 x1).1
    positivity
  have hB : vincentyB u2 ≤ 1 / 80 := by linarith
  obtain ⟨st, hst⟩ := directLoop_ends (B := vincentyB u2) (m := m) (σ₀ := s / (vincentyA u2 * b)) (q := 1 / 50)
    (by norm_num) (fun x y => by
      rw [Bessel.delta_eq, Bessel.delta_eq]
      have := Bessel.vinH_lip B0 hB (m + x) (m + y)
      rw [add_sub_add_left_eq_sub] at this
      rw [sub_sub_sub_cancel_right]
      refine this.trans (mul_le_mul_of_nonneg_right ?_ (abs_nonneg _))
      linarith) directNotConverging 29 (1 / 50) _ _ _ (direct_init m (s / (vincentyA u2 * b))) (by
      rw [add_sub_cancel_left, Bessel.delta_eq]
      have e := abs_sub (Bessel.vinH (vincentyB u2) (m + s / (vincentyA u2 * b))) (Bessel.vinH (vincentyB u2) m)
      have e1 := Bessel.vinH_abs B0 hB (m + s / (vincentyA u2 * b))
      have e2 := Bessel.vinH_abs B0 hB m
      linarith) (by norm_num)
  rw [direct_eq hb hab n l φ α s hc β K u2 m hβ hK hu hm, div_fin _ hA, angle_new_rad]
  simp only [show (30 : ℕ) = 29 + 1 from rfl, hst]
  exact ⟨_, rfl⟩

/-- **C79**: the Vincenty direct solver returns the end of the geodesic: from any start off the poles there is a
geodesic of the ellipsoid with this start and this azimuth, and the returned point differs from the one at the distance
`s` along it by at most `f⁴ (22/100 |s| + a / 400) + 1e-12 f a`, where `f = (a - b) / a ≤ 1/50`; likewise for the
azimuth. -/
theorem C79_vincenty_direct {a b : ℝ} (hb : 0 < b) (hab : b ≤ a) (hf : (a - b) / a ≤ 1 / 50) (n : String)
    (l φ α s : ℝ) (hc : 0 < Real.cos φ) :
    ∃ g, direct ⟨ell n a b⟩ (lonR l, latR φ) (aziR α) (lenR s) = .ok g ∧
    ∃ (γ : ℝ → E3) (l₂ φ₂ α₂ : ℝ), IsGeodesic a b γ ∧ γ 0 = surfacePoint a b l φ ∧ deriv γ 0 = direction l φ α ∧
      g = ⟨(lonR l, latR φ), aziR α, (lonR l₂, latR φ₂), aziR α₂, lenR s⟩ ∧ -Real.pi ≤ l₂ ∧ l₂ ≤ Real.pi ∧
      -(Real.pi / 2) ≤ φ₂ ∧ φ₂ ≤ Real.pi / 2 ∧ -Real.pi < α₂ ∧ α₂ ≤ Real.pi ∧
      ‖surfacePoint a b l₂ φ₂ - γ s‖ ≤ ((a - b) / a) ^ 4 * (22 / 100 * |s| + a / 400) + 1e-12 * ((a - b) / a) * a ∧
      (Real.cos φ₂ ≠ 0 → ‖direction l₂ φ₂ α₂ - deriv γ s‖ ≤
        ((a - b) / a) ^ 4 * (22 / 100 * (|s| / a) + 1 / 400) + 1e-12 * ((a - b) / a)) := by
  obtain ⟨g, hg⟩ := C79_vincenty_returns hb hab hf n l φ α s hc
  refine ⟨g, hg, ?_⟩
  have ha : 0 < a := lt_of_lt_of_le hb hab
  obtain ⟨β, sa, u2, m, σ, σ', hβ, hsa, hu2, hm, -, hlt, hσ, ho⟩ := C72_vincenty_direct hb hab n l φ α s hc g hg
  obtain ⟨γ, l₂, φ₂, α₂, hγ, g0, g1, p2, p3, q1, q2, q3, q4, q5, q6, w1, w2⟩ := ho.geodesic hb hab hc hβ hm
  have hK : 0 ≤ 1 - (Real.cos β * Real.sin α) ^ 2 := by
    have h1 := Real.cos_sq_le_one β
    have h2 := Real.sin_sq_le_one α
    rw [mul_pow]
    nlinarith [sq_nonneg (Real.sin α)]
  have hc2 := Real.sq_sqrt hK
  rw [hsa, ← hc2] at hu2
  have h1 : (Real.cos β * Real.sin α) ^ 2 + Real.sqrt (1 - (Real.cos β * Real.sin α) ^ 2) ^ 2 = 1 := by rw [hc2]; ring
  obtain ⟨m1, m2⟩ := Bessel.vin_arc hb hab h1 hu2 hf hlt.le hσ
  have m3 := Bessel.vin_lon hb hab h1 rfl hf m (m + σ)
  rw [Bessel.excess_eq, hsa] at w1 w2
  rw [hc2] at m3
  rw [add_sub_cancel_left] at m3
  have ee : ∀ u v : ℝ, (a - b) / a * (Real.cos β * Real.sin α) * (u - v) =
    (a - b) / a * (Real.cos β * Real.sin α) * u - (a - b) / a * (Real.cos β * Real.sin α) * v := fun _ _ => by ring
  rw [ee] at w1 w2
  have hf0 : 0 ≤ (a - b) / a := div_nonneg (by linarith) ha.le
  have hab' : a ≤ 103 / 100 * b := by
    rw [div_le_iff₀ ha] at hf
    linarith
  set f := (a - b) / a with hfd
  have hf4 : 0 ≤ f ^ 4 := by positivity
  have m4 := m3.trans (mul_le_mul_of_nonneg_left m1 (by positivity))
  have hs := abs_nonneg s
  have hsb : a * (|s| / b) ≤ 103 / 100 * |s| := by
    rw [mul_div_assoc', div_le_iff₀ hb]
    nlinarith
  refine ⟨γ, l₂, φ₂, α₂, hγ, g0, g1, ?_, q1, q2, q3, q4, q5, q6, w1.trans ?_, fun h => (w2 h).trans ?_⟩
  · obtain ⟨_, _, _, _, _, _, _, _, _, _, _, _, rfl⟩ := ho
    simp only at p2 p3
    rw [p2, p3]
  · have := mul_le_mul_of_nonneg_left m4 ha.le
    calc _ ≤ (f ^ 4 * (1 / 20 * |s| + 1 / 1800 * a) + 55 / 100 * a * f * 1e-12) +
          a * (4 / 25 * f ^ 4 * (|s| / b + 1 / 90)) := add_le_add m2 this
      _ = f ^ 4 * (1 / 20 * |s| + 1 / 1800 * a + 4 / 25 * (a * (|s| / b)) + 4 / 25 / 90 * a) +
          55 / 100 * 1e-12 * f * a := by ring
      _ ≤ _ := add_le_add (mul_le_mul_of_nonneg_left (by linarith) hf4) (by gcongr; norm_num)
  · have hba : a / b ^ 2 ≤ (107 / 100) / a := by
      rw [div_le_div_iff₀ (by positivity) ha]
      nlinarith
    have hsb' : |s| / b ≤ 103 / 100 * (|s| / a) := by
      rw [mul_div_assoc', div_le_div_iff₀ hb ha]
      nlinarith
    have hsa0 : 0 ≤ |s| / a := by positivity
    calc _ ≤ (107 / 100) / a * (f ^ 4 * (1 / 20 * |s| + 1 / 1800 * a) + 55 / 100 * a * f * 1e-12) +
          4 / 25 * f ^ 4 * (|s| / b + 1 / 90) :=
          add_le_add (mul_le_mul hba m2 (abs_nonneg _) (by positivity)) m4
      _ = f ^ 4 * (107 / 100 * (1 / 20 * (|s| / a) + 1 / 1800) + 4 / 25 * (|s| / b) + 4 / 25 / 90) +
          107 / 100 * (55 / 100) * 1e-12 * f := by field_simp; ring
      _ ≤ _ := add_le_add (mul_le_mul_of_nonneg_left (by linarith) hf4) (by gcongr; norm_num)

/-- WGS 84, ten thousand kilometres: within 0.3 millimetres of the geodesic. -/
example : ∃ (γ : ℝ → E3) (l₂ φ₂ α₂ : ℝ), IsGeodesic 6378137 6356752.314245 γ ∧
    γ 0 = surfacePoint 6378137 6356752.314245 1 (1 / 2) ∧ deriv γ 0 = direction 1 (1 / 2) 2 ∧
    direct ⟨ell "WGS 84" 6378137 6356752.314245⟩ (lonR 1, latR (1 / 2)) (aziR 2) (lenR 10000000) =
      .ok ⟨(lonR 1, latR (1 / 2)), aziR 2, (lonR l₂, latR φ₂), aziR α₂, lenR 10000000⟩ ∧
    ‖surfacePoint 6378137 6356752.314245 l₂ φ₂ - γ 10000000‖ ≤ 3e-4 := by
  have hc : 0 < Real.cos (1 / 2) := Real.cos_pos_of_mem_Ioo ⟨by linarith [Real.pi_gt_three], by linarith [Real.pi_gt_three]⟩
  obtain ⟨g, hg, γ, l₂, φ₂, α₂, hγ, g0, g1, rfl, -, -, -, -, -, -, w1, -⟩ :=
    C79_vincenty_direct (a := 6378137) (b := 6356752.314245) (by norm_num) (by norm_num) (by norm_num) "WGS 84" 1 (1 / 2) 2
      10000000 hc
  exact ⟨γ, l₂, φ₂, α₂, hγ, g0, g1, hg, w1.trans (by norm_num)⟩

end Geo
