import Verif.Lemmas.MercatorSeries
import Mathlib.Analysis.SpecialFunctions.Trigonometric.Bounds
import Mathlib.Analysis.SpecialFunctions.ExpDeriv

/-! The latitude recovered by the inverse Mercator projection differs from the original one by at most `1.5 e¹⁰`. -/

namespace Geo
open Ser.Merc

/-- Conformal latitude. -/
noncomputable def confL (e φ : ℝ) : ℝ := Real.arctan (Real.sinh (isoQ e φ))

/-- `e artanh (e sin φ)`. -/
noncomputable def wL (e φ : ℝ) : ℝ := e * Real.artanh (e * Real.sin φ)

theorem abs_artanh_le {x : ℝ} (h1 : -1 < x) (h2 : x < 1) : |Real.artanh x| ≤ |x| / (1 - x ^ 2) := by
  have key : ∀ y : ℝ, 0 ≤ y → y < 1 → Real.artanh y ≤ y / (1 - y ^ 2) := by
    intro y hy hy1
    have hp : 0 < 1 - y ^ 2 := by nlinarith
    have hq : 0 < 1 - y := by linarith
    have hx : 0 < (1 + y) / (1 - y) := by positivity
    have e1 : Real.log (1 + y) - Real.log (1 - y) = Real.log ((1 + y) / (1 - y)) := by
      rw [Real.log_div (by linarith) (by linarith)]
    have h3 : 0 ≤ Real.log ((1 + y) / (1 - y)) := by
      apply Real.log_nonneg
      rw [le_div_iff₀ hq]; linarith
    have h4 := Real.self_le_sinh_iff.2 h3
    rw [Real.sinh_log hx] at h4
    rw [artanh_eq (by linarith) hy1]
    have e2 : ((1 + y) / (1 - y) - ((1 + y) / (1 - y))⁻¹) / 2 = 2 * (y / (1 - y ^ 2)) := by
      rw [show 1 - y ^ 2 = (1 - y) * (1 + y) by ring]
      field_simp; ring
    linarith
  rcases le_or_gt 0 x with h | h
  · have h3 : 0 ≤ Real.artanh x := by
      rw [artanh_eq h1 h2]
      have := Real.log_le_log (by linarith) (show 1 - x ≤ 1 + x by linarith)
      linarith
    rw [abs_of_nonneg h3, abs_of_nonneg h]
    exact key x h h2
  · have h3 : Real.artanh x ≤ 0 := by
      rw [artanh_eq h1 h2]
      have := Real.log_le_log (by linarith) (show 1 + x ≤ 1 - x by linarith)
      linarith
    have := key (-x) (by linarith) (by linarith)
    rw [artanh_neg' h1 h2, neg_sq] at this
    rw [abs_of_nonpos h3, abs_of_neg h]
    exact this

theorem abs_wL_le {ε : ℝ} (h0 : 0 ≤ ε) (h1 : ε ≤ 1 / 50) (φ : ℝ) : |wL (Real.sqrt ε) φ| ≤ 1 / 49 := by
  have hs := Real.sqrt_nonneg ε
  have hsq := Real.sq_sqrt h0
  have hs1 : Real.sqrt ε < 1 := by rw [Real.sqrt_lt' one_pos]; linarith
  obtain ⟨a1, a2⟩ := abs_e_sin_lt hs hs1 φ
  have h2 := abs_artanh_le a1 a2
  have hsin := Real.sin_sq_le_one φ
  have hb : (Real.sqrt ε * Real.sin φ) ^ 2 ≤ 1 / 50 := by rw [mul_pow, hsq]; nlinarith
  have hp : 0 < 1 - (Real.sqrt ε * Real.sin φ) ^ 2 := by linarith
  rw [wL, abs_mul, abs_of_nonneg hs]
  calc Real.sqrt ε * |Real.artanh (Real.sqrt ε * Real.sin φ)|
      ≤ Real.sqrt ε * (|Real.sqrt ε * Real.sin φ| / (1 - (Real.sqrt ε * Real.sin φ) ^ 2)) := by gcongr
    _ = ε * |Real.sin φ| / (1 - (Real.sqrt ε * Real.sin φ) ^ 2) := by
        rw [abs_mul, abs_of_nonneg hs, ← mul_div_assoc, ← mul_assoc, ← pow_two, hsq]
    _ ≤ 1 / 49 := by
        rw [div_le_iff₀ hp]
        have := Real.abs_sin_le_one φ
        have := abs_nonneg (Real.sin φ)
        nlinarith

theorem exp_49 {w : ℝ} (h : |w| ≤ 1 / 49) : Real.cosh w - 1 + |Real.sinh w| ≤ 0.021 ∧
    ∀ s : ℝ, |s| ≤ 1 → 0.979 ≤ Real.cosh w - s * Real.sinh w ∧ Real.cosh w - s * Real.sinh w ≤ 1.021 := by
  have hexp : Real.exp |w| ≤ 1.021 := by
    have h1 := Real.exp_bound' (abs_nonneg w) (by linarith) (n := 3) (by norm_num)
    refine h1.trans ?_
    simp only [Finset.sum_range_succ, Finset.sum_range_zero, Nat.factorial]
    have h0 := abs_nonneg w
    generalize |w| = v at h h0
    norm_num
    have h2 : v ^ 2 ≤ 1 / 49 * v := by nlinarith
    have h3 : v ^ 3 ≤ 1 / 2401 * v := by nlinarith
    linarith
  have e1 : Real.cosh w + |Real.sinh w| = Real.exp |w| := by
    rw [← Real.cosh_abs, ← Real.cosh_add_sinh, add_right_inj]
    rcases abs_cases w with ⟨e, hw⟩ | ⟨e, hw⟩
    · rw [e, abs_of_nonneg (Real.sinh_nonneg_iff.2 hw)]
    · rw [e, Real.sinh_neg, abs_of_nonpos (Real.sinh_nonpos_iff.2 hw.le)]
  have hc := Real.one_le_cosh w
  refine ⟨by linarith, fun s hs => ?_⟩
  have h2 : |s * Real.sinh w| ≤ |Real.sinh w| := by
    rw [abs_mul]
    have := abs_nonneg (Real.sinh w)
    nlinarith
  have := abs_le.1 h2
  constructor <;> linarith [this.1, this.2]

/-- Sine and cosine of the conformal latitude. -/
theorem confL_sin_cos {e φ : ℝ} (h1 : -(Real.pi / 2) < φ) (h2 : φ < Real.pi / 2)
    (hD : 0 < Real.cosh (wL e φ) - Real.sin φ * Real.sinh (wL e φ)) :
    Real.cos (confL e φ) = Real.cos φ / (Real.cosh (wL e φ) - Real.sin φ * Real.sinh (wL e φ)) ∧
    Real.sin (confL e φ) = (Real.sin φ * Real.cosh (wL e φ) - Real.sinh (wL e φ)) /
      (Real.cosh (wL e φ) - Real.sin φ * Real.sinh (wL e φ)) := by
  have hc := cos_pos_of_lat h1 h2
  have hq : isoQ e φ = Real.arsinh (Real.tan φ) - wL e φ := rfl
  have hcosh : Real.cosh (Real.arsinh (Real.tan φ)) = 1 / Real.cos φ := by
    rw [Real.cosh_arsinh, ← Real.inv_sqrt_one_add_tan_sq hc, one_div, inv_inv]
  have hc' : Real.cosh (isoQ e φ) = (Real.cosh (wL e φ) - Real.sin φ * Real.sinh (wL e φ)) / Real.cos φ := by
    rw [hq, Real.cosh_sub, hcosh, Real.sinh_arsinh, Real.tan_eq_sin_div_cos]; field_simp
  have hs' : Real.sinh (isoQ e φ) = (Real.sin φ * Real.cosh (wL e φ) - Real.sinh (wL e φ)) / Real.cos φ := by
    rw [hq, Real.sinh_sub, hcosh, Real.sinh_arsinh, Real.tan_eq_sin_div_cos]; field_simp
  have hsqrt : Real.sqrt (1 + Real.sinh (isoQ e φ) ^ 2) = Real.cosh (isoQ e φ) := by
    rw [add_comm, ← Real.cosh_sq, Real.sqrt_sq (Real.cosh_pos _).le]
  constructor
  · rw [confL, Real.cos_arctan, hsqrt, hc']; field_simp
  · rw [confL, Real.sin_arctan, hsqrt, hc', hs']; field_simp

theorem confL_deriv {ε φ : ℝ} (h0 : 0 ≤ ε) (hε : ε ≤ 1 / 50) (h1 : -(Real.pi / 2) < φ) (h2 : φ < Real.pi / 2) :
    ∃ d, HasDerivAt (confL (Real.sqrt ε)) d φ ∧ 0.95 ≤ d := by
  have hs := Real.sqrt_nonneg ε
  have hsq := Real.sq_sqrt h0
  have hs1 : Real.sqrt ε < 1 := by rw [Real.sqrt_lt' one_pos]; linarith
  have hD := (exp_49 (abs_wL_le h0 hε φ)).2 (Real.sin φ) (Real.abs_sin_le_one φ)
  have hcs := confL_sin_cos h1 h2 (e := Real.sqrt ε) (by linarith [hD.1])
  have hc := cos_pos_of_lat h1 h2
  refine ⟨_, ((isoQ_deriv hs hs1 h1 h2).sinh).arctan, ?_⟩
  set D := Real.cosh (wL (Real.sqrt ε) φ) - Real.sin φ * Real.sinh (wL (Real.sqrt ε) φ) with hDd
  have e1 : 1 + Real.sinh (isoQ (Real.sqrt ε) φ) ^ 2 = Real.cosh (isoQ (Real.sqrt ε) φ) ^ 2 := by
    rw [Real.cosh_sq]; ring
  have e2 : Real.cosh (isoQ (Real.sqrt ε) φ) = D / Real.cos φ := by
    have := hcs.1
    rw [confL, Real.cos_arctan, e1, Real.sqrt_sq (Real.cosh_pos _).le] at this
    have hp := Real.cosh_pos (isoQ (Real.sqrt ε) φ)
    have hDp : 0 < D := by linarith [hD.1]
    field_simp at this ⊢
    linarith
  rw [e1, hsq, e2]
  have hDp : 0 < D := by linarith [hD.1]
  have hsin := Real.sin_sq_le_one φ
  have hsin0 := sq_nonneg (Real.sin φ)
  have hu : 0 < 1 - ε * Real.sin φ ^ 2 := by nlinarith
  have hu1 : 1 - ε * Real.sin φ ^ 2 ≤ 1 := by nlinarith
  have : 1 / (D / Real.cos φ) ^ 2 * (D / Real.cos φ * ((1 - ε) / (Real.cos φ * (1 - ε * Real.sin φ ^ 2)))) =
      (1 - ε) / (D * (1 - ε * Real.sin φ ^ 2)) := by
    field_simp
  rw [this, le_div_iff₀ (by positivity)]
  have : D * (1 - ε * Real.sin φ ^ 2) ≤ 1.021 * 1 := mul_le_mul hD.2 hu1 hu.le (by norm_num)
  nlinarith

theorem abs_sin_even (k : ℕ) (χ : ℝ) : |Real.sin (2 * k * χ)| ≤ 2 * k * |Real.cos χ| := by
  induction k with
  | zero => simp
  | succ k ih =>
    have e : Real.sin (2 * (k + 1 : ℕ) * χ) =
        Real.sin (2 * k * χ) * Real.cos (2 * χ) + Real.cos (2 * k * χ) * (2 * Real.sin χ * Real.cos χ) := by
      rw [show 2 * ((k + 1 : ℕ) : ℝ) * χ = 2 * k * χ + 2 * χ by push_cast; ring, Real.sin_add, Real.sin_two_mul]
    rw [e]
    have a1 := Real.abs_cos_le_one (2 * χ)
    have a2 := Real.abs_cos_le_one (2 * k * χ)
    have a3 := Real.abs_sin_le_one χ
    have b1 : |Real.sin (2 * k * χ) * Real.cos (2 * χ)| ≤ 2 * k * |Real.cos χ| := by
      rw [abs_mul]
      calc _ ≤ |Real.sin (2 * k * χ)| * 1 := by gcongr
        _ ≤ _ := by rw [mul_one]; exact ih
    have b2 : |Real.cos (2 * k * χ) * (2 * Real.sin χ * Real.cos χ)| ≤ 2 * |Real.cos χ| := by
      rw [abs_mul, abs_mul, abs_mul, abs_two]
      calc _ ≤ 1 * (2 * 1 * |Real.cos χ|) := by gcongr
        _ = _ := by ring
    push_cast
    calc _ ≤ _ := abs_add_le _ _
      _ ≤ _ := add_le_add b1 b2
      _ = _ := by ring

theorem abs_S_le {ε : ℝ} (h0 : 0 ≤ ε) (h1 : ε ≤ 1 / 50) (χ : ℝ) : |S ε χ| ≤ 1 / 40 * |Real.cos χ| := by
  have s2 := abs_sin_even 1 χ
  have s4 := abs_sin_even 2 χ
  have s6 := abs_sin_even 3 χ
  have s8 := abs_sin_even 4 χ
  norm_num at s2 s4 s6 s8
  set c := |Real.cos χ|
  have hc : 0 ≤ c := abs_nonneg _
  have p2 : ε ^ 2 ≤ 1 / 50 * ε := by nlinarith
  have p3 : ε ^ 3 ≤ 1 / 2500 * ε := by nlinarith [pow_nonneg h0 2]
  have p4 : ε ^ 4 ≤ 1 / 125000 * ε := by nlinarith [pow_nonneg h0 3]
  have n2 := pow_nonneg h0 2
  have n3 := pow_nonneg h0 3
  have n4 := pow_nonneg h0 4
  have k2 : ε / 2 + 5 / 24 * ε ^ 2 + ε ^ 3 / 12 + 13 / 360 * ε ^ 4 ≤ 0.0102 := by linarith
  have k4 : 7 / 48 * ε ^ 2 + 29 / 240 * ε ^ 3 + 811 / 11520 * ε ^ 4 ≤ 0.0001 := by linarith
  have k6 : 7 / 120 * ε ^ 3 + 81 / 1120 * ε ^ 4 ≤ 0.00001 := by linarith
  have k8 : 4279 / 161280 * ε ^ 4 ≤ 0.00001 := by linarith
  unfold S
  have t : ∀ (k a b B : ℝ), 0 ≤ k → k ≤ B → |a| ≤ b → 0 ≤ b → |k * a| ≤ B * b := by
    intro k a b B hk hB ha hb
    rw [abs_mul, abs_of_nonneg hk]
    exact mul_le_mul hB ha (abs_nonneg _) (hk.trans hB)
  have t2 := t _ _ _ _ (by positivity) k2 s2 (by positivity)
  have t4 := t _ _ _ _ (by positivity) k4 s4 (by positivity)
  have t6 := t _ _ _ _ (by positivity) k6 s6 (by positivity)
  have t8 := t _ _ _ _ (by positivity) k8 s8 (by positivity)
  refine (abs_add_le _ _).trans ?_
  refine (add_le_add ((abs_add_le _ _).trans (add_le_add ((abs_add_le _ _).trans (add_le_add t2 t4)) t6)) t8).trans ?_
  linarith

/-- An angle is bounded by its tangent. -/
theorem abs_le_of_sin_cos {d D R m : ℝ} (hD : 0 < D) (hm : 0 < m) (hs : |Real.sin d| * D ≤ R)
    (hc : m ≤ Real.cos d * D) (h1 : |d| < Real.pi) : |d| ≤ R / m := by
  have hcosp : 0 < Real.cos d := by
    by_contra h
    have : Real.cos d * D ≤ 0 := mul_nonpos_of_nonpos_of_nonneg (not_lt.1 h) hD.le
    linarith
  have hlt : |d| < Real.pi / 2 := by
    by_contra h
    have : Real.cos |d| ≤ 0 :=
      Real.cos_nonpos_of_pi_div_two_le_of_le (not_lt.1 h) (by linarith [Real.pi_pos])
    rw [Real.cos_abs] at this
    linarith
  refine (Real.le_tan (abs_nonneg d) hlt).trans ?_
  have hsa : Real.sin |d| = |Real.sin d| := by
    rcases abs_cases d with ⟨e, h⟩ | ⟨e, h⟩
    · rw [e] at hlt
      rw [e, abs_of_nonneg (Real.sin_nonneg_of_nonneg_of_le_pi h (by linarith [Real.pi_pos]))]
    · rw [e] at hlt
      rw [e, Real.sin_neg, abs_of_nonpos (Real.sin_nonpos_of_nonpos_of_neg_pi_le h.le (by linarith [Real.pi_pos]))]
  have hR : 0 ≤ R := le_trans (by positivity) hs
  rw [Real.tan_eq_sin_div_cos, Real.cos_abs, hsa, div_le_div_iff₀ hcosp hm]
  have : |Real.sin d| * m * D ≤ R * Real.cos d * D := by
    calc |Real.sin d| * m * D = |Real.sin d| * D * m := by ring
      _ ≤ R * (Real.cos d * D) := mul_le_mul hs hc hm.le hR
      _ = _ := by ring
  exact le_of_mul_le_mul_right this hD

/-- The latitude computed from the conformal latitude. -/
theorem merc_latitude {ε φ : ℝ} (h0 : 0 ≤ ε) (hε : ε ≤ 1 / 50) (h1 : -(Real.pi / 2) < φ) (h2 : φ < Real.pi / 2) :
    -(Real.pi / 2) < confL (Real.sqrt ε) φ + S ε (confL (Real.sqrt ε) φ) ∧
    confL (Real.sqrt ε) φ + S ε (confL (Real.sqrt ε) φ) < Real.pi / 2 ∧
    |confL (Real.sqrt ε) φ + S ε (confL (Real.sqrt ε) φ) - φ| ≤ 3 / 2 * ε ^ 5 := by
  set χ := confL (Real.sqrt ε) φ
  have hχ1 : -(Real.pi / 2) < χ := Real.neg_pi_div_two_lt_arctan _
  have hχ2 : χ < Real.pi / 2 := Real.arctan_lt_pi_div_two _
  have hcχ := cos_pos_of_lat hχ1 hχ2
  have hS := abs_S_le h0 hε χ
  rw [abs_of_pos hcχ] at hS
  have hcos1 : Real.cos χ ≤ Real.pi / 2 - χ := by
    rw [← Real.sin_pi_div_two_sub]; exact Real.sin_le (by linarith)
  have hcos2 : Real.cos χ ≤ Real.pi / 2 + χ := by
    rw [← Real.cos_neg, ← Real.sin_pi_div_two_sub, sub_neg_eq_add]; exact Real.sin_le (by linarith)
  obtain ⟨hS1, hS2⟩ := abs_le.1 hS
  have g1 : -(Real.pi / 2) < χ + S ε χ := by linarith
  have g2 : χ + S ε χ < Real.pi / 2 := by linarith
  refine ⟨g1, g2, ?_⟩
  have hres := residual h0 hε χ
  set φ' := χ + S ε χ with hφ'
  change |Real.sin (S ε χ) + Real.cos χ * (Real.sin φ' * (Real.cosh (wL (Real.sqrt ε) φ') - 1) -
    Real.sinh (wL (Real.sqrt ε) φ'))| ≤ _ at hres
  have hw := exp_49 (abs_wL_le h0 hε φ')
  have hD := hw.2 (Real.sin φ') (Real.abs_sin_le_one φ')
  have hcs := confL_sin_cos g1 g2 (e := Real.sqrt ε) (by linarith [hD.1])
  set w := wL (Real.sqrt ε) φ'
  set D := Real.cosh w - Real.sin φ' * Real.sinh w with hDd
  have hDp : 0 < D := by linarith [hD.1]
  set χ' := confL (Real.sqrt ε) φ' with hχ'
  have hSS : S ε χ = φ' - χ := by rw [hφ']; ring
  have hsinS : Real.sin (S ε χ) = Real.sin φ' * Real.cos χ - Real.cos φ' * Real.sin χ := by
    rw [hSS, Real.sin_sub]
  have hcosS : Real.cos (S ε χ) = Real.cos φ' * Real.cos χ + Real.sin φ' * Real.sin χ := by
    rw [hSS, Real.cos_sub]
  have es : Real.sin (χ' - χ) * D = Real.sin (S ε χ) + Real.cos χ * (Real.sin φ' * (Real.cosh w - 1) - Real.sinh w) := by
    rw [Real.sin_sub, hcs.1, hcs.2, hsinS]; field_simp; ring
  have ec : Real.cos (χ' - χ) * D = Real.cos (S ε χ) + Real.sin χ * (Real.sin φ' * (Real.cosh w - 1) - Real.sinh w) := by
    rw [Real.cos_sub, hcs.1, hcs.2, hcosS]; field_simp; ring
  have hcl : 0.975 ≤ Real.cos (χ' - χ) * D := by
    rw [ec]
    have a1 := Real.one_sub_sq_div_two_le_cos (x := S ε χ)
    have a2 : (S ε χ) ^ 2 ≤ (1 / 40) ^ 2 := by
      rw [← sq_abs (S ε χ)]
      have := Real.cos_le_one χ
      exact pow_le_pow_left₀ (abs_nonneg _) (by linarith) 2
    have a3 : |Real.sin χ * (Real.sin φ' * (Real.cosh w - 1) - Real.sinh w)| ≤ 0.021 := by
      rw [abs_mul]
      have b1 := Real.abs_sin_le_one χ
      have b2 := Real.abs_sin_le_one φ'
      have b3 : 0 ≤ Real.cosh w - 1 := by linarith [Real.one_le_cosh w]
      have b4 : |Real.sin φ' * (Real.cosh w - 1) - Real.sinh w| ≤ Real.cosh w - 1 + |Real.sinh w| := by
        refine (abs_sub _ _).trans (add_le_add ?_ le_rfl)
        rw [abs_mul, abs_of_nonneg b3]
        nlinarith
      calc _ ≤ 1 * (Real.cosh w - 1 + |Real.sinh w|) := mul_le_mul b1 b4 (abs_nonneg _) (by norm_num)
        _ ≤ _ := by linarith [hw.1]
    have := (abs_le.1 a3).1
    linarith
  have hχ'1 : -(Real.pi / 2) < χ' := Real.neg_pi_div_two_lt_arctan _
  have hχ'2 : χ' < Real.pi / 2 := Real.arctan_lt_pi_div_two _
  have hd : |χ' - χ| ≤ 13 / 10 * ε ^ 5 / 0.975 := by
    refine abs_le_of_sin_cos hDp (by norm_num) ?_ hcl ?_
    · rw [← abs_of_pos hDp, ← abs_mul, es]; exact hres
    · rw [abs_lt]; constructor <;> linarith
  -- the conformal latitude grows at least at the rate 0.95
  have mvt : ∀ x ∈ Set.Ioo (-(Real.pi / 2)) (Real.pi / 2), ∀ y ∈ Set.Ioo (-(Real.pi / 2)) (Real.pi / 2), x ≤ y →
      0.95 * (y - x) ≤ confL (Real.sqrt ε) y - confL (Real.sqrt ε) x := by
    apply Convex.mul_sub_le_image_sub_of_le_deriv (convex_Ioo _ _)
    · intro x hx
      obtain ⟨d, hd, -⟩ := confL_deriv h0 hε hx.1 hx.2
      exact hd.continuousAt.continuousWithinAt
    · intro x hx
      rw [interior_Ioo] at hx
      obtain ⟨d, hd, -⟩ := confL_deriv h0 hε hx.1 hx.2
      exact hd.differentiableAt.differentiableWithinAt
    · intro x hx
      rw [interior_Ioo] at hx
      obtain ⟨d, hd, h⟩ := confL_deriv h0 hε hx.1 hx.2
      rw [hd.deriv]; exact h
  have hp5 : 0 ≤ ε ^ 5 := by positivity
  have hfin : 0.95 * |φ' - φ| ≤ |χ' - χ| := by
    rcases le_total φ φ' with h | h
    · have := mvt φ ⟨h1, h2⟩ φ' ⟨g1, g2⟩ h
      rw [abs_of_nonneg (by linarith)]
      exact this.trans (le_abs_self _)
    · have := mvt φ' ⟨g1, g2⟩ φ ⟨h1, h2⟩ h
      rw [abs_of_nonpos (by linarith), abs_sub_comm]
      refine le_trans ?_ (le_abs_self _)
      linarith
  have h3 : |φ' - φ| ≤ 13 / 10 * ε ^ 5 / 0.975 / 0.95 := by
    rw [le_div_iff₀ (by norm_num)]; linarith
  refine h3.trans ?_
  rw [div_div, div_le_iff₀ (by norm_num)]; nlinarith

end Geo
