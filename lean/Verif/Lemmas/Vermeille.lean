import Verif.Lemmas.Ellipsoid
import Mathlib.Tactic.LinearCombination

/-! Vermeille's closed form: the number `k` is the positive root of its quartic equation. -/

namespace Geo
open XR GeodeticDatum
open Classical

theorem cbrtR_cube (x : ℝ) : cbrtR x ^ 3 = x := by
  unfold cbrtR
  have key : ∀ y : ℝ, 0 ≤ y → (y ^ (1 / 3 : ℝ)) ^ 3 = y := fun y hy => by
    rw [← Real.rpow_natCast, ← Real.rpow_mul hy]; norm_num
  split_ifs with h
  · have := key (-x) (by linarith)
    have e : (-((-x) ^ (1 / 3 : ℝ))) ^ 3 = -(((-x) ^ (1 / 3 : ℝ)) ^ 3) := by ring
    rw [e, this]; ring
  · exact key x (by linarith)

/-- The equation of `k`: `p / (k + e²)² + q / k² = 1`, cleared of denominators. -/
def KRoot (e2 p q k : ℝ) : Prop := p * k ^ 2 + q * (k + e2) ^ 2 = k ^ 2 * (k + e2) ^ 2

/-- Where Vermeille's formula is defined: off the surface `p + q = e⁴`, on or outside the evolute or on the
polar axis, and not on the equatorial disk `p ≤ e⁴`. -/
def KDomain (e2 p q : ℝ) : Prop :=
  p + q ≠ e2 ^ 2 ∧ (0 ≤ 8 * ((p + q - e2 ^ 2) / 6) ^ 3 + e2 ^ 2 * p * q ∨ p = 0) ∧ ¬ (q = 0 ∧ p ≤ e2 ^ 2)

theorem kroot_unique {e2 p q k k' : ℝ} (he : 0 < e2) (hp : 0 ≤ p) (hq : 0 ≤ q)
    (hk : 0 < k) (hk' : 0 < k') (h : KRoot e2 p q k) (h' : KRoot e2 p q k') : k = k' := by
  have form : ∀ x, 0 < x → KRoot e2 p q x → p / (x + e2) ^ 2 + q / x ^ 2 = 1 := by
    intro x hx hr
    unfold KRoot at hr
    have : 0 < x + e2 := by linarith
    field_simp
    linarith
  have lt_of : ∀ x y, 0 < x → 0 < y → KRoot e2 p q x → KRoot e2 p q y → ¬ x < y := by
    intro x y hx hy h1 h2 hlt
    have e1 := form x hx h1
    have e2' := form y hy h2
    have hpq : 0 < p ∨ 0 < q := by
      by_contra hc
      push Not at hc
      have : p = 0 := le_antisymm hc.1 hp
      have : q = 0 := le_antisymm hc.2 hq
      simp_all
    have a1 : p / (y + e2) ^ 2 ≤ p / (x + e2) ^ 2 := by gcongr
    have a2 : q / y ^ 2 ≤ q / x ^ 2 := by gcongr
    rcases hpq with h | h
    · have : p / (y + e2) ^ 2 < p / (x + e2) ^ 2 := by gcongr
      linarith
    · have : q / y ^ 2 < q / x ^ 2 := by gcongr
      linarith
  rcases lt_trichotomy k k' with hlt | heq | hlt
  · exact absurd hlt (lt_of _ _ hk hk' h h')
  · exact heq
  · exact absurd hlt (lt_of _ _ hk' hk h' h)

/-- The cubic resolvent. -/
theorem cubic_of_t {r s t : ℝ} (ht : t ≠ 0) (h : t ^ 3 + 1 / t ^ 3 = 2 + 2 * s) :
    (r * (1 + t + 1 / t)) ^ 3 - 3 * r * (r * (1 + t + 1 / t)) ^ 2 = 2 * s * r ^ 3 := by
  have : (t + 1 / t) ^ 3 - 3 * (t + 1 / t) = t ^ 3 + 1 / t ^ 3 := by field_simp; ring
  have e : (1 + t + 1 / t) = 1 + (t + 1 / t) := by ring
  rw [e]
  linear_combination r ^ 3 * this + r ^ 3 * h

theorem kroot_of_factor {e2 p q r u v w k : ℝ} (hr : p + q - e2 ^ 2 = 6 * r) (hv : v ≠ 0)
    (hu : u ^ 3 - 3 * r * u ^ 2 = e2 ^ 2 * p * q / 2) (hv2 : v ^ 2 = u ^ 2 + e2 ^ 2 * q)
    (hw : w = e2 * (u + v - q) / (2 * v)) (hk : k ^ 2 + 2 * w * k = u + v) : KRoot e2 p q k := by
  have hw2 : 2 * v * w = e2 * (u + v - q) := by rw [hw]; field_simp
  have hp : p = 6 * r - q + e2 ^ 2 := by linarith
  -- conjugate coefficient
  have h4 : 4 * w * (e2 - w) - 2 * u = e2 ^ 2 - p - q := by
    have hv4 : v ^ 2 ≠ 0 := pow_ne_zero 2 hv
    have : v ^ 2 * (4 * w * (e2 - w) - 2 * u) = v ^ 2 * (e2 ^ 2 - p - q) := by
      have e1 : v ^ 2 * (4 * w * (e2 - w)) = (2 * v * w) * (2 * v * e2 - 2 * v * w) := by ring
      have e3 : v ^ 2 * (4 * w * (e2 - w) - 2 * u) = (2 * v * w) * (2 * v * e2 - 2 * v * w) - 2 * u * v ^ 2 := by
        rw [← e1]; ring
      rw [e3, hw2]
      have e5 : e2 * (u + v - q) * (2 * v * e2 - e2 * (u + v - q)) = e2 ^ 2 * (v ^ 2 - (u - q) ^ 2) := by ring
      rw [e5, hv2]
      subst hp
      linear_combination (-2) * hu
    exact mul_left_cancel₀ hv4 this
  have h5 : w * (u - v) + (e2 - w) * (u + v) = e2 * q := by
    have : 2 * v * w = e2 * (u + v - q) := hw2
    linear_combination -this
  have h6 : (u + v) * (u - v) = -(e2 ^ 2 * q) := by linear_combination -hv2
  unfold KRoot
  have hfac : (k ^ 2 + 2 * w * k - (u + v)) * (k ^ 2 + 2 * (e2 - w) * k - (u - v)) = 0 := by
    rw [hk]; ring
  linear_combination -hfac + k ^ 2 * h4 - 2 * k * h5 + h6

/-- Evaluation of the model's `k` on its domain: the positive root of the equation. -/
theorem vermeilleK_fin {e2 p q : ℝ} (he : 0 < e2) (hp : 0 ≤ p) (hq : 0 ≤ q) (hd : KDomain e2 p q) :
    ∃ k, vermeilleK (fin e2) (fin p) (fin q) = fin k ∧ 0 < k ∧ KRoot e2 p q k := by
  obtain ⟨hd1, hd2, hd3⟩ := hd
  set r := (p + q - e2 ^ 2) / 6 with hr
  have hr6 : p + q - e2 ^ 2 = 6 * r := by rw [hr]; ring
  have hr0 : r ≠ 0 := by
    intro h; apply hd1; rw [h] at hr6; linarith
  have hr3 : 4 * r ^ 3 ≠ 0 := by positivity
  set s := e2 * e2 * p * q / (4 * r ^ 3) with hs
  have hs4 : 4 * r ^ 3 * s = e2 ^ 2 * p * q := by rw [hs]; field_simp
  have he4 : 0 < e2 ^ 2 := by positivity
  have hpq : 0 ≤ e2 ^ 2 * p * q := by positivity
  have hss : 0 ≤ s * (2 + s) := by
    rcases lt_or_gt_of_ne hr0 with hneg | hpos
    · have hr3n : r ^ 3 < 0 := by
        have := Odd.pow_neg (n := 3) (by decide) hneg
        exact this
      rcases hd2 with hd2 | hd2
      · have hle : s ≤ -2 := by
          by_contra hc
          push Not at hc
          nlinarith
        nlinarith
      · have : s = 0 := by rw [hs, hd2]; simp
        rw [this]; simp
    · have : 0 ≤ s := by
        rw [hs]
        have : 0 < r ^ 3 := by positivity
        have h2 : 0 ≤ e2 * e2 * p * q := by positivity
        positivity
      positivity
  set τ := 1 + s + Real.sqrt (s * (2 + s)) with hτ
  have hτ1 : τ * (1 + s - Real.sqrt (s * (2 + s))) = 1 := by
    have := Real.sq_sqrt hss
    rw [hτ]; linear_combination -this
  have hτ0 : τ ≠ 0 := fun h => by rw [h] at hτ1; simp at hτ1
  set t := cbrtR τ with ht
  have ht3 : t ^ 3 = τ := cbrtR_cube τ
  have ht0 : t ≠ 0 := fun h => by rw [h] at ht3; simp at ht3; exact hτ0 ht3.symm
  have hsum : t ^ 3 + 1 / t ^ 3 = 2 + 2 * s := by
    rw [ht3]
    have : 1 / τ = 1 + s - Real.sqrt (s * (2 + s)) := by
      field_simp; linarith
    rw [this, hτ]; ring
  set u := r * (1 + t + 1 / t) with hu
  have hcub : u ^ 3 - 3 * r * u ^ 2 = e2 ^ 2 * p * q / 2 := by
    rw [hu, cubic_of_t ht0 hsum]
    linear_combination hs4 / 2
  have hvn : 0 ≤ u * u + e2 * e2 * q := add_nonneg (mul_self_nonneg u) (by positivity)
  set v := Real.sqrt (u * u + e2 * e2 * q) with hv
  have hv2 : v ^ 2 = u ^ 2 + e2 ^ 2 * q := by rw [hv, Real.sq_sqrt hvn]; ring
  have hv0 : 0 ≤ v := Real.sqrt_nonneg _
  -- u + v > 0
  have huv : 0 < u + v := by
    rcases lt_or_eq_of_le hq with hq' | hq'
    · have h1 : |u| < v := by
        rw [hv]; apply Real.lt_sqrt_of_sq_lt; rw [sq_abs]
        have : 0 < e2 * e2 * q := by positivity
        rw [pow_two]; linarith
      have := neg_abs_le u
      linarith
    · -- q = 0: then p > e⁴ and u = 3 r > 0
      subst hq'
      have hp' : e2 ^ 2 < p := by
        by_contra hc; exact hd3 ⟨rfl, not_lt.1 hc⟩
      have hrpos : 0 < r := by rw [hr]; linarith
      have hs0 : s = 0 := by rw [hs]; simp
      have hu0 : 0 < u := by
        have hc : u ^ 2 * (u - 3 * r) = 0 := by linear_combination hcub
        rcases mul_eq_zero.1 hc with h | h
        · exfalso
          have hu0 : u = 0 := by simpa using h
          have h1 : 1 + t + 1 / t = 0 := by
            rcases mul_eq_zero.1 (hu ▸ hu0) with h | h
            · exact absurd h hr0
            · exact h
          have htpos : τ = 1 := by rw [hτ, hs0]; simp
          have ht3' : t ^ 3 = 1 := by rw [ht3, htpos]
          have hz : t ^ 2 + t + 1 = 0 := by
            field_simp at h1; linarith
          nlinarith [sq_nonneg (t + 1 / 2)]
        · linarith
      linarith
  have hv1 : v ≠ 0 := by
    intro h
    have hu2 : u ^ 2 + e2 ^ 2 * q = 0 := by rw [← hv2, h]; simp
    have : u ^ 2 = 0 := le_antisymm (by nlinarith [mul_nonneg he4.le hq]) (sq_nonneg u)
    have : u = 0 := by simpa using this
    rw [this, h] at huv; simp at huv
  set w := e2 * (u + v - q) / (2 * v) with hw
  have hroot : 0 ≤ u + v + w * w := by linarith [mul_self_nonneg w]
  refine ⟨Real.sqrt (u + v + w * w) - w, ?_, ?_, ?_⟩
  · simp only [vermeilleK, mul_fin, add_fin, sub_fin, ofNat_eq, powi_fin, one_eq]
    rw [div_fin _ (by norm_num : (6 : ℝ) ≠ 0)]
    have er : (p + q - e2 * e2) / 6 = r := by rw [hr]; ring
    rw [er, powi_fin, mul_fin, div_fin _ hr3, ← hs, add_fin, add_fin, mul_fin, sqrt_fin hss, add_fin, cbrt_fin,
      ← hτ, ← ht, div_fin _ ht0, add_fin, add_fin, mul_fin, ← hu, mul_fin, add_fin, sqrt_fin hvn, ← hv,
      add_fin, sub_fin, mul_fin, mul_fin, div_fin _ (by positivity), ← hw, mul_fin, add_fin, sqrt_fin hroot, sub_fin]
  · have : w < Real.sqrt (u + v + w * w) := by
      apply lt_of_le_of_lt (le_abs_self w)
      apply Real.lt_sqrt_of_sq_lt; rw [sq_abs, pow_two]; linarith
    linarith
  · apply kroot_of_factor hr6 hv1 hcub hv2 hw
    have := Real.sq_sqrt hroot
    linear_combination this

/-- Off its domain the formula gives NaN, or 0 on the equatorial disk. -/
theorem vermeilleK_undefined {e2 p q : ℝ} (he : 0 < e2) (hp : 0 ≤ p) (hq : 0 ≤ q) (hd : ¬ KDomain e2 p q) :
    vermeilleK (fin e2) (fin p) (fin q) = nan ∨ (vermeilleK (fin e2) (fin p) (fin q) = fin 0 ∧ q = 0) := by
  set r := (p + q - e2 ^ 2) / 6 with hr
  have er : (p + q - e2 * e2) / 6 = r := by rw [hr]; ring
  have he4 : 0 < e2 * e2 := by positivity
  have head : vermeilleK (fin e2) (fin p) (fin q) =
      (let s : XR := fin (e2 * e2 * p * q) / fin (4 * r ^ 3)
       let t := Flt.cbrt (fin 1 + s + Flt.sqrt (s * (fin 2 + s)))
       let u := fin r * (fin 1 + t + fin 1 / t)
       let v := Flt.sqrt (u * u + fin (e2 * e2) * fin q)
       let w := fin e2 * (u + v - fin q) / (fin 2 * v)
       Flt.sqrt (u + v + w * w) - w) := by
    simp only [vermeilleK, mul_fin, add_fin, sub_fin, ofNat_eq, one_eq]
    rw [div_fin _ (by norm_num : (6 : ℝ) ≠ 0), er, powi_fin, mul_fin]
  rw [head]
  by_cases hr0 : r = 0
  · left
    rw [hr0, div_fin_ite, if_pos (by norm_num)]
    by_cases h0 : e2 * e2 * p * q = 0
    · rw [h0, signInf_zero]
      simp
    · have : 0 < e2 * e2 * p * q := lt_of_le_of_ne (by positivity) (Ne.symm h0)
      rw [signInf_pos this]
      have h1 : (fin 0 : XR) * (fin 1 + Flt.cbrt (fin 1 + pinf + Flt.sqrt (pinf * (fin 2 + pinf))) +
          fin 1 / Flt.cbrt (fin 1 + pinf + Flt.sqrt (pinf * (fin 2 + pinf)))) = nan :=
        signInf_zero
      simp only [h1]
      simp
  · have hr3 : 4 * r ^ 3 ≠ 0 := by positivity
    rw [div_fin _ hr3]
    have hd1 : p + q ≠ e2 ^ 2 := fun h => hr0 (by rw [hr, h]; simp)
    by_cases hq0 : q = 0
    · right
      subst hq0
      refine ⟨?_, rfl⟩
      have hle : p ≤ e2 ^ 2 := by
        by_contra hc
        push Not at hc
        apply hd
        refine ⟨hd1, Or.inl ?_, fun h => absurd h.2 (not_le.2 hc)⟩
        have : 0 < (p + 0 - e2 ^ 2) / 6 := by linarith
        positivity
      have hrneg : r < 0 := lt_of_le_of_ne (by rw [hr]; linarith) hr0
      have e0 : e2 * e2 * p * 0 / (4 * r ^ 3) = 0 := by simp
      have ht : cbrtR 1 = 1 := by simp [cbrtR]
      have hsq : Real.sqrt ((3 * r) * (3 * r)) = -(3 * r) := by
        rw [Real.sqrt_mul_self_eq_abs, abs_of_neg (by linarith)]
      have hsq0 : (0 : ℝ) ≤ (3 * r) * (3 * r) := mul_self_nonneg _
      simp only [e0, mul_fin, add_fin, zero_mul, mul_zero, zero_div, sqrt_fin le_rfl, Real.sqrt_zero, add_zero, cbrt_fin, ht]
      rw [div_fin _ one_ne_zero]
      simp only [add_fin, mul_fin]
      have e1 : r * (1 + 1 + 1 / 1) = 3 * r := by ring
      rw [e1, add_zero]
      rw [sqrt_fin hsq0, hsq]
      simp only [add_fin, sub_fin, mul_fin]
      rw [div_fin _ (by linarith)]
      have e2' : 3 * r + -(3 * r) = 0 := by ring
      simp only [e2', mul_fin, add_fin, add_zero, sub_zero, mul_zero, zero_div, sub_fin, sqrt_fin le_rfl, Real.sqrt_zero]
    · left
      have hq' : 0 < q := lt_of_le_of_ne hq (Ne.symm hq0)
      have hlt : 8 * r ^ 3 + e2 ^ 2 * p * q < 0 ∧ p ≠ 0 := by
        by_contra hc
        apply hd
        refine ⟨hd1, ?_, fun h => hq0 h.1⟩
        by_cases hp0 : p = 0
        · exact Or.inr hp0
        · left
          by_contra hcc
          exact hc ⟨not_le.1 hcc, hp0⟩
      have hp' : 0 < p := lt_of_le_of_ne hp (Ne.symm hlt.2)
      have hpq : 0 < e2 * e2 * p * q := by positivity
      have hr3n : r ^ 3 < 0 := by
        have : e2 ^ 2 * p * q = e2 * e2 * p * q := by ring
        nlinarith [hlt.1]
      have hs1 : e2 * e2 * p * q / (4 * r ^ 3) < 0 := div_neg_of_pos_of_neg hpq (by linarith)
      have hs2 : -2 < e2 * e2 * p * q / (4 * r ^ 3) := by
        rw [lt_div_iff_of_neg (by linarith)]
        have : e2 ^ 2 * p * q = e2 * e2 * p * q := by ring
        linarith [hlt.1]
      have hn : Flt.sqrt (fin (e2 * e2 * p * q / (4 * r ^ 3)) * (fin 2 + fin (e2 * e2 * p * q / (4 * r ^ 3)))) = nan := by
        rw [add_fin, mul_fin, sqrt_fin_ite, if_pos]
        nlinarith
      simp only [hn]
      simp

end Geo
