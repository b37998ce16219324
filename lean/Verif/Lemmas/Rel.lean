import Verif.Lemmas.Near
import Mathlib.Analysis.Real.Pi.Bounds

/-! Relative rounding errors: how they propagate through the operations. -/

namespace Geo.Spec
variable {L : Libm}

/-- `x` is finite and within `δ |r| + η` of the real number `r`; `η` is for underflow. -/
structure Rel (x : F64 L) (r δ η : ℝ) : Prop where
  finite : x.isFinite
  near : |(x.toQ : ℝ) - r| ≤ δ * |r| + η

variable {x y : F64 L} {r s δ δ' η η' A B C D H : ℝ}

theorem Rel.exact (h : x.isFinite) : Rel x (x.toQ : ℝ) 0 0 := ⟨h, by simp⟩

theorem Rel.toNear (h : Rel x r δ η) (hA : |r| ≤ A) (hδ : 0 ≤ δ) {E : ℝ} (hE : δ * A + η ≤ E) : Near x r E :=
  ⟨h.1, h.2.trans ((add_le_add_left (mul_le_mul_of_nonneg_left hA hδ) _).trans hE)⟩

theorem Near.toRel {ε : ℝ} (h : Near x r ε) (hB : B ≤ |r|) (hδ : 0 ≤ δ) (hE : ε ≤ δ * B + η) : Rel x r δ η :=
  ⟨h.1, h.2.trans (hE.trans (add_le_add_left (mul_le_mul_of_nonneg_left hB hδ) _))⟩

theorem Rel.mono (h : Rel x r δ η) (hδ : δ ≤ D) (hη : η ≤ H) : Rel x r D H :=
  ⟨h.1, h.2.trans (add_le_add (mul_le_mul_of_nonneg_right hδ (abs_nonneg r)) hη)⟩

theorem Rel.congr (h : Rel x r δ η) (e : r = s) : Rel x s δ η := e ▸ h

/-- The underflow term does not matter away from 0. -/
theorem Rel.absorb (h : Rel x r δ η) (hB : B ≤ |r|) (hD : δ ≤ D) (hE : η ≤ (D - δ) * B) : Rel x r D 0 := by
  refine ⟨h.1, h.2.trans ?_⟩
  have := mul_le_mul_of_nonneg_left hB (sub_nonneg.2 hD)
  linarith

theorem round_rel {q : ℚ} (h : |(q : ℝ) - r| ≤ δ * |r| + η) (hr : |r| ≤ 1e30) (hδ : δ ≤ 1e-10) (hη0 : 0 ≤ η)
    (hη : η ≤ 1e-15) :
    |rndQ q| < huge ∧ |((rndQ q : ℚ) : ℝ) - r| ≤ (δ + 1.13e-16) * |r| + (1.001 * η + 1e-70) := by
  have h0 := abs_nonneg r
  have hδr : δ * |r| ≤ 1e-10 * |r| := mul_le_mul_of_nonneg_right hδ h0
  have hq : |(q : ℝ)| ≤ 1.0000000001 * |r| + η := by
    have := abs_add_le ((q : ℝ) - r) r
    rw [sub_add_cancel] at this
    norm_num at *
    linarith
  have hq' : |q| ≤ 1e60 := by
    have : ((|q| : ℚ) : ℝ) ≤ ((1e60 : ℚ) : ℝ) := by
      rw [Rat.cast_abs]
      norm_num at *
      linarith
    exact Rat.cast_le.1 this
  refine ⟨le_huge hq', ?_⟩
  have k := (Rat.cast_le (K := ℝ)).2 (rndQ_rel' q)
  push_cast at k
  have k2 := abs_sub_le ((rndQ q : ℚ) : ℝ) q r
  generalize |r| = R at *
  norm_num at *
  linarith

theorem Rel.of_round {z : F64 L} {q : ℚ} (h : |(q : ℝ) - r| ≤ δ * |r| + η) (hr : |r| ≤ 1e30) (hδ : δ ≤ 1e-10) (hη0 : 0 ≤ η)
    (hη : η ≤ 1e-15) (hz : |rndQ q| < huge → z.isFinite ∧ z.toQ = rndQ q) (hD : δ + 1.13e-16 ≤ D)
    (hH : 1.001 * η + 1e-70 ≤ H) : Rel z r D H := by
  obtain ⟨k1, k2⟩ := round_rel h hr hδ hη0 hη
  obtain ⟨f, e⟩ := hz k1
  refine ⟨f, ?_⟩
  rw [e]
  exact k2.trans (add_le_add (mul_le_mul_of_nonneg_right hD (abs_nonneg r)) hH)

theorem Rel.mul (hx : Rel x r δ η) (hy : Rel y s δ' η') (hA : |r| ≤ A) (hB : |s| ≤ B) (hAB : A * B ≤ 1e30) (h0 : 0 ≤ δ)
    (h1 : δ ≤ 1e-12) (h0' : 0 ≤ δ') (h1' : δ' ≤ 1e-12) (e0 : 0 ≤ η) (e1 : η ≤ 1e-30) (e0' : 0 ≤ η') (hs : 1.01 * ((A + 1) * η' + B * η) ≤ 1e-15)
    (hD : δ + 1.001 * δ' + 1.13e-16 ≤ D) (hH : 1.02 * ((A + 1) * η' + B * η) + 1e-70 ≤ H) : Rel (x * y) (r * s) D H := by
  have a0 := abs_nonneg r
  have b0 := abs_nonneg s
  have h : |((x.toQ * y.toQ : ℚ) : ℝ) - r * s| ≤ (δ + 1.001 * δ') * |r * s| + 1.01 * ((A + 1) * η' + B * η) := by
    push_cast
    have e : (x.toQ : ℝ) * y.toQ - r * s = r * (y.toQ - s) + s * (x.toQ - r) + (x.toQ - r) * (y.toQ - s) := by ring
    rw [e]
    refine (abs_add_three _ _ _).trans ?_
    rw [abs_mul, abs_mul, abs_mul, abs_mul]
    have k1 := mul_le_mul_of_nonneg_left hy.2 a0
    have k2 := mul_le_mul_of_nonneg_left hx.2 b0
    have k3 := mul_le_mul hx.2 hy.2 (abs_nonneg _) (add_nonneg (mul_nonneg h0 a0) e0)
    have m1 : |r| * η' ≤ A * η' := mul_le_mul_of_nonneg_right hA e0'
    have m2 : |s| * η ≤ B * η := mul_le_mul_of_nonneg_right hB e0
    have m3 : δ * |r| * (δ' * |s|) ≤ 1e-12 * (δ' * (|r| * |s|)) := by
      have : δ * |r| * (δ' * |s|) = δ * (δ' * (|r| * |s|)) := by ring
      rw [this]
      exact mul_le_mul_of_nonneg_right h1 (mul_nonneg h0' (mul_nonneg a0 b0))
    have m4 : δ * |r| * η' ≤ 1e-12 * (A * η') := by
      rw [mul_assoc]
      exact mul_le_mul h1 m1 (mul_nonneg a0 e0') (by norm_num)
    have m5 : η * (δ' * |s|) ≤ 1e-12 * (B * η) := by
      have : η * (δ' * |s|) = δ' * (|s| * η) := by ring
      rw [this]
      exact mul_le_mul h1' m2 (mul_nonneg b0 e0) (by norm_num)
    have m6 : η * η' ≤ 1e-30 * η' := mul_le_mul_of_nonneg_right e1 e0'
    have p1 : 0 ≤ A * η' := mul_nonneg (a0.trans hA) e0'
    have p2 : 0 ≤ B * η := mul_nonneg (b0.trans hB) e0
    have p3 : 0 ≤ δ' * (|r| * |s|) := mul_nonneg h0' (mul_nonneg a0 b0)
    norm_num at *
    linarith
  have hr : |r * s| ≤ 1e30 := by
    rw [abs_mul]; exact (mul_le_mul hA hB b0 (a0.trans hA)).trans hAB
  have hp : 0 ≤ (A + 1) * η' + B * η :=
    add_nonneg (mul_nonneg (by linarith) e0') (mul_nonneg (b0.trans hB) e0)
  refine Rel.of_round h hr (by norm_num at *; linarith) (by norm_num at *; linarith) hs (fun k => ?_) hD
    (by norm_num at *; linarith)
  have f := B64.mul_finite_of hx.1 hy.1 k
  exact ⟨f, (B64.mul_finite f).2.2⟩

/-- Sum of numbers of the same sign. -/
theorem Rel.add (hx : Rel x r δ η) (hy : Rel y s δ η') (hr : 0 ≤ r) (hs : 0 ≤ s) (hA : r + s ≤ 1e30)
    (h1 : δ ≤ 1e-12) (e0 : 0 ≤ η) (e1 : η ≤ 1e-20) (e0' : 0 ≤ η') (e1' : η' ≤ 1e-20)
    (hD : δ + 1.13e-16 ≤ D) (hH : 1.01 * (η + η') + 1e-70 ≤ H) : Rel (x + y) (r + s) D H := by
  have h : |((x.toQ + y.toQ : ℚ) : ℝ) - (r + s)| ≤ δ * |r + s| + (η + η') := by
    push_cast
    rw [add_sub_add_comm, abs_of_nonneg (add_nonneg hr hs)]
    refine (abs_add_le _ _).trans ((add_le_add hx.2 hy.2).trans ?_)
    rw [abs_of_nonneg hr, abs_of_nonneg hs]
    linarith
  refine Rel.of_round h (by rw [abs_of_nonneg (add_nonneg hr hs)]; exact hA) (by norm_num at *; linarith) (by linarith)
    (by norm_num at *; linarith) (fun k => ?_) hD (by norm_num at *; linarith)
  have f := B64.add_finite_of hx.1 hy.1 k
  exact ⟨f, (B64.add_finite f).2.2⟩

/-- Difference of positive numbers, the second at most `c` times the first. -/
theorem Rel.sub {c : ℝ} (hx : Rel x r δ 0) (hy : Rel y s δ' η') (hr : 0 ≤ r) (hs : 0 ≤ s) (hc : s ≤ c * r) (c1 : c ≤ 1 / 2)
    (hA : r ≤ 1e30) (h0 : 0 ≤ δ) (h1 : δ ≤ 1e-12) (h0' : 0 ≤ δ') (h1' : δ' ≤ 1e-12) (e0' : 0 ≤ η') (e1' : η' ≤ 1e-20)
    (hD : (δ + c * δ') / (1 - c) + 1.13e-16 ≤ D) (hH : 1.01 * η' + 1e-70 ≤ H) : Rel (x - y) (r - s) D H := by
  have hrs : 0 ≤ r - s := by nlinarith
  have hrs2 : (1 - c) * r ≤ r - s := by linarith
  have h : |((x.toQ - y.toQ : ℚ) : ℝ) - (r - s)| ≤ (δ + c * δ') / (1 - c) * |r - s| + η' := by
    push_cast
    rw [sub_sub_sub_comm, abs_of_nonneg hrs]
    refine (abs_sub _ _).trans ((add_le_add hx.2 hy.2).trans ?_)
    rw [abs_of_nonneg hr, abs_of_nonneg hs]
    have c0 : 0 < 1 - c := by linarith
    have hcr : 0 ≤ c * r := hs.trans hc
    have k1 : δ' * s ≤ δ' * (c * r) := mul_le_mul_of_nonneg_left hc h0'
    have k2 : (δ + c * δ') * r ≤ (δ + c * δ') / (1 - c) * (r - s) := by
      rw [div_mul_eq_mul_div, le_div_iff₀ c0]
      have h5 : 0 ≤ δ * r + c * δ' * r := by
        have := mul_nonneg h0 hr
        have := mul_nonneg h0' hcr
        linarith
      rcases hr.eq_or_lt with rfl | hr
      · have : s = 0 := le_antisymm (by linarith) hs
        rw [this]; simp
      · have : 0 ≤ δ + c * δ' := by
          by_contra hcon
          have := mul_neg_of_neg_of_pos (not_le.1 hcon) hr
          linarith
        nlinarith
    linarith
  have hd : (δ + c * δ') / (1 - c) ≤ 1e-10 := by
    rw [div_le_iff₀ (by linarith)]
    have : c * δ' ≤ 1 / 2 * δ' := mul_le_mul_of_nonneg_right c1 h0'
    norm_num at *
    linarith
  refine Rel.of_round h (by rw [abs_of_nonneg hrs]; linarith) hd e0'
    (by norm_num at *; linarith) (fun k => ?_) hD (by norm_num at *; linarith)
  have f := B64.sub_finite_of hx.1 hy.1 k
  exact ⟨f, (B64.sub_finite f).2.2⟩

/-- Quotient by a number away from 0. -/
theorem Rel.div (hx : Rel x r δ η) (hy : Rel y s δ' 0) (hs : C ≤ |s|) (hC : 0 < C) (hA : |r / s| ≤ 1e30) (h0 : 0 ≤ δ)
    (h1 : δ ≤ 1e-12) (h0' : 0 ≤ δ') (h1' : δ' ≤ 1e-12) (e0 : 0 ≤ η) (e1 : 1.01 * (η / C) ≤ 1e-20)
    (hD : 1.001 * (δ + δ') + 1.13e-16 ≤ D) (hH : 1.02 * (η / C) + 1e-70 ≤ H) : Rel (x / y) (r / s) D H := by
  have s0 : 0 < |s| := hC.trans_le hs
  have sne : s ≠ 0 := abs_pos.1 s0
  have hyb : 0.9999 * |s| ≤ |(y.toQ : ℝ)| := by
    have k := abs_sub_abs_le_abs_sub s (y.toQ : ℝ)
    rw [abs_sub_comm] at k
    have := hy.2
    have : δ' * |s| ≤ 1e-12 * |s| := mul_le_mul_of_nonneg_right h1' s0.le
    norm_num at *
    linarith
  have y0 : 0 < |(y.toQ : ℝ)| := lt_of_lt_of_le (by positivity) hyb
  have yne : (y.toQ : ℝ) ≠ 0 := abs_pos.1 y0
  have h : |((x.toQ / y.toQ : ℚ) : ℝ) - r / s| ≤ 1.0009 * (δ + δ') * |r / s| + 1.01 * (η / C) := by
    push_cast
    have e : (x.toQ : ℝ) / y.toQ - r / s = ((x.toQ - r) - r / s * (y.toQ - s)) / y.toQ := by field_simp; ring
    rw [e, abs_div, div_le_iff₀ y0]
    refine (abs_sub _ _).trans ?_
    rw [abs_mul]
    have hrs : |r| = |r / s| * |s| := by rw [← abs_mul, div_mul_cancel₀ _ sne]
    have k1 := hx.2
    have k2 := mul_le_mul_of_nonneg_left hy.2 (abs_nonneg (r / s))
    rw [hrs] at k1
    generalize |r / s| = t at *
    have t0 : 0 ≤ t := by
      by_contra hcon
      have := mul_neg_of_neg_of_pos (not_le.1 hcon) s0
      have := abs_nonneg r
      linarith
    have m1 : 0 ≤ (δ + δ') * t := mul_nonneg (by linarith) t0
    have m2 : (δ + δ') * t * (0.9999 * |s|) ≤ (δ + δ') * t * |(y.toQ : ℝ)| := mul_le_mul_of_nonneg_left hyb m1
    have m3 : η / C * (0.9999 * |s|) ≤ η / C * |(y.toQ : ℝ)| := mul_le_mul_of_nonneg_left hyb (by positivity)
    have m4 : η ≤ η / C * |s| := by
      rw [div_mul_eq_mul_div, le_div_iff₀ hC]
      exact mul_le_mul_of_nonneg_left hs e0
    have m5 : 0 ≤ (δ + δ') * t * |s| := mul_nonneg m1 s0.le
    generalize η / C = g at *
    norm_num at *
    linarith
  have hp : 0 ≤ η / C := by positivity
  generalize η / C = g at *
  refine Rel.of_round h hA (by norm_num at *; linarith) (by norm_num at *; linarith) (by norm_num at *; linarith) (fun k => ?_)
    (by norm_num at *; linarith) (by norm_num at *; linarith)
  have y0' : y.toQ ≠ 0 := by exact_mod_cast yne
  have f := B64.div_finite_of hx.1 hy.1 y0' k
  exact ⟨f.1, f.2⟩

theorem tiny_le : (2⁻¹ : ℝ) ^ 1074 ≤ 1e-71 :=
  (pow_le_pow_of_le_one (by norm_num) (by norm_num) (show 250 ≤ 1074 by norm_num)).trans (by norm_num)

theorem Rel.pos_of {c : ℝ} (h : Rel x r δ 0) (hr : 0 < r) (hδ : δ ≤ 1e-10) (hc : c ≤ 0.9999) : c * r ≤ x.toQ := by
  have h1 := (abs_le.1 h.2).1
  rw [abs_of_pos hr] at h1
  have h2 := mul_le_mul_of_nonneg_right hδ hr.le
  have h3 := mul_le_mul_of_nonneg_right hc hr.le
  norm_num at *
  linarith

/-- Square root away from 0. -/
theorem Rel.sqrt (hL : Accurate L) (h : Rel x r δ 0) (hr : 0 < r) (h0 : 0 ≤ δ) (h1 : δ ≤ 1e-12)
    (hD : 0.501 * δ + 2.23e-16 ≤ D) (hH : 1e-70 ≤ H) : Rel (Flt.sqrt x) (Real.sqrt r) D H := by
  have hx0 : (0 : ℝ) ≤ x.toQ := by
    have := h.pos_of hr (by norm_num at *; linarith) (c := 0) (by norm_num)
    linarith
  obtain ⟨f, k⟩ := hL.sqrt x h.1 (by exact_mod_cast hx0)
  refine ⟨f, ?_⟩
  set t := Real.sqrt x.toQ with ht
  set u := Real.sqrt r with hu
  have t0 : 0 ≤ t := Real.sqrt_nonneg _
  have u0 : 0 < u := Real.sqrt_pos.2 hr
  have t2 : t * t = x.toQ := Real.mul_self_sqrt hx0
  have u2 : u * u = r := Real.mul_self_sqrt hr.le
  have hd := h.2
  rw [abs_of_pos hr, add_zero] at hd
  have htu : 0.999 * u ≤ t := by
    refine Real.le_sqrt_of_sq_le ?_
    have := h.pos_of hr (by norm_num at *; linarith) (c := 0.9999) (by norm_num)
    rw [← u2] at this
    nlinarith
  have h2 : |t - u| * (1.999 * u) ≤ δ * u * u := by
    have e : (t - u) * (t + u) = x.toQ - r := by rw [← t2, ← u2]; ring
    rw [← e, abs_mul, abs_of_pos (show 0 < t + u by linarith)] at hd
    have := mul_le_mul_of_nonneg_left (show 1.999 * u ≤ t + u by linarith) (abs_nonneg (t - u))
    calc _ ≤ _ := this
      _ ≤ _ := hd
      _ = _ := by rw [← u2]; ring
  have h3 : |t - u| ≤ 0.5005 * δ * u := by
    have h4 : |t - u| * 1.999 ≤ δ * u := by
      have : |t - u| * 1.999 * u ≤ δ * u * u := by linarith
      exact le_of_mul_le_mul_right this u0
    have := mul_nonneg h0 u0.le
    linarith
  have h5 := abs_sub_le ((Flt.sqrt x : F64 L).toQ : ℝ) t u
  have h6 : t ≤ u + 0.5005 * δ * u := by linarith [(abs_le.1 h3).2]
  have h7 := mul_le_mul_of_nonneg_left h6 (show (0 : ℝ) ≤ 2⁻¹ ^ 52 by positivity)
  have h8 : (2⁻¹ : ℝ) ^ 52 ≤ 2.221e-16 := by norm_num
  have h9 := mul_le_mul_of_nonneg_right h8 u0.le
  have h10 := mul_le_mul_of_nonneg_right hD u0.le
  have h11 : (2⁻¹ : ℝ) ^ 52 * (0.5005 * δ * u) ≤ 1e-3 * u * δ := by
    have : (2⁻¹ : ℝ) ^ 52 * (0.5005 * δ * u) = (2⁻¹ : ℝ) ^ 52 * 0.5005 * (u * δ) := by ring
    rw [this, mul_assoc 1e-3 u δ]
    exact mul_le_mul_of_nonneg_right (by norm_num) (by positivity)
  have h12 : 1e-3 * u * δ ≤ 1e-15 * u := by
    have := mul_le_mul_of_nonneg_left h1 (show 0 ≤ 1e-3 * u by positivity)
    norm_num at *
    linarith
  have h13 : (2⁻¹ : ℝ) ^ 52 * (0.5005 * δ * u) ≤ 1e-20 * u := by
    have : (2⁻¹ : ℝ) ^ 52 * (0.5005 * δ * u) = (2⁻¹ : ℝ) ^ 52 * 0.5005 * u * δ := by ring
    rw [this]
    have := mul_le_mul_of_nonneg_left h1 (show 0 ≤ (2⁻¹ : ℝ) ^ 52 * 0.5005 * u by positivity)
    refine this.trans ?_
    have e : (2⁻¹ : ℝ) ^ 52 * 0.5005 * u * 1e-12 = (2⁻¹ : ℝ) ^ 52 * 0.5005 * 1e-12 * u := by ring
    rw [e]
    exact mul_le_mul_of_nonneg_right (by norm_num) u0.le
  rw [abs_of_pos u0]
  have h14 := tiny_le
  have m1 := mul_nonneg h0 u0.le
  generalize (2⁻¹ : ℝ) ^ 1074 = g at *
  have k' : |((Flt.sqrt x : F64 L).toQ : ℝ) - t| ≤ 2.221e-16 * u + 1e-20 * u + g := by
    refine k.trans ?_
    linarith
  clear h7 h11 h12 h13 k h8 h9
  norm_num at *
  linarith

/-- Square root near 0. -/
theorem Rel.sqrt0 {G : ℝ} (hL : Accurate L) (h : Rel x r δ η) (hx : 0 ≤ x.toQ) (hr : 0 ≤ r) (h0 : 0 ≤ δ) (h1 : δ ≤ 1e-3)
    (hG : 0 < G) (hη0 : 0 ≤ η) (hη : η ≤ G ^ 2)
    (hD : 1.001 * δ + 2.23e-16 ≤ D) (hH : 1.02 * G + 1e-70 ≤ H) : Rel (Flt.sqrt x) (Real.sqrt r) D H := by
  have hx0 : (0 : ℝ) ≤ x.toQ := by exact_mod_cast hx
  obtain ⟨f, k⟩ := hL.sqrt x h.1 hx
  refine ⟨f, ?_⟩
  set t := Real.sqrt x.toQ with ht
  set u := Real.sqrt r with hu
  have t0 : 0 ≤ t := Real.sqrt_nonneg _
  have u0 : 0 ≤ u := Real.sqrt_nonneg _
  have t2 : t * t = x.toQ := Real.mul_self_sqrt hx0
  have u2 : u * u = r := Real.mul_self_sqrt hr
  have hd := h.2
  rw [abs_of_nonneg hr] at hd
  have e : (t - u) * (t + u) = x.toQ - r := by rw [← t2, ← u2]; ring
  rw [← e, abs_mul, abs_of_nonneg (show 0 ≤ t + u by linarith), ← u2] at hd
  have h3 : |t - u| ≤ δ * u + 1.01 * G := by
    have a0 := abs_nonneg (t - u)
    rcases le_total G u with hc | hc
    · have up : 0 < u := hG.trans_le hc
      have h4 : |t - u| * u ≤ (δ * u + G) * u := by
        have k1 : |t - u| * u ≤ |t - u| * (t + u) := mul_le_mul_of_nonneg_left (by linarith) a0
        have k2 : G ^ 2 ≤ G * u := by rw [pow_two]; exact mul_le_mul_of_nonneg_left hc hG.le
        linarith
      have := le_of_mul_le_mul_right h4 up
      linarith
    · have h4 : |t - u| * |t - u| ≤ (1.005 * G) * (1.005 * G) := by
        have k1 : |t - u| ≤ t + u := abs_le.2 ⟨by linarith, by linarith⟩
        have k2 := mul_le_mul_of_nonneg_left k1 a0
        have k3 : δ * (u * u) ≤ 1e-3 * (G * G) := mul_le_mul h1 (mul_le_mul hc hc u0 hG.le) (by positivity) (by norm_num)
        have := mul_pos hG hG
        rw [pow_two] at hη
        norm_num at *
        linarith
      have h5 : |t - u| ≤ 1.005 * G := abs_le_of_sq_le_sq' (by rw [pow_two, pow_two]; exact h4) (by positivity) |>.2
      have := mul_nonneg h0 u0
      linarith
  have h5 := abs_sub_le ((Flt.sqrt x : F64 L).toQ : ℝ) t u
  have h6 : t ≤ u + (δ * u + 1.01 * G) := by linarith [(abs_le.1 h3).2]
  have h7 : (2⁻¹ : ℝ) ^ 52 * t ≤ 2.221e-16 * (u + (δ * u + 1.01 * G)) := mul_le_mul (by norm_num) h6 t0 (by norm_num)
  have h10 := mul_le_mul_of_nonneg_right hD u0
  rw [abs_of_nonneg u0]
  have h14 := tiny_le
  have m1 := mul_nonneg h0 u0
  generalize (2⁻¹ : ℝ) ^ 1074 = g at *
  norm_num at *
  linarith

theorem sqrt_add_le {a b c d : ℝ} (ha : 0 ≤ a) (hb : 0 ≤ b) (hd : 0 ≤ d) :
    Real.sqrt ((a + b) ^ 2 + (c + d) ^ 2) ≤ Real.sqrt (a ^ 2 + c ^ 2) + (b + d) := by
  have h1 : a ≤ Real.sqrt (a ^ 2 + c ^ 2) := Real.le_sqrt_of_sq_le (by nlinarith)
  have h2 : c ≤ Real.sqrt (a ^ 2 + c ^ 2) := Real.le_sqrt_of_sq_le (by nlinarith)
  have h3 : Real.sqrt (a ^ 2 + c ^ 2) ^ 2 = a ^ 2 + c ^ 2 := Real.sq_sqrt (by positivity)
  generalize Real.sqrt (a ^ 2 + c ^ 2) = m at *
  refine Real.sqrt_le_iff.2 ⟨by linarith, ?_⟩
  nlinarith [mul_le_mul_of_nonneg_left h1 hb, mul_le_mul_of_nonneg_left h2 hd, mul_nonneg hb hd, mul_nonneg hb (ha.trans h1),
    mul_nonneg hd (ha.trans h1)]

theorem hypot_rel {x y r s δ η η' : ℝ} (hx : |x - r| ≤ δ * |r| + η) (hy : |y - s| ≤ δ * |s| + η') (h0 : 0 ≤ δ) (h1 : δ ≤ 1)
    (e : 0 ≤ η) (e' : 0 ≤ η') :
    |Real.sqrt (x ^ 2 + y ^ 2) - Real.sqrt (r ^ 2 + s ^ 2)| ≤ δ * Real.sqrt (r ^ 2 + s ^ 2) + (η + η') := by
  have key : ∀ m : ℝ, 0 ≤ m → Real.sqrt ((m * |r|) ^ 2 + (m * |s|) ^ 2) = m * Real.sqrt (r ^ 2 + s ^ 2) := fun m hm => by
    rw [mul_pow, mul_pow, sq_abs, sq_abs, ← mul_add, Real.sqrt_mul (by positivity), Real.sqrt_sq hm]
  have m1 : ∀ {a b c d : ℝ}, |a| ≤ c → |b| ≤ d → Real.sqrt (a ^ 2 + b ^ 2) ≤ Real.sqrt (c ^ 2 + d ^ 2) := fun h1 h2 =>
    Real.sqrt_le_sqrt (add_le_add (sq_le_sq.2 (h1.trans (le_abs_self _))) (sq_le_sq.2 (h2.trans (le_abs_self _))))
  have t1 : ∀ a b : ℝ, |a| ≤ |b| + |a - b| := fun a b => by
    have := abs_sub_abs_le_abs_sub a b; linarith
  rw [abs_le]
  constructor
  · have b1 : abs ((1 - δ) * |r|) ≤ |x| + η := by
      rw [abs_of_nonneg (mul_nonneg (by linarith) (abs_nonneg r))]
      have := t1 r x; rw [abs_sub_comm] at this; linarith
    have b2 : abs ((1 - δ) * |s|) ≤ |y| + η' := by
      rw [abs_of_nonneg (mul_nonneg (by linarith) (abs_nonneg s))]
      have := t1 s y; rw [abs_sub_comm] at this; linarith
    have := (m1 b1 b2).trans (sqrt_add_le (abs_nonneg x) e e')
    rw [key _ (by linarith), sq_abs, sq_abs] at this
    linarith
  · have b1 : |x| ≤ (1 + δ) * |r| + η := by have := t1 x r; linarith
    have b2 : |y| ≤ (1 + δ) * |s| + η' := by have := t1 y s; linarith
    have := (m1 b1 b2).trans (sqrt_add_le (mul_nonneg (by linarith) (abs_nonneg r)) e e')
    rw [key _ (by linarith)] at this
    linarith

theorem Rel.abs_le (h : Rel x r δ η) (hA : |r| ≤ A) (h1 : δ ≤ 1) : |(x.toQ : ℝ)| ≤ 2 * A + η := by
  have k := abs_sub_abs_le_abs_sub (x.toQ : ℝ) r
  have := h.2
  have : δ * |r| ≤ 1 * A := mul_le_mul h1 hA (abs_nonneg _) (by norm_num)
  linarith

theorem Rel.hypot (hL : AccurateInverse L) (hx : Rel x r δ η) (hy : Rel y s δ η') (hA : |r| ≤ 1e20) (hB : |s| ≤ 1e20)
    (h0 : 0 ≤ δ) (h1 : δ ≤ 1e-5) (e : 0 ≤ η) (e1 : η ≤ 1) (e' : 0 ≤ η') (e1' : η' ≤ 1)
    (hD : δ + 2.23e-16 ≤ D) (hH : 1.01 * (η + η') + 1e-70 ≤ H) : Rel (Flt.hypot x y) (Real.sqrt (r ^ 2 + s ^ 2)) D H := by
  have bx : |x.toQ| ≤ 1e30 := by
    have := hx.abs_le hA (by norm_num at *; linarith)
    have h : ((|x.toQ| : ℚ) : ℝ) ≤ ((1e30 : ℚ) : ℝ) := by rw [Rat.cast_abs]; norm_num at *; linarith
    exact Rat.cast_le.1 h
  have bY : |y.toQ| ≤ 1e30 := by
    have := hy.abs_le hB (by norm_num at *; linarith)
    have h : ((|y.toQ| : ℚ) : ℝ) ≤ ((1e30 : ℚ) : ℝ) := by rw [Rat.cast_abs]; norm_num at *; linarith
    exact Rat.cast_le.1 h
  obtain ⟨f, k⟩ := hL.hypot x y hx.1 hy.1 bx bY
  refine ⟨f, ?_⟩
  have h3 := hypot_rel hx.2 hy.2 h0 (by norm_num at *; linarith) e e'
  have t0 := Real.sqrt_nonneg ((x.toQ : ℝ) ^ 2 + (y.toQ : ℝ) ^ 2)
  have u0 := Real.sqrt_nonneg (r ^ 2 + s ^ 2)
  rw [abs_of_nonneg u0]
  generalize Real.sqrt ((x.toQ : ℝ) ^ 2 + (y.toQ : ℝ) ^ 2) = t at *
  generalize Real.sqrt (r ^ 2 + s ^ 2) = u at *
  have h5 := abs_sub_le ((Flt.hypot x y : F64 L).toQ : ℝ) t u
  have h6 : t ≤ u + (δ * u + (η + η')) := by linarith [(_root_.abs_le.1 h3).2]
  have h7 : (2⁻¹ : ℝ) ^ 52 * t ≤ 2.221e-16 * (u + (δ * u + (η + η'))) := mul_le_mul (by norm_num) h6 t0 (by norm_num)
  have h8 := mul_le_mul_of_nonneg_right h1 u0
  have h10 := mul_le_mul_of_nonneg_right hD u0
  have h14 := tiny_le
  generalize (2⁻¹ : ℝ) ^ 1074 = g at *
  norm_num at *
  linarith

theorem Rel.cbrt {t : ℝ} (hL : AccurateInverse L) (h : Rel x r δ 0) (hr : 1 ≤ r) (h0 : 0 ≤ δ) (h1 : δ ≤ 1e-12) (ht : t ^ 3 = r)
    (hD : 0.37 * δ + 2.23e-16 ≤ D) (hH : 1e-70 ≤ H) : Rel (Flt.cbrt x) t D H := by
  have hx0 : 0.99 * r ≤ x.toQ := h.pos_of (by linarith) (by norm_num at *; linarith) (by norm_num)
  obtain ⟨c, c3, f, k⟩ := hL.cbrt x h.1 (by exact_mod_cast (show (0 : ℝ) ≤ x.toQ by linarith))
  refine ⟨f, ?_⟩
  have hd := h.2
  rw [abs_of_pos (show 0 < r by linarith), add_zero, ← c3, ← ht] at hd
  rw [← c3, ← ht] at hx0
  have t1 : 1 ≤ t := by
    by_contra hc
    push Not at hc
    rcases le_total 0 t with h | h
    · have := pow_lt_one₀ h hc (show 3 ≠ 0 by norm_num); linarith
    · have : t ^ 3 ≤ 0 := by nlinarith [sq_nonneg t]
      linarith
  have tc : 0.99 * t ≤ c := by
    by_contra hc
    push Not at hc
    have : c ^ 3 < (0.99 * t) ^ 3 := by
      rcases le_total 0 c with h | h
      · exact pow_lt_pow_left₀ hc h (by norm_num)
      · have h3 : c ^ 3 ≤ 0 := by nlinarith [sq_nonneg c]
        have : 0 < (0.99 * t) ^ 3 := by positivity
        linarith
    have e : (0.99 * t) ^ 3 = 0.970299 * t ^ 3 := by ring
    rw [e] at this
    have : 0 < t ^ 3 := by positivity
    linarith
  have e : c ^ 3 - t ^ 3 = (c - t) * (c ^ 2 + c * t + t ^ 2) := by ring
  have q : 2.95 * t ^ 2 ≤ c ^ 2 + c * t + t ^ 2 := by nlinarith
  rw [e, abs_mul, abs_of_nonneg (le_trans (by positivity) q)] at hd
  have h2 := mul_le_mul_of_nonneg_left q (abs_nonneg (c - t))
  have h3 : |c - t| * 2.95 ≤ δ * t := by
    have : |c - t| * 2.95 * t ^ 2 ≤ δ * t * t ^ 2 := by
      calc _ = |c - t| * (2.95 * t ^ 2) := by ring
        _ ≤ _ := h2.trans hd
        _ = _ := by ring
    exact le_of_mul_le_mul_right this (by positivity)
  have h5 := abs_sub_le ((Flt.cbrt x : F64 L).toQ : ℝ) c t
  have h6 : c ≤ t + |c - t| := by linarith [le_abs_self (c - t)]
  have h8 := mul_le_mul_of_nonneg_right h1 (show 0 ≤ t by linarith)
  have h7 : (2⁻¹ : ℝ) ^ 52 * |c| ≤ 2.221e-16 * (t + |c - t|) := by
    rw [abs_of_nonneg (show 0 ≤ c by linarith)]
    exact mul_le_mul (by norm_num) h6 (by linarith) (by norm_num)
  have h10 := mul_le_mul_of_nonneg_right hD (show 0 ≤ t by linarith)
  rw [abs_of_pos (show 0 < t by linarith)]
  have h14 := tiny_le
  generalize (2⁻¹ : ℝ) ^ 1074 = g at *
  have m0 := mul_nonneg h0 (show 0 ≤ t by linarith)
  have m1 := abs_nonneg (c - t)
  generalize |c - t| = w at *
  norm_num at *
  linarith

theorem Rel.cube (hL : AccurateInverse L) (h : Rel x r δ 0) (hr : 2e-3 ≤ r) (hr2 : r ≤ 500) (h0 : 0 ≤ δ) (h1 : δ ≤ 1e-12)
    (hD : 3.001 * δ + 4.45e-16 ≤ D) (hH : 0 ≤ H) : Rel (Flt.powi x 3) (r ^ 3) D H := by
  have hx0 : 0.99 * r ≤ x.toQ := h.pos_of (by linarith) (by norm_num at *; linarith) (by norm_num)
  have r0 : 0 < r := by linarith
  have hd := h.2
  rw [abs_of_pos r0, add_zero] at hd
  have hdr := mul_le_mul_of_nonneg_right h1 r0.le
  have hx1 : (x.toQ : ℝ) ≤ 1.00001 * r := by have := (_root_.abs_le.1 hd).2; norm_num at *; linarith
  obtain ⟨f, k⟩ := hL.cube x h.1
    (by have : ((1e-3 : ℚ) : ℝ) ≤ x.toQ := by norm_num at *; linarith
        exact Rat.cast_le.1 this)
    (by have : (x.toQ : ℝ) ≤ ((1e3 : ℚ) : ℝ) := by norm_num at *; linarith
        exact Rat.cast_le.1 this)
  refine ⟨f, ?_⟩
  generalize (x.toQ : ℝ) = c at *
  have c0 : 0 ≤ c := by linarith
  have e : c ^ 3 - r ^ 3 = (c - r) * (c ^ 2 + c * r + r ^ 2) := by ring
  have q : c ^ 2 + c * r + r ^ 2 ≤ 3.0005 * r ^ 2 := by nlinarith
  have q0 : 0 ≤ c ^ 2 + c * r + r ^ 2 := by positivity
  have h3 : |c ^ 3 - r ^ 3| ≤ 3.0005 * δ * r ^ 3 := by
    rw [e, abs_mul, abs_of_nonneg q0]
    refine (mul_le_mul hd q q0 (by positivity)).trans (le_of_eq ?_)
    ring
  have r3 : 0 < r ^ 3 := by positivity
  have h5 := abs_sub_le ((Flt.powi x 3 : F64 L).toQ : ℝ) (c ^ 3) (r ^ 3)
  have h6 : c ^ 3 ≤ r ^ 3 + 3.0005 * δ * r ^ 3 := by linarith [(_root_.abs_le.1 h3).2]
  have h7 : (2⁻¹ : ℝ) ^ 51 * c ^ 3 ≤ 4.441e-16 * (r ^ 3 + 3.0005 * δ * r ^ 3) :=
    mul_le_mul (by norm_num) h6 (by positivity) (by norm_num)
  have h8 := mul_le_mul_of_nonneg_right h1 r3.le
  have h10 := mul_le_mul_of_nonneg_right hD r3.le
  rw [abs_of_pos r3]
  have m0 := mul_nonneg h0 r3.le
  generalize r ^ 3 = w at *
  generalize c ^ 3 = w at *
  norm_num at *
  linarith

/-- Vectors of a half plane whose cross product is small have close directions. -/
theorem arg_cross {X Y x y σ : ℝ} (hX : 0 ≤ X) (hx : 0 ≤ x) (hdot : 0 < x * X + y * Y)
    (hc : (y * X - x * Y) ^ 2 ≤ σ ^ 2 * ((x ^ 2 + y ^ 2) * (X ^ 2 + Y ^ 2))) (h0 : 0 ≤ σ) (h1 : σ ≤ 1e-6) :
    |Complex.arg ⟨x, y⟩ - Complex.arg ⟨X, Y⟩| ≤ 1.001 * σ := by
  set z : ℂ := ⟨x, y⟩ with hz
  set Z : ℂ := ⟨X, Y⟩ with hZ
  have hZn : ‖Z‖ ^ 2 = X ^ 2 + Y ^ 2 := by
    rw [Complex.sq_norm, Complex.normSq_apply]; show X * X + Y * Y = _; ring
  have hzn : ‖z‖ ^ 2 = x ^ 2 + y ^ 2 := by
    rw [Complex.sq_norm, Complex.normSq_apply]; show x * x + y * y = _; ring
  have hZ1 : Z ≠ 0 := fun h => by
    have e1 : X = 0 := congrArg Complex.re h
    have e2 : Y = 0 := congrArg Complex.im h
    rw [e1, e2] at hdot; simp at hdot
  have hz1 : z ≠ 0 := fun h => by
    have e1 : x = 0 := congrArg Complex.re h
    have e2 : y = 0 := congrArg Complex.im h
    rw [e1, e2] at hdot; simp at hdot
  have hZ0 : 0 < ‖Z‖ := norm_pos_iff.2 hZ1
  have hz0 : 0 < ‖z‖ := norm_pos_iff.2 hz1
  have c1 : Real.cos z.arg = x / ‖z‖ := Complex.cos_arg hz1
  have c2 : Real.cos Z.arg = X / ‖Z‖ := Complex.cos_arg hZ1
  have s1 : Real.sin z.arg = y / ‖z‖ := Complex.sin_arg z
  have s2 : Real.sin Z.arg = Y / ‖Z‖ := Complex.sin_arg Z
  have b1 := abs_le.1 (Complex.abs_arg_le_pi_div_two_iff.2 (show 0 ≤ z.re from hx))
  have b2 := abs_le.1 (Complex.abs_arg_le_pi_div_two_iff.2 (show 0 ≤ Z.re from hX))
  set α := z.arg - Z.arg with hα
  have hcos : Real.cos α = (x * X + y * Y) / (‖z‖ * ‖Z‖) := by
    rw [hα, Real.cos_sub, c1, c2, s1, s2]; field_simp
  have hsin : Real.sin α = (y * X - x * Y) / (‖z‖ * ‖Z‖) := by
    rw [hα, Real.sin_sub, c1, c2, s1, s2]; field_simp
  have hcp : 0 < Real.cos α := by rw [hcos]; positivity
  have hsb : |Real.sin α| ≤ σ := by
    rw [hsin, abs_div, abs_of_pos (mul_pos hz0 hZ0), div_le_iff₀ (mul_pos hz0 hZ0)]
    refine abs_le_of_sq_le_sq ?_ (by positivity)
    calc _ ≤ _ := hc
      _ = _ := by rw [← hzn, ← hZn]; ring
  have hα2 : |α| < Real.pi / 2 := by
    rw [abs_lt]
    have := Real.pi_pos
    constructor
    · by_contra hc
      push Not at hc
      have := Real.cos_nonpos_of_pi_div_two_le_of_le (x := -α) (by linarith) (by linarith)
      rw [Real.cos_neg] at this; linarith
    · by_contra hc
      push Not at hc
      have := Real.cos_nonpos_of_pi_div_two_le_of_le (x := α) (by linarith) (by linarith)
      linarith
  have hsa : Real.sin |α| = |Real.sin α| := by
    rcases le_total 0 α with h | h
    · rw [abs_of_nonneg h, abs_of_nonneg (Real.sin_nonneg_of_nonneg_of_le_pi h (by linarith [le_abs_self α, Real.pi_pos]))]
    · rw [abs_of_nonpos h, Real.sin_neg, abs_of_nonpos]
      exact Real.sin_nonpos_of_nonpos_of_neg_pi_le h (by linarith [neg_abs_le α, Real.pi_pos])
  rw [← hsa] at hsb
  have a0 := abs_nonneg α
  generalize |α| = β at *
  have j1 := Real.mul_le_sin a0 hα2.le
  have j2 : β ≤ 2 * σ := by
    have hp := Real.pi_le_four
    have : 1 / 2 * β ≤ 2 / Real.pi * β := by
      refine mul_le_mul_of_nonneg_right ?_ a0
      rw [le_div_iff₀ Real.pi_pos]; linarith
    linarith
  rcases a0.eq_or_lt with h | h
  · rw [← h]; linarith
  · have j3 := Real.sin_gt_sub_cube h
    have j4 : β ^ 3 ≤ 1e-8 * β := by
      have : β ^ 2 ≤ 1e-8 := (pow_le_pow_left₀ a0 (j2.trans (mul_le_mul_of_nonneg_left h1 (by norm_num))) 2).trans (by norm_num)
      calc β ^ 3 = β ^ 2 * β := by ring
        _ ≤ _ := mul_le_mul_of_nonneg_right this a0
    norm_num at *
    linarith

/-- Close vectors of a half plane have close directions. -/
theorem arg_near {X Y x y σ N : ℝ} (hX : 0 ≤ X) (hx : 0 ≤ x) (hN : 0 < N) (hn : N ^ 2 ≤ X ^ 2 + Y ^ 2)
    (hd : (x - X) ^ 2 + (y - Y) ^ 2 ≤ (σ * N) ^ 2) (h0 : 0 ≤ σ) (h1 : σ ≤ 1e-6) :
    |Complex.arg ⟨x, y⟩ - Complex.arg ⟨X, Y⟩| ≤ 1.001 * σ ∧ (0 < x ∨ y ≠ 0) := by
  have hsN : (σ * N) ^ 2 ≤ (1e-6 * N) ^ 2 := pow_le_pow_left₀ (by positivity) (mul_le_mul_of_nonneg_right h1 hN.le) 2
  have hN2 : 0 < N ^ 2 := by positivity
  have hdot : 0 < x * X + y * Y := by nlinarith [sq_nonneg x, sq_nonneg y]
  refine ⟨arg_cross hX hx hdot ?_ h0 h1, ?_⟩
  · have e1 : (y * X - x * Y) ^ 2 ≤ (x ^ 2 + y ^ 2) * ((x - X) ^ 2 + (y - Y) ^ 2) := by
      nlinarith [sq_nonneg (x * (x - X) + y * (y - Y))]
    have e2 : (x ^ 2 + y ^ 2) * ((x - X) ^ 2 + (y - Y) ^ 2) ≤ (x ^ 2 + y ^ 2) * (σ ^ 2 * (X ^ 2 + Y ^ 2)) := by
      refine mul_le_mul_of_nonneg_left (hd.trans ?_) (by positivity)
      rw [mul_pow]
      exact mul_le_mul_of_nonneg_left hn (by positivity)
    calc _ ≤ _ := e1.trans e2
      _ = _ := by ring
  · by_contra hc
    push Not at hc
    have hx2 : x = 0 := le_antisymm hc.1 hx
    rw [hx2, hc.2] at hdot; simp at hdot

theorem Near.atan2 {X Y ε δ σ N E : ℝ} (hL : AccurateInverse L) (hx : Near x X ε) (hy : Near y Y δ) (hX : 0 ≤ X)
    (hx0 : 0 ≤ x.toQ) (hN : 0 < N) (hn : N ^ 2 ≤ X ^ 2 + Y ^ 2) (hd : ε ^ 2 + δ ^ 2 ≤ (σ * N) ^ 2) (h0 : 0 ≤ σ) (h1 : σ ≤ 1e-6)
    (hE : 1.001 * σ + 3.6e-16 ≤ E) : Near (Flt.atan2 y x) (Complex.arg ⟨X, Y⟩) E := by
  have q1 : (x.toQ - X) ^ 2 ≤ ε ^ 2 := by rw [← sq_abs]; exact pow_le_pow_left₀ (abs_nonneg _) hx.2 2
  have q2 : (y.toQ - Y) ^ 2 ≤ δ ^ 2 := by rw [← sq_abs]; exact pow_le_pow_left₀ (abs_nonneg _) hy.2 2
  have hx0' : (0 : ℝ) ≤ x.toQ := by exact_mod_cast hx0
  obtain ⟨k1, k2⟩ := arg_near (x := x.toQ) (y := y.toQ) hX hx0' hN hn (by linarith) h0 h1
  obtain ⟨f, k⟩ := hL.atan2 x y hx.1 hy.1 hx0 (by exact_mod_cast k2)
  refine ⟨f, ?_⟩
  have b := Complex.abs_arg_le_pi_div_two_iff.2 (show 0 ≤ (⟨x.toQ, y.toQ⟩ : ℂ).re from hx0')
  have hp := Real.pi_lt_d20
  have h5 := abs_sub_le ((Flt.atan2 y x : F64 L).toQ : ℝ) (Complex.arg ⟨x.toQ, y.toQ⟩) (Complex.arg ⟨X, Y⟩)
  have h7 : (2⁻¹ : ℝ) ^ 52 * |Complex.arg ⟨x.toQ, y.toQ⟩| ≤ 2.221e-16 * 1.58 :=
    mul_le_mul (by norm_num) (b.trans (by norm_num at *; linarith)) (abs_nonneg _) (by norm_num)
  have h14 := tiny_le
  generalize (2⁻¹ : ℝ) ^ 1074 = g at *
  norm_num at *
  linarith

/-- `atan2 y x` with an exact `y`: only half of the relative error of `x` counts. -/
theorem Near.atan2' {X δ E : ℝ} (hL : AccurateInverse L) (hx : Rel x X δ 0) (hy : y.isFinite) (hX : 0 < X) (h0 : 0 ≤ δ) (h1 : δ ≤ 1e-12)
    (hE : 0.502 * δ + 3.6e-16 ≤ E) : Near (Flt.atan2 y x) (Complex.arg ⟨X, y.toQ⟩) E := by
  have hx0 : 0.9999 * X ≤ x.toQ := hx.pos_of hX (by norm_num at h1 ⊢; linarith) le_rfl
  have hx0' : (0 : ℝ) < x.toQ := by linarith
  have hxq : 0 < x.toQ := by exact_mod_cast hx0'
  have hd := hx.2
  rw [abs_of_pos hX, add_zero] at hd
  obtain ⟨f, k⟩ := hL.atan2 x y hx.1 hy hxq.le (Or.inl hxq)
  have k1 : |Complex.arg ⟨x.toQ, y.toQ⟩ - Complex.arg ⟨X, y.toQ⟩| ≤ 1.001 * (0.501 * δ) := by
    refine arg_cross hX.le hx0'.le ?_ ?_ (by positivity) (by norm_num at h1 ⊢; linarith)
    · have := mul_self_nonneg (y.toQ : ℝ)
      positivity
    · generalize (y.toQ : ℝ) = Y at *
      generalize (x.toQ : ℝ) = c at *
      have e : (Y * X - c * Y) ^ 2 = Y ^ 2 * (c - X) ^ 2 := by ring
      have q1 : (c - X) ^ 2 ≤ (δ * X) ^ 2 := by rw [← sq_abs]; exact pow_le_pow_left₀ (abs_nonneg _) hd 2
      have q2 : 0.9997 * X ^ 2 ≤ c ^ 2 := by
        have := pow_le_pow_left₀ (by positivity) hx0 2
        rw [mul_pow] at this
        have := sq_nonneg X
        norm_num at *
        linarith
      have q3 : 4 * (X ^ 2 * Y ^ 2) * 0.9997 ≤ (c ^ 2 + Y ^ 2) * (X ^ 2 + Y ^ 2) := by
        have b1 : 0.9997 * (X ^ 2 + Y ^ 2) ≤ c ^ 2 + Y ^ 2 := by linarith [sq_nonneg Y]
        have b2 := mul_le_mul_of_nonneg_right b1 (show 0 ≤ X ^ 2 + Y ^ 2 by positivity)
        nlinarith [sq_nonneg (X ^ 2 - Y ^ 2)]
      rw [e]
      calc _ ≤ Y ^ 2 * (δ * X) ^ 2 := mul_le_mul_of_nonneg_left q1 (sq_nonneg Y)
        _ = δ ^ 2 * (X ^ 2 * Y ^ 2) := by ring
        _ ≤ δ ^ 2 * (0.501 ^ 2 * (4 * (X ^ 2 * Y ^ 2) * 0.9997)) := by
          refine mul_le_mul_of_nonneg_left ?_ (sq_nonneg δ)
          have : 0 ≤ X ^ 2 * Y ^ 2 := by positivity
          norm_num
          linarith
        _ ≤ δ ^ 2 * (0.501 ^ 2 * ((c ^ 2 + Y ^ 2) * (X ^ 2 + Y ^ 2))) :=
          mul_le_mul_of_nonneg_left (mul_le_mul_of_nonneg_left q3 (by norm_num)) (sq_nonneg δ)
        _ = _ := by ring
  refine ⟨f, ?_⟩
  have b := Complex.abs_arg_le_pi_div_two_iff.2 (show 0 ≤ (⟨x.toQ, y.toQ⟩ : ℂ).re from hx0'.le)
  have hp := Real.pi_lt_d20
  have h5 := abs_sub_le ((Flt.atan2 y x : F64 L).toQ : ℝ) (Complex.arg ⟨x.toQ, y.toQ⟩) (Complex.arg ⟨X, y.toQ⟩)
  have h7 : (2⁻¹ : ℝ) ^ 52 * |Complex.arg ⟨x.toQ, y.toQ⟩| ≤ 2.221e-16 * 1.58 :=
    mul_le_mul (by norm_num) (b.trans (by norm_num at hp ⊢; linarith)) (abs_nonneg _) (by norm_num)
  have h14 := tiny_le
  generalize (2⁻¹ : ℝ) ^ 1074 = g at *
  norm_num at k1 k h7 h14 hE ⊢
  linarith

end Geo.Spec
