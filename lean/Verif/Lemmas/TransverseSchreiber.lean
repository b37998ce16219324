import Verif.Lemmas.TransverseSums

/-! The transverse Mercator projection in IEEE arithmetic: the projected point. -/

namespace Geo
open XR Spec
variable {L : Libm}

/-! ### Differences of longitudes -/

theorem normalized_near {x : F64 L} {r ε : ℝ} (h : Near x r ε) (hx : |x.toQ| ≤ 9) : ∃ n : ℤ,
    |((⟨x⟩ : Angle (F64 L)).normalized.rad).toQ| ≤ (Flt.pi : F64 L).toQ ∧
    Near (⟨x⟩ : Angle (F64 L)).normalized.rad (r - n * (2 * Real.pi)) (ε + 5e-16) := by
  obtain ⟨n, w1, w2⟩ := wrapped_near h hx
  have hp : (Flt.pi : F64 L).toQ = 884279719003555 / 2 ^ 48 := pi_fin.2
  obtain ⟨_, r1, _, r3⟩ := remainder_tau_f64 x h.1 (hx.trans (by rw [hp]; norm_num))
  have hf : B64.isFinite (B64.neg B64.pi) = true := by rw [B64.neg_finite]; exact pi_fin.1
  have hn : (B64.neg B64.pi).toQ = -B64.pi.toQ := B64.neg_toQ _
  have hw : (⟨x⟩ : Angle (F64 L)).wrapped.rad = remainder x tau := by
    show (if (remainder x tau <. -pi) = true then pi else remainder x tau) = _
    rw [if_neg]
    have e : (remainder x tau <. -pi) = _ := B64.lt_fin r1 hf
    rw [e]
    have h3 := (abs_le.1 r3).1
    simp only [decide_eq_true_eq, not_lt]
    exact hn.le.trans h3
  have e : (remainder x tau <=. -pi) = decide ((remainder x tau).toQ ≤ (B64.neg B64.pi).toQ) := B64.le_fin r1 hf
  rw [hw] at w1 w2
  show ∃ n : ℤ, |(if (remainder x tau <=. -pi) = true then pi else remainder x tau : F64 L).toQ| ≤ _ ∧
    Near (if (remainder x tau <=. -pi) = true then pi else remainder x tau : F64 L) _ _
  rw [e]
  by_cases hc : (remainder x tau).toQ ≤ (B64.neg B64.pi).toQ
  · simp only [hc, decide_true, if_true]
    have h4 : (remainder x tau).toQ = -(Flt.pi : F64 L).toQ := le_antisymm (hc.trans hn.le) (abs_le.1 r3).1
    refine ⟨n - 1, ?_, pi_fin.1, ?_⟩
    · show |(Flt.pi : F64 L).toQ| ≤ _
      rw [hp]; norm_num
    · show |((Flt.pi : F64 L).toQ : ℝ) - _| ≤ _
      have h5 := w2.2
      rw [h4] at h5
      have h6 := tau_near
      rw [hp] at h5 ⊢
      push_cast at h5 h6 ⊢
      rw [abs_le] at *
      norm_num at *
      constructor <;> linarith
  · simp only [hc, decide_false, Bool.false_eq_true, if_false]
    exact ⟨n, w1, w2.mono (by norm_num)⟩

theorem lon_diff_near {x y : F64 L} (hx : InLonRange x) (hy : InLonRange y) : ∃ n : ℤ,
    Near ((⟨⟨x⟩⟩ : Lon (F64 L)).sub ⟨⟨y⟩⟩).rad ((x.toQ : ℝ) - y.toQ - n * (2 * Real.pi)) 1.3e-15 ∧
    |((⟨⟨x⟩⟩ : Lon (F64 L)).sub ⟨⟨y⟩⟩).rad.toQ| ≤ (Flt.pi : F64 L).toQ := by
  have hp : (Flt.pi : F64 L).toQ = 884279719003555 / 2 ^ 48 := pi_fin.2
  obtain ⟨fx, bx⟩ := hx
  obtain ⟨fy, bY⟩ := hy
  rw [hp] at bx bY
  have b : |x.toQ - y.toQ| ≤ 6.4 := by
    refine (abs_sub _ _).trans ?_
    norm_num at *
    linarith
  have bR : |(x.toQ : ℝ) - y.toQ| ≤ 6.4 := by
    have := (Rat.cast_le (K := ℝ)).2 b
    push_cast at this
    exact this
  have hs : Near (x - y) ((x.toQ : ℝ) - y.toQ) 7.8e-16 :=
    Near.sub (Near.exact fx) (Near.exact fy) (R := 6.41) (by norm_num at *; linarith) (by norm_num) (by norm_num) (by norm_num)
  have b2 : |(x - y).toQ| ≤ 9 := hs.abs_le_rat (by push_cast; norm_num at *; linarith)
  obtain ⟨n, r1, r2⟩ := normalized_near hs b2
  exact ⟨n, r2.mono (by norm_num), r1⟩

theorem sin_diff_near (hL : AccurateProjection L) {x y : F64 L} {y' : ℝ} (hx : InLonRange x) (hy : InLonRange y)
    (ky : Near y y' 1.3e-15) :
    Near ((⟨⟨x⟩⟩ : Lon (F64 L)).sub ⟨⟨y⟩⟩).sin (Real.sin ((x.toQ : ℝ) - y')) 3e-15 := by
  obtain ⟨n, h1, h2⟩ := lon_diff_near hx hy
  have hp : (Flt.pi : F64 L).toQ = 884279719003555 / 2 ^ 48 := pi_fin.2
  have h3 : |(((⟨⟨x⟩⟩ : Lon (F64 L)).sub ⟨⟨y⟩⟩).rad.toQ : ℝ)| ≤ 4 := by
    have h2' : |((⟨⟨x⟩⟩ : Lon (F64 L)).sub ⟨⟨y⟩⟩).rad.toQ| ≤ 4 := h2.trans (by rw [hp]; norm_num)
    have := cast_abs_le h2'
    push_cast at this
    exact this
  have h4 : |(x.toQ : ℝ) - y.toQ - n * (2 * Real.pi)| ≤ 5 := by
    have h5 := h1.2
    generalize (x.toQ : ℝ) - y.toQ - n * (2 * Real.pi) = r at *
    rw [abs_le] at *
    norm_num at h5
    constructor <;> linarith [h3.1, h3.2, h5.1, h5.2]
  have := Near.sin' hL h1 (E := 1.6e-15) (by norm_num at *; linarith) (by norm_num)
  rw [Real.sin_sub_int_mul_two_pi] at this
  refine ⟨this.1, ?_⟩
  have k1 := this.2
  have k2 := (abs_sin_sub_le ((x.toQ : ℝ) - y.toQ) ((x.toQ : ℝ) - y')).trans_eq (show _ = |(y.toQ : ℝ) - y'| by
    rw [sub_sub_sub_cancel_left, abs_sub_comm])
  refine (abs_sub_le _ (Real.sin ((x.toQ : ℝ) - y.toQ)) _).trans ((add_le_add k1 (k2.trans ky.2)).trans (by norm_num))

/-! ### The two Gauss-Schreiber coordinates -/

theorem sin_near2 {x r ε : ℝ} (h : |x - r| ≤ ε) : |Real.sin x - Real.sin r| ≤ |Real.cos r| * ε + ε ^ 2 := by
  have e : Real.sin x - Real.sin r = Real.sin r * (Real.cos (x - r) - 1) + Real.cos r * Real.sin (x - r) := by
    have : Real.sin x = Real.sin (r + (x - r)) := by rw [add_sub_cancel]
    rw [this, Real.sin_add]; ring
  have h0 := (abs_nonneg _).trans h
  have h1 : |Real.cos (x - r) - 1| ≤ ε ^ 2 := by
    rw [abs_sub_comm, abs_of_nonneg (by linarith [Real.cos_le_one (x - r)])]
    have := Real.one_sub_sq_div_two_le_cos (x := x - r)
    have : (x - r) ^ 2 ≤ ε ^ 2 := by rw [← sq_abs]; exact pow_le_pow_left₀ (abs_nonneg _) h 2
    nlinarith [sq_nonneg (x - r)]
  have h2 : |Real.sin (x - r)| ≤ ε := Real.abs_sin_le_abs.trans h
  rw [e]
  refine (abs_add_le _ _).trans ?_
  rw [abs_mul, abs_mul]
  have := mul_le_mul (Real.abs_sin_le_one r) h1 (abs_nonneg _) zero_le_one
  have := mul_le_mul_of_nonneg_left h2 (abs_nonneg (Real.cos r))
  linarith

section
variable {β s : ℝ}

/-- The exact coordinates of the Gauss-Schreiber projection. -/
theorem gs_real (hc : 0.087 ≤ Real.cos β) (hs : |s| ≤ 0.48) :
    |Real.cos β * s| ≤ 0.48 ∧ |Real.artanh (Real.cos β * s)| ≤ 0.63 ∧ Real.cosh (Real.artanh (Real.cos β * s)) ≤ 1.14 ∧
      |Real.sinh (Real.artanh (Real.cos β * s))| ≤ 0.55 * Real.cos β ∧
      (Real.sin β * Real.cosh (Real.artanh (Real.cos β * s))) ^ 2 ≤ 1 - 0.7696 * Real.cos β ^ 2 := by
  have hc1 := Real.cos_le_one β
  have hc0 : 0 < Real.cos β := lt_of_lt_of_le (by norm_num) hc
  have hx : |Real.cos β * s| ≤ 0.48 * Real.cos β := by
    rw [abs_mul, abs_of_pos hc0, mul_comm]
    exact mul_le_mul_of_nonneg_right hs hc0.le
  have hx1 : |Real.cos β * s| ≤ 0.48 := hx.trans (by norm_num; linarith)
  have hs2 : s ^ 2 ≤ 0.2304 := by
    rw [← sq_abs]; calc |s| ^ 2 ≤ 0.48 ^ 2 := pow_le_pow_left₀ (abs_nonneg _) hs 2
      _ = _ := by norm_num
  obtain ⟨x1, x2⟩ := abs_le.1 hx1
  have i1 : -1 < Real.cos β * s := by norm_num at *; linarith
  have i2 : Real.cos β * s < 1 := by norm_num at *; linarith
  have hx2 : (Real.cos β * s) ^ 2 ≤ 0.2304 := by
    rw [← sq_abs]; calc |Real.cos β * s| ^ 2 ≤ 0.48 ^ 2 := pow_le_pow_left₀ (abs_nonneg _) hx1 2
      _ = _ := by norm_num
  have hq : 0 < 1 - (Real.cos β * s) ^ 2 := by norm_num at *; linarith
  have hr : 0.8772 ≤ Real.sqrt (1 - (Real.cos β * s) ^ 2) := Real.le_sqrt_of_sq_le (by norm_num at *; linarith)
  have hr0 : 0 < Real.sqrt (1 - (Real.cos β * s) ^ 2) := Real.sqrt_pos.2 hq
  have ech := cosh_artanh_sq i1 i2
  refine ⟨hx1, abs_artanh_le_div hx1 (by norm_num) (by norm_num), ?_, ?_, ?_⟩
  · rw [ech, div_le_iff₀ hr0]
    norm_num at *; linarith
  · rw [Real.sinh_artanh ⟨i1, i2⟩, abs_div, abs_of_pos hr0, div_le_iff₀ hr0]
    refine hx.trans ?_
    norm_num at *; nlinarith
  · rw [ech, mul_one_div, div_pow, Real.sq_sqrt hq.le, div_le_iff₀ hq, Real.sin_sq]
    have h1 : 0 ≤ Real.cos β ^ 2 := sq_nonneg _
    have h2 : 0 ≤ s ^ 2 := sq_nonneg _
    have h3 : 0 ≤ Real.cos β ^ 2 * s ^ 2 := by positivity
    have h4 : 0 ≤ Real.cos β ^ 4 * s ^ 2 := by positivity
    have h5 : Real.cos β ^ 2 * s ^ 2 ≤ Real.cos β ^ 2 * 0.2304 := mul_le_mul_of_nonneg_left hs2 h1
    norm_num at *
    nlinarith


theorem gs_near (hL : AccurateProjection L) {b t : F64 L} (hb : Near b β 6e-15) (ht : Near t s 3e-15) (bβ : |β| ≤ 1.5708)
    (hc : 0.087 ≤ Real.cos β) (hs : |s| ≤ 0.48) :
    Near (Flt.atanh (Flt.cos b * t)) (Real.artanh (Real.cos β * s)) 8.6e-15 ∧
    Near (Flt.asin (Flt.sin b * Flt.cosh (Flt.atanh (Flt.cos b * t))))
      (Real.arcsin (Real.sin β * Real.cosh (Real.artanh (Real.cos β * s)))) 2.7e-14 := by
  obtain ⟨g1, g2, g3, g4, g5⟩ := gs_real hc hs
  have hc1 := Real.cos_le_one β
  have hc0 : 0 < Real.cos β := lt_of_lt_of_le (by norm_num) hc
  have kc := Near.cos' hL hb (E := 6.3e-15) (by norm_num at *; linarith) (by norm_num)
  have kx := Near.mul kc ht (A := 1) (B := 0.48) (R := 0.49) (E := 6.1e-15) (Real.abs_cos_le_one β) hs (by norm_num) (by norm_num)
    (by norm_num) (by norm_num)
  have kη := Near.atanh hL kx (m := 0.4801) (K := 1.3) (A := 0.63) (E := 8.6e-15) (by norm_num at *; linarith) (by norm_num) (by norm_num) g2
    (by norm_num)
  refine ⟨kη, ?_⟩
  generalize hη : Real.artanh (Real.cos β * s) = η at *
  generalize hC : Real.cos β = c at *
  have kch : Near (Flt.cosh (Flt.atanh (Flt.cos b * t))) (Real.cosh η) (4.75e-15 * c + 5.2e-16) := by
    refine Near.cosh hL kη (m := |η| + 8.6e-15) (K := 0.55 * c + 2e-14) (A := 1.14) le_rfl (by norm_num at *; linarith) ?_ g3
      (by norm_num; nlinarith)
    have h1 : Real.sinh |η| ≤ 0.55 * c := by
      refine le_trans ?_ g4
      rcases abs_cases η with ⟨h, _⟩ | ⟨h, _⟩
      · rw [h]; exact le_abs_self _
      · rw [h, Real.sinh_neg]; exact neg_le_abs _
    have h2 := sinh_lip (x := |η| + 8.6e-15) (y := |η|) (M := (1 : ℕ)) (by rw [abs_of_nonneg (by positivity)]; norm_num at *; linarith)
      (by rw [abs_abs]; norm_num at *; linarith)
    have h3 := (hyp_le (k := 1) (K := 1.9) (by norm_num)).1
    rw [add_sub_cancel_left, abs_of_pos (by norm_num : (0 : ℝ) < 8.6e-15)] at h2
    have h4 := (le_abs_self _).trans h2
    norm_num at *
    linarith
  have ksn : Near (Flt.sin b) (Real.sin β) (6e-15 * c + 2.31e-16) := by
    obtain ⟨f, k⟩ := hL.sin_wide b hb.1 (hb.abs_le_rat (by push_cast; norm_num at *; linarith))
    refine ⟨f, ?_⟩
    have h1 := abs_sub_le ((Flt.sin b : F64 L).toQ : ℝ) (Real.sin b.toQ) (Real.sin β)
    have h2 := sin_near2 hb.2
    rw [hC, abs_of_pos hc0] at h2
    have : (2⁻¹ : ℝ) ^ 52 ≤ 2.3e-16 := by norm_num
    norm_num at *
    linarith
  have kz := Near.mul ksn kch (A := 1) (B := 1.14) (R := 1.15) (E := 1.17e-14 * c + 9.3e-16) (Real.abs_sin_le_one β)
    (by rw [abs_of_pos (Real.cosh_pos _)]; exact g3) (by norm_num at *; nlinarith) (by norm_num) (by norm_num) (by norm_num at *; nlinarith)
  generalize Real.sin β * Real.cosh η = z at *
  have hz : |z| ≤ 1 := by
    rw [← sq_le_one_iff_abs_le_one]
    nlinarith
  have hε : 1.17e-14 * c + 9.3e-16 ≤ 1.27e-14 := by norm_num at *; linarith
  have hm2 : (|z| + (1.17e-14 * c + 9.3e-16)) ^ 2 ≤ 1 - 0.7695 * c ^ 2 := by
    have hε0 : 0 ≤ 1.17e-14 * c + 9.3e-16 := by positivity
    generalize 1.17e-14 * c + 9.3e-16 = d at *
    rw [← sq_abs] at g5
    have h1 : 0 ≤ |z| := abs_nonneg z
    have h2 : |z| * d ≤ 1.27e-14 := by
      have := mul_le_mul hz hε hε0 zero_le_one
      rwa [one_mul] at this
    have h3 : d * d ≤ 1.27e-14 := by
      have := mul_le_mul (hε.trans (by norm_num : (1.27e-14 : ℝ) ≤ 1)) hε hε0 zero_le_one
      rwa [one_mul] at this
    have h4 : 0.007569 ≤ c ^ 2 := by norm_num at *; nlinarith
    have h5 : (|z| + d) ^ 2 = |z| ^ 2 + 2 * (|z| * d) + d * d := by ring
    rw [h5]
    norm_num at *
    linarith
  have hm1 : |z| + (1.17e-14 * c + 9.3e-16) < 1 := by
    have h0 : 0 ≤ |z| + (1.17e-14 * c + 9.3e-16) := by positivity
    generalize |z| + (1.17e-14 * c + 9.3e-16) = m at *
    have : 0 < c ^ 2 := by positivity
    norm_num at *
    nlinarith
  have hK : 1 ≤ (1.15 / c) ^ 2 * (1 - (|z| + (1.17e-14 * c + 9.3e-16)) ^ 2) := by
    have h1 : (1.15 / c) ^ 2 * (0.7695 * c ^ 2) ≤ (1.15 / c) ^ 2 * (1 - (|z| + (1.17e-14 * c + 9.3e-16)) ^ 2) :=
      mul_le_mul_of_nonneg_left (by linarith) (by positivity)
    refine le_trans ?_ h1
    rw [div_pow, div_mul_eq_mul_div, le_div_iff₀ (by positivity)]
    norm_num
    nlinarith [sq_nonneg c]
  refine Near.asin hL kz le_rfl hm1 (K := 1.15 / c) (by positivity) hK ?_
  have h1 : 1.15 / c * (1.17e-14 * c + 9.3e-16) ≤ 2.58e-14 := by
    rw [div_mul_eq_mul_div, div_le_iff₀ hc0]
    norm_num at *
    linarith
  norm_num at *
  linarith

end

end Geo
