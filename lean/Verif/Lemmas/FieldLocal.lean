import Verif.Lemmas.FieldLift
import Mathlib.Analysis.SpecialFunctions.Trigonometric.Bounds
import Mathlib.Analysis.SpecialFunctions.Trigonometric.Angle

/-! The length of the geodesic of the field that ends at a point changes at most as fast as the point moves. -/

namespace Geo.Shortest
open Spec

theorem cos_quadratic {x : ℝ} (h : |x| ≤ Real.pi) : x ^ 2 ≤ 4 * (2 - 2 * Real.cos x) := by
  have k := Real.mul_abs_le_abs_sin (x := x / 2) (by rw [abs_div, abs_two]; linarith)
  have hp := Real.pi_lt_four
  have hp0 := Real.pi_pos
  have h1 : 1 / 2 ≤ 2 / Real.pi := by rw [div_le_div_iff₀ (by norm_num) (by positivity)]; linarith
  have h2 : 1 / 2 * |x / 2| ≤ |Real.sin (x / 2)| := (mul_le_mul_of_nonneg_right h1 (abs_nonneg _)).trans k
  have h3 := mul_self_le_mul_self (by positivity) h2
  rw [abs_mul_abs_self] at h3
  have h4 : 1 / 2 * |x / 2| * (1 / 2 * |x / 2|) = x ^ 2 / 16 := by
    rw [show 1 / 2 * |x / 2| * (1 / 2 * |x / 2|) = 1 / 4 * (|x / 2| * |x / 2|) by ring, abs_mul_abs_self]; ring
  have h5 := Real.cos_two_mul (x / 2)
  rw [show 2 * (x / 2) = x by ring] at h5
  have h6 := Real.sin_sq_add_cos_sq (x / 2)
  nlinarith

theorem planar {P R t c s : ℝ} (h : s ^ 2 + c ^ 2 = 1) : (P - t * c) ^ 2 + (R - t * s) ^ 2 ≤ 2 * (P ^ 2 + R ^ 2) + 2 * t ^ 2 := by
  have e : 2 * (P ^ 2 + R ^ 2) + 2 * t ^ 2 - ((P - t * c) ^ 2 + (R - t * s) ^ 2) = (P + t * c) ^ 2 + (R + t * s) ^ 2 := by
    linear_combination -2 * t ^ 2 * h
  nlinarith [sq_nonneg (P + t * c), sq_nonneg (R + t * s)]

/-- An azimuth within half a turn of a given one. -/
theorem exists_near (α α0 : ℝ) : ∃ α', Real.cos α' = Real.cos α ∧ Real.sin α' = Real.sin α ∧ |α' - α0| ≤ Real.pi := by
  have hp := Real.two_pi_pos
  refine ⟨toIocMod hp (α0 - Real.pi) α, ?_, ?_, ?_⟩
  · rw [← self_sub_toIocDiv_zsmul, zsmul_eq_mul, Real.cos_sub_int_mul_two_pi]
  · rw [← self_sub_toIocDiv_zsmul, zsmul_eq_mul, Real.sin_sub_int_mul_two_pi]
  · have := toIocMod_mem_Ioc hp (α0 - Real.pi) α
    rw [abs_le]
    constructor <;> linarith [this.1, this.2]

/-- Polar coordinates on the sphere move at most in proportion to the point. -/
theorem polar_lip (β : ℝ) {σ α σ0 α0 d : ℝ} (h0 : 0 ≤ σ) (h1 : σ ≤ Real.pi) (k0 : 0 ≤ σ0) (k1 : σ0 ≤ Real.pi) (hd : 0 ≤ d)
    (h : (ux β σ α - ux β σ0 α0) ^ 2 + (uy σ α - uy σ0 α0) ^ 2 + (uz β σ α - uz β σ0 α0) ^ 2 ≤ d ^ 2) :
    ∃ α', Real.cos α' = Real.cos α ∧ Real.sin α' = Real.sin α ∧ |σ - σ0| ≤ 2 * d ∧ Real.sin σ0 * |α' - α0| ≤ 4 * d := by
  have b1 := Real.sin_sq_add_cos_sq β
  have hs : (Real.cos σ - Real.cos σ0) ^ 2 + (Real.sin σ * Real.cos α - Real.sin σ0 * Real.cos α0) ^ 2 +
      (Real.sin σ * Real.sin α - Real.sin σ0 * Real.sin α0) ^ 2 ≤ d ^ 2 := by
    refine le_trans (le_of_eq ?_) h
    simp only [ux, uy, uz, hh]
    linear_combination -((Real.cos σ - Real.cos σ0) ^ 2 + (Real.sin σ * Real.cos α - Real.sin σ0 * Real.cos α0) ^ 2) * b1
  have r0 := Real.sin_nonneg_of_nonneg_of_le_pi h0 h1
  have r1 := Real.sin_nonneg_of_nonneg_of_le_pi k0 k1
  have a1 := Real.sin_sq_add_cos_sq α
  have a0 := Real.sin_sq_add_cos_sq α0
  have s1 := Real.sin_sq_add_cos_sq σ
  have s0 := Real.sin_sq_add_cos_sq σ0
  have q1 := Real.cos_le_one (α - α0)
  rw [Real.cos_sub] at q1
  have q2 : (Real.sin σ * Real.cos α - Real.sin σ0 * Real.cos α0) ^ 2 + (Real.sin σ * Real.sin α - Real.sin σ0 * Real.sin α0) ^ 2 =
      (Real.sin σ - Real.sin σ0) ^ 2 + 2 * (Real.sin σ * Real.sin σ0) * (1 - (Real.cos α * Real.cos α0 + Real.sin α * Real.sin α0)) := by
    linear_combination Real.sin σ ^ 2 * a1 + Real.sin σ0 ^ 2 * a0
  have q3 := mul_nonneg (mul_nonneg r0 r1) (sub_nonneg.2 q1)
  have q4 : (Real.sin σ - Real.sin σ0) ^ 2 ≤ d ^ 2 := by nlinarith [sq_nonneg (Real.cos σ - Real.cos σ0)]
  have q5 : (σ - σ0) ^ 2 ≤ 4 * d ^ 2 := by
    have := cos_quadratic (x := σ - σ0) (abs_le.2 ⟨by linarith, by linarith⟩)
    rw [Real.cos_sub] at this
    nlinarith
  obtain ⟨α', c', s', hp⟩ := exists_near α α0
  refine ⟨α', c', s', ?_, ?_⟩
  · refine abs_le_of_sq_le_sq ?_ (by linarith)
    nlinarith
  · have := cos_quadratic hp
    rw [Real.cos_sub, c', s'] at this
    have q6 : Real.sin σ0 ^ 2 * (2 - 2 * (Real.cos α * Real.cos α0 + Real.sin α * Real.sin α0)) ≤ 4 * d ^ 2 := by
      have e : Real.sin σ0 ^ 2 * (2 - 2 * (Real.cos α * Real.cos α0 + Real.sin α * Real.sin α0)) =
          ((Real.sin σ * Real.cos α - Real.sin σ0 * Real.cos α0) - (Real.sin σ - Real.sin σ0) * Real.cos α) ^ 2 +
          ((Real.sin σ * Real.sin α - Real.sin σ0 * Real.sin α0) - (Real.sin σ - Real.sin σ0) * Real.sin α) ^ 2 := by
        linear_combination -Real.sin σ0 ^ 2 * (a1 + a0)
      rw [e]
      refine (planar a1).trans ?_
      linarith [sq_nonneg (Real.cos σ - Real.cos σ0)]
    refine abs_le_of_sq_le_sq ?_ (by linarith) |> (le_abs_self _).trans
    rw [mul_pow, sq_abs]
    linarith [mul_le_mul_of_nonneg_left this (sq_nonneg (Real.sin σ0))]

/-! ### Points of the unit sphere -/

noncomputable def sph (l β : ℝ) : E3 := !₂[Real.cos β * Real.cos l, Real.cos β * Real.sin l, Real.sin β]

theorem vec_dist (x y z x' y' z' : ℝ) : ‖(!₂[x, y, z] : E3) - !₂[x', y', z']‖ ^ 2 = (x - x') ^ 2 + (y - y') ^ 2 + (z - z') ^ 2 := by
  rw [EuclideanSpace.norm_sq_eq]
  simp [Fin.sum_univ_three]

theorem norm_le_of_sq {v : E3} {d : ℝ} (hd : 0 ≤ d) (h : ‖v‖ ^ 2 ≤ d ^ 2) : ‖v‖ ≤ d := by
  have := abs_le_of_sq_le_sq h hd
  rwa [abs_of_nonneg (norm_nonneg v)] at this

theorem sph_turn (l l' β : ℝ) : ‖sph l β - sph l' β‖ ≤ |l - l'| := by
  refine norm_le_of_sq (abs_nonneg _) ?_
  rw [sph, sph, vec_dist, sq_abs]
  have k := Real.one_sub_sq_div_two_le_cos (x := l - l')
  have c := Real.cos_le_one (l - l')
  have b1 := Real.sin_sq_add_cos_sq β
  have e : (Real.cos β * Real.cos l - Real.cos β * Real.cos l') ^ 2 + (Real.cos β * Real.sin l - Real.cos β * Real.sin l') ^ 2 +
      (Real.sin β - Real.sin β) ^ 2 = Real.cos β ^ 2 * (2 - 2 * Real.cos (l - l')) := by
    rw [Real.cos_sub]
    linear_combination Real.cos β ^ 2 * (Real.sin_sq_add_cos_sq l + Real.sin_sq_add_cos_sq l')
  rw [e]
  nlinarith [sq_nonneg (Real.sin β)]

theorem sph_rot (l l' β β' x : ℝ) : ‖sph (l + x) β - sph (l' + x) β'‖ = ‖sph l β - sph l' β'‖ := by
  have : ‖sph (l + x) β - sph (l' + x) β'‖ ^ 2 = ‖sph l β - sph l' β'‖ ^ 2 := by
    rw [sph, sph, sph, sph, vec_dist, vec_dist, Real.cos_add, Real.cos_add, Real.sin_add, Real.sin_add]
    linear_combination ((Real.cos β * Real.cos l - Real.cos β' * Real.cos l') ^ 2 +
      (Real.cos β * Real.sin l - Real.cos β' * Real.sin l') ^ 2) * Real.sin_sq_add_cos_sq x
  exact (sq_eq_sq₀ (norm_nonneg _) (norm_nonneg _)).1 this

theorem sph_le_pt {a b : ℝ} (hb : 0 < b) (hab : b ≤ a) (l l' β β' : ℝ) :
    b * ‖sph l β - sph l' β'‖ ≤ ‖pt a b l β - pt a b l' β'‖ := by
  have : (b * ‖sph l β - sph l' β'‖) ^ 2 ≤ ‖pt a b l β - pt a b l' β'‖ ^ 2 := by
    rw [mul_pow, sph, sph, pt, pt, vec_dist, vec_dist]
    have h : b ^ 2 ≤ a ^ 2 := by gcongr
    have k := mul_le_mul_of_nonneg_right h (add_nonneg (sq_nonneg (Real.cos β * Real.cos l - Real.cos β' * Real.cos l'))
      (sq_nonneg (Real.cos β * Real.sin l - Real.cos β' * Real.sin l')))
    linarith
  have := abs_le_of_sq_le_sq this (norm_nonneg _)
  exact (le_abs_self _).trans this

theorem pt_le_sph {a b : ℝ} (hb : 0 < b) (hab : b ≤ a) (l l' β β' : ℝ) :
    ‖pt a b l β - pt a b l' β'‖ ≤ a * ‖sph l β - sph l' β'‖ := by
  refine norm_le_of_sq (by have := hb.trans_le hab; positivity) ?_
  rw [mul_pow, sph, sph, pt, pt, vec_dist, vec_dist]
  have h : b ^ 2 ≤ a ^ 2 := by gcongr
  have k := mul_le_mul_of_nonneg_right h (sq_nonneg (Real.sin β - Real.sin β'))
  linarith

theorem endF_congr {a b l β σ α α' : ℝ} (hc : Real.cos α' = Real.cos α) (hs : Real.sin α' = Real.sin α) :
    endF a b l β (σ, α') = endF a b l β (σ, α) ∧ lamF (Bessel.e2 a b) β σ α' = lamF (Bessel.e2 a b) β σ α ∧
    lenF (Bessel.e2 a b) β σ α' = lenF (Bessel.e2 a b) β σ α := by
  refine ⟨?_, ?_, ?_⟩
  · simp only [endF, pxF, pyF, ux, uy, uz, lamF, hc, hs]
  · simp only [lamF, hc, hs]
  · simp only [lenF, lamF, hc, hs]

/-- The distance of polar coordinates in the plane. -/
theorem pair_norm {σ α σ0 α0 s d : ℝ} (hs : 0 < s) (h1 : |σ - σ0| ≤ 2 * d) (h2 : s * |α - α0| ≤ 4 * d) (hd : 0 ≤ d) :
    ‖((σ, α) : ℝ × ℝ) - (σ0, α0)‖ ≤ (2 + 4 / s) * d := by
  rw [Prod.mk_sub_mk, Prod.norm_mk, Real.norm_eq_abs, Real.norm_eq_abs]
  have h3 : 0 ≤ 4 / s * d := by positivity
  refine max_le (by linarith) ?_
  have : |α - α0| ≤ 4 / s * d := by
    rw [div_mul_eq_mul_div, le_div_iff₀ hs]; linarith
  linarith

section
variable {a b : ℝ} (hb : 0 < b) (hab : b ≤ a) (hf : (a - b) / a ≤ 1 / 250) {M : ℝ} (hM : M < Real.pi)
  (hq : (a - b) / a * (M / Real.sin M) ≤ 1 / 10)
include hb hab hf hM hq

/-- The length changes at most as fast as the point moves. -/
theorem length_local {l L₀ β β₀ σ₀ α₀ ε : ℝ} (hβ : 0 < Real.cos β) (h0 : 0 < σ₀) (h1 : σ₀ ≤ M)
    (h : endF a b l β (σ₀, α₀) = pt a b (l + L₀) β₀) (hε : 0 < ε) :
    ∃ δ, 0 < δ ∧ ∀ L β₂ σ α, arc β β₂ L + 4 * ((a - b) / a) ≤ M → 0 ≤ σ → σ ≤ M →
      endF a b l β (σ, α) = pt a b (l + L) β₂ → ‖pt a b (l + L) β₂ - pt a b (l + L₀) β₀‖ < δ →
      |a * lenF (Bessel.e2 a b) β σ α - a * lenF (Bessel.e2 a b) β σ₀ α₀| ≤
        (1 + ε) * ‖pt a b (l + L) β₂ - pt a b (l + L₀) β₀‖ := by
  have e0 := Bessel.e2_nonneg hb hab
  have e1 := Bessel.e2_lt hb hab
  have hs : 0 < Real.sin σ₀ := Real.sin_pos_of_pos_of_lt_pi h0 (h1.trans_lt hM)
  obtain ⟨x0b, -, -⟩ := lift_eq hb hab hM hβ h0.le h1 h
  obtain ⟨u1, u2, u3⟩ := (end_iff hb hab).1 h
  have hO := (show HasFDerivAt _ _ _ from lamF_d2 β σ₀ α₀ e0 e1).isBigO_sub
  obtain ⟨K, hK, hO⟩ := hO.exists_pos
  obtain ⟨δ₁, hδ₁, hO⟩ := Metric.eventually_nhds_iff.1 hO.bound
  set x₀ := lamF (Bessel.e2 a b) β σ₀ α₀ with hx₀
  set C := 2 + 4 / Real.sin σ₀
  have hC : 0 < C := by positivity
  have hC2 : 0 < C * (2 * K * C + 1) := by positivity
  have hG := gauss hb hab l β σ₀ α₀ (show 0 < ε * b / (C * (2 * K * C + 1)) by positivity)
  obtain ⟨δ₂, hδ₂, hG⟩ := Metric.eventually_nhds_iff.1 hG
  refine ⟨min (δ₁ * b / C) (δ₂ * b / (C * (2 * K * C + 1))), lt_min (by positivity) (by positivity),
    fun L β₂ σ α hL g0 g1 g hlt => ?_⟩
  set D := ‖pt a b (l + L) β₂ - pt a b (l + L₀) β₀‖ with hD
  have hD0 : 0 ≤ D := norm_nonneg _
  have l1 := hlt.trans_le (min_le_left _ _)
  have l2 := hlt.trans_le (min_le_right _ _)
  set d := D / b with hd
  have hd0 : 0 ≤ d := by positivity
  have hdD : d * b = D := div_mul_cancel₀ _ hb.ne'
  have c1 : C * d < δ₁ := by
    rw [lt_div_iff₀ hC, ← hdD] at l1
    nlinarith
  have c2 : C * ((2 * K * C + 1) * d) < δ₂ := by
    rw [lt_div_iff₀ hC2, ← hdD] at l2
    nlinarith
  have v : ‖sph L β₂ - sph L₀ β₀‖ ≤ d := by
    rw [hd, le_div_iff₀ hb, mul_comm, ← sph_rot L L₀ β₂ β₀ l, add_comm L l, add_comm L₀ l]
    exact sph_le_pt hb hab _ _ _ _
  -- the point turned by the excess of the first one
  obtain ⟨x0', k2, k3⟩ := lift_eq hb hab hM hβ g0 g1 g
  obtain ⟨w1, w2, w3⟩ := (end_iff hb hab).1 g
  set x := lamF (Bessel.e2 a b) β σ α with hx
  have ha := arc_lip β β₂ (L + x₀) L
  rw [add_sub_cancel_left] at ha
  obtain ⟨αw, p1, p2, p3, p4⟩ := polar_at (Bessel.e2 a b) hβ (show arc β β₂ (L + x₀) < Real.pi by linarith)
  have hw : (ux β (arc β β₂ (L + x₀)) αw - ux β σ₀ α₀) ^ 2 + (uy (arc β β₂ (L + x₀)) αw - uy σ₀ α₀) ^ 2 +
      (uz β (arc β β₂ (L + x₀)) αw - uz β σ₀ α₀) ^ 2 ≤ d ^ 2 := by
    rw [p1, p2, p3, u1, u2, u3, ← vec_dist, ← sph, ← sph, sph_rot]
    gcongr
  obtain ⟨α', ca, sa, m1, m2⟩ := polar_lip β (arc_nonneg _ _ _) (arc_le_pi _ _ _) h0.le (h1.trans hM.le) hd0 hw
  have n1 := pair_norm hs m1 m2 hd0
  have o1 := hO (y := (arc β β₂ (L + x₀), α')) (by rw [dist_eq_norm]; exact n1.trans_lt c1)
  simp only [(endF_congr (a := a) (b := b) (l := l) (β := β) ca sa).2.1, p4, Real.norm_eq_abs] at o1
  have o2 : |excE (Bessel.e2 a b) β β₂ (L + x₀) - x₀| ≤ K * (C * d) :=
    o1.trans (mul_le_mul_of_nonneg_left n1 hK.le)
  have o3 := excE_lip' hb hab hf hM hq hL x0b x0'
  rw [← k3] at o3
  have o4 : |x - x₀| ≤ 2 * K * C * d := by
    have := abs_sub_le x (excE (Bessel.e2 a b) β β₂ (L + x₀)) x₀
    have := mul_nonneg hK.le (mul_nonneg hC.le hd0)
    linarith
  -- the point turned by its own excess
  have hu : (ux β σ α - ux β σ₀ α₀) ^ 2 + (uy σ α - uy σ₀ α₀) ^ 2 + (uz β σ α - uz β σ₀ α₀) ^ 2 ≤ ((2 * K * C + 1) * d) ^ 2 := by
    rw [w1, w2, w3, u1, u2, u3, ← vec_dist, ← sph, ← sph]
    have t1 := norm_sub_le_norm_sub_add_norm_sub (sph (L + x) β₂) (sph (L + x₀) β₂) (sph (L₀ + x₀) β₀)
    have t2 := sph_turn (L + x) (L + x₀) β₂
    rw [add_sub_add_left_eq_sub] at t2
    rw [sph_rot] at t1
    have t3 : ‖sph (L + x) β₂ - sph (L₀ + x₀) β₀‖ ≤ (2 * K * C + 1) * d := by linarith
    gcongr
  have hd' : 0 ≤ (2 * K * C + 1) * d := by positivity
  obtain ⟨α'', ca', sa', m1', m2'⟩ := polar_lip β g0 (g1.trans hM.le) h0.le (h1.trans hM.le) hd' hu
  have n2 := pair_norm hs m1' m2' hd'
  have G := hG (y := (σ, α'')) (by rw [dist_eq_norm]; exact n2.trans_lt c2)
  have cg := endF_congr (a := a) (b := b) (l := l) (β := β) (σ := σ) ca' sa'
  simp only [cg.2.2, cg.1, g, h, ← hD] at G
  refine G.trans ?_
  have r := mul_le_mul_of_nonneg_left n2 (show 0 ≤ ε * b / (C * (2 * K * C + 1)) by positivity)
  have e : ε * b / (C * (2 * K * C + 1)) * (C * ((2 * K * C + 1) * d)) = ε * D := by
    rw [← hdD]; field_simp
  linarith

end

end Geo.Shortest
