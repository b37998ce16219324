import Verif.Lemmas.ShortestGeodesic

/-! The distance on the ellipsoid. -/

namespace Geo.Shortest
open Spec

/-- The arc of a great circle between two points of the unit sphere. -/
theorem sph_arc {l l' β β' : ℝ} (h : arc β β' (l' - l) < Real.pi) :
    ∃ g : ℝ → E3, (∀ x, (g x 0) ^ 2 + (g x 1) ^ 2 + (g x 2) ^ 2 = 1) ∧ (∀ x y, ‖g x - g y‖ ≤ |x - y|) ∧ g 0 = sph l β ∧
      g (arc β β' (l' - l)) = sph l' β' := by
  have hc := cos_arc β β' (l' - l)
  have hch := sph_chord l l' β β'
  rw [csig, Real.cos_sub] at hc
  have h0 := arc_nonneg β β' (l' - l)
  set θ := arc β β' (l' - l)
  have hn : ∀ l β, ‖sph l β‖ = 1 := fun l β => by
    rw [EuclideanSpace.norm_eq, Real.sqrt_eq_one]
    simp [Fin.sum_univ_three, sph]
    linear_combination Real.cos β ^ 2 * Real.sin_sq_add_cos_sq l + Real.sin_sq_add_cos_sq β
  rcases h0.eq_or_lt with hθ | hθ
  · refine ⟨fun _ => sph l β, fun x => ?_, fun x y => by simp, rfl, ?_⟩
    · simp [sph]
      linear_combination Real.cos β ^ 2 * Real.sin_sq_add_cos_sq l + Real.sin_sq_add_cos_sq β
    · rw [← hθ, Real.cos_zero] at hch
      have : ‖sph l β - sph l' β'‖ = 0 := by
        have : ‖sph l β - sph l' β'‖ ^ 2 = 0 := by linarith
        simpa using this
      exact sub_eq_zero.1 (norm_eq_zero.1 this)
  have hs : 0 < Real.sin θ := Real.sin_pos_of_pos_of_lt_pi hθ h
  have hp := Real.sin_sq_add_cos_sq θ
  set u := sph l β
  set v := sph l' β'
  set w : E3 := (Real.sin θ)⁻¹ • (v - Real.cos θ • u) with hw
  have huv : inner ℝ u v = Real.cos θ := by
    have := norm_sub_sq_real u v
    rw [hch, hn, hn] at this
    linarith
  have huw : inner ℝ u w = 0 := by
    rw [hw, inner_smul_right, inner_sub_right, inner_smul_right, huv, real_inner_self_eq_norm_sq, hn]; ring
  have hww : ‖w‖ ^ 2 = 1 := by
    rw [hw, norm_smul, mul_pow, norm_sub_sq_real, norm_smul, inner_smul_right, real_inner_comm, huv, hn, hn, mul_one,
      Real.norm_eq_abs, Real.norm_eq_abs, sq_abs, sq_abs, inv_pow]
    field_simp
    linear_combination -hp
  have hlin : ∀ x y : ℝ, ‖x • u + y • w‖ ^ 2 = x ^ 2 + y ^ 2 := fun x y => by
    rw [norm_add_sq_real, norm_smul, norm_smul, inner_smul_left, inner_smul_right, huw, mul_pow, mul_pow, hww, hn]
    simp
  refine ⟨fun x => Real.cos x • u + Real.sin x • w, fun x => ?_, fun x y => ?_, by simp, ?_⟩
  · have := hlin (Real.cos x) (Real.sin x)
    rw [EuclideanSpace.norm_sq_eq, Fin.sum_univ_three] at this
    simp only [Real.norm_eq_abs, sq_abs] at this
    rw [this]; linarith [Real.sin_sq_add_cos_sq x]
  · refine norm_le_of_sq (abs_nonneg _) ?_
    have e : Real.cos x • u + Real.sin x • w - (Real.cos y • u + Real.sin y • w) =
        (Real.cos x - Real.cos y) • u + (Real.sin x - Real.sin y) • w := by module
    rw [e, hlin, sq_abs]
    have h1 := Real.one_sub_sq_div_two_le_cos (x := x - y)
    rw [Real.cos_sub] at h1
    linarith [Real.sin_sq_add_cos_sq x, Real.sin_sq_add_cos_sq y]
  · show Real.cos θ • u + Real.sin θ • w = v
    rw [hw, smul_smul, mul_inv_cancel₀ hs.ne', one_smul]; abel

section
variable {a b : ℝ} (hb : 0 < b) (hab : b ≤ a)
include hb hab

/-- A short curve between points that are near each other. -/
theorem connect {X Y : E3} (hX : OnEllipsoid a b (X 0) (X 1) (X 2)) (hY : OnEllipsoid a b (Y 0) (Y 1) (Y 2)) {ε : ℝ}
    (hε : 0 < ε) (h1 : ε ≤ 1) (h : ‖X - Y‖ ≤ ε * b) :
    ∃ T c, IsSurfacePath a b X Y T c ∧ T ≤ a / b * (1 + ε) * ‖X - Y‖ := by
  have ha := hb.trans_le hab
  obtain ⟨l, β, -, rfl⟩ := exists_pt hb hab 0 hX
  obtain ⟨l', β', -, rfl⟩ := exists_pt hb hab 0 hY
  rw [zero_add, zero_add] at *
  have k1 := sph_le_pt hb hab l l' β β'
  have k2 : ‖sph l β - sph l' β'‖ ≤ ‖pt a b l β - pt a b l' β'‖ / b := by rw [le_div_iff₀ hb]; linarith
  have k3 : ‖sph l β - sph l' β'‖ ≤ ε := k2.trans (by rw [div_le_iff₀ hb]; exact h)
  have k4 := arc_near_chord hε h1 l l' β β' k3
  have k5 : arc β β' (l' - l) < Real.pi := by
    have := mul_le_mul (show 1 + ε ≤ 2 by linarith) (k3.trans h1) (norm_nonneg _) (by norm_num)
    linarith [Real.pi_gt_three]
  obtain ⟨g, g1, g2, g3, g4⟩ := sph_arc k5
  have g0 := arc_nonneg β β' (l' - l)
  set θ := arc β β' (l' - l)
  refine ⟨a * θ, fun t => !₂[a * g (t / a) 0, a * g (t / a) 1, b * g (t / a) 2], ⟨by positivity, fun t _ _ => ?_,
    fun t u _ _ _ _ => ?_, ?_, ?_⟩, ?_⟩
  · simp [OnEllipsoid]
    rw [← g1 (t / a)]
    field_simp
  · have := g2 (u / a) (t / a)
    refine norm_le_of_sq (abs_nonneg _) ?_
    rw [vec_dist, sq_abs]
    have k : ‖g (u / a) - g (t / a)‖ ^ 2 ≤ |u / a - t / a| ^ 2 := by gcongr
    rw [EuclideanSpace.norm_sq_eq, Fin.sum_univ_three, sq_abs] at k
    simp only [Real.norm_eq_abs, sq_abs, PiLp.sub_apply] at k
    have hba : b ^ 2 ≤ a ^ 2 := by gcongr
    have e : (u / a - t / a) ^ 2 * a ^ 2 = (u - t) ^ 2 := by field_simp
    have := mul_le_mul_of_nonneg_right hba (sq_nonneg (g (u / a) 2 - g (t / a) 2))
    have := mul_le_mul_of_nonneg_right k (sq_nonneg a)
    linarith
  · simp only [zero_div, g3, sph, pt]
    ext i; fin_cases i <;> simp [mul_assoc]
  · simp only [mul_div_cancel_left₀ θ ha.ne', g4, sph, pt]
    ext i; fin_cases i <;> simp [mul_assoc]
  · calc a * θ ≤ a * ((1 + ε) * (‖pt a b l β - pt a b l' β'‖ / b)) :=
        mul_le_mul_of_nonneg_left (k4.trans (mul_le_mul_of_nonneg_left k2 (by linarith))) ha.le
      _ = _ := by ring

variable (hf : (a - b) / a ≤ 1 / 250)
include hf

theorem connect' {X Y : E3} (hX : OnEllipsoid a b (X 0) (X 1) (X 2)) (hY : OnEllipsoid a b (Y 0) (Y 1) (Y 2))
    (h : ‖X - Y‖ ≤ b / 250) : ∃ T c, IsSurfacePath a b X Y T c ∧ T ≤ 1.01 * ‖X - Y‖ := by
  obtain ⟨T, c, h1, h2⟩ := connect hb hab hX hY (ε := 1 / 250) (by norm_num) (by norm_num) (by linarith)
  refine ⟨T, c, h1, h2.trans (mul_le_mul_of_nonneg_right ?_ (norm_nonneg _))⟩
  have ha := hb.trans_le hab
  have : a / b ≤ 250 / 249 := by
    rw [div_le_iff₀ ha] at hf
    rw [div_le_iff₀ hb]
    linarith
  norm_num at this ⊢
  linarith

/-- A geodesic that ends near a point measures the distance of this point. -/
theorem distance_near {γ : ℝ → E3} (h : IsGeodesic a b γ) {s δ : ℝ} (s0 : 0 ≤ s) (s1 : s ≤ 3 * b) {Y : E3}
    (hY : OnEllipsoid a b (Y 0) (Y 1) (Y 2)) (hd : ‖γ s - Y‖ ≤ δ) (hδ : δ ≤ b / 250) :
    ∃ d, IsSurfaceDistance a b (γ 0) Y d ∧ |s - d| ≤ 1.01 * δ := by
  obtain ⟨T, c, h1, h2⟩ := connect' hb hab hf (h.surface s) hY (hd.trans hδ)
  have hp := h.path s0
  rw [sub_zero] at hp
  obtain ⟨e, he⟩ := hp.trans h1
  have h3 : T ≤ 1.01 * δ := h2.trans (mul_le_mul_of_nonneg_left hd (by norm_num))
  have hbd : ∀ U, (∃ c, IsSurfacePath a b (γ 0) Y U c) → s - 1.01 * δ ≤ U := fun U ⟨f, hU⟩ => by
    obtain ⟨g, hg⟩ := hU.trans h1.symm
    have := shortest hb hab hf h s0 (by linarith) hg
    linarith
  refine ⟨sInf {T | ∃ c, IsSurfacePath a b (γ 0) Y T c}, isGLB_csInf ⟨_, e, he⟩ ⟨_, fun U hU => hbd U hU⟩, ?_⟩
  have l1 := le_csInf (s := {T | ∃ c, IsSurfacePath a b (γ 0) Y T c}) ⟨_, e, he⟩ fun U hU => hbd U hU
  have l2 := csInf_le (s := {T | ∃ c, IsSurfacePath a b (γ 0) Y T c}) ⟨_, fun U hU => hbd U hU⟩ ⟨e, he⟩
  rw [abs_le]
  constructor <;> linarith

end

end Geo.Shortest

namespace Geo.Spec

theorem surfacePoint_on {a b : ℝ} (hb : 0 < b) (hab : b ≤ a) (l φ : ℝ) :
    OnEllipsoid a b (surfacePoint a b l φ 0) (surfacePoint a b l φ 1) (surfacePoint a b l φ 2) := by
  have ha := hb.trans_le hab
  have e := Real.sin_sq_add_cos_sq φ
  have hD : 0 < a ^ 2 * Real.cos φ ^ 2 + b ^ 2 * Real.sin φ ^ 2 := by
    have h2 : b ^ 2 ≤ a ^ 2 := by gcongr
    have h3 := mul_le_mul_of_nonneg_right h2 (sq_nonneg (Real.cos φ))
    have : 0 < b ^ 2 := by positivity
    nlinarith
  have hs := Real.sq_sqrt hD.le
  have hs0 := Real.sqrt_pos.2 hD
  simp [surfacePoint, OnEllipsoid]
  set w := Real.sqrt (a ^ 2 * Real.cos φ ^ 2 + b ^ 2 * Real.sin φ ^ 2)
  field_simp
  rw [hs]
  linear_combination a ^ 2 * Real.cos φ ^ 2 * Real.sin_sq_add_cos_sq l

theorem IsSurfaceDistance.symm {a b : ℝ} {p q : E3} {d : ℝ} (h : IsSurfaceDistance a b p q d) : IsSurfaceDistance a b q p d := by
  have e : {T | ∃ c, IsSurfacePath a b q p T c} = {T | ∃ c, IsSurfacePath a b p q T c} :=
    Set.ext fun T => ⟨fun ⟨_, hc⟩ => ⟨_, hc.symm⟩, fun ⟨_, hc⟩ => ⟨_, hc.symm⟩⟩
  unfold IsSurfaceDistance
  rw [e]; exact h

theorem IsSurfaceDistance.triangle {a b : ℝ} {p q r : E3} {d e f : ℝ} (h : IsSurfaceDistance a b p q d)
    (k : IsSurfaceDistance a b q r e) (m : IsSurfaceDistance a b p r f) : f ≤ d + e := by
  refine le_of_forall_pos_le_add fun ε hε => ?_
  obtain ⟨T, ⟨c, hc⟩, -, hT⟩ := h.exists_between (show d < d + ε / 2 by linarith)
  obtain ⟨U, ⟨c', hc'⟩, -, hU⟩ := k.exists_between (show e < e + ε / 2 by linarith)
  obtain ⟨x, hx⟩ := hc.trans hc'
  have := m.1 ⟨x, hx⟩
  linarith

end Geo.Spec
