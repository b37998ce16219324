import Verif.Lemmas.FieldLocal
import Verif.Spec.SurfacePath

/-! No curve on the ellipsoid is shorter than the geodesic of the field between its ends. -/

namespace Geo.Shortest
open Spec

/-- A function that grows at most at the rate `K` everywhere to the right grows at most at that rate. -/
theorem slope_le {g : ℝ → ℝ} {p q K : ℝ} (hpq : p ≤ q) (hc : ContinuousOn g (Set.Icc p q))
    (h : ∀ ε, 0 < ε → ∀ t, p ≤ t → t < q → ∃ δ, 0 < δ ∧ ∀ u, t < u → u < t + δ → u ≤ q → g u ≤ g t + (K + ε) * (u - t)) :
    g q ≤ g p + K * (q - p) := by
  refine image_le_of_liminf_slope_right_le_deriv_boundary (f := g) (B := fun x => g p + K * (x - p)) (B' := fun _ => K) hc
    (by simp) (by fun_prop) (fun x _ => ?_) (fun x hx r hr => ?_) (Set.right_mem_Icc.2 hpq)
  · exact ((((hasDerivAt_id x).sub_const p).const_mul K).const_add (g p) |>.congr_deriv (by simp)).hasDerivWithinAt
  · obtain ⟨δ, hδ, hb⟩ := h ((r - K) / 2) (by linarith) x hx.1 hx.2
    refine Filter.Eventually.frequently ?_
    have : Set.Ioo x (min (x + δ) q) ∈ nhdsWithin x (Set.Ioi x) :=
      Ioo_mem_nhdsGT (lt_min (by linarith) hx.2)
    filter_upwards [this] with u hu
    have h1 := hb u hu.1 (hu.2.trans_le (min_le_left _ _)) (hu.2.le.trans (min_le_right _ _))
    rw [slope_def_field, div_lt_iff₀ (by linarith [hu.1])]
    nlinarith [hu.1]

/-- Chord and arc on the unit sphere. -/
theorem sph_chord (l l' β β' : ℝ) : ‖sph l β - sph l' β'‖ ^ 2 = 2 - 2 * Real.cos (arc β β' (l' - l)) := by
  rw [sph, sph, vec_dist, cos_arc, csig, Real.cos_sub]
  linear_combination Real.cos β ^ 2 * Real.sin_sq_add_cos_sq l + Real.cos β' ^ 2 * Real.sin_sq_add_cos_sq l' +
    Real.sin_sq_add_cos_sq β + Real.sin_sq_add_cos_sq β'

theorem arc_le_chord (l l' β β' : ℝ) : arc β β' (l' - l) ≤ 2 * ‖sph l β - sph l' β'‖ := by
  have h := cos_quadratic (x := arc β β' (l' - l)) (by rw [abs_of_nonneg (arc_nonneg _ _ _)]; exact arc_le_pi _ _ _)
  rw [← sph_chord] at h
  refine abs_le_of_sq_le_sq ?_ (by positivity) |> (le_abs_self _).trans
  rw [mul_pow]; linarith

/-- For short chords the arc is hardly longer. -/
theorem arc_near_chord {ε : ℝ} (hε : 0 < ε) (h1 : ε ≤ 1) (l l' β β' : ℝ) (h : ‖sph l β - sph l' β'‖ ≤ ε) :
    arc β β' (l' - l) ≤ (1 + ε) * ‖sph l β - sph l' β'‖ := by
  have k := arc_le_chord l l' β β'
  have e := sph_chord l l' β β'
  have n0 := norm_nonneg (sph l β - sph l' β')
  have a0 := arc_nonneg β β' (l' - l)
  set d := ‖sph l β - sph l' β'‖
  set x := arc β β' (l' - l)
  rcases a0.eq_or_lt with h0 | h0
  · rw [← h0]; positivity
  have hs := Real.sin_gt_sub_cube (x := x / 2) (by linarith)
  have h5 := Real.cos_two_mul (x / 2)
  rw [show 2 * (x / 2) = x by ring] at h5
  have h6 := Real.sin_sq_add_cos_sq (x / 2)
  have hd : d ^ 2 = (2 * Real.sin (x / 2)) ^ 2 := by rw [e, h5]; linear_combination -4 * h6
  have hs0 : 0 ≤ Real.sin (x / 2) := Real.sin_nonneg_of_nonneg_of_le_pi (by linarith) (by linarith [arc_le_pi β β' (l' - l), Real.pi_pos])
  have hd' : d = 2 * Real.sin (x / 2) := (sq_eq_sq₀ n0 (by positivity)).1 hd
  have h7 : x * (1 - x ^ 2 / 16) ≤ d := by rw [hd']; nlinarith
  have h8 : x ^ 2 / 16 ≤ ε ^ 2 / 4 := by nlinarith
  have h9 : x * (1 - ε ^ 2 / 4) ≤ d := by nlinarith
  have : x ≤ (1 + ε) * (x * (1 - ε ^ 2 / 4)) := by
    have : 1 ≤ (1 + ε) * (1 - ε ^ 2 / 4) := by nlinarith
    nlinarith
  nlinarith

theorem arc_triangle (β β' β'' l l' : ℝ) : arc β β'' l' ≤ arc β β' l + arc β' β'' (l' - l) := by
  have h := InnerProductGeometry.angle_le_angle_add_angle (unitAt 0 β) (unitAt l β') (unitAt l' β'')
  rwa [angle_unitAt, angle_unitAt, angle_unitAt, sub_zero, sub_zero] at h

/-- Latitude and longitude of a point of the ellipsoid. -/
theorem exists_pt {a b : ℝ} (hb : 0 < b) (hab : b ≤ a) (l : ℝ) {X : E3} (h : OnEllipsoid a b (X 0) (X 1) (X 2)) :
    ∃ L β, 0 ≤ Real.cos β ∧ X = pt a b (l + L) β := by
  have ha : 0 < a := hb.trans_le hab
  unfold OnEllipsoid at h
  obtain ⟨p1, p2⟩ := polar (X 0 / a) (X 1 / a)
  set r := Real.sqrt ((X 0 / a) ^ 2 + (X 1 / a) ^ 2) with hr
  have r0 : 0 ≤ r := Real.sqrt_nonneg _
  have hr2 : r ^ 2 = (X 0 / a) ^ 2 + (X 1 / a) ^ 2 := Real.sq_sqrt (by positivity)
  have h1 : r ^ 2 + (X 2 / b) ^ 2 = 1 := by rw [hr2]; simp only [div_pow]; exact h
  obtain ⟨q1, q2⟩ := polar r (X 2 / b)
  rw [h1, Real.sqrt_one, one_mul] at q1 q2
  refine ⟨Complex.arg ⟨X 0 / a, X 1 / a⟩ - l, Complex.arg ⟨r, X 2 / b⟩, by rw [q1]; exact r0, ?_⟩
  rw [pt, q1, q2, add_sub_cancel, mul_assoc, mul_assoc, p1, p2]
  ext i
  fin_cases i <;> simp <;> field_simp

section
variable {a b : ℝ} (hb : 0 < b) (hab : b ≤ a)
include hb hab

/-- The arc on the auxiliary sphere that a path on the ellipsoid can cover. -/
theorem path_arc {l β T : ℝ} {q : E3} {c : ℝ → E3} (hc : IsSurfacePath a b (pt a b l β) q T c) {L B : ℝ → ℝ}
    (hp : ∀ t, 0 ≤ t → t ≤ T → c t = pt a b (l + L t) (B t)) {t : ℝ} (h0 : 0 ≤ t) (h1 : t ≤ T) :
    arc β (B t) (L t) ≤ t / b := by
  have hd : ∀ t u, 0 ≤ t → t ≤ T → 0 ≤ u → u ≤ T → b * ‖sph (L t) (B t) - sph (L u) (B u)‖ ≤ |u - t| := fun t u t0 t1 u0 u1 => by
    have := sph_le_pt hb hab (l + L t) (l + L u) (B t) (B u)
    rw [← hp t t0 t1, ← hp u u0 u1, add_comm l, add_comm l, sph_rot, norm_sub_rev (c t)] at this
    exact this.trans (hc.speed t u t0 t1 u0 u1)
  have z0 : arc β (B 0) (L 0) = 0 := by
    have e := hp 0 le_rfl hc.nonneg
    rw [hc.start] at e
    have k := sph_le_pt hb hab l (l + L 0) β (B 0)
    rw [e, sub_self, norm_zero] at k
    have k0 : ‖sph l β - sph (l + L 0) (B 0)‖ = 0 := by
      have := norm_nonneg (sph l β - sph (l + L 0) (B 0))
      nlinarith
    have k1 := arc_le_chord l (l + L 0) β (B 0)
    rw [k0, add_sub_cancel_left] at k1
    exact le_antisymm (by linarith) (arc_nonneg _ _ _)
  have tri : ∀ t u, arc β (B u) (L u) ≤ arc β (B t) (L t) + arc (B t) (B u) (L u - L t) := fun t u => arc_triangle _ _ _ _ _
  have hlip : ∀ t u, 0 ≤ t → t ≤ T → 0 ≤ u → u ≤ T → arc β (B u) (L u) - arc β (B t) (L t) ≤ 2 / b * |u - t| := fun t u t0 t1 u0 u1 => by
    have k1 := arc_le_chord (L t) (L u) (B t) (B u)
    have k2 := hd t u t0 t1 u0 u1
    have k3 : ‖sph (L t) (B t) - sph (L u) (B u)‖ ≤ |u - t| / b := by rw [le_div_iff₀ hb]; linarith
    have := tri t u
    have e : 2 / b * |u - t| = 2 * (|u - t| / b) := by ring
    linarith
  have hcont : ContinuousOn (fun t => arc β (B t) (L t)) (Set.Icc 0 t) := by
    refine LipschitzOnWith.continuousOn (K := Real.toNNReal (2 / b)) (LipschitzOnWith.of_dist_le_mul fun x hx y hy => ?_)
    rw [Real.dist_eq, Real.dist_eq, Real.coe_toNNReal _ (by positivity)]
    have a1 := hlip x y hx.1 (hx.2.trans h1) hy.1 (hy.2.trans h1)
    have a2 := hlip y x hy.1 (hy.2.trans h1) hx.1 (hx.2.trans h1)
    rw [abs_sub_comm] at a1
    rw [abs_le]
    constructor <;> linarith
  have := slope_le (g := fun t => arc β (B t) (L t)) (K := 1 / b) h0 hcont fun ε hε x x0 xt => by
    set η := min 1 (ε * b) with hη
    have hη0 : 0 < η := lt_min one_pos (by positivity)
    refine ⟨η * b, by positivity, fun u xu uδ ut => ?_⟩
    have k2 := hd x u x0 (xt.le.trans h1) (x0.trans xu.le) (ut.trans h1)
    rw [abs_of_pos (by linarith)] at k2
    have k3 : ‖sph (L x) (B x) - sph (L u) (B u)‖ ≤ (u - x) / b := by rw [le_div_iff₀ hb]; linarith
    have k4 : ‖sph (L x) (B x) - sph (L u) (B u)‖ ≤ η := by
      refine k3.trans ?_
      rw [div_le_iff₀ hb]; linarith
    have k5 := arc_near_chord hη0 (min_le_left _ _) _ _ _ _ k4
    have k6 : (1 + η) * ((u - x) / b) ≤ (1 / b + ε) * (u - x) := by
      have : η / b ≤ ε := by rw [div_le_iff₀ hb]; exact min_le_right _ _
      calc (1 + η) * ((u - x) / b) = (1 / b + η / b) * (u - x) := by ring
        _ ≤ _ := mul_le_mul_of_nonneg_right (by linarith) (by linarith)
    have k7 := mul_le_mul_of_nonneg_left k3 (show 0 ≤ 1 + η by linarith)
    linarith [tri x u]
  simp only [z0] at this
  calc _ ≤ _ := this
    _ = _ := by ring

/-- The length is at most the length on a sphere of the semi-major axis. -/
theorem lenF_le (β α : ℝ) {σ : ℝ} (h : 0 ≤ σ) : lenF (Bessel.e2 a b) β σ α ≤ σ := by
  have e0 := Bessel.e2_nonneg hb hab
  have hV : ∀ z, 0 ≤ Vf (Bessel.e2 a b) z := fun z => by
    rw [Vf]; exact div_nonneg e0 (add_nonneg one_pos.le (Real.sqrt_nonneg _))
  have hQ : 0 ≤ Q (Vf (Bessel.e2 a b)) (Real.sin β) (Real.cos β * Real.cos α) σ :=
    intervalIntegral.integral_nonneg h fun t _ => mul_nonneg (hV _) (sq_nonneg _)
  have hI : 0 ≤ I (Vf (Bessel.e2 a b)) (Real.sin β) (Real.cos β * Real.cos α) σ :=
    intervalIntegral.integral_nonneg h fun t _ => hV _
  rw [lenF, lamF]
  have : 0 ≤ (Real.cos β * Real.sin α) ^ 2 * I (Vf (Bessel.e2 a b)) (Real.sin β) (Real.cos β * Real.cos α) σ := by positivity
  linarith

omit hb hab in
theorem endF_zero (l β α : ℝ) : endF a b l β (0, α) = pt a b l β := by
  simp [endF, pt, pxF, pyF, ux, uy, uz, hh, lamF, I, mul_assoc]

section
variable (hf : (a - b) / a ≤ 1 / 250) {M : ℝ} (hM : M < Real.pi) (hq : (a - b) / a * (M / Real.sin M) ≤ 1 / 10)
include hf hM hq

/-- A path on the ellipsoid is at least as long as the geodesic of the field that has the same ends. -/
theorem path_length {l β σ α T : ℝ} {c : ℝ → E3} (hβ : 0 < Real.cos β) (h0 : 0 ≤ σ) (h1 : σ ≤ M)
    (hc : IsSurfacePath a b (pt a b l β) (endF a b l β (σ, α)) T c) (hT : T / b + 4 * ((a - b) / a) ≤ M) :
    a * lenF (Bessel.e2 a b) β σ α ≤ T := by
  have ha : 0 < a := hb.trans_le hab
  have f0 : 0 ≤ (a - b) / a := div_nonneg (by linarith) ha.le
  have hx : ∀ t, ∃ L B, 0 ≤ t → t ≤ T → c t = pt a b (l + L) B := fun t => by
    by_cases ht : 0 ≤ t ∧ t ≤ T
    · obtain ⟨L, B, -, h⟩ := exists_pt hb hab l (hc.surface t ht.1 ht.2)
      exact ⟨L, B, fun _ _ => h⟩
    · exact ⟨0, 0, fun a b => absurd ⟨a, b⟩ ht⟩
  choose L B hp using hx
  have harc : ∀ t, 0 ≤ t → t ≤ T → arc β (B t) (L t) + 4 * ((a - b) / a) ≤ M := fun t t0 t1 => by
    have := path_arc hb hab hc hp t0 t1
    have : t / b ≤ T / b := by gcongr
    linarith
  have hx : ∀ t, ∃ s w, 0 ≤ t → t ≤ T → 0 ≤ s ∧ s ≤ M ∧ endF a b l β (s, w) = pt a b (l + L t) (B t) := fun t => by
    by_cases ht : 0 ≤ t ∧ t ≤ T
    · obtain ⟨s, w, h⟩ := lift_exists hb hab hf hM hq (l := l) hβ (harc t ht.1 ht.2)
      exact ⟨s, w, fun _ _ => h⟩
    · exact ⟨0, 0, fun a b => absurd ⟨a, b⟩ ht⟩
  choose S W hl using hx
  set D : ℝ → ℝ := fun t => a * lenF (Bessel.e2 a b) β (S t) (W t) with hD
  -- near the start
  have hS : ∀ t, 0 ≤ t → t ≤ T → D t ≤ 4 * a / b * ‖c t - c 0‖ := fun t t0 t1 => by
    obtain ⟨s0, s1, s2⟩ := hl t t0 t1
    obtain ⟨-, k2, -⟩ := lift_eq hb hab hM hβ s0 s1 s2
    have k3 := lamF_abs hb hab β (W t) s0
    have k4 := arc_lip β (B t) (L t + lamF (Bessel.e2 a b) β (S t) (W t)) (L t)
    rw [add_sub_cancel_left, k2] at k4
    have k5 := arc_le_chord l (l + L t) β (B t)
    rw [add_sub_cancel_left] at k5
    have k6 := sph_le_pt hb hab l (l + L t) β (B t)
    rw [← hp t t0 t1, norm_sub_rev _ (c t)] at k6
    have k7 : ‖sph l β - sph (l + L t) (B t)‖ ≤ ‖c t - c 0‖ / b := by
      rw [le_div_iff₀ hb, hc.start]; linarith
    have k8 : (a - b) / a * S t ≤ 1 / 250 * S t := by gcongr
    have k9 : S t ≤ 4 * (‖c t - c 0‖ / b) := by
      have : 0 ≤ ‖c t - c 0‖ / b := by positivity
      linarith
    calc D t ≤ a * S t := mul_le_mul_of_nonneg_left (lenF_le hb hab β (W t) s0) ha.le
      _ ≤ a * (4 * (‖c t - c 0‖ / b)) := mul_le_mul_of_nonneg_left k9 ha.le
      _ = _ := by ring
  have hDT : a * lenF (Bessel.e2 a b) β σ α = D T := by
    obtain ⟨s0, s1, s2⟩ := hl T hc.nonneg le_rfl
    have := (lift_unique hb hab hf hM hq hβ (harc T hc.nonneg le_rfl) h0 h1
      (by rw [← hp T hc.nonneg le_rfl, hc.arrive]) s0 s1 s2).2
    rw [hD, this]
  rw [hDT]
  -- the last time at the start
  have hcc : ContinuousOn c (Set.Icc 0 T) :=
    LipschitzOnWith.continuousOn (K := 1) (LipschitzOnWith.of_dist_le_mul fun x hx y hy => by
      rw [dist_eq_norm, Real.dist_eq, NNReal.coe_one, one_mul]
      exact hc.speed y x hy.1 hy.2 hx.1 hx.2)
  have hK : IsCompact (Set.Icc 0 T ∩ c ⁻¹' {c 0}) :=
    isCompact_Icc.of_isClosed_subset (hcc.preimage_isClosed_of_isClosed isClosed_Icc isClosed_singleton) Set.inter_subset_left
  obtain ⟨τ, ⟨⟨τ0, τ1⟩, τc⟩, hmax⟩ := hK.exists_isGreatest ⟨0, ⟨le_rfl, hc.nonneg⟩, rfl⟩
  have τc : c τ = c 0 := τc
  have hpos : ∀ t, τ < t → t ≤ T → 0 < S t := fun t t0 t1 => by
    obtain ⟨s0, s1, s2⟩ := hl t (τ0.trans t0.le) t1
    refine lt_of_le_of_ne s0 fun h => ?_
    rw [← h, endF_zero, ← hp t (τ0.trans t0.le) t1, ← hc.start] at s2
    exact absurd (hmax ⟨⟨τ0.trans t0.le, t1⟩, s2.symm⟩) (not_le.2 t0)
  rcases τ1.eq_or_lt with hτ | hτ
  · have := hS T hc.nonneg le_rfl
    rw [← hτ, τc, sub_self, norm_zero, mul_zero, hτ] at this
    exact this.trans hc.nonneg
  have hloc : ∀ ε, 0 < ε → ∀ t, τ < t → t ≤ T → ∃ δ, 0 < δ ∧ ∀ u, 0 ≤ u → u ≤ T → |u - t| < δ →
      |D u - D t| ≤ (1 + ε) * |u - t| := fun ε hε t t0 t1 => by
    have t00 := τ0.trans t0.le
    obtain ⟨s0, s1, s2⟩ := hl t t00 t1
    obtain ⟨δ, hδ, h⟩ := length_local hb hab hf hM hq hβ (hpos t t0 t1) s1 s2 hε
    refine ⟨δ, hδ, fun u u0 u1 hu => ?_⟩
    obtain ⟨v0, v1, v2⟩ := hl u u0 u1
    have hs := hc.speed t u t00 t1 u0 u1
    have := h _ _ _ _ (harc u u0 u1) v0 v1 v2 (by rw [← hp u u0 u1, ← hp t t00 t1]; linarith)
    rw [← hp u u0 u1, ← hp t t00 t1] at this
    exact this.trans (mul_le_mul_of_nonneg_left hs (by linarith))
  refine le_of_forall_pos_le_add fun ε hε => ?_
  have hC : 0 < 4 * a / b := by positivity
  set η := min (ε / (4 * a / b)) (T - τ) with hη
  have η0 : 0 < η := lt_min (by positivity) (by linarith)
  have η1 : τ + η ≤ T := by linarith [min_le_right (ε / (4 * a / b)) (T - τ)]
  have η2 : 4 * a / b * η ≤ ε := by
    have := min_le_left (ε / (4 * a / b)) (T - τ)
    rw [← hη, le_div_iff₀ hC] at this
    linarith
  have hfin := slope_le (g := D) (K := 1) η1 (fun t ht => ?_) fun e he t t0 t1 => ?_
  · have k1 := hS (τ + η) (by linarith) η1
    have k2 := hc.speed τ (τ + η) τ0 τ1 (by linarith) η1
    rw [add_sub_cancel_left, abs_of_pos η0, τc] at k2
    have k3 := mul_le_mul_of_nonneg_left k2 hC.le
    linarith
  · obtain ⟨δ, hδ, h⟩ := hloc 1 one_pos t (by linarith [ht.1]) ht.2
    refine Metric.continuousWithinAt_iff.2 fun e he => ⟨min δ (e / 2), lt_min hδ (by positivity), fun u hu hut => ?_⟩
    rw [Real.dist_eq] at hut ⊢
    have := h u (by linarith [hu.1]) hu.2 (hut.trans_le (min_le_left _ _))
    have := hut.trans_le (min_le_right _ _)
    linarith
  · obtain ⟨δ, hδ, h⟩ := hloc e he t (by linarith) t1.le
    refine ⟨δ, hδ, fun u tu uδ uT => ?_⟩
    have := h u (by linarith) uT (by rw [abs_of_pos (by linarith)]; linarith)
    rw [abs_of_pos (show 0 < u - t by linarith)] at this
    linarith [(abs_le.1 this).2]

end

end

end Geo.Shortest
