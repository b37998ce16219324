import Verif.Lemmas.Bessel
import Mathlib.Analysis.ODE.ExistUnique
import Mathlib.Analysis.InnerProductSpace.Calculus

/-! A geodesic is determined by its start and its direction there; its curvature is bounded. -/

namespace Geo.Spec

/-- Half the gradient of `x²/a² + y²/a² + z²/b²`. -/
noncomputable def half_grad (a b : ℝ) (x : E3) : E3 := !₂[x 0 / a ^ 2, x 1 / a ^ 2, x 2 / b ^ 2]

/-- The quadratic form. -/
noncomputable def form (a b : ℝ) (x : E3) : ℝ := x 0 ^ 2 / a ^ 2 + x 1 ^ 2 / a ^ 2 + x 2 ^ 2 / b ^ 2

theorem norm_sq3 (x : E3) : ‖x‖ ^ 2 = x 0 ^ 2 + x 1 ^ 2 + x 2 ^ 2 := by
  rw [EuclideanSpace.norm_sq_eq, Fin.sum_univ_three]; simp

theorem hasDerivAt_coord {γ : ℝ → E3} {v : E3} {t : ℝ} (h : HasDerivAt γ v t) (i : Fin 3) :
    HasDerivAt (fun t => γ t i) (v i) t :=
  (EuclideanSpace.proj i : E3 →L[ℝ] ℝ).hasFDerivAt.comp_hasDerivAt t h

theorem norm_half_grad {a b : ℝ} (x : E3) : ‖half_grad a b x‖ ^ 2 = (x 0 / a ^ 2) ^ 2 + (x 1 / a ^ 2) ^ 2 + (x 2 / b ^ 2) ^ 2 := by
  rw [norm_sq3]; simp [half_grad]

section
variable {a b : ℝ} (hb : 0 < b) (hab : b ≤ a)
include hb hab

theorem half_grad_ge {x : E3} (h : OnEllipsoid a b (x 0) (x 1) (x 2)) : 1 / a ^ 2 ≤ ‖half_grad a b x‖ ^ 2 := by
  have ha : 0 < a := lt_of_lt_of_le hb hab
  rw [norm_half_grad]
  have h' : x 0 ^ 2 / a ^ 2 + x 1 ^ 2 / a ^ 2 + x 2 ^ 2 / b ^ 2 = 1 := by
    have := h; unfold OnEllipsoid at this; rw [← this]
  have e1 : (x 0 / a ^ 2) ^ 2 = x 0 ^ 2 / a ^ 2 * (1 / a ^ 2) := by field_simp
  have e2 : (x 1 / a ^ 2) ^ 2 = x 1 ^ 2 / a ^ 2 * (1 / a ^ 2) := by field_simp
  have e3 : (x 2 / b ^ 2) ^ 2 = x 2 ^ 2 / b ^ 2 * (1 / b ^ 2) := by field_simp
  have hle : 1 / a ^ 2 ≤ 1 / b ^ 2 := by gcongr
  have h3 : 0 ≤ x 2 ^ 2 / b ^ 2 := by positivity
  rw [e1, e2, e3]
  nlinarith

theorem form_le (v : E3) : form a b v ≤ ‖v‖ ^ 2 / b ^ 2 := by
  have ha : 0 < a := lt_of_lt_of_le hb hab
  rw [norm_sq3, form, add_div, add_div]
  gcongr

theorem form_nonneg (v : E3) : 0 ≤ form a b v := by
  have ha : 0 < a := lt_of_lt_of_le hb hab
  unfold form; positivity

/-- The equation of the geodesics. -/
theorem IsGeodesic.accel {γ : ℝ → E3} (h : IsGeodesic a b γ) (t : ℝ) :
    deriv (deriv γ) t = -(form a b (deriv γ t) / ‖half_grad a b (γ t)‖ ^ 2) • half_grad a b (γ t) := by
  have ha : 0 < a := lt_of_lt_of_le hb hab
  have hd := fun t i => hasDerivAt_coord (h.differentiable t).hasDerivAt i
  have hd2 := fun t i => hasDerivAt_coord (h.differentiable' t).hasDerivAt i
  have hs : ∀ t, γ t 0 ^ 2 / a ^ 2 + γ t 1 ^ 2 / a ^ 2 + γ t 2 ^ 2 / b ^ 2 = 1 := fun t => by
    have := h.surface t; unfold OnEllipsoid at this; rw [← this]
  have h1 : ∀ t, γ t 0 * deriv γ t 0 / a ^ 2 + γ t 1 * deriv γ t 1 / a ^ 2 + γ t 2 * deriv γ t 2 / b ^ 2 = 0 := by
    intro t
    have d := ((((hd t 0).pow 2).div_const (a ^ 2)).add (((hd t 1).pow 2).div_const (a ^ 2))).add
      (((hd t 2).pow 2).div_const (b ^ 2))
    have e : HasDerivAt (fun t => γ t 0 ^ 2 / a ^ 2 + γ t 1 ^ 2 / a ^ 2 + γ t 2 ^ 2 / b ^ 2) 0 t := by
      rw [funext hs]; exact hasDerivAt_const _ _
    have := d.unique e
    push_cast at this
    linear_combination (1 / 2) * this
  obtain ⟨μ, hμ⟩ := h.normal t
  have h2 : form a b (deriv γ t) + μ * ‖half_grad a b (γ t)‖ ^ 2 = 0 := by
    have d := ((((hd t 0).mul (hd2 t 0)).div_const (a ^ 2)).add (((hd t 1).mul (hd2 t 1)).div_const (a ^ 2))).add
      (((hd t 2).mul (hd2 t 2)).div_const (b ^ 2))
    have e : HasDerivAt (fun t => γ t 0 * deriv γ t 0 / a ^ 2 + γ t 1 * deriv γ t 1 / a ^ 2 + γ t 2 * deriv γ t 2 / b ^ 2) 0 t := by
      rw [funext h1]; exact hasDerivAt_const _ _
    have := d.unique e
    rw [hμ] at this
    simp at this
    rw [norm_half_grad, form]
    linear_combination this
  have hg : 0 < ‖half_grad a b (γ t)‖ ^ 2 := lt_of_lt_of_le (by positivity) (half_grad_ge hb hab (h.surface t))
  have : μ = -(form a b (deriv γ t) / ‖half_grad a b (γ t)‖ ^ 2) := by
    rw [eq_neg_iff_add_eq_zero, add_comm]
    have := hg.ne'
    rw [div_add' _ _ _ this, h2, zero_div]
  rw [hμ, this]
  rfl

/-- The curvature is at most `a / b²`. -/
theorem IsGeodesic.curvature {γ : ℝ → E3} (h : IsGeodesic a b γ) (t : ℝ) : ‖deriv (deriv γ) t‖ ≤ a / b ^ 2 := by
  have ha : 0 < a := lt_of_lt_of_le hb hab
  have hg := half_grad_ge hb hab (h.surface t)
  have hg0 : 0 < ‖half_grad a b (γ t)‖ := by
    refine lt_of_le_of_ne (norm_nonneg _) fun h0 => ?_
    rw [← h0] at hg
    have : 0 < 1 / a ^ 2 := by positivity
    simp at hg
    linarith [pow_pos ha 2]
  have hga : 1 / a ≤ ‖half_grad a b (γ t)‖ := by
    rw [show 1 / a ^ 2 = (1 / a) ^ 2 by rw [div_pow, one_pow]] at hg
    exact (pow_le_pow_iff_left₀ (by positivity) hg0.le two_ne_zero).1 hg
  have hf := form_le hb hab (deriv γ t)
  have hf0 := form_nonneg hb hab (deriv γ t)
  rw [h.unit_speed t, one_pow] at hf
  rw [h.accel hb hab, norm_smul, norm_neg, norm_div, norm_pow, norm_norm, Real.norm_eq_abs, abs_of_nonneg hf0,
    show form a b (deriv γ t) / ‖half_grad a b (γ t)‖ ^ 2 * ‖half_grad a b (γ t)‖ =
      form a b (deriv γ t) / ‖half_grad a b (γ t)‖ by field_simp, div_le_iff₀ hg0]
  calc form a b (deriv γ t) ≤ 1 / b ^ 2 := hf
    _ = a / b ^ 2 * (1 / a) := by field_simp
    _ ≤ _ := by gcongr

theorem IsGeodesic.turn {γ : ℝ → E3} (h : IsGeodesic a b γ) (s t : ℝ) :
    ‖deriv γ t - deriv γ s‖ ≤ a / b ^ 2 * |t - s| := by
  have := Convex.norm_image_sub_le_of_norm_deriv_le (f := deriv γ) (C := a / b ^ 2) (s := Set.univ)
    (fun x _ => h.differentiable' x) (fun x _ => h.curvature hb hab x) convex_univ (Set.mem_univ s) (Set.mem_univ t)
  rwa [Real.norm_eq_abs] at this

/-- Two geodesics with the same start and the same direction there are the same. -/
theorem IsGeodesic.unique {γ δ : ℝ → E3} (h : IsGeodesic a b γ) (k : IsGeodesic a b δ) (t₀ : ℝ) (e : γ t₀ = δ t₀)
    (e' : deriv γ t₀ = deriv δ t₀) : γ = δ := by
  have ha : 0 < a := lt_of_lt_of_le hb hab
  let F : E3 × E3 → E3 × E3 := fun p => (p.2, -(form a b p.2 / ‖half_grad a b p.1‖ ^ 2) • half_grad a b p.1)
  let S : Set (E3 × E3) := {p | OnEllipsoid a b (p.1 0) (p.1 1) (p.1 2) ∧ ‖p.2‖ = 1}
  have hcg : ContDiff ℝ 1 fun p : E3 × E3 => half_grad a b p.1 := by
    rw [contDiff_euclidean]
    intro i
    fin_cases i <;> simp only [half_grad] <;> simp <;> fun_prop
  have hF : ∀ p ∈ S, ContDiffAt ℝ 1 F p := by
    intro p hp
    have hg : ‖half_grad a b p.1‖ ^ 2 ≠ 0 := (lt_of_lt_of_le (by positivity) (half_grad_ge hb hab hp.1)).ne'
    have c1 : ContDiffAt ℝ 1 (fun p : E3 × E3 => form a b p.2) p := by
      unfold form
      fun_prop
    have c2 : ContDiffAt ℝ 1 (fun p : E3 × E3 => ‖half_grad a b p.1‖ ^ 2) p := hcg.contDiffAt.norm_sq ℝ
    have c3 := (c1.div c2 hg).neg
    exact ContDiffAt.prodMk contDiffAt_snd (c3.smul hcg.contDiffAt)
  have hS : IsCompact S := by
    refine Metric.isCompact_of_isClosed_isBounded ?_ ?_
    · refine IsClosed.inter ?_ ?_
      · exact isClosed_eq (by fun_prop) continuous_const
      · exact isClosed_eq (by fun_prop) continuous_const
    · refine (Metric.isBounded_iff_subset_closedBall 0).2 ⟨max (2 * a) 1, fun p hp => ?_⟩
      rw [mem_closedBall_zero_iff, Prod.norm_def]
      refine max_le_max ?_ hp.2.le
      have h0 : p.1 0 ^ 2 / a ^ 2 + p.1 1 ^ 2 / a ^ 2 + p.1 2 ^ 2 / b ^ 2 = 1 := by
        have := hp.1; unfold OnEllipsoid at this; rw [← this]
      have h1 := norm_sq3 p.1
      have h2 : p.1 2 ^ 2 / a ^ 2 ≤ p.1 2 ^ 2 / b ^ 2 := by gcongr
      have h3 : ‖p.1‖ ^ 2 / a ^ 2 ≤ 1 := by rw [h1, add_div, add_div]; linarith
      rw [div_le_one (by positivity)] at h3
      have := norm_nonneg p.1
      nlinarith
  obtain ⟨K, hK⟩ := LocallyLipschitzOn.exists_lipschitzOnWith_of_compact (f := F) hS fun p hp => by
    obtain ⟨K, t, ht, hl⟩ := (hF p hp).exists_lipschitzOnWith
    exact ⟨K, t, mem_nhdsWithin_of_mem_nhds ht, hl⟩
  have sol : ∀ γ : ℝ → E3, IsGeodesic a b γ → ∀ t, HasDerivAt (fun t => (γ t, deriv γ t)) (F (γ t, deriv γ t)) t ∧
      (γ t, deriv γ t) ∈ S := fun γ h t => by
    refine ⟨(h.differentiable t).hasDerivAt.prodMk ?_, h.surface t, h.unit_speed t⟩
    have := (h.differentiable' t).hasDerivAt
    rw [h.accel hb hab] at this
    exact this
  have := ODE_solution_unique_univ (v := fun _ => F) (s := fun _ => S) (t₀ := t₀) (fun _ => hK) (sol γ h) (sol δ k)
    (by simp only [e, e'])
  funext t
  exact congrArg Prod.fst (congrFun this t)

end

end Geo.Spec
