import Verif.Spec.SurfacePath
import Verif.Lemmas.Bessel

/-! Putting curves on the ellipsoid together. -/

namespace Geo.Spec

variable {a b : ℝ}

/-- Curves one after the other. -/
theorem IsSurfacePath.trans {p q r : E3} {T U : ℝ} {c d : ℝ → E3} (h : IsSurfacePath a b p q T c)
    (k : IsSurfacePath a b q r U d) : ∃ e, IsSurfacePath a b p r (T + U) e := by
  have hT := h.nonneg
  have hU := k.nonneg
  have hmix : ∀ t u, 0 ≤ t → t ≤ T → T ≤ u → u ≤ T + U → ‖d (u - T) - c t‖ ≤ u - t := fun t u t0 t1 u0 u1 => by
    have a1 := h.speed t T t0 t1 hT le_rfl
    have a2 := k.speed 0 (u - T) le_rfl hU (by linarith) (by linarith)
    rw [h.arrive, abs_of_nonneg (by linarith)] at a1
    rw [k.start, sub_zero, abs_of_nonneg (by linarith)] at a2
    have := norm_sub_le_norm_sub_add_norm_sub (d (u - T)) q (c t)
    linarith
  refine ⟨fun t => if t ≤ T then c t else d (t - T), by linarith, fun t t0 t1 => ?_, fun t u t0 t1 u0 u1 => ?_, ?_, ?_⟩
  · by_cases ht : t ≤ T
    · simp only [if_pos ht]; exact h.surface t t0 ht
    · simp only [if_neg ht]; exact k.surface _ (by linarith) (by linarith)
  · by_cases ht : t ≤ T <;> by_cases hu : u ≤ T
    · simp only [if_pos ht, if_pos hu]; exact h.speed t u t0 ht u0 hu
    · simp only [if_pos ht, if_neg hu]
      exact (hmix t u t0 ht (by linarith) u1).trans (le_abs_self _)
    · simp only [if_neg ht, if_pos hu]
      rw [norm_sub_rev, abs_sub_comm]
      exact (hmix u t u0 hu (by linarith) t1).trans (le_abs_self _)
    · simp only [if_neg ht, if_neg hu]
      have := k.speed (t - T) (u - T) (by linarith) (by linarith) (by linarith) (by linarith)
      rwa [sub_sub_sub_cancel_right] at this
  · simp only [if_pos hT]; exact h.start
  · by_cases h0 : U = 0
    · subst h0
      have e : q = r := by rw [← k.start, ← k.arrive]
      simp only [add_zero, le_refl, if_true]
      rw [h.arrive, e]
    · have : ¬ T + U ≤ T := by
        have := lt_of_le_of_ne hU (Ne.symm h0)
        linarith
      simp only [if_neg this, add_sub_cancel_left]
      exact k.arrive

/-- The same curve, run through backwards. -/
theorem IsSurfacePath.symm {p q : E3} {T : ℝ} {c : ℝ → E3} (h : IsSurfacePath a b p q T c) :
    IsSurfacePath a b q p T fun t => c (T - t) := by
  refine ⟨h.nonneg, fun t t0 t1 => h.surface _ (by linarith) (by linarith), fun t u t0 t1 u0 u1 => ?_, ?_, ?_⟩
  · have := h.speed (T - t) (T - u) (by linarith) (by linarith) (by linarith) (by linarith)
    rw [abs_sub_comm]
    rwa [sub_sub_sub_cancel_left] at this
  · simp only [sub_zero]; exact h.arrive
  · simp only [sub_self]; exact h.start

/-- A piece of a geodesic. -/
theorem IsGeodesic.path {γ : ℝ → E3} (h : IsGeodesic a b γ) {s t : ℝ} (hst : s ≤ t) :
    IsSurfacePath a b (γ s) (γ t) (t - s) fun x => γ (s + x) := by
  refine ⟨by linarith, fun x _ _ => h.surface _, fun x y _ _ _ _ => ?_, ?_, ?_⟩
  · have := h.chord (s + x) (s + y)
    rwa [add_sub_add_left_eq_sub] at this
  · simp only [add_zero]
  · simp only [add_sub_cancel]

/-- A geodesic from a later start. -/
theorem IsGeodesic.shift {γ : ℝ → E3} (h : IsGeodesic a b γ) (s : ℝ) : IsGeodesic a b fun x => γ (s + x) := by
  have e : deriv (fun x => γ (s + x)) = fun x => deriv γ (s + x) := funext fun x => deriv_comp_const_add _ _ _
  refine ⟨fun x => h.surface _, h.differentiable.comp (differentiable_id.const_add s), fun x => ?_, ?_, fun x => ?_⟩
  · rw [e]; exact h.unit_speed _
  · rw [e]; exact h.differentiable'.comp (differentiable_id.const_add s)
  · rw [e, deriv_comp_const_add (deriv γ)]; exact h.normal _

end Geo.Spec
