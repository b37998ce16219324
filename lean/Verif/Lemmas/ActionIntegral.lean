import Mathlib.MeasureTheory.Integral.IntervalIntegral.FundThmCalculus
import Mathlib.Analysis.Calculus.MeanValue
import Mathlib.Analysis.Calculus.FDeriv.Prod
import Mathlib.Analysis.Calculus.FDeriv.Mul
import Mathlib.Analysis.SpecialFunctions.Trigonometric.Deriv
import Mathlib.Analysis.SpecialFunctions.Sqrt

/-! Integrals along an arc whose upper end and whose direction vary. -/

namespace Geo.Shortest

/-- Remainder of the expansion to first order, on a compact set. -/
theorem quad_bound {F F1 F2 : ℝ → ℝ → ℝ} (h1 : ∀ A t, HasDerivAt (fun A => F A t) (F1 A t) A)
    (h2 : ∀ A t, HasDerivAt (fun A => F1 A t) (F2 A t) A) (c2 : Continuous fun p : ℝ × ℝ => F2 p.1 p.2) (A0 R : ℝ) :
    ∃ K, 0 ≤ K ∧ ∀ A t, |A - A0| ≤ 1 → |t| ≤ R → |F A t - F A0 t - (A - A0) * F1 A0 t| ≤ K * |A - A0| ^ 2 := by
  obtain ⟨K, hK⟩ := (isCompact_Icc (a := A0 - 1) (b := A0 + 1)).prod (isCompact_Icc (a := -R) (b := R)) |>.exists_bound_of_continuousOn
    c2.continuousOn
  refine ⟨max K 0, le_max_right _ _, fun A t hA ht => ?_⟩
  obtain ⟨ht1, ht2⟩ := abs_le.1 ht
  obtain ⟨hA1, hA2⟩ := abs_le.1 hA
  have hsub : ∀ x ∈ Set.uIcc A0 A, A0 - 1 ≤ x ∧ x ≤ A0 + 1 ∧ |x - A0| ≤ |A - A0| := fun x hx => by
    refine ⟨?_, ?_, ?_⟩
    · rcases Set.mem_uIcc.1 hx with h | h <;> linarith [h.1, h.2]
    · rcases Set.mem_uIcc.1 hx with h | h <;> linarith [h.1, h.2]
    · exact Set.abs_sub_left_of_mem_uIcc hx
  have b1 : ∀ x ∈ Set.uIcc A0 A, |F1 x t - F1 A0 t| ≤ max K 0 * |A - A0| := fun x hx => by
    have := Convex.norm_image_sub_le_of_norm_hasDerivWithin_le (f := fun A => F1 A t) (f' := fun A => F2 A t)
      (C := max K 0) (s := Set.uIcc A0 A) (fun y _ => (h2 y t).hasDerivWithinAt) (fun y hy => ?_) (convex_uIcc _ _)
      Set.left_mem_uIcc hx
    · refine this.trans (mul_le_mul_of_nonneg_left ?_ (le_max_right _ _))
      rw [Real.norm_eq_abs]; exact (hsub x hx).2.2
    · exact (hK (y, t) ⟨⟨(hsub y hy).1, (hsub y hy).2.1⟩, ht1, ht2⟩).trans (le_max_left _ _)
  have := Convex.norm_image_sub_le_of_norm_hasDerivWithin_le (f := fun A => F A t - A * F1 A0 t)
      (f' := fun A => F1 A t - F1 A0 t)
      (C := max K 0 * |A - A0|) (s := Set.uIcc A0 A)
      (fun y _ => ((h1 y t).sub ((hasDerivAt_id y).mul_const _) |>.congr_deriv (by ring)).hasDerivWithinAt)
      (fun y hy => b1 y hy) (convex_uIcc _ _) Set.left_mem_uIcc Set.right_mem_uIcc
  rw [Real.norm_eq_abs, Real.norm_eq_abs] at this
  calc |F A t - F A0 t - (A - A0) * F1 A0 t| = |F A t - A * F1 A0 t - (F A0 t - A0 * F1 A0 t)| := by congr 1; ring
    _ ≤ _ := this
    _ = _ := by ring

/-- The derivative of an integral with respect to its upper end and to a parameter of the integrand. -/
theorem prim_fderiv {F F1 F2 : ℝ → ℝ → ℝ} (h1 : ∀ A t, HasDerivAt (fun A => F A t) (F1 A t) A)
    (h2 : ∀ A t, HasDerivAt (fun A => F1 A t) (F2 A t) A) (k0 : ∀ A, Continuous (F A)) (k1 : ∀ A, Continuous (F1 A))
    (c2 : Continuous fun p : ℝ × ℝ => F2 p.1 p.2) (A0 σ0 : ℝ) :
    HasFDerivAt (fun p : ℝ × ℝ => ∫ t in (0 : ℝ)..p.2, F p.1 t)
      ((∫ t in (0 : ℝ)..σ0, F1 A0 t) • ContinuousLinearMap.fst ℝ ℝ ℝ + F A0 σ0 • ContinuousLinearMap.snd ℝ ℝ ℝ) (A0, σ0) := by
  obtain ⟨K, hK0, hK⟩ := quad_bound h1 h2 c2 A0 (|σ0| + 1)
  have hP : ∀ s, HasDerivAt (fun s => ∫ t in (0 : ℝ)..s, F A0 t) (F A0 s) s := fun s =>
    intervalIntegral.integral_hasDerivAt_right ((k0 A0).intervalIntegrable _ _)
      ((k0 A0).stronglyMeasurableAtFilter _ _) (k0 A0).continuousAt
  have hG : ∀ s, HasDerivAt (fun s => ∫ t in (0 : ℝ)..s, F1 A0 t) (F1 A0 s) s := fun s =>
    intervalIntegral.integral_hasDerivAt_right ((k1 A0).intervalIntegrable _ _)
      ((k1 A0).stronglyMeasurableAtFilter _ _) (k1 A0).continuousAt
  have hs : HasFDerivAt (fun p : ℝ × ℝ => p.2) (ContinuousLinearMap.snd ℝ ℝ ℝ) (A0, σ0) := hasFDerivAt_snd
  have hf : HasFDerivAt (fun p : ℝ × ℝ => p.1) (ContinuousLinearMap.fst ℝ ℝ ℝ) (A0, σ0) := hasFDerivAt_fst
  have m1 := (hP σ0).comp_hasFDerivAt (A0, σ0) hs
  have m2 := (hf.sub_const A0).mul ((hG σ0).comp_hasFDerivAt (A0, σ0) hs)
  have m3 : HasFDerivAt (fun p : ℝ × ℝ => (∫ t in (0 : ℝ)..p.2, F p.1 t) - ((∫ t in (0 : ℝ)..p.2, F A0 t) +
      (p.1 - A0) * ∫ t in (0 : ℝ)..p.2, F1 A0 t)) (0 : ℝ × ℝ →L[ℝ] ℝ) (A0, σ0) := by
    refine Asymptotics.IsBigO.hasFDerivAt (n := 2) ?_ (by norm_num)
    refine Asymptotics.IsBigO.of_bound (K * (|σ0| + 1)) ?_
    filter_upwards [Metric.ball_mem_nhds ((A0, σ0) : ℝ × ℝ) one_pos] with p hp
    rw [Metric.mem_ball, dist_eq_norm] at hp
    have n1 : |p.1 - A0| ≤ ‖p - (A0, σ0)‖ := norm_fst_le (p - (A0, σ0))
    have n2 : |p.2 - σ0| ≤ ‖p - (A0, σ0)‖ := norm_snd_le (p - (A0, σ0))
    have n3 : |p.2| ≤ |σ0| + 1 := by
      have := abs_add_le (p.2 - σ0) σ0
      rw [sub_add_cancel] at this
      linarith
    have e : (∫ t in (0 : ℝ)..p.2, F p.1 t) - ((∫ t in (0 : ℝ)..p.2, F A0 t) + (p.1 - A0) * ∫ t in (0 : ℝ)..p.2, F1 A0 t) =
        ∫ t in (0 : ℝ)..p.2, (F p.1 t - F A0 t - (p.1 - A0) * F1 A0 t) := by
      rw [intervalIntegral.integral_sub ((show Continuous fun t => F p.1 t - F A0 t from (k0 _).sub (k0 _)).intervalIntegrable _ _)
        ((show Continuous fun t => (p.1 - A0) * F1 A0 t from continuous_const.mul (k1 _)).intervalIntegrable _ _),
        intervalIntegral.integral_sub ((k0 _).intervalIntegrable _ _) ((k0 _).intervalIntegrable _ _),
        intervalIntegral.integral_const_mul]
      ring
    rw [e]
    have := intervalIntegral.norm_integral_le_of_norm_le_const (a := 0) (b := p.2)
      (f := fun t => F p.1 t - F A0 t - (p.1 - A0) * F1 A0 t) (C := K * |p.1 - A0| ^ 2) (fun t ht => by
        refine hK _ _ (n1.trans hp.le) ?_
        rcases le_total 0 p.2 with h | h
        · rw [Set.uIoc_of_le h] at ht
          rw [abs_of_pos ht.1]
          exact ht.2.trans ((le_abs_self _).trans n3)
        · rw [Set.uIoc_of_ge h] at ht
          rw [abs_of_nonpos ht.2]
          exact (neg_le_neg ht.1.le).trans ((neg_le_abs _).trans n3))
    refine this.trans ?_
    rw [sub_zero, Real.norm_eq_abs, abs_of_nonneg (by positivity : (0 : ℝ) ≤ ‖p - (A0, σ0)‖ ^ 2)]
    calc K * |p.1 - A0| ^ 2 * |p.2| ≤ K * ‖p - (A0, σ0)‖ ^ 2 * (|σ0| + 1) := by gcongr
      _ = _ := by ring
  have m4 := m3.add (m1.add m2)
  refine (m4.congr_of_eventuallyEq (Filter.Eventually.of_forall fun p => ?_)).congr_fderiv ?_
  · simp
  · ext <;> simp

/-- Height of the point at the arc `t` of a great circle that starts at the height `z` with the slope `A`. -/
noncomputable def hh (z A t : ℝ) : ℝ := z * Real.cos t + A * Real.sin t
noncomputable def hd (z A t : ℝ) : ℝ := A * Real.cos t - z * Real.sin t

theorem hh_deriv (z A t : ℝ) : HasDerivAt (hh z A) (hd z A t) t := by
  refine (((Real.hasDerivAt_cos t).const_mul z).add ((Real.hasDerivAt_sin t).const_mul A)).congr_deriv ?_
  rw [hd]; ring

theorem hd_deriv (z A t : ℝ) : HasDerivAt (hd z A) (-hh z A t) t := by
  refine (((Real.hasDerivAt_cos t).const_mul A).sub ((Real.hasDerivAt_sin t).const_mul z)).congr_deriv ?_
  rw [hh]; ring

theorem hh_slope (z A t : ℝ) : HasDerivAt (fun A => hh z A t) (Real.sin t) A := by
  refine (((hasDerivAt_id A).mul_const (Real.sin t)).const_add (z * Real.cos t)).congr_deriv ?_
  ring

theorem hd_slope (z A t : ℝ) : HasDerivAt (fun A => hd z A t) (Real.cos t) A := by
  refine (((hasDerivAt_id A).mul_const (Real.cos t)).sub_const (z * Real.sin t)).congr_deriv ?_
  ring

theorem hh_energy (z A t : ℝ) : hh z A t ^ 2 + hd z A t ^ 2 = z ^ 2 + A ^ 2 := by
  rw [hh, hd]
  linear_combination (z ^ 2 + A ^ 2) * Real.sin_sq_add_cos_sq t

section
variable {V V1 V2 : ℝ → ℝ} (d1 : ∀ x, HasDerivAt V (V1 x) x) (d2 : ∀ x, HasDerivAt V1 (V2 x) x) (c2 : Continuous V2)
  (z A σ : ℝ)

/-- The integrals of `V` and of `V h'²`. -/
noncomputable def I (V : ℝ → ℝ) (z A σ : ℝ) : ℝ := ∫ t in (0 : ℝ)..σ, V (hh z A t)
noncomputable def Q (V : ℝ → ℝ) (z A σ : ℝ) : ℝ := ∫ t in (0 : ℝ)..σ, V (hh z A t) * hd z A t ^ 2

/-- Derivative of `I` with respect to the slope. -/
noncomputable def IA (V1 : ℝ → ℝ) (z A σ : ℝ) : ℝ := ∫ t in (0 : ℝ)..σ, V1 (hh z A t) * Real.sin t

theorem hh_continuous : Continuous (hh z A) := by unfold hh; fun_prop
theorem hd_continuous : Continuous (hd z A) := by unfold hd; fun_prop
theorem hh_continuous2 : Continuous fun p : ℝ × ℝ => hh z p.1 p.2 := by unfold hh; fun_prop
theorem hd_continuous2 : Continuous fun p : ℝ × ℝ => hd z p.1 p.2 := by unfold hd; fun_prop

include d1 d2 c2

theorem I_fderiv : HasFDerivAt (fun p : ℝ × ℝ => I V z p.1 p.2)
    (IA V1 z A σ • ContinuousLinearMap.fst ℝ ℝ ℝ + V (hh z A σ) • ContinuousLinearMap.snd ℝ ℝ ℝ) (A, σ) := by
  have kV : Continuous V := continuous_iff_continuousAt.2 fun x => (d1 x).continuousAt
  have kV1 : Continuous V1 := continuous_iff_continuousAt.2 fun x => (d2 x).continuousAt
  refine prim_fderiv (F := fun A t => V (hh z A t)) (F1 := fun A t => V1 (hh z A t) * Real.sin t)
    (F2 := fun A t => V2 (hh z A t) * Real.sin t * Real.sin t) (fun A t => (d1 _).comp A (hh_slope z A t))
    (fun A t => ((d2 _).comp A (hh_slope z A t)).mul_const _) (fun A => kV.comp (hh_continuous z A))
    (fun A => (kV1.comp (hh_continuous z A)).mul Real.continuous_sin) ?_ A σ
  have := c2.comp (hh_continuous2 z)
  exact (this.mul (Real.continuous_sin.comp continuous_snd)).mul (Real.continuous_sin.comp continuous_snd)

omit c2 in
/-- The action: its derivative with respect to the slope, by parts. -/
theorem Q_slope : (∫ t in (0 : ℝ)..σ, (V1 (hh z A t) * Real.sin t * hd z A t ^ 2 + V (hh z A t) * (2 * hd z A t * Real.cos t))) =
    V (hh z A σ) * hd z A σ * Real.sin σ + A * I V z A σ := by
  have kV : Continuous V := continuous_iff_continuousAt.2 fun x => (d1 x).continuousAt
  have kV1 : Continuous V1 := continuous_iff_continuousAt.2 fun x => (d2 x).continuousAt
  have kh := hh_continuous z A
  have kd := hd_continuous z A
  have k1 := kV.comp kh
  have k2 := kV1.comp kh
  have hder : ∀ t, HasDerivAt (fun t => V (hh z A t) * hd z A t * Real.sin t)
      (V1 (hh z A t) * Real.sin t * hd z A t ^ 2 + V (hh z A t) * (2 * hd z A t * Real.cos t) - A * V (hh z A t)) t := fun t => by
    refine ((((d1 _).comp t (hh_deriv z A t)).mul (hd_deriv z A t)).mul (Real.hasDerivAt_sin t)).congr_deriv ?_
    simp only [Function.comp, Pi.mul_apply, hh, hd]
    linear_combination -(A * V (z * Real.cos t + A * Real.sin t)) * Real.sin_sq_add_cos_sq t
  have c3 : Continuous fun t => V1 (hh z A t) * Real.sin t * hd z A t ^ 2 + V (hh z A t) * (2 * hd z A t * Real.cos t) :=
    ((k2.mul Real.continuous_sin).mul (kd.pow 2)).add (k1.mul ((continuous_const.mul kd).mul Real.continuous_cos))
  have c4 : Continuous fun t => A * V (hh z A t) := continuous_const.mul k1
  have := intervalIntegral.integral_eq_sub_of_hasDerivAt (a := 0) (b := σ) (fun t _ => hder t) ((c3.sub c4).intervalIntegrable _ _)
  rw [intervalIntegral.integral_sub (c3.intervalIntegrable _ _) (c4.intervalIntegrable _ _),
    intervalIntegral.integral_const_mul, Real.sin_zero] at this
  rw [I]
  linarith

theorem Q_fderiv : HasFDerivAt (fun p : ℝ × ℝ => Q V z p.1 p.2)
    ((V (hh z A σ) * hd z A σ * Real.sin σ + A * I V z A σ) • ContinuousLinearMap.fst ℝ ℝ ℝ +
      (V (hh z A σ) * hd z A σ ^ 2) • ContinuousLinearMap.snd ℝ ℝ ℝ) (A, σ) := by
  have kV : Continuous V := continuous_iff_continuousAt.2 fun x => (d1 x).continuousAt
  have kV1 : Continuous V1 := continuous_iff_continuousAt.2 fun x => (d2 x).continuousAt
  rw [← Q_slope d1 d2]
  refine prim_fderiv (F := fun A t => V (hh z A t) * hd z A t ^ 2)
    (F1 := fun A t => V1 (hh z A t) * Real.sin t * hd z A t ^ 2 + V (hh z A t) * (2 * hd z A t * Real.cos t))
    (F2 := fun A t => V2 (hh z A t) * Real.sin t * Real.sin t * hd z A t ^ 2 + V1 (hh z A t) * Real.sin t * (2 * hd z A t * Real.cos t) +
      (V1 (hh z A t) * Real.sin t * (2 * hd z A t * Real.cos t) + V (hh z A t) * (2 * Real.cos t * Real.cos t)))
    (fun A t => ?_) (fun A t => ?_) (fun A => (kV.comp (hh_continuous z A)).mul ((hd_continuous z A).pow 2))
    (fun A => ?_) ?_ A σ
  · refine (((d1 _).comp A (hh_slope z A t)).mul ((hd_slope z A t).pow 2)).congr_deriv ?_
    simp [Function.comp]
  · have e1 := (((d2 _).comp A (hh_slope z A t)).mul_const (Real.sin t)).mul ((hd_slope z A t).pow 2)
    have e2 := ((d1 _).comp A (hh_slope z A t)).mul (((hd_slope z A t).const_mul 2).mul_const (Real.cos t))
    refine (e1.add e2).congr_deriv ?_
    simp [Function.comp]
  · have k1 := kV.comp (hh_continuous z A)
    have k2 := kV1.comp (hh_continuous z A)
    have kd := hd_continuous z A
    exact ((k2.mul Real.continuous_sin).mul (kd.pow 2)).add (k1.mul ((continuous_const.mul kd).mul Real.continuous_cos))
  · have k0 := c2.comp (hh_continuous2 z)
    have k1 := kV1.comp (hh_continuous2 z)
    have k2 := kV.comp (hh_continuous2 z)
    have kd := hd_continuous2 z
    have ks : Continuous fun p : ℝ × ℝ => Real.sin p.2 := Real.continuous_sin.comp continuous_snd
    have kc : Continuous fun p : ℝ × ℝ => Real.cos p.2 := Real.continuous_cos.comp continuous_snd
    have g1 := (k1.mul ks).mul ((continuous_const (y := (2 : ℝ)).mul kd).mul kc)
    exact ((((k0.mul ks).mul ks).mul (kd.pow 2)).add g1).add (g1.add (k2.mul ((continuous_const.mul kc).mul kc)))

end

end Geo.Shortest
