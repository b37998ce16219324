import Verif.Spec.SurfaceGeodesic
import Verif.Spec.Geodesics
import Mathlib.Analysis.Calculus.Deriv.Inverse
import Mathlib.Analysis.Calculus.Deriv.MeanValue
import Mathlib.Analysis.SpecialFunctions.Integrals.Basic
import Mathlib.MeasureTheory.Integral.IntervalIntegral.FundThmCalculus
import Mathlib.Analysis.SpecialFunctions.Sqrt
import Mathlib.Tactic.FieldSimp
import Mathlib.Tactic.LinearCombination

/-!
Geodesics of the ellipsoid by Bessel's auxiliary sphere: a curve parametrised by the arc `σ` from the node, shown to be a
geodesic in the sense of `Geo.Spec.IsGeodesic`.
-/

namespace Geo.Bessel
open Spec

/-- Acceleration in the equatorial plane, first component in the moving frame. -/
theorem alg_re {s0 c0 S C q w dq dw : ℝ} (h1 : s0 ^ 2 + c0 ^ 2 = 1) (h2 : S ^ 2 + C ^ 2 = 1)
    (hw : w = 1 - q * (s0 ^ 2 + c0 ^ 2 * C ^ 2)) (hw0 : w ≠ 0) (hdq : dq = -(q ^ 2 * c0 ^ 2 * (C * S) / w))
    (hdw : dw = q * (1 + w) * c0 ^ 2 * (C * S) / w) :
    ((-(-(s0 ^ 2 * dq) * S + (1 - s0 ^ 2 * q) * C)) * w - -((1 - s0 ^ 2 * q) * S) * dw) / w ^ 2
      + s0 * q * (s0 * ((1 - q) * C) / w) =
      -((1 - q * (1 + w)) * (1 - q * (1 + w) * s0 ^ 2) / w ^ 4) * w * C := by
  have h1' : c0 ^ 2 = 1 - s0 ^ 2 := by linarith
  have h2' : S ^ 2 = 1 - C ^ 2 := by linarith
  subst hdq hdw
  rw [h1'] at hw ⊢
  field_simp
  ring_nf
  simp only [h2']
  rw [hw]
  ring

/-- The same, second component. -/
theorem alg_im {s0 c0 S C q w dq dw : ℝ} (h1 : s0 ^ 2 + c0 ^ 2 = 1) (h2 : S ^ 2 + C ^ 2 = 1)
    (hw : w = 1 - q * (s0 ^ 2 + c0 ^ 2 * C ^ 2)) (hw0 : w ≠ 0) (hdq : dq = -(q ^ 2 * c0 ^ 2 * (C * S) / w))
    (hdw : dw = q * (1 + w) * c0 ^ 2 * (C * S) / w) :
    ((s0 * (-dq * C + (1 - q) * -S)) * w - s0 * ((1 - q) * C) * dw) / w ^ 2 - s0 * q * (-((1 - s0 ^ 2 * q) * S) / w) =
      -((1 - q * (1 + w)) * (1 - q * (1 + w) * s0 ^ 2) / w ^ 4) * w * (s0 * S) := by
  have h1' : c0 ^ 2 = 1 - s0 ^ 2 := by linarith
  subst hdq hdw
  rw [h1'] at hw ⊢
  field_simp
  rw [hw]
  ring

/-- Along the axis. -/
theorem alg_z {s0 c0 S C q w dw : ℝ} (h1 : s0 ^ 2 + c0 ^ 2 = 1)
    (hw : w = 1 - q * (s0 ^ 2 + c0 ^ 2 * C ^ 2)) (hw0 : w ≠ 0)
    (hdw : dw = q * (1 + w) * c0 ^ 2 * (C * S) / w) :
    (-S * w - C * dw) / w ^ 2 = -((1 - q * (1 + w) * s0 ^ 2) / w ^ 3) * S := by
  have h1' : c0 ^ 2 = 1 - s0 ^ 2 := by linarith
  subst hdw
  rw [h1'] at hw ⊢
  field_simp
  rw [hw]
  ring

/-- Speed. -/
theorem alg_speed {s0 c0 S C q w ba : ℝ} (h1 : s0 ^ 2 + c0 ^ 2 = 1) (h2 : S ^ 2 + C ^ 2 = 1)
    (hw : w = 1 - q * (s0 ^ 2 + c0 ^ 2 * C ^ 2)) (hw0 : w ≠ 0) (hba : ba ^ 2 = 1 - q * (1 + w)) :
    (-((1 - s0 ^ 2 * q) * S) / w) ^ 2 + (s0 * ((1 - q) * C) / w) ^ 2 + (ba * c0 * C / w) ^ 2 = 1 := by
  have h1' : c0 ^ 2 = 1 - s0 ^ 2 := by linarith
  have h2' : S ^ 2 = 1 - C ^ 2 := by linarith
  rw [div_pow, div_pow, div_pow, ← add_div, ← add_div, div_eq_one_iff_eq (by positivity), mul_pow (ba * c0), mul_pow ba, hba,
    neg_sq, mul_pow _ S, h2']
  rw [h1'] at hw ⊢
  rw [hw]
  ring

variable (a b s0 c0 : ℝ)

/-- `e²`. -/
noncomputable def e2 : ℝ := 1 - b ^ 2 / a ^ 2
/-- `√(1 - e² cos² β)` at the arc `σ` from the node. -/
noncomputable def w (σ : ℝ) : ℝ := Real.sqrt (1 - e2 a b * (s0 ^ 2 + c0 ^ 2 * Real.cos σ ^ 2))
/-- `e² / (1 + w)`. -/
noncomputable def q (σ : ℝ) : ℝ := e2 a b / (1 + w a b s0 c0 σ)
/-- Distance along the geodesic from the node. -/
noncomputable def T (σ : ℝ) : ℝ := ∫ x in (0 : ℝ)..σ, a * w a b s0 c0 x
/-- Longitude on the auxiliary sphere minus longitude. -/
noncomputable def G (σ : ℝ) : ℝ := ∫ x in (0 : ℝ)..σ, s0 * q a b s0 c0 x

section
variable {a b s0 c0 : ℝ} (hb : 0 < b) (hab : b ≤ a) (h1 : s0 ^ 2 + c0 ^ 2 = 1)
include hb hab

theorem e2_nonneg : 0 ≤ e2 a b := by
  have ha : 0 < a := lt_of_lt_of_le hb hab
  rw [e2, sub_nonneg, div_le_one (by positivity)]
  nlinarith

theorem e2_lt : e2 a b < 1 := by
  have ha : 0 < a := lt_of_lt_of_le hb hab
  have : 0 < b ^ 2 / a ^ 2 := by positivity
  rw [e2]; linarith

include h1

theorem R_le (σ : ℝ) : 0 ≤ s0 ^ 2 + c0 ^ 2 * Real.cos σ ^ 2 ∧ s0 ^ 2 + c0 ^ 2 * Real.cos σ ^ 2 ≤ 1 := by
  have := Real.cos_sq_le_one σ
  constructor
  · positivity
  · nlinarith [sq_nonneg c0]

theorem arg_pos (σ : ℝ) : b ^ 2 / a ^ 2 ≤ 1 - e2 a b * (s0 ^ 2 + c0 ^ 2 * Real.cos σ ^ 2) := by
  have h := R_le hb hab h1 σ
  have := e2_nonneg hb hab
  have e : b ^ 2 / a ^ 2 = 1 - e2 a b := by rw [e2]; ring
  rw [e]
  nlinarith [h.2]

theorem w_sq (σ : ℝ) : w a b s0 c0 σ ^ 2 = 1 - e2 a b * (s0 ^ 2 + c0 ^ 2 * Real.cos σ ^ 2) :=
  Real.sq_sqrt (le_trans (by positivity) (arg_pos hb hab h1 σ))

theorem w_ge (σ : ℝ) : b / a ≤ w a b s0 c0 σ := by
  have ha : 0 < a := lt_of_lt_of_le hb hab
  apply Real.le_sqrt_of_sq_le
  rw [div_pow]
  exact arg_pos hb hab h1 σ

theorem w_pos (σ : ℝ) : 0 < w a b s0 c0 σ := by
  have ha : 0 < a := lt_of_lt_of_le hb hab
  exact lt_of_lt_of_le (by positivity) (w_ge hb hab h1 σ)

theorem w_le (σ : ℝ) : w a b s0 c0 σ ≤ 1 := by
  have := mul_nonneg (e2_nonneg hb hab) (R_le hb hab h1 σ).1
  exact Real.sqrt_le_iff.2 ⟨zero_le_one, by rw [one_pow]; linarith⟩

theorem q_mul (σ : ℝ) : q a b s0 c0 σ * (1 + w a b s0 c0 σ) = e2 a b := by
  have := w_pos hb hab h1 σ
  rw [q, div_mul_cancel₀ _ (by positivity)]

theorem w_q (σ : ℝ) : w a b s0 c0 σ = 1 - q a b s0 c0 σ * (s0 ^ 2 + c0 ^ 2 * Real.cos σ ^ 2) := by
  have h := w_pos hb hab h1 σ
  have h2 := w_sq hb hab h1 σ
  have h3 : (1 + w a b s0 c0 σ) ≠ 0 := by positivity
  rw [← q_mul hb hab h1 σ] at h2
  have : (1 + w a b s0 c0 σ) * (w a b s0 c0 σ - (1 - q a b s0 c0 σ * (s0 ^ 2 + c0 ^ 2 * Real.cos σ ^ 2))) = 0 := by
    linear_combination h2
  have := (mul_eq_zero.1 this).resolve_left h3
  linarith

theorem w_deriv (σ : ℝ) : HasDerivAt (w a b s0 c0)
    (q a b s0 c0 σ * (1 + w a b s0 c0 σ) * c0 ^ 2 * (Real.cos σ * Real.sin σ) / w a b s0 c0 σ) σ := by
  have ha : 0 < a := lt_of_lt_of_le hb hab
  have hp := w_pos hb hab h1 σ
  have h2 := arg_pos hb hab h1 σ
  have h3 : (0 : ℝ) < b ^ 2 / a ^ 2 := by positivity
  have d : HasDerivAt (fun σ => 1 - e2 a b * (s0 ^ 2 + c0 ^ 2 * Real.cos σ ^ 2))
      (2 * (e2 a b * c0 ^ 2 * (Real.cos σ * Real.sin σ))) σ := by
    refine HasDerivAt.congr_deriv ((((((Real.hasDerivAt_cos σ).pow 2).const_mul (c0 ^ 2)).const_add (s0 ^ 2)).const_mul
      (e2 a b)).const_sub 1) ?_
    simp; ring
  refine HasDerivAt.congr_deriv (d.sqrt (by linarith)) ?_
  rw [q_mul hb hab h1]
  change 2 * (e2 a b * c0 ^ 2 * (Real.cos σ * Real.sin σ)) / (2 * w a b s0 c0 σ) = _
  field_simp

theorem q_deriv (σ : ℝ) : HasDerivAt (q a b s0 c0)
    (-(q a b s0 c0 σ ^ 2 * c0 ^ 2 * (Real.cos σ * Real.sin σ) / w a b s0 c0 σ)) σ := by
  have hp := w_pos hb hab h1 σ
  have h3 : (1 + w a b s0 c0 σ) ≠ 0 := by positivity
  have d := (hasDerivAt_const σ (e2 a b)).div ((w_deriv hb hab h1 σ).const_add 1) h3
  refine HasDerivAt.congr_deriv d ?_
  have := q_mul hb hab h1 σ
  rw [← this]
  field_simp
  ring

theorem w_continuous : Continuous (w a b s0 c0) :=
  continuous_iff_continuousAt.2 fun σ => (w_deriv hb hab h1 σ).continuousAt

theorem q_continuous : Continuous (q a b s0 c0) :=
  continuous_iff_continuousAt.2 fun σ => (q_deriv hb hab h1 σ).continuousAt

theorem T_deriv (σ : ℝ) : HasDerivAt (T a b s0 c0) (a * w a b s0 c0 σ) σ := by
  have hc : Continuous fun x => a * w a b s0 c0 x := continuous_const.mul (w_continuous hb hab h1)
  exact intervalIntegral.integral_hasDerivAt_right (hc.intervalIntegrable _ _)
    (hc.stronglyMeasurableAtFilter _ _) hc.continuousAt

theorem G_deriv (σ : ℝ) : HasDerivAt (G a b s0 c0) (s0 * q a b s0 c0 σ) σ := by
  have hc : Continuous fun x => s0 * q a b s0 c0 x := continuous_const.mul (q_continuous hb hab h1)
  exact intervalIntegral.integral_hasDerivAt_right (hc.intervalIntegrable _ _)
    (hc.stronglyMeasurableAtFilter _ _) hc.continuousAt

theorem T_strictMono : StrictMono (T a b s0 c0) := by
  have ha : 0 < a := lt_of_lt_of_le hb hab
  refine strictMono_of_deriv_pos fun σ => ?_
  rw [(T_deriv hb hab h1 σ).deriv]
  exact mul_pos ha (w_pos hb hab h1 σ)

theorem T_grow {x y : ℝ} (h : x ≤ y) : b * (y - x) ≤ T a b s0 c0 y - T a b s0 c0 x := by
  have ha : 0 < a := lt_of_lt_of_le hb hab
  refine mul_sub_le_image_sub_of_le_deriv (f := T a b s0 c0)
    (fun σ => (T_deriv hb hab h1 σ).differentiableAt) (fun σ => ?_) h
  rw [(T_deriv hb hab h1 σ).deriv]
  have := w_ge hb hab h1 σ
  rw [div_le_iff₀ ha] at this
  linarith

theorem T_surjective : Function.Surjective (T a b s0 c0) := by
  have hc : Continuous (T a b s0 c0) := continuous_iff_continuousAt.2 fun σ => (T_deriv hb hab h1 σ).continuousAt
  refine hc.surjective ?_ ?_
  · refine Filter.tendsto_atTop_mono' _ ?_ ((Filter.tendsto_id.const_mul_atTop hb).comp Filter.tendsto_id)
    filter_upwards [Filter.eventually_ge_atTop (0 : ℝ)] with σ hσ
    have := T_grow hb hab h1 hσ
    simp only [T, intervalIntegral.integral_same, sub_zero] at this
    exact this
  · refine Filter.tendsto_atBot_mono' _ ?_ ((Filter.tendsto_id.const_mul_atBot hb).comp Filter.tendsto_id)
    filter_upwards [Filter.eventually_le_atBot (0 : ℝ)] with σ hσ
    have := T_grow hb hab h1 hσ
    simp only [T, intervalIntegral.integral_same, zero_sub] at this
    show T a b s0 c0 σ ≤ b * σ
    simp only [T]
    linarith

end

/-- Position, in terms of the arc from the node; `l` is the longitude of the node. -/
noncomputable def pos (l σ : ℝ) : E3 :=
  !₂[a * (Real.cos σ * Real.cos (l - G a b s0 c0 σ) - s0 * Real.sin σ * Real.sin (l - G a b s0 c0 σ)),
    a * (Real.cos σ * Real.sin (l - G a b s0 c0 σ) + s0 * Real.sin σ * Real.cos (l - G a b s0 c0 σ)),
    b * c0 * Real.sin σ]

/-- Components of the velocity in the moving frame. -/
noncomputable def vA (σ : ℝ) : ℝ := -((1 - s0 ^ 2 * q a b s0 c0 σ) * Real.sin σ) / w a b s0 c0 σ
noncomputable def vB (σ : ℝ) : ℝ := s0 * ((1 - q a b s0 c0 σ) * Real.cos σ) / w a b s0 c0 σ

/-- Velocity (derivative with respect to the distance). -/
noncomputable def vel (l σ : ℝ) : E3 :=
  !₂[vA a b s0 c0 σ * Real.cos (l - G a b s0 c0 σ) - vB a b s0 c0 σ * Real.sin (l - G a b s0 c0 σ),
    vA a b s0 c0 σ * Real.sin (l - G a b s0 c0 σ) + vB a b s0 c0 σ * Real.cos (l - G a b s0 c0 σ),
    b / a * c0 * Real.cos σ / w a b s0 c0 σ]

theorem hasDerivAt_vec3 {x y z : ℝ → ℝ} {x' y' z' t : ℝ} (hx : HasDerivAt x x' t) (hy : HasDerivAt y y' t)
    (hz : HasDerivAt z z' t) : HasDerivAt (fun t => (!₂[x t, y t, z t] : E3)) !₂[x', y', z'] t := by
  have e : ∀ x y z : ℝ, (!₂[x, y, z] : E3) = x • !₂[1, 0, 0] + y • !₂[0, 1, 0] + z • !₂[0, 0, 1] := by
    intro x y z
    ext i
    fin_cases i <;> simp
  have e' : (fun t => (!₂[x t, y t, z t] : E3)) =
      fun t => x t • !₂[1, 0, 0] + y t • !₂[0, 1, 0] + z t • !₂[0, 0, 1] := funext fun t => e _ _ _
  rw [e', e x' y' z']
  exact ((hx.smul_const _).add (hy.smul_const _)).add (hz.smul_const _)

section
variable {a b s0 c0 : ℝ} (hb : 0 < b) (hab : b ≤ a) (h1 : s0 ^ 2 + c0 ^ 2 = 1) (l : ℝ)
include hb hab h1

theorem theta_deriv (σ : ℝ) : HasDerivAt (fun σ => l - G a b s0 c0 σ) (-(s0 * q a b s0 c0 σ)) σ :=
  HasDerivAt.congr_deriv ((G_deriv hb hab h1 σ).const_sub l) rfl

theorem pos_deriv (σ : ℝ) : HasDerivAt (pos a b s0 c0 l) ((a * w a b s0 c0 σ) • vel a b s0 c0 l σ) σ := by
  have ha : 0 < a := lt_of_lt_of_le hb hab
  have hw := (w_pos hb hab h1 σ).ne'
  have dθ := theta_deriv hb hab h1 l σ
  have dc := dθ.cos
  have ds := dθ.sin
  have c := Real.hasDerivAt_cos σ
  have s := Real.hasDerivAt_sin σ
  have d := hasDerivAt_vec3 (((c.mul dc).sub ((s.const_mul s0).mul ds)).const_mul a)
    (((c.mul ds).add ((s.const_mul s0).mul dc)).const_mul a) (s.const_mul (b * c0))
  refine HasDerivAt.congr_deriv d ?_
  ext i
  fin_cases i
  · simp [vel, vA, vB]; field_simp; ring
  · simp [vel, vA, vB]; field_simp; ring
  · simp [vel]; field_simp

theorem vA_deriv (σ : ℝ) : HasDerivAt (vA a b s0 c0)
    (-((1 - e2 a b) * (1 - e2 a b * s0 ^ 2) / w a b s0 c0 σ ^ 4) * w a b s0 c0 σ * Real.cos σ -
      s0 * q a b s0 c0 σ * vB a b s0 c0 σ) σ := by
  have hw := (w_pos hb hab h1 σ).ne'
  have d := (((((q_deriv hb hab h1 σ).const_mul (s0 ^ 2)).const_sub 1).mul (Real.hasDerivAt_sin σ)).neg).div
    (w_deriv hb hab h1 σ) hw
  have k := alg_re h1 (Real.sin_sq_add_cos_sq σ) (w_q hb hab h1 σ) hw rfl rfl
  rw [q_mul hb hab h1] at k
  refine HasDerivAt.congr_deriv d ?_
  rw [← k, vB]
  simp only [q_mul hb hab h1, Pi.mul_apply, Pi.neg_apply]
  ring

theorem vB_deriv (σ : ℝ) : HasDerivAt (vB a b s0 c0)
    (-((1 - e2 a b) * (1 - e2 a b * s0 ^ 2) / w a b s0 c0 σ ^ 4) * w a b s0 c0 σ * (s0 * Real.sin σ) +
      s0 * q a b s0 c0 σ * vA a b s0 c0 σ) σ := by
  have hw := (w_pos hb hab h1 σ).ne'
  have d := ((((q_deriv hb hab h1 σ).const_sub 1).mul (Real.hasDerivAt_cos σ)).const_mul s0).div
    (w_deriv hb hab h1 σ) hw
  have k := alg_im h1 (Real.sin_sq_add_cos_sq σ) (w_q hb hab h1 σ) hw rfl rfl
  rw [q_mul hb hab h1] at k
  refine HasDerivAt.congr_deriv d ?_
  rw [← k, vA]
  simp only [q_mul hb hab h1, Pi.mul_apply, Pi.neg_apply]
  ring

theorem vel_deriv (σ : ℝ) : HasDerivAt (vel a b s0 c0 l)
    ((a * w a b s0 c0 σ * -((1 - e2 a b) * (1 - e2 a b * s0 ^ 2) / w a b s0 c0 σ ^ 4)) •
      !₂[pos a b s0 c0 l σ 0 / a ^ 2, pos a b s0 c0 l σ 1 / a ^ 2, pos a b s0 c0 l σ 2 / b ^ 2]) σ := by
  have ha : 0 < a := lt_of_lt_of_le hb hab
  have hw := (w_pos hb hab h1 σ).ne'
  have dθ := theta_deriv hb hab h1 l σ
  have dA := vA_deriv hb hab h1 σ
  have dB := vB_deriv hb hab h1 σ
  have dz := ((Real.hasDerivAt_cos σ).const_mul (b / a * c0)).div (w_deriv hb hab h1 σ) hw
  have kz := alg_z (S := Real.sin σ) h1 (w_q hb hab h1 σ) hw rfl
  have d := hasDerivAt_vec3 ((dA.mul dθ.cos).sub (dB.mul dθ.sin)) ((dA.mul dθ.sin).add (dB.mul dθ.cos)) dz
  refine HasDerivAt.congr_deriv d ?_
  ext i
  fin_cases i
  · simp [pos]; field_simp; ring
  · simp [pos]; field_simp; ring
  · have e : 1 - e2 a b = b ^ 2 / a ^ 2 := by rw [e2]; ring
    rw [q_mul hb hab h1] at kz
    have e' : (b / a * c0 * -Real.sin σ * w a b s0 c0 σ - b / a * c0 * Real.cos σ *
        (e2 a b * c0 ^ 2 * (Real.cos σ * Real.sin σ) / w a b s0 c0 σ)) / w a b s0 c0 σ ^ 2 =
        b / a * c0 * ((-Real.sin σ * w a b s0 c0 σ - Real.cos σ *
        (e2 a b * c0 ^ 2 * (Real.cos σ * Real.sin σ) / w a b s0 c0 σ)) / w a b s0 c0 σ ^ 2) := by
      ring
    simp only [pos, q_mul hb hab h1]
    rw [e', kz, e]
    simp
    field_simp

theorem pos_surface (σ : ℝ) :
    OnEllipsoid a b (pos a b s0 c0 l σ 0) (pos a b s0 c0 l σ 1) (pos a b s0 c0 l σ 2) := by
  have ha : 0 < a := lt_of_lt_of_le hb hab
  simp only [OnEllipsoid, pos]
  simp
  field_simp
  have e1 := Real.sin_sq_add_cos_sq σ
  have e2 := Real.sin_sq_add_cos_sq (l - G a b s0 c0 σ)
  linear_combination (Real.cos σ ^ 2 + s0 ^ 2 * Real.sin σ ^ 2) * e2 + e1 + Real.sin σ ^ 2 * h1

theorem vel_norm (σ : ℝ) : ‖vel a b s0 c0 l σ‖ = 1 := by
  have ha : 0 < a := lt_of_lt_of_le hb hab
  have hw := (w_pos hb hab h1 σ).ne'
  have k := alg_speed (ba := b / a) h1 (Real.sin_sq_add_cos_sq σ) (w_q hb hab h1 σ) hw
    (by rw [q_mul hb hab h1, e2, div_pow]; ring)
  rw [EuclideanSpace.norm_eq, Real.sqrt_eq_one, Fin.sum_univ_three]
  simp only [Real.norm_eq_abs, sq_abs]
  simp only [vel]
  simp
  have e2 := Real.sin_sq_add_cos_sq (l - G a b s0 c0 σ)
  rw [vA, vB]
  linear_combination ((-((1 - s0 ^ 2 * q a b s0 c0 σ) * Real.sin σ) / w a b s0 c0 σ) ^ 2 +
    (s0 * ((1 - q a b s0 c0 σ) * Real.cos σ) / w a b s0 c0 σ) ^ 2) * e2 + k

/-- The curve run through at unit speed from the arc `σ₁` is a geodesic. -/
theorem geodesic (σ₁ : ℝ) : ∃ σ : ℝ → ℝ, (∀ t, T a b s0 c0 (σ t) = T a b s0 c0 σ₁ + t) ∧ σ 0 = σ₁ ∧
    IsGeodesic a b (fun t => pos a b s0 c0 l (σ t)) ∧
    ∀ t, deriv (fun t => pos a b s0 c0 l (σ t)) t = vel a b s0 c0 l (σ t) := by
  have ha : 0 < a := lt_of_lt_of_le hb hab
  have hm := T_strictMono hb hab h1
  let f := hm.orderIsoOfSurjective (T a b s0 c0) (T_surjective hb hab h1)
  have hf : ∀ y, T a b s0 c0 (f.symm y) = y := fun y => f.apply_symm_apply y
  have hd : ∀ y, HasDerivAt f.symm (a * w a b s0 c0 (f.symm y))⁻¹ y := fun y =>
    HasDerivAt.of_local_left_inverse f.symm.continuous.continuousAt (T_deriv hb hab h1 _)
      (mul_pos ha (w_pos hb hab h1 _)).ne' (Filter.Eventually.of_forall hf)
  have hσ : ∀ t, HasDerivAt (fun t => f.symm (T a b s0 c0 σ₁ + t)) (a * w a b s0 c0 (f.symm (T a b s0 c0 σ₁ + t)))⁻¹ t :=
    fun t => HasDerivAt.congr_deriv ((hd (T a b s0 c0 σ₁ + t)).comp_const_add (T a b s0 c0 σ₁) t) rfl
  have hp : ∀ t, HasDerivAt (fun t => pos a b s0 c0 l (f.symm (T a b s0 c0 σ₁ + t)))
      (vel a b s0 c0 l (f.symm (T a b s0 c0 σ₁ + t))) t := fun t => by
    have := (pos_deriv hb hab h1 l (f.symm (T a b s0 c0 σ₁ + t))).scomp t (hσ t)
    refine HasDerivAt.congr_deriv this ?_
    rw [smul_smul, inv_mul_cancel₀ (mul_pos ha (w_pos hb hab h1 _)).ne', one_smul]
  have hdv : (deriv fun t => pos a b s0 c0 l (f.symm (T a b s0 c0 σ₁ + t))) =
      vel a b s0 c0 l ∘ fun t => f.symm (T a b s0 c0 σ₁ + t) := funext fun t => (hp t).deriv
  have hv := fun t => (vel_deriv hb hab h1 l (f.symm (T a b s0 c0 σ₁ + t))).scomp t (hσ t)
  refine ⟨fun t => f.symm (T a b s0 c0 σ₁ + t), fun t => hf _, ?_, ⟨fun t => pos_surface hb hab h1 l _,
    fun t => (hp t).differentiableAt, fun t => ?_, ?_, fun t => ?_⟩, fun t => (hp t).deriv⟩
  · show f.symm (T a b s0 c0 σ₁ + 0) = σ₁
    rw [add_zero]; exact f.symm_apply_apply σ₁
  · rw [(hp t).deriv]; exact vel_norm hb hab h1 l _
  · rw [hdv]; exact fun t => (hv t).differentiableAt
  · refine ⟨(a * w a b s0 c0 (f.symm (T a b s0 c0 σ₁ + t)))⁻¹ * (a * w a b s0 c0 (f.symm (T a b s0 c0 σ₁ + t)) *
      -((1 - e2 a b) * (1 - e2 a b * s0 ^ 2) / w a b s0 c0 (f.symm (T a b s0 c0 σ₁ + t)) ^ 4)), ?_⟩
    rw [hdv, (hv t).deriv, smul_smul]

end

/-- `β` is the reduced latitude of the geodetic latitude `φ`. -/
def Reduced (a b φ β : ℝ) : Prop :=
  a ^ 2 / Real.sqrt (a ^ 2 * Real.cos φ ^ 2 + b ^ 2 * Real.sin φ ^ 2) * Real.cos φ = a * Real.cos β ∧
  b ^ 2 / a ^ 2 * (a ^ 2 / Real.sqrt (a ^ 2 * Real.cos φ ^ 2 + b ^ 2 * Real.sin φ ^ 2)) * Real.sin φ = b * Real.sin β

/-- The point at longitude `l` and reduced latitude `β`. -/
theorem surfacePoint_reduced {a b l φ β : ℝ} (h : Reduced a b φ β) :
    surfacePoint a b l φ = !₂[a * Real.cos β * Real.cos l, a * Real.cos β * Real.sin l, b * Real.sin β] := by
  rw [surfacePoint, ← h.1, ← h.2]

section
variable {a b s0 c0 : ℝ} (hb : 0 < b) (hab : b ≤ a) (h1 : s0 ^ 2 + c0 ^ 2 = 1) (l : ℝ)

/-- The position, with reduced latitude `β` and longitude `ω` on the auxiliary sphere. -/
theorem pos_eq {σ β ω φ : ℝ} (h : Reduced a b φ β) (h2 : Real.cos β * Real.cos ω = Real.cos σ)
    (h3 : Real.cos β * Real.sin ω = s0 * Real.sin σ) (h4 : Real.sin β = c0 * Real.sin σ) :
    pos a b s0 c0 l σ = surfacePoint a b (l - G a b s0 c0 σ + ω) φ := by
  rw [surfacePoint_reduced h, pos, ← h2, ← h3, h4]
  ext i
  fin_cases i
  · simp [Real.cos_add]; ring
  · simp [Real.sin_add]; ring
  · simp; ring

include hb hab h1

/-- The velocity, with the azimuth `α`. -/
theorem vel_eq {σ β ω φ α : ℝ} (hβ : 0 < Real.cos β) (h : Reduced a b φ β)
    (h2 : Real.cos β * Real.cos ω = Real.cos σ) (h3 : Real.cos β * Real.sin ω = s0 * Real.sin σ)
    (h4 : Real.sin β = c0 * Real.sin σ) (h5 : Real.cos β * Real.sin α = s0)
    (h6 : Real.cos β * Real.cos α = c0 * Real.cos σ) :
    vel a b s0 c0 l σ = direction (l - G a b s0 c0 σ + ω) φ α := by
  have ha : 0 < a := lt_of_lt_of_le hb hab
  have hw := w_pos hb hab h1 σ
  have hwq := w_q hb hab h1 σ
  have hw2 := w_sq hb hab h1 σ
  obtain ⟨k1, k2⟩ := h
  set N := a ^ 2 / Real.sqrt (a ^ 2 * Real.cos φ ^ 2 + b ^ 2 * Real.sin φ ^ 2) with hN
  have hNp : 0 < N := by
    refine lt_of_le_of_ne (by positivity) fun h0 => ?_
    rw [← h0, zero_mul] at k1
    exact (mul_pos ha hβ).ne k1
  have hR : Real.cos β ^ 2 = s0 ^ 2 + c0 ^ 2 * Real.cos σ ^ 2 := by
    have e1 := Real.sin_sq_add_cos_sq ω
    have e2 := Real.sin_sq_add_cos_sq σ
    have : Real.cos β ^ 2 = Real.cos σ ^ 2 + (s0 * Real.sin σ) ^ 2 := by
      rw [← h2, ← h3]; linear_combination -(Real.cos β ^ 2) * e1
    linear_combination this + s0 ^ 2 * e2 - Real.cos σ ^ 2 * h1
  have hNw : N = a ^ 2 / b * w a b s0 c0 σ := by
    have e1 := Real.sin_sq_add_cos_sq φ
    have e3 := Real.sin_sq_add_cos_sq β
    have c1 : Real.cos φ = a * Real.cos β / N := by rw [← k1]; field_simp
    have c2 : Real.sin φ = a ^ 2 * Real.sin β / (b * N) := by
      have : b * Real.sin φ * N = a ^ 2 * Real.sin β := by
        have := k2
        field_simp at this
        linear_combination this
      rw [← this]; field_simp
    have : N ^ 2 = (a ^ 2 / b * w a b s0 c0 σ) ^ 2 := by
      rw [mul_pow, hw2, ← hR, e2]
      rw [c1, c2] at e1
      field_simp at e1 ⊢
      linear_combination -e1 + a ^ 4 * e3
    exact (pow_left_inj₀ hNp.le (by positivity) two_ne_zero).1 this
  have hcφ : Real.cos φ = b / a * Real.cos β / w a b s0 c0 σ := by
    rw [hNw] at k1
    field_simp at k1 ⊢
    linear_combination k1
  have hsφ : Real.sin φ = Real.sin β / w a b s0 c0 σ := by
    rw [hNw] at k2
    field_simp at k2 ⊢
    linear_combination k2
  have cA : Real.cos β ^ 2 * vA a b s0 c0 σ = -(c0 ^ 2 * Real.cos σ ^ 2 * Real.sin σ / w a b s0 c0 σ) - s0 ^ 2 * Real.sin σ := by
    rw [vA, hR]
    field_simp
    linear_combination s0 ^ 2 * Real.sin σ * hwq
  have cB : Real.cos β ^ 2 * vB a b s0 c0 σ = s0 * Real.cos σ - c0 ^ 2 * s0 * Real.cos σ * Real.sin σ ^ 2 / w a b s0 c0 σ := by
    have e2 := Real.sin_sq_add_cos_sq σ
    rw [vB, hR]
    field_simp
    linear_combination -s0 * Real.cos σ * hwq + s0 * Real.cos σ * h1 + s0 * Real.cos σ * c0 ^ 2 * e2
  have hc2 : Real.cos β ^ 2 ≠ 0 := by positivity
  have hx : Real.cos β * Real.cos (l - G a b s0 c0 σ + ω) =
      Real.cos σ * Real.cos (l - G a b s0 c0 σ) - s0 * Real.sin σ * Real.sin (l - G a b s0 c0 σ) := by
    rw [Real.cos_add]
    linear_combination Real.cos (l - G a b s0 c0 σ) * h2 - Real.sin (l - G a b s0 c0 σ) * h3
  have hy : Real.cos β * Real.sin (l - G a b s0 c0 σ + ω) =
      Real.cos σ * Real.sin (l - G a b s0 c0 σ) + s0 * Real.sin σ * Real.cos (l - G a b s0 c0 σ) := by
    rw [Real.sin_add]
    linear_combination Real.sin (l - G a b s0 c0 σ) * h2 + Real.cos (l - G a b s0 c0 σ) * h3
  rw [h4] at hsφ
  ext i
  fin_cases i
  · simp [vel, direction]
    generalize Real.cos (l - G a b s0 c0 σ + ω) = X at *
    generalize Real.sin (l - G a b s0 c0 σ + ω) = Y at *
    rw [hsφ]
    refine mul_left_cancel₀ hc2 ?_
    linear_combination Real.cos (l - G a b s0 c0 σ) * cA - Real.sin (l - G a b s0 c0 σ) * cB +
      c0 * Real.sin σ / w a b s0 c0 σ * (Real.cos β * X) * h6 + c0 * Real.sin σ / w a b s0 c0 σ * c0 * Real.cos σ * hx +
      Real.cos β * Y * h5 + s0 * hy
  · simp [vel, direction]
    generalize Real.cos (l - G a b s0 c0 σ + ω) = X at *
    generalize Real.sin (l - G a b s0 c0 σ + ω) = Y at *
    rw [hsφ]
    refine mul_left_cancel₀ hc2 ?_
    linear_combination Real.sin (l - G a b s0 c0 σ) * cA + Real.cos (l - G a b s0 c0 σ) * cB +
      c0 * Real.sin σ / w a b s0 c0 σ * (Real.cos β * Y) * h6 + c0 * Real.sin σ / w a b s0 c0 σ * c0 * Real.cos σ * hy -
      Real.cos β * X * h5 - s0 * hx
  · simp [vel, direction]
    rw [hcφ]
    refine mul_left_cancel₀ hc2 ?_
    linear_combination -(b / a * Real.cos β ^ 2 / w a b s0 c0 σ) * h6

end

/-- A geodesic is not faster than the straight line. -/
theorem _root_.Geo.Spec.IsGeodesic.chord {a b : ℝ} {γ : ℝ → E3} (h : IsGeodesic a b γ) (s t : ℝ) :
    ‖γ t - γ s‖ ≤ |t - s| := by
  have := Convex.norm_image_sub_le_of_norm_deriv_le (f := γ) (C := 1) (s := Set.univ)
    (fun x _ => h.differentiable x) (fun x _ => (h.unit_speed x).le) convex_univ (Set.mem_univ s) (Set.mem_univ t)
  rwa [one_mul, Real.norm_eq_abs] at this

/-- Two points at the same latitude. -/
theorem surfacePoint_sub {a b l l' φ β : ℝ} (ha : 0 ≤ a) (h : Reduced a b φ β) :
    ‖surfacePoint a b l φ - surfacePoint a b l' φ‖ ≤ a * |l - l'| := by
  rw [surfacePoint_reduced h, surfacePoint_reduced h, EuclideanSpace.norm_eq]
  refine Real.sqrt_le_iff.2 ⟨by positivity, ?_⟩
  simp [Fin.sum_univ_three]
  have e1 : (a * Real.cos β * Real.cos l - a * Real.cos β * Real.cos l') ^ 2 +
      (a * Real.cos β * Real.sin l - a * Real.cos β * Real.sin l') ^ 2 =
      a ^ 2 * Real.cos β ^ 2 * (4 * Real.sin ((l - l') / 2) ^ 2) := by
    have h1 := Real.cos_sub l l'
    have h2 := Real.cos_sq' ((l - l') / 2)
    have h3 := Real.cos_two_mul ((l - l') / 2)
    rw [show 2 * ((l - l') / 2) = l - l' by ring] at h3
    linear_combination a ^ 2 * Real.cos β ^ 2 * (Real.sin_sq_add_cos_sq l + Real.sin_sq_add_cos_sq l' + 2 * h1
      - 2 * h3 - 4 * h2)
  rw [e1, mul_pow, sq_abs, mul_assoc]
  refine mul_le_mul_of_nonneg_left ?_ (by positivity)
  have k1 := Real.cos_sq_le_one β
  have k2 : Real.sin ((l - l') / 2) ^ 2 ≤ ((l - l') / 2) ^ 2 := Real.sin_sq_le_sq
  have k3 := sq_nonneg (Real.sin ((l - l') / 2))
  nlinarith

/-- The longitude on the auxiliary sphere at the arc `σ` from the node. -/
theorem exists_omega {s0 c0 β σ : ℝ} (h1 : s0 ^ 2 + c0 ^ 2 = 1) (h : Real.cos β ^ 2 = s0 ^ 2 + c0 ^ 2 * Real.cos σ ^ 2)
    (hβ : 0 < Real.cos β) :
    ∃ ω, Real.cos β * Real.cos ω = Real.cos σ ∧ Real.cos β * Real.sin ω = s0 * Real.sin σ := by
  refine ⟨Complex.arg ⟨Real.cos σ, s0 * Real.sin σ⟩, ?_⟩
  have hn : ‖(⟨Real.cos σ, s0 * Real.sin σ⟩ : ℂ)‖ = Real.cos β := by
    rw [← Real.sqrt_sq hβ.le, Complex.norm_def, Complex.normSq_mk]
    congr 1
    rw [h]
    linear_combination s0 ^ 2 * Real.sin_sq_add_cos_sq σ - Real.cos σ ^ 2 * h1
  have h0 : (⟨Real.cos σ, s0 * Real.sin σ⟩ : ℂ) ≠ 0 := by rw [← norm_pos_iff, hn]; exact hβ
  rw [Complex.cos_arg h0, Complex.sin_arg, hn]
  constructor <;> field_simp

/-- The geodesic that starts at longitude `l`, latitude `φ` (reduced latitude `β`) with azimuth `α`, and where it is
when an arc of great circle on the auxiliary sphere is run through. -/
theorem arc_geodesic {a b : ℝ} (hb : 0 < b) (hab : b ≤ a) {l φ β α s0 c0 σ₁ : ℝ} (hβ : 0 < Real.cos β)
    (hr : Reduced a b φ β) (hs : s0 = Real.cos β * Real.sin α) (hc : Real.cos σ₁ * c0 = Real.cos β * Real.cos α)
    (hn : Real.sin σ₁ * c0 = Real.sin β) (h1 : s0 ^ 2 + c0 ^ 2 = 1) :
    ∃ γ, IsGeodesic a b γ ∧ γ 0 = surfacePoint a b l φ ∧ deriv γ 0 = direction l φ α ∧
      ∀ σ β₂ lam α₂ φ₂, ArcEnd β α σ β₂ lam α₂ → Reduced a b φ₂ β₂ →
        γ (T a b s0 c0 (σ₁ + σ) - T a b s0 c0 σ₁) =
          surfacePoint a b (l + (lam - (G a b s0 c0 (σ₁ + σ) - G a b s0 c0 σ₁))) φ₂ ∧
        (Real.cos β₂ ≠ 0 → deriv γ (T a b s0 c0 (σ₁ + σ) - T a b s0 c0 σ₁) =
          direction (l + (lam - (G a b s0 c0 (σ₁ + σ) - G a b s0 c0 σ₁))) φ₂ α₂) := by
  have hR : Real.cos β ^ 2 = s0 ^ 2 + c0 ^ 2 * Real.cos σ₁ ^ 2 := by
    rw [hs]
    linear_combination -(Real.cos β ^ 2) * Real.sin_sq_add_cos_sq α - (Real.cos σ₁ * c0 + Real.cos β * Real.cos α) * hc
  obtain ⟨ω, o1, o2⟩ := exists_omega h1 hR hβ
  obtain ⟨f, hf, hf0, hγ, hd⟩ := geodesic hb hab h1 (l - ω + G a b s0 c0 σ₁) σ₁
  have e0 : l - ω + G a b s0 c0 σ₁ - G a b s0 c0 σ₁ + ω = l := by ring
  refine ⟨_, hγ, ?_, ?_, fun σ β₂ lam α₂ φ₂ he hr2 => ?_⟩
  · simp only [hf0]
    rw [pos_eq _ hr o1 o2 (by rw [← hn]; ring), e0]
  · rw [hd, hf0, vel_eq hb hab h1 _ hβ hr o1 o2 (by rw [← hn]; ring) hs.symm (by rw [← hc]; ring), e0]
  · have eσ : f (T a b s0 c0 (σ₁ + σ) - T a b s0 c0 σ₁) = σ₁ + σ := by
      refine (T_strictMono hb hab h1).injective ?_
      rw [hf]; ring
    obtain ⟨q0, q1, q2, q3, q4, q5⟩ := he
    have r1 : Real.cos β₂ * Real.cos (ω + lam) = Real.cos (σ₁ + σ) := by
      refine mul_left_cancel₀ (mul_pos hβ hβ).ne' ?_
      rw [Real.cos_add, Real.cos_add]
      linear_combination Real.cos β ^ 2 * Real.cos ω * q3 - Real.cos β ^ 2 * Real.sin ω * q2 + Real.cos β *
        (Real.cos β * Real.cos σ - Real.sin β * Real.sin σ * Real.cos α) * o1 - Real.cos β * Real.sin σ *
        Real.sin α * o2 + Real.sin σ * Real.cos σ₁ * Real.cos β * Real.cos α * hn + Real.sin σ * Real.cos σ₁ *
        Real.sin σ₁ * c0 * hc + Real.sin σ * s0 * Real.sin σ₁ * hs + Real.sin σ * Real.sin σ₁ * hR
    have r2 : Real.cos β₂ * Real.sin (ω + lam) = s0 * Real.sin (σ₁ + σ) := by
      refine mul_left_cancel₀ (mul_pos hβ hβ).ne' ?_
      rw [Real.sin_add, Real.sin_add]
      linear_combination Real.cos β ^ 2 * Real.sin ω * q3 + Real.cos β ^ 2 * Real.cos ω * q2 + Real.cos β *
        (Real.cos β * Real.cos σ - Real.sin β * Real.sin σ * Real.cos α) * o2 + Real.cos β * Real.sin σ *
        Real.sin α * o1 + s0 * Real.sin σ₁ * Real.sin σ * Real.cos β * Real.cos α * hn + s0 * Real.sin σ₁ ^ 2 *
        Real.sin σ * c0 * hc - Real.cos σ₁ * Real.sin σ * hs - s0 * Real.sin σ * Real.cos σ₁ * hR - s0 * Real.sin
        σ * Real.cos σ₁ * c0 ^ 2 * Real.sin_sq_add_cos_sq σ₁ - s0 * Real.sin σ * Real.cos σ₁ * h1
    have r3 : Real.sin β₂ = c0 * Real.sin (σ₁ + σ) := by
      rw [Real.sin_add]
      linear_combination q1 - Real.cos σ * hn - Real.sin σ * hc
    have r4 : Real.cos β₂ * Real.cos α₂ = c0 * Real.cos (σ₁ + σ) := by
      rw [Real.cos_add]
      linear_combination q5 - Real.cos σ * hc + Real.sin σ * hn
    have e3 : l - ω + G a b s0 c0 σ₁ - G a b s0 c0 (σ₁ + σ) + (ω + lam) =
        l + (lam - (G a b s0 c0 (σ₁ + σ) - G a b s0 c0 σ₁)) := by ring
    refine ⟨?_, fun h0 => ?_⟩
    · simp only [eσ]
      rw [pos_eq _ hr2 r1 r2 r3, e3]
    · rw [hd, eσ, vel_eq hb hab h1 _ (lt_of_le_of_ne q0 (Ne.symm h0)) hr2 r1 r2 r3 (by rw [q4, hs]) r4, e3]

end Geo.Bessel
