import Verif.Lemmas.Direct
import Verif.Props.VincentyInverseExact

/-! # C63, C64, C65, C72, C73: the direct geodesic solvers, in exact arithmetic -/

namespace Geo
open XR Spec

/-- An azimuth, a distance. -/
noncomputable abbrev aziR (α : ℝ) : Azimuth XR := ⟨⟨fin α⟩⟩
noncomputable abbrev lenR (s : ℝ) : Length XR := ⟨fin s⟩

theorem azi_new_fin (x : ℝ) : Azimuth.new ⟨fin x⟩ = aziR (normR x) := by rw [Azimuth.new, normalized_fin]

/-- The unit tangent vector of azimuth `α` at longitude `l` and latitude `φ`: `cos α` north plus `sin α` east. -/
noncomputable def tangentAt (l φ α : ℝ) : EuclideanSpace ℝ (Fin 3) :=
  Real.cos α • point3 (-Real.sin φ * Real.cos l) (-Real.sin φ * Real.sin l) (Real.cos φ) +
    Real.sin α • point3 (-Real.sin l) (Real.cos l) 0

theorem point3_ext {x y z : ℝ} {v : EuclideanSpace ℝ (Fin 3)} (h0 : x = v 0) (h1 : y = v 1) (h2 : z = v 2) :
    point3 x y z = v := by
  ext i
  fin_cases i <;> simp [h0, h1, h2]

/-- `ArcEnd` in vector form: position and direction after an arc `σ` of great circle. -/
theorem Spec.ArcEnd.position {β₁ α₁ σ β₂ l α₂ : ℝ} (h : ArcEnd β₁ α₁ σ β₂ l α₂) (l₁ : ℝ) :
    unitAt (l₁ + l) β₂ = Real.cos σ • unitAt l₁ β₁ + Real.sin σ • tangentAt l₁ β₁ α₁ := by
  obtain ⟨_, h2, h3, h4, _, _⟩ := h
  apply point3_ext <;> simp [unitAt, tangentAt, Real.cos_add, Real.sin_add, h2]
  · linear_combination Real.cos l₁ * h4 - Real.sin l₁ * h3
  · linear_combination Real.sin l₁ * h4 + Real.cos l₁ * h3
  · ring

theorem Spec.ArcEnd.direction {β₁ α₁ σ β₂ l α₂ : ℝ} (h : ArcEnd β₁ α₁ σ β₂ l α₂) (h0 : Real.cos β₂ ≠ 0) (l₁ : ℝ) :
    tangentAt (l₁ + l) β₂ α₂ = -Real.sin σ • unitAt l₁ β₁ + Real.cos σ • tangentAt l₁ β₁ α₁ := by
  obtain ⟨_, h2, h3, h4, h5, h6⟩ := h
  have q := Real.sin_sq_add_cos_sq β₂
  have qα := Real.sin_sq_add_cos_sq α₁
  have qβ := Real.sin_sq_add_cos_sq β₁
  have qσ := Real.sin_sq_add_cos_sq σ
  have e1 : Real.sin α₂ = Real.cos β₁ * Real.sin α₁ / Real.cos β₂ := by rw [← h5]; field_simp
  have e2 : Real.cos α₂ = (Real.cos β₁ * Real.cos σ * Real.cos α₁ - Real.sin β₁ * Real.sin σ) / Real.cos β₂ := by
    rw [← h6]; field_simp
  have e3 : Real.sin l = Real.sin σ * Real.sin α₁ / Real.cos β₂ := by rw [← h3]; field_simp
  have e4 : Real.cos l = (Real.cos β₁ * Real.cos σ - Real.sin β₁ * Real.sin σ * Real.cos α₁) / Real.cos β₂ := by
    rw [← h4]; field_simp
  have hc2 : Real.cos β₂ ^ 2 = 1 - (Real.sin β₁ * Real.cos σ + Real.cos β₁ * Real.sin σ * Real.cos α₁) ^ 2 := by
    rw [← h2]; linarith
  -- components along the meridian of the start and across it
  have k1 : -(Real.cos α₂ * Real.sin β₂ * Real.cos l) - Real.sin α₂ * Real.sin l =
      -Real.sin σ * Real.cos β₁ - Real.cos σ * Real.cos α₁ * Real.sin β₁ := by
    rw [e1, e2, e3, e4, h2]
    field_simp
    rw [hc2]
    have s1 : Real.sin β₁ ^ 2 = 1 - Real.cos β₁ ^ 2 := by linarith
    have s2 : Real.sin α₁ ^ 2 = 1 - Real.cos α₁ ^ 2 := by linarith
    have s3 : Real.sin σ ^ 2 = 1 - Real.cos σ ^ 2 := by linarith
    have s1' : Real.sin β₁ ^ 3 = Real.sin β₁ * (1 - Real.cos β₁ ^ 2) := by rw [← s1]; ring
    have s3' : Real.sin σ ^ 3 = Real.sin σ * (1 - Real.cos σ ^ 2) := by rw [← s3]; ring
    ring_nf
    simp only [s1, s2, s3, s1', s3']
    ring
  have k2 : -(Real.cos α₂ * Real.sin β₂ * Real.sin l) + Real.sin α₂ * Real.cos l = Real.cos σ * Real.sin α₁ := by
    rw [e1, e2, e3, e4, h2]
    field_simp
    rw [hc2]
    have s1 : Real.sin β₁ ^ 2 = 1 - Real.cos β₁ ^ 2 := by linarith
    have s3 : Real.sin σ ^ 2 = 1 - Real.cos σ ^ 2 := by linarith
    have s3' : Real.sin σ ^ 3 = Real.sin σ * (1 - Real.cos σ ^ 2) := by rw [← s3]; ring
    ring_nf
    simp only [s1, s3, s3']
    ring
  ext i
  fin_cases i <;> simp [unitAt, tangentAt, Real.cos_add, Real.sin_add]
  · linear_combination Real.cos l₁ * k1 - Real.sin l₁ * k2
  · linear_combination Real.sin l₁ * k1 + Real.cos l₁ * k2
  · linear_combination h6

/-- `g` starts at longitude `l` and latitude `φ` with azimuth `α` and length `s`, and its image on the auxiliary sphere
(where latitudes are reduced latitudes) is an arc `σ` of great circle, the longitude being reduced by `x`. -/
def ArcOutcome (a b : ℝ) (n : String) (l φ α s σ x : ℝ) (g : Geodesic XR) : Prop :=
  ∃ β₁ β₂ lam α₂ φ₂ : ℝ,
    (ell n a b).reducedLatitude (latR φ) = ⟨fin β₁⟩ ∧ (ell n a b).reducedLatitude (latR φ₂) = ⟨fin β₂⟩ ∧
    -(Real.pi / 2) ≤ φ₂ ∧ φ₂ ≤ Real.pi / 2 ∧ -Real.pi < α₂ ∧ α₂ ≤ Real.pi ∧ ArcEnd β₁ α σ β₂ lam α₂ ∧
    g = { p1 := (lonR l, latR φ), alpha1 := aziR α, p2 := (Lon.new ⟨fin (l + (lam - x))⟩, latR φ₂),
          alpha2 := aziR α₂, s := lenR s }

/-- Reduced latitudes are different for different latitudes. -/
theorem reduced_inj {a b : ℝ} (hb : 0 < b) (hab : b ≤ a) (n : String) {φ φ₂ : ℝ} (h1 : -(Real.pi / 2) < φ)
    (h2 : φ < Real.pi / 2) (h1' : -(Real.pi / 2) ≤ φ₂) (h2' : φ₂ ≤ Real.pi / 2)
    (h : (ell n a b).reducedLatitude (latR φ) = (ell n a b).reducedLatitude (latR φ₂)) : φ₂ = φ := by
  have ha : 0 < a := lt_of_lt_of_le hb hab
  have hc : 0 < Real.cos φ := Real.cos_pos_of_mem_Ioo ⟨h1, h2⟩
  have hN : 0 < pvr a b φ := by
    unfold pvr
    have := Real.sqrt_pos.2 (wf_pos hb hab φ)
    positivity
  have hc2 := Real.cos_nonneg_of_neg_pi_div_two_le_of_le h1' h2'
  obtain ⟨β, e, -, -, k⟩ := reducedLatitude_all hb hab n φ
  obtain ⟨β', e', -, -, k'⟩ := reducedLatitude_all hb hab n φ₂
  have hβ : β = β' := by rw [e, e'] at h; simpa using h
  have hc2' : 0 < Real.cos φ₂ := by
    refine lt_of_le_of_ne hc2 fun h0 => ?_
    have q1 := (k' hc2).1
    rw [← h0, mul_zero, ← hβ, (k hc.le).1] at q1
    exact (mul_pos hN hc).ne' q1
  rw [reducedLatitude_off hb hab n hc, reducedLatitude_off hb hab n hc2'] at h
  have ht : Real.arctan (b / a * Real.tan φ) = Real.arctan (b / a * Real.tan φ₂) := by simpa using h
  have ht' := mul_left_cancel₀ (by positivity) (Real.arctan_injective ht)
  have i1 : φ₂ ≠ -(Real.pi / 2) := fun e => by rw [e, Real.cos_neg, Real.cos_pi_div_two] at hc2'; simp at hc2'
  have i2 : φ₂ ≠ Real.pi / 2 := fun e => by rw [e, Real.cos_pi_div_two] at hc2'; simp at hc2'
  exact (Real.injOn_tan ⟨h1, h2⟩ ⟨lt_of_le_of_ne h1' (Ne.symm i1), lt_of_le_of_ne h2' i2⟩ ht').symm

theorem remR_congr' {x y : ℝ} (h : SameDirection x y) (h1 : -Real.pi < remR x) (h2 : remR x < Real.pi) :
    remR y = remR x := by
  have e : SameDirection (remR y) (remR x) := ((remR_same y).trans h.symm).trans (remR_same x).symm
  by_cases hy : remR y = -Real.pi
  · rw [hy] at e
    have e' : SameDirection Real.pi (remR x) := by
      obtain ⟨k, hk⟩ := e
      exact ⟨k + 1, by push_cast; linarith⟩
    exact absurd (same_unique (by linarith [Real.pi_pos]) le_rfl h1 h2.le e') h2.ne'
  · exact same_unique (lt_of_le_of_ne (le_remR y) (Ne.symm hy)) (remR_le y) h1 h2.le e

/-- An arc of length zero ends where it starts. -/
theorem ArcOutcome.zero {a b : ℝ} (hb : 0 < b) (hab : b ≤ a) {n : String} {l φ α s : ℝ} {g : Geodesic XR}
    (hg : ArcOutcome a b n l φ α s 0 0 g) (h1 : -(Real.pi / 2) < φ) (h2 : φ < Real.pi / 2) (h3 : -Real.pi < α)
    (h4 : α ≤ Real.pi) :
    (∃ l', SameDirection l' l ∧ g.p2 = (Lon.new ⟨fin l'⟩, latR φ)) ∧ g.alpha2 = aziR α := by
  obtain ⟨β₁, β₂, lam, α₂, φ₂, e1, e2, r1, r2, r3, r4, ⟨c0, c1, c2, c3, c4, c5⟩, rfl⟩ := hg
  have hc : 0 < Real.cos φ := Real.cos_pos_of_mem_Ioo ⟨h1, h2⟩
  have hβ₁ : 0 < Real.cos β₁ := by
    rw [reducedLatitude_off hb hab n hc] at e1
    have : Real.arctan (b / a * Real.tan φ) = β₁ := by simpa using e1
    rw [← this]; exact Real.cos_arctan_pos _
  simp only [Real.sin_zero, Real.cos_zero, mul_one, mul_zero, zero_mul, add_zero, sub_zero] at c1 c2 c3 c4 c5
  have hcc : Real.cos β₂ = Real.cos β₁ := by
    have q1 := Real.sin_sq_add_cos_sq β₁
    have q2 := Real.sin_sq_add_cos_sq β₂
    rw [c1] at q2
    nlinarith
  obtain ⟨β', e', b1, b2, -⟩ := reducedLatitude_all hb hab n φ
  obtain ⟨β'', e'', b1', b2', -⟩ := reducedLatitude_all hb hab n φ₂
  have i1 : β' = β₁ := by rw [e1] at e'; simpa using e'.symm
  have i2 : β'' = β₂ := by rw [e2] at e''; simpa using e''.symm
  have hββ : β₂ = β₁ := by
    rw [i1] at b1 b2; rw [i2] at b1' b2'
    exact Real.injOn_sin ⟨b1', b2'⟩ ⟨b1, b2⟩ c1
  rw [hcc] at c2 c3 c4 c5
  have hφ := reduced_inj hb hab n h1 h2 r1 r2 (by rw [e1, e2, hββ])
  refine ⟨⟨l + lam, ?_, by rw [hφ, sub_zero]⟩, ?_⟩
  · have : SameDirection lam 0 := .of_cos_sin
      (by rw [Real.cos_zero]; exact mul_left_cancel₀ hβ₁.ne' (by rw [c3, mul_one]))
      (by rw [Real.sin_zero]; exact mul_left_cancel₀ hβ₁.ne' (by rw [c2, mul_zero]))
    have := (SameDirection.refl l).add this
    rwa [add_zero] at this
  · have : SameDirection α₂ α := .of_cos_sin (mul_left_cancel₀ hβ₁.ne' c5) (mul_left_cancel₀ hβ₁.ne' c4)
    show aziR α₂ = _
    rw [same_unique r3 r4 h3 h4 this]

/-! ### Vincenty -/

section Vincenty
open VincentyGeodesicSolver

/-- The message of the solver. -/
abbrev directNotConverging : String := "Direct geodesic computation is not converging!"

/-- The direct problem, as a function of the last state. -/
theorem direct_eq {a b : ℝ} (hb : 0 < b) (hab : b ≤ a) (n : String) (l φ α s : ℝ) (hc : 0 < Real.cos φ) (β K u2 m : ℝ)
    (hβ : β = Real.arctan (b / a * Real.tan φ)) (hK : K = 1 - (Real.cos β * Real.sin α) ^ 2)
    (hu : u2 = K * ((a ^ 2 - b ^ 2) / b ^ 2)) (hm : m = Complex.arg ⟨Real.cos α, b / a * Real.tan φ⟩) :
    direct ⟨ell n a b⟩ (lonR l, latR φ) (aziR α) (lenR s) =
      let σ₀ : Angle XR := Angle.new (fin s / fin (vincentyA u2 * b)) RAD
      loopMax (directStep (fin (vincentyB u2)) ⟨fin m⟩ σ₀) directDone directNotConverging 30
        { sigma := σ₀, sin_sigma := σ₀.sin, cos_sigma := σ₀.cos
          cos_2_sigma_m := ((2 : XR) * (⟨fin m⟩ : Angle XR) + σ₀).cos, sigma_prev := σ₀ } >>= fun st =>
      Except.ok
        { p1 := (lonR l, latR φ)
          alpha1 := aziR α
          p2 := ((lonR l).addAngle (Angle.new (Flt.atan2 (st.sin_sigma * fin (Real.sin α))
              (fin (Real.cos β) * st.cos_sigma - fin (Real.sin β) * st.sin_sigma * fin (Real.cos α))) RAD -
              ((1 - fin (vincentyC ((a - b) / a) K)) * fin ((a - b) / a) * fin (Real.cos β * Real.sin α)) *
                (st.sigma + Angle.new (fin (vincentyC ((a - b) / a) K) * st.sin_sigma *
                  (st.cos_2_sigma_m + fin (vincentyC ((a - b) / a) K) * st.cos_sigma *
                    (-1 + 2 * Flt.powi st.cos_2_sigma_m 2))) RAD)),
            Lat.new (Angle.new (Flt.atan2 (fin (Real.sin β) * st.cos_sigma +
              fin (Real.cos β) * st.sin_sigma * fin (Real.cos α))
              (fin (b / a) * Flt.sqrt (Flt.powi (fin (Real.cos β * Real.sin α)) 2 +
                Flt.powi (fin (Real.sin β) * st.sin_sigma - fin (Real.cos β) * st.cos_sigma * fin (Real.cos α)) 2))) RAD))
          alpha2 := Azimuth.new (Angle.new (Flt.atan2 (fin (Real.cos β * Real.sin α))
            (-fin (Real.sin β) * st.sin_sigma + fin (Real.cos β) * st.cos_sigma * fin (Real.cos α))) RAD)
          s := lenR s } := by
  have ha : 0 < a := lt_of_lt_of_le hb hab
  have e1 : 1 - (a - b) / a = b / a := by field_simp; ring
  have n1 : (16384 : ℝ) ≠ 0 := by norm_num
  have n2 : (1024 : ℝ) ≠ 0 := by norm_num
  have n3 : (16 : ℝ) ≠ 0 := by norm_num
  have hT : (1 - (ell n a b).f) * (latR φ).tan = fin (b / a * Real.tan φ) := by
    simp only [ell_f hb hab, latR, Lat.tan, Angle.tan, tan_fin hc.ne', one_eq, sub_fin, mul_fin, e1]
  have hpos : 0 < 1 + (b / a * Real.tan φ) * (b / a * Real.tan φ) := by nlinarith [mul_self_nonneg (b / a * Real.tan φ)]
  have hcb : (1 : XR) / Flt.sqrt (1 + fin (b / a * Real.tan φ) * fin (b / a * Real.tan φ)) = fin (Real.cos β) := by
    rw [one_eq, mul_fin, add_fin, sqrt_fin hpos.le, div_fin _ (Real.sqrt_pos.2 hpos).ne', hβ, Real.cos_arctan, pow_two]
  have hsb : fin (b / a * Real.tan φ) * fin (Real.cos β) = fin (Real.sin β) := by
    rw [mul_fin, hβ, ← Real.tan_mul_cos (Real.cos_arctan_pos _).ne', Real.tan_arctan]
  have hbm : (ell n a b).b = ⟨fin b⟩ := rfl
  have hKx : (1 : XR) - Flt.powi (fin (Real.cos β * Real.sin α)) 2 = fin K := by
    rw [one_eq, powi_fin, sub_fin, hK]
  have hux : fin K * (ell n a b).ePrimeSq = fin u2 := by rw [ell_ePrimeSq hb, mul_fin, hu]
  have hAx : seriesA (fin u2) = fin (vincentyA u2) := by
    simp only [seriesA, one_eq, ofNat_eq, neg_fin, mul_fin, add_fin, sub_fin, div_fin _ n1, vincentyA]
  have hBx : seriesB (fin u2) = fin (vincentyB u2) := by
    simp only [seriesB, ofNat_eq, neg_fin, mul_fin, add_fin, sub_fin, div_fin _ n2, vincentyB]
  have hCx : seriesC (ell n a b).f (fin K) = fin (vincentyC ((a - b) / a) K) := by
    simp only [seriesC, ell_f hb hab, ofNat_eq, mul_fin, add_fin, sub_fin, div_fin _ n3, vincentyC]
  have hmx : Angle.new (Flt.atan2 (fin (b / a * Real.tan φ)) (fin (Real.cos α))) RAD = ⟨fin m⟩ := by
    rw [atan2_fin, angle_new_rad, hm]
  have hsa : (aziR α).sin = fin (Real.sin α) := by simp [Azimuth.sin, Angle.sin]
  have hca : (aziR α).cos = fin (Real.cos α) := by simp [Azimuth.cos, Angle.cos]
  have hf1 : (1 : XR) - (ell n a b).f = fin (b / a) := by rw [ell_f hb hab, one_eq, sub_fin, e1]
  simp only [direct, hT, hcb, hsb, hsa, hca, mul_fin (Real.cos β), hKx, hux, hAx, hBx, hCx, hmx, hbm,
    Length.mk_mul, ArcLength.divLength, Length.mk_div_mk, mul_fin (vincentyA u2)]
  simp only [hf1]
  simp only [ell_f hb hab]
  rfl

/-- The geodesic returned for a last state with real values. -/
theorem direct_outcome {a b : ℝ} (hb : 0 < b) (hab : b ≤ a) (n : String) (l φ α s : ℝ) (hc : 0 < Real.cos φ)
    (st : DirectState XR) (g : Geodesic XR) (β K u2 m σ σ' : ℝ)
    (hβ : β = Real.arctan (b / a * Real.tan φ)) (hK : K = 1 - (Real.cos β * Real.sin α) ^ 2)
    (hu : u2 = K * ((a ^ 2 - b ^ 2) / b ^ 2)) (hm : m = Complex.arg ⟨Real.cos α, b / a * Real.tan φ⟩)
    (hr : RealD st m σ σ') (hA : vincentyA u2 * b ≠ 0)
    (hst : loopMax (directStep (fin (vincentyB u2)) ⟨fin m⟩ ⟨fin (s / (vincentyA u2 * b))⟩) directDone
      directNotConverging 30 ⟨⟨fin (s / (vincentyA u2 * b))⟩, (Angle.mk (fin (s / (vincentyA u2 * b)))).sin,
      (Angle.mk (fin (s / (vincentyA u2 * b)))).cos,
      ((2 : XR) * (⟨fin m⟩ : Angle XR) + (⟨fin (s / (vincentyA u2 * b))⟩ : Angle XR)).cos,
      ⟨fin (s / (vincentyA u2 * b))⟩⟩ = .ok st) :
    ∃ g, direct ⟨ell n a b⟩ (lonR l, latR φ) (aziR α) (lenR s) = .ok g ∧
      ArcOutcome a b n l φ α s σ
        (vincentyExcess ((a - b) / a) (Real.cos β * Real.sin α) σ (Real.cos (2 * m + σ))) g := by
  obtain ⟨q1, q2⟩ := arc_components β α σ
  set Z := Real.sin β * Real.cos σ + Real.cos β * Real.sin σ * Real.cos α with hZ
  have hRn : 0 ≤ (Real.cos β * Real.sin α) ^ 2 + (Real.sin β * Real.sin σ - Real.cos β * Real.cos σ * Real.cos α) ^ 2 := by
    positivity
  set R := Real.sqrt ((Real.cos β * Real.sin α) ^ 2 +
    (Real.sin β * Real.sin σ - Real.cos β * Real.cos σ * Real.cos α) ^ 2) with hR
  have hRZ : R ^ 2 + Z ^ 2 = 1 := by rw [hR, Real.sq_sqrt hRn]; exact q1
  obtain ⟨β₂, hβ₂, hcβ₂, hsβ₂, g1, g2⟩ := reduced_of_geodetic hb hab n (Real.sqrt_nonneg _) hRZ rfl
  have hend := arcEnd β α σ β₂ hsβ₂ (by rw [hcβ₂]; exact Real.sqrt_nonneg _)
  rw [direct_eq hb hab n l φ α s hc β K u2 m hβ hK hu hm, div_fin _ hA, angle_new_rad]
  simp only [hst, ok_bind]
  refine ⟨_, rfl, β, β₂, _, _, _, by rw [hβ]; exact reducedLatitude_off hb hab n hc, hβ₂, g1, g2,
    Complex.neg_pi_lt_arg _, Complex.arg_le_pi _, hend, ?_⟩
  congr 1
  · congr 1
    · rw [vincentyExcess, ← hK]
      simp only [hr.sin_sigma, hr.cos_sigma, hr.sigma, hr.mid, one_eq, ofNat_eq, neg_fin, mul_fin, sub_fin, add_fin,
        powi_fin, atan2_fin, angle_new_rad, Angle.mk_add, Angle.mul_mk, Angle.mk_sub, Lon.addAngle]
      rfl
    · simp only [hr.sin_sigma, hr.cos_sigma, mul_fin, sub_fin, add_fin, powi_fin, sqrt_fin hRn, atan2_fin, angle_new_rad]
      rw [lat_new_fin, clampR_id g1 g2]
      rfl
  · simp only [hr.sin_sigma, hr.cos_sigma, neg_fin, mul_fin, sub_fin, add_fin, atan2_fin, angle_new_rad]
    rw [azi_new_fin, normR_id (Complex.neg_pi_lt_arg _) (Complex.arg_le_pi _)]

/-- The first state of the loop. -/
theorem direct_init (m σ₀ : ℝ) : RealD ⟨⟨fin σ₀⟩, (Angle.mk (fin σ₀)).sin, (Angle.mk (fin σ₀)).cos,
    ((2 : XR) * (⟨fin m⟩ : Angle XR) + (⟨fin σ₀⟩ : Angle XR)).cos, ⟨fin σ₀⟩⟩ m σ₀ σ₀ :=
  ⟨rfl, rfl, rfl, by simp [ofNat_eq, Angle.cos], rfl⟩

/-- `m` is the arc from the node of the geodesic to the start, on the auxiliary sphere. -/
def IsNodeArc (β₁ α m : ℝ) : Prop :=
  Real.cos m * Real.sqrt (1 - (Real.cos β₁ * Real.sin α) ^ 2) = Real.cos β₁ * Real.cos α ∧
  Real.sin m * Real.sqrt (1 - (Real.cos β₁ * Real.sin α) ^ 2) = Real.sin β₁

theorem isNodeArc {β α T : ℝ} (hβ : β = Real.arctan T) : IsNodeArc β α (Complex.arg ⟨Real.cos α, T⟩) := by
  obtain ⟨c1, c2⟩ := polar (Real.cos α) T
  have hcβ : 0 < Real.cos β := by rw [hβ]; exact Real.cos_arctan_pos _
  have hT : T * Real.cos β = Real.sin β := by
    rw [hβ, ← Real.tan_mul_cos (Real.cos_arctan_pos _).ne', Real.tan_arctan]
  have hKs : Real.sqrt (1 - (Real.cos β * Real.sin α) ^ 2) = Real.cos β * Real.sqrt (Real.cos α ^ 2 + T ^ 2) := by
    rw [← Real.sqrt_sq hcβ.le, ← Real.sqrt_mul (by positivity), Real.sqrt_sq hcβ.le]
    congr 1
    rw [mul_add, ← mul_pow, ← mul_pow, mul_comm (Real.cos β) T, hT]
    linear_combination (-1) * Real.sin_sq_add_cos_sq β - Real.cos β ^ 2 * Real.sin_sq_add_cos_sq α
  rw [IsNodeArc, hKs]
  exact ⟨by linear_combination Real.cos β * c1, by rw [← hT]; linear_combination Real.cos β * c2⟩

/-- **C72**: what the Vincenty direct solver returns, from any start off the poles: the last two arcs differ by less
than `1e-12` and are linked by Vincenty's equations (6), (7); the end point and the azimuth are those of the arc of
great circle on the auxiliary sphere, the longitude being reduced by his equation (11). -/
theorem C72_vincenty_direct {a b : ℝ} (hb : 0 < b) (hab : b ≤ a) (n : String) (l φ α s : ℝ) (hc : 0 < Real.cos φ)
    (g : Geodesic XR) (h : direct ⟨ell n a b⟩ (lonR l, latR φ) (aziR α) (lenR s) = .ok g) :
    ∃ β₁ sa u2 m σ σ' : ℝ, (ell n a b).reducedLatitude (latR φ) = ⟨fin β₁⟩ ∧ sa = Real.cos β₁ * Real.sin α ∧
      u2 = (1 - sa ^ 2) * ((a ^ 2 - b ^ 2) / b ^ 2) ∧ IsNodeArc β₁ α m ∧ vincentyA u2 ≠ 0 ∧ |σ - σ'| < 1e-12 ∧
      σ = s / (b * vincentyA u2) + vincentyDeltaSigma (vincentyB u2) σ' (Real.cos (2 * m + σ')) ∧
      ArcOutcome a b n l φ α s σ (vincentyExcess ((a - b) / a) sa σ (Real.cos (2 * m + σ))) g := by
  set β := Real.arctan (b / a * Real.tan φ) with hβ
  set K := 1 - (Real.cos β * Real.sin α) ^ 2 with hK
  set u2 := K * ((a ^ 2 - b ^ 2) / b ^ 2) with hu
  set m := Complex.arg ⟨Real.cos α, b / a * Real.tan φ⟩ with hm
  have h0 := h
  rw [direct_eq hb hab n l φ α s hc β K u2 m hβ hK hu hm] at h
  obtain ⟨st, hst, hg⟩ := bind_eq_ok.1 h
  have hA : vincentyA u2 * b ≠ 0 := by
    intro h0
    rw [h0, div_fin_ite, if_pos rfl] at hst
    have hn : (Angle.new (signInf s) RAD : Angle XR).sin = nan := by
      rcases lt_trichotomy s 0 with h | h | h
      · rw [signInf_neg h]
        simp [Angle.sin, Angle.new, radPerUnit_rad, show (ninf * fin 1 : XR) = ninf from signInf_neg (by norm_num)]
        rfl
      · rw [h, signInf_zero]; simp [Angle.sin, Angle.new]
      · rw [signInf_pos h]
        simp [Angle.sin, Angle.new, radPerUnit_rad, show (pinf * fin 1 : XR) = pinf from signInf_pos (by norm_num)]
        rfl
    rw [directLoop_nan _ _ _ _ hn] at hst
    cases hst
  rw [div_fin _ hA, angle_new_rad] at hst
  obtain ⟨q, σ, hr, hlt, hσ⟩ := directLoop_real _ _ _ _ _ _ _ _ _ (direct_init _ _) hst
  obtain ⟨g', e, ho⟩ := direct_outcome hb hab n l φ α s hc st g β K u2 m σ q hβ hK hu hm hr hA hst
  rw [h0] at e
  cases e
  exact ⟨β, _, u2, m, σ, q, reducedLatitude_off hb hab n hc, rfl, hu, isNodeArc hβ, left_ne_zero_of_mul hA, hlt,
    by rw [mul_comm b]; exact hσ, ho⟩

/-- The solver returns after one iteration when the correction vanishes. -/
theorem direct_immediate {a b : ℝ} (hb : 0 < b) (hab : b ≤ a) (n : String) (l φ α s : ℝ) (hc : 0 < Real.cos φ)
    (β u2 m : ℝ) (hβ : β = Real.arctan (b / a * Real.tan φ))
    (hu : u2 = (1 - (Real.cos β * Real.sin α) ^ 2) * ((a ^ 2 - b ^ 2) / b ^ 2))
    (hm : m = Complex.arg ⟨Real.cos α, b / a * Real.tan φ⟩) (hA : vincentyA u2 * b ≠ 0)
    (h0 : vincentyDeltaSigma (vincentyB u2) (s / (vincentyA u2 * b)) (Real.cos (2 * m + s / (vincentyA u2 * b))) = 0) :
    ∃ g, direct ⟨ell n a b⟩ (lonR l, latR φ) (aziR α) (lenR s) = .ok g ∧
      ArcOutcome a b n l φ α s (s / (vincentyA u2 * b)) (vincentyExcess ((a - b) / a) (Real.cos β * Real.sin α)
        (s / (vincentyA u2 * b)) (Real.cos (2 * m + s / (vincentyA u2 * b)))) g := by
  have hr := directStep_real (vincentyB u2) m (s / (vincentyA u2 * b)) _ _ _ (direct_init m (s / (vincentyA u2 * b)))
  rw [h0, add_zero] at hr
  refine direct_outcome hb hab n l φ α s hc _ ⟨(lonR l, latR φ), aziR α, (lonR l, latR φ), aziR α, lenR s⟩
    β _ u2 m _ _ hβ rfl hu hm hr hA ?_
  rw [loopMax]
  have hd := directDone_real hr
  rw [sub_self, abs_zero, decide_eq_true (by norm_num)] at hd
  simp only [hd, if_true]

/-- `A` is positive unless the ellipsoid is extremely flat. -/
theorem vincentyA_pos {u2 : ℝ} (h0 : 0 ≤ u2) (h3 : u2 ≤ 3) : 0 < vincentyA u2 := by
  unfold vincentyA
  have h1 : 0 ≤ u2 * (3 - u2) := mul_nonneg h0 (by linarith)
  have h2 : 0 ≤ u2 ^ 2 := by positivity
  have h4 : 0 ≤ u2 ^ 2 * (u2 * (3 - u2)) := mul_nonneg h2 h1
  have h5 : 0 ≤ u2 * (u2 * (3 - u2)) := mul_nonneg h0 h1
  nlinarith

theorem u2_bounds {a b : ℝ} (hb : 0 < b) (hab : b ≤ a) (h2 : a ≤ 2 * b) (β α : ℝ) :
    0 ≤ (1 - (Real.cos β * Real.sin α) ^ 2) * ((a ^ 2 - b ^ 2) / b ^ 2) ∧
    (1 - (Real.cos β * Real.sin α) ^ 2) * ((a ^ 2 - b ^ 2) / b ^ 2) ≤ 3 := by
  have hq : 0 ≤ (a ^ 2 - b ^ 2) / b ^ 2 := div_nonneg (by nlinarith) (by positivity)
  have hq3 : (a ^ 2 - b ^ 2) / b ^ 2 ≤ 3 := by rw [div_le_iff₀ (by positivity)]; nlinarith
  have hK : (Real.cos β * Real.sin α) ^ 2 ≤ 1 := by
    have h1 := Real.abs_cos_le_one β
    have h2 := Real.abs_sin_le_one α
    rw [sq_le_one_iff_abs_le_one, abs_mul]
    exact mul_le_one₀ h1 (abs_nonneg _) h2
  constructor
  · exact mul_nonneg (by linarith) hq
  · nlinarith [sq_nonneg (Real.cos β * Real.sin α)]

/-- **C63** (Vincenty): a geodesic of length zero ends where it starts, with the same azimuth, for ellipsoids with
`a ≤ 2 b` (longitudes are the same direction; equal unless the start is on the antimeridian). -/
theorem C63_vincenty {a b : ℝ} (hb : 0 < b) (hab : b ≤ a) (hflat : a ≤ 2 * b) (n : String) (l φ α : ℝ)
    (h1 : -(Real.pi / 2) < φ) (h2 : φ < Real.pi / 2) (h3 : -Real.pi < α) (h4 : α ≤ Real.pi) :
    ∃ g l', direct ⟨ell n a b⟩ (lonR l, latR φ) (aziR α) (lenR 0) = .ok g ∧ SameDirection l' l ∧
      g.p2 = (Lon.new ⟨fin l'⟩, latR φ) ∧ g.alpha2 = aziR α ∧ (-Real.pi < l → l < Real.pi → g.p2.1 = lonR l) := by
  have hc : 0 < Real.cos φ := Real.cos_pos_of_mem_Ioo ⟨h1, h2⟩
  obtain ⟨u0, u3⟩ := u2_bounds hb hab hflat (Real.arctan (b / a * Real.tan φ)) α
  have hA := vincentyA_pos u0 u3
  obtain ⟨g, hg, ho⟩ := direct_immediate hb hab n l φ α 0 hc _ _ _ rfl rfl rfl (mul_pos hA hb).ne'
    (by simp [vincentyDeltaSigma])
  rw [zero_div, show ∀ sa c, vincentyExcess ((a - b) / a) sa 0 c = 0 by intro sa c; simp [vincentyExcess]] at ho
  obtain ⟨⟨l', hl, hp⟩, ha2⟩ := ho.zero hb hab h1 h2 h3 h4
  refine ⟨g, l', hg, hl, hp, ha2, fun q1 q2 => ?_⟩
  have := remR_id q1.le q2.le
  rw [hp, lon_new_fin, remR_congr' hl.symm (by rw [this]; exact q1) (by rw [this]; exact q2), this]
  rfl

/-- **C65** (Vincenty): Clairaut's relation. -/
theorem C65_vincenty {a b : ℝ} (hb : 0 < b) (hab : b ≤ a) (n : String) (l φ α s : ℝ) (hc : 0 < Real.cos φ)
    (g : Geodesic XR) (h : direct ⟨ell n a b⟩ (lonR l, latR φ) (aziR α) (lenR s) = .ok g) :
    ∃ β₁ β₂ α₂ : ℝ, (ell n a b).reducedLatitude (latR φ) = ⟨fin β₁⟩ ∧ (ell n a b).reducedLatitude g.p2.2 = ⟨fin β₂⟩ ∧
      g.alpha2 = aziR α₂ ∧ Real.cos β₁ * Real.sin α = Real.cos β₂ * Real.sin α₂ := by
  obtain ⟨_, _, _, _, _, _, _, _, _, _, _, _, _, β₁, β₂, lam, α₂, φ₂, e1, e2, _, _, _, _, he, rfl⟩ :=
    C72_vincenty_direct hb hab n l φ α s hc g h
  exact ⟨β₁, β₂, α₂, e1, e2, rfl, he.clairaut.symm⟩

/-- On a sphere, what an outcome means in space. -/
theorem ArcOutcome.sphere {a : ℝ} (ha : 0 < a) {n : String} {l φ α s σ : ℝ} {g : Geodesic XR}
    (h1 : -(Real.pi / 2) ≤ φ) (h2 : φ ≤ Real.pi / 2) (hg : ArcOutcome a a n l φ α s σ 0 g) :
    ∃ l₂ φ₂ α₂ : ℝ, g.p2 = (lonR l₂, latR φ₂) ∧ g.alpha2 = aziR α₂ ∧
      unitAt l₂ φ₂ = Real.cos σ • unitAt l φ + Real.sin σ • tangentAt l φ α ∧
      (Real.cos φ₂ ≠ 0 → tangentAt l₂ φ₂ α₂ = -Real.sin σ • unitAt l φ + Real.cos σ • tangentAt l φ α) := by
  obtain ⟨β₁, β₂, lam, α₂, φ₂, e1, e2, r1, r2, r3, r4, he, rfl⟩ := hg
  rw [reducedLatitude_sphere ha n h1 h2] at e1
  rw [reducedLatitude_sphere ha n r1 r2] at e2
  have i1 : φ = β₁ := by simpa using e1
  have i2 : φ₂ = β₂ := by simpa using e2
  subst i1; subst i2
  have hd : SameDirection (remR (l + (lam - 0))) (l + lam) := by rw [sub_zero]; exact remR_same _
  refine ⟨remR (l + (lam - 0)), φ₂, α₂, by rw [lon_new_fin]; rfl, rfl, ?_, fun h => ?_⟩
  · rw [← he.position l, unitAt, unitAt, hd.cos, hd.sin]
  · rw [← he.direction h l, tangentAt, tangentAt, hd.cos, hd.sin]

/-- **C64** (Vincenty direct): on a sphere the solver returns, the end point is on the great circle at the angle
`s / a` from the start, and the azimuth there is the direction of the great circle. -/
theorem C64_vincenty_direct {a : ℝ} (ha : 0 < a) (n : String) (l φ α s : ℝ) (h1 : -(Real.pi / 2) < φ)
    (h2 : φ < Real.pi / 2) :
    ∃ g l₂ φ₂ α₂, direct ⟨ell n a a⟩ (lonR l, latR φ) (aziR α) (lenR s) = .ok g ∧
      g.p2 = (lonR l₂, latR φ₂) ∧ g.alpha2 = aziR α₂ ∧
      unitAt l₂ φ₂ = Real.cos (s / a) • unitAt l φ + Real.sin (s / a) • tangentAt l φ α ∧
      (Real.cos φ₂ ≠ 0 → tangentAt l₂ φ₂ α₂ = -Real.sin (s / a) • unitAt l φ + Real.cos (s / a) • tangentAt l φ α) := by
  have hc : 0 < Real.cos φ := Real.cos_pos_of_mem_Ioo ⟨h1, h2⟩
  have hu : ∀ K : ℝ, K * ((a ^ 2 - a ^ 2) / a ^ 2) = 0 := fun K => by simp
  have hA : vincentyA 0 = 1 := by simp [vincentyA]
  have hB : vincentyB 0 = 0 := by simp [vincentyB]
  obtain ⟨g, hg, ho⟩ := direct_immediate ha le_rfl n l φ α s hc _ 0 _ rfl (hu _).symm rfl
    (by rw [hA, one_mul]; exact ha.ne') (by simp [vincentyDeltaSigma, hB])
  rw [hA, one_mul, sub_self, zero_div, show ∀ sa σ c, vincentyExcess 0 sa σ c = 0 by
    intro sa σ c; simp [vincentyExcess]] at ho
  obtain ⟨l₂, φ₂, α₂, k⟩ := ho.sphere ha h1.le h2.le
  exact ⟨g, l₂, φ₂, α₂, hg, k⟩

/-- A flattened ellipsoid with a start in middle latitudes. -/
example : ∃ g l', direct ⟨ell "e" 10 9⟩ (lonR 1, latR (Real.pi / 4)) (aziR 2) (lenR 0) = .ok g ∧ SameDirection l' 1 ∧
    g.p2 = (Lon.new ⟨fin l'⟩, latR (Real.pi / 4)) ∧ g.alpha2 = aziR 2 ∧
    (-Real.pi < 1 → 1 < Real.pi → g.p2.1 = lonR 1) :=
  C63_vincenty (by norm_num) (by norm_num) (by norm_num) "e" 1 (Real.pi / 4) 2 (by linarith [Real.pi_pos])
    (by linarith [Real.pi_pos]) (by linarith [Real.pi_pos]) (by linarith [Real.pi_gt_three])

/-- **C73** (Vincenty): on a sphere the azimuth at an end point off the poles is the direction of the great circle. -/
theorem C73_vincenty {a : ℝ} (ha : 0 < a) (n : String) (l φ α s : ℝ) (h1 : -(Real.pi / 2) < φ) (h2 : φ < Real.pi / 2)
    (g : Geodesic XR) (h : direct ⟨ell n a a⟩ (lonR l, latR φ) (aziR α) (lenR s) = .ok g) :
    ∃ l₂ φ₂ α₂, g.p2 = (lonR l₂, latR φ₂) ∧ g.alpha2 = aziR α₂ ∧ (Real.cos φ₂ ≠ 0 →
      tangentAt l₂ φ₂ α₂ = -Real.sin (s / a) • unitAt l φ + Real.cos (s / a) • tangentAt l φ α) := by
  obtain ⟨g', l₂, φ₂, α₂, e, k1, k2, -, k3⟩ := C64_vincenty_direct ha n l φ α s h1 h2
  rw [h] at e
  cases e
  exact ⟨l₂, φ₂, α₂, k1, k2, k3⟩

/-- A line to the north-east over a quarter of the circle, from 45° north: hypotheses of C72 and C65 on a sphere. -/
example : ∃ g, direct ⟨ell "s" 2 2⟩ (lonR 1, latR (Real.pi / 4)) (aziR (Real.pi / 4)) (lenR Real.pi) = .ok g ∧
    0 < Real.cos (Real.pi / 4) := by
  have hp := Real.pi_pos
  obtain ⟨g, _, _, _, h, -⟩ := C64_vincenty_direct (a := 2) (by norm_num) "s" 1 (Real.pi / 4) (Real.pi / 4) Real.pi (by linarith)
    (by linarith)
  exact ⟨g, h, Real.cos_pos_of_mem_Ioo ⟨by linarith, by linarith⟩⟩

end Vincenty
end Geo
