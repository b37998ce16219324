import Verif.Lemmas.RappDirect
import Verif.Props.DirectExact

/-! # C63, C64, C65, C73, C75: the direct geodesic of the Rapp solver, in exact arithmetic -/

namespace Geo
open XR Spec RappSolver

/-- The message of the solver. -/
abbrev rappNotConverging : String := "Direct geodesic computation is not converging!"

/-- The state before the loop. -/
noncomputable abbrev rappInit (σ₀ : ℝ) : DirectState XR :=
  { sigma := fin σ₀, sin_sigma := 0, cos_sigma := 0, sin_2_sigma := 0, sin_3_sigma := 0, sigma_1 := 0
    cos_2_sigma_m := 0, cos_4_sigma_m := 0, cos_6_sigma_m := 0, sigma_old := 0 }

theorem arg_scale {r : ℝ} (hr : 0 < r) (x y : ℝ) : Complex.arg ⟨r * x, r * y⟩ = Complex.arg ⟨x, y⟩ := by
  have : (⟨r * x, r * y⟩ : ℂ) = (r : ℂ) * ⟨x, y⟩ := by apply Complex.ext <;> simp
  rw [this, Complex.arg_real_mul _ hr]

/-- The direct problem, as a function of the last state. -/
theorem rapp_direct_eq {a b : ℝ} (hb : 0 < b) (hab : b ≤ a) (n : String) (l φ α s : ℝ) (hc : 0 < Real.cos φ)
    (β u : ℝ) (hβ : β = Real.arctan (b / a * Real.tan φ))
    (hu : u = (1 - (Real.cos β * Real.sin α) ^ 2) * ((a ^ 2 - b ^ 2) / b ^ 2)) (hB : rappB0 u ≠ 0) :
    (new (ell n a b)).direct (lonR l, latR φ) (aziR α) (lenR s) =
      loopMax (directStep ⟨fin β⟩ (fin (Real.cos α)) (fin u) (fin (s / (b * rappB0 u)))) directDone
        rappNotConverging MAX_ITERATIONS (rappInit (s / (b * rappB0 u))) >>= fun st =>
      let beta2 := Angle.new (Flt.asin (Flt.sin (st.sigma_1 + st.sigma) *
        Flt.cos (Flt.asin (fin (Real.cos β * Real.sin α))))) RAD
      let sl := st.sin_sigma * fin (Real.sin α) / beta2.cos
      let cl := (st.cos_sigma - fin (Real.sin β) * beta2.sin) / (fin (Real.cos β) * beta2.cos)
      Except.ok
        { p1 := (lonR l, latR φ)
          alpha1 := aziR α
          p2 := ((lonR l).addAngle (Angle.new (Flt.atan2 sl cl - fin ((a - b) / a) * fin (Real.cos β * Real.sin α) *
              (fin (rappA0 ((a - b) / a) (1 - (Real.cos β * Real.sin α) ^ 2)) * st.sigma +
               fin (rappA2 ((a - b) / a) (1 - (Real.cos β * Real.sin α) ^ 2)) * st.sin_sigma * st.cos_2_sigma_m +
               fin (rappA4 ((a - b) / a) (1 - (Real.cos β * Real.sin α) ^ 2)) * st.sin_2_sigma * st.cos_4_sigma_m +
               fin (rappA6 ((a - b) / a) (1 - (Real.cos β * Real.sin α) ^ 2)) * st.sin_3_sigma * st.cos_6_sigma_m))
              RAD),
            Lat.new (Angle.new (Flt.atan2 beta2.tan (fin (b / a))) RAD))
          alpha2 := Azimuth.new (Angle.new (directAlpha2 (decide (s < 1000)) ⟨fin β⟩ beta2 sl cl) RAD)
          s := lenR s } := by
  have ha : 0 < a := lt_of_lt_of_le hb hab
  have e1 : 1 - (a - b) / a = b / a := by field_simp; ring
  have hred := reducedLatitude_off hb hab n hc
  rw [← hβ] at hred
  have hell : (new (ell n a b)).ellipsoid = ell n a b := rfl
  have hbm : (ell n a b).b = ⟨fin b⟩ := rfl
  have hf1 : (1 : XR) - (ell n a b).f = fin (b / a) := by rw [ell_f hb hab, one_eq, sub_fin, e1]
  have hK : (1 : XR) - Flt.powi (fin (Real.cos β * Real.sin α)) 2 = fin (1 - (Real.cos β * Real.sin α) ^ 2) := by
    rw [one_eq, powi_fin, sub_fin]
  have hux : (ell n a b).ePrimeSq * fin (1 - (Real.cos β * Real.sin α) ^ 2) = fin u := by
    rw [ell_ePrimeSq hb, mul_fin, hu, mul_comm]
  have hσ : fin s / fin (rappB0 u * b) = fin (s / (b * rappB0 u)) := by
    rw [div_fin _ (mul_ne_zero hB hb.ne'), mul_comm b]
  have hlt : (fin s <. (1000 : XR)) = decide (s < 1000) := by rw [ofNat_eq, lt_fin]
  simp only [direct, hell, hred, Angle.sin, Angle.cos, Azimuth.sin, Azimuth.cos, sin_fin, cos_fin,
    mul_fin (Real.sin α) (Real.cos β), mul_comm (Real.sin α) (Real.cos β), hK, hux, b0_fin, hbm, Length.mk_mul, mul_fin b,
    mul_fin (rappB0 u), hσ, (axs_fin hb hab n _).1, (axs_fin hb hab n _).2.1, (axs_fin hb hab n _).2.2.1,
    (axs_fin hb hab n _).2.2.2, hf1, hlt, lenR]
  simp only [ell_f hb hab]
  rfl

/-- The end of the arc of length `σ` of the great circle that starts at latitude `β` with azimuth `α`: the latitude. -/
theorem arcsin_height (β α σ : ℝ) : 0 ≤ Real.cos (Real.arcsin (Real.sin β * Real.cos σ + Real.cos β * Real.sin σ * Real.cos α)) ∧
    Real.sin (Real.arcsin (Real.sin β * Real.cos σ + Real.cos β * Real.sin σ * Real.cos α)) =
      Real.sin β * Real.cos σ + Real.cos β * Real.sin σ * Real.cos α := by
  obtain ⟨q1, -⟩ := arc_components β α σ
  refine ⟨Real.cos_arcsin_nonneg _, Real.sin_arcsin ?_ ?_⟩ <;> nlinarith [sq_nonneg (Real.cos β * Real.sin α),
    sq_nonneg (Real.sin β * Real.sin σ - Real.cos β * Real.cos σ * Real.cos α),
    sq_nonneg (Real.sin β * Real.cos σ + Real.cos β * Real.sin σ * Real.cos α - 1),
    sq_nonneg (Real.sin β * Real.cos σ + Real.cos β * Real.sin σ * Real.cos α + 1)]

/-- The geodesic returned for a last state with real values, if it does not end at a pole. -/
theorem rapp_outcome {a b : ℝ} (hb : 0 < b) (hab : b ≤ a) (n : String) (l φ α s : ℝ) (hc : 0 < Real.cos φ)
    (β u m β₂ σ q : ℝ) (st : DirectState XR) (hβ : β = Real.arctan (b / a * Real.tan φ))
    (hu : u = (1 - (Real.cos β * Real.sin α) ^ 2) * ((a ^ 2 - b ^ 2) / b ^ 2)) (hB : rappB0 u ≠ 0)
    (hm : m = Complex.arg ⟨Real.cos α, b / a * Real.tan φ⟩) (hr : RealR st m σ q)
    (hst : loopMax (directStep ⟨fin β⟩ (fin (Real.cos α)) (fin u) (fin (s / (b * rappB0 u)))) directDone
        rappNotConverging MAX_ITERATIONS (rappInit (s / (b * rappB0 u))) = .ok st)
    (hβ₂ : β₂ = Real.arcsin (Real.sin β * Real.cos σ + Real.cos β * Real.sin σ * Real.cos α))
    (hp : 0 < Real.cos β₂) :
    (new (ell n a b)).direct (lonR l, latR φ) (aziR α) (lenR s) = .ok
      { p1 := (lonR l, latR φ), alpha1 := aziR α
        p2 := (Lon.new ⟨fin (l + (Complex.arg ⟨Real.cos q - Real.sin β * Real.sin β₂, Real.cos β * Real.sin q * Real.sin α⟩ -
            rappExcess ((a - b) / a) (Real.cos β * Real.sin α) m σ q))⟩,
          latR (Complex.arg ⟨b / a * Real.cos β₂, Real.sin β₂⟩))
        alpha2 := aziR (Complex.arg ⟨Real.sin β₂ * Real.cos q - Real.sin β, Real.cos β * Real.sin q * Real.sin α⟩)
        s := lenR s } := by
  have ha : 0 < a := lt_of_lt_of_le hb hab
  have hcβ : 0 < Real.cos β := by rw [hβ]; exact Real.cos_arctan_pos _
  obtain ⟨m1, m2⟩ := isNodeArc (β := β) (α := α) hβ
  rw [← hm] at m1 m2
  obtain ⟨z0, z1⟩ := arcsin_height β α σ
  rw [← hβ₂] at z1
  have hZ : Real.sin (m + σ) * Real.sqrt (1 - (Real.cos β * Real.sin α) ^ 2) =
      Real.sin β * Real.cos σ + Real.cos β * Real.sin σ * Real.cos α := by
    rw [Real.sin_add]
    linear_combination Real.cos σ * m2 + Real.sin σ * m1
  have hsa : -1 ≤ Real.cos β * Real.sin α ∧ Real.cos β * Real.sin α ≤ 1 := by
    rw [← abs_le, abs_mul]
    exact mul_le_one₀ (Real.abs_cos_le_one β) (abs_nonneg _) (Real.abs_sin_le_one α)
  have hb2 : (Angle.new (Flt.asin (Flt.sin (st.sigma_1 + st.sigma) *
        Flt.cos (Flt.asin (fin (Real.cos β * Real.sin α))))) RAD : Angle XR) = ⟨fin β₂⟩ := by
    rw [hr.sigma_1, hr.sigma, add_fin, sin_fin, asin_fin hsa.1 hsa.2, cos_fin, Real.cos_arcsin, mul_fin, hZ,
      asin_fin (by rw [← z1]; exact Real.neg_one_le_sin _) (by rw [← z1]; exact Real.sin_le_one _), angle_new_rad, hβ₂]
  rw [rapp_direct_eq hb hab n l φ α s hc β u hβ hu hB, hst]
  simp only [ok_bind, hb2]
  simp only [Angle.cos, Angle.sin, Angle.tan, cos_fin, sin_fin, hr.sin_sigma, hr.cos_sigma, hr.sigma,
    hr.sin_2_sigma, hr.sin_3_sigma, hr.c2, hr.c4, hr.c6, mul_fin, sub_fin, tan_fin hp.ne']
  rw [div_fin _ hp.ne', div_fin _ (mul_pos hcβ hp).ne']
  have short : ∀ t : Bool, directAlpha2 t ⟨fin β⟩ ⟨fin β₂⟩ (fin (Real.sin q * Real.sin α / Real.cos β₂))
      (fin ((Real.cos q - Real.sin β * Real.sin β₂) / (Real.cos β * Real.cos β₂))) =
      fin (Complex.arg ⟨Real.sin β₂ * Real.cos q - Real.sin β, Real.cos β * Real.sin q * Real.sin α⟩) := by
    have e : directAlpha2 false ⟨fin β⟩ ⟨fin β₂⟩ (fin (Real.sin q * Real.sin α / Real.cos β₂))
      (fin ((Real.cos q - Real.sin β * Real.sin β₂) / (Real.cos β * Real.cos β₂))) =
      fin (Complex.arg ⟨Real.sin β₂ * Real.cos q - Real.sin β, Real.cos β * Real.sin q * Real.sin α⟩) := by
      simp only [directAlpha2, Bool.false_eq_true, if_false, Angle.cos, Angle.sin, cos_fin, sin_fin, mul_fin, sub_fin,
        atan2_fin]
      rw [← arg_scale (inv_pos.2 hp) (Real.sin β₂ * Real.cos q - Real.sin β)]
      congr 3
      · field_simp
        linear_combination -Real.sin β * Real.sin_sq_add_cos_sq β₂
      · field_simp
    intro t
    cases t
    · exact e
    · rw [C67_direct_azimuth, e]
  rw [short, atan2_fin, atan2_fin]
  congr 1
  congr 1
  · congr 1
    · rw [← arg_scale (inv_pos.2 (mul_pos hcβ hp)) (Real.cos q - Real.sin β * Real.sin β₂)]
      simp only [rappExcess, add_fin, mul_fin, sub_fin, angle_new_rad, Lon.addAngle]
      show Lon.new ((⟨fin l⟩ + ⟨fin _⟩ : Angle XR)) = _
      simp only [Angle.mk_add, add_fin]
      congr 5
      · congr 1
        congr 1
        · field_simp
        · field_simp
    · have hlat : Complex.arg ⟨b / a, Real.tan β₂⟩ = Complex.arg ⟨b / a * Real.cos β₂, Real.sin β₂⟩ := by
        rw [← arg_scale hp (b / a), mul_comm (Real.cos β₂) (b / a), mul_comm (Real.cos β₂) (Real.tan β₂),
          Real.tan_mul_cos hp.ne']
      obtain ⟨_, _, _, _, g1, g2⟩ := reduced_of_geodetic hb hab n (R := Real.cos β₂) (Z := Real.sin β₂) hp.le
        (by rw [add_comm]; exact Real.sin_sq_add_cos_sq β₂) rfl
      rw [angle_new_rad, lat_new_fin, hlat, clampR_id g1 g2]
      rfl
  · rw [angle_new_rad, azi_new_fin, normR_id (Complex.neg_pi_lt_arg _) (Complex.arg_le_pi _)]

/-- **C75**: what the Rapp direct solver returns, for ellipsoids with `a ≤ 2 b` and lines that do not start or end at a
pole.  The last two arcs `q` and `σ` differ by less than `0.5e-14` and are linked by Rapp's series; the end point is at
the reduced latitude of the arc `σ`, at the longitude `lam` from the start on the auxiliary sphere, less the excess of
his series; `lam` and the azimuth are computed with the arc `q`, the azimuth with the sign of `sin q`. -/
theorem C75_rapp_direct {a b : ℝ} (hb : 0 < b) (hab : b ≤ a) (hflat : a ≤ 2 * b) (n : String) (l φ α s : ℝ)
    (hc : 0 < Real.cos φ) (g : Geodesic XR)
    (h : (new (ell n a b)).direct (lonR l, latR φ) (aziR α) (lenR s) = .ok g) :
    ∃ β₁ sa u m σ q β₂ : ℝ, (ell n a b).reducedLatitude (latR φ) = ⟨fin β₁⟩ ∧ sa = Real.cos β₁ * Real.sin α ∧
      u = (1 - sa ^ 2) * ((a ^ 2 - b ^ 2) / b ^ 2) ∧ IsNodeArc β₁ α m ∧ |σ - q| < 0.5e-14 ∧
      σ = rappSigma u m (s / (b * rappB0 u)) q ∧
      Real.sin β₂ = Real.sin β₁ * Real.cos σ + Real.cos β₁ * Real.sin σ * Real.cos α ∧
      (0 < Real.cos β₂ → ∃ φ₂ lam r α₂ r' : ℝ, (ell n a b).reducedLatitude (latR φ₂) = ⟨fin β₂⟩ ∧
        0 ≤ r ∧ r * Real.cos lam = Real.cos q - Real.sin β₁ * Real.sin β₂ ∧
        r * Real.sin lam = Real.cos β₁ * Real.sin q * Real.sin α ∧
        0 ≤ r' ∧ r' * Real.cos α₂ = Real.sin β₂ * Real.cos q - Real.sin β₁ ∧
        r' * Real.sin α₂ = Real.cos β₁ * Real.sin q * Real.sin α ∧
        g = { p1 := (lonR l, latR φ), alpha1 := aziR α
              p2 := (Lon.new ⟨fin (l + (lam - rappExcess ((a - b) / a) sa m σ q))⟩, latR φ₂)
              alpha2 := aziR α₂, s := lenR s }) := by
  set β := Real.arctan (b / a * Real.tan φ) with hβ
  have hcβ : 0 < Real.cos β := Real.cos_arctan_pos _
  set u := (1 - (Real.cos β * Real.sin α) ^ 2) * ((a ^ 2 - b ^ 2) / b ^ 2) with hu
  obtain ⟨u0, u3⟩ := u2_bounds hb hab hflat β α
  have hB := (rappB0_pos u0 u3).ne'
  have hm : Complex.arg ⟨Real.cos α, b / a * Real.tan φ⟩ = Complex.arg ⟨Real.cos α, Real.tan β⟩ := by
    rw [hβ, Real.tan_arctan]
  have h0 := h
  rw [rapp_direct_eq hb hab n l φ α s hc β u hβ hu hB] at h
  obtain ⟨st, hst, -⟩ := bind_eq_ok.1 h
  obtain ⟨q, hr, hlt⟩ := rappLoop_real hcβ.ne' hm hB _ _ _ _ _ rfl hst
  obtain ⟨z0, z1⟩ := arcsin_height β α
    (rappSigma u (Complex.arg ⟨Real.cos α, b / a * Real.tan φ⟩) (s / (b * rappB0 u)) q)
  refine ⟨β, _, u, _, _, q, _, reducedLatitude_off hb hab n hc, rfl, hu, isNodeArc hβ, hlt, rfl, z1, fun hp => ?_⟩
  have ho := rapp_outcome hb hab n l φ α s hc β u _ _ _ q st hβ hu hB rfl hr hst rfl hp
  rw [h0] at ho
  cases ho
  obtain ⟨β', hβ', hcβ', hsβ', -, -⟩ := reduced_of_geodetic hb hab n hp.le (by rw [add_comm]; exact Real.sin_sq_add_cos_sq _)
    rfl
  obtain ⟨β'', hβ'', i1, i2, -⟩ := reducedLatitude_all hb hab n (Complex.arg ⟨b / a * Real.cos (Real.arcsin (Real.sin β *
    Real.cos (rappSigma u (Complex.arg ⟨Real.cos α, b / a * Real.tan φ⟩) (s / (b * rappB0 u)) q) + Real.cos β *
    Real.sin (rappSigma u (Complex.arg ⟨Real.cos α, b / a * Real.tan φ⟩) (s / (b * rappB0 u)) q) * Real.cos α)),
    Real.sin (Real.arcsin (Real.sin β *
    Real.cos (rappSigma u (Complex.arg ⟨Real.cos α, b / a * Real.tan φ⟩) (s / (b * rappB0 u)) q) + Real.cos β *
    Real.sin (rappSigma u (Complex.arg ⟨Real.cos α, b / a * Real.tan φ⟩) (s / (b * rappB0 u)) q) * Real.cos α))⟩)
  have e : β'' = β' := by rw [hβ'] at hβ''; simpa using hβ''.symm
  rw [e] at i1 i2
  have e2 : β' = _ := Real.injOn_sin ⟨i1, i2⟩ ⟨Real.neg_pi_div_two_le_arcsin _, Real.arcsin_le_pi_div_two _⟩ hsβ'
  rw [e2] at hβ'
  obtain ⟨p1, p2⟩ := polar (Real.cos q - Real.sin β * Real.sin (Real.arcsin (Real.sin β *
    Real.cos (rappSigma u (Complex.arg ⟨Real.cos α, b / a * Real.tan φ⟩) (s / (b * rappB0 u)) q) + Real.cos β *
    Real.sin (rappSigma u (Complex.arg ⟨Real.cos α, b / a * Real.tan φ⟩) (s / (b * rappB0 u)) q) * Real.cos α)))
    (Real.cos β * Real.sin q * Real.sin α)
  obtain ⟨p3, p4⟩ := polar (Real.sin (Real.arcsin (Real.sin β *
    Real.cos (rappSigma u (Complex.arg ⟨Real.cos α, b / a * Real.tan φ⟩) (s / (b * rappB0 u)) q) + Real.cos β *
    Real.sin (rappSigma u (Complex.arg ⟨Real.cos α, b / a * Real.tan φ⟩) (s / (b * rappB0 u)) q) * Real.cos α)) *
    Real.cos q - Real.sin β) (Real.cos β * Real.sin q * Real.sin α)
  exact ⟨_, _, _, _, _, hβ', Real.sqrt_nonneg _, p1, p2, Real.sqrt_nonneg _, p3, p4, rfl⟩

/-- The solver returns after one iteration when the correction vanishes. -/
theorem rapp_immediate {a b : ℝ} (hb : 0 < b) (hab : b ≤ a) (n : String) (l φ α s : ℝ) (hc : 0 < Real.cos φ)
    (β u m β₂ σ : ℝ) (hβ : β = Real.arctan (b / a * Real.tan φ))
    (hu : u = (1 - (Real.cos β * Real.sin α) ^ 2) * ((a ^ 2 - b ^ 2) / b ^ 2)) (hB : rappB0 u ≠ 0)
    (hm : m = Complex.arg ⟨Real.cos α, b / a * Real.tan φ⟩) (hσ : σ = s / (b * rappB0 u))
    (h0 : rappSigma u m σ σ = σ)
    (hβ₂ : β₂ = Real.arcsin (Real.sin β * Real.cos σ + Real.cos β * Real.sin σ * Real.cos α))
    (hp : 0 < Real.cos β₂) :
    (new (ell n a b)).direct (lonR l, latR φ) (aziR α) (lenR s) = .ok
      { p1 := (lonR l, latR φ), alpha1 := aziR α
        p2 := (Lon.new ⟨fin (l + (Complex.arg ⟨Real.cos σ - Real.sin β * Real.sin β₂, Real.cos β * Real.sin σ * Real.sin α⟩ -
            rappExcess ((a - b) / a) (Real.cos β * Real.sin α) m σ σ))⟩,
          latR (Complex.arg ⟨b / a * Real.cos β₂, Real.sin β₂⟩))
        alpha2 := aziR (Complex.arg ⟨Real.sin β₂ * Real.cos σ - Real.sin β, Real.cos β * Real.sin σ * Real.sin α⟩)
        s := lenR s } := by
  have hcβ : 0 < Real.cos β := by rw [hβ]; exact Real.cos_arctan_pos _
  have hm' : m = Complex.arg ⟨Real.cos α, Real.tan β⟩ := by rw [hm, hβ, Real.tan_arctan]
  have hr := rappStep_real (s0 := σ) hcβ.ne' hm' hB (rappInit σ) rfl
  rw [h0] at hr
  refine rapp_outcome hb hab n l φ α s hc β u m β₂ σ σ _ hβ hu hB hm hr ?_ hβ₂ hp
  rw [← hσ, MAX_ITERATIONS, loopMax]
  have hd : directDone (directStep ⟨fin β⟩ (fin (Real.cos α)) (fin u) (fin σ) (rappInit σ)) = true := by
    rw [directDone, hr.sigma, hr.old, sub_fin, sub_self, abs_fin, abs_zero, sci_eq, lt_fin]
    exact decide_eq_true (by norm_num)
  simp only [hd, if_true]

/-- On a sphere: the arc of great circle, and the azimuth with the sign of `sin (s / a)`. -/
theorem rapp_sphere {a : ℝ} (ha : 0 < a) (n : String) (l φ α s : ℝ) (h1 : -(Real.pi / 2) < φ) (h2 : φ < Real.pi / 2)
    (hp : (Real.sin φ * Real.cos (s / a) + Real.cos φ * Real.sin (s / a) * Real.cos α) ^ 2 ≠ 1) :
    ∃ φ₂ lam α₂ α₃ : ℝ, -(Real.pi / 2) ≤ φ₂ ∧ φ₂ ≤ Real.pi / 2 ∧ 0 < Real.cos φ₂ ∧
      ArcEnd φ α (s / a) φ₂ lam α₂ ∧ -Real.pi < α₂ ∧ α₂ ≤ Real.pi ∧
      α₃ = Complex.arg ⟨Real.sin (s / a) * Real.cos α₂, Real.sin (s / a) * Real.sin α₂⟩ ∧
      (new (ell n a a)).direct (lonR l, latR φ) (aziR α) (lenR s) = .ok
        { p1 := (lonR l, latR φ), alpha1 := aziR α, p2 := (Lon.new ⟨fin (l + lam)⟩, latR φ₂), alpha2 := aziR α₃
          s := lenR s } := by
  have hc : 0 < Real.cos φ := Real.cos_pos_of_mem_Ioo ⟨h1, h2⟩
  have hβ : φ = Real.arctan (a / a * Real.tan φ) := by rw [div_self ha.ne', one_mul, Real.arctan_tan h1 h2]
  have hu : (0 : ℝ) = (1 - (Real.cos φ * Real.sin α) ^ 2) * ((a ^ 2 - a ^ 2) / a ^ 2) := by simp
  have hB : rappB0 0 = 1 := by norm_num [rappB0]
  obtain ⟨z0, z1⟩ := arcsin_height φ α (s / a)
  set φ₂ := Real.arcsin (Real.sin φ * Real.cos (s / a) + Real.cos φ * Real.sin (s / a) * Real.cos α) with hφ₂
  have hcp : 0 < Real.cos φ₂ := by
    refine lt_of_le_of_ne z0 fun e => hp ?_
    rw [← z1]
    have := Real.sin_sq_add_cos_sq φ₂
    rw [← e] at this
    linarith
  have hend := arcEnd φ α (s / a) φ₂ z1 z0
  have q1 := Real.sin_sq_add_cos_sq φ
  have q2 := Real.sin_sq_add_cos_sq (s / a)
  have e1 : Complex.arg ⟨Real.cos (s / a) - Real.sin φ * Real.sin φ₂, Real.cos φ * Real.sin (s / a) * Real.sin α⟩ =
      Complex.arg ⟨Real.cos φ * Real.cos (s / a) - Real.sin φ * Real.sin (s / a) * Real.cos α,
        Real.sin (s / a) * Real.sin α⟩ := by
    rw [← arg_scale hc (Real.cos φ * Real.cos (s / a) - Real.sin φ * Real.sin (s / a) * Real.cos α)]
    congr 2
    · rw [z1]; linear_combination (-Real.cos (s / a)) * q1
    · ring
  have e2 : Complex.arg ⟨Real.cos φ₂, Real.sin φ₂⟩ = φ₂ := by
    have := arg_polar one_pos (lt_of_lt_of_le (by linarith [Real.pi_pos]) (Real.neg_pi_div_two_le_arcsin _))
      ((Real.arcsin_le_pi_div_two (Real.sin φ * Real.cos (s / a) + Real.cos φ * Real.sin (s / a) * Real.cos α)).trans
        (by linarith [Real.pi_pos]))
    rwa [one_mul, one_mul] at this
  have hdir := rapp_immediate ha le_rfl n l φ α s hc φ 0 _ φ₂ (s / a) hβ hu (by rw [hB]; exact one_ne_zero) rfl
    (by rw [hB, mul_one]) (by simp [rappSigma, rappB2, rappB4, rappB6]) hφ₂ hcp
  rw [sub_self, zero_div, show ∀ sa m σ q, rappExcess 0 sa m σ q = 0 by intros; simp [rappExcess], sub_zero, e1,
    div_self ha.ne', one_mul, e2] at hdir
  refine ⟨φ₂, _, _, _, Real.neg_pi_div_two_le_arcsin _, Real.arcsin_le_pi_div_two _, hcp, hend,
    Complex.neg_pi_lt_arg _, Complex.arg_le_pi _, rfl, ?_⟩
  rw [hdir]
  congr 3
  rw [← arg_scale hcp (Real.sin (s / a) * Real.cos _)]
  have c1 := hend.clairaut
  have c2 := hend.north
  have k1 : ∀ x : ℝ, Real.cos φ₂ * x = Real.cos φ * Real.cos (s / a) * Real.cos α - Real.sin φ * Real.sin (s / a) →
      Real.sin φ₂ * Real.cos (s / a) - Real.sin φ = Real.cos φ₂ * (Real.sin (s / a) * x) := fun x hx => by
    rw [z1]
    linear_combination (-Real.sin (s / a)) * hx + Real.sin φ * q2
  have k2 : ∀ x : ℝ, Real.cos φ₂ * x = Real.cos φ * Real.sin α →
      Real.cos φ * Real.sin (s / a) * Real.sin α = Real.cos φ₂ * (Real.sin (s / a) * x) := fun x hx => by
    linear_combination (-Real.sin (s / a)) * hx
  rw [k1 _ c2, k2 _ c1]

/-- **C64** (Rapp direct): on a sphere the solver returns and the end point is on the great circle at the angle `s / a`
from the start, unless it is a pole. -/
theorem C64_rapp_direct {a : ℝ} (ha : 0 < a) (n : String) (l φ α s : ℝ) (h1 : -(Real.pi / 2) < φ) (h2 : φ < Real.pi / 2)
    (hp : (Real.sin φ * Real.cos (s / a) + Real.cos φ * Real.sin (s / a) * Real.cos α) ^ 2 ≠ 1) :
    ∃ g l₂ φ₂, (new (ell n a a)).direct (lonR l, latR φ) (aziR α) (lenR s) = .ok g ∧ g.p2 = (lonR l₂, latR φ₂) ∧
      unitAt l₂ φ₂ = Real.cos (s / a) • unitAt l φ + Real.sin (s / a) • tangentAt l φ α := by
  obtain ⟨φ₂, lam, α₂, α₃, -, -, -, hend, -, -, -, hg⟩ := rapp_sphere ha n l φ α s h1 h2 hp
  have hd := remR_same (l + lam)
  refine ⟨_, remR (l + lam), φ₂, hg, by rw [lon_new_fin]; rfl, ?_⟩
  rw [← hend.position l, unitAt, unitAt, hd.cos, hd.sin]

/-- **C73** (Rapp, lines with `sin (s / a) > 0` only): on a sphere the azimuth at the end point is the direction of the
great circle. -/
theorem C73_rapp_partial {a : ℝ} (ha : 0 < a) (n : String) (l φ α s : ℝ) (h1 : -(Real.pi / 2) < φ) (h2 : φ < Real.pi / 2)
    (hp : (Real.sin φ * Real.cos (s / a) + Real.cos φ * Real.sin (s / a) * Real.cos α) ^ 2 ≠ 1)
    (hs : 0 < Real.sin (s / a)) :
    ∃ g l₂ φ₂ α₂, (new (ell n a a)).direct (lonR l, latR φ) (aziR α) (lenR s) = .ok g ∧ g.p2 = (lonR l₂, latR φ₂) ∧
      g.alpha2 = aziR α₂ ∧
      tangentAt l₂ φ₂ α₂ = -Real.sin (s / a) • unitAt l φ + Real.cos (s / a) • tangentAt l φ α := by
  obtain ⟨φ₂, lam, α₂, α₃, -, -, hc, hend, g1, g2, e, hg⟩ := rapp_sphere ha n l φ α s h1 h2 hp
  rw [arg_polar hs g1 g2] at e
  have hd := remR_same (l + lam)
  refine ⟨_, remR (l + lam), φ₂, α₃, hg, by rw [lon_new_fin]; rfl, rfl, ?_⟩
  rw [← hend.direction hc.ne' l, tangentAt, tangentAt, hd.cos, hd.sin, e]

/-- **C73, negation**: on the unit sphere, from the equator to the east over three quarters of the circle, the Rapp
solver returns the end point with an azimuth to the west (`-π/2`); the great circle still heads east there. -/
theorem C73_rapp_violated :
    ∃ g l₂ φ₂ α₂, (new (ell "s" 1 1)).direct (lonR 0, latR 0) (aziR (Real.pi / 2)) (lenR (3 * (Real.pi / 2))) = .ok g ∧
      g.p2 = (lonR l₂, latR φ₂) ∧ g.alpha2 = aziR α₂ ∧ α₂ = -(Real.pi / 2) ∧
      unitAt l₂ φ₂ = Real.cos (3 * (Real.pi / 2)) • unitAt 0 0 + Real.sin (3 * (Real.pi / 2)) • tangentAt 0 0 (Real.pi / 2) ∧
      tangentAt l₂ φ₂ α₂ ≠
        -Real.sin (3 * (Real.pi / 2)) • unitAt 0 0 + Real.cos (3 * (Real.pi / 2)) • tangentAt 0 0 (Real.pi / 2) := by
  have hp := Real.pi_pos
  have hs : Real.sin (3 * (Real.pi / 2)) = -1 := by
    rw [Real.sin_three_mul, Real.sin_pi_div_two]; norm_num
  have hcz : Real.cos (3 * (Real.pi / 2)) = 0 := by
    rw [Real.cos_three_mul, Real.cos_pi_div_two]; norm_num
  obtain ⟨φ₂, lam, α₂, α₃, r1, r2, hc, hend, g1, g2, e, hg⟩ := rapp_sphere one_pos "s" 0 0 (Real.pi / 2)
    (3 * (Real.pi / 2)) (by linarith) (by linarith) (by simp)
  rw [div_one] at hend e
  have hφ : φ₂ = 0 := by
    have := hend.height
    rw [hcz, Real.cos_pi_div_two, mul_zero, mul_zero, add_zero, ← Real.sin_zero] at this
    exact Real.injOn_sin ⟨r1, r2⟩ ⟨by linarith, by linarith⟩ this
  subst hφ
  have c1 := hend.clairaut
  have c2 := hend.north
  have c3 := hend.east
  have c4 := hend.outward
  simp only [Real.cos_zero, Real.sin_zero, one_mul, Real.sin_pi_div_two, Real.cos_pi_div_two, mul_zero, zero_mul,
    sub_zero, mul_one, hs, hcz] at c1 c2 c3 c4
  have hα : α₃ = -(Real.pi / 2) := by
    rw [e, c1, c2, hs]
    have : (⟨-1 * 0, -1 * 1⟩ : ℂ) = -Complex.I := by apply Complex.ext <;> simp
    rw [this, Complex.arg_neg_I]
  have hd := remR_same (0 + lam)
  have d1 : Real.cos (remR (0 + lam)) = 0 := by rw [hd.cos, zero_add, c4]
  have d2 : Real.sin (remR (0 + lam)) = -1 := by rw [hd.sin, zero_add, c3]
  refine ⟨_, remR (0 + lam), 0, α₃, hg, by rw [lon_new_fin]; rfl, rfl, hα, ?_, ?_⟩ <;>
    generalize remR (0 + lam) = x at d1 d2 ⊢
  · rw [hs, hcz]
    apply point3_ext <;> simp [unitAt, tangentAt, d1, d2]
  · rw [hα, hs, hcz]
    intro h
    have h0 := congrArg (fun v => v 0) h
    simp [tangentAt, unitAt, d1, d2] at h0
    norm_num at h0

/-- **C63** (Rapp, the end point only; the azimuth is wrong, see the next theorem): a geodesic of length zero ends where
it starts, for ellipsoids with `a ≤ 2 b`. -/
theorem C63_rapp_partial {a b : ℝ} (hb : 0 < b) (hab : b ≤ a) (hflat : a ≤ 2 * b) (n : String) (l φ α : ℝ)
    (h1 : -(Real.pi / 2) < φ) (h2 : φ < Real.pi / 2) :
    (new (ell n a b)).direct (lonR l, latR φ) (aziR α) (lenR 0) = .ok
      { p1 := (lonR l, latR φ), alpha1 := aziR α, p2 := (Lon.new ⟨fin l⟩, latR φ), alpha2 := aziR 0, s := lenR 0 } := by
  have hc : 0 < Real.cos φ := Real.cos_pos_of_mem_Ioo ⟨h1, h2⟩
  set β := Real.arctan (b / a * Real.tan φ) with hβ
  have hcβ : 0 < Real.cos β := Real.cos_arctan_pos _
  obtain ⟨u0, u3⟩ := u2_bounds hb hab hflat β α
  have hβ₂ : β = Real.arcsin (Real.sin β * Real.cos 0 + Real.cos β * Real.sin 0 * Real.cos α) := by
    rw [Real.cos_zero, Real.sin_zero, mul_one, mul_zero, zero_mul, add_zero,
      Real.arcsin_sin (Real.neg_pi_div_two_lt_arctan _).le (Real.arctan_lt_pi_div_two _).le]
  have hdir := rapp_immediate hb hab n l φ α 0 hc β _ _ β 0 hβ rfl (rappB0_pos u0 u3).ne' rfl (by rw [zero_div])
    (by simp [rappSigma]) hβ₂ hcβ
  have hex : ∀ f sa m, rappExcess f sa m 0 0 = 0 := fun f sa m => by simp [rappExcess]
  have z : (⟨0, 0⟩ : ℂ) = 0 := rfl
  have e1 : Real.cos 0 - Real.sin β * Real.sin β = Real.cos β ^ 2 * 1 := by
    rw [Real.cos_zero]; linear_combination (-1) * Real.sin_sq_add_cos_sq β
  have e2 : Complex.arg ⟨Real.cos β ^ 2 * 1, Real.cos β ^ 2 * 0⟩ = 0 := by
    rw [arg_scale (by positivity)]
    exact Complex.arg_one
  have e3 : Real.cos β * Real.sin 0 * Real.sin α = Real.cos β ^ 2 * 0 := by rw [Real.sin_zero]; ring
  have e4 : Real.sin β * Real.cos 0 - Real.sin β = 0 := by rw [Real.cos_zero]; ring
  rw [hex, e1, e3, e2, e4, geodetic_of_arctan hb hab h1 h2, mul_zero, z, Complex.arg_zero, sub_zero, add_zero] at hdir
  exact hdir

/-- **C63, negation**: from the equator to the east over no distance, the Rapp solver returns azimuth 0, not `π/2`. -/
theorem C63_rapp_violated : ∃ g, (new (ell "e" 10 9)).direct (lonR 0, latR 0) (aziR (Real.pi / 2)) (lenR 0) = .ok g ∧
    g.alpha2 ≠ aziR (Real.pi / 2) := by
  have hp := Real.pi_pos
  refine ⟨_, C63_rapp_partial (by norm_num) (by norm_num) (by norm_num) "e" 0 0 _ (by linarith) (by linarith), ?_⟩
  intro h
  have : (0 : ℝ) = Real.pi / 2 := by simpa using h
  linarith

/-- The hypotheses of the theorems on spheres are met: from 45° north to the north-east. -/
example : ∃ g l₂ φ₂ α₂, (new (ell "s" 2 2)).direct (lonR 1, latR (Real.pi / 4)) (aziR (Real.pi / 4)) (lenR (2 * (Real.pi / 4))) =
      .ok g ∧ g.p2 = (lonR l₂, latR φ₂) ∧ g.alpha2 = aziR α₂ ∧ tangentAt l₂ φ₂ α₂ =
        -Real.sin (2 * (Real.pi / 4) / 2) • unitAt 1 (Real.pi / 4) +
          Real.cos (2 * (Real.pi / 4) / 2) • tangentAt 1 (Real.pi / 4) (Real.pi / 4) := by
  have hp := Real.pi_pos
  have e : 2 * (Real.pi / 4) / 2 = Real.pi / 4 := by ring
  have h2 : Real.sqrt 2 ^ 2 = 2 := Real.sq_sqrt (by norm_num)
  have h4 : 0 < Real.sqrt 2 := by positivity
  refine C73_rapp_partial (by norm_num) "s" 1 (Real.pi / 4) (Real.pi / 4) _ (by linarith) (by linarith) ?_ ?_
  · rw [e, Real.sin_pi_div_four, Real.cos_pi_div_four]
    have h5 : Real.sqrt 2 < 1.5 := by rw [Real.sqrt_lt' (by norm_num)]; norm_num
    have h6 : Real.sqrt 2 / 2 * (Real.sqrt 2 / 2) + Real.sqrt 2 / 2 * (Real.sqrt 2 / 2) * (Real.sqrt 2 / 2) =
        1 / 2 + Real.sqrt 2 / 4 := by linear_combination (1 / 4 + Real.sqrt 2 / 8) * h2
    rw [h6]
    nlinarith
  · rw [e, Real.sin_pi_div_four]; positivity

end Geo
