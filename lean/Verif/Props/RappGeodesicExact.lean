import Verif.Lemmas.RappGeodesic
import Verif.Props.RappDirectExact
import Verif.Props.InverseGeodesicExact

/-! # C81: the direct solver of Rapp and the geodesics of the surface, in exact arithmetic -/

namespace Geo
open XR Spec RappSolver

/-- The loop ends within `k + 1` iterations when the corrections shrink by `c` each time. -/
theorem rappLoop_ends {β ca u s0 m c : ℝ} (hβ : Real.cos β ≠ 0) (hm : m = Complex.arg ⟨ca, Real.tan β⟩)
    (hB : rappB0 u ≠ 0) (c0 : 0 ≤ c) (hq : ∀ x y : ℝ, |rappSigma u m s0 y - rappSigma u m s0 x| ≤ c * |y - x|)
    (msg : String) (k : ℕ) (D q : ℝ) (st : DirectState XR) (h : st.sigma = fin q)
    (hD : |rappSigma u m s0 q - q| ≤ D) (hk : c ^ k * D < 0.5e-14) :
    ∃ r, loopMax (directStep ⟨fin β⟩ (fin ca) (fin u) (fin s0)) directDone msg (k + 1) st = .ok r := by
  have done : ∀ (st : DirectState XR) (q : ℝ), RealR st m (rappSigma u m s0 q) q →
      |rappSigma u m s0 q - q| < 0.5e-14 → directDone st = true := fun st q h' hd => by
    rw [directDone, h'.sigma, h'.old, sub_fin, abs_fin, sci_eq, lt_fin]
    exact decide_eq_true (by norm_num at hd ⊢; exact hd)
  induction k generalizing D q st with
  | zero =>
    have h' := rappStep_real (s0 := s0) hβ hm hB st h
    rw [loopMax]
    rw [pow_zero, one_mul] at hk
    simp only [done _ q h' (hD.trans_lt hk), if_true]
    exact ⟨_, rfl⟩
  | succ k ih =>
    have h' := rappStep_real (s0 := s0) hβ hm hB st h
    rw [loopMax]
    split
    · exact ⟨_, rfl⟩
    · exact ih (c * D) _ _ h'.sigma ((hq q _).trans (mul_le_mul_of_nonneg_left hD c0))
        (by rw [← mul_assoc, ← pow_succ]; exact hk)

/-- The size of the series parameter of a line. -/
theorem u2_small {a b : ℝ} (hb : 0 < b) (hab : b ≤ a) (hf : (a - b) / a ≤ 1 / 50) (β α : ℝ) :
    0 ≤ (1 - (Real.cos β * Real.sin α) ^ 2) * ((a ^ 2 - b ^ 2) / b ^ 2) ∧
      (1 - (Real.cos β * Real.sin α) ^ 2) * ((a ^ 2 - b ^ 2) / b ^ 2) ≤ 1 / 20 := by
  have hK0 : 0 ≤ 1 - (Real.cos β * Real.sin α) ^ 2 := by
    have h1 := Real.cos_sq_le_one β
    have h2 := Real.sin_sq_le_one α
    rw [mul_pow]
    nlinarith [sq_nonneg (Real.sin α)]
  have hc2 := Real.sq_sqrt hK0
  obtain ⟨x0, x1, -, -⟩ := Bessel.x_facts (s0 := Real.cos β * Real.sin α)
    (c0 := Real.sqrt (1 - (Real.cos β * Real.sin α) ^ 2)) hb hab (by rw [hc2]; ring) (by rw [hc2]) hf
  exact ⟨x0, x1⟩

/-- **C81**: the Rapp direct solver always returns, from a start off the poles, when the flattening is at most 1/50. -/
theorem C81_rapp_returns {a b : ℝ} (hb : 0 < b) (hab : b ≤ a) (hf : (a - b) / a ≤ 1 / 50) (n : String)
    (l φ α s : ℝ) (hc : 0 < Real.cos φ) :
    ∃ g, (new (ell n a b)).direct (lonR l, latR φ) (aziR α) (lenR s) = .ok g := by
  set β := Real.arctan (b / a * Real.tan φ) with hβ
  set u := (1 - (Real.cos β * Real.sin α) ^ 2) * ((a ^ 2 - b ^ 2) / b ^ 2) with hu
  obtain ⟨x0, x1⟩ := u2_small hb hab hf β α
  rw [← hu] at x0 x1
  obtain ⟨B0, B1⟩ := Bessel.rappB0_bounds x0 x1
  have hB : rappB0 u ≠ 0 := by linarith
  have hdiv : ∀ z : ℝ, |z / rappB0 u| ≤ |z| := fun z => by
    rw [abs_div, abs_of_pos (by linarith : 0 < rappB0 u)]
    exact div_le_self (abs_nonneg _) B0
  obtain ⟨st, hst⟩ := rappLoop_ends (ca := Real.cos α) (s0 := s / (b * rappB0 u)) (c := 1 / 50)
    (Real.cos_arctan_pos (b / a * Real.tan φ)).ne' rfl hB (by norm_num) (fun x y => by
      rw [Bessel.rappSigma_eq, Bessel.rappSigma_eq, sub_sub_sub_cancel_left, ← sub_div, sub_sub_sub_cancel_right]
      refine (hdiv _).trans ((Bessel.rappH_lip x0 x1 _ _).trans ?_)
      rw [add_sub_add_left_eq_sub, abs_sub_comm]
      exact mul_le_mul_of_nonneg_right (by linarith) (abs_nonneg _)) rappNotConverging 29 (1 / 50) (s / (b * rappB0 u))
    (rappInit (s / (b * rappB0 u))) rfl (by
      rw [Bessel.rappSigma_eq, sub_sub_cancel_left, abs_neg]
      refine (hdiv _).trans ((abs_sub _ _).trans ?_)
      have e1 := Bessel.rappH_abs x0 x1 (Complex.arg ⟨Real.cos α, Real.tan (Real.arctan (b / a * Real.tan φ))⟩ +
        s / (b * rappB0 u))
      have e2 := Bessel.rappH_abs x0 x1 (Complex.arg ⟨Real.cos α, Real.tan (Real.arctan (b / a * Real.tan φ))⟩)
      linarith) (by norm_num)
  rw [rapp_direct_eq hb hab n l φ α s hc β u hβ hu hB]
  simp only [show MAX_ITERATIONS = 29 + 1 from rfl, hβ, hst]
  exact ⟨_, rfl⟩

/-- A line that ends at a pole: the longitude returned is not a number. -/
theorem rapp_pole {a b : ℝ} (hb : 0 < b) (hab : b ≤ a) (n : String) (l φ α s : ℝ) (hc : 0 < Real.cos φ)
    (β u m β₂ σ q : ℝ) (st : DirectState XR) (hβ : β = Real.arctan (b / a * Real.tan φ))
    (hu : u = (1 - (Real.cos β * Real.sin α) ^ 2) * ((a ^ 2 - b ^ 2) / b ^ 2)) (hB : rappB0 u ≠ 0)
    (hm : m = Complex.arg ⟨Real.cos α, b / a * Real.tan φ⟩) (hr : RealR st m σ q)
    (hst : loopMax (directStep ⟨fin β⟩ (fin (Real.cos α)) (fin u) (fin (s / (b * rappB0 u)))) directDone
        rappNotConverging MAX_ITERATIONS (rappInit (s / (b * rappB0 u))) = .ok st)
    (hβ₂ : β₂ = Real.arcsin (Real.sin β * Real.cos σ + Real.cos β * Real.sin σ * Real.cos α))
    (hp : Real.cos β₂ = 0) (g : Geodesic XR)
    (hg : (new (ell n a b)).direct (lonR l, latR φ) (aziR α) (lenR s) = .ok g) :
    Real.sin α = 0 ∧ g.p2.1 = ⟨⟨nan⟩⟩ := by
  have hcβ : 0 < Real.cos β := by rw [hβ]; exact Real.cos_arctan_pos _
  obtain ⟨m1, m2⟩ := isNodeArc (β := β) (α := α) hβ
  rw [← hm] at m1 m2
  obtain ⟨z0, z1⟩ := arcsin_height β α σ
  rw [← hβ₂] at z1
  have hZ : Real.sin (m + σ) * Real.sqrt (1 - (Real.cos β * Real.sin α) ^ 2) =
      Real.sin β * Real.cos σ + Real.cos β * Real.sin σ * Real.cos α := by
    rw [Real.sin_add]
    linear_combination Real.cos σ * m2 + Real.sin σ * m1
  have hsa : -1 ≤ Real.cos β * Real.sin α ∧ Real.cos β * Real.sin α ≤ 1 := by
    rw [← abs_le, abs_mul]
    exact mul_le_one₀ (Real.abs_cos_le_one β) (abs_nonneg _) (Real.abs_sin_le_one α)
  have hs : Real.sin α = 0 := by
    have hend := arcEnd β α σ β₂ z1 hp.ge
    have := hend.clairaut
    rw [hp, zero_mul] at this
    exact (mul_eq_zero.1 this.symm).resolve_left hcβ.ne'
  refine ⟨hs, ?_⟩
  have hb2 : (Angle.new (Flt.asin (Flt.sin (st.sigma_1 + st.sigma) *
        Flt.cos (Flt.asin (fin (Real.cos β * Real.sin α))))) RAD : Angle XR) = ⟨fin β₂⟩ := by
    rw [hr.sigma_1, hr.sigma, add_fin, sin_fin, asin_fin hsa.1 hsa.2, cos_fin, Real.cos_arcsin, mul_fin, hZ,
      asin_fin (by rw [← z1]; exact Real.neg_one_le_sin _) (by rw [← z1]; exact Real.sin_le_one _), angle_new_rad, hβ₂]
  rw [rapp_direct_eq hb hab n l φ α s hc β u hβ hu hB, hst] at hg
  simp only [ok_bind, hb2] at hg
  cases hg
  simp only [Angle.cos, Angle.sin, Angle.tan, cos_fin, sin_fin, hr.sin_sigma, hr.cos_sigma, hr.sigma,
    hr.sin_2_sigma, hr.sin_3_sigma, hr.c2, hr.c4, hr.c6, mul_fin, sub_fin, hs, hp, mul_zero]
  have d0 : (fin 0 / fin 0 : XR) = nan := by
    show (if (0 : ℝ) = 0 then signInf 0 else fin (0 / 0)) = nan
    rw [if_pos rfl, signInf_zero]
  rw [d0, nan_atan2, nan_sub]
  simp [Lon.addAngle, lonR, Angle.new, Lon.new, Angle.wrapped, remainder]

/-- Two longitudes at the end point computed from nearby arcs. -/
theorem parallel_close {a b l l' φ₂ α₂ β β₂ c δ : ℝ} (ha : 0 ≤ a) (hr : Bessel.Reduced a b φ₂ β₂) (hc : 0 < c)
    (hβ : c ≤ Real.cos β) (h2 : 0 < Real.cos β₂) (hδ : 0 ≤ δ)
    (h : (Real.cos β * Real.cos β₂) ^ 2 * (2 - 2 * Real.cos (l' - l)) ≤ (2 * δ) ^ 2) :
    ‖surfacePoint a b l φ₂ - surfacePoint a b l' φ₂‖ ≤ 2 * δ * a / c ∧
    ‖direction l φ₂ α₂ - direction l' φ₂ α₂‖ ≤ 2 * δ / (c * Real.cos β₂) := by
  have hcos := Real.cos_le_one (l' - l)
  have hk : (c * Real.cos β₂) ^ 2 * (2 - 2 * Real.cos (l' - l)) ≤ (2 * δ) ^ 2 := by
    refine le_trans (mul_le_mul_of_nonneg_right ?_ (by linarith)) h
    exact pow_le_pow_left₀ (by positivity) (mul_le_mul_of_nonneg_right hβ h2.le) 2
  constructor
  · refine (sq_le_sq₀ (norm_nonneg _) (by positivity)).1 ?_
    rw [surfacePoint_norm hr, div_pow, le_div_iff₀ (by positivity)]
    nlinarith [mul_le_mul_of_nonneg_left hk (sq_nonneg a)]
  · refine (sq_le_sq₀ (norm_nonneg _) (by positivity)).1 ?_
    refine (direction_parallel l l' φ₂ α₂).trans ?_
    rw [div_pow, le_div_iff₀ (by positivity), mul_comm]
    exact hk

/-- The arc of a line of moderate length. -/
theorem rapp_arc_range {b s σ B : ℝ} (hb : 0 < b) (B0 : 1 ≤ B) (B1 : B ≤ 81 / 80)
    (h : |s / b - B * σ| ≤ 13 / 1000 * (|σ| + 0.5e-14)) (h1 : 1e-10 * b ≤ s) (h3 : s ≤ 3 * b) :
    0 < Real.sin σ ∧ 1 / Real.sin σ ≤ 32 * (b / s) := by
  have hs : 0 < s := lt_of_lt_of_le (by positivity) h1
  have k1 : 1e-10 ≤ s / b := by rw [le_div_iff₀ hb]; exact h1
  have k3 : s / b ≤ 3 := by rw [div_le_iff₀ hb]; exact h3
  obtain ⟨h4, h5⟩ := abs_le.1 h
  norm_num at h4 h5 k1
  have hσ : 0 < σ := by
    by_contra h0
    push Not at h0
    rw [abs_of_nonpos h0] at h5
    nlinarith
  rw [abs_of_pos hσ] at h4 h5
  have hBσ := mul_le_mul_of_nonneg_right B1 hσ.le
  have hBσ' := mul_le_mul_of_nonneg_right B0 hσ.le
  have u1 : σ ≤ 304 / 100 := by linarith
  have u2 : s / b ≤ 1027 / 1000 * σ := by linarith
  have hp : 0 < Real.sin σ := Real.sin_pos_of_pos_of_lt_pi hσ (by linarith [Real.pi_gt_d4])
  refine ⟨hp, ?_⟩
  have hr := arc_ratio hσ u1 (by linarith [Real.pi_gt_d4])
  have hn : (304 / 100 : ℝ) / Real.sin (304 / 100) ≤ 302 / 10 := by
    rw [div_le_iff₀ (by linarith [sin_304])]
    linarith [sin_304]
  have hr2 := hr.trans hn
  rw [div_le_iff₀ hp] at hr2
  rw [div_le_iff₀ hp]
  have e : s / b * (b / s) = 1 := by field_simp
  have hbs : 0 < b / s := by positivity
  nlinarith [mul_le_mul_of_nonneg_right (u2.trans (mul_le_mul_of_nonneg_left hr2 (by norm_num))) hbs.le]

/-- The position error, in figures. -/
theorem rapp_figures {a b f s c x y z σ : ℝ} (ha : 0 < a) (hb : 0 < b) (hab : a ≤ 103 / 100 * b) (f0 : 0 ≤ f)
    (f1 : f ≤ 1 / 50) (hc : 0 < c) (hc1 : c ≤ 1) (hσ : |σ| ≤ |s| / b + 1 / 75)
    (hx : x ≤ f ^ 4 * (1 / 30 * |s| + 1 / 2250 * a) + 53 / 100 * a * f * 0.5e-14)
    (hy : y ≤ 7 / 2 * f ^ 5 * |σ| + f * 0.5e-14) (hz : z ≤ 2 * 0.5e-14 * a / c) :
    z + (x + a * y) ≤ f ^ 4 * (11 / 100 * |s| + a / 700) + 1.1e-14 * a / c ∧
    (0 ≤ x → a / b ^ 2 * x + y ≤ f ^ 4 * (11 / 100 * (|s| / a) + 1 / 700) + 1e-15) := by
  have hs := abs_nonneg s
  have hf4 : 0 ≤ f ^ 4 := by positivity
  have hsb : a * (|s| / b) ≤ 103 / 100 * |s| := by
    rw [mul_div_assoc', div_le_iff₀ hb]
    nlinarith
  have hy' : y ≤ 7 / 100 * f ^ 4 * (|s| / b + 1 / 75) + f * 0.5e-14 := by
    refine hy.trans (add_le_add_left ?_ _)
    have : 7 / 2 * f ^ 5 ≤ 7 / 100 * f ^ 4 := by nlinarith
    exact mul_le_mul this hσ (abs_nonneg _) (by positivity)
  have hf' : f * 0.5e-14 ≤ 1 / 50 * 0.5e-14 := mul_le_mul_of_nonneg_right f1 (by norm_num)
  constructor
  · have h1 := mul_le_mul_of_nonneg_left hy' ha.le
    have h2 := mul_le_mul_of_nonneg_left hsb hf4
    have h3 := mul_le_mul_of_nonneg_left hf' ha.le
    have h4 : a ≤ a / c := by rw [le_div_iff₀ hc]; nlinarith
    have h5 : 0 ≤ f ^ 4 * |s| := by positivity
    have h6 : 0 ≤ f ^ 4 * a := by positivity
    rw [mul_div_assoc] at hz ⊢
    norm_num at *
    nlinarith
  · intro hx0
    have hba : a / b ^ 2 ≤ (107 / 100) / a := by
      rw [div_le_div_iff₀ (by positivity) ha]
      nlinarith
    have hsb' : |s| / b ≤ 103 / 100 * (|s| / a) := by
      rw [mul_div_assoc', div_le_div_iff₀ hb ha]
      nlinarith
    have h1 : a / b ^ 2 * x ≤ 107 / 100 * (f ^ 4 * (1 / 30 * (|s| / a) + 1 / 2250) + 53 / 100 * f * 0.5e-14) := by
      refine (mul_le_mul hba hx hx0 (by positivity)).trans (le_of_eq ?_)
      field_simp
    have h2 := mul_le_mul_of_nonneg_left hsb' hf4
    have h5 : 0 ≤ f ^ 4 * (|s| / a) := by positivity
    norm_num at *
    nlinarith

/-- The geodesic of a line and its end, for the outcome of the Rapp solver. -/
theorem rapp_line {a b : ℝ} (hb : 0 < b) (hab : b ≤ a) (hf : (a - b) / a ≤ 1 / 50) {l φ α s β m σ q u : ℝ}
    (hc : 0 < Real.cos φ) (hr : Bessel.Reduced a b φ β) (hm : IsNodeArc β α m)
    (hu : u = (1 - (Real.cos β * Real.sin α) ^ 2) * ((a ^ 2 - b ^ 2) / b ^ 2)) (hlt : |σ - q| ≤ 0.5e-14)
    (hσ : σ = rappSigma u m (s / (b * rappB0 u)) q) :
    ∃ γ, IsGeodesic a b γ ∧ γ 0 = surfacePoint a b l φ ∧ deriv γ 0 = direction l φ α ∧
      ∀ β₂ φ₂ L A, Bessel.Reduced a b φ₂ β₂ → 0 < Real.cos β₂ →
        Real.sin β₂ = Real.sin β * Real.cos σ + Real.cos β * Real.sin σ * Real.cos α →
        L = Complex.arg ⟨Real.cos q - Real.sin β * Real.sin β₂, Real.cos β * Real.sin q * Real.sin α⟩ →
        A = Complex.arg ⟨Real.sin β₂ * Real.cos q - Real.sin β, Real.cos β * Real.sin q * Real.sin α⟩ →
        ‖surfacePoint a b (l + (L - rappExcess ((a - b) / a) (Real.cos β * Real.sin α) m σ q)) φ₂ - γ s‖ ≤
          ((a - b) / a) ^ 4 * (11 / 100 * |s| + a / 700) + 1.1e-14 * a / Real.cos φ ∧
        (1e-10 * b ≤ s → s ≤ 3 * b →
          ‖direction (l + (L - rappExcess ((a - b) / a) (Real.cos β * Real.sin α) m σ q)) φ₂ A - deriv γ s‖ ≤
          ((a - b) / a) ^ 4 * (11 / 100 * (|s| / a) + 1 / 700) +
            (1e-15 + 1e-14 / (Real.cos φ * Real.cos β₂) + 3.2e-13 * (b / s) / Real.cos β₂)) := by
  have ha : 0 < a := lt_of_lt_of_le hb hab
  have hβc := reduced_cos_ge hb hab hr hc.le
  have hcβ : 0 < Real.cos β := lt_of_lt_of_le hc hβc
  set s0 := Real.cos β * Real.sin α with hs0
  have hs1 : |s0| ≤ 1 := by
    rw [hs0, abs_mul]
    exact mul_le_one₀ (Real.abs_cos_le_one _) (abs_nonneg _) (Real.abs_sin_le_one _)
  have hK : 0 ≤ 1 - s0 ^ 2 := by rw [← sq_abs]; nlinarith [abs_nonneg s0]
  have hc2 := Real.sq_sqrt hK
  have h1 : s0 ^ 2 + Real.sqrt (1 - s0 ^ 2) ^ 2 = 1 := by rw [hc2]; ring
  have hu' : u = Real.sqrt (1 - s0 ^ 2) ^ 2 * ((a ^ 2 - b ^ 2) / b ^ 2) := by rw [hc2]; exact hu
  obtain ⟨γ, hγ, g0, g1, hend⟩ := Bessel.arc_geodesic hb hab (l := l) hcβ hr rfl hm.1 hm.2 h1
  refine ⟨γ, hγ, g0, g1, fun β₂ φ₂ L A hr2 hp hh hL hA => ?_⟩
  have he := arcEnd β α σ β₂ hh hp.le
  set L' := Complex.arg ⟨Real.cos β * Real.cos σ - Real.sin β * Real.sin σ * Real.cos α, Real.sin σ * Real.sin α⟩
  set A' := Complex.arg ⟨-Real.sin β * Real.sin σ + Real.cos β * Real.cos σ * Real.cos α, Real.cos β * Real.sin α⟩
  obtain ⟨k1, k2⟩ := hend σ β₂ L' A' φ₂ he hr2
  obtain ⟨r1, r2, r3⟩ := Bessel.rapp_arc hb hab h1 hu' hf hlt hσ
  have r4 := Bessel.rapp_lon hb hab h1 rfl hf m (m + σ)
  rw [add_sub_cancel_left, hc2] at r4
  have f0 : 0 ≤ (a - b) / a := div_nonneg (by linarith) ha.le
  have r5 := Bessel.rappExcess_near (m := m) (σ := σ) (q := q) f0 hf hs1
  set x := rappExcess ((a - b) / a) s0 m σ q
  set t := Bessel.T a b s0 (Real.sqrt (1 - s0 ^ 2)) (m + σ) - Bessel.T a b s0 (Real.sqrt (1 - s0 ^ 2)) m
  set y := Bessel.G a b s0 (Real.sqrt (1 - s0 ^ 2)) (m + σ) - Bessel.G a b s0 (Real.sqrt (1 - s0 ^ 2)) m
  have hab' : a ≤ 103 / 100 * b := by
    rw [div_le_iff₀ ha] at hf
    linarith
  set f := (a - b) / a
  have r6 : |y - x| ≤ 7 / 2 * f ^ 5 * |σ| + f * 0.5e-14 := by
    have e1 := abs_sub_le y (f * s0 * Bessel.rappL f (1 - s0 ^ 2) (m + σ) - f * s0 * Bessel.rappL f (1 - s0 ^ 2) m) x
    rw [abs_sub_comm _ x, abs_sub_comm _ x, abs_sub_comm x y] at e1
    have e2 := mul_le_mul_of_nonneg_left hlt f0
    linarith
  have hsβ := Real.sin_sq_add_cos_sq β
  have hsσ := Real.sin_sq_add_cos_sq σ
  have cl := chord_close (r := Real.cos β * Real.cos β₂) (l := σ) (l' := q) (l'' := q) (P := -(Real.sin β * Real.sin β₂)) (Q := 1)
    (R := s0) (α := L') (α' := L) (by positivity) (by rw [abs_one]) hs1
    (by rw [mul_assoc, he.outward, hh]; linear_combination Real.cos σ * hsβ)
    (by rw [mul_assoc, he.east, hs0]; ring) (Or.inl rfl) (by rw [hL]; congr 2 <;> ring)
  have cl' : (Real.cos β * Real.cos β₂) ^ 2 * (2 - 2 * Real.cos ((l + (L' - x)) - (l + (L - x)))) ≤ (2 * 0.5e-14) ^ 2 := by
    rw [show (l + (L' - x)) - (l + (L - x)) = -(L - L') by ring, Real.cos_neg]
    refine cl.trans ?_
    rw [abs_sub_comm]
    exact pow_le_pow_left₀ (by positivity) (by linarith) 2
  obtain ⟨n1, n2⟩ := parallel_close (α₂ := A) ha.le hr2 hc hβc hp (by norm_num) cl'
  obtain ⟨v1, v2⟩ := rapp_figures ha hb hab' f0 hf hc (Real.cos_le_one _) r1 r2 r6 n1
  refine ⟨le_trans ?_ v1, fun i1 i3 => ?_⟩
  · have p1 := Bessel.surfacePoint_sub (l := l + (L' - x)) (l' := l + (L' - y)) ha.le hr2
    have p2 := hγ.chord s t
    rw [k1] at p2
    rw [show l + (L' - x) - (l + (L' - y)) = y - x by ring] at p1
    refine (norm_sub_le_norm_sub_add_norm_sub _ (surfacePoint a b (l + (L' - x)) φ₂) _).trans (add_le_add_right ?_ _)
    refine (norm_sub_le_norm_sub_add_norm_sub _ (surfacePoint a b (l + (L' - y)) φ₂) _).trans ?_
    linarith
  · obtain ⟨x0, x1, -, -⟩ := Bessel.x_facts hb hab h1 hu' hf
    obtain ⟨B0, B1⟩ := Bessel.rappB0_bounds x0 x1
    obtain ⟨w1, w2⟩ := rapp_arc_range hb B0 (by linarith) r3 i1 i3
    have p1 := direction_sub (l + (L' - x)) (l + (L' - y)) φ₂ A'
    have p2 := hγ.turn hb hab s t
    rw [k2 hp.ne'] at p2
    rw [show l + (L' - x) - (l + (L' - y)) = y - x by ring] at p1
    have az := azimuth_close (r := Real.sin σ * Real.cos β₂) (l := σ) (l' := q) (l'' := q) (P := -Real.sin β) (Q := Real.sin β₂)
      (R := s0) (α := A') (α' := A) (by positivity) (Real.abs_sin_le_one _) hs1
      (by rw [mul_assoc, he.north, hh]; linear_combination (-Real.sin β) * hsσ)
      (by rw [mul_assoc, he.clairaut, hs0]; ring) (Or.inl rfl) (by rw [hA]; congr 2 <;> ring) (l + (L' - x)) φ₂
    have az' : ‖direction (l + (L' - x)) φ₂ A' - direction (l + (L' - x)) φ₂ A‖ ≤ 3.2e-13 * (b / s) / Real.cos β₂ := by
      rw [le_div_iff₀ hp]
      have e : 2 * |q - σ| ≤ 1e-14 := by
        rw [abs_sub_comm]; norm_num at hlt ⊢; linarith
      have h := az.trans e
      set N := ‖direction (l + (L' - x)) φ₂ A' - direction (l + (L' - x)) φ₂ A‖
      calc N * Real.cos β₂ = (Real.sin σ * Real.cos β₂ * N) * (1 / Real.sin σ) := by field_simp
        _ ≤ 1e-14 * (32 * (b / s)) := mul_le_mul h w2 (by positivity) (by norm_num)
        _ = _ := by ring
    have v3 := v2 (abs_nonneg _)
    have t1 := norm_sub_le_norm_sub_add_norm_sub (direction (l + (L - x)) φ₂ A) (direction (l + (L' - x)) φ₂ A) (deriv γ s)
    have t2 := norm_sub_le_norm_sub_add_norm_sub (direction (l + (L' - x)) φ₂ A) (direction (l + (L' - x)) φ₂ A') (deriv γ s)
    have t3 := norm_sub_le_norm_sub_add_norm_sub (direction (l + (L' - x)) φ₂ A') (direction (l + (L' - y)) φ₂ A') (deriv γ s)
    rw [norm_sub_rev (direction (l + (L' - x)) φ₂ A) (direction (l + (L' - x)) φ₂ A')] at t2
    have n3 : ‖direction (l + (L - x)) φ₂ A - direction (l + (L' - x)) φ₂ A‖ ≤ 1e-14 / (Real.cos φ * Real.cos β₂) :=
      n2.trans (by rw [show (2 * 0.5e-14 : ℝ) = 1e-14 by norm_num])
    linarith

/-- **C81**: the Rapp direct solver returns the end of the geodesic: from any start off the poles there is a geodesic of
the ellipsoid with this start and this azimuth, and the returned point differs from the one at the distance `s` along it
by at most `f⁴ (11/100 |s| + a / 700) + 1.1e-14 a / cos φ`, where `f = (a - b) / a ≤ 1/50`; unless the line ends at a
pole, when the longitude is not a number.  For `s` between `1e-10 b` and `3 b` the azimuth is that of the geodesic. -/
theorem C81_rapp_direct {a b : ℝ} (hb : 0 < b) (hab : b ≤ a) (hf : (a - b) / a ≤ 1 / 50) (n : String)
    (l φ α s : ℝ) (hc : 0 < Real.cos φ) :
    ∃ g, (new (ell n a b)).direct (lonR l, latR φ) (aziR α) (lenR s) = .ok g ∧
    ∃ γ : ℝ → E3, IsGeodesic a b γ ∧ γ 0 = surfacePoint a b l φ ∧ deriv γ 0 = direction l φ α ∧
      ((Real.sin α = 0 ∧ g.p2.1 = ⟨⟨nan⟩⟩) ∨ ∃ l₂ φ₂ α₂ : ℝ,
        g = ⟨(lonR l, latR φ), aziR α, (lonR l₂, latR φ₂), aziR α₂, lenR s⟩ ∧ -Real.pi ≤ l₂ ∧ l₂ ≤ Real.pi ∧
        -(Real.pi / 2) < φ₂ ∧ φ₂ < Real.pi / 2 ∧ -Real.pi < α₂ ∧ α₂ ≤ Real.pi ∧
        ‖surfacePoint a b l₂ φ₂ - γ s‖ ≤ ((a - b) / a) ^ 4 * (11 / 100 * |s| + a / 700) + 1.1e-14 * a / Real.cos φ ∧
        (1e-10 * b ≤ s → s ≤ 3 * b → ‖direction l₂ φ₂ α₂ - deriv γ s‖ ≤
          ((a - b) / a) ^ 4 * (11 / 100 * (|s| / a) + 1 / 700) +
            (1e-15 + 1e-14 / (Real.cos φ * Real.cos φ₂) + 3.2e-13 * (b / s) / Real.cos φ₂))) := by
  obtain ⟨g, hg⟩ := C81_rapp_returns hb hab hf n l φ α s hc
  refine ⟨g, hg, ?_⟩
  have ha : 0 < a := lt_of_lt_of_le hb hab
  set β := Real.arctan (b / a * Real.tan φ) with hβ
  have hcβ : 0 < Real.cos β := Real.cos_arctan_pos _
  set u := (1 - (Real.cos β * Real.sin α) ^ 2) * ((a ^ 2 - b ^ 2) / b ^ 2) with hu
  obtain ⟨x0, x1⟩ := u2_small hb hab hf β α
  rw [← hu] at x0 x1
  have hB : rappB0 u ≠ 0 := by linarith [(Bessel.rappB0_bounds x0 x1).1]
  have hm : Complex.arg ⟨Real.cos α, b / a * Real.tan φ⟩ = Complex.arg ⟨Real.cos α, Real.tan β⟩ := by
    rw [hβ, Real.tan_arctan]
  have h0 := hg
  rw [rapp_direct_eq hb hab n l φ α s hc β u hβ hu hB] at h0
  obtain ⟨st, hst, -⟩ := bind_eq_ok.1 h0
  obtain ⟨q, hr, hlt⟩ := rappLoop_real hcβ.ne' hm hB _ _ _ _ _ rfl hst
  set m := Complex.arg ⟨Real.cos α, b / a * Real.tan φ⟩ with hmd
  obtain ⟨σ, hσ⟩ : ∃ σ, σ = rappSigma u m (s / (b * rappB0 u)) q := ⟨_, rfl⟩
  rw [← hσ] at hr hlt
  obtain ⟨red, -, -⟩ := reduced_of_eq hb hab hc.le (reducedLatitude_off hb hab n hc)
  rw [← hβ] at red
  obtain ⟨γ, hγ, g0, g1, hend⟩ := rapp_line hb hab hf (l := l) hc red (isNodeArc hβ) hu hlt.le hσ
  refine ⟨γ, hγ, g0, g1, ?_⟩
  obtain ⟨z0, z1⟩ := arcsin_height β α σ
  obtain ⟨β₂, hβ₂⟩ : ∃ β₂, β₂ = Real.arcsin (Real.sin β * Real.cos σ + Real.cos β * Real.sin σ * Real.cos α) := ⟨_, rfl⟩
  rw [← hβ₂] at z0 z1
  rcases z0.eq_or_lt with hp | hp
  · exact Or.inl (rapp_pole hb hab n l φ α s hc β u m β₂ σ q st hβ hu hB rfl hr hst hβ₂ hp.symm g hg)
  right
  have ho := rapp_outcome hb hab n l φ α s hc β u m β₂ σ q st hβ hu hB rfl hr hst hβ₂ hp
  rw [hg] at ho
  obtain ⟨β', hβ', hcβ', hsβ', i1, i2⟩ := reduced_of_geodetic hb hab n hp.le (by rw [add_comm]; exact Real.sin_sq_add_cos_sq _)
    rfl
  set φ₂ := Complex.arg ⟨b / a * Real.cos β₂, Real.sin β₂⟩ with hφ₂
  have c2 : 0 < Real.cos φ₂ := by
    rw [hφ₂, Complex.cos_arg]
    · have : (⟨b / a * Real.cos β₂, Real.sin β₂⟩ : ℂ) ≠ 0 := fun h => by
        have := congrArg Complex.re h
        simp only [Complex.zero_re] at this
        exact (mul_pos (div_pos hb ha) hp).ne' this
      exact div_pos (mul_pos (div_pos hb ha) hp) (norm_pos_iff.2 this)
    · intro h
      have := congrArg Complex.re h
      simp at this
      rcases this with h | h
      · rcases h with h | h <;> linarith
      · exact hp.ne' h
  obtain ⟨red2, -, -⟩ := reduced_of_eq hb hab c2.le hβ'
  have red3 : Bessel.Reduced a b φ₂ β₂ := ⟨by rw [red2.1, hcβ'], by rw [red2.2, hsβ']⟩
  obtain ⟨w1, w2⟩ := hend β₂ φ₂ _ _ red3 hp z1 rfl rfl
  set X := rappExcess ((a - b) / a) (Real.cos β * Real.sin α) m σ q
  set L := Complex.arg ⟨Real.cos q - Real.sin β * Real.sin β₂, Real.cos β * Real.sin q * Real.sin α⟩
  set A := Complex.arg ⟨Real.sin β₂ * Real.cos q - Real.sin β, Real.cos β * Real.sin q * Real.sin α⟩
  have hd := remR_same (l + (L - X))
  have cge := reduced_cos_ge hb hab red3 c2.le
  have ne1 : -(Real.pi / 2) ≠ φ₂ := fun e => by rw [← e, Real.cos_neg, Real.cos_pi_div_two] at c2; exact lt_irrefl _ c2
  have ne2 : φ₂ ≠ Real.pi / 2 := fun e => by rw [e, Real.cos_pi_div_two] at c2; exact lt_irrefl _ c2
  refine ⟨remR (l + (L - X)), φ₂, A, ?_, le_remR _, remR_le _, lt_of_le_of_ne i1 ne1, lt_of_le_of_ne i2 ne2,
    Complex.neg_pi_lt_arg _, Complex.arg_le_pi _, ?_, fun j1 j3 => ?_⟩
  · cases ho
    rw [lon_new_fin]
    rfl
  · have e : surfacePoint a b (remR (l + (L - X))) φ₂ = surfacePoint a b (l + (L - X)) φ₂ := by
      simp only [surfacePoint, hd.cos, hd.sin]
    rw [e]
    exact w1
  · have e : direction (remR (l + (L - X))) φ₂ A = direction (l + (L - X)) φ₂ A := by
      simp only [direction, hd.cos, hd.sin]
    rw [e]
    refine (w2 j1 j3).trans ?_
    have hs : 0 < s := lt_of_lt_of_le (by positivity) j1
    gcongr

/-- WGS 84, ten thousand kilometres from (1, 1/2), azimuth 2: within 0.2 millimetres of the geodesic. -/
example : ∃ (γ : ℝ → E3) (l₂ φ₂ α₂ : ℝ), IsGeodesic 6378137 6356752.314245 γ ∧
    γ 0 = surfacePoint 6378137 6356752.314245 1 (1 / 2) ∧ deriv γ 0 = direction 1 (1 / 2) 2 ∧
    (new (ell "WGS 84" 6378137 6356752.314245)).direct (lonR 1, latR (1 / 2)) (aziR 2) (lenR 10000000) =
      .ok ⟨(lonR 1, latR (1 / 2)), aziR 2, (lonR l₂, latR φ₂), aziR α₂, lenR 10000000⟩ ∧
    ‖surfacePoint 6378137 6356752.314245 l₂ φ₂ - γ 10000000‖ ≤ 2e-4 := by
  have hc : (1 / 2 : ℝ) ≤ Real.cos (1 / 2) := by
    have := Real.one_sub_sq_div_two_le_cos (x := 1 / 2)
    norm_num at this ⊢
    linarith
  obtain ⟨g, hg, γ, hγ, g0, g1, h | ⟨l₂, φ₂, α₂, rfl, -, -, -, -, -, -, w1, -⟩⟩ :=
    C81_rapp_direct (a := 6378137) (b := 6356752.314245) (by norm_num) (by norm_num) (by norm_num) "WGS 84" 1 (1 / 2) 2
      10000000 (by linarith)
  · exact absurd h.1 (Real.sin_pos_of_pos_of_lt_pi (by norm_num) (by linarith [Real.pi_gt_three])).ne'
  · refine ⟨γ, l₂, φ₂, α₂, hγ, g0, g1, hg, w1.trans ?_⟩
    have : 1.1e-14 * 6378137 / Real.cos (1 / 2) ≤ 1.1e-14 * 6378137 / (1 / 2) := by gcongr
    norm_num at this ⊢
    linarith

end Geo
