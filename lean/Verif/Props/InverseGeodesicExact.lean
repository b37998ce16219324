import Verif.Lemmas.InverseOutcome
import Verif.Lemmas.VincentyGeodesic

/-! # C80: the inverse solver of Vincenty and the geodesics of the surface, in exact arithmetic -/

namespace Geo
open XR Spec VincentyGeodesicSolver

/-- The loop ends within `k + 1` iterations on an interval where it contracts by `q`. -/
theorem inverseLoop_ends {f β₁ β₂ L q lo hi : ℝ} {E : ℝ → ℝ} (q0 : 0 ≤ q)
    (hne : ∀ l ∈ Set.Icc lo hi, Real.sin (arc β₁ β₂ l) ≠ 0)
    (hE : ∀ l ∈ Set.Icc lo hi, ∀ c₀, vincentyExcess f (salpha β₁ β₂ l) (arc β₁ β₂ l) (mid β₁ β₂ l c₀) = E l)
    (hin : ∀ l ∈ Set.Icc lo hi, L + E l ∈ Set.Icc lo hi)
    (hq : ∀ x ∈ Set.Icc lo hi, ∀ y ∈ Set.Icc lo hi, |E y - E x| ≤ q * |y - x|) (msg : String) (k : ℕ) (D l c₀ : ℝ)
    (st : InverseState XR) (hl : l ∈ Set.Icc lo hi)
    (h1 : st.lambda = fin l) (h2 : st.sin_lambda = fin (Real.sin l)) (h3 : st.cos_lambda = fin (Real.cos l))
    (h4 : st.cos_2_sigma_m = fin c₀) (hD : |E l + L - l| ≤ D) (hk : q ^ k * D < 1e-12) :
    ∃ r, loopMax (inverseStep (fin f) (fin (Real.sin β₁)) (fin (Real.cos β₁)) (fin (Real.sin β₂)) (fin (Real.cos β₂))
      (fin L)) inverseDone msg (k + 1) st = .ok r := by
  induction k generalizing D l c₀ st with
  | zero =>
    have hr := inverseStep_real f β₁ β₂ L l c₀ st (hne l hl) h1 h2 h3 h4
    rw [hE l hl] at hr
    rw [loopMax]
    rw [pow_zero, one_mul] at hk
    simp only [inverseDone_real hr, decide_eq_true (hD.trans_lt hk), if_true]
    exact ⟨_, rfl⟩
  | succ k ih =>
    have hr := inverseStep_real f β₁ β₂ L l c₀ st (hne l hl) h1 h2 h3 h4
    rw [hE l hl] at hr
    have hm := hin l hl
    rw [add_comm] at hm
    rw [loopMax]
    simp only [inverseDone_real hr]
    split
    · exact ⟨_, rfl⟩
    · refine ih (q * D) _ _ _ hm hr.lambda hr.sin_lambda hr.cos_lambda hr.mid ?_
        (by rw [← mul_assoc, ← pow_succ]; exact hk)
      have := hq l hl _ hm
      rw [add_sub_add_right_eq_sub]
      exact this.trans (mul_le_mul_of_nonneg_left hD q0)

/-- **C80**: the Vincenty inverse solver returns for all pairs of distinct points that are not nearly antipodal.  With
`σ₀` the arc between the points placed on a sphere at their reduced latitudes, it suffices that `σ₀ + 4 f ≤ M` for some
`M < π` with `10 f M ≤ sin M`; for WGS 84, `M = 3.03` is allowed. -/
theorem C80_vincenty_returns {a b : ℝ} (hb : 0 < b) (hab : b ≤ a) (hf : (a - b) / a ≤ 1 / 50) (n : String)
    (l₁ φ₁ l₂ φ₂ β₁ β₂ M : ℝ) (hc₁ : 0 ≤ Real.cos φ₁) (hc₂ : 0 ≤ Real.cos φ₂)
    (h₁ : (ell n a b).reducedLatitude (latR φ₁) = ⟨fin β₁⟩) (h₂ : (ell n a b).reducedLatitude (latR φ₂) = ⟨fin β₂⟩)
    (hd : surfacePoint a b l₁ φ₁ ≠ surfacePoint a b l₂ φ₂) (hM : M < Real.pi)
    (hM' : 10 * ((a - b) / a) * M ≤ Real.sin M)
    (hσ : Real.arccos (Real.sin β₁ * Real.sin β₂ + Real.cos β₁ * Real.cos β₂ * Real.cos (l₂ - l₁)) +
      4 * ((a - b) / a) ≤ M) :
    ∃ g, inverse ⟨ell n a b⟩ (lonR l₁, latR φ₁) (lonR l₂, latR φ₂) = .ok g := by
  have ha : 0 < a := lt_of_lt_of_le hb hab
  have f0 : 0 ≤ (a - b) / a := div_nonneg (by linarith) ha.le
  obtain ⟨r₁, b1, b1'⟩ := reduced_of_eq hb hab hc₁ h₁
  obtain ⟨r₂, b2, b2'⟩ := reduced_of_eq hb hab hc₂ h₂
  have c1 := Real.cos_nonneg_of_neg_pi_div_two_le_of_le b1 b1'
  have c2 := Real.cos_nonneg_of_neg_pi_div_two_le_of_le b2 b2'
  have hsame := normR_same (l₂ - l₁)
  have harc : arc β₁ β₂ (normR (l₂ - l₁)) = arc β₁ β₂ (l₂ - l₁) := arc_congr hsame
  have hd' : arc β₁ β₂ (normR (l₂ - l₁)) ≠ 0 := by rw [harc]; exact arc_ne_of_surface r₁ r₂ hd
  have hσ' : arc β₁ β₂ (normR (l₂ - l₁)) + 4 * ((a - b) / a) ≤ M := by
    rw [harc, arc_eq_arccos]; exact hσ
  set L := normR (l₂ - l₁) with hLd
  obtain ⟨lo, hi, hL, hdom, hinv⟩ := exists_domain c1 c2 (lt_normR _).le (normR_le _) f0 hf hM hσ' hd'
  set f := (a - b) / a with hfd
  set A := fun k => 1 - vinKap f k * k with hA
  have hMp : 0 < M := lt_of_lt_of_le (lt_of_le_of_ne (arc_nonneg _ _ _) hd'.symm) (by linarith)
  have hS := Real.sin_pos_of_pos_of_lt_pi hMp hM
  have hbd : ∀ l ∈ Set.Icc lo hi, |exc β₁ β₂ A (vinR f β₁ β₂) l| ≤ 4 ∧
      (0 ≤ Real.sin l → 0 ≤ exc β₁ β₂ A (vinR f β₁ β₂) l) ∧ (Real.sin l ≤ 0 → exc β₁ β₂ A (vinR f β₁ β₂) l ≤ 0) := by
    intro l hl
    obtain ⟨g', -, hr0, -⟩ := vinR_bd f0 hf (hdom l hl).1
    exact exc_bound (hdom l hl).1 c1 c2 (fun k k0 k1 => ⟨(vinA_facts f0 hf k k0 k1).1, (vinA_facts f0 hf k k0 k1).2.1⟩) hr0
  have hq : f * (31 / 10 * (M / Real.sin M)) ≤ 31 / 100 := by
    have : f * M / Real.sin M ≤ 1 / 10 := by rw [div_le_iff₀ hS]; linarith
    calc f * (31 / 10 * (M / Real.sin M)) = 31 / 10 * (f * M / Real.sin M) := by ring
      _ ≤ _ := by linarith
  have hf4 : ∀ l ∈ Set.Icc lo hi, |f * exc β₁ β₂ A (vinR f β₁ β₂) l| ≤ 4 * f := by
    intro l hl
    rw [abs_mul, abs_of_nonneg f0]
    nlinarith [(hbd l hl).1]
  obtain ⟨st, hst⟩ := inverseLoop_ends (f := f) (β₁ := β₁) (β₂ := β₂) (L := L) (q := 31 / 100)
    (E := fun l => f * exc β₁ β₂ A (vinR f β₁ β₂) l) (by norm_num) (fun l hl => (hdom l hl).1)
    (fun l hl c₀ => excess_exc f β₁ β₂ l c₀ (hdom l hl).1)
    (fun l hl => hinv l hl _ (hf4 l hl) (fun h => mul_nonneg f0 ((hbd l hl).2.1 h))
      (fun h => mul_nonpos_of_nonneg_of_nonpos f0 ((hbd l hl).2.2 h)))
    (fun x hx y hy => by
      rw [← mul_sub, abs_mul, abs_of_nonneg f0]
      have := exc_lip (A := A) (Set.Icc lo hi) (convex_Icc _ _) hM hdom (vinA_deriv f)
        (fun k k0 k1 => abs_le.2 ⟨by linarith [(vinA_facts f0 hf k k0 k1).1], (vinA_facts f0 hf k k0 k1).2.1⟩)
        (fun k k0 k1 => (vinA_facts f0 hf k k0 k1).2.2) (fun l hl => vinR_bd f0 hf (hdom l hl).1) hx hy
      calc f * _ ≤ f * (31 / 10 * (M / Real.sin M) * |y - x|) := mul_le_mul_of_nonneg_left this f0
        _ = f * (31 / 10 * (M / Real.sin M)) * |y - x| := by ring
        _ ≤ _ := mul_le_mul_of_nonneg_right hq (abs_nonneg _))
    notConverging 29 (4 / 50) L 0 (inverseInit (fin L)) hL rfl rfl rfl zero_eq (by
      rw [add_sub_cancel_right]
      exact (hf4 L hL).trans (by linarith)) (by norm_num)
  rw [inverse_eq hb hab n l₁ φ₁ l₂ φ₂ β₁ β₂ h₁ h₂]
  simp only [← hLd, ← hfd, show (30 : ℕ) = 29 + 1 from rfl, hst]
  exact ⟨_, rfl⟩

/-- Vincenty's length against the arc. -/
theorem vin_length_bounds {u m σ : ℝ} (x0 : 0 ≤ u) (x1 : u ≤ 1 / 20) (hσ0 : 0 < σ) :
    σ * (987 / 1000) ≤ Bessel.vinF u (m + σ) - Bessel.vinF u m ∧
      Bessel.vinF u (m + σ) - Bessel.vinF u m ≤ σ * (1026 / 1000) := by
  obtain ⟨B0, B1⟩ := Bessel.vinB_bounds x0 x1
  obtain ⟨A0, A1⟩ := Bessel.vinA_bounds x0 x1
  have hlip := Bessel.vinH_lip B0 (by linarith) m (m + σ)
  rw [add_sub_cancel_left, abs_of_pos hσ0] at hlip
  obtain ⟨d1, d2⟩ := abs_le.1 hlip
  have hBσ : 101 / 100 * vincentyB u * σ ≤ 127 / 10000 * σ := mul_le_mul_of_nonneg_right (by linarith) hσ0.le
  have e : Bessel.vinF u (m + σ) - Bessel.vinF u m =
      vincentyA u * (σ - (Bessel.vinH (vincentyB u) (m + σ) - Bessel.vinH (vincentyB u) m)) := by
    simp only [Bessel.vinF]; ring
  rw [e]
  generalize Bessel.vinH (vincentyB u) (m + σ) - Bessel.vinH (vincentyB u) m = d at d1 d2
  have hd : 0 ≤ σ - d := by linarith
  constructor
  · nlinarith [mul_le_mul_of_nonneg_right A0 hd]
  · nlinarith [mul_le_mul_of_nonneg_right (show vincentyA u ≤ 81 / 80 by linarith) hd]

/-- An error `d` in the longitude on the sphere, as an error of an azimuth. -/
theorem ratio_bound {b s σ d δ : ℝ} (hb : 0 < b) (hs : 0 < s) (hσ0 : 0 < σ) (hp : 0 < Real.sin σ) (lo : σ * (987 / 1000) ≤ s / b)
    (hi : s / b ≤ σ * (1026 / 1000)) (hδ : 0 ≤ δ) (hd : d ≤ δ) (h3 : s ≤ 3 * b) :
    2 * d / Real.sin σ ≤ 70 * δ * (b / s) := by
  have h3' : s / b ≤ 3 := by rw [div_le_iff₀ hb]; exact h3
  have hr := arc_ratio hσ0 (by linarith : σ ≤ 304 / 100) (by linarith [Real.pi_gt_d4])
  have hn : (304 / 100 : ℝ) / Real.sin (304 / 100) ≤ 302 / 10 := by
    rw [div_le_iff₀ (by linarith [sin_304])]
    linarith [sin_304]
  have hr2 := hr.trans hn
  rw [div_le_iff₀ hp] at hr2
  rw [div_le_iff₀ hp, show 70 * δ * (b / s) * Real.sin σ = δ * (70 * (Real.sin σ * (b / s))) by ring]
  have e : 1 ≤ σ * (1026 / 1000) * (b / s) := by
    have : s / b * (b / s) = 1 := by field_simp
    rw [← this]
    exact mul_le_mul_of_nonneg_right hi (by positivity)
  have e2 : σ * (b / s) ≤ 302 / 10 * (Real.sin σ * (b / s)) := by
    rw [← mul_assoc]
    exact mul_le_mul_of_nonneg_right hr2 (by positivity)
  have e3 : 2 ≤ 70 * (Real.sin σ * (b / s)) := by linarith
  calc 2 * d ≤ δ * 2 := by linarith
    _ ≤ _ := mul_le_mul_of_nonneg_left e3 hδ

/-- The position error, against the length. -/
theorem position_bound {a b s σ F x y d δ e₁ e₂ e : ℝ} (ha : 0 ≤ a) (hb : 0 < b) (hab : a ≤ 103 / 100 * b) (hσ : 0 ≤ σ) (hF : 0 ≤ F)
    (he₁ : 0 ≤ e₁) (he₂ : 0 ≤ e₂) (lo : σ * (987 / 1000) ≤ s / b) (hx : x ≤ b * (e₁ * F) * σ) (hy : y ≤ e₂ * F * σ)
    (hd : d ≤ δ) (he : e₁ + 103 / 100 * e₂ ≤ 987 / 1000 * e) : x + a * (y + d) ≤ e * F * s + δ * a := by
  have h1 : b * σ * (987 / 1000) ≤ s := by
    rw [le_div_iff₀ hb] at lo
    linarith
  have h2 : a * y ≤ 103 / 100 * b * (e₂ * F * σ) := (mul_le_mul_of_nonneg_left hy ha).trans
    (mul_le_mul_of_nonneg_right hab (by positivity))
  have h3 : b * F * σ * (e₁ + 103 / 100 * e₂) ≤ b * F * σ * (987 / 1000 * e) := mul_le_mul_of_nonneg_left he (by positivity)
  have he0 : 0 ≤ e := by nlinarith
  have h4 := mul_le_mul_of_nonneg_left h1 (mul_nonneg he0 hF)
  have h5 := mul_le_mul_of_nonneg_left hd ha
  nlinarith

/-- The error of the direction at the second point, against the length. -/
theorem direction_bound {a b s σ F x y d δ e₁ e₂ e : ℝ} (hb : 0 < b) (hab : a ≤ 103 / 100 * b) (hσ : 0 ≤ σ)
    (hF : 0 ≤ F) (hx0 : 0 ≤ x) (he₁ : 0 ≤ e₁) (he₂ : 0 ≤ e₂) (lo : σ * (987 / 1000) ≤ s / b) (hx : x ≤ b * (e₁ * F) * σ)
    (hy : y ≤ e₂ * F * σ) (hd : d ≤ δ) (he : 103 / 100 * e₁ + e₂ ≤ 987 / 1000 * e) :
    a / b ^ 2 * x + (y + d) ≤ e * F * (s / b) + δ := by
  have hba : a / b ^ 2 ≤ (103 / 100) / b := by
    rw [div_le_div_iff₀ (by positivity) hb]
    nlinarith
  have h2 : a / b ^ 2 * x ≤ 103 / 100 * (e₁ * F) * σ := by
    refine (mul_le_mul hba hx hx0 (by positivity)).trans (le_of_eq ?_)
    field_simp
  have h3 : F * σ * (103 / 100 * e₁ + e₂) ≤ F * σ * (987 / 1000 * e) := mul_le_mul_of_nonneg_left he (by positivity)
  have he0 : 0 ≤ e := by nlinarith
  have h4 := mul_le_mul_of_nonneg_left lo (mul_nonneg he0 hF)
  nlinarith

/-- **C80**: the result of the Vincenty inverse solver is a geodesic: when it returns, from a first point off the poles,
there is a geodesic of the ellipsoid that starts at the first point and that after the returned distance `s` is within
`22/100 f⁴ s + 1e-12 a` of the second one.  For distances up to `3 b` the returned azimuths differ from its directions
at both ends by at most `7e-11 b / s` (and, at the second point, the error of the series). -/
theorem C80_vincenty_inverse {a b : ℝ} (hb : 0 < b) (hab : b ≤ a) (hf : (a - b) / a ≤ 1 / 50) (n : String)
    (l₁ φ₁ l₂ φ₂ : ℝ) (hc₁ : 0 < Real.cos φ₁) (hc₂ : 0 ≤ Real.cos φ₂) (g : Geodesic XR)
    (h : inverse ⟨ell n a b⟩ (lonR l₁, latR φ₁) (lonR l₂, latR φ₂) = .ok g) :
    ∃ (γ : ℝ → E3) (s α₁ α₂ : ℝ), IsGeodesic a b γ ∧ γ 0 = surfacePoint a b l₁ φ₁ ∧
      g = ⟨(lonR l₁, latR φ₁), aziR α₁, (lonR l₂, latR φ₂), aziR α₂, lenR s⟩ ∧ 0 < s ∧
      -Real.pi < α₁ ∧ α₁ ≤ Real.pi ∧ -Real.pi < α₂ ∧ α₂ ≤ Real.pi ∧
      ‖γ s - surfacePoint a b l₂ φ₂‖ ≤ 22 / 100 * ((a - b) / a) ^ 4 * s + 1e-12 * a ∧
      (s ≤ 3 * b → ‖deriv γ 0 - direction l₁ φ₁ α₁‖ ≤ 7e-11 * (b / s)) ∧
      (s ≤ 3 * b → Real.cos φ₂ ≠ 0 →
        ‖deriv γ s - direction l₂ φ₂ α₂‖ ≤ 7e-11 * (b / s) + 23 / 100 * ((a - b) / a) ^ 4 * (s / b) + 1e-12) := by
  have ha : 0 < a := lt_of_lt_of_le hb hab
  have f0 : 0 ≤ (a - b) / a := div_nonneg (by linarith) ha.le
  obtain ⟨β₁, β₂, L, l, l', σ, sa, c, e₁, e₂, hL, ht, hl', hlt, hs, ha1, ha2⟩ := C62_converged hb hab n l₁ φ₁ l₂ φ₂ g h
  have hp12 : g.p1 = (lonR l₁, latR φ₁) ∧ g.p2 = (lonR l₂, latR φ₂) := by
    rw [inverse_eq hb hab n l₁ φ₁ l₂ φ₂ β₁ β₂ e₁ e₂] at h
    obtain ⟨st, -, hg⟩ := bind_eq_ok.1 h
    cases hg
    exact ⟨rfl, rfl⟩
  obtain ⟨r₁, b1, b1'⟩ := reduced_of_eq hb hab hc₁.le e₁
  obtain ⟨r₂, b2, b2'⟩ := reduced_of_eq hb hab hc₂ e₂
  have c1 := reduced_cos_pos hb hab r₁ hc₁
  have c2 := Real.cos_nonneg_of_neg_pi_div_two_le_of_le b2 b2'
  obtain ⟨γ, α, α₂, m, hγ, g0, g1, hp, h1, hmid, k1, k2, k3⟩ := inverse_outcome hb hab r₁ r₂ c1 c2 ht hL.2.2
  have hσ0 : 0 < σ := lt_of_le_of_ne ht.nonneg fun e => by rw [← e, Real.sin_zero] at hp; exact lt_irrefl _ hp
  have hK : 0 ≤ 1 - sa ^ 2 := by nlinarith [sq_nonneg (Real.sqrt (1 - sa ^ 2))]
  have hsq := Real.sq_sqrt hK
  set c0 := Real.sqrt (1 - sa ^ 2) with hc0
  have hx : (1 - sa ^ 2) * ((a ^ 2 - b ^ 2) / b ^ 2) = c0 ^ 2 * ((a ^ 2 - b ^ 2) / b ^ 2) := by rw [hsq]
  obtain ⟨x0, x1, -, -⟩ := Bessel.x_facts hb hab h1 hx hf
  have hvd := Bessel.vin_dist hb hab h1 hx hf m (m + σ)
  have hvl := Bessel.vin_lon hb hab h1 rfl hf m (m + σ)
  rw [add_sub_cancel_left, abs_of_pos hσ0] at hvd hvl
  set u := (1 - sa ^ 2) * ((a ^ 2 - b ^ 2) / b ^ 2) with hu
  set f := (a - b) / a with hfd
  have hf4 : 0 ≤ f ^ 4 := by positivity
  -- the length and the excess
  have hlen : vincentyLength a b sa σ c = b * Bessel.vinF u (m + σ) - b * Bessel.vinF u m := by
    by_cases h0 : 1 - sa ^ 2 = 0
    · have hu0 : u = 0 := by rw [hu, h0, zero_mul]
      rw [vincentyLength, ← hu, hu0]
      simp only [Bessel.vinF, Bessel.vinH, vincentyA, vincentyB, vincentyDeltaSigma]
      ring
    · rw [vincentyLength, ← hu, hmid h0]
      simp only [Bessel.delta_eq, Bessel.vinF]
      ring
  have hexc : vincentyExcess f sa σ c = f * sa * Bessel.vinL (vincentyC f (c0 ^ 2)) (m + σ) -
      f * sa * Bessel.vinL (vincentyC f (c0 ^ 2)) m := by
    rw [hsq]
    by_cases h0 : 1 - sa ^ 2 = 0
    · simp only [vincentyExcess, h0, Bessel.vinL, vincentyC]
      ring
    · rw [hmid h0, Bessel.excess_eq]
      ring
  set s := vincentyLength a b sa σ c with hsd
  -- the arc and the length
  obtain ⟨lo, hi⟩ := vin_length_bounds (m := m) x0 x1 hσ0
  have hsb : s / b = Bessel.vinF u (m + σ) - Bessel.vinF u m := by
    rw [hlen, ← mul_sub, mul_div_cancel_left₀ _ hb.ne']
  rw [← hsb] at lo hi
  have hs0 : 0 < s := by
    have : 0 < s / b := lt_of_lt_of_le (by positivity) lo
    exact (div_pos_iff_of_pos_right hb).1 this
  have hab' : a ≤ 103 / 100 * b := by
    rw [hfd, div_le_iff₀ ha] at hf
    linarith
  obtain ⟨w1, w2⟩ := k3 _ _ s (vincentyExcess f sa σ c) l' rfl rfl hl'
  have m1 : |Bessel.T a b sa c0 (m + σ) - Bessel.T a b sa c0 m - s| ≤ b * (1 / 20 * f ^ 4) * σ := by rw [hlen]; exact hvd
  have m2 : |Bessel.G a b sa c0 (m + σ) - Bessel.G a b sa c0 m - vincentyExcess f sa σ c| ≤ 4 / 25 * f ^ 4 * σ := by
    rw [hexc]; exact hvl
  have ratio : s ≤ 3 * b → 2 * |l' - l| / Real.sin σ ≤ 7e-11 * (b / s) := fun h3 =>
    (ratio_bound hb hs0 hσ0 hp lo hi (by norm_num) hlt.le h3).trans (by norm_num)
  have a1 : g.alpha1 = aziR (Complex.arg ⟨Real.cos β₁ * Real.sin β₂ - Real.sin β₁ * Real.cos β₂ * Real.cos l',
      Real.cos β₂ * Real.sin l'⟩) := by
    rw [ha1, azi_new_fin, normR_id (Complex.neg_pi_lt_arg _) (Complex.arg_le_pi _)]
  have a2 : g.alpha2 = aziR (Complex.arg ⟨-Real.sin β₁ * Real.cos β₂ + Real.cos β₁ * Real.sin β₂ * Real.cos l',
      Real.cos β₁ * Real.sin l'⟩) := by
    rw [ha2, azi_new_fin, normR_id (Complex.neg_pi_lt_arg _) (Complex.arg_le_pi _)]
  refine ⟨γ, s, Complex.arg ⟨Real.cos β₁ * Real.sin β₂ - Real.sin β₁ * Real.cos β₂ * Real.cos l',
      Real.cos β₂ * Real.sin l'⟩, Complex.arg ⟨-Real.sin β₁ * Real.cos β₂ + Real.cos β₁ * Real.sin β₂ * Real.cos l',
      Real.cos β₁ * Real.sin l'⟩, hγ, g0, ?_, hs0, Complex.neg_pi_lt_arg _, Complex.arg_le_pi _, Complex.neg_pi_lt_arg _,
    Complex.arg_le_pi _, w1.trans ?_, fun h3 => ?_, fun h3 hc => ?_⟩
  · obtain ⟨p1, p2⟩ := hp12
    cases g
    simp only at p1 p2 a1 a2 hs
    rw [p1, p2, a1, a2, hs]
  · exact position_bound ha.le hb hab' hσ0.le hf4 (by norm_num) (by norm_num) lo m1 m2 hlt.le (by norm_num)
  · rw [g1]
    refine le_trans ?_ (ratio h3)
    rw [le_div_iff₀ hp, mul_comm]
    exact k1 l' l' (Or.inl rfl)
  · have hc2 : Real.cos β₂ ≠ 0 := (reduced_cos_pos hb hab r₂ (lt_of_le_of_ne hc₂ hc.symm)).ne'
    have n1 := w2 hc2
    have n2 : ‖direction l₂ φ₂ α₂ - direction l₂ φ₂ (Complex.arg ⟨-Real.sin β₁ * Real.cos β₂ +
        Real.cos β₁ * Real.sin β₂ * Real.cos l', Real.cos β₁ * Real.sin l'⟩)‖ ≤ 7e-11 * (b / s) := by
      refine le_trans ?_ (ratio h3)
      rw [le_div_iff₀ hp, mul_comm]
      exact k2 l' l' (Or.inl rfl)
    have n3 := direction_bound (e := 23 / 100) hb hab' hσ0.le hf4 (abs_nonneg _) (by norm_num) (by norm_num) lo m1 m2 hlt.le
      (by norm_num)
    refine (norm_sub_le_norm_sub_add_norm_sub _ (direction l₂ φ₂ α₂) _).trans ?_
    linarith

/-- On WGS 84 the solver returns for the points (0, 1/2) and (1, 1/4), 57° of longitude apart, and its answer is a
geodesic between them to a millimetre per 1000 km. -/
example : ∃ (g : Geodesic XR) (γ : ℝ → E3) (s : ℝ),
    inverse ⟨ell "WGS 84" 6378137 6356752.314245⟩ (lonR 0, latR (1 / 2)) (lonR 1, latR (1 / 4)) = .ok g ∧
    g.s = lenR s ∧ 0 < s ∧ IsGeodesic 6378137 6356752.314245 γ ∧ γ 0 = surfacePoint 6378137 6356752.314245 0 (1 / 2) ∧
    ‖γ s - surfacePoint 6378137 6356752.314245 1 (1 / 4)‖ ≤ 3e-11 * s + 7e-6 := by
  have hc : ∀ x : ℝ, 0 ≤ x → x ≤ 1 → 0 < Real.cos x := fun x h0 h1 =>
    Real.cos_pos_of_mem_Ioo ⟨by linarith [Real.pi_gt_three], by linarith [Real.pi_gt_three]⟩
  have hs : ∀ x : ℝ, 0 < x → x ≤ 1 → 0 < Real.sin x := fun x h0 h1 =>
    Real.sin_pos_of_pos_of_lt_pi h0 (by linarith [Real.pi_gt_three])
  have hb : (0 : ℝ) < 6356752.314245 := by norm_num
  have hab : (6356752.314245 : ℝ) ≤ 6378137 := by norm_num
  have hf : (6378137 - 6356752.314245 : ℝ) / 6378137 ≤ 1 / 50 := by norm_num
  have c1 := hc (1 / 2) (by norm_num) (by norm_num)
  have c2 := hc (1 / 4) (by norm_num) (by norm_num)
  obtain ⟨β₁, e₁, -⟩ := reducedLatitude_all hb hab "WGS 84" (1 / 2)
  obtain ⟨β₂, e₂, -⟩ := reducedLatitude_all hb hab "WGS 84" (1 / 4)
  obtain ⟨r₁, -, -⟩ := reduced_of_eq hb hab c1.le e₁
  obtain ⟨r₂, -, -⟩ := reduced_of_eq hb hab c2.le e₂
  have k1 := reduced_cos_pos hb hab r₁ c1
  have k2 := reduced_cos_pos hb hab r₂ c2
  have s1 : 0 < Real.sin β₁ := by
    refine pos_of_mul_pos_right ?_ hb.le
    rw [← r₁.2]
    have := hs (1 / 2) (by norm_num) (by norm_num)
    positivity
  have s2 : 0 < Real.sin β₂ := by
    refine pos_of_mul_pos_right ?_ hb.le
    rw [← r₂.2]
    have := hs (1 / 4) (by norm_num) (by norm_num)
    positivity
  have hd : surfacePoint 6378137 6356752.314245 0 (1 / 2) ≠ surfacePoint 6378137 6356752.314245 1 (1 / 4) := by
    intro h
    rw [Bessel.surfacePoint_reduced r₁, Bessel.surfacePoint_reduced r₂] at h
    have := congrArg (fun v : E3 => v 1) h
    simp at this
    rcases this with h | h
    · exact k2.ne' h
    · exact (hs 1 (by norm_num) le_rfl).ne' h
  have h3 : (141 / 1000 : ℝ) ≤ Real.sin 3 := by
    have hp := Real.pi_gt_d4
    have hp' := Real.pi_lt_d4
    have := Real.sin_gt_sub_cube (x := Real.pi - 3) (by linarith)
    rw [Real.sin_pi_sub] at this
    have h2 : (Real.pi - 3) ^ 3 ≤ (1416 / 10000) ^ 3 := pow_le_pow_left₀ (by linarith) (by linarith) 3
    norm_num at h2 hp hp' ⊢
    linarith
  obtain ⟨g, hg⟩ := C80_vincenty_returns hb hab hf "WGS 84" 0 (1 / 2) 1 (1 / 4) β₁ β₂ 3 c1.le c2.le e₁ e₂ hd
    Real.pi_gt_three (le_trans (by norm_num) h3) (by
      have : Real.arccos (Real.sin β₁ * Real.sin β₂ + Real.cos β₁ * Real.cos β₂ * Real.cos (1 - 0)) ≤ Real.pi / 2 := by
        rw [Real.arccos_le_pi_div_two]
        have := hc (1 - 0) (by norm_num) (by norm_num)
        positivity
      have hp := Real.pi_lt_d4
      generalize Real.arccos _ = q at this ⊢
      norm_num at hp ⊢
      linarith)
  obtain ⟨γ, s, α₁, α₂, hγ, g0, rfl, s0, -, -, -, -, w, -⟩ := C80_vincenty_inverse hb hab hf "WGS 84" 0 (1 / 2) 1 (1 / 4) c1 c2.le g hg
  refine ⟨_, γ, s, hg, rfl, s0, hγ, g0, w.trans ?_⟩
  norm_num
  nlinarith

end Geo
