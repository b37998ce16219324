import Verif.Lemmas.RappInverse
import Verif.Props.InverseGeodesicExact
import Verif.Props.RappDirectExact

/-! # C82: the inverse solver of Rapp and the geodesics of the surface, in exact arithmetic -/

namespace Geo
open XR Spec RappSolver

abbrev rappInverseMsg : String := "Inverse geodesic computation is not converging!"

/-- The azimuths, from the last state. -/
noncomputable def rappAlphas (φ₁ φ₂ β₁ β₂ : ℝ) (s : Length XR) (st : InverseState XR) : XR × XR :=
  if st.lambda ==. 0 then
    if (latR φ₁).lt (latR φ₂) then (0, 0) else (Flt.pi, Flt.pi)
  else if st.lambda ==. Flt.pi then
    if (Lat.ZERO : Lat XR).le (latR φ₁) then (0, Flt.pi) else (Flt.pi, 0)
  else
    let tans := inverseTans (s.m <. 10000) ⟨fin β₁⟩ ⟨fin β₂⟩ st.lambda st.cos_lambda
    (Flt.atan2 (st.sin_alpha / fin (Real.cos β₁)) (st.sin_alpha / fin (Real.cos β₁) / tans.1),
     Flt.atan2 (st.sin_alpha / fin (Real.cos β₂)) (st.sin_alpha / fin (Real.cos β₂) / tans.2))

theorem rapp_inverse_eq {a b : ℝ} (n : String) (l₁ φ₁ l₂ φ₂ β₁ β₂ : ℝ)
    (h₁ : (ell n a b).reducedLatitude (latR φ₁) = ⟨fin β₁⟩) (h₂ : (ell n a b).reducedLatitude (latR φ₂) = ⟨fin β₂⟩) :
    inverse (new (ell n a b)) (lonR l₁, latR φ₁) (lonR l₂, latR φ₂) =
      loopMax (inverseStep (new (ell n a b)) (fin (Real.sin β₁)) (fin (Real.cos β₁)) (fin (Real.sin β₂))
        (fin (Real.cos β₂)) (fin (normR (l₂ - l₁)))) inverseDone rappInverseMsg 30
        (inverseInit (fin (normR (l₂ - l₁)))) >>= fun st =>
      Except.ok
        { p1 := (lonR l₁, latR φ₁)
          alpha1 := Azimuth.new (Angle.new (rappAlphas φ₁ φ₂ β₁ β₂ (inverseLength (ell n a b) st) st).1 RAD)
          p2 := (lonR l₂, latR φ₂)
          alpha2 := Azimuth.new (Angle.new (rappAlphas φ₁ φ₂ β₁ β₂ (inverseLength (ell n a b) st) st).2 RAD)
          s := inverseLength (ell n a b) st } := by
  have hL : ((lonR l₂).sub (lonR l₁)).rad = fin (normR (l₂ - l₁)) := by
    simp [Lon.sub, lonR, diffTo_fin]
  have hell : (new (ell n a b)).ellipsoid = ell n a b := rfl
  simp only [inverse, hell, h₁, h₂, hL, Angle.sin, Angle.cos, sin_fin, cos_fin]
  rfl

theorem rappE_sin {f β₁ β₂ l : ℝ} (h : Real.sin l = 0) : rappE f β₁ β₂ l = 0 := by
  simp [rappE, exc, salpha, h]

/-- The longitude differences that the loop goes through: it contracts there, and they lie on the same side of the
first meridian. -/
theorem rapp_domain {f β₁ β₂ L M : ℝ} (c1 : 0 ≤ Real.cos β₁) (c2 : 0 ≤ Real.cos β₂) (hL0 : -Real.pi < L)
    (hL1 : L ≤ Real.pi) (f0 : 0 ≤ f) (hf : f ≤ 1 / 50) (hM : M < Real.pi) (hM' : 10 * f * M ≤ Real.sin M)
    (hσ : arc β₁ β₂ L + 4 * f ≤ M) (hd : arc β₁ β₂ L ≠ 0) :
    ∃ S : Set ℝ, L ∈ S ∧ (∀ l ∈ S, Real.sin (arc β₁ β₂ l) ≠ 0) ∧ (∀ l ∈ S, L + rappE f β₁ β₂ l ∈ S) ∧
      (∀ x ∈ S, ∀ y ∈ S, |rappE f β₁ β₂ y - rappE f β₁ β₂ x| ≤ 31 / 100 * |y - x|) ∧ |rappE f β₁ β₂ L| ≤ 4 / 50 ∧
      ∀ l ∈ S, (0 < L → L < Real.pi → 0 < l ∧ l < Real.pi) ∧ (L < 0 → -Real.pi < l ∧ l < 0) ∧ (L = 0 → l = 0) ∧
        (L = Real.pi → l = Real.pi) := by
  obtain ⟨lo, hi, hL, hdom, hinv⟩ := exists_domain c1 c2 hL0.le hL1 f0 hf hM hσ hd
  have hMp : 0 < M := lt_of_lt_of_le (lt_of_le_of_ne (arc_nonneg _ _ _) hd.symm) (by linarith)
  have hS := Real.sin_pos_of_pos_of_lt_pi hMp hM
  have pp := Real.pi_pos
  have hbd : ∀ l ∈ Set.Icc lo hi, |exc β₁ β₂ (rappA0 f) (rappR f β₁ β₂) l| ≤ 4 ∧
      (0 ≤ Real.sin l → 0 ≤ exc β₁ β₂ (rappA0 f) (rappR f β₁ β₂) l) ∧
      (Real.sin l ≤ 0 → exc β₁ β₂ (rappA0 f) (rappR f β₁ β₂) l ≤ 0) := by
    intro l hl
    obtain ⟨g', -, hr0, -⟩ := rappR_bd f0 hf (hdom l hl).1
    exact exc_bound (hdom l hl).1 c1 c2 (fun k k0 k1 => ⟨(rappA0_facts f0 hf k k0 k1).1, (rappA0_facts f0 hf k k0 k1).2.1⟩) hr0
  have hq : f * (31 / 10 * (M / Real.sin M)) ≤ 31 / 100 := by
    have : f * M / Real.sin M ≤ 1 / 10 := by rw [div_le_iff₀ hS]; linarith
    calc f * (31 / 10 * (M / Real.sin M)) = 31 / 10 * (f * M / Real.sin M) := by ring
      _ ≤ _ := by linarith
  have hf4 : ∀ l ∈ Set.Icc lo hi, |rappE f β₁ β₂ l| ≤ 4 * f := by
    intro l hl
    rw [rappE, abs_mul, abs_of_nonneg f0]
    nlinarith [(hbd l hl).1]
  have hpos : ∀ l ∈ Set.Icc lo hi, 0 ≤ Real.sin l → 0 ≤ rappE f β₁ β₂ l := fun l hl h =>
    mul_nonneg f0 ((hbd l hl).2.1 h)
  have hneg : ∀ l ∈ Set.Icc lo hi, Real.sin l ≤ 0 → rappE f β₁ β₂ l ≤ 0 := fun l hl h =>
    mul_nonpos_of_nonneg_of_nonpos f0 ((hbd l hl).2.2 h)
  have hin : ∀ l ∈ Set.Icc lo hi, L + rappE f β₁ β₂ l ∈ Set.Icc lo hi := fun l hl =>
    hinv l hl _ (hf4 l hl) (hpos l hl) (hneg l hl)
  have hlip : ∀ x ∈ Set.Icc lo hi, ∀ y ∈ Set.Icc lo hi, |rappE f β₁ β₂ y - rappE f β₁ β₂ x| ≤ 31 / 100 * |y - x| := by
    intro x hx y hy
    rw [rappE, rappE, ← mul_sub, abs_mul, abs_of_nonneg f0]
    have := exc_lip (A := rappA0 f) (Set.Icc lo hi) (convex_Icc _ _) hM hdom (rappA0_deriv f)
      (fun k k0 k1 => abs_le.2 ⟨by linarith [(rappA0_facts f0 hf k k0 k1).1], (rappA0_facts f0 hf k k0 k1).2.1⟩)
      (fun k k0 k1 => (rappA0_facts f0 hf k k0 k1).2.2) (fun l hl => rappR_bd f0 hf (hdom l hl).1) hx hy
    calc f * _ ≤ f * (31 / 10 * (M / Real.sin M) * |y - x|) := mul_le_mul_of_nonneg_left this f0
      _ = f * (31 / 10 * (M / Real.sin M)) * |y - x| := by ring
      _ ≤ _ := mul_le_mul_of_nonneg_right hq (abs_nonneg _)
  refine ⟨{l | l ∈ Set.Icc lo hi ∧ (0 < L → L < Real.pi → L ≤ l ∧ l < Real.pi) ∧ (L < 0 → -Real.pi < l ∧ l ≤ L) ∧
    (L = 0 → l = 0) ∧ (L = Real.pi → l = Real.pi)}, ⟨hL, fun _ h => ⟨le_rfl, h⟩, fun _ => ⟨hL0, le_rfl⟩, id, id⟩,
    fun l hl => (hdom l hl.1).1, fun l hl => ⟨hin l hl.1, fun h h' => ?_, fun h => ?_, fun h => ?_, fun h => ?_⟩,
    fun x hx y hy => hlip x hx.1 y hy.1, (hf4 L hL).trans (by linarith), fun l hl => ⟨fun h h' => ?_, fun h => ?_, hl.2.2.2.1, hl.2.2.2.2⟩⟩
  · obtain ⟨g1, g2⟩ := hl.2.1 h h'
    refine ⟨by linarith [hpos l hl.1 (Real.sin_nonneg_of_nonneg_of_le_pi (by linarith) g2.le)], ?_⟩
    rcases lt_or_ge hi Real.pi with g | g
    · exact (hin l hl.1).2.trans_lt g
    · have := hlip Real.pi ⟨by linarith [hL.1], g⟩ l hl.1
      rw [rappE_sin Real.sin_pi, sub_zero, abs_of_nonpos (by linarith : l - Real.pi ≤ 0)] at this
      linarith [le_abs_self (rappE f β₁ β₂ l)]
  · obtain ⟨g1, g2⟩ := hl.2.2.1 h
    refine ⟨?_, by linarith [hneg l hl.1 (Real.sin_nonpos_of_nonpos_of_neg_pi_le (by linarith) g1.le)]⟩
    rcases lt_or_ge (-Real.pi) lo with g | g
    · exact g.trans_le (hin l hl.1).1
    · have := hlip (-Real.pi) ⟨g, by linarith [hL.2]⟩ l hl.1
      rw [rappE_sin (l := -Real.pi) (by rw [Real.sin_neg, Real.sin_pi, neg_zero]), sub_zero, abs_of_nonneg (by linarith : 0 ≤ l - -Real.pi)] at this
      linarith [neg_abs_le (rappE f β₁ β₂ l)]
  · rw [hl.2.2.2.1 h, rappE_sin Real.sin_zero, h, add_zero]
  · rw [hl.2.2.2.2 h, rappE_sin Real.sin_pi, h, add_zero]
  · exact ⟨h.trans_le (hl.2.1 h h').1, (hl.2.1 h h').2⟩
  · exact ⟨(hl.2.2.1 h).1, (hl.2.2.1 h).2.trans_lt h⟩

/-- The loop ends, and the state it returns. -/
theorem rapp_inverse_loop {a b : ℝ} (hb : 0 < b) (hab : b ≤ a) (hf : (a - b) / a ≤ 1 / 50) (n : String)
    {l₁ φ₁ l₂ φ₂ β₁ β₂ M : ℝ} (r₁ : Bessel.Reduced a b φ₁ β₁) (r₂ : Bessel.Reduced a b φ₂ β₂)
    (c1 : 0 ≤ Real.cos β₁) (c2 : 0 ≤ Real.cos β₂)
    (hd : surfacePoint a b l₁ φ₁ ≠ surfacePoint a b l₂ φ₂) (hM : M < Real.pi)
    (hM' : 10 * ((a - b) / a) * M ≤ Real.sin M)
    (hσ : Real.arccos (Real.sin β₁ * Real.sin β₂ + Real.cos β₁ * Real.cos β₂ * Real.cos (l₂ - l₁)) +
      4 * ((a - b) / a) ≤ M) :
    ∃ st, loopMax (inverseStep (new (ell n a b)) (fin (Real.sin β₁)) (fin (Real.cos β₁)) (fin (Real.sin β₂))
        (fin (Real.cos β₂)) (fin (normR (l₂ - l₁)))) inverseDone rappInverseMsg 30
        (inverseInit (fin (normR (l₂ - l₁)))) = .ok st ∧
      ∃ l l', Real.sin (arc β₁ β₂ l) ≠ 0 ∧ RealI st ((a - b) / a) β₁ β₂ (normR (l₂ - l₁)) l ∧
        l' = normR (l₂ - l₁) + rappE ((a - b) / a) β₁ β₂ l ∧ |l' - l| < 0.5e-14 ∧
        ((0 < normR (l₂ - l₁) ∧ normR (l₂ - l₁) < Real.pi ∧ (0 < l ∧ l < Real.pi) ∧ 0 < l' ∧ l' < Real.pi) ∨
         (normR (l₂ - l₁) < 0 ∧ (-Real.pi < l ∧ l < 0) ∧ -Real.pi < l' ∧ l' < 0) ∨
         (normR (l₂ - l₁) = 0 ∧ l = 0 ∧ l' = 0) ∨
         (normR (l₂ - l₁) = Real.pi ∧ l = Real.pi ∧ l' = Real.pi)) := by
  have ha : 0 < a := lt_of_lt_of_le hb hab
  have f0 : 0 ≤ (a - b) / a := div_nonneg (by linarith) ha.le
  have hsame := normR_same (l₂ - l₁)
  have harc : arc β₁ β₂ (normR (l₂ - l₁)) = arc β₁ β₂ (l₂ - l₁) := arc_congr hsame
  have hd' : arc β₁ β₂ (normR (l₂ - l₁)) ≠ 0 := by rw [harc]; exact arc_ne_of_surface r₁ r₂ hd
  have hσ' : arc β₁ β₂ (normR (l₂ - l₁)) + 4 * ((a - b) / a) ≤ M := by
    rw [harc, arc_eq_arccos]; exact hσ
  set L := normR (l₂ - l₁) with hLd
  obtain ⟨S, hL, hne, hin, hq, h4, hsign⟩ := rapp_domain c1 c2 (lt_normR _) (normR_le _) f0 hf hM hM' hσ' hd'
  obtain ⟨st, hst, l, hl, hr, hlt⟩ := rappInverseLoop_ends hb hab n (by norm_num) hne hin hq rappInverseMsg 29 (4 / 50) L
    (inverseInit (fin L)) hL rfl (by rw [add_sub_cancel_left]; exact h4) (by norm_num)
  refine ⟨st, hst, l, _, hne l hl, hr, rfl, hlt, ?_⟩
  obtain ⟨s1, s2, s3, s4⟩ := hsign l hl
  obtain ⟨t1, t2, t3, t4⟩ := hsign _ (hin l hl)
  rcases lt_trichotomy L 0 with h | h | h
  · exact Or.inr (Or.inl ⟨h, s2 h, t2 h⟩)
  · exact Or.inr (Or.inr (Or.inl ⟨h, s3 h, t3 h⟩))
  · rcases lt_or_eq_of_le (normR_le (l₂ - l₁)) with h' | h'
    · exact Or.inl ⟨h, h', s1 h h', t1 h h'⟩
    · exact Or.inr (Or.inr (Or.inr ⟨h', s4 h', t4 h'⟩))

/-- **C82**: the Rapp inverse solver returns for all pairs of distinct points that are not nearly antipodal.  With
`σ₀` the arc between the points placed on a sphere at their reduced latitudes, it suffices that `σ₀ + 4 f ≤ M` for some
`M < π` with `10 f M ≤ sin M`; for WGS 84, `M = 3.03` is allowed. -/
theorem C82_rapp_returns {a b : ℝ} (hb : 0 < b) (hab : b ≤ a) (hf : (a - b) / a ≤ 1 / 50) (n : String)
    (l₁ φ₁ l₂ φ₂ β₁ β₂ M : ℝ) (hc₁ : 0 ≤ Real.cos φ₁) (hc₂ : 0 ≤ Real.cos φ₂)
    (h₁ : (ell n a b).reducedLatitude (latR φ₁) = ⟨fin β₁⟩) (h₂ : (ell n a b).reducedLatitude (latR φ₂) = ⟨fin β₂⟩)
    (hd : surfacePoint a b l₁ φ₁ ≠ surfacePoint a b l₂ φ₂) (hM : M < Real.pi)
    (hM' : 10 * ((a - b) / a) * M ≤ Real.sin M)
    (hσ : Real.arccos (Real.sin β₁ * Real.sin β₂ + Real.cos β₁ * Real.cos β₂ * Real.cos (l₂ - l₁)) +
      4 * ((a - b) / a) ≤ M) :
    ∃ g, inverse (new (ell n a b)) (lonR l₁, latR φ₁) (lonR l₂, latR φ₂) = .ok g := by
  obtain ⟨r₁, b1, b1'⟩ := reduced_of_eq hb hab hc₁ h₁
  obtain ⟨r₂, b2, b2'⟩ := reduced_of_eq hb hab hc₂ h₂
  obtain ⟨st, hst, -⟩ := rapp_inverse_loop hb hab hf n r₁ r₂ (Real.cos_nonneg_of_neg_pi_div_two_le_of_le b1 b1')
    (Real.cos_nonneg_of_neg_pi_div_two_le_of_le b2 b2') hd hM hM' hσ
  rw [rapp_inverse_eq n l₁ φ₁ l₂ φ₂ β₁ β₂ h₁ h₂, hst]
  exact ⟨_, rfl⟩

/-! ### The length -/

theorem b8_fin (u : ℝ) : b8 (fin u) = fin (-5 / 65536 * u ^ 4) := by
  simp only [b8, ofNat_eq, neg_fin, mul_fin, ne_eq, OfNat.ofNat_ne_zero, not_false_eq_true, div_fin]
  congr 1; ring

theorem b8_small {u F σ c : ℝ} (hu : u ^ 4 ≤ 184 / 10 * F) (hσ : 0 ≤ σ) (hc : |c| ≤ 1) :
    |-5 / 65536 * u ^ 4 * (4 * Real.sin σ * Real.cos σ ^ 3 - 4 * Real.sin σ ^ 3 * Real.cos σ) *
      (c ^ 4 - 6 * c ^ 2 * (2 * Real.sin σ * Real.cos σ) ^ 2 + (2 * Real.sin σ * Real.cos σ) ^ 4)| ≤ 23 / 1000 * F * σ := by
  have u0 : 0 ≤ u ^ 4 := by positivity
  have e : 4 * Real.sin σ * Real.cos σ ^ 3 - 4 * Real.sin σ ^ 3 * Real.cos σ = Real.sin (4 * σ) := by
    rw [show 4 * σ = 2 * (2 * σ) by ring, Real.sin_two_mul, Real.sin_two_mul, Real.cos_two_mul]
    linear_combination -4 * Real.sin σ * Real.cos σ * Real.sin_sq_add_cos_sq σ
  rw [e, ← Real.sin_two_mul]
  have h1 : |Real.sin (4 * σ)| ≤ 4 * σ := (Real.abs_sin_le_abs).trans (by rw [abs_of_nonneg (by positivity)])
  have h2 : |c ^ 4 - 6 * c ^ 2 * Real.sin (2 * σ) ^ 2 + Real.sin (2 * σ) ^ 4| ≤ 4 := by
    have g1 : c ^ 2 ≤ 1 := by rw [← sq_abs]; nlinarith [abs_nonneg c]
    have g2 := Real.sin_sq_le_one (2 * σ)
    have g3 := sq_nonneg c
    have g4 := sq_nonneg (Real.sin (2 * σ))
    rw [show c ^ 4 = (c ^ 2) ^ 2 by ring, show Real.sin (2 * σ) ^ 4 = (Real.sin (2 * σ) ^ 2) ^ 2 by ring]
    set x := c ^ 2
    set y := Real.sin (2 * σ) ^ 2
    have : x * y ≤ 1 := mul_le_one₀ g1 g4 g2
    exact abs_le.2 ⟨by nlinarith [sq_nonneg (x - y)], by nlinarith [mul_nonneg g3 g4]⟩
  rw [abs_mul, abs_mul, abs_mul, abs_of_nonneg u0, show |(-5 / 65536 : ℝ)| = 5 / 65536 by rw [abs_of_neg (by norm_num)]; norm_num]
  have hF : 0 ≤ F := by linarith
  calc 5 / 65536 * u ^ 4 * |Real.sin (4 * σ)| * _ ≤ 5 / 65536 * (184 / 10 * F) * (4 * σ) * 4 := by gcongr
    _ = (5 / 65536 * (184 / 10) * 4 * 4) * (F * σ) := by ring
    _ ≤ 23 / 1000 * (F * σ) := by gcongr; norm_num
    _ = _ := by ring

/-- The length returned, against the series of the geodesic. -/
theorem rapp_inverse_length {a b : ℝ} (hb : 0 < b) (n : String) {st : InverseState XR} {f β₁ β₂ L l F m : ℝ}
    (h : RealI st f β₁ β₂ L l) (hs : Real.sin (arc β₁ β₂ l) ≠ 0)
    (hu : ((1 - salpha β₁ β₂ l ^ 2) * ((a ^ 2 - b ^ 2) / b ^ 2)) ^ 4 ≤ 184 / 10 * F)
    (hm : 1 - salpha β₁ β₂ l ^ 2 ≠ 0 → Real.cos (arc β₁ β₂ l) - 2 * Real.sin β₁ * Real.sin β₂ / (1 - salpha β₁ β₂ l ^ 2) =
      Real.cos (2 * m + arc β₁ β₂ l)) :
    ∃ s, inverseLength (ell n a b) st = lenR s ∧
      |s - (b * Bessel.rappF ((1 - salpha β₁ β₂ l ^ 2) * ((a ^ 2 - b ^ 2) / b ^ 2)) (m + arc β₁ β₂ l) -
        b * Bessel.rappF ((1 - salpha β₁ β₂ l ^ 2) * ((a ^ 2 - b ^ 2) / b ^ 2)) m)| ≤ b * (23 / 1000 * F) * arc β₁ β₂ l := by
  have hbm : (ell n a b).b = ⟨fin b⟩ := rfl
  have hσ := arc_nonneg β₁ β₂ l
  by_cases hk : 1 - salpha β₁ β₂ l ^ 2 = 0
  · refine ⟨b * arc β₁ β₂ l, ?_, ?_⟩
    · simp only [inverseLength, h.cos_alpha_sq, zero_eq, eq_fin, hk, decide_true, if_true, hbm, h.sigma, Length.mk_mul, mul_fin,
        length_new_m, lenR]
      rw [mul_comm]
    · rw [hk, zero_mul, Bessel.rappF_eq, Bessel.rappF_eq]
      simp only [Bessel.rappH, rappB0, rappB2, rappB4, rappB6]
      have hF : 0 ≤ F := by rw [hk] at hu; norm_num at hu; linarith
      rw [show b * arc β₁ β₂ l - _ = 0 by ring, abs_zero]
      positivity
  · obtain ⟨c, hc, k2, k4, k6, k8⟩ := h.cos hk
    rw [hm hk] at hc
    set σ := arc β₁ β₂ l with hσd
    set u := (1 - salpha β₁ β₂ l ^ 2) * ((a ^ 2 - b ^ 2) / b ^ 2) with hud
    have hue : (ell n a b).ePrimeSq * fin (1 - salpha β₁ β₂ l ^ 2) = fin u := by
      rw [ell_ePrimeSq hb, mul_fin, hud, mul_comm]
    refine ⟨b * (rappB0 u * σ + rappB2 u * Real.sin σ * c + rappB4 u * (2 * Real.sin σ * Real.cos σ) * (2 * c ^ 2 - 1) +
      rappB6 u * (3 * Real.sin σ * Real.cos σ ^ 2 - Real.sin σ ^ 3) * (c ^ 3 - 3 * c * (1 - c ^ 2)) +
      -5 / 65536 * u ^ 4 * (4 * Real.sin σ * Real.cos σ ^ 3 - 4 * Real.sin σ ^ 3 * Real.cos σ) *
      (c ^ 4 - 6 * c ^ 2 * (2 * Real.sin σ * Real.cos σ) ^ 2 + (2 * Real.sin σ * Real.cos σ) ^ 4)), ?_, ?_⟩
    · simp only [inverseLength, h.cos_alpha_sq, zero_eq, eq_fin, hk, decide_false, Bool.false_eq_true, if_false, hue, b0_fin,
        b2_fin, b4_fin, b6_fin, b8_fin, h.sigma, h.s1, h.s2, h.s3, h.s4, k2, k4, k6, k8, mul_fin, add_fin, hbm,
        Length.mk_mul, length_new_m, lenR, ← hσd]
      rw [mul_comm]
    · have hsum := Bessel.sums (rappB2 u) (rappB4 u) (rappB6 u) m σ
      rw [← hc] at hsum
      have e2 : Real.sin (2 * σ) = 2 * Real.sin σ * Real.cos σ := Real.sin_two_mul σ
      have e3 : Real.sin (3 * σ) = 3 * Real.sin σ * Real.cos σ ^ 2 - Real.sin σ ^ 3 := by
        rw [Real.sin_three_mul]
        linear_combination -3 * Real.sin σ * Real.sin_sq_add_cos_sq σ
      have e4 : Real.cos (2 * (2 * m + σ)) = 2 * c ^ 2 - 1 := by rw [Real.cos_two_mul, ← hc]
      have e6 : Real.cos (3 * (2 * m + σ)) = c ^ 3 - 3 * c * (1 - c ^ 2) := by rw [Real.cos_three_mul, ← hc]; ring
      rw [e2, e3, e4, e6] at hsum
      have := b8_small (c := c) hu hσ (by rw [hc]; exact Real.abs_cos_le_one _)
      rw [Bessel.rappF_eq, Bessel.rappF_eq]
      simp only [Bessel.rappH]
      generalize hE : -5 / 65536 * u ^ 4 * (4 * Real.sin σ * Real.cos σ ^ 3 - 4 * Real.sin σ ^ 3 * Real.cos σ) *
        (c ^ 4 - 6 * c ^ 2 * (2 * Real.sin σ * Real.cos σ) ^ 2 + (2 * Real.sin σ * Real.cos σ) ^ 4) = E at this ⊢
      rw [show b * (23 / 1000 * F) * σ = b * (23 / 1000 * F * σ) by ring]
      refine le_trans (le_of_eq ?_) (mul_le_mul_of_nonneg_left this hb.le)
      rw [← abs_of_pos hb, ← abs_mul, abs_of_pos hb]
      congr 1
      linear_combination b * hsum

/-- Rapp's length against the arc. -/
theorem rapp_length_bounds {u m σ s b F : ℝ} (hb : 0 < b) (x0 : 0 ≤ u) (x1 : u ≤ 1 / 20) (hσ0 : 0 < σ) (hF : F ≤ 1 / 1000)
    (h : |s - (b * Bessel.rappF u (m + σ) - b * Bessel.rappF u m)| ≤ b * (23 / 1000 * F) * σ) :
    σ * (987 / 1000) ≤ s / b ∧ s / b ≤ σ * (1026 / 1000) := by
  obtain ⟨B0, B1⟩ := Bessel.rappB0_bounds x0 x1
  have hlip := Bessel.rappH_lip x0 x1 m (m + σ)
  rw [add_sub_cancel_left, abs_of_pos hσ0] at hlip
  obtain ⟨d1, d2⟩ := abs_le.1 hlip
  rw [Bessel.rappF_eq, Bessel.rappF_eq] at h
  have hs : s = b * (s / b) := by field_simp
  set S := s / b
  have e : s - (b * (rappB0 u * (m + σ) + Bessel.rappH u (m + σ)) - b * (rappB0 u * m + Bessel.rappH u m)) =
      b * (S - rappB0 u * σ - (Bessel.rappH u (m + σ) - Bessel.rappH u m)) := by rw [hs]; ring
  rw [e, abs_mul, abs_of_pos hb, mul_assoc] at h
  obtain ⟨g1, g2⟩ := abs_le.1 (le_of_mul_le_mul_left h hb)
  generalize Bessel.rappH u (m + σ) - Bessel.rappH u m = d at d1 d2 g1 g2
  have h1 : 101 / 400 * u * σ ≤ 101 / 400 * (1 / 20) * σ := by gcongr
  have h2 : F * σ ≤ 1 / 1000 * σ := by gcongr
  have h3 : 1 * σ ≤ rappB0 u * σ := by gcongr
  have h4 : rappB0 u * σ ≤ (81 / 80) * σ := by gcongr; linarith
  constructor <;> linarith

/-- What the last state says about the geodesics. -/
theorem rapp_inverse_outcome {a b : ℝ} (hb : 0 < b) (hab : b ≤ a) (hf : (a - b) / a ≤ 1 / 50) (n : String)
    {l₁ φ₁ l₂ φ₂ β₁ β₂ L l l' : ℝ} {st : InverseState XR} (r₁ : Bessel.Reduced a b φ₁ β₁) (r₂ : Bessel.Reduced a b φ₂ β₂)
    (c1 : 0 < Real.cos β₁) (c2 : 0 ≤ Real.cos β₂) (hs : Real.sin (arc β₁ β₂ l) ≠ 0)
    (hr : RealI st ((a - b) / a) β₁ β₂ L l) (hl' : l' = L + rappE ((a - b) / a) β₁ β₂ l) (hlt : |l' - l| < 0.5e-14)
    (hL : SameDirection L (l₂ - l₁)) :
    ∃ (γ : ℝ → E3) (s : ℝ), IsGeodesic a b γ ∧ γ 0 = surfacePoint a b l₁ φ₁ ∧
      inverseLength (ell n a b) st = lenR s ∧ 0 < s ∧
      ‖γ s - surfacePoint a b l₂ φ₂‖ ≤ 14 / 100 * ((a - b) / a) ^ 4 * s + 0.5e-14 * a ∧
      ∀ l'', l'' = l' ∨ l'' = l → s ≤ 3 * b →
        ‖deriv γ 0 - direction l₁ φ₁ (Complex.arg ⟨Real.cos β₁ * Real.sin β₂ - Real.sin β₁ * Real.cos β₂ * Real.cos l'',
          Real.cos β₂ * Real.sin l'⟩)‖ ≤ 3.5e-13 * (b / s) ∧
        (Real.cos β₂ ≠ 0 → ‖deriv γ s - direction l₂ φ₂ (Complex.arg ⟨-Real.sin β₁ * Real.cos β₂ +
          Real.cos β₁ * Real.sin β₂ * Real.cos l'', Real.cos β₁ * Real.sin l'⟩)‖ ≤
          3.5e-13 * (b / s) + 14 / 100 * ((a - b) / a) ^ 4 * (s / b) + 0.5e-14) := by
  have ha : 0 < a := lt_of_lt_of_le hb hab
  have f0 : 0 ≤ (a - b) / a := div_nonneg (by linarith) ha.le
  have ht := auxTriangle β₁ β₂ l 0 hs
  obtain ⟨γ, α, α₂, m, hγ, g0, g1, hp, h1, hmid, k1, k2, k3⟩ := inverse_outcome hb hab r₁ r₂ c1 c2 ht hL
  have hσ0 : 0 < arc β₁ β₂ l := lt_of_le_of_ne ht.nonneg fun e => by rw [← e, Real.sin_zero] at hp; exact lt_irrefl _ hp
  have hK : 0 ≤ 1 - salpha β₁ β₂ l ^ 2 := sub_nonneg.2 (salpha_sq_le _ _ _ hs)
  have hsq := Real.sq_sqrt hK
  have hx : (1 - salpha β₁ β₂ l ^ 2) * ((a ^ 2 - b ^ 2) / b ^ 2) =
      Real.sqrt (1 - salpha β₁ β₂ l ^ 2) ^ 2 * ((a ^ 2 - b ^ 2) / b ^ 2) := by rw [hsq]
  obtain ⟨x0, x1, x2, -⟩ := Bessel.x_facts hb hab h1 hx hf
  have hmid' : 1 - salpha β₁ β₂ l ^ 2 ≠ 0 → Real.cos (arc β₁ β₂ l) - 2 * Real.sin β₁ * Real.sin β₂ /
      (1 - salpha β₁ β₂ l ^ 2) = Real.cos (2 * m + arc β₁ β₂ l) := fun h0 => by
    rw [← hmid h0, mid, if_neg h0]
  obtain ⟨s, hlen, hnear⟩ := rapp_inverse_length (m := m) hb n hr hs x2 hmid'
  have hF : ((a - b) / a) ^ 4 ≤ 1 / 1000 := (pow_le_pow_left₀ f0 hf 4).trans (by norm_num)
  obtain ⟨lo, hi⟩ := rapp_length_bounds hb x0 x1 hσ0 hF hnear
  have hvd := Bessel.rapp_dist hb hab h1 hx hf m (m + arc β₁ β₂ l)
  have hvl := Bessel.rapp_lon hb hab h1 rfl hf m (m + arc β₁ β₂ l)
  rw [add_sub_cancel_left, abs_of_pos hσ0] at hvd hvl
  -- the excess
  have hexc : rappE ((a - b) / a) β₁ β₂ l = (a - b) / a * salpha β₁ β₂ l *
      Bessel.rappL ((a - b) / a) (Real.sqrt (1 - salpha β₁ β₂ l ^ 2) ^ 2) (m + arc β₁ β₂ l) - (a - b) / a * salpha β₁ β₂ l *
      Bessel.rappL ((a - b) / a) (Real.sqrt (1 - salpha β₁ β₂ l ^ 2) ^ 2) m := by
    rw [hsq]
    by_cases h0 : 1 - salpha β₁ β₂ l ^ 2 = 0
    · rw [← rappE_zero hs h0]
      simp only [h0, Bessel.rappL, rappA0, rappA2, rappA4, rappA6]
      ring
    · rw [← rappE_eq hs h0 rfl, hmid' h0]
      have hsum := Bessel.sums (rappA2 ((a - b) / a) (1 - salpha β₁ β₂ l ^ 2)) (rappA4 ((a - b) / a) (1 - salpha β₁ β₂ l ^ 2))
        (rappA6 ((a - b) / a) (1 - salpha β₁ β₂ l ^ 2)) m (arc β₁ β₂ l)
      set σ := arc β₁ β₂ l
      have e2 : Real.sin (2 * σ) = 2 * Real.sin σ * Real.cos σ := Real.sin_two_mul σ
      have e3 : Real.sin (3 * σ) = 3 * Real.sin σ * Real.cos σ ^ 2 - Real.sin σ ^ 3 := by
        rw [Real.sin_three_mul]
        linear_combination -3 * Real.sin σ * Real.sin_sq_add_cos_sq σ
      have e4 : Real.cos (2 * (2 * m + σ)) = 2 * Real.cos (2 * m + σ) ^ 2 - 1 := Real.cos_two_mul _
      have e6 : Real.cos (3 * (2 * m + σ)) = Real.cos (2 * m + σ) ^ 3 - 3 * Real.cos (2 * m + σ) *
          (1 - Real.cos (2 * m + σ) ^ 2) := by rw [Real.cos_three_mul]; ring
      rw [e2, e3, e4, e6] at hsum
      simp only [Bessel.rappL]
      linear_combination (a - b) / a * salpha β₁ β₂ l * hsum
  set f := (a - b) / a with hfd
  have hf4 : 0 ≤ f ^ 4 := by positivity
  have hs0 : 0 < s := by
    have : 0 < s / b := lt_of_lt_of_le (by positivity) lo
    exact (div_pos_iff_of_pos_right hb).1 this
  have hab' : a ≤ 103 / 100 * b := by
    rw [hfd, div_le_iff₀ ha] at hf
    linarith
  obtain ⟨w1, w2⟩ := k3 _ _ s (rappE f β₁ β₂ l) l' rfl rfl hl'
  set σ := arc β₁ β₂ l
  set sa := salpha β₁ β₂ l
  set c0 := Real.sqrt (1 - sa ^ 2)
  have m1 : |Bessel.T a b sa c0 (m + σ) - Bessel.T a b sa c0 m - s| ≤ b * (57 / 1000 * f ^ 4) * σ := by
    rw [abs_sub_comm] at hnear
    refine (abs_sub_le _ _ _).trans ((add_le_add hvd hnear).trans ?_)
    have : 0 ≤ b * f ^ 4 * σ := by positivity
    linarith
  have m2 : |Bessel.G a b sa c0 (m + σ) - Bessel.G a b sa c0 m - rappE f β₁ β₂ l| ≤ 7 / 100 * f ^ 4 * σ := by
    rw [hexc]
    refine hvl.trans ?_
    have : f * (f ^ 4 * σ) ≤ 1 / 50 * (f ^ 4 * σ) := by gcongr
    linarith
  have ratio : s ≤ 3 * b → 2 * |l' - l| / Real.sin σ ≤ 3.5e-13 * (b / s) := fun h3 =>
    (ratio_bound hb hs0 hσ0 hp lo hi (by norm_num) hlt.le h3).trans (by norm_num)
  refine ⟨γ, s, hγ, g0, hlen, hs0, w1.trans ?_, fun l'' hl'' h3 => ⟨?_, fun hc => ?_⟩⟩
  · exact position_bound ha.le hb hab' hσ0.le hf4 (by norm_num) (by norm_num) lo m1 m2 hlt.le (by norm_num)
  · rw [g1]
    refine le_trans ?_ (ratio h3)
    rw [le_div_iff₀ hp, mul_comm]
    exact k1 l' l'' hl''
  · have n1 := w2 hc
    have n2 : ‖direction l₂ φ₂ α₂ - direction l₂ φ₂ (Complex.arg ⟨-Real.sin β₁ * Real.cos β₂ +
        Real.cos β₁ * Real.sin β₂ * Real.cos l'', Real.cos β₁ * Real.sin l'⟩)‖ ≤ 3.5e-13 * (b / s) := by
      refine le_trans ?_ (ratio h3)
      rw [le_div_iff₀ hp, mul_comm]
      exact k2 l' l'' hl''
    have n3 := direction_bound (e := 14 / 100) hb hab' hσ0.le hf4 (abs_nonneg _) (by norm_num) (by norm_num) lo m1 m2 hlt.le
      (by norm_num)
    refine (norm_sub_le_norm_sub_add_norm_sub _ (direction l₂ φ₂ α₂) _).trans ?_
    linarith

/-- **C82**: the distance returned by the Rapp inverse solver is that of a geodesic: when it returns, from a first point
off the poles, there is a geodesic of the ellipsoid that starts at the first point and that after the returned distance
`s` is within `14/100 f⁴ s + 0.5e-14 a` of the second one. -/
theorem C82_rapp_distance {a b : ℝ} (hb : 0 < b) (hab : b ≤ a) (hf : (a - b) / a ≤ 1 / 50) (n : String)
    (l₁ φ₁ l₂ φ₂ : ℝ) (hc₁ : 0 < Real.cos φ₁) (hc₂ : 0 ≤ Real.cos φ₂) (g : Geodesic XR)
    (h : inverse (new (ell n a b)) (lonR l₁, latR φ₁) (lonR l₂, latR φ₂) = .ok g) :
    ∃ (γ : ℝ → E3) (s : ℝ), IsGeodesic a b γ ∧ γ 0 = surfacePoint a b l₁ φ₁ ∧ g.s = lenR s ∧ 0 < s ∧
      ‖γ s - surfacePoint a b l₂ φ₂‖ ≤ 14 / 100 * ((a - b) / a) ^ 4 * s + 0.5e-14 * a := by
  obtain ⟨β₁, e₁, -⟩ := reducedLatitude_all hb hab n φ₁
  obtain ⟨β₂, e₂, -⟩ := reducedLatitude_all hb hab n φ₂
  obtain ⟨r₁, b1, b1'⟩ := reduced_of_eq hb hab hc₁.le e₁
  obtain ⟨r₂, b2, b2'⟩ := reduced_of_eq hb hab hc₂ e₂
  rw [rapp_inverse_eq n l₁ φ₁ l₂ φ₂ β₁ β₂ e₁ e₂] at h
  obtain ⟨st, hst, hg⟩ := bind_eq_ok.1 h
  obtain ⟨l, hs, hr, hlt⟩ := rappInverseLoop_real hb hab n _ _ _ _ st rfl hst
  obtain ⟨γ, s, hγ, g0, hlen, s0, w, -⟩ := rapp_inverse_outcome hb hab hf n r₁ r₂ (reduced_cos_pos hb hab r₁ hc₁)
    (Real.cos_nonneg_of_neg_pi_div_two_le_of_le b2 b2') hs hr rfl hlt (normR_same (l₂ - l₁))
  cases hg
  exact ⟨γ, s, hγ, g0, hlen, s0, w⟩

/-! ### The azimuths -/

theorem atan2_ratio {t S D : ℝ} (ht : 0 < t) (hS : S ≠ 0) :
    Flt.atan2 (fin (t * S)) (fin (t * S) / (fin S / fin D)) = fin (Complex.arg ⟨D, S⟩) := by
  have e : (fin (t * S) / (fin S / fin D) : XR) = fin (t * D) := by
    by_cases hD : D = 0
    · rw [hD, div_fin_ite, if_pos rfl, mul_zero]
      rcases lt_or_gt_of_ne hS with h | h
      · rw [signInf_neg h]; rfl
      · rw [signInf_pos h]; rfl
    · rw [div_fin _ hD, div_fin _ (div_ne_zero hS hD)]
      congr 1
      field_simp
  rw [e, atan2_fin, arg_scale ht]

/-- The formulas of the azimuths. -/
theorem rapp_alphas {φ₁ φ₂ β₁ β₂ L l l' f s : ℝ} {st : InverseState XR} (c1 : 0 < Real.cos β₁) (c2 : 0 < Real.cos β₂)
    (hs : Real.sin (arc β₁ β₂ l) ≠ 0) (hr : RealI st f β₁ β₂ L l) (hl' : l' = L + rappE f β₁ β₂ l)
    (h0 : l' ≠ 0) (hπ : l' ≠ Real.pi) (hpos : 0 < Real.sin l * Real.sin l') :
    ∃ l'', (l'' = l' ∨ l'' = l) ∧ rappAlphas φ₁ φ₂ β₁ β₂ (lenR s) st =
      (fin (Complex.arg ⟨Real.cos β₁ * Real.sin β₂ - Real.sin β₁ * Real.cos β₂ * Real.cos l'', Real.cos β₂ * Real.sin l'⟩),
       fin (Complex.arg ⟨-Real.sin β₁ * Real.cos β₂ + Real.cos β₁ * Real.sin β₂ * Real.cos l'', Real.cos β₁ * Real.sin l'⟩)) := by
  have hlam := hr.lambda
  rw [← hl'] at hlam
  have hp := sin_arc_pos hs
  have hsl : Real.sin l' ≠ 0 := fun h => by rw [h, mul_zero] at hpos; exact lt_irrefl _ hpos
  have ht : 0 < Real.sin l / (Real.sin (arc β₁ β₂ l) * Real.sin l') := by
    rw [show Real.sin l / (Real.sin (arc β₁ β₂ l) * Real.sin l') =
      Real.sin l * Real.sin l' / (Real.sin (arc β₁ β₂ l) * Real.sin l' ^ 2) by field_simp]
    positivity
  have e1 : (fin (salpha β₁ β₂ l) / fin (Real.cos β₁) : XR) =
      fin (Real.sin l / (Real.sin (arc β₁ β₂ l) * Real.sin l') * (Real.sin l' * Real.cos β₂)) := by
    rw [div_fin _ c1.ne', salpha]
    congr 1
    field_simp
  have e2 : (fin (salpha β₁ β₂ l) / fin (Real.cos β₂) : XR) =
      fin (Real.sin l / (Real.sin (arc β₁ β₂ l) * Real.sin l') * (Real.sin l' * Real.cos β₁)) := by
    rw [div_fin _ c2.ne', salpha]
    congr 1
    field_simp
  have hshort : ∃ l'', (l'' = l' ∨ l'' = l) ∧ inverseTans ((lenR s).m <. 10000) ⟨fin β₁⟩ ⟨fin β₂⟩ (fin l') (fin (Real.cos l)) =
      (fin (Real.sin l' * Real.cos β₂) / fin (Real.cos β₁ * Real.sin β₂ - Real.sin β₁ * Real.cos β₂ * Real.cos l''),
       fin (Real.sin l' * Real.cos β₁) / fin (-Real.sin β₁ * Real.cos β₂ + Real.cos β₁ * Real.sin β₂ * Real.cos l'')) := by
    cases hb : ((lenR s).m <. (10000 : XR))
    · refine ⟨l', Or.inl rfl, ?_⟩
      simp only [inverseTans, Bool.false_eq_true, if_false, Angle.sin, Angle.cos, sin_fin, cos_fin, mul_fin, sub_fin]
      congr 3 <;> ring
    · refine ⟨l, Or.inr rfl, ?_⟩
      have h12 : ((⟨fin β₂⟩ : Angle XR) - ⟨fin β₁⟩) = ⟨fin (β₂ - β₁)⟩ := rfl
      simp only [inverseTans, if_true, Angle.sin, Angle.cos, sin_fin, cos_fin, mul_fin, sub_fin, add_fin, one_eq, ofNat_eq,
        div_fin _ (show (2 : ℝ) ≠ 0 by norm_num), h12]
      rw [Real.sin_sub]
      congr 3 <;> ring
  obtain ⟨l'', hl'', htan⟩ := hshort
  refine ⟨l'', hl'', ?_⟩
  have n1 : ((fin l' : XR) ==. 0) = false := by rw [zero_eq, eq_fin]; exact decide_eq_false h0
  have n2 : ((fin l' : XR) ==. Flt.pi) = false := by rw [pi_eq, eq_fin]; exact decide_eq_false hπ
  simp only [rappAlphas, hlam, hr.cos_lambda, hr.sin_alpha, n1, n2, Bool.false_eq_true, if_false, htan, e1, e2]
  rw [atan2_ratio ht (mul_ne_zero hsl c2.ne'), atan2_ratio ht (mul_ne_zero hsl c1.ne'), mul_comm (Real.sin l') (Real.cos β₂),
    mul_comm (Real.sin l') (Real.cos β₁)]

theorem arg_pos' {x : ℝ} (h : 0 < x) : Complex.arg ⟨x, 0⟩ = 0 := by
  rw [show (⟨x, 0⟩ : ℂ) = (x : ℂ) from rfl]; exact Complex.arg_ofReal_of_nonneg h.le

theorem arg_neg' {x : ℝ} (h : x < 0) : Complex.arg ⟨x, 0⟩ = Real.pi := by
  rw [show (⟨x, 0⟩ : ℂ) = (x : ℂ) from rfl]; exact Complex.arg_ofReal_of_neg h

/-- The reduced latitude grows with the latitude. -/
theorem reduced_lt {r x y : ℝ} (hr : 0 < r) (h1 : -(Real.pi / 2) < x) (h2 : x < y) (h3 : y < Real.pi / 2) :
    Real.arctan (r * Real.tan x) < Real.arctan (r * Real.tan y) :=
  Real.arctan_strictMono (mul_lt_mul_of_pos_left (Real.tan_lt_tan_of_lt_of_lt_pi_div_two h1 h3 h2) hr)

/-- On a meridian. -/
theorem rapp_alphas_zero {r φ₁ φ₂ L f s : ℝ} {st : InverseState XR} (hr : 0 < r) (h₁ : |φ₁| < Real.pi / 2)
    (h₂ : |φ₂| < Real.pi / 2) (hne : φ₁ ≠ φ₂)
    (h : RealI st f (Real.arctan (r * Real.tan φ₁)) (Real.arctan (r * Real.tan φ₂)) L 0) (h0 : L + rappE f
      (Real.arctan (r * Real.tan φ₁)) (Real.arctan (r * Real.tan φ₂)) 0 = 0) (β₁ β₂ : ℝ)
    (e₁ : β₁ = Real.arctan (r * Real.tan φ₁)) (e₂ : β₂ = Real.arctan (r * Real.tan φ₂)) :
    rappAlphas φ₁ φ₂ β₁ β₂ (lenR s) st =
      (fin (Complex.arg ⟨Real.cos β₁ * Real.sin β₂ - Real.sin β₁ * Real.cos β₂ * Real.cos 0, Real.cos β₂ * Real.sin 0⟩),
       fin (Complex.arg ⟨-Real.sin β₁ * Real.cos β₂ + Real.cos β₁ * Real.sin β₂ * Real.cos 0, Real.cos β₁ * Real.sin 0⟩)) := by
  obtain ⟨p1, p2⟩ := abs_lt.1 h₁
  obtain ⟨q1, q2⟩ := abs_lt.1 h₂
  have n1 : (st.lambda ==. 0) = true := by rw [h.lambda, h0, zero_eq, eq_fin]; exact decide_eq_true rfl
  have hsub : ∀ x y : ℝ, Real.cos x * Real.sin y - Real.sin x * Real.cos y * Real.cos 0 = Real.sin (y - x) ∧
      -Real.sin x * Real.cos y + Real.cos x * Real.sin y * Real.cos 0 = Real.sin (y - x) := fun x y => by
    rw [Real.sin_sub, Real.cos_zero]; constructor <;> ring
  simp only [rappAlphas, n1, if_true, (hsub _ _).1, (hsub _ _).2, Real.sin_zero, mul_zero]
  have hlt : (latR φ₁).lt (latR φ₂) = decide (φ₁ < φ₂) := rfl
  have b1 := Real.neg_pi_div_two_lt_arctan (r * Real.tan φ₁)
  have b2 := Real.arctan_lt_pi_div_two (r * Real.tan φ₁)
  have b3 := Real.neg_pi_div_two_lt_arctan (r * Real.tan φ₂)
  have b4 := Real.arctan_lt_pi_div_two (r * Real.tan φ₂)
  rw [← e₁] at b1 b2
  rw [← e₂] at b3 b4
  rcases lt_or_gt_of_ne hne with g | g
  · have := reduced_lt hr p1 g q2
    rw [← e₁, ← e₂] at this
    rw [hlt, decide_eq_true g, if_pos rfl, arg_pos' (Real.sin_pos_of_pos_of_lt_pi (by linarith) (by linarith)), zero_eq]
  · have := reduced_lt hr q1 g p2
    rw [← e₁, ← e₂] at this
    rw [hlt, decide_eq_false (not_lt.2 g.le), if_neg (by simp), arg_neg' (Real.sin_neg_of_neg_of_neg_pi_lt (by linarith)
      (by linarith)), pi_eq]

/-- Over a pole. -/
theorem rapp_alphas_pi {r φ₁ φ₂ L f s : ℝ} {st : InverseState XR} (hr : 0 < r) (h₁ : |φ₁| < Real.pi / 2)
    (h₂ : |φ₂| < Real.pi / 2) (hne : φ₁ ≠ -φ₂) (hpole : 0 ≤ φ₁ ↔ 0 < φ₁ + φ₂)
    (h : RealI st f (Real.arctan (r * Real.tan φ₁)) (Real.arctan (r * Real.tan φ₂)) L Real.pi) (h0 : L + rappE f
      (Real.arctan (r * Real.tan φ₁)) (Real.arctan (r * Real.tan φ₂)) Real.pi = Real.pi) (β₁ β₂ : ℝ)
    (e₁ : β₁ = Real.arctan (r * Real.tan φ₁)) (e₂ : β₂ = Real.arctan (r * Real.tan φ₂)) :
    rappAlphas φ₁ φ₂ β₁ β₂ (lenR s) st =
      (fin (Complex.arg ⟨Real.cos β₁ * Real.sin β₂ - Real.sin β₁ * Real.cos β₂ * Real.cos Real.pi, Real.cos β₂ * Real.sin Real.pi⟩),
       fin (Complex.arg ⟨-Real.sin β₁ * Real.cos β₂ + Real.cos β₁ * Real.sin β₂ * Real.cos Real.pi,
        Real.cos β₁ * Real.sin Real.pi⟩)) := by
  obtain ⟨p1, p2⟩ := abs_lt.1 h₁
  obtain ⟨q1, q2⟩ := abs_lt.1 h₂
  have n0 : (st.lambda ==. 0) = false := by
    rw [h.lambda, h0, zero_eq, eq_fin]; exact decide_eq_false Real.pi_ne_zero
  have n1 : (st.lambda ==. Flt.pi) = true := by rw [h.lambda, h0, pi_eq, eq_fin]; exact decide_eq_true rfl
  have hadd : ∀ x y : ℝ, Real.cos x * Real.sin y - Real.sin x * Real.cos y * Real.cos Real.pi = Real.sin (x + y) ∧
      -Real.sin x * Real.cos y + Real.cos x * Real.sin y * Real.cos Real.pi = -Real.sin (x + y) := fun x y => by
    rw [Real.sin_add, Real.cos_pi]; constructor <;> ring
  simp only [rappAlphas, n0, n1, Bool.false_eq_true, if_false, if_true, (hadd _ _).1, (hadd _ _).2, Real.sin_pi, mul_zero]
  have hle : (Lat.ZERO : Lat XR).le (latR φ₁) = decide (0 ≤ φ₁) := by
    rw [← le_fin, ← zero_eq]; rfl
  have b1 := Real.neg_pi_div_two_lt_arctan (r * Real.tan φ₁)
  have b2 := Real.arctan_lt_pi_div_two (r * Real.tan φ₁)
  have b3 := Real.neg_pi_div_two_lt_arctan (r * Real.tan φ₂)
  have b4 := Real.arctan_lt_pi_div_two (r * Real.tan φ₂)
  have e₂' : -β₂ = Real.arctan (r * Real.tan (-φ₂)) := by rw [e₂, Real.tan_neg, mul_neg, Real.arctan_neg]
  rw [← e₁] at b1 b2
  rw [← e₂] at b3 b4
  rcases lt_or_gt_of_ne hne with g | g
  · have := reduced_lt hr p1 g (by linarith)
    rw [← e₁, ← e₂'] at this
    have hs : Real.sin (β₁ + β₂) < 0 := Real.sin_neg_of_neg_of_neg_pi_lt (by linarith) (by linarith)
    have hn : ¬ 0 ≤ φ₁ := fun h => by have := hpole.1 h; linarith
    rw [hle, decide_eq_false hn, if_neg (by simp), arg_neg' hs, arg_pos' (by linarith), zero_eq, pi_eq]
  · have := reduced_lt hr (by linarith) g p2
    rw [← e₁, ← e₂'] at this
    have hs : 0 < Real.sin (β₁ + β₂) := Real.sin_pos_of_pos_of_lt_pi (by linarith) (by linarith)
    rw [hle, decide_eq_true (hpole.2 (by linarith)), if_pos rfl, arg_pos' hs, arg_neg' (by linarith), zero_eq, pi_eq]

/-- **C82** (off the poles and, for points on opposite meridians, only if the first latitude has the sign of the sum of
the two; see the next theorem): the Rapp inverse solver returns a geodesic.  From the first point with the first
azimuth, after the returned distance, it is at the second point with the second azimuth, to the given accuracies. -/
theorem C82_rapp_inverse_partial {a b : ℝ} (hb : 0 < b) (hab : b ≤ a) (hf : (a - b) / a ≤ 1 / 50) (n : String)
    (l₁ φ₁ l₂ φ₂ β₁ β₂ M : ℝ) (hφ₁ : |φ₁| < Real.pi / 2) (hφ₂ : |φ₂| < Real.pi / 2)
    (h₁ : (ell n a b).reducedLatitude (latR φ₁) = ⟨fin β₁⟩) (h₂ : (ell n a b).reducedLatitude (latR φ₂) = ⟨fin β₂⟩)
    (hd : surfacePoint a b l₁ φ₁ ≠ surfacePoint a b l₂ φ₂) (hM : M < Real.pi)
    (hM' : 10 * ((a - b) / a) * M ≤ Real.sin M)
    (hσ : Real.arccos (Real.sin β₁ * Real.sin β₂ + Real.cos β₁ * Real.cos β₂ * Real.cos (l₂ - l₁)) +
      4 * ((a - b) / a) ≤ M)
    (hpole : Real.cos (l₂ - l₁) = -1 → (0 ≤ φ₁ ↔ 0 < φ₁ + φ₂)) :
    ∃ (g : Geodesic XR) (γ : ℝ → E3) (s α₁ α₂ : ℝ),
      inverse (new (ell n a b)) (lonR l₁, latR φ₁) (lonR l₂, latR φ₂) = .ok g ∧
      IsGeodesic a b γ ∧ γ 0 = surfacePoint a b l₁ φ₁ ∧
      g = ⟨(lonR l₁, latR φ₁), aziR α₁, (lonR l₂, latR φ₂), aziR α₂, lenR s⟩ ∧ 0 < s ∧
      -Real.pi < α₁ ∧ α₁ ≤ Real.pi ∧ -Real.pi < α₂ ∧ α₂ ≤ Real.pi ∧
      ‖γ s - surfacePoint a b l₂ φ₂‖ ≤ 14 / 100 * ((a - b) / a) ^ 4 * s + 0.5e-14 * a ∧
      (s ≤ 3 * b → ‖deriv γ 0 - direction l₁ φ₁ α₁‖ ≤ 3.5e-13 * (b / s)) ∧
      (s ≤ 3 * b → ‖deriv γ s - direction l₂ φ₂ α₂‖ ≤ 3.5e-13 * (b / s) + 14 / 100 * ((a - b) / a) ^ 4 * (s / b) + 0.5e-14) := by
  have ha : 0 < a := lt_of_lt_of_le hb hab
  have hba : 0 < b / a := div_pos hb ha
  have k1 : 0 < Real.cos φ₁ := Real.cos_pos_of_mem_Ioo (abs_lt.1 hφ₁)
  have k2 : 0 < Real.cos φ₂ := Real.cos_pos_of_mem_Ioo (abs_lt.1 hφ₂)
  obtain ⟨r₁, -, -⟩ := reduced_of_eq hb hab k1.le h₁
  obtain ⟨r₂, -, -⟩ := reduced_of_eq hb hab k2.le h₂
  have c1 := reduced_cos_pos hb hab r₁ k1
  have c2 := reduced_cos_pos hb hab r₂ k2
  obtain ⟨st, hst, l, l', hs, hr, hl', hlt, hsign⟩ := rapp_inverse_loop hb hab hf n r₁ r₂ c1.le c2.le hd hM hM' hσ
  have hsame := normR_same (l₂ - l₁)
  obtain ⟨γ, s, hγ, g0, hlen, s0, w, w'⟩ := rapp_inverse_outcome hb hab hf n (st := st) r₁ r₂ c1 c2.le hs hr hl' hlt hsame
  have t1 : β₁ = Real.arctan (b / a * Real.tan φ₁) := by
    rw [reducedLatitude_off hb hab n k1] at h₁; simpa using h₁.symm
  have t2 : β₂ = Real.arctan (b / a * Real.tan φ₂) := by
    rw [reducedLatitude_off hb hab n k2] at h₂; simpa using h₂.symm
  have key : ∃ l'', (l'' = l' ∨ l'' = l) ∧ rappAlphas φ₁ φ₂ β₁ β₂ (lenR s) st =
      (fin (Complex.arg ⟨Real.cos β₁ * Real.sin β₂ - Real.sin β₁ * Real.cos β₂ * Real.cos l'', Real.cos β₂ * Real.sin l'⟩),
       fin (Complex.arg ⟨-Real.sin β₁ * Real.cos β₂ + Real.cos β₁ * Real.sin β₂ * Real.cos l'', Real.cos β₁ * Real.sin l'⟩)) := by
    rcases hsign with ⟨-, -, ⟨u1, u2⟩, u3, u4⟩ | ⟨-, ⟨u1, u2⟩, u3, u4⟩ | ⟨u0, u1, u2⟩ | ⟨u0, u1, u2⟩
    · exact rapp_alphas c1 c2 hs hr hl' u3.ne' u4.ne (mul_pos (Real.sin_pos_of_pos_of_lt_pi u1 u2)
        (Real.sin_pos_of_pos_of_lt_pi u3 u4))
    · exact rapp_alphas c1 c2 hs hr hl' u4.ne (by linarith [Real.pi_pos]) (mul_pos_of_neg_of_neg
        (Real.sin_neg_of_neg_of_neg_pi_lt u2 u1) (Real.sin_neg_of_neg_of_neg_pi_lt u4 u3))
    · refine ⟨l', Or.inl rfl, ?_⟩
      subst u1 u2
      refine rapp_alphas_zero hba hφ₁ hφ₂ (fun e => hd ?_) (by rw [← t1, ← t2]; exact hr) (by rw [← t1, ← t2]; exact hl'.symm)
        β₁ β₂ t1 t2
      rw [u0] at hsame
      obtain ⟨k, hk⟩ := hsame
      have e12 : SameDirection l₁ l₂ := ⟨k, by linarith⟩
      rw [e]
      simp only [surfacePoint, e12.cos, e12.sin]
    · refine ⟨l', Or.inl rfl, ?_⟩
      subst u1 u2
      have hc : Real.cos (l₂ - l₁) = -1 := by rw [← hsame.cos, u0, Real.cos_pi]
      refine rapp_alphas_pi hba hφ₁ hφ₂ (fun e => hs ?_) (hpole hc) (by rw [← t1, ← t2]; exact hr)
        (by rw [← t1, ← t2]; exact hl'.symm) β₁ β₂ t1 t2
      have : β₁ = -β₂ := by rw [t1, t2, e, Real.tan_neg, mul_neg, Real.arctan_neg]
      have hcs := cos_arc β₁ β₂ Real.pi
      rw [csig, Real.cos_pi, this, Real.sin_neg, Real.cos_neg] at hcs
      have := Real.sin_sq_add_cos_sq β₂
      have h1 : Real.cos (arc (-β₂) β₂ Real.pi) = -1 := by linarith
      have h2 := Real.sin_sq_add_cos_sq (arc (-β₂) β₂ Real.pi)
      rw [h1] at h2
      rw [‹β₁ = -β₂›]
      nlinarith
  obtain ⟨l'', hl'', hα⟩ := key
  refine ⟨_, γ, s, Complex.arg ⟨Real.cos β₁ * Real.sin β₂ - Real.sin β₁ * Real.cos β₂ * Real.cos l'', Real.cos β₂ * Real.sin l'⟩,
    Complex.arg ⟨-Real.sin β₁ * Real.cos β₂ + Real.cos β₁ * Real.sin β₂ * Real.cos l'', Real.cos β₁ * Real.sin l'⟩,
    ?_, hγ, g0, rfl, s0, Complex.neg_pi_lt_arg _, Complex.arg_le_pi _, Complex.neg_pi_lt_arg _,
    Complex.arg_le_pi _, w, fun h3 => (w' l'' hl'' h3).1, fun h3 => (w' l'' hl'' h3).2 c2.ne'⟩
  rw [rapp_inverse_eq n l₁ φ₁ l₂ φ₂ β₁ β₂ h₁ h₂, hst]
  simp only [ok_bind, hlen, hα, angle_new_rad, azi_new_fin]
  rw [normR_id (Complex.neg_pi_lt_arg _) (Complex.arg_le_pi _), normR_id (Complex.neg_pi_lt_arg _) (Complex.arg_le_pi _)]

/-- The same two points on WGS 84 as for C80. -/
example : ∃ (g : Geodesic XR) (γ : ℝ → E3) (s α₁ : ℝ),
    inverse (new (ell "WGS 84" 6378137 6356752.314245)) (lonR 0, latR (1 / 2)) (lonR 1, latR (1 / 4)) = .ok g ∧
    g.s = lenR s ∧ 0 < s ∧ g.alpha1 = aziR α₁ ∧ IsGeodesic 6378137 6356752.314245 γ ∧
    γ 0 = surfacePoint 6378137 6356752.314245 0 (1 / 2) ∧
    ‖γ s - surfacePoint 6378137 6356752.314245 1 (1 / 4)‖ ≤ 2e-11 * s + 4e-8 := by
  have hc : ∀ x : ℝ, 0 ≤ x → x ≤ 1 → 0 < Real.cos x := fun x h0 h1 =>
    Real.cos_pos_of_mem_Ioo ⟨by linarith [Real.pi_gt_three], by linarith [Real.pi_gt_three]⟩
  have hs : ∀ x : ℝ, 0 < x → x ≤ 1 → 0 < Real.sin x := fun x h0 h1 =>
    Real.sin_pos_of_pos_of_lt_pi h0 (by linarith [Real.pi_gt_three])
  have hb : (0 : ℝ) < 6356752.314245 := by norm_num
  have hab : (6356752.314245 : ℝ) ≤ 6378137 := by norm_num
  have hf : (6378137 - 6356752.314245 : ℝ) / 6378137 ≤ 1 / 50 := by norm_num
  have c1 := hc (1 / 2) (by norm_num) (by norm_num)
  have c2 := hc (1 / 4) (by norm_num) (by norm_num)
  obtain ⟨β₁, e₁, -⟩ := reducedLatitude_all hb hab "WGS 84" (1 / 2)
  obtain ⟨β₂, e₂, -⟩ := reducedLatitude_all hb hab "WGS 84" (1 / 4)
  obtain ⟨r₁, -, -⟩ := reduced_of_eq hb hab c1.le e₁
  obtain ⟨r₂, -, -⟩ := reduced_of_eq hb hab c2.le e₂
  have k1 := reduced_cos_pos hb hab r₁ c1
  have k2 := reduced_cos_pos hb hab r₂ c2
  have s1 : 0 < Real.sin β₁ := by
    refine pos_of_mul_pos_right ?_ hb.le
    rw [← r₁.2]
    have := hs (1 / 2) (by norm_num) (by norm_num)
    positivity
  have s2 : 0 < Real.sin β₂ := by
    refine pos_of_mul_pos_right ?_ hb.le
    rw [← r₂.2]
    have := hs (1 / 4) (by norm_num) (by norm_num)
    positivity
  have hd : surfacePoint 6378137 6356752.314245 0 (1 / 2) ≠ surfacePoint 6378137 6356752.314245 1 (1 / 4) := by
    intro h
    rw [Bessel.surfacePoint_reduced r₁, Bessel.surfacePoint_reduced r₂] at h
    have := congrArg (fun v : E3 => v 1) h
    simp at this
    rcases this with h | h
    · exact k2.ne' h
    · exact (hs 1 (by norm_num) le_rfl).ne' h
  have h3 : (141 / 1000 : ℝ) ≤ Real.sin 3 := by
    have hp := Real.pi_gt_d4
    have hp' := Real.pi_lt_d4
    have := Real.sin_gt_sub_cube (x := Real.pi - 3) (by linarith)
    rw [Real.sin_pi_sub] at this
    have h2 : (Real.pi - 3) ^ 3 ≤ (1416 / 10000) ^ 3 := pow_le_pow_left₀ (by linarith) (by linarith) 3
    norm_num at h2 hp hp' ⊢
    linarith
  have hφ : ∀ x : ℝ, 0 ≤ x → x ≤ 1 → |x| < Real.pi / 2 := fun x h0 h1 => by
    rw [abs_of_nonneg h0]; linarith [Real.pi_gt_three]
  obtain ⟨g, γ, s, α₁, α₂, hg, hγ, g0, rfl, s0, -, -, -, -, w, -⟩ := C82_rapp_inverse_partial hb hab hf "WGS 84" 0 (1 / 2) 1
    (1 / 4) β₁ β₂ 3 (hφ _ (by norm_num) (by norm_num)) (hφ _ (by norm_num) (by norm_num)) e₁ e₂ hd
    Real.pi_gt_three (le_trans (by norm_num) h3) (by
      have : Real.arccos (Real.sin β₁ * Real.sin β₂ + Real.cos β₁ * Real.cos β₂ * Real.cos (1 - 0)) ≤ Real.pi / 2 := by
        rw [Real.arccos_le_pi_div_two]
        have := hc (1 - 0) (by norm_num) (by norm_num)
        positivity
      have hp := Real.pi_lt_d4
      generalize Real.arccos _ = q at this ⊢
      norm_num at hp ⊢
      linarith)
    (fun h => by have := hc (1 - 0) (by norm_num) (by norm_num); linarith)
  refine ⟨_, γ, s, α₁, hg, rfl, s0, rfl, hγ, g0, w.trans ?_⟩
  norm_num
  nlinarith

/-! ### Over the wrong pole -/

/-- The geodesics of the unit sphere are great circles. -/
theorem sphere_geodesic {γ : ℝ → E3} (h : IsGeodesic 1 1 γ) (t : ℝ) : γ t = Real.cos t • γ 0 + Real.sin t • deriv γ 0 := by
  have d1 : ∀ t, HasDerivAt γ (deriv γ t) t := fun t => (h.differentiable t).hasDerivAt
  have d2 : ∀ t, HasDerivAt (deriv γ) (-γ t) t := fun t => by
    have hd := (h.differentiable' t).hasDerivAt
    have n0 : ∀ s, inner ℝ (γ s) (γ s) = (1 : ℝ) := fun s => by
      have := h.surface s
      simp only [OnEllipsoid] at this
      rw [real_inner_self_eq_norm_sq, EuclideanSpace.norm_eq, Real.sq_sqrt (by positivity)]
      simp [Fin.sum_univ_three] at this ⊢
      linarith
    have n1 : ∀ s, inner ℝ (γ s) (deriv γ s) = (0 : ℝ) := fun s => by
      have e : HasDerivAt (fun s => (inner ℝ (γ s) (γ s) : ℝ)) (inner ℝ (γ s) (deriv γ s) + inner ℝ (deriv γ s) (γ s)) s :=
        (d1 s).inner ℝ (d1 s)
      have e' : HasDerivAt (fun s => (inner ℝ (γ s) (γ s) : ℝ)) 0 s := by
        rw [show (fun s => (inner ℝ (γ s) (γ s) : ℝ)) = fun _ => 1 from funext n0]
        exact hasDerivAt_const _ _
      have := e.unique e'
      rw [real_inner_comm (γ s)] at this
      linarith
    have n2 : inner ℝ (γ t) (deriv (deriv γ) t) = (-1 : ℝ) := by
      have e : HasDerivAt (fun s => (inner ℝ (γ s) (deriv γ s) : ℝ)) (inner ℝ (γ t) (deriv (deriv γ) t) +
        inner ℝ (deriv γ t) (deriv γ t)) t := (d1 t).inner ℝ hd
      have e' : HasDerivAt (fun s => (inner ℝ (γ s) (deriv γ s) : ℝ)) 0 t := by
        rw [show (fun s => (inner ℝ (γ s) (deriv γ s) : ℝ)) = fun _ => 0 from funext n1]
        exact hasDerivAt_const _ _
      have := e.unique e'
      rw [real_inner_self_eq_norm_sq, h.unit_speed] at this
      linarith
    obtain ⟨μ, hμ⟩ := h.normal t
    have e3 : (!₂[γ t 0 / 1 ^ 2, γ t 1 / 1 ^ 2, γ t 2 / 1 ^ 2] : E3) = γ t := by
      ext i
      fin_cases i <;> simp
    rw [e3] at hμ
    rw [hμ, inner_smul_right, n0, mul_one] at n2
    rw [hμ, n2, neg_one_smul] at hd
    exact hd
  have F : ∀ t, Real.cos t • γ t - Real.sin t • deriv γ t = γ 0 := fun t => by
    have := is_const_of_deriv_eq_zero (f := fun t => Real.cos t • γ t - Real.sin t • deriv γ t)
      (fun t => (((Real.hasDerivAt_cos t).smul (d1 t)).sub ((Real.hasDerivAt_sin t).smul (d2 t))).differentiableAt)
      (fun t => by
        refine (((Real.hasDerivAt_cos t).smul (d1 t)).sub ((Real.hasDerivAt_sin t).smul (d2 t))).deriv.trans ?_
        simp only [smul_neg, neg_smul, id]
        abel) t 0
    simpa using this
  have G : ∀ t, Real.sin t • γ t + Real.cos t • deriv γ t = deriv γ 0 := fun t => by
    have := is_const_of_deriv_eq_zero (f := fun t => Real.sin t • γ t + Real.cos t • deriv γ t)
      (fun t => (((Real.hasDerivAt_sin t).smul (d1 t)).add ((Real.hasDerivAt_cos t).smul (d2 t))).differentiableAt)
      (fun t => by
        refine (((Real.hasDerivAt_sin t).smul (d1 t)).add ((Real.hasDerivAt_cos t).smul (d2 t))).deriv.trans ?_
        simp only [smul_neg, neg_smul, id]
        abel) t 0
    simpa using this
  rw [← F t, ← G t, smul_sub, smul_add, smul_smul, smul_smul, smul_smul, smul_smul]
  have e := Real.sin_sq_add_cos_sq t
  have : γ t = (Real.cos t * Real.cos t + Real.sin t * Real.sin t) • γ t := by
    rw [show Real.cos t * Real.cos t + Real.sin t * Real.sin t = 1 by linarith, one_smul]
  nth_rewrite 1 [this]
  rw [add_smul, mul_comm (Real.sin t) (Real.cos t)]
  abel

theorem surfacePoint_sphere (l φ : ℝ) :
    surfacePoint 1 1 l φ = !₂[Real.cos φ * Real.cos l, Real.cos φ * Real.sin l, Real.sin φ] := by
  have e : (1 : ℝ) ^ 2 * Real.cos φ ^ 2 + 1 ^ 2 * Real.sin φ ^ 2 = 1 := by linarith [Real.sin_sq_add_cos_sq φ]
  simp only [surfacePoint, e, Real.sqrt_one]
  norm_num

/-- **C82** fails for points on opposite meridians whose nearer pole is not the one on the first point's side of the
equator: on the unit sphere, from 30° N to 60° S on the opposite meridian the shortest line goes over the south pole.
The distance returned is that of this line, but the azimuth returned points north.  Every geodesic that leaves the first
point with that azimuth is a whole radius away from the second point after the distance returned. -/
theorem C82_wrong_pole_violated (n : String) :
    ∃ g, inverse (new (ell n 1 1)) (lonR 0, latR (Real.pi / 6)) (lonR Real.pi, latR (-(Real.pi / 3))) = .ok g ∧
      g.alpha1 = aziR 0 ∧ g.s = lenR (5 * Real.pi / 6) ∧
      ∀ γ, IsGeodesic 1 1 γ → γ 0 = surfacePoint 1 1 0 (Real.pi / 6) → deriv γ 0 = direction 0 (Real.pi / 6) 0 →
        ‖γ (5 * Real.pi / 6) - surfacePoint 1 1 Real.pi (-(Real.pi / 3))‖ = 1 := by
  have hπ := Real.pi_pos
  have k1 : 0 < Real.cos (Real.pi / 6) := by rw [Real.cos_pi_div_six]; positivity
  have k2 : 0 < Real.cos (-(Real.pi / 3)) := by rw [Real.cos_neg, Real.cos_pi_div_three]; norm_num
  have h₁ : (ell n 1 1).reducedLatitude (latR (Real.pi / 6)) = ⟨fin (Real.pi / 6)⟩ := by
    rw [reducedLatitude_off one_pos le_rfl n k1, div_one, one_mul, Real.arctan_tan (by linarith) (by linarith)]
  have h₂ : (ell n 1 1).reducedLatitude (latR (-(Real.pi / 3))) = ⟨fin (-(Real.pi / 3))⟩ := by
    rw [reducedLatitude_off one_pos le_rfl n k2, div_one, one_mul, Real.arctan_tan (by linarith) (by linarith)]
  obtain ⟨r₁, -, -⟩ := reduced_of_eq one_pos le_rfl k1.le h₁
  obtain ⟨r₂, -, -⟩ := reduced_of_eq one_pos le_rfl k2.le h₂
  have e3 : Real.sqrt 3 ^ 2 = 3 := Real.sq_sqrt (by norm_num)
  have c56 : Real.cos (5 * Real.pi / 6) = -(Real.sqrt 3 / 2) := by
    rw [show 5 * Real.pi / 6 = Real.pi - Real.pi / 6 by ring, Real.cos_pi_sub, Real.cos_pi_div_six]
  have s56 : Real.sin (5 * Real.pi / 6) = 1 / 2 := by
    rw [show 5 * Real.pi / 6 = Real.pi - Real.pi / 6 by ring, Real.sin_pi_sub, Real.sin_pi_div_six]
  have hcs : Real.sin (Real.pi / 6) * Real.sin (-(Real.pi / 3)) + Real.cos (Real.pi / 6) * Real.cos (-(Real.pi / 3)) *
      Real.cos Real.pi = Real.cos (5 * Real.pi / 6) := by
    rw [c56, Real.sin_neg, Real.cos_neg, Real.sin_pi_div_six, Real.sin_pi_div_three, Real.cos_pi_div_six,
      Real.cos_pi_div_three, Real.cos_pi]
    ring
  have harc : arc (Real.pi / 6) (-(Real.pi / 3)) Real.pi = 5 * Real.pi / 6 := by
    rw [arc_eq_arccos, csig, hcs, Real.arccos_cos (by linarith) (by linarith)]
  have hd : surfacePoint 1 1 0 (Real.pi / 6) ≠ surfacePoint 1 1 Real.pi (-(Real.pi / 3)) := fun e => by
    have h2 := congrArg (fun v : E3 => v 2) e
    simp only [surfacePoint_sphere] at h2
    simp at h2
    linarith [Real.sqrt_nonneg 3]
  have hnorm : normR (Real.pi - 0) = Real.pi := by rw [sub_zero]; exact normR_id (by linarith) le_rfl
  have f0 : ((1 : ℝ) - 1) / 1 = 0 := by norm_num
  obtain ⟨st, hst, l, l', hs, hr, hl', hlt, hsign⟩ := rapp_inverse_loop one_pos le_rfl (by norm_num) n (l₁ := 0)
    (l₂ := Real.pi) (M := 5 * Real.pi / 6) r₁ r₂ k1.le k2.le hd (by linarith) (by rw [f0, s56]; norm_num)
    (by rw [sub_zero, hcs, Real.arccos_cos (by linarith) (by linarith), f0]; linarith)
  rw [hnorm] at hr hl' hsign
  have hl : l = Real.pi ∧ l' = Real.pi := by
    rcases hsign with ⟨_, h, _⟩ | ⟨h, _⟩ | ⟨h, _⟩ | ⟨_, h⟩
    · exact absurd h (lt_irrefl _)
    · linarith
    · linarith
    · exact h
  obtain ⟨rfl, hll⟩ := hl
  have hα : salpha (Real.pi / 6) (-(Real.pi / 3)) Real.pi = 0 := by rw [salpha, Real.sin_pi]; simp
  obtain ⟨s, hlen, hsb⟩ := rapp_inverse_length one_pos (a := 1) n (F := 0) (m := 5 * Real.pi / 6) hr hs (by norm_num)
    (fun _ => by
      rw [harc, hα, c56, Real.sin_neg, Real.sin_pi_div_six, Real.sin_pi_div_three,
        show 2 * (5 * Real.pi / 6) + 5 * Real.pi / 6 = Real.pi / 2 + 2 * Real.pi by ring, Real.cos_add_two_pi,
        Real.cos_pi_div_two]
      ring)
  have hs56 : s = 5 * Real.pi / 6 := by
    rw [Bessel.rappF_eq, Bessel.rappF_eq, harc] at hsb
    norm_num [Bessel.rappH, rappB0, rappB2, rappB4, rappB6] at hsb
    linarith
  have n0 : (st.lambda ==. 0) = false := by
    rw [hr.lambda, ← hl', hll, zero_eq, eq_fin]; exact decide_eq_false Real.pi_ne_zero
  have n1 : (st.lambda ==. Flt.pi) = true := by rw [hr.lambda, ← hl', hll, pi_eq, eq_fin]; exact decide_eq_true rfl
  have hle : (Lat.ZERO : Lat XR).le (latR (Real.pi / 6)) = true := by
    have : (Lat.ZERO : Lat XR).le (latR (Real.pi / 6)) = decide (0 ≤ Real.pi / 6) := by rw [← le_fin, ← zero_eq]; rfl
    rw [this]; exact decide_eq_true (by linarith)
  refine ⟨_, by rw [rapp_inverse_eq n 0 _ Real.pi _ _ _ h₁ h₂, hst]; rfl, ?_, ?_, fun γ hγ g0 g1 => ?_⟩
  · simp only [rappAlphas, n0, n1, hle, Bool.false_eq_true, if_false, if_true, angle_new_rad]
    rw [zero_eq, angle_new_rad, azi_new_fin, normR_id (by linarith) (by linarith)]
  · simp only [hlen, hs56]
  · rw [sphere_geodesic hγ, g0, g1, c56, s56, EuclideanSpace.norm_eq]
    rw [show (1 : ℝ) = Real.sqrt 1 by rw [Real.sqrt_one]]
    congr 1
    simp [Fin.sum_univ_three, surfacePoint_sphere, direction, Real.sin_pi_div_six, Real.sin_pi_div_three, Real.cos_pi_div_six,
      Real.cos_pi_div_three, Real.cos_pi, Real.sin_pi]
    nlinarith

end Geo
