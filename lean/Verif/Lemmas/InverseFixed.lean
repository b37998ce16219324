import Verif.Props.InverseGeodesicExact

/-! The inverse solver of Vincenty finds the longitude difference that solves his equation. -/

namespace Geo
open XR Spec VincentyGeodesicSolver

/-- `loop_real`, on a set that the iterations do not leave. -/
theorem loop_real_in (f β₁ β₂ L : ℝ) (I : Set ℝ) (hI : ∀ l ∈ I, ∀ c₀, Real.sin (arc β₁ β₂ l) ≠ 0 →
      vincentyExcess f (salpha β₁ β₂ l) (arc β₁ β₂ l) (mid β₁ β₂ l c₀) + L ∈ I)
    (msg : String) (n : ℕ) (l c₀ : ℝ) (st r : InverseState XR) (hl : l ∈ I)
    (h1 : st.lambda = fin l) (h2 : st.sin_lambda = fin (Real.sin l)) (h3 : st.cos_lambda = fin (Real.cos l))
    (h4 : st.cos_2_sigma_m = fin c₀)
    (h : loopMax (inverseStep (fin f) (fin (Real.sin β₁)) (fin (Real.cos β₁)) (fin (Real.sin β₂)) (fin (Real.cos β₂))
      (fin L)) inverseDone msg n st = .ok r) :
    ∃ p c, p ∈ I ∧ Real.sin (arc β₁ β₂ p) ≠ 0 ∧
      RealState r (vincentyExcess f (salpha β₁ β₂ p) (arc β₁ β₂ p) (mid β₁ β₂ p c) + L) p (1 - salpha β₁ β₂ p ^ 2)
        (arc β₁ β₂ p) (mid β₁ β₂ p c) ∧
      |vincentyExcess f (salpha β₁ β₂ p) (arc β₁ β₂ p) (mid β₁ β₂ p c) + L - p| < 1e-12 := by
  induction n generalizing l c₀ st with
  | zero => cases h
  | succ n ih =>
    rw [loopMax] at h
    by_cases hs : Real.sin (arc β₁ β₂ l) = 0
    · have hn := inverseStep_coincident f β₁ β₂ L l st hs h2 h3
      simp only [inverseDone_nan _ hn, Bool.false_eq_true, if_false, loopMax_nan _ _ _ _ _ _ _ hn] at h
      cases h
    · have hr := inverseStep_real f β₁ β₂ L l c₀ st hs h1 h2 h3 h4
      simp only [inverseDone_real hr] at h
      split at h
      · rename_i hd
        cases h
        exact ⟨l, c₀, hl, hs, hr, by simpa using hd⟩
      · exact ih _ _ _ (hI l hl c₀ hs) hr.lambda hr.sin_lambda hr.cos_lambda hr.mid h

/-- The sign of the excess at a solution. -/
theorem fixed_sign {L lam X : ℝ} (hL : -Real.pi ≤ L) (hL' : L ≤ Real.pi) (hlam : lam = L + X) (hX : |X| ≤ 1 / 10)
    (hp : 0 ≤ Real.sin lam → 0 ≤ X) (hn : Real.sin lam ≤ 0 → X ≤ 0) (h9 : |X| ≤ 1 / 9 * |Real.sin lam|) :
    (0 ≤ Real.sin L → 0 ≤ X) ∧ (Real.sin L ≤ 0 → X ≤ 0) := by
  have p3 := Real.pi_gt_three
  obtain ⟨x1, x2⟩ := abs_le.1 hX
  have h10 : |X| ≤ 1 / 9 * |lam| := h9.trans (by have := Real.abs_sin_le_abs (x := lam); linarith)
  have neg : ∀ x, 0 < x → x < Real.pi → 0 < Real.sin x := fun x h h' => Real.sin_pos_of_pos_of_lt_pi h h'
  constructor
  · intro h
    by_contra hc
    push Not at hc
    have hs : Real.sin lam < 0 := by
      by_contra h0
      exact absurd (hp (not_lt.1 h0)) (not_le.2 hc)
    rw [abs_of_neg hc] at h10
    rcases lt_or_ge L 0 with h0 | h0
    · -- then `L = -π`
      have : L = -Real.pi := by
        by_contra hne
        have := neg (-L) (by linarith) (by rcases lt_or_eq_of_le hL with h | h; · linarith
                                           · exact absurd h.symm hne)
        rw [Real.sin_neg] at this
        linarith
      have h5 := neg (lam + 2 * Real.pi) (by linarith) (by linarith)
      rw [Real.sin_add_two_pi] at h5
      linarith
    · rcases lt_trichotomy lam 0 with h6 | h6 | h6
      · rw [abs_of_neg h6] at h10
        linarith
      · rw [h6, Real.sin_zero] at hs
        exact lt_irrefl _ hs
      · have := neg lam h6 (by linarith)
        linarith
  · intro h
    by_contra hc
    push Not at hc
    have hs : 0 < Real.sin lam := by
      by_contra h0
      exact absurd (hn (not_lt.1 h0)) (not_le.2 hc)
    rw [abs_of_pos hc] at h10
    rcases lt_or_ge 0 L with h0 | h0
    · have : L = Real.pi := by
        by_contra hne
        have := neg L h0 (lt_of_le_of_ne hL' hne)
        linarith
      have h5 := neg (lam - Real.pi) (by linarith) (by linarith)
      rw [Real.sin_sub_pi] at h5
      linarith
    · rcases lt_trichotomy lam 0 with h6 | h6 | h6
      · have := neg (-lam) (by linarith) (by linarith)
        rw [Real.sin_neg] at this
        linarith
      · rw [h6, Real.sin_zero] at hs
        exact lt_irrefl _ hs
      · rw [abs_of_pos h6] at h10
        linarith

/-- The excess against the sine of the longitude difference. -/
theorem excess_sin {f β₁ β₂ l M c₀ : ℝ} (f0 : 0 ≤ f) (f1 : f ≤ 1 / 50) (h : Real.sin (arc β₁ β₂ l) ≠ 0)
    (hM : M < Real.pi) (hM' : 10 * f * M ≤ Real.sin M) (hle : arc β₁ β₂ l ≤ M) :
    |vincentyExcess f (salpha β₁ β₂ l) (arc β₁ β₂ l) (mid β₁ β₂ l c₀)| ≤ 1 / 9 * |Real.sin l| := by
  rw [excess_exc f β₁ β₂ l c₀ h, exc, abs_mul, abs_of_nonneg f0]
  obtain ⟨g', -, hr0, -⟩ := vinR_bd f0 f1 h
  have hp := sin_arc_pos h
  have hσ : 0 < arc β₁ β₂ l := lt_of_le_of_ne (arc_nonneg _ _ _) fun e => h (by rw [← e, Real.sin_zero])
  have hS := Real.sin_pos_of_pos_of_lt_pi (hσ.trans_le hle) hM
  have hρ := arc_ratio hσ hle hM
  have k0 : 0 ≤ 1 - salpha β₁ β₂ l ^ 2 := sub_nonneg.2 (salpha_sq_le _ _ _ h)
  have k1 : 1 - salpha β₁ β₂ l ^ 2 ≤ 1 := by linarith [sq_nonneg (salpha β₁ β₂ l)]
  obtain ⟨A0, A1, -⟩ := vinA_facts f0 f1 _ k0 k1
  have hN := salpha_mul h
  have hsa : salpha β₁ β₂ l * arc β₁ β₂ l = Real.cos β₁ * Real.cos β₂ * Real.sin l * (arc β₁ β₂ l / Real.sin (arc β₁ β₂ l)) := by
    rw [← hN]; field_simp
  have hNl : |Real.cos β₁ * Real.cos β₂ * Real.sin l| ≤ |Real.sin l| := by
    rw [abs_mul, abs_mul]
    exact mul_le_of_le_one_left (abs_nonneg _) (mul_le_one₀ (Real.abs_cos_le_one _) (abs_nonneg _) (Real.abs_cos_le_one _))
  rw [hsa, mul_assoc, ← mul_add, abs_mul]
  set ρ := arc β₁ β₂ l / Real.sin (arc β₁ β₂ l)
  have ρ0 : 0 ≤ ρ := by positivity
  have hin : |ρ * (1 - vinKap f (1 - salpha β₁ β₂ l ^ 2) * (1 - salpha β₁ β₂ l ^ 2)) + vinR f β₁ β₂ l| ≤ M / Real.sin M + 1 / 50 := by
    refine (abs_add_le _ _).trans (add_le_add ?_ hr0)
    rw [abs_mul, abs_of_nonneg ρ0, abs_of_nonneg (by linarith)]
    calc ρ * _ ≤ ρ * 1 := mul_le_mul_of_nonneg_left A1 ρ0
      _ = ρ := mul_one _
      _ ≤ _ := hρ
  have hq : f * (M / Real.sin M) ≤ 1 / 10 := by
    rw [mul_div_assoc', div_le_iff₀ hS]; linarith
  calc f * (|Real.cos β₁ * Real.cos β₂ * Real.sin l| * _) ≤ f * (|Real.sin l| * (M / Real.sin M + 1 / 50)) := by gcongr
    _ = (f * (M / Real.sin M) + f / 50) * |Real.sin l| := by ring
    _ ≤ _ := mul_le_mul_of_nonneg_right (by linarith) (abs_nonneg _)

/-- If the longitude difference `lam` solves Vincenty's equation for an arc that is not too long, the inverse solver
returns, and its last two longitude differences `l`, `l'` are close to `lam`. -/
theorem inverse_fixed {a b : ℝ} (hb : 0 < b) (hab : b ≤ a) (hf : (a - b) / a ≤ 1 / 50) (n : String)
    {l₁ φ₁ l₂ φ₂ β₁ β₂ M lam c₁ : ℝ} (c0 : 0 < Real.cos β₁) (c2 : 0 ≤ Real.cos β₂)
    (h₁ : (ell n a b).reducedLatitude (latR φ₁) = ⟨fin β₁⟩) (h₂ : (ell n a b).reducedLatitude (latR φ₂) = ⟨fin β₂⟩)
    (hM : M < Real.pi) (hM' : 10 * ((a - b) / a) * M ≤ Real.sin M) (hne : Real.sin (arc β₁ β₂ lam) ≠ 0)
    (hσ : arc β₁ β₂ lam + 8 * ((a - b) / a) ≤ M)
    (hlam : lam = normR (l₂ - l₁) + vincentyExcess ((a - b) / a) (salpha β₁ β₂ lam) (arc β₁ β₂ lam) (mid β₁ β₂ lam c₁)) :
    ∃ l l' c : ℝ, Real.sin (arc β₁ β₂ l) ≠ 0 ∧ arc β₁ β₂ l ≤ M ∧ |l - lam| ≤ 15e-13 ∧ |l' - lam| ≤ 5e-13 ∧
      inverse ⟨ell n a b⟩ (lonR l₁, latR φ₁) (lonR l₂, latR φ₂) = .ok
        ⟨(lonR l₁, latR φ₁), aziR (Complex.arg ⟨Real.cos β₁ * Real.sin β₂ - Real.sin β₁ * Real.cos β₂ * Real.cos l',
          Real.cos β₂ * Real.sin l'⟩), (lonR l₂, latR φ₂),
          aziR (Complex.arg ⟨-Real.sin β₁ * Real.cos β₂ + Real.cos β₁ * Real.sin β₂ * Real.cos l', Real.cos β₁ * Real.sin l'⟩),
          lenR (vincentyLength a b (salpha β₁ β₂ l) (arc β₁ β₂ l) (mid β₁ β₂ l c))⟩ := by
  have ha : 0 < a := lt_of_lt_of_le hb hab
  have f0 : 0 ≤ (a - b) / a := div_nonneg (by linarith) ha.le
  have c1 := c0.le
  set L := normR (l₂ - l₁) with hLd
  set f := (a - b) / a with hfd
  set A := fun k => 1 - vinKap f k * k with hA
  have hexc : ∀ l c₀, Real.sin (arc β₁ β₂ l) ≠ 0 →
      vincentyExcess f (salpha β₁ β₂ l) (arc β₁ β₂ l) (mid β₁ β₂ l c₀) = f * exc β₁ β₂ A (vinR f β₁ β₂) l :=
    fun l c₀ h => excess_exc f β₁ β₂ l c₀ h
  have hbd : ∀ l, Real.sin (arc β₁ β₂ l) ≠ 0 → |f * exc β₁ β₂ A (vinR f β₁ β₂) l| ≤ 4 * f ∧
      (0 ≤ Real.sin l → 0 ≤ f * exc β₁ β₂ A (vinR f β₁ β₂) l) ∧ (Real.sin l ≤ 0 → f * exc β₁ β₂ A (vinR f β₁ β₂) l ≤ 0) := by
    intro l hl
    obtain ⟨g', -, hr0, -⟩ := vinR_bd f0 hf hl
    obtain ⟨z1, z2, z3⟩ := exc_bound hl c1 c2 (fun k k0 k1 => ⟨(vinA_facts f0 hf k k0 k1).1, (vinA_facts f0 hf k k0 k1).2.1⟩) hr0
    refine ⟨?_, fun h => mul_nonneg f0 (z2 h), fun h => mul_nonpos_of_nonneg_of_nonpos f0 (z3 h)⟩
    rw [abs_mul, abs_of_nonneg f0]
    nlinarith
  have hX9 := excess_sin (c₀ := c₁) f0 hf hne hM hM' (by linarith)
  rw [hexc _ _ hne] at hlam hX9
  obtain ⟨x1, x2, x3⟩ := hbd lam hne
  set X := f * exc β₁ β₂ A (vinR f β₁ β₂) lam with hX
  have hσ' : arc β₁ β₂ L + 4 * f ≤ M := by
    have := arc_lip β₁ β₂ L lam
    rw [show L - lam = -X by rw [hlam]; ring, abs_neg] at this
    linarith
  obtain ⟨y1, y2⟩ := fixed_sign (lt_normR (l₂ - l₁)).le (normR_le _) hlam (by linarith) x2 x3 hX9
  have hd' : arc β₁ β₂ L ≠ 0 := by
    intro h0
    have hc := cos_arc β₁ β₂ L
    rw [h0, Real.cos_zero, csig] at hc
    have q1 := Real.sin_sq_add_cos_sq β₁
    have q2 := Real.sin_sq_add_cos_sq β₂
    have hLc := Real.cos_le_one L
    have hm := mul_nonneg (mul_nonneg c1 c2) (sub_nonneg.2 hLc)
    have e1 : (Real.sin β₁ - Real.sin β₂) ^ 2 + (Real.cos β₁ - Real.cos β₂) ^ 2 +
        2 * (Real.cos β₁ * Real.cos β₂ * (1 - Real.cos L)) = 0 := by linear_combination q1 + q2 + 2 * hc
    have e2 : Real.cos β₁ = Real.cos β₂ := by nlinarith [sq_nonneg (Real.sin β₁ - Real.sin β₂), sq_nonneg (Real.cos β₁ - Real.cos β₂)]
    have e3 : Real.cos β₁ * Real.cos β₂ * (1 - Real.cos L) = 0 := by
      nlinarith [sq_nonneg (Real.sin β₁ - Real.sin β₂), sq_nonneg (Real.cos β₁ - Real.cos β₂)]
    rw [← e2] at e3
    have e4 : 1 - Real.cos L = 0 := (mul_eq_zero.1 e3).resolve_left (by positivity)
    have e5 : Real.sin L = 0 := by
      have := Real.sin_sq_add_cos_sq L
      rw [show Real.cos L = 1 by linarith] at this
      nlinarith
    have e6 : X = 0 := le_antisymm (y2 e5.le) (y1 e5.ge)
    rw [e6, add_zero] at hlam
    rw [hlam, h0, Real.sin_zero] at hne
    exact hne rfl
  obtain ⟨lo, hi, hL, hdom, hinv⟩ := exists_domain c1 c2 (lt_normR _).le (normR_le _) f0 hf hM hσ' hd'
  have hlamI : lam ∈ Set.Icc lo hi := by
    rw [hlam]; exact hinv L hL X x1 y1 y2
  have hMp : 0 < M := lt_of_lt_of_le (lt_of_le_of_ne (arc_nonneg _ _ _) hd'.symm) (by linarith)
  have hS := Real.sin_pos_of_pos_of_lt_pi hMp hM
  have hq : f * (31 / 10 * (M / Real.sin M)) ≤ 31 / 100 := by
    have : f * M / Real.sin M ≤ 1 / 10 := by rw [div_le_iff₀ hS]; linarith
    calc f * (31 / 10 * (M / Real.sin M)) = 31 / 10 * (f * M / Real.sin M) := by ring
      _ ≤ _ := by linarith
  have hlip : ∀ x ∈ Set.Icc lo hi, ∀ y ∈ Set.Icc lo hi, |f * exc β₁ β₂ A (vinR f β₁ β₂) y - f * exc β₁ β₂ A (vinR f β₁ β₂) x| ≤
      31 / 100 * |y - x| := fun x hx y hy => by
    rw [← mul_sub, abs_mul, abs_of_nonneg f0]
    have := exc_lip (A := A) (Set.Icc lo hi) (convex_Icc _ _) hM hdom (vinA_deriv f)
      (fun k k0 k1 => abs_le.2 ⟨by linarith [(vinA_facts f0 hf k k0 k1).1], (vinA_facts f0 hf k k0 k1).2.1⟩)
      (fun k k0 k1 => (vinA_facts f0 hf k k0 k1).2.2) (fun l hl => vinR_bd f0 hf (hdom l hl).1) hx hy
    calc f * _ ≤ f * (31 / 10 * (M / Real.sin M) * |y - x|) := mul_le_mul_of_nonneg_left this f0
      _ = f * (31 / 10 * (M / Real.sin M)) * |y - x| := by ring
      _ ≤ _ := mul_le_mul_of_nonneg_right hq (abs_nonneg _)
  have hin : ∀ l ∈ Set.Icc lo hi, L + f * exc β₁ β₂ A (vinR f β₁ β₂) l ∈ Set.Icc lo hi := fun l hl => by
    obtain ⟨z1, z2, z3⟩ := hbd l (hdom l hl).1
    exact hinv l hl _ z1 z2 z3
  obtain ⟨st, hst⟩ := inverseLoop_ends (f := f) (β₁ := β₁) (β₂ := β₂) (L := L) (q := 31 / 100)
    (E := fun l => f * exc β₁ β₂ A (vinR f β₁ β₂) l) (by norm_num) (fun l hl => (hdom l hl).1)
    (fun l hl c₀ => hexc l c₀ (hdom l hl).1) hin hlip notConverging 29 (4 / 50) L 0 (inverseInit (fin L)) hL rfl rfl rfl zero_eq (by
      rw [add_sub_cancel_right]
      exact (hbd L (hdom L hL).1).1.trans (by linarith)) (by norm_num)
  obtain ⟨p, c, hpI, hs, hr, hlt⟩ := loop_real_in f β₁ β₂ L (Set.Icc lo hi) (fun l hl c₀ h => by
    rw [hexc l c₀ h, add_comm]; exact hin l hl) notConverging 30 L 0 (inverseInit (fin L)) st hL rfl rfl rfl zero_eq hst
  set l' := vincentyExcess f (salpha β₁ β₂ p) (arc β₁ β₂ p) (mid β₁ β₂ p c) + L with hl'
  have e1 : |l' - lam| ≤ 31 / 100 * |p - lam| := by
    rw [hl', hexc p c hs, hlam, add_comm, add_sub_add_left_eq_sub, ← hlam]
    exact hlip lam hlamI p hpI
  have e2 : |p - lam| ≤ |p - l'| + |l' - lam| := abs_sub_le _ _ _
  rw [abs_sub_comm] at hlt
  have e3 : |p - lam| ≤ 15e-13 := by
    norm_num at hlt ⊢
    linarith
  refine ⟨p, l', c, hs, (hdom p hpI).2, e3, ?_, ?_⟩
  · norm_num at e3 ⊢
    linarith
  · rw [inverse_eq hb hab n l₁ φ₁ l₂ φ₂ β₁ β₂ h₁ h₂]
    simp only [← hLd, ← hfd, hst]
    have i1 := inverseLength_real (a := a) hb n hr
    simp only [ok_bind, hr.sin_lambda, hr.cos_lambda, mul_fin, add_fin, sub_fin, neg_fin, atan2_fin, angle_new_rad, azi_new_fin,
      normR_id (Complex.neg_pi_lt_arg _) (Complex.arg_le_pi _), i1]

end Geo
