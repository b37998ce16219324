import Verif.Props.TransverseInverseF64
import Verif.Props.TransverseMercatorRoundTrip
import Verif.Props.Conditioning

/-! The transverse Mercator round trip in IEEE arithmetic: distances on the ellipsoid, and the range of the plane coordinates. -/

namespace Geo
open XR Spec Geo.Frame Conf

theorem rho_le {a b : ℝ} (hb : 0 < b) (hab : b ≤ a) (φ : ℝ) : rho a b φ ≤ a ^ 2 / b := by
  have ha : 0 < a := lt_of_lt_of_le hb hab
  have h := Real.sin_sq_add_cos_sq φ
  have hq : b ^ 2 ≤ a ^ 2 * Real.cos φ ^ 2 + b ^ 2 * Real.sin φ ^ 2 := by
    have : b ^ 2 ≤ a ^ 2 := pow_le_pow_left₀ hb.le hab 2
    nlinarith [sq_nonneg (Real.cos φ)]
  have hs : b ≤ Real.sqrt (a ^ 2 * Real.cos φ ^ 2 + b ^ 2 * Real.sin φ ^ 2) := Real.le_sqrt_of_sq_le hq
  have hc : b ^ 3 ≤ Real.sqrt (a ^ 2 * Real.cos φ ^ 2 + b ^ 2 * Real.sin φ ^ 2) ^ 3 := pow_le_pow_left₀ hb.le hs 3
  rw [rho, div_le_div_iff₀ (lt_of_lt_of_le (by positivity) hc) hb]
  have : a ^ 2 * b ^ 2 * b = a ^ 2 * b ^ 3 := by ring
  rw [this]
  exact mul_le_mul_of_nonneg_left hc (by positivity)

theorem rpar_le {a b φ : ℝ} (hb : 0 < b) (hab : b ≤ a) (hc : 0 ≤ Real.cos φ) : a * Real.cos φ ≤ rpar a b φ ∧ rpar a b φ ≤ a ^ 2 / b * Real.cos φ := by
  have ha : 0 < a := lt_of_lt_of_le hb hab
  have h := Real.sin_sq_add_cos_sq φ
  have hle : b ^ 2 ≤ a ^ 2 := pow_le_pow_left₀ hb.le hab 2
  have hq : b ^ 2 ≤ a ^ 2 * Real.cos φ ^ 2 + b ^ 2 * Real.sin φ ^ 2 := by nlinarith [sq_nonneg (Real.cos φ)]
  have hq' : a ^ 2 * Real.cos φ ^ 2 + b ^ 2 * Real.sin φ ^ 2 ≤ a ^ 2 := by nlinarith [sq_nonneg (Real.sin φ)]
  have hs : b ≤ Real.sqrt (a ^ 2 * Real.cos φ ^ 2 + b ^ 2 * Real.sin φ ^ 2) := Real.le_sqrt_of_sq_le hq
  have hs' : Real.sqrt (a ^ 2 * Real.cos φ ^ 2 + b ^ 2 * Real.sin φ ^ 2) ≤ a := Real.sqrt_le_iff.2 ⟨ha.le, hq'⟩
  unfold rpar
  generalize Real.sqrt (a ^ 2 * Real.cos φ ^ 2 + b ^ 2 * Real.sin φ ^ 2) = r at *
  have hr : 0 < r := lt_of_lt_of_le hb hs
  refine ⟨mul_le_mul_of_nonneg_right ?_ hc, mul_le_mul_of_nonneg_right ?_ hc⟩
  · rw [le_div_iff₀ hr]; nlinarith
  · exact div_le_div_of_nonneg_left (by positivity) hb hs

theorem surfacePoint_lat {a b l φ φ' : ℝ} (hb : 0 < b) (hab : b ≤ a) :
    ‖surfacePoint a b l φ' - surfacePoint a b l φ‖ ≤ a ^ 2 / b * |φ' - φ| := by
  have ha : 0 < a := lt_of_lt_of_le hb hab
  have := Convex.norm_image_sub_le_of_norm_hasDerivWithin_le (f := fun t => surfacePoint a b l t) (s := Set.univ) (x := φ) (y := φ')
    (f' := fun t => rho a b t • direction l t 0) (C := a ^ 2 / b) (fun t _ => (deriv_lat ha hb l t).hasDerivWithinAt)
    (fun t _ => by
      rw [norm_smul, norm_direction_zero, mul_one, Real.norm_eq_abs, abs_of_pos (rho_pos ha hb t)]
      exact rho_le hb hab t) convex_univ (Set.mem_univ _) (Set.mem_univ _)
  simpa [Real.norm_eq_abs] using this

theorem norm_direction_east (l φ : ℝ) : ‖direction l φ (Real.pi / 2)‖ = 1 := by
  rw [EuclideanSpace.norm_eq, Real.sqrt_eq_one]
  simp [direction, Fin.sum_univ_three]

theorem surfacePoint_lon {a b l l' φ : ℝ} (hb : 0 < b) (hab : b ≤ a) (hc : 0 ≤ Real.cos φ) :
    ‖surfacePoint a b l' φ - surfacePoint a b l φ‖ ≤ a ^ 2 / b * (|l' - l| * Real.cos φ) := by
  have ha : 0 < a := lt_of_lt_of_le hb hab
  obtain ⟨r1, r2⟩ := rpar_le hb hab hc
  have r0 : 0 ≤ rpar a b φ := le_trans (by positivity) r1
  have := Convex.norm_image_sub_le_of_norm_hasDerivWithin_le (f := fun t => surfacePoint a b t φ) (s := Set.univ) (x := l) (y := l')
    (f' := fun t => rpar a b φ • direction t φ (Real.pi / 2)) (C := a ^ 2 / b * Real.cos φ) (fun t _ => (deriv_lon a b t φ).hasDerivWithinAt)
    (fun t _ => by
      rw [norm_smul, norm_direction_east, mul_one, Real.norm_eq_abs, abs_of_nonneg r0]
      exact r2) convex_univ (Set.mem_univ _) (Set.mem_univ _)
  simp only [Real.norm_eq_abs] at this
  rw [mul_comm |l' - l|, ← mul_assoc]
  exact this

/-- The distance of a point from another meridian plane. -/
theorem surfacePoint_plane {a b l l' φ φ' : ℝ} :
    rpar a b φ * |Real.sin (l' - l)| ≤ ‖surfacePoint a b l' φ' - surfacePoint a b l φ‖ ∨ rpar a b φ < 0 := by
  by_cases h : rpar a b φ < 0
  · exact Or.inr h
  left
  push Not at h
  have e : rpar a b φ * |Real.sin (l' - l)| = |rpar a b φ * Real.sin (l' - l)| := by rw [abs_mul, abs_of_nonneg h]
  rw [e, EuclideanSpace.norm_eq]
  apply Real.abs_le_sqrt
  have e1 : (surfacePoint a b l' φ' - surfacePoint a b l φ).ofLp 0 = rpar a b φ' * Real.cos l' - rpar a b φ * Real.cos l := by
    simp [surfacePoint, rpar]
  have e2 : (surfacePoint a b l' φ' - surfacePoint a b l φ).ofLp 1 = rpar a b φ' * Real.sin l' - rpar a b φ * Real.sin l := by
    simp [surfacePoint, rpar]
  rw [Fin.sum_univ_three, Real.norm_eq_abs, Real.norm_eq_abs, Real.norm_eq_abs, sq_abs, sq_abs, sq_abs, e1, e2, Real.sin_sub]
  generalize rpar a b φ = r at *
  generalize rpar a b φ' = r' at *
  have k1 := Real.sin_sq_add_cos_sq l'
  generalize Real.sin l' = s' at *
  generalize Real.cos l' = c' at *
  have : (r * (s' * Real.cos l - c' * Real.sin l)) ^ 2 = ((r' * c' - r * Real.cos l) ^ 2 + (r' * s' - r * Real.sin l) ^ 2) * (s' ^ 2 + c' ^ 2)
      - ((r' * c' - r * Real.cos l) * c' + (r' * s' - r * Real.sin l) * s') ^ 2 := by ring
  rw [this, k1]
  nlinarith [sq_nonneg ((r' * c' - r * Real.cos l) * c' + (r' * s' - r * Real.sin l) * s'),
    sq_nonneg ((surfacePoint a b l' φ' - surfacePoint a b l φ).ofLp 2)]

theorem surfacePoint_turn (a b l φ : ℝ) (n : ℤ) : surfacePoint a b (l - n * (2 * Real.pi)) φ = surfacePoint a b l φ := by
  simp [surfacePoint, Real.cos_sub_int_mul_two_pi, Real.sin_sub_int_mul_two_pi]

/-! ### Range of the plane coordinates -/

theorem tmh_flat {n : ℝ} (h0 : 0 ≤ n) (h1 : n ≤ 0.002507) :
    |tmh0 n| ≤ 1.26e-3 ∧ |tmh1 n| ≤ 2e-6 ∧ |tmh2 n| ≤ 1e-7 ∧ |tmh3 n| ≤ 1e-7 := by
  have p2 : n ^ 2 ≤ 0.002507 ^ 2 := pow_le_pow_left₀ h0 h1 2
  have p3 : n ^ 3 ≤ 0.002507 ^ 3 := pow_le_pow_left₀ h0 h1 3
  have p4 : n ^ 4 ≤ 0.002507 ^ 4 := pow_le_pow_left₀ h0 h1 4
  have q2 : 0 ≤ n ^ 2 := by positivity
  have q3 : 0 ≤ n ^ 3 := by positivity
  have q4 : 0 ≤ n ^ 4 := by positivity
  unfold tmh0 tmh1 tmh2 tmh3
  generalize n ^ 2 = a2 at *
  generalize n ^ 3 = a3 at *
  generalize n ^ 4 = a4 at *
  refine ⟨?_, ?_, ?_, ?_⟩ <;> rw [abs_le] <;> constructor <;> norm_num at * <;> linarith

theorem hyp_pow {η : ℝ} {k : ℕ} (h : Real.exp (2 * |η|) ≤ 2.85) :
    Real.cosh (2 * k * η) ≤ 2.85 ^ k ∧ |Real.sinh (2 * k * η)| ≤ 2.85 ^ k := by
  have h1 : Real.exp |2 * k * η| ≤ 2.85 ^ k := by
    rw [abs_mul, abs_of_nonneg (by positivity), show 2 * (k : ℝ) * |η| = k * (2 * |η|) by ring, Real.exp_nat_mul]
    exact pow_le_pow_left₀ (Real.exp_pos _).le h k
  have h2 : Real.cosh (2 * k * η) ≤ 2.85 ^ k := by
    rw [← Real.cosh_abs]
    refine le_trans ?_ h1
    rw [Real.cosh_eq]
    have : Real.exp (-|2 * k * η|) ≤ Real.exp |2 * k * η| := Real.exp_le_exp.2 (by linarith [abs_nonneg (2 * k * η)])
    linarith
  refine ⟨h2, le_trans ?_ h2⟩
  rw [← Real.cosh_abs, Real.abs_sinh]
  exact (Real.sinh_lt_cosh _).le

theorem term_le {h t c H C : ℝ} (a : |h| ≤ H) (b : |t| ≤ 1) (d : |c| ≤ C) : |h * t * c| ≤ H * C := by
  rw [abs_mul, abs_mul]
  have := abs_nonneg h
  have := abs_nonneg c
  have := abs_nonneg t
  exact mul_le_mul (by nlinarith) d (by positivity) (by linarith)

theorem sums_le {n ξ η : ℝ} (h0 : 0 ≤ n) (h1 : n ≤ 0.002507) (he : Real.exp (2 * |η|) ≤ 2.85) (hc : Real.cosh (2 * η) ≤ 1.6) :
    |sSC (tmh0 n) (tmh1 n) (tmh2 n) (tmh3 n) ξ η| ≤ 0.00205 ∧ |sCS (tmh0 n) (tmh1 n) (tmh2 n) (tmh3 n) ξ η| ≤ 0.00205 := by
  obtain ⟨t0, t1, t2, t3⟩ := tmh_flat h0 h1
  obtain ⟨c2, s2⟩ := hyp_pow (k := 2) he
  obtain ⟨c3, s3⟩ := hyp_pow (k := 3) he
  obtain ⟨c4, s4⟩ := hyp_pow (k := 4) he
  rw [show (2 * ((2 : ℕ) : ℝ) * η) = 4 * η by push_cast; ring] at c2 s2
  rw [show (2 * ((3 : ℕ) : ℝ) * η) = 6 * η by push_cast; ring] at c3 s3
  rw [show (2 * ((4 : ℕ) : ℝ) * η) = 8 * η by push_cast; ring] at c4 s4
  have s1 : |Real.sinh (2 * η)| ≤ 1.6 := by
    refine le_trans ?_ hc
    rw [← Real.cosh_abs, Real.abs_sinh]
    exact (Real.sinh_lt_cosh _).le
  have ab : ∀ x C : ℝ, Real.cosh x ≤ C → |Real.cosh x| ≤ C := fun x C h => by rwa [abs_of_pos (Real.cosh_pos x)]
  have four : ∀ p q r s P Q R S : ℝ, |p| ≤ P → |q| ≤ Q → |r| ≤ R → |s| ≤ S → |p + q + r + s| ≤ P + Q + R + S := by
    intro p q r s P Q R S hp hq hr hs
    exact (abs_add_le _ _).trans (add_le_add ((abs_add_le _ _).trans (add_le_add ((abs_add_le _ _).trans (add_le_add hp hq)) hr)) hs)
  constructor
  · refine (four _ _ _ _ _ _ _ _ (term_le t0 (Real.abs_sin_le_one _) (ab _ _ hc)) (term_le t1 (Real.abs_sin_le_one _) (ab _ _ c2))
      (term_le t2 (Real.abs_sin_le_one _) (ab _ _ c3)) (term_le t3 (Real.abs_sin_le_one _) (ab _ _ c4))).trans (by norm_num)
  · refine (four _ _ _ _ _ _ _ _ (term_le t0 (Real.abs_cos_le_one _) s1) (term_le t1 (Real.abs_cos_le_one _) s2)
      (term_le t2 (Real.abs_cos_le_one _) s3) (term_le t3 (Real.abs_cos_le_one _) s4)).trans (by norm_num)

theorem eta_range {q Δ : ℝ} (hΔ : 0 < Real.cos Δ) (hs : |Real.sin Δ| ≤ 0.48) :
    |etaR q Δ| ≤ 0.54 ∧ Real.exp (2 * |etaR q Δ|) ≤ 2.85 ∧ Real.cosh (2 * etaR q Δ) ≤ 1.6 := by
  have hch := Real.one_le_cosh q
  have hx : |Real.sin Δ / Real.cosh q| ≤ 0.48 := by
    rw [abs_div, abs_of_pos (Real.cosh_pos _), div_le_iff₀ (Real.cosh_pos _)]
    exact hs.trans (by linarith)
  have he : Real.exp (2 * |etaR q Δ|) ≤ 2.85 := (exp_artanh_le hx (by norm_num)).trans (by norm_num)
  refine ⟨?_, he, ?_⟩
  · by_contra hc
    push Not at hc
    have h1 : Real.exp 1.08 ≤ 2.85 := le_trans (Real.exp_le_exp.2 (by norm_num at *; linarith)) he
    have h2 := Real.sum_le_exp_of_nonneg (x := 1.08) (by norm_num) 6
    simp [Finset.sum_range_succ, Nat.factorial] at h2
    norm_num at h1 h2
    linarith
  · obtain ⟨d1, d2⟩ := etaR_dom (q := q) hΔ
    rw [Real.cosh_two_mul, etaR, Real.cosh_artanh ⟨d1, d2⟩, Real.sinh_artanh ⟨d1, d2⟩]
    rw [abs_le] at hx
    generalize Real.sin Δ / Real.cosh q = x at *
    have hx2 : x ^ 2 ≤ 0.2304 := by nlinarith [hx.1, hx.2]
    have hp : 0 < 1 - x ^ 2 := by linarith [show (0.2304 : ℝ) < 1 by norm_num]
    rw [div_pow, div_pow, Real.sq_sqrt hp.le, ← add_div, div_le_iff₀ hp]
    norm_num at *
    linarith

theorem xi_range {e φ Δ : ℝ} (h0 : 0 ≤ e) (h1 : e < 1) (hφ : |φ| ≤ 1.4661) (hΔ : 0 < Real.cos Δ) (hs : |Real.sin Δ| ≤ 0.48) :
    |xiR (isoQ e φ) Δ| ≤ 1.4795 := by
  have hp := Real.pi_gt_d4
  have hp' := Real.pi_lt_d4
  have hφ2 : |φ| < Real.pi / 2 := by norm_num at *; linarith
  have hcφ : 0.1043 ≤ Real.cos φ := by
    rw [← Real.cos_abs]
    have : Real.cos 1.4661 ≤ Real.cos |φ| := Real.cos_le_cos_of_nonneg_of_le_pi (abs_nonneg _) (by norm_num at *; linarith) hφ
    refine le_trans ?_ this
    rw [← Real.sin_pi_div_two_sub]
    have h3 := Real.sin_gt_sub_cube (x := Real.pi / 2 - 1.4661) (by norm_num at *; linarith)
    have h4 : (Real.pi / 2 - 1.4661) ^ 3 ≤ 0.1047 ^ 3 := pow_le_pow_left₀ (by norm_num at *; linarith) (by norm_num at *; linarith) 3
    norm_num at *
    linarith
  have hc0 : 0 < Real.cos φ := lt_of_lt_of_le (by norm_num) hcφ
  have hq : Real.cosh (isoQ e φ) ≤ 1 / Real.cos φ := by
    rw [← cosh_arsinh_tan hc0]
    exact Real.cosh_le_cosh.2 (isoQ_abs_le h0 h1 hφ2)
  have hcΔ := cos_ge_of_sin (c := 0.877) hΔ hs (by norm_num)
  have hcξ : 0.0914 ≤ Real.cos (xiR (isoQ e φ) Δ) := by
    rw [xiR, Real.cos_arctan]
    have k1 : Real.sqrt (1 + (Real.sinh (isoQ e φ) / Real.cos Δ) ^ 2) ≤ Real.cosh (isoQ e φ) / Real.cos Δ := by
      rw [Real.sqrt_le_iff]
      refine ⟨(div_pos (Real.cosh_pos _) hΔ).le, ?_⟩
      rw [div_pow, div_pow, le_div_iff₀ (by positivity), Real.cosh_sq, add_mul, div_mul_cancel₀ _ (by positivity)]
      have := Real.sin_sq_add_cos_sq Δ
      nlinarith [sq_nonneg (Real.sin Δ)]
    have k2 : Real.cosh (isoQ e φ) / Real.cos Δ ≤ 1 / 0.0914 := by
      rw [div_le_div_iff₀ hΔ (by norm_num)]
      have k3 : Real.cosh (isoQ e φ) ≤ 1 / 0.1043 := hq.trans (div_le_div_of_nonneg_left zero_le_one (by norm_num) hcφ)
      norm_num at *
      linarith
    rw [le_div_iff₀ (by positivity)]
    have := k1.trans k2
    norm_num at *
    linarith
  have h5 : |xiR (isoQ e φ) Δ| < Real.pi / 2 := abs_lt.2 ⟨Real.neg_pi_div_two_lt_arctan _, Real.arctan_lt_pi_div_two _⟩
  rw [← Real.cos_abs, ← Real.sin_pi_div_two_sub] at hcξ
  have h6 := Real.sin_le (x := Real.pi / 2 - |xiR (isoQ e φ) Δ|) (by linarith)
  norm_num at *
  linarith

/-- The plane coordinates of the exact forward projection. -/
theorem tm_plane {a b : ℝ} (hb : 6000000 ≤ b) (hab : b ≤ a) (hf : 0.995 * a ≤ b) (s : String) {L0 φ0 K0 fe fn l φ h : ℝ}
    (h1 : -(Real.pi / 2) ≤ φ0) (h2 : φ0 ≤ Real.pi / 2) (hk : K0 ≠ 0) (hφ : |φ| ≤ 1.4661) (hl : 0 < Real.cos (l - L0))
    (hs : |Real.sin (l - L0)| ≤ 0.48) {E N : ℝ} (he : (tmSpec s a b L0 φ0 K0 fe fn).proj (llh l φ h) = .ok (enh E N h)) :
    |tmEta' a b K0 fe E| ≤ 0.55 ∧ |tmXi' a b φ0 K0 fn N| ≤ 1.482 := by
  have hb0 : 0 < b := by linarith
  have hp := Real.pi_gt_d4
  have hφ2 : |φ| < Real.pi / 2 := by norm_num at *; linarith
  obtain ⟨g1, g2⟩ := abs_lt.1 hφ2
  have he0 := Real.sqrt_nonneg (ecc2 a b)
  have he1 := sqrt_ecc2_lt hb0 hab
  have hkB : K0 * tmB a b ≠ 0 := mul_ne_zero hk (tmB_pos hb0 hab).ne'
  rw [tmSpec_eq hb0 hab s L0 h1 h2, Projection.proj, tmR_proj_iso he0 he1 l φ h g1 g2 hl] at he
  simp only [enh, Except.ok.injEq, ENH.mk.injEq, Length.mk.injEq, XR.fin.injEq] at he
  obtain ⟨eE, eN, -⟩ := he
  obtain ⟨n0, n1⟩ := nR_flat hb hab hf
  obtain ⟨r1, r2, r3⟩ := eta_range (q := isoQ (Real.sqrt (ecc2 a b)) φ) hl hs
  have r4 := xi_range he0 he1 hφ hl hs
  obtain ⟨u1, u2⟩ := sums_le (ξ := xiR (isoQ (Real.sqrt (ecc2 a b)) φ) (l - L0)) n0 n1 r2 r3
  constructor
  · rw [tmEta', ← eE, tmEast, add_sub_cancel_left, mul_div_cancel_left₀ _ hkB]
    exact (abs_add_le _ _).trans ((add_le_add r1 u2).trans (by norm_num))
  · rw [tmXi', ← eN, tmNorth]
    rw [show ∀ X M : ℝ, (fn + K0 * (tmB a b * X - M) - fn + K0 * M) = K0 * tmB a b * X by intros; ring, mul_div_cancel_left₀ _ hkB]
    exact (abs_add_le _ _).trans ((add_le_add r4 u1).trans (by norm_num))

end Geo
