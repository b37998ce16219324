import Verif.Lemmas.Conformal
import Verif.Props.TransverseMercatorMeridian

/-!
C84: the Mercator and transverse Mercator projections are conformal, Web Mercator only on a sphere. Exact arithmetic.
-/

namespace Geo
open XR Spec Conf Frame

/-! ### Transverse Mercator -/

noncomputable def tmEast (e l0 k0 fe B h0 h1 h2 h3 l φ : ℝ) : ℝ :=
  fe + k0 * B * (etaR (isoQ e φ) (l - l0) + sCS h0 h1 h2 h3 (xiR (isoQ e φ) (l - l0)) (etaR (isoQ e φ) (l - l0)))
noncomputable def tmNorth (e l0 k0 fn B h0 h1 h2 h3 M0 l φ : ℝ) : ℝ :=
  fn + k0 * (B * (xiR (isoQ e φ) (l - l0) + sSC h0 h1 h2 h3 (xiR (isoQ e φ) (l - l0)) (etaR (isoQ e φ) (l - l0))) - M0)

theorem tmR_proj_iso {e l0 k0 fe fn B h0 h1 h2 h3 p0 p1 p2 p3 M0 : ℝ} (he0 : 0 ≤ e) (he : e < 1) (l φ h : ℝ)
    (g1 : -(Real.pi / 2) < φ) (g2 : φ < Real.pi / 2) (hd : 0 < Real.cos (l - l0)) :
    (tmR e l0 k0 fe fn B h0 h1 h2 h3 p0 p1 p2 p3 M0).proj (llh l φ h) =
      .ok (enh (tmEast e l0 k0 fe B h0 h1 h2 h3 l φ) (tmNorth e l0 k0 fn B h0 h1 h2 h3 M0 l φ) h) := by
  have hc := cos_pos_of_lat g1 g2
  have e1 : Real.cos (confR e φ) * Real.sin (l - l0) = Real.sin (l - l0) / Real.cosh (isoQ e φ) := by
    rw [confR_def, if_neg hc.ne', Real.cos_arctan, add_comm, ← Real.cosh_sq, Real.sqrt_sq (Real.cosh_pos _).le]
    ring
  have e2 : Real.sin (confR e φ) = Real.tanh (isoQ e φ) := by
    rw [confR_def, if_neg hc.ne', sin_arctan_sinh]
  rw [tmR_proj _ _ _ _ _ _ _ _ _ _ _ _ _ _ _ he0 he l φ h g1.le g2.le (by rw [e1, abs_lt]; exact etaR_dom hd)]
  simp only [e1, e2]
  rw [show Real.artanh (Real.sin (l - l0) / Real.cosh (isoQ e φ)) = etaR (isoQ e φ) (l - l0) from rfl, xiR_eq hd]
  rfl

theorem tm_conformal {a b : ℝ} (hb : 0 < b) (hab : b ≤ a) (l0 k0 fe fn B h0 h1 h2 h3 M0 : ℝ) {l φ : ℝ}
    (g1 : -(Real.pi / 2) < φ) (g2 : φ < Real.pi / 2) (hd : 0 < Real.cos (l - l0)) :
    ∃ k γ, 0 ≤ k ∧ ConformalAt a b (tmEast (Real.sqrt (ecc2 a b)) l0 k0 fe B h0 h1 h2 h3)
        (tmNorth (Real.sqrt (ecc2 a b)) l0 k0 fn B h0 h1 h2 h3 M0) l φ k γ ∧
      (k0 * B ≠ 0 → 0 < serP h0 h1 h2 h3 (xiR (isoQ (Real.sqrt (ecc2 a b)) φ) (l - l0))
        (etaR (isoQ (Real.sqrt (ecc2 a b)) φ) (l - l0)) → 0 < k) := by
  have ha : 0 < a := lt_of_lt_of_le hb hab
  have hc := cos_pos_of_lat g1 g2
  have hr := rpar_pos ha hb hc
  set e := Real.sqrt (ecc2 a b)
  set q := isoQ e φ with hq
  set Δ := l - l0 with hΔ
  set R := Real.cos Δ ^ 2 + Real.sinh q ^ 2 with hR
  have hR0 : 0 < R := R_pos hd
  set A := Real.cosh q * Real.cos Δ / R with hA
  set C := Real.sinh q * Real.sin Δ / R with hC
  set P := serP h0 h1 h2 h3 (xiR q Δ) (etaR q Δ) with hP
  set Q := serQ h0 h1 h2 h3 (xiR q Δ) (etaR q Δ) with hQ
  obtain ⟨k, γ, hk0, hk2, hkx, hky⟩ := polar (k0 * B / rpar a b φ * (P * A + Q * C)) (k0 * B / rpar a b φ * (Q * A - P * C))
  refine ⟨k, γ, hk0, ?_, ?_⟩
  · intro lc φc α hl hφ dl dφ hv
    subst hl
    subst hφ
    obtain ⟨v1, v2⟩ := curve_velocity ha hb dl.hasDerivAt dφ.hasDerivAt hc.ne' hv
    have dq := (isoQ_rate hb hab g1 g2).comp (0 : ℝ) dφ.hasDerivAt
    have dΔ := dl.hasDerivAt.sub_const l0
    obtain ⟨s1, s2⟩ := schreiber_rate (q := fun t => isoQ e (φc t)) dq dΔ hd
    obtain ⟨t1, t2⟩ := series_rate s1 s2 h0 h1 h2 h3
    have w1 : rho a b (φc 0) / rpar a b (φc 0) * deriv φc 0 = Real.cos α / rpar a b (φc 0) := by
      rw [← v1]; ring
    have w2 : deriv lc 0 = Real.sin α / rpar a b (φc 0) := by
      rw [← v2]; field_simp
    rw [w1, w2] at t1 t2
    refine ⟨HasDerivAt.congr_deriv ((t2.const_mul (k0 * B)).const_add fe) ?_,
      HasDerivAt.congr_deriv ((((t1.const_mul B).sub_const M0).const_mul k0).const_add fn) ?_⟩
    · rw [Real.sin_add, show k * (Real.sin α * Real.cos γ + Real.cos α * Real.sin γ) =
        Real.sin α * (k * Real.cos γ) + Real.cos α * (k * Real.sin γ) by ring, ← hkx, ← hky]
      ring
    · rw [Real.cos_add, show k * (Real.cos α * Real.cos γ - Real.sin α * Real.sin γ) =
        Real.cos α * (k * Real.cos γ) - Real.sin α * (k * Real.sin γ) by ring, ← hkx, ← hky]
      ring
  · intro hkB hPp
    have hAp : 0 < A := by have := Real.cosh_pos q; positivity
    have e1 : k ^ 2 = (k0 * B / rpar a b φ) ^ 2 * ((P ^ 2 + Q ^ 2) * (A ^ 2 + C ^ 2)) := by rw [hk2]; ring
    have hne : k0 * B / rpar a b φ ≠ 0 := div_ne_zero hkB hr.ne'
    have : 0 < k ^ 2 := by rw [e1]; positivity
    exact lt_of_le_of_ne hk0 fun h => by rw [← h] at this; norm_num at this

theorem tmh_small {n : ℝ} (h0 : 0 ≤ n) (h1 : n ≤ 1 / 190) :
    |tmh0 n| ≤ 1 / 300 ∧ |tmh1 n| ≤ 1 / 10000 ∧ |tmh2 n| ≤ 1 / 100000 ∧ |tmh3 n| ≤ 1 / 100000 := by
  have p2 : n ^ 2 ≤ 1 / 190 * n := by nlinarith
  have p3 : n ^ 3 ≤ 1 / 190 * n ^ 2 := by nlinarith [sq_nonneg n]
  have p4 : n ^ 4 ≤ 1 / 190 * n ^ 3 := by nlinarith [pow_nonneg h0 3]
  have q2 := pow_nonneg h0 2
  have q3 := pow_nonneg h0 3
  have q4 := pow_nonneg h0 4
  have b0 : |tmh0 n| ≤ 1 / 300 := by rw [abs_le, tmh0]; constructor <;> nlinarith
  have b1 : |tmh1 n| ≤ 1 / 10000 := by rw [abs_le, tmh1]; constructor <;> nlinarith
  have b2 : |tmh2 n| ≤ 1 / 100000 := by rw [abs_le, tmh2]; constructor <;> nlinarith
  have b3 : |tmh3 n| ≤ 1 / 100000 := by rw [abs_le, tmh3]; constructor <;> nlinarith
  exact ⟨b0, b1, b2, b3⟩

theorem cosh_etaR {q Δ : ℝ} (hΔ : |Δ| ≤ Real.pi / 4) : Real.cosh (2 * etaR q Δ) ≤ 3 ∧ Real.cosh (4 * etaR q Δ) ≤ 17 ∧
    Real.cosh (6 * etaR q Δ) ≤ 577 ∧ Real.cosh (8 * etaR q Δ) ≤ 577 := by
  obtain ⟨d1, d2⟩ := abs_le.1 hΔ
  have hp := Real.pi_pos
  have hcos : 0 < Real.cos Δ := Real.cos_pos_of_mem_Ioo ⟨by linarith, by linarith⟩
  obtain ⟨k1, k2⟩ := etaR_dom (q := q) hcos
  have hsin : Real.sin Δ ^ 2 ≤ 1 / 2 := by
    have h2 : 0 ≤ Real.cos (2 * Δ) := Real.cos_nonneg_of_mem_Icc ⟨by linarith, by linarith⟩
    have h3 := Real.cos_two_mul Δ
    have h4 := Real.sin_sq_add_cos_sq Δ
    linarith
  have hx2 : (Real.sin Δ / Real.cosh q) ^ 2 ≤ 1 / 2 := by
    have := Real.one_le_cosh q
    rw [div_pow, div_le_iff₀ (by positivity)]
    nlinarith
  set y := etaR q Δ with hy
  have c1 : Real.cosh y ^ 2 ≤ 2 := by
    rw [hy, etaR, cosh_artanh_sq k1 k2, div_pow, Real.sq_sqrt (by linarith), one_pow, div_le_iff₀ (by linarith)]
    linarith
  have two : ∀ z : ℝ, Real.cosh (2 * z) = 2 * Real.cosh z ^ 2 - 1 := fun z => by
    rw [Real.cosh_two_mul, Real.sinh_sq]; ring
  have a2 : Real.cosh (2 * y) ≤ 3 := by rw [two]; linarith
  have a2' := Real.one_le_cosh (2 * y)
  have a4 : Real.cosh (4 * y) ≤ 17 := by
    rw [show 4 * y = 2 * (2 * y) by ring, two]; nlinarith
  have a4' := Real.one_le_cosh (4 * y)
  have a8 : Real.cosh (8 * y) ≤ 577 := by
    rw [show 8 * y = 2 * (4 * y) by ring, two]; nlinarith
  have a6 : Real.cosh (6 * y) ≤ 577 := by
    refine le_trans ?_ a8
    rw [Real.cosh_le_cosh, abs_mul, abs_mul]
    have := abs_nonneg y
    norm_num
    linarith
  exact ⟨a2, a4, a6, a8⟩

theorem serP_pos {n : ℝ} (h0 : 0 ≤ n) (h1 : n ≤ 1 / 190) {q Δ : ℝ} (hΔ : |Δ| ≤ Real.pi / 4) (x : ℝ) :
    0 < serP (tmh0 n) (tmh1 n) (tmh2 n) (tmh3 n) x (etaR q Δ) := by
  obtain ⟨a2, a4, a6, a8⟩ := cosh_etaR (q := q) hΔ
  obtain ⟨b0, b1, b2, b3⟩ := tmh_small h0 h1
  have k : ∀ {h z w c d : ℝ}, |h| ≤ c → Real.cosh w ≤ d → |h * (Real.cos z * Real.cosh w)| ≤ c * d := by
    intro h z w c d hc hd
    rw [abs_mul, abs_mul, abs_of_pos (Real.cosh_pos w)]
    have := Real.abs_cos_le_one z
    have := Real.cosh_pos w
    have h5 : |Real.cos z| * Real.cosh w ≤ d := le_trans (by nlinarith) hd
    exact mul_le_mul hc h5 (by positivity) ((abs_nonneg _).trans hc)
  have e0 := abs_le.1 (k (z := 2 * x) b0 a2)
  have e1 := abs_le.1 (k (z := 4 * x) b1 a4)
  have e2 := abs_le.1 (k (z := 6 * x) b2 a6)
  have e3 := abs_le.1 (k (z := 8 * x) b3 a8)
  rw [serP]
  linarith [e0.1, e1.1, e2.1, e3.1]

/-- **C84**: within 90 degrees of the central meridian, poles excluded, the transverse Mercator projection is conformal: the
scale does not depend on the direction and angles are kept, with their orientation. (The formula is a truncated series, but
its conformality is exact.) Within 45 degrees, for `e² ≤ 1/50`, the scale is positive. -/
theorem C84_transverse_mercator {a b : ℝ} (hb : 0 < b) (hab : b ≤ a) (s : String) (l0 : ℝ) {φ0 : ℝ}
    (h1 : -(Real.pi / 2) ≤ φ0) (h2 : φ0 ≤ Real.pi / 2) (k0 fe fn h : ℝ) :
    ∃ E N : ℝ → ℝ → ℝ, ∀ l φ, -(Real.pi / 2) < φ → φ < Real.pi / 2 → 0 < Real.cos (l - l0) →
      (tmSpec s a b l0 φ0 k0 fe fn).proj (llh l φ h) = .ok (enh (E l φ) (N l φ) h) ∧
      ∃ k γ, 0 ≤ k ∧ ConformalAt a b E N l φ k γ ∧
        ((a ^ 2 - b ^ 2) / a ^ 2 ≤ 1 / 50 → k0 ≠ 0 → |l - l0| ≤ Real.pi / 4 → 0 < k) := by
  have ha : 0 < a := lt_of_lt_of_le hb hab
  refine ⟨tmEast (Real.sqrt (ecc2 a b)) l0 k0 fe (tmB a b) (tmh0 (nR a b)) (tmh1 (nR a b)) (tmh2 (nR a b)) (tmh3 (nR a b)),
    tmNorth (Real.sqrt (ecc2 a b)) l0 k0 fn (tmB a b) (tmh0 (nR a b)) (tmh1 (nR a b)) (tmh2 (nR a b)) (tmh3 (nR a b))
      (tmM0 a b φ0), fun l φ g1 g2 hd => ⟨?_, ?_⟩⟩
  · rw [tmSpec_eq hb hab s l0 h1 h2, Projection.proj,
      tmR_proj_iso (Real.sqrt_nonneg _) (sqrt_ecc2_lt hb hab) l φ h g1 g2 hd]
  · obtain ⟨k, γ, hk, hcf, hpos⟩ := tm_conformal hb hab l0 k0 fe fn (tmB a b) (tmh0 (nR a b)) (tmh1 (nR a b)) (tmh2 (nR a b))
      (tmh3 (nR a b)) (tmM0 a b φ0) g1 g2 hd
    refine ⟨k, γ, hk, hcf, fun hE hk0 hΔ => hpos (mul_ne_zero hk0 (tmB_pos hb hab).ne') (serP_pos (nR_nonneg hb hab) ?_ hΔ _)⟩
    refine MerArc.nR_le hb hab ?_
    rw [ecc2]; convert hE using 1; rw [div_eq_div_iff (by positivity) (by positivity)]; ring

/-- A point moving north. -/
theorem north_curve {a b : ℝ} (ha : 0 < a) (hb : 0 < b) (l φ : ℝ) :
    HasDerivAt (fun t => surfacePoint a b l (φ + t / rho a b φ)) (direction l φ 0) 0 := by
  have hρ := rho_pos ha hb φ
  have d := (deriv_lat ha hb l (φ + 0 / rho a b φ)).scomp (0 : ℝ) (((hasDerivAt_id (0 : ℝ)).div_const (rho a b φ)).const_add φ)
  refine HasDerivAt.congr_deriv d ?_
  simp only [zero_div, add_zero, smul_smul]
  rw [one_div_mul_cancel hρ.ne', one_smul]

theorem rho_ge {a b : ℝ} (hb : 0 < b) (hab : b ≤ a) (φ : ℝ) : a * (1 - ecc2 a b) ≤ rho a b φ := by
  have ha : 0 < a := lt_of_lt_of_le hb hab
  have hq := q_pos ha hb φ
  have hs := Real.sqrt_pos.2 hq
  have h1 : Real.sqrt (a ^ 2 * Real.cos φ ^ 2 + b ^ 2 * Real.sin φ ^ 2) ≤ a := by
    rw [Real.sqrt_le_iff]
    refine ⟨ha.le, ?_⟩
    have := Real.sin_sq_add_cos_sq φ
    nlinarith [sq_nonneg (Real.sin φ), mul_nonneg (sub_nonneg.2 hab) (add_pos ha hb).le]
  rw [one_sub_ecc2 hb hab, rho, le_div_iff₀ (by positivity)]
  calc a * (b ^ 2 / a ^ 2) * Real.sqrt (a ^ 2 * Real.cos φ ^ 2 + b ^ 2 * Real.sin φ ^ 2) ^ 3 ≤ a * (b ^ 2 / a ^ 2) * a ^ 3 := by
        gcongr
    _ = a ^ 2 * b ^ 2 := by field_simp

/-- **C84**: on the central meridian the scale in every direction is `k0` up to `24 k0 n⁵` and the convergence is zero. -/
theorem C84_central_meridian {a b : ℝ} (hb : 0 < b) (hab : b ≤ a) (hE : (a ^ 2 - b ^ 2) / a ^ 2 ≤ 1 / 50) (s : String)
    (l0 : ℝ) {φ0 : ℝ} (h1 : -(Real.pi / 2) ≤ φ0) (h2 : φ0 ≤ Real.pi / 2) {k0 : ℝ} (hk0 : 0 < k0) (fe fn h : ℝ) :
    ∃ E N : ℝ → ℝ → ℝ, (∀ l φ, -(Real.pi / 2) < φ → φ < Real.pi / 2 → 0 < Real.cos (l - l0) →
        (tmSpec s a b l0 φ0 k0 fe fn).proj (llh l φ h) = .ok (enh (E l φ) (N l φ) h)) ∧
      ∀ φ, -(Real.pi / 2) < φ → φ < Real.pi / 2 →
        ∃ k, |k - k0| ≤ 24 * k0 * ((a - b) / (a + b)) ^ 5 ∧ ConformalAt a b E N l0 φ k 0 := by
  have ha : 0 < a := lt_of_lt_of_le hb hab
  have hp := Real.pi_pos
  have hE' : ecc2 a b ≤ 1 / 50 := by
    rw [ecc2]; convert hE using 1; rw [div_eq_div_iff (by positivity) (by positivity)]; ring
  obtain ⟨E, N, hEN⟩ := C84_transverse_mercator hb hab s l0 h1 h2 k0 fe fn h
  refine ⟨E, N, fun l φ g1 g2 hd => (hEN l φ g1 g2 hd).1, fun φ g1 g2 => ?_⟩
  have hd0 : 0 < Real.cos (l0 - l0) := by rw [sub_self, Real.cos_zero]; exact one_pos
  obtain ⟨_, k, γ, -, hcf, hkp⟩ := hEN l0 φ g1 g2 hd0
  have hk := hkp hE hk0.ne' (by rw [sub_self, abs_zero]; linarith)
  have hρ := rho_pos ha hb φ
  have f := hcf (fun _ => l0) (fun t => φ + t / rho a b φ) 0 rfl (by simp) (by fun_prop) (by fun_prop)
    (north_curve ha hb l0 φ)
  -- the same curve by the meridian formula
  obtain ⟨N', hN', hder⟩ := C83_meridian_scale hb hab hE s l0 h1 h2 k0 fe fn h
  obtain ⟨dN, hbd⟩ := hder φ g1 g2
  have hev : ∀ᶠ t in nhds (0 : ℝ), φ + t / rho a b φ ∈ Set.Ioo (-(Real.pi / 2)) (Real.pi / 2) := by
    have hc : ContinuousAt (fun t : ℝ => φ + t / rho a b φ) 0 := by fun_prop
    exact hc.preimage_mem_nhds (by simpa using Ioo_mem_nhds g1 g2)
  have hinj : ∀ t, φ + t / rho a b φ ∈ Set.Ioo (-(Real.pi / 2)) (Real.pi / 2) →
      E l0 (φ + t / rho a b φ) = fe ∧ N l0 (φ + t / rho a b φ) = N' (φ + t / rho a b φ) := by
    intro t ht
    have e1 := (hEN l0 _ ht.1 ht.2 hd0).1
    rw [hN' _ ht.1.le ht.2.le] at e1
    simp only [Except.ok.injEq, enh, ENH.mk.injEq, Length.mk.injEq, fin.injEq] at e1
    exact ⟨e1.1.symm, e1.2.1.symm⟩
  have fE : HasDerivAt (fun t => E l0 (φ + t / rho a b φ)) 0 0 := by
    refine (hasDerivAt_const (0 : ℝ) fe).congr_of_eventuallyEq ?_
    filter_upwards [hev] with t ht
    exact (hinj t ht).1
  have fN : HasDerivAt (fun t => N l0 (φ + t / rho a b φ)) (deriv N' φ / rho a b φ) 0 := by
    have e0 : φ + 0 / rho a b φ = φ := by simp
    have d1 : HasDerivAt N' (deriv N' φ) (φ + 0 / rho a b φ) := by rw [e0]; exact dN.hasDerivAt
    have d := d1.comp (0 : ℝ) (((hasDerivAt_id (0 : ℝ)).div_const (rho a b φ)).const_add φ)
    refine HasDerivAt.congr_deriv (d.congr_of_eventuallyEq ?_) (by ring)
    filter_upwards [hev] with t ht
    exact (hinj t ht).2
  have u1 := f.1.unique fE
  have u2 := f.2.unique fN
  rw [zero_add] at u1 u2
  have hs : Real.sin γ = 0 := (mul_eq_zero.1 u1).resolve_left hk.ne'
  rw [Frame.norm_deriv_lat ha hb, abs_of_pos hk0] at hbd
  have hge := rho_ge hb hab φ
  have hn0 : 0 ≤ (a - b) / (a + b) := div_nonneg (by linarith) (by linarith)
  have hn5 : 0 ≤ ((a - b) / (a + b)) ^ 5 := by positivity
  have hb2 : |deriv N' φ / rho a b φ - k0| ≤ 24 * k0 * ((a - b) / (a + b)) ^ 5 := by
    rw [show deriv N' φ / rho a b φ - k0 = (deriv N' φ - k0 * rho a b φ) / rho a b φ by field_simp, abs_div, abs_of_pos hρ,
      div_le_iff₀ hρ]
    refine hbd.trans ?_
    have : 49 / 50 * a ≤ rho a b φ := le_trans (by nlinarith) hge
    have h3 : 23 * a ≤ 24 * rho a b φ := by linarith
    have := mul_le_mul_of_nonneg_left h3 (mul_nonneg hk0.le hn5)
    linarith
  have hc : Real.cos γ = 1 := by
    have hsq : Real.cos γ ^ 2 = 1 := by rw [Real.cos_sq', hs]; ring
    rcases mul_self_eq_one_iff.1 ((pow_two (Real.cos γ)).symm.trans hsq) with h | h
    · exact h
    · exfalso
      rw [h] at u2
      have : 24 * k0 * ((a - b) / (a + b)) ^ 5 < k0 := by
        have hn1 : (a - b) / (a + b) ≤ 1 / 190 := MerArc.nR_le hb hab hE'
        have : ((a - b) / (a + b)) ^ 5 ≤ (1 / 190) ^ 5 := by gcongr
        nlinarith
      have := abs_le.1 hb2
      linarith
  rw [hc, mul_one] at u2
  refine ⟨k, by rw [u2]; exact hb2, ?_⟩
  intro lc φc α e1 e2 d1 d2 hv
  obtain ⟨w1, w2⟩ := hcf lc φc α e1 e2 d1 d2 hv
  rw [Real.sin_add, hs, hc] at w1
  rw [Real.cos_add, hs, hc] at w2
  refine ⟨w1.congr_deriv (by rw [add_zero]; ring), w2.congr_deriv (by rw [add_zero]; ring)⟩

/-- UTM zone 31 on WGS84 at 52 degrees north, 5 degrees east: conformal, with positive scale. -/
example : ∃ E N : ℝ → ℝ → ℝ, ∃ k γ, 0 < k ∧
    ConformalAt 6378137 6356752.314 E N (5 * Real.pi / 180) (52 * Real.pi / 180) k γ := by
  have hp := Real.pi_pos
  have hc : 0 < Real.cos (5 * Real.pi / 180 - 3 * Real.pi / 180) :=
    Real.cos_pos_of_mem_Ioo ⟨by linarith, by linarith⟩
  obtain ⟨E, N, h⟩ := C84_transverse_mercator (a := 6378137) (b := 6356752.314) (by norm_num) (by norm_num) "WGS84"
    (3 * Real.pi / 180) (φ0 := 0) (by linarith) (by linarith) 0.9996 500000 0 0
  obtain ⟨-, k, γ, -, h2, h3⟩ := h (5 * Real.pi / 180) (52 * Real.pi / 180) (by linarith) (by linarith) hc
  refine ⟨E, N, k, γ, h3 (by norm_num) (by norm_num) ?_, h2⟩
  rw [abs_of_pos (by linarith)]; linarith

/-! ### Mercator -/

/-- A map of the Mercator kind. -/
theorem merc_rates {a b : ℝ} (ha : 0 < a) (hb : 0 < b) {K fe fn l0 : ℝ} {g : ℝ → ℝ} {g' l φ : ℝ} (hg : HasDerivAt g g' φ)
    (hc : Real.cos φ ≠ 0) (h1 : -Real.pi < l - l0) (h2 : l - l0 < Real.pi) {lc φc : ℝ → ℝ} {α : ℝ} (hl : lc 0 = l)
    (hφ : φc 0 = φ) (dl : DifferentiableAt ℝ lc 0) (dφ : DifferentiableAt ℝ φc 0)
    (hv : HasDerivAt (fun t => surfacePoint a b (lc t) (φc t)) (direction l φ α) 0) :
    HasDerivAt (fun t => fe + K * normR (lc t - l0)) (K * (Real.sin α / rpar a b φ)) 0 ∧
      HasDerivAt (fun t => fn + K * g (φc t)) (K * (g' * (Real.cos α / rho a b φ))) 0 := by
  subst hl
  subst hφ
  have hp := Real.pi_pos
  have hr : rpar a b (φc 0) ≠ 0 := by
    have := Real.sqrt_pos.2 (q_pos ha hb (φc 0))
    unfold rpar
    exact mul_ne_zero (by positivity) hc
  obtain ⟨v1, v2⟩ := curve_velocity ha hb dl.hasDerivAt dφ.hasDerivAt hc hv
  constructor
  · have d := ((dl.hasDerivAt.sub_const l0).const_mul K).const_add fe
    refine HasDerivAt.congr_deriv (d.congr_of_eventuallyEq ?_) ?_
    · have hc : ContinuousAt (fun t => lc t - l0) 0 := (dl.hasDerivAt.sub_const l0).continuousAt
      filter_upwards [hc.preimage_mem_nhds (Ioo_mem_nhds h1 h2)] with t ht
      rw [normR_id ht.1 ht.2.le]
    · rw [← v2]; field_simp
  · have d := ((hg.comp (0 : ℝ) dφ.hasDerivAt).const_mul K).const_add fn
    refine HasDerivAt.congr_deriv d ?_
    rw [← v1]
    have := (rho_pos ha hb (φc 0)).ne'
    field_simp

/-- **C84**: Mercator (either variant) is conformal between the poles, away from the antimeridian of its origin, with
positive scale and no convergence. -/
theorem C84_mercator {n : String} {a b l0 fe fn k : ℝ} (hb : 0 < b) (hab : b ≤ a) {p : Projection XR}
    (hp : IsMercator n a b l0 fe fn k p) (h : ℝ) :
    ∃ E N : ℝ → ℝ → ℝ, ∀ l φ, -(Real.pi / 2) < φ → φ < Real.pi / 2 →
      p.proj (llh l φ h) = .ok (enh (E l φ) (N l φ) h) ∧
      (-Real.pi < l - l0 → l - l0 < Real.pi → ∃ k', 0 < k' ∧ ConformalAt a b E N l φ k' 0) := by
  have ha : 0 < a := lt_of_lt_of_le hb hab
  have hk := (hp.eq hb hab).1
  refine ⟨fun l φ => fe + k * a * normR (l - l0), fun l φ => fn + k * a * isoQ (Real.sqrt (ecc2 a b)) φ,
    fun l φ g1 g2 => ⟨hp.proj hb hab l φ h g1 g2, fun k1 k2 => ?_⟩⟩
  have hc := cos_pos_of_lat g1 g2
  have hr := rpar_pos ha hb hc
  have hρ := rho_pos ha hb φ
  refine ⟨k * a / rpar a b φ, by positivity, fun lc φc α hl hφ dl dφ hv => ?_⟩
  obtain ⟨d1, d2⟩ := merc_rates ha hb (K := k * a) (fe := fe) (fn := fn) (isoQ_rate hb hab g1 g2) hc.ne' k1 k2 hl hφ dl dφ hv
  refine ⟨d1.congr_deriv ?_, d2.congr_deriv ?_⟩
  · rw [add_zero]; ring
  · rw [add_zero]; field_simp

/-! ### Web Mercator -/

theorem rho_eq_iff {a b φ : ℝ} (hb : 0 < b) (hab : b ≤ a) (hc : 0 < Real.cos φ) :
    rpar a b φ = rho a b φ * Real.cos φ ↔ a = b := by
  have ha : 0 < a := lt_of_lt_of_le hb hab
  have hq := q_pos ha hb φ
  have hs := Real.sqrt_pos.2 hq
  have hs2 := Real.sq_sqrt hq.le
  have h1 := Real.sin_sq_add_cos_sq φ
  have e : rpar a b φ - rho a b φ * Real.cos φ =
      a ^ 2 * Real.cos φ ^ 3 * ((a ^ 2 - b ^ 2)) / Real.sqrt (a ^ 2 * Real.cos φ ^ 2 + b ^ 2 * Real.sin φ ^ 2) ^ 3 := by
    rw [rpar, rho]
    field_simp
    rw [hs2]
    linear_combination b ^ 2 * h1
  constructor
  · intro h
    rw [h, sub_self, eq_comm, div_eq_zero_iff] at e
    rcases e with e | e
    · have : a ^ 2 - b ^ 2 = 0 := by
        rcases mul_eq_zero.1 e with e | e
        · exact absurd e (by positivity)
        · exact e
      nlinarith
    · exact absurd e (by positivity)
  · intro h
    rw [h, sub_self, mul_zero, zero_div] at e
    rw [h]; linarith

/-- **C84**: Web Mercator is conformal exactly when the ellipsoid is a sphere: on any other ellipsoid the north and east
scales differ at every latitude. -/
theorem C84_web_mercator (n : String) {a b : ℝ} (hb : 0 < b) (hab : b ≤ a) (l0 : ℝ) (lat0 : Lat XR) (fe fn h : ℝ) :
    ∃ E N : ℝ → ℝ → ℝ, ∀ l φ, -(Real.pi / 2) < φ → φ < Real.pi / 2 →
      (webMerc n a b l0 lat0 fe fn).proj (llh l φ h) = .ok (enh (E l φ) (N l φ) h) ∧
      (-Real.pi < l - l0 → l - l0 < Real.pi → ((∃ k γ, ConformalAt a b E N l φ k γ) ↔ a = b)) := by
  have ha : 0 < a := lt_of_lt_of_le hb hab
  refine ⟨fun l φ => fe + a * normR (l - l0), fun l φ => fn + a * Real.arsinh (Real.tan φ),
    fun l φ g1 g2 => ⟨webMerc_proj n a b l0 lat0 fe fn l φ h g1 g2, fun k1 k2 => ?_⟩⟩
  have hc := cos_pos_of_lat g1 g2
  have hr := rpar_pos ha hb hc
  have hρ := rho_pos ha hb φ
  have dg : HasDerivAt (fun φ => Real.arsinh (Real.tan φ)) (1 / Real.cos φ) φ := by
    have d := isoQ_deriv le_rfl zero_lt_one g1 g2
    rw [show (isoQ 0) = fun φ => Real.arsinh (Real.tan φ) from funext isoQ_sphere] at d
    simpa using d
  have rates := fun (lc φc : ℝ → ℝ) (α : ℝ) (hl : lc 0 = l) (hφ : φc 0 = φ) (dl : DifferentiableAt ℝ lc 0)
    (dφ : DifferentiableAt ℝ φc 0) hv => merc_rates ha hb (K := a) (fe := fe) (fn := fn) dg hc.ne' k1 k2 hl hφ dl dφ
      (α := α) hv
  rw [← rho_eq_iff hb hab hc]
  constructor
  · rintro ⟨k, γ, hcf⟩
    -- north
    have dN := north_curve ha hb l φ
    have dE : HasDerivAt (fun t => surfacePoint a b (l + t / rpar a b φ) φ) (direction l φ (Real.pi / 2)) 0 := by
      have d := (deriv_lon a b (l + 0 / rpar a b φ) φ).scomp (0 : ℝ) (((hasDerivAt_id (0 : ℝ)).div_const (rpar a b φ)).const_add l)
      refine HasDerivAt.congr_deriv d ?_
      simp only [zero_div, add_zero, smul_smul]
      rw [one_div_mul_cancel hr.ne', one_smul]
    have f1 := hcf (fun _ => l) (fun t => φ + t / rho a b φ) 0 rfl (by simp) (by fun_prop) (by fun_prop) dN
    have f2 := rates (fun _ => l) (fun t => φ + t / rho a b φ) 0 rfl (by simp) (by fun_prop) (by fun_prop) dN
    have f3 := hcf (fun t => l + t / rpar a b φ) (fun _ => φ) (Real.pi / 2) (by simp) rfl (by fun_prop) (by fun_prop) dE
    have f4 := rates (fun t => l + t / rpar a b φ) (fun _ => φ) (Real.pi / 2) (by simp) rfl (by fun_prop) (by fun_prop) dE
    have u1 := f1.2.unique f2.2
    have u2 := f3.1.unique f4.1
    rw [zero_add, Real.cos_zero] at u1
    rw [add_comm, Real.sin_add_pi_div_two, Real.sin_pi_div_two, u1] at u2
    field_simp at u2
    linarith
  · intro heq
    refine ⟨a / rpar a b φ, 0, fun lc φc α hl hφ dl dφ hv => ?_⟩
    obtain ⟨d1, d2⟩ := rates lc φc α hl hφ dl dφ hv
    refine ⟨d1.congr_deriv ?_, d2.congr_deriv ?_⟩
    · rw [add_zero]; ring
    · rw [add_zero, heq]; field_simp

/-- Web Mercator on WGS84 at 52 degrees north is not conformal. -/
example : ∃ E N : ℝ → ℝ → ℝ, (webMerc "WGS84" 6378137 6356752.314 0 (latR 0) 0 0).proj (llh 0 (52 * Real.pi / 180) 0) =
      .ok (enh (E 0 (52 * Real.pi / 180)) (N 0 (52 * Real.pi / 180)) 0) ∧
    ¬ ∃ k γ, ConformalAt 6378137 6356752.314 E N 0 (52 * Real.pi / 180) k γ := by
  have hp := Real.pi_pos
  obtain ⟨E, N, h⟩ := C84_web_mercator "WGS84" (a := 6378137) (b := 6356752.314) (by norm_num) (by norm_num) 0 (latR 0) 0 0 0
  obtain ⟨h1, h2⟩ := h 0 (52 * Real.pi / 180) (by linarith) (by linarith)
  refine ⟨E, N, h1, fun hc => ?_⟩
  have := (h2 (by linarith) (by linarith)).1 hc
  norm_num at this

end Geo
