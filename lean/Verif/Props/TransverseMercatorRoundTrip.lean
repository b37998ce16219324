import Verif.Lemmas.TransverseRound
import Verif.Props.ConformalExact

/-!
C85: the transverse Mercator round trip on the ellipsoid. Exact arithmetic.
-/

namespace Geo
open XR Spec Conf Frame MerArc TmRound

theorem exp_artanh_le {x t : ℝ} (hx : |x| ≤ t) (ht : t < 1) : Real.exp (2 * |Real.artanh x|) ≤ (1 + t) / (1 - t) := by
  have key : ∀ y : ℝ, |y| ≤ t → Real.exp (2 * Real.artanh y) ≤ (1 + t) / (1 - t) := by
    intro y hy
    obtain ⟨y1, y2⟩ := abs_le.1 hy
    have p1 : 0 < 1 + y := by linarith
    have p2 : 0 < 1 - y := by linarith
    rw [artanh_eq (by linarith) (by linarith), show 2 * (1 / 2 * (Real.log (1 + y) - Real.log (1 - y))) =
      Real.log (1 + y) - Real.log (1 - y) by ring, Real.exp_sub, Real.exp_log p1, Real.exp_log p2]
    rw [div_le_div_iff₀ p2 (by linarith)]
    nlinarith
  obtain ⟨x1, x2⟩ := abs_le.1 hx
  rcases abs_choice (Real.artanh x) with h | h
  · rw [h]; exact key x hx
  · rw [h, ← artanh_neg' (by linarith) (by linarith)]
    exact key (-x) (by rwa [abs_neg])

/-- The point of the conformal sphere by transverse coordinates. -/
theorem sch_fwd {q Δ : ℝ} (hΔ : 0 < Real.cos Δ) : sch (xiR q Δ) (etaR q Δ) = sph (Real.arctan (Real.sinh q)) Δ := by
  obtain ⟨h1, h2⟩ := etaR_dom (q := q) hΔ
  have hR := R_pos (q := q) hΔ
  have hc := Real.cosh_pos q
  have e1 : 1 - (Real.sin Δ / Real.cosh q) ^ 2 = (Real.cos Δ ^ 2 + Real.sinh q ^ 2) / Real.cosh q ^ 2 := by
    have := Real.sin_sq_add_cos_sq Δ
    have := Real.cosh_sq q
    field_simp
    linarith
  have e2 : 1 + (Real.sinh q / Real.cos Δ) ^ 2 = (Real.cos Δ ^ 2 + Real.sinh q ^ 2) / Real.cos Δ ^ 2 := by
    field_simp
  have hs := Real.sqrt_pos.2 hR
  have ce : Real.cosh (etaR q Δ) = Real.cosh q / Real.sqrt (Real.cos Δ ^ 2 + Real.sinh q ^ 2) := by
    rw [etaR, cosh_artanh_sq h1 h2, e1, Real.sqrt_div hR.le, Real.sqrt_sq hc.le, one_div_div]
  have se : Real.sinh (etaR q Δ) / Real.cosh (etaR q Δ) = Real.sin Δ / Real.cosh q := by
    rw [← Real.tanh_eq_sinh_div_cosh, etaR, Real.tanh_artanh ⟨h1, h2⟩]
  have cx : Real.cos (xiR q Δ) = Real.cos Δ / Real.sqrt (Real.cos Δ ^ 2 + Real.sinh q ^ 2) := by
    rw [xiR, Real.cos_arctan, e2, Real.sqrt_div hR.le, Real.sqrt_sq hΔ.le, one_div_div]
  have sx : Real.sin (xiR q Δ) = Real.sinh q / Real.sqrt (Real.cos Δ ^ 2 + Real.sinh q ^ 2) := by
    rw [xiR, Real.sin_arctan, e2, Real.sqrt_div hR.le, Real.sqrt_sq hΔ.le]
    field_simp
  have cg : Real.cos (Real.arctan (Real.sinh q)) = 1 / Real.cosh q := by
    rw [Real.cos_arctan, add_comm, ← Real.cosh_sq, Real.sqrt_sq hc.le]
  rw [sch, sph, se, ce, cx, sx, cg, sin_arctan_sinh, Real.tanh_eq_sinh_div_cosh]
  congr 1
  ext i
  fin_cases i
  · simp; field_simp
  · simp; field_simp
  · simp; field_simp

theorem sph_bwd {ξ η : ℝ} (hξ : 0 < Real.cos ξ) :
    sph (Real.arcsin (Real.sin ξ / Real.cosh η))
      (Real.arcsin (Real.tanh η / Real.cos (Real.arcsin (Real.sin ξ / Real.cosh η)))) = sch ξ η := by
  have hc := Real.cosh_pos η
  have hc1 := Real.one_le_cosh η
  have hs := Real.sin_sq_add_cos_sq ξ
  have hh := Real.cosh_sq η
  set y := Real.sin ξ / Real.cosh η with hy
  have hy2 : 1 - y ^ 2 = (Real.cos ξ ^ 2 + Real.sinh η ^ 2) / Real.cosh η ^ 2 := by
    rw [hy]; field_simp; linarith
  have hpos : 0 < 1 - y ^ 2 := by rw [hy2]; positivity
  have y1 : -1 ≤ y ∧ y ≤ 1 := abs_le.1 (abs_le_of_sq_le_sq' (by linarith) zero_le_one |> abs_le.2)
  have hcb : 0 < Real.cos (Real.arcsin y) := by rw [Real.cos_arcsin]; exact Real.sqrt_pos.2 hpos
  have hcb2 : Real.cos (Real.arcsin y) ^ 2 = 1 - y ^ 2 := by rw [Real.cos_arcsin, Real.sq_sqrt hpos.le]
  set w := Real.tanh η / Real.cos (Real.arcsin y) with hw
  have hw2 : Real.cos (Real.arcsin y) ^ 2 * (1 - w ^ 2) = (Real.cos ξ / Real.cosh η) ^ 2 := by
    rw [hw, Real.tanh_eq_sinh_div_cosh]
    field_simp
    rw [hcb2, hy2]
    field_simp
    ring
  have hw1 : 0 < 1 - w ^ 2 := by
    by_contra hcon
    push Not at hcon
    have h1 : 0 < (Real.cos ξ / Real.cosh η) ^ 2 := by positivity
    nlinarith [sq_nonneg (Real.cos (Real.arcsin y))]
  have w1 : -1 ≤ w ∧ w ≤ 1 := abs_le.1 (abs_le_of_sq_le_sq' (by linarith) zero_le_one |> abs_le.2)
  have e1 : Real.cos (Real.arcsin y) * Real.cos (Real.arcsin w) = Real.cos ξ / Real.cosh η := by
    have h1 : 0 ≤ Real.cos (Real.arcsin y) * Real.cos (Real.arcsin w) := mul_nonneg hcb.le (Real.cos_arcsin_nonneg _)
    have h2 : 0 ≤ Real.cos ξ / Real.cosh η := by positivity
    rw [← pow_left_inj₀ h1 h2 two_ne_zero, mul_pow, ← hw2, Real.cos_arcsin w, Real.sq_sqrt hw1.le]
  have e2 : Real.cos (Real.arcsin y) * Real.sin (Real.arcsin w) = Real.sinh η / Real.cosh η := by
    rw [Real.sin_arcsin w1.1 w1.2, hw, mul_div_cancel₀ _ hcb.ne', Real.tanh_eq_sinh_div_cosh]
  rw [sph, sch, e1, e2, Real.sin_arcsin y1.1 y1.2]

theorem gd_lip (x y : ℝ) : |Real.arctan (Real.sinh x) - Real.arctan (Real.sinh y)| ≤ |x - y| := by
  have key := Convex.norm_image_sub_le_of_norm_hasDerivWithin_le (f := fun x => Real.arctan (Real.sinh x))
    (f' := fun x => 1 / Real.cosh x) (C := 1) (s := Set.univ) (x := y) (y := x) ?_ ?_ convex_univ (Set.mem_univ _)
    (Set.mem_univ _)
  · simpa [Real.norm_eq_abs] using key
  · intro z _
    refine ((Real.hasDerivAt_sinh z).arctan.congr_deriv ?_).hasDerivWithinAt
    have := (Real.cosh_pos z).ne'
    rw [show 1 + Real.sinh z ^ 2 = Real.cosh z ^ 2 by rw [Real.cosh_sq]; ring]
    field_simp
  · intro z _
    rw [Real.norm_eq_abs, abs_of_pos (by have := Real.cosh_pos z; positivity), div_le_one (Real.cosh_pos z)]
    exact Real.one_le_cosh z

theorem isoQ_gd (e u : ℝ) : isoQ e (Real.arctan (Real.sinh u)) = u - e * Real.artanh (e * Real.tanh u) :=
  isoQ_arctan_sinh e u

/-- A small displacement does not reach the pole. -/
theorem stays_front {e φ Δ ξ' η' τ : ℝ} (h0 : 0 ≤ e) (he : e ^ 2 ≤ 1 / 50) (g1 : -(Real.pi / 2) < φ) (g2 : φ < Real.pi / 2)
    (hτ0 : 0 ≤ τ) (hτ : 1007 / 1000 * τ < Real.cos φ * Real.cos Δ)
    (hd : ‖sch ξ' η' - sph (confR e φ) Δ‖ ≤ 1006 / 1000 * τ) : 0 < Real.cos ξ' := by
  have hdE := dE_near h0 he φ
  have hdE0 := dE_pos e φ
  have k1 := (PiLp.norm_apply_le (sch ξ' η' - sph (confR e φ) Δ) 0).trans hd
  simp only [PiLp.sub_apply, Real.norm_eq_abs] at k1
  have k2 := (abs_le.1 k1).1
  have k3 : (sch ξ' η') 0 = Real.cos ξ' / Real.cosh η' := rfl
  have k4 : (sph (confR e φ) Δ) 0 = Real.cos (confR e φ) * Real.cos Δ := rfl
  rw [k3, k4, confR_cos g1 g2] at k2
  have k5 : 1006 / 1000 * τ < Real.cos φ / dE e φ * Real.cos Δ := by
    rw [div_mul_eq_mul_div (Real.cos φ), lt_div_iff₀ hdE0]
    nlinarith
  have k6 : 0 < Real.cos ξ' / Real.cosh η' := by linarith
  have := Real.cosh_pos η'
  by_contra hcon
  push Not at hcon
  linarith [div_nonpos_of_nonpos_of_nonneg hcon this.le]

/-- The latitude found by the loop. -/
theorem loop_near {e u β ε : ℝ} (r1 : -(Real.pi / 2) < β) (r2 : β < Real.pi / 2)
    (hub : |u - iterR e (Real.arsinh (Real.tan β)) u| ≤ ε) : |confR e (Real.arctan (Real.sinh u)) - β| ≤ ε := by
  have hχ' : confR e (Real.arctan (Real.sinh u)) = Real.arctan (Real.sinh (isoQ e (Real.arctan (Real.sinh u)))) := by
    rw [confR_def, if_neg (Real.cos_arctan_pos _).ne']
  have hβ' : Real.arctan (Real.sinh (Real.arsinh (Real.tan β))) = β := by
    rw [Real.sinh_arsinh, Real.arctan_tan r1 r2]
  have h := gd_lip (isoQ e (Real.arctan (Real.sinh u))) (Real.arsinh (Real.tan β))
  rw [hβ', ← hχ'] at h
  refine h.trans ?_
  rw [isoQ_gd]
  unfold iterR at hub
  rwa [show u - e * Real.artanh (e * Real.tanh u) - Real.arsinh (Real.tan β)
    = u - (Real.arsinh (Real.tan β) + e * Real.artanh (e * Real.tanh u)) by ring]

theorem sin_lt_cosh_of_cos {ξ η : ℝ} (hc : 0 < Real.cos ξ) : |Real.sin ξ| < Real.cosh η := by
  have k1 := Real.one_le_cosh η
  have k2 : |Real.sin ξ| < 1 := by
    rw [← sq_lt_one_iff_abs_lt_one]
    nlinarith [Real.sin_sq_add_cos_sq ξ]
  linarith

/-- The distance on the ellipsoid to the position `unproj` returns. -/
theorem back_near {a b : ℝ} (hb : 0 < b) (hab : b ≤ a) (hE : ecc2 a b ≤ 1 / 50) {l l0 φ ξ' η' u τ : ℝ}
    (g1 : -(Real.pi / 2) < φ) (g2 : φ < Real.pi / 2) (hc : 0 < Real.cos ξ') (hτ0 : 0 ≤ τ) (hτ1 : τ ≤ 1 / 20)
    (hd : ‖sch ξ' η' - sph (confR (Real.sqrt (ecc2 a b)) φ) (l - l0)‖ ≤ τ)
    (hub : |u - iterR (Real.sqrt (ecc2 a b)) (Real.arsinh (Real.tan (Real.arcsin (Real.sin ξ' / Real.cosh η')))) u| ≤
      Real.sqrt (ecc2 a b) ^ 2 * 1e-12) :
    ‖surfacePoint a b (remR (l0 + Real.arcsin (Real.tanh η' / Real.cos (Real.arcsin (Real.sin ξ' / Real.cosh η')))))
        (Real.arctan (Real.sinh u)) - surfacePoint a b l φ‖ ≤ 1017 / 1000 * a * (τ + ecc2 a b * 1e-12) := by
  have hE0 := ecc2_nonneg hb hab
  have hdom := sin_lt_cosh_of_cos (η := η') hc
  have hch := Real.cosh_pos η'
  have hlt : |Real.sin ξ' / Real.cosh η'| < 1 := by rw [abs_div, abs_of_pos hch, div_lt_one hch]; exact hdom
  obtain ⟨b1, b2⟩ := abs_lt.1 hlt
  have r1 : -(Real.pi / 2) < Real.arcsin (Real.sin ξ' / Real.cosh η') := Real.neg_pi_div_two_lt_arcsin.2 b1
  have r2 : Real.arcsin (Real.sin ξ' / Real.cosh η') < Real.pi / 2 := Real.arcsin_lt_pi_div_two.2 b2
  have hbk := sph_bwd (η := η') hc
  rw [Real.sq_sqrt hE0] at hub
  have hχβ := loop_near r1 r2 hub
  set e := Real.sqrt (ecc2 a b)
  set β := Real.arcsin (Real.sin ξ' / Real.cosh η')
  set Δ' := Real.arcsin (Real.tanh η' / Real.cos β)
  set φ' := Real.arctan (Real.sinh u) with hφ'
  have hsame : SameDirection (remR (l0 + Δ')) (l0 + Δ') := remR_same _
  have hrot : ∀ χ χ' : ℝ, ‖sph χ (remR (l0 + Δ')) - sph χ' l‖ = ‖sph χ Δ' - sph χ' (l - l0)‖ := by
    intro χ χ'
    rw [← pow_left_inj₀ (norm_nonneg _) (norm_nonneg _) two_ne_zero, sph_sub_sq, sph_sub_sq]
    rw [(hsame.sub (SameDirection.refl l)).cos, show l0 + Δ' - l = Δ' - (l - l0) by ring]
  have hdist : ‖sph (confR e φ') (remR (l0 + Δ')) - sph (confR e φ) l‖ ≤ τ + ecc2 a b * 1e-12 := by
    rw [hrot]
    calc ‖sph (confR e φ') Δ' - sph (confR e φ) (l - l0)‖
        ≤ ‖sph (confR e φ') Δ' - sph β Δ'‖ + ‖sph β Δ' - sph (confR e φ) (l - l0)‖ :=
          norm_sub_le_norm_sub_add_norm_sub _ _ _
      _ ≤ ecc2 a b * 1e-12 + τ := by
          refine add_le_add ((sph_same_lon _ _ _).trans hχβ) ?_
          rw [hbk]; exact hd
      _ = _ := add_comm _ _
  refine surface_le hb hab hE (Real.neg_pi_div_two_lt_arctan _) (Real.arctan_lt_pi_div_two _) g1 g2 (by positivity) ?_ hdist
  linarith

/-- The plane coordinates come back near those of the conformal sphere. -/
theorem plane_near {M C : ℚ} (hcheck : Ser.Tm.check M Ser.Tm.hQ Ser.Tm.pQ C = true) (hC : 0 ≤ C) (hC1 : C ≤ 1000) {t : ℝ}
    (ht : t < 1) (htM : (1 + t) / (1 - t) ≤ M) {n e Δ φ : ℝ} (hn0 : 0 ≤ n) (hn1 : n ≤ 1 / 190) (hcφ : 0 < Real.cos φ)
    (hl : 0 < Real.cos Δ) (hl2 : |Real.sin Δ| ≤ t) {ξ' η' : ℝ}
    (hbw : bwd n (fwd n (xiR (isoQ e φ) Δ) (etaR (isoQ e φ) Δ)).1 (fwd n (xiR (isoQ e φ) Δ) (etaR (isoQ e φ) Δ)).2 =
      (ξ', η')) :
    ‖sch ξ' η' - sph (confR e φ) Δ‖ ≤ 1006 / 1000 * (C * n ^ 5) ∧ 0 ≤ C * n ^ 5 ∧ C * n ^ 5 ≤ 1 / 100 := by
  have hηt : Real.exp (2 * |etaR (isoQ e φ) Δ|) ≤ M := by
    refine (exp_artanh_le (t := t) ?_ ht).trans htM
    have := Real.one_le_cosh (isoQ e φ)
    rw [abs_div, abs_of_pos (Real.cosh_pos _), div_le_iff₀ (Real.cosh_pos _)]
    have := abs_nonneg (Real.sin Δ)
    nlinarith
  have hd := bwd_fwd hcheck hn0 hn1 hηt hC hbw
  have hCr : (0 : ℝ) ≤ C := by exact_mod_cast hC
  have hCr1 : (C : ℝ) ≤ 1000 := by exact_mod_cast hC1
  have hn5 : n ^ 5 ≤ 1 / 190 ^ 5 := by
    have := pow_le_pow_left₀ hn0 hn1 5
    rwa [div_pow, one_pow] at this
  have hτ0 : 0 ≤ C * n ^ 5 := by positivity
  have hτ1 : C * n ^ 5 ≤ 1 / 100 := by
    calc C * n ^ 5 ≤ 1000 * (1 / 190 ^ 5) := by gcongr
      _ ≤ 1 / 100 := by norm_num
  refine ⟨?_, hτ0, hτ1⟩
  rw [confR_def, if_neg hcφ.ne', ← sch_fwd hl]
  exact sch_near hτ0 (by linarith) hd

theorem tm_round {M C : ℚ} (hcheck : Ser.Tm.check M Ser.Tm.hQ Ser.Tm.pQ C = true) (hC : 0 ≤ C) (hC1 : C ≤ 1000) {t : ℝ}
    (ht : t < 1) (htM : (1 + t) / (1 - t) ≤ M) {a b : ℝ} (hb : 0 < b) (hab : b ≤ a) (hE : ecc2 a b ≤ 1 / 50) (s : String)
    (l0 : ℝ) {φ0 : ℝ} (h1 : -(Real.pi / 2) ≤ φ0) (h2 : φ0 ≤ Real.pi / 2) {k0 : ℝ} (hk : k0 ≠ 0) (fe fn : ℝ) {l φ : ℝ}
    (h : ℝ) (g1 : -(Real.pi / 2) < φ) (g2 : φ < Real.pi / 2) (hl : 0 < Real.cos (l - l0)) (hl2 : |Real.sin (l - l0)| ≤ t)
    (hp : 1007 / 1000 * (C * nR a b ^ 5) < Real.cos φ * Real.cos (l - l0)) :
    ∃ E N l' φ', (tmSpec s a b l0 φ0 k0 fe fn).proj (llh l φ h) = .ok (enh E N h) ∧
      (tmSpec s a b l0 φ0 k0 fe fn).unproj (enh E N h) = .ok (llh l' φ' h) ∧
      -Real.pi ≤ l' ∧ l' ≤ Real.pi ∧ -(Real.pi / 2) < φ' ∧ φ' < Real.pi / 2 ∧
      ‖surfacePoint a b l' φ' - surfacePoint a b l φ‖ ≤
        1017 / 1000 * a * (1006 / 1000 * (C * nR a b ^ 5) + ecc2 a b * 1e-12) := by
  have he0 := Real.sqrt_nonneg (ecc2 a b)
  have he1 := sqrt_ecc2_lt hb hab
  have hn0 := nR_nonneg hb hab
  have hn1 := nR_le hb hab hE
  have hkB : k0 * tmB a b ≠ 0 := mul_ne_zero hk (tmB_pos hb hab).ne'
  have hsq : Real.sqrt (ecc2 a b) ^ 2 ≤ 1 / 50 := by rw [Real.sq_sqrt (ecc2_nonneg hb hab)]; exact hE
  rw [tmSpec_eq hb hab s l0 h1 h2, Projection.proj, tmR_proj_iso he0 he1 l φ h g1 g2 hl]
  obtain ⟨ξ', η', hbw⟩ : ∃ ξ' η', bwd (nR a b)
      (fwd (nR a b) (xiR (isoQ (Real.sqrt (ecc2 a b)) φ) (l - l0)) (etaR (isoQ (Real.sqrt (ecc2 a b)) φ) (l - l0))).1
      (fwd (nR a b) (xiR (isoQ (Real.sqrt (ecc2 a b)) φ) (l - l0)) (etaR (isoQ (Real.sqrt (ecc2 a b)) φ) (l - l0))).2 =
      (ξ', η') := ⟨_, _, rfl⟩
  obtain ⟨hd, hτ0, hτ1⟩ := plane_near hcheck hC hC1 ht htM hn0 hn1 (cos_pos_of_lat g1 g2) hl hl2 hbw
  have hcx := stays_front he0 hsq g1 g2 hτ0 hp hd
  set E := tmEast (Real.sqrt (ecc2 a b)) l0 k0 fe (tmB a b) (tmh0 (nR a b)) (tmh1 (nR a b)) (tmh2 (nR a b)) (tmh3 (nR a b)) l φ
    with hEd
  set N := tmNorth (Real.sqrt (ecc2 a b)) l0 k0 fn (tmB a b) (tmh0 (nR a b)) (tmh1 (nR a b)) (tmh2 (nR a b)) (tmh3 (nR a b))
    (tmM0 a b φ0) l φ with hNd
  have e1 : (N - fn + k0 * tmM0 a b φ0) / (k0 * tmB a b) =
      (fwd (nR a b) (xiR (isoQ (Real.sqrt (ecc2 a b)) φ) (l - l0)) (etaR (isoQ (Real.sqrt (ecc2 a b)) φ) (l - l0))).1 := by
    rw [div_eq_iff hkB, hNd, tmNorth, fwd]; ring
  have e2 : (E - fe) / (k0 * tmB a b) =
      (fwd (nR a b) (xiR (isoQ (Real.sqrt (ecc2 a b)) φ) (l - l0)) (etaR (isoQ (Real.sqrt (ecc2 a b)) φ) (l - l0))).2 := by
    rw [div_eq_iff hkB, hEd, tmEast, fwd]; ring
  clear_value E N
  obtain ⟨u, hu, hub⟩ := tmR_unproj (Real.sqrt (ecc2 a b)) l0 k0 fe fn (tmB a b) (tmh0 (nR a b)) (tmh1 (nR a b))
    (tmh2 (nR a b)) (tmh3 (nR a b)) (tmp0 (nR a b)) (tmp1 (nR a b)) (tmp2 (nR a b)) (tmp3 (nR a b)) (tmM0 a b φ0) he0 he1 hkB
    E N h ξ' η' (by rw [e1, e2]; exact (congrArg Prod.fst hbw).symm) (by rw [e1, e2]; exact (congrArg Prod.snd hbw).symm)
    (sin_lt_cosh_of_cos hcx)
  exact ⟨E, N, _, _, rfl, by rw [Projection.unproj]; exact hu, le_remR _, remR_le _, Real.neg_pi_div_two_lt_arctan _,
    Real.arctan_lt_pi_div_two _, back_near hb hab hE g1 g2 hcx (by positivity) (by linarith) hd hub⟩

theorem cos_ge_of_sin {x t c : ℝ} (hx : 0 < Real.cos x) (hs : |Real.sin x| ≤ t) (hc : t ^ 2 + c ^ 2 ≤ 1) :
    c ≤ Real.cos x := by
  apply le_of_sq_le_sq _ hx.le
  have h := Real.sin_sq_add_cos_sq x
  have : Real.sin x ^ 2 ≤ t ^ 2 := by rw [← sq_abs]; exact pow_le_pow_left₀ (abs_nonneg _) hs 2
  linarith

/-- **C85**: on an ellipsoid of eccentricity `e² ≤ 1/50`, with any origin, scale factor and false origin, every position
within 30° of the central meridian comes back from `proj` and `unproj` at a distance of at most `275 a n⁵ + 1.1e-12 a e²`
(`n` the third flattening) on the ellipsoid, with its height. Excluded are the surroundings of the poles. -/
theorem C85_round_trip {a b : ℝ} (hb : 0 < b) (hab : b ≤ a) (hE : ecc2 a b ≤ 1 / 50) (s : String) (l0 : ℝ) {φ0 : ℝ}
    (h1 : -(Real.pi / 2) ≤ φ0) (h2 : φ0 ≤ Real.pi / 2) {k0 : ℝ} (hk : k0 ≠ 0) (fe fn : ℝ) {l φ : ℝ} (h : ℝ)
    (g1 : -(Real.pi / 2) < φ) (g2 : φ < Real.pi / 2) (hl : 0 < Real.cos (l - l0)) (hl2 : |Real.sin (l - l0)| ≤ 1 / 2)
    (hp : 320 * nR a b ^ 5 < Real.cos φ) :
    ∃ E N l' φ', (tmSpec s a b l0 φ0 k0 fe fn).proj (llh l φ h) = .ok (enh E N h) ∧
      (tmSpec s a b l0 φ0 k0 fe fn).unproj (enh E N h) = .ok (llh l' φ' h) ∧
      -Real.pi ≤ l' ∧ l' ≤ Real.pi ∧ -(Real.pi / 2) < φ' ∧ φ' < Real.pi / 2 ∧
      ‖surfacePoint a b l' φ' - surfacePoint a b l φ‖ ≤ a * (275 * nR a b ^ 5 + ecc2 a b * 1.1e-12) := by
  have ha : 0 < a := lt_of_lt_of_le hb hab
  have hn5 := pow_nonneg (nR_nonneg hb hab) 5
  have hE0 := ecc2_nonneg hb hab
  have hc := cos_ge_of_sin (c := 86 / 100) hl hl2 (by norm_num)
  obtain ⟨E, N, l', φ', e1, e2, e3, e4, e5, e6, e7⟩ := tm_round Ser.Tm.check_wide (by norm_num) (by norm_num) (t := 1 / 2)
    (by norm_num) (by norm_num) hb hab hE s l0 h1 h2 hk fe fn h g1 g2 hl hl2 (by push_cast; nlinarith)
  refine ⟨E, N, l', φ', e1, e2, e3, e4, e5, e6, e7.trans ?_⟩
  push_cast
  have k1 := mul_nonneg ha.le hn5
  have k2 := mul_nonneg ha.le hE0
  nlinarith

/-- **C85**, in a zone: within 6.3° of the central meridian the distance is at most `13 a n⁵ + 1.1e-12 a e²`. -/
theorem C85_round_trip_zone {a b : ℝ} (hb : 0 < b) (hab : b ≤ a) (hE : ecc2 a b ≤ 1 / 50) (s : String) (l0 : ℝ) {φ0 : ℝ}
    (h1 : -(Real.pi / 2) ≤ φ0) (h2 : φ0 ≤ Real.pi / 2) {k0 : ℝ} (hk : k0 ≠ 0) (fe fn : ℝ) {l φ : ℝ} (h : ℝ)
    (g1 : -(Real.pi / 2) < φ) (g2 : φ < Real.pi / 2) (hl : 0 < Real.cos (l - l0)) (hl2 : |Real.sin (l - l0)| ≤ 1 / 9)
    (hp : 13 * nR a b ^ 5 < Real.cos φ) :
    ∃ E N l' φ', (tmSpec s a b l0 φ0 k0 fe fn).proj (llh l φ h) = .ok (enh E N h) ∧
      (tmSpec s a b l0 φ0 k0 fe fn).unproj (enh E N h) = .ok (llh l' φ' h) ∧
      -Real.pi ≤ l' ∧ l' ≤ Real.pi ∧ -(Real.pi / 2) < φ' ∧ φ' < Real.pi / 2 ∧
      ‖surfacePoint a b l' φ' - surfacePoint a b l φ‖ ≤ a * (13 * nR a b ^ 5 + ecc2 a b * 1.1e-12) := by
  have ha : 0 < a := lt_of_lt_of_le hb hab
  have hn5 := pow_nonneg (nR_nonneg hb hab) 5
  have hE0 := ecc2_nonneg hb hab
  have hc := cos_ge_of_sin (c := 99 / 100) hl hl2 (by norm_num)
  obtain ⟨E, N, l', φ', e1, e2, e3, e4, e5, e6, e7⟩ := tm_round Ser.Tm.check_zone (by norm_num) (by norm_num) (t := 1 / 9)
    (by norm_num) (by norm_num) hb hab hE s l0 h1 h2 hk fe fn h g1 g2 hl hl2 (by push_cast; nlinarith)
  refine ⟨E, N, l', φ', e1, e2, e3, e4, e5, e6, e7.trans ?_⟩
  push_cast
  have k1 := mul_nonneg ha.le hn5
  have k2 := mul_nonneg ha.le hE0
  nlinarith

/-- On WGS84, 0.1 rad from the central meridian: within 2 micrometres. -/
example : ∃ E N l' φ', (tmSpec "WGS 84" 6378137 6356752.314245179 0.2 0 0.9996 500000 0).proj (llh 0.3 0.7 12) =
      .ok (enh E N 12) ∧
    (tmSpec "WGS 84" 6378137 6356752.314245179 0.2 0 0.9996 500000 0).unproj (enh E N 12) = .ok (llh l' φ' 12) ∧
    ‖surfacePoint 6378137 6356752.314245179 l' φ' - surfacePoint 6378137 6356752.314245179 0.3 0.7‖ ≤ 2e-6 := by
  have hp := Real.pi_gt_three
  have hc : (7 / 10 : ℝ) ≤ Real.cos 0.7 := by
    have := Real.one_sub_sq_div_two_le_cos (x := (0.7 : ℝ))
    norm_num at this ⊢
    linarith
  have hd : (0.3 - 0.2 : ℝ) = 0.1 := by norm_num
  obtain ⟨E, N, l', φ', e1, e2, -, -, -, -, e7⟩ := C85_round_trip_zone (a := 6378137) (b := 6356752.314245179) (by norm_num)
    (by norm_num) (by norm_num [ecc2]) "WGS 84" 0.2 (φ0 := 0) (by linarith) (by linarith) (k0 := 0.9996) (by norm_num)
    500000 0 (l := 0.3) (φ := 0.7) 12 (by linarith) (by linarith)
    (by rw [hd]; exact Real.cos_pos_of_mem_Ioo ⟨by linarith, by linarith⟩)
    (by
      rw [hd, abs_of_pos (Real.sin_pos_of_pos_of_lt_pi (by norm_num) (by linarith))]
      exact (Real.sin_le (by norm_num)).trans (by norm_num))
    (by refine lt_of_lt_of_le ?_ hc; norm_num [nR])
  refine ⟨E, N, l', φ', e1, e2, e7.trans ?_⟩
  norm_num [nR, ecc2]

end Geo
