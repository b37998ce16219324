import Mathlib.Analysis.Complex.ExponentialBounds
import Verif.Lemmas.TransverseReverse

/-!
C86: the transverse Mercator round trip from the plane. Exact arithmetic.
-/

namespace Geo
open XR Spec Conf Frame MerArc TmRound

theorem tanh_le_of_exp {η : ℝ} (h : Real.exp (2 * |η|) ≤ 16 / 5) : |Real.tanh η| ≤ 53 / 100 := by
  rw [Real.tanh_eq_sinh_div_cosh, abs_div, abs_of_pos (Real.cosh_pos η), div_le_iff₀ (Real.cosh_pos η), Real.abs_sinh,
    ← Real.cosh_abs, Real.sinh_eq, Real.cosh_eq, Real.exp_neg]
  have hx := Real.exp_pos |η|
  rw [two_mul, Real.exp_add] at h
  set x := Real.exp |η|
  have : x⁻¹ * (x * x) = x := by field_simp
  have h2 : 0 < x⁻¹ := by positivity
  nlinarith

theorem tmB_between {a b : ℝ} (hb : 0 < b) (hab : b ≤ a) (hE : ecc2 a b ≤ 1 / 50) :
    190 / 191 * a ≤ tmB a b ∧ tmB a b ≤ a := by
  have ha : 0 < a := lt_of_lt_of_le hb hab
  have h0 := nR_nonneg hb hab
  have h1 := nR_le hb hab hE
  rw [tmB, div_mul_eq_mul_div a]
  set n := nR a b
  have p2 : n ^ 2 ≤ n := by nlinarith
  have p4 : n ^ 4 ≤ n := by nlinarith [sq_nonneg n, pow_nonneg h0 3]
  have hp : 0 < 1 + n := by linarith
  constructor
  · rw [le_div_iff₀ hp]
    have : 190 / 191 * (1 + n) ≤ 1 + n ^ 2 / 4 + n ^ 4 / 64 := by nlinarith [sq_nonneg n, pow_nonneg h0 4]
    nlinarith
  · rw [div_le_iff₀ hp]
    have : 1 + n ^ 2 / 4 + n ^ 4 / 64 ≤ 1 + n := by linarith
    nlinarith

theorem tm_back {M C : ℚ} (hcheck : Ser.Tm.check M Ser.Tm.pQ Ser.Tm.hQ C = true) (hC : 0 ≤ C) (hM : M ≤ 3) {a b : ℝ}
    (hb : 0 < b) (hab : b ≤ a) (hE : ecc2 a b ≤ 1 / 50) (s : String)
    (l0 : ℝ) {φ0 : ℝ} (h1 : -(Real.pi / 2) ≤ φ0) (h2 : φ0 ≤ Real.pi / 2) {k0 : ℝ} (hk : k0 ≠ 0) (fe fn : ℝ) {E N : ℝ}
    (h : ℝ) (hη : Real.exp (2 * |(E - fe) / (k0 * tmB a b)|) ≤ M)
    (hξ : |(N - fn + k0 * tmM0 a b φ0) / (k0 * tmB a b)| < Real.pi / 2) :
    ∃ l φ E' N', (tmSpec s a b l0 φ0 k0 fe fn).unproj (enh E N h) = .ok (llh l φ h) ∧
      -Real.pi ≤ l ∧ l ≤ Real.pi ∧ -(Real.pi / 2) < φ ∧ φ < Real.pi / 2 ∧
      (tmSpec s a b l0 φ0 k0 fe fn).proj (llh l φ h) = .ok (enh E' N' h) ∧
      |E' - E| ≤ |k0| * a * (C * nR a b ^ 5 + ecc2 a b * 2e-12) ∧
      |N' - N| ≤ |k0| * a * (C * nR a b ^ 5 + ecc2 a b * 2e-12) := by
  have ha : 0 < a := lt_of_lt_of_le hb hab
  have he0 := Real.sqrt_nonneg (ecc2 a b)
  have he1 := sqrt_ecc2_lt hb hab
  have hE0 := ecc2_nonneg hb hab
  have hn0 := nR_nonneg hb hab
  have hn1 := nR_le hb hab hE
  have hB := tmB_pos hb hab
  have hBa := (tmB_between hb hab hE).2
  have hkB : k0 * tmB a b ≠ 0 := mul_ne_zero hk hB.ne'
  have hCr : (0 : ℝ) ≤ C := by exact_mod_cast hC
  have hMr : (M : ℝ) ≤ 3 := by exact_mod_cast hM
  rw [tmSpec_eq hb hab s l0 h1 h2]
  set x := (N - fn + k0 * tmM0 a b φ0) / (k0 * tmB a b) with hx
  set y := (E - fe) / (k0 * tmB a b) with hy
  obtain ⟨ξ', η', hbw⟩ : ∃ ξ' η', bwd (nR a b) x y = (ξ', η') := ⟨_, _, rfl⟩
  obtain ⟨f1, f2⟩ := bwd_front hn0 hn1 (hη.trans hMr) hξ
  rw [hbw] at f1 f2
  simp only at f1 f2
  obtain ⟨hcΔ, r1, r2, i1, i2⟩ := schreiber_inv (η := η') f1
  have hcx : 0 < Real.cos ξ' := Real.cos_pos_of_mem_Ioo (abs_lt.1 f1)
  obtain ⟨u, hu, hub⟩ := tmR_unproj (Real.sqrt (ecc2 a b)) l0 k0 fe fn (tmB a b) (tmh0 (nR a b)) (tmh1 (nR a b))
    (tmh2 (nR a b)) (tmh3 (nR a b)) (tmp0 (nR a b)) (tmp1 (nR a b)) (tmp2 (nR a b)) (tmp3 (nR a b)) (tmM0 a b φ0) he0 he1 hkB
    E N h ξ' η' (congrArg Prod.fst hbw).symm (congrArg Prod.snd hbw).symm (sin_lt_cosh_of_cos hcx)
  rw [Real.sq_sqrt hE0] at hub
  set β := Real.arcsin (Real.sin ξ' / Real.cosh η')
  set Δ := Real.arcsin (Real.tanh η' / Real.cos β)
  set e := Real.sqrt (ecc2 a b)
  set q := Real.arsinh (Real.tan β)
  set φ := Real.arctan (Real.sinh u) with hφ
  set q' := isoQ e φ with hq'
  have hqq : |q' - q| ≤ ecc2 a b * 1e-12 := by
    rw [hq', hφ, isoQ_gd]
    unfold iterR at hub
    rwa [show u - e * Real.artanh (e * Real.tanh u) - q = u - (q + e * Real.artanh (e * Real.tanh u)) by ring]
  have hsame : SameDirection (remR (l0 + Δ) - l0) Δ := by
    have := (remR_same (l0 + Δ)).sub (SameDirection.refl l0)
    rwa [add_sub_cancel_left] at this
  have ht : |Real.sin Δ| ≤ 53 / 100 * Real.cosh q := by
    have k := tanh_le_of_exp f2
    rw [← i2, etaR, Real.tanh_artanh (by obtain ⟨k1, k2⟩ := etaR_dom (q := q) hcΔ; exact ⟨k1, k2⟩), abs_div,
      abs_of_pos (Real.cosh_pos q), div_le_iff₀ (Real.cosh_pos q)] at k
    exact k
  obtain ⟨m1, m2⟩ := fwd_near hn0 hn1 hcΔ ht hqq (by nlinarith)
  have hd := fwd_bwd hcheck hn0 hn1 hη hC (ξ' := (fwd (nR a b) ξ' η').1) (η' := (fwd (nR a b) ξ' η').2) (by rw [hbw])
  rw [i1, i2] at m1 m2
  have hCn : 0 ≤ C * nR a b ^ 5 := by positivity
  have d1 : |(fwd (nR a b) ξ' η').1 - x| ≤ C * nR a b ^ 5 :=
    abs_le_of_sq_le_sq (by nlinarith [sq_nonneg ((fwd (nR a b) ξ' η').2 - y)]) hCn
  have d2 : |(fwd (nR a b) ξ' η').2 - y| ≤ C * nR a b ^ 5 :=
    abs_le_of_sq_le_sq (by nlinarith [sq_nonneg ((fwd (nR a b) ξ' η').1 - x)]) hCn
  have hxi : xiR q' (remR (l0 + Δ) - l0) = xiR q' Δ := by rw [xiR, xiR, hsame.cos]
  have heta : etaR q' (remR (l0 + Δ) - l0) = etaR q' Δ := by rw [etaR, etaR, hsame.sin]
  have g1 : -(Real.pi / 2) < φ := Real.neg_pi_div_two_lt_arctan _
  have g2 : φ < Real.pi / 2 := Real.arctan_lt_pi_div_two _
  refine ⟨remR (l0 + Δ), φ, tmEast e l0 k0 fe (tmB a b) (tmh0 (nR a b)) (tmh1 (nR a b)) (tmh2 (nR a b)) (tmh3 (nR a b))
      (remR (l0 + Δ)) φ, tmNorth e l0 k0 fn (tmB a b) (tmh0 (nR a b)) (tmh1 (nR a b)) (tmh2 (nR a b)) (tmh3 (nR a b))
      (tmM0 a b φ0) (remR (l0 + Δ)) φ, by rw [Projection.unproj]; exact hu, le_remR _, remR_le _, g1, g2,
    by rw [Projection.proj]; exact tmR_proj_iso he0 he1 _ φ h g1 g2 (by rw [hsame.cos]; exact hcΔ), ?_, ?_⟩
  · have e1 : tmEast e l0 k0 fe (tmB a b) (tmh0 (nR a b)) (tmh1 (nR a b)) (tmh2 (nR a b)) (tmh3 (nR a b))
        (remR (l0 + Δ)) φ = fe + k0 * tmB a b * (fwd (nR a b) (xiR q' Δ) (etaR q' Δ)).2 := by
      rw [tmEast, fwd, ← hq', hxi, heta]
    have e2 : E = fe + k0 * tmB a b * y := by rw [hy]; field_simp; ring
    rw [e1, e2, show ∀ p r s w : ℝ, p + r * s - (p + r * w) = r * (s - w) by intros; ring, abs_mul, abs_mul, abs_of_pos hB]
    have t : |(fwd (nR a b) (xiR q' Δ) (etaR q' Δ)).2 - y| ≤ C * nR a b ^ 5 + ecc2 a b * 2e-12 :=
      (abs_sub_le _ (fwd (nR a b) ξ' η').2 _).trans (by linarith)
    gcongr
  · have e1 : tmNorth e l0 k0 fn (tmB a b) (tmh0 (nR a b)) (tmh1 (nR a b)) (tmh2 (nR a b)) (tmh3 (nR a b)) (tmM0 a b φ0)
        (remR (l0 + Δ)) φ = fn - k0 * tmM0 a b φ0 + k0 * tmB a b * (fwd (nR a b) (xiR q' Δ) (etaR q' Δ)).1 := by
      rw [tmNorth, fwd, ← hq', hxi, heta]; ring
    have e2 : N = fn - k0 * tmM0 a b φ0 + k0 * tmB a b * x := by rw [hx]; field_simp; ring
    rw [e1]
    conv_lhs => rw [e2]
    rw [show ∀ p r s w : ℝ, p + r * s - (p + r * w) = r * (s - w) by intros; ring, abs_mul, abs_mul, abs_of_pos hB]
    have t : |(fwd (nR a b) (xiR q' Δ) (etaR q' Δ)).1 - x| ≤ C * nR a b ^ 5 + ecc2 a b * 2e-12 :=
      (abs_sub_le _ (fwd (nR a b) ξ' η').1 _).trans (by linarith)
    gcongr

theorem abs_east_le {a b k0 d t : ℝ} (hb : 0 < b) (hab : b ≤ a) (hE : ecc2 a b ≤ 1 / 50) (hk : k0 ≠ 0)
    (hd : |d| ≤ t * (|k0| * a)) (ht : 0 ≤ t) : |d / (k0 * tmB a b)| ≤ 191 / 190 * t := by
  have hk' := abs_pos.2 hk
  obtain ⟨hB, -⟩ := tmB_between hb hab hE
  have hB0 := tmB_pos hb hab
  rw [abs_div, abs_mul, abs_of_pos hB0, div_le_iff₀ (by positivity)]
  have : t * (|k0| * a) ≤ t * (|k0| * (191 / 190 * tmB a b)) := by gcongr; linarith
  linarith

theorem abs_north_lt {a b k0 d : ℝ} (hb : 0 < b) (hab : b ≤ a) (hk : k0 ≠ 0)
    (hd : |d| < |k0| * tmB a b * (Real.pi / 2)) : |d / (k0 * tmB a b)| < Real.pi / 2 := by
  have hk' := abs_pos.2 hk
  have hB0 := tmB_pos hb hab
  rw [abs_div, abs_mul, abs_of_pos hB0, div_lt_iff₀ (by positivity)]
  linarith

/-- **C86**: on an ellipsoid of eccentricity `e² ≤ 1/50`, with any origin, scale factor and false origin: a point of the
plane, at most half the scaled semi-major axis east or west of the central meridian and strictly between the images of the
poles in northing, comes back from `unproj` and `proj` within `|k0| a (565 n⁵ + 2e-12 e²)` in easting and in northing. -/
theorem C86_round_trip {a b : ℝ} (hb : 0 < b) (hab : b ≤ a) (hE : ecc2 a b ≤ 1 / 50) (s : String) (l0 : ℝ) {φ0 : ℝ}
    (h1 : -(Real.pi / 2) ≤ φ0) (h2 : φ0 ≤ Real.pi / 2) {k0 : ℝ} (hk : k0 ≠ 0) (fe fn : ℝ) {E N : ℝ} (h : ℝ)
    (hx : |E - fe| ≤ 1 / 2 * (|k0| * a)) (hy : |N - fn + k0 * tmM0 a b φ0| < |k0| * tmB a b * (Real.pi / 2)) :
    ∃ l φ E' N', (tmSpec s a b l0 φ0 k0 fe fn).unproj (enh E N h) = .ok (llh l φ h) ∧
      -Real.pi ≤ l ∧ l ≤ Real.pi ∧ -(Real.pi / 2) < φ ∧ φ < Real.pi / 2 ∧
      (tmSpec s a b l0 φ0 k0 fe fn).proj (llh l φ h) = .ok (enh E' N' h) ∧
      |E' - E| ≤ |k0| * a * (565 * nR a b ^ 5 + ecc2 a b * 2e-12) ∧
      |N' - N| ≤ |k0| * a * (565 * nR a b ^ 5 + ecc2 a b * 2e-12) := by
  have he := abs_east_le hb hab hE hk hx (by norm_num)
  have key := tm_back Ser.Tm.check_wide' (by norm_num) (by norm_num) hb hab hE s l0 h1 h2 hk fe fn (E := E) h ?_
    (abs_north_lt hb hab hk hy)
  · simpa using key
  · have h9 := Real.exp_one_lt_d9
    calc Real.exp (2 * |(E - fe) / (k0 * tmB a b)|) ≤ Real.exp (1 + 1 / 190) := Real.exp_le_exp.2 (by linarith)
      _ = Real.exp 1 * Real.exp (1 / 190) := Real.exp_add _ _
      _ ≤ 2.7182818286 * (190 / 189) := by
        have e1 : Real.exp (1 / 190) ≤ 190 / 189 := by
          have := Real.add_one_le_exp (-(1 / 190 : ℝ))
          have h2 := Real.exp_add (1 / 190 : ℝ) (-(1 / 190))
          rw [add_neg_cancel, Real.exp_zero] at h2
          nlinarith [Real.exp_pos (1 / 190 : ℝ)]
        gcongr
      _ ≤ _ := by norm_num

/-- **C86**, in a zone: at most a tenth of the scaled semi-major axis from the central meridian, within
`|k0| a (30 n⁵ + 2e-12 e²)`. -/
theorem C86_round_trip_zone {a b : ℝ} (hb : 0 < b) (hab : b ≤ a) (hE : ecc2 a b ≤ 1 / 50) (s : String) (l0 : ℝ) {φ0 : ℝ}
    (h1 : -(Real.pi / 2) ≤ φ0) (h2 : φ0 ≤ Real.pi / 2) {k0 : ℝ} (hk : k0 ≠ 0) (fe fn : ℝ) {E N : ℝ} (h : ℝ)
    (hx : |E - fe| ≤ 1 / 10 * (|k0| * a)) (hy : |N - fn + k0 * tmM0 a b φ0| < |k0| * tmB a b * (Real.pi / 2)) :
    ∃ l φ E' N', (tmSpec s a b l0 φ0 k0 fe fn).unproj (enh E N h) = .ok (llh l φ h) ∧
      -Real.pi ≤ l ∧ l ≤ Real.pi ∧ -(Real.pi / 2) < φ ∧ φ < Real.pi / 2 ∧
      (tmSpec s a b l0 φ0 k0 fe fn).proj (llh l φ h) = .ok (enh E' N' h) ∧
      |E' - E| ≤ |k0| * a * (30 * nR a b ^ 5 + ecc2 a b * 2e-12) ∧
      |N' - N| ≤ |k0| * a * (30 * nR a b ^ 5 + ecc2 a b * 2e-12) := by
  have he := abs_east_le hb hab hE hk hx (by norm_num)
  have key := tm_back Ser.Tm.check_zone' (by norm_num) (by norm_num) hb hab hE s l0 h1 h2 hk fe fn (E := E) h ?_
    (abs_north_lt hb hab hk hy)
  · simpa using key
  · calc Real.exp (2 * |(E - fe) / (k0 * tmB a b)|) ≤ Real.exp (191 / 950) := Real.exp_le_exp.2 (by linarith)
      _ ≤ _ := by
        have : Real.exp (191 / 950 : ℝ) ≤ 5 / 4 := by
          have h3 := Real.exp_bound_div_one_sub_of_interval (x := (191 / 1900 : ℝ)) (by norm_num) (by norm_num)
          rw [show (191 / 950 : ℝ) = 191 / 1900 + 191 / 1900 by norm_num, Real.exp_add]
          norm_num at h3 ⊢
          nlinarith [Real.exp_pos (191 / 1900 : ℝ)]
        push_cast
        exact this

/-- UTM on WGS84, 200 km east of the central meridian and 5000 km north of the equator: within 3 micrometres. -/
example : ∃ l φ E' N', (tmSpec "WGS 84" 6378137 6356752.314245179 0.2 0 0.9996 500000 0).unproj (enh 700000 5000000 12) =
      .ok (llh l φ 12) ∧
    (tmSpec "WGS 84" 6378137 6356752.314245179 0.2 0 0.9996 500000 0).proj (llh l φ 12) = .ok (enh E' N' 12) ∧
    |E' - 700000| ≤ 3e-6 ∧ |N' - 5000000| ≤ 3e-6 := by
  have hp := Real.pi_gt_three
  have hE : ecc2 6378137 6356752.314245179 ≤ 1 / 50 := by norm_num [ecc2]
  have hB := (tmB_between (a := 6378137) (b := 6356752.314245179) (by norm_num) (by norm_num) hE).1
  obtain ⟨l, φ, E', N', e1, -, -, -, -, e2, e3, e4⟩ := C86_round_trip_zone (a := 6378137) (b := 6356752.314245179)
    (by norm_num) (by norm_num) hE "WGS 84" 0.2 (φ0 := 0) (by linarith) (by linarith) (k0 := 0.9996) (by norm_num)
    500000 0 (E := 700000) (N := 5000000) 12 (by norm_num [abs_of_pos])
    (by
      rw [tmM0, if_pos rfl, abs_of_pos (by norm_num), abs_of_pos (by norm_num)]
      nlinarith)
  refine ⟨l, φ, E', N', e1, e2, e3.trans ?_, e4.trans ?_⟩ <;> norm_num [nR, ecc2, abs_of_pos]

end Geo
