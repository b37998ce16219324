import Verif.Lemmas.VincentySeries
import Verif.Lemmas.SurfaceGeodesic
import Verif.Spec.Geodesics
import Verif.Spec.Rapp

/-! The equations of Vincenty and of Rapp are the integrals of the geodesic, up to a bound of the error. -/

namespace Geo.Ser

/-- Zero coefficients below the order `j`. -/
theorem Is.bound_from {K : Type} [RCLike K] {r M : ℚ} {N j : ℕ} {E : Env K r M} {a : Mod} {f : K} (ha : Is N E a f)
    (hj : j ≤ N) (hz : (a.co.take j).all Co.isZero = true) {C : ℚ} (hC : sn r M (a.co.drop j) + a.rem * r ^ (N - j) ≤ C) :
    ‖f‖ ≤ C * ‖E.ε‖ ^ j := by
  have h := ha.2
  have hr := E.r_nonneg
  have h0 : (0 : ℝ) ≤ a.rem := by exact_mod_cast ha.1
  have hs : sv E a.co = E.ε ^ j * sv E (a.co.drop j) := by
    have h1 := sv_allZero E _ hz
    have h2 := peval_split (φ := cv E) (x := E.ε) j a.co
    simp only [sv] at h1 ⊢
    rw [h2, h1, zero_add]
  have hC' : ((sn r M (a.co.drop j) : ℚ) : ℝ) + a.rem * r ^ (N - j) ≤ C := by exact_mod_cast hC
  rw [show f = sv E a.co + (f - sv E a.co) by ring]
  refine (norm_add_le _ _).trans (le_trans ?_ (mul_le_mul_of_nonneg_right hC' (by positivity)))
  rw [add_mul]
  refine add_le_add ?_ ?_
  · rw [hs, norm_mul, norm_pow, mul_comm]
    exact mul_le_mul_of_nonneg_right (norm_sv E _) (by positivity)
  · refine h.trans ?_
    have e : ‖E.ε‖ ^ N = ‖E.ε‖ ^ (N - j) * ‖E.ε‖ ^ j := by rw [← pow_add]; congr 1; omega
    rw [e, mul_assoc]
    have := E.hε
    gcongr

namespace Vin

/-- The parameter `u²` and the angle `2 σ`. -/
noncomputable def env {x : ℝ} (h0 : 0 ≤ x) (h1 : x ≤ 1 / 20) (σ : ℝ) : Env ℝ r0 1 :=
  realEnv x (2 * σ) (by rw [abs_of_nonneg h0]; norm_num [r0]; linarith)

/-- The integrand of the distance, over the minor axis. -/
noncomputable def root (x σ : ℝ) : ℝ := Real.sqrt (1 + x * Real.sin σ ^ 2)

theorem root_sq {x : ℝ} (h0 : 0 ≤ x) (σ : ℝ) : root x σ ^ 2 = 1 + x * Real.sin σ ^ 2 :=
  Real.sq_sqrt (by positivity)
theorem one_le_root {x : ℝ} (h0 : 0 ≤ x) (σ : ℝ) : 1 ≤ root x σ :=
  Real.one_le_sqrt.2 (by have : 0 ≤ x * Real.sin σ ^ 2 := by positivity
                         linarith)

/-- The derivative of Vincenty's distance. -/
noncomputable def pVin (x σ : ℝ) : ℝ := Spec.vincentyA x * (1 - Spec.vincentyB x * Real.cos (2 * σ)
  - 1 / 4 * (Spec.vincentyB x ^ 2 * Real.cos (4 * σ)) - 1 / 8 * (Spec.vincentyB x ^ 3 * Real.cos (6 * σ)))

/-- The derivative of Rapp's distance. -/
noncomputable def pRapp (x σ : ℝ) : ℝ := Spec.rappB0 x + Spec.rappB2 x * Real.cos (2 * σ)
  + 2 * (Spec.rappB4 x * Real.cos (4 * σ)) + 3 * (Spec.rappB6 x * Real.cos (6 * σ))

section
variable {x : ℝ} (h0 : 0 ≤ x) (h1 : x ≤ 1 / 20) (σ : ℝ)
include h0 h1

/-- From the squares to the functions. -/
theorem near {m : Mod} {p : ℝ} {C : ℚ} (ip : Is 7 (env h0 h1 σ) m p)
    (c1 : (((mulM m m).sub (.exact wwL)).co.take 4).all Co.isZero = true)
    (c2 : sn r0 1 (((mulM m m).sub (.exact wwL)).co.drop 4) + ((mulM m m).sub (.exact wwL)).rem * r0 ^ 3 ≤ C)
    (c3 : (m.sub oneM).co.head?.all Co.isZero = true) (c4 : (m.sub oneM).slope 7 r0 1 ≤ 51 / 100) :
    |p - root x σ| ≤ C * (10 / 19) * x ^ 4 ∧ |p - 1| ≤ 51 / 100 * x := by
  have i1 : Is 7 (env h0 h1 σ) oneM (1 : ℝ) := (Is.const _ _).congr (by rw [cv_ofQ]; norm_num)
  have iq : Is 7 (env h0 h1 σ) (.exact wwL) (root x σ ^ 2) := by
    refine (Is.exact _ _).congr ?_
    rw [root_sq h0, Real.sin_sq_eq_half_sub]
    simp only [sv, wwL, peval, cv_add, cv_mul, cv_ofQ, cv_cosC]
    simp only [env, realEnv]
    push_cast; ring_nf
  have hb := ((ip.mulF ip).sub iq).bound_from (j := 4) (by norm_num) c1 c2
  have hs := (ip.sub i1).slope (by norm_num) c3
  have he : ‖(env h0 h1 σ).ε‖ = x := abs_of_nonneg h0
  rw [Real.norm_eq_abs, he] at hb hs
  have hs' : |p - 1| ≤ 51 / 100 * x := by
    refine hs.trans (mul_le_mul_of_nonneg_right ?_ h0)
    have : (((m.sub oneM).slope 7 r0 1 : ℚ) : ℝ) ≤ ((51 / 100 : ℚ) : ℝ) := by exact_mod_cast c4
    push_cast at this ⊢
    exact this
  refine ⟨?_, hs'⟩
  have hp := (abs_le.1 hs').1
  have hr := one_le_root h0 σ
  have hsum : (19 : ℝ) / 10 ≤ p + root x σ := by linarith
  rw [show p * p - root x σ ^ 2 = (p - root x σ) * (p + root x σ) by ring, abs_mul,
    abs_of_pos (show 0 < p + root x σ by linarith)] at hb
  have hk : 0 ≤ |p - root x σ| := abs_nonneg _
  nlinarith

theorem is_cosK (k : ℕ) : Is 7 (env h0 h1 σ) (.const (cosK k)) (Real.cos (k * (2 * σ))) :=
  (Is.const _ _).congr (by rw [cv_cosK]; rfl)

theorem pVin_near : |pVin x σ - root x σ| ≤ 27 / 10000 * x ^ 4 ∧ |pVin x σ - 1| ≤ 51 / 100 * x := by
  have hc := checksV
  simp only [Bool.and_eq_true, decide_eq_true_eq] at hc
  obtain ⟨⟨⟨c1, c2⟩, c3⟩, c4⟩ := hc
  set E := env h0 h1 σ
  have i1 : Is 7 E oneM (1 : ℝ) := (Is.const _ _).congr (by rw [cv_ofQ]; norm_num)
  have iA : Is 7 E A (Spec.vincentyA x) := (Is.qM E _).congr (by
    show qeval x _ = _
    simp only [qeval, Spec.vincentyA]; push_cast; ring)
  have iB : Is 7 E B (Spec.vincentyB x) := (Is.qM E _).congr (by
    show qeval x _ = _
    simp only [qeval, Spec.vincentyB]; push_cast; ring)
  have iB2 : Is 7 E B2 (Spec.vincentyB x * Spec.vincentyB x) := iB.mulF iB
  have iB3 : Is 7 E B3 (Spec.vincentyB x * Spec.vincentyB x * Spec.vincentyB x) := iB2.mulF iB
  have ip : Is 7 E pV (pVin x σ) :=
    (iA.mulF (((i1.sub (iB.mulF (is_cosK h0 h1 σ 1))).sub ((iB2.mulF (is_cosK h0 h1 σ 2)).smul (1/4))).sub
      ((iB3.mulF (is_cosK h0 h1 σ 3)).smul (1/8)))).congr (by
      rw [pVin]; push_cast; ring_nf)
  have h := near h0 h1 σ ip c1 c2 c3 c4
  refine ⟨h.1.trans ?_, h.2⟩
  have : 0 ≤ x ^ 4 := by positivity
  push_cast
  nlinarith

theorem pRapp_near : |pRapp x σ - root x σ| ≤ 18 / 10000 * x ^ 4 ∧ |pRapp x σ - 1| ≤ 51 / 100 * x := by
  have hc := checksR
  simp only [Bool.and_eq_true, decide_eq_true_eq] at hc
  obtain ⟨⟨⟨c1, c2⟩, c3⟩, c4⟩ := hc
  set E := env h0 h1 σ
  have ip : Is 7 E pR (pRapp x σ) :=
    ((((Is.qM E _).add ((Is.qM E _).mulF (is_cosK h0 h1 σ 1))).add (((Is.qM E _).mulF (is_cosK h0 h1 σ 2)).smul 2)).add
      (((Is.qM E _).mulF (is_cosK h0 h1 σ 3)).smul 3)).congr (by
      rw [show E.ε = x from rfl, pRapp]
      simp only [qeval, Spec.rappB0, Spec.rappB2, Spec.rappB4, Spec.rappB6]
      push_cast; ring_nf)
  have h := near h0 h1 σ ip c1 c2 c3 c4
  refine ⟨h.1.trans ?_, h.2⟩
  have : 0 ≤ x ^ 4 := by positivity
  push_cast
  nlinarith
end

/-! ### The longitude -/

/-- A polynomial in three variables: coefficient and exponents. -/
noncomputable def mval (f K c : ℝ) : List (ℚ × ℕ × ℕ × ℕ) → ℝ
  | [] => 0
  | t :: l => (t.1 : ℝ) * f ^ t.2.1 * K ^ t.2.2.1 * c ^ t.2.2.2 + mval f K c l
def mbound (ρ : ℚ) : List (ℚ × ℕ × ℕ × ℕ) → ℚ
  | [] => 0
  | t :: l => |t.1| * ρ ^ t.2.1 + mbound ρ l

theorem abs_mval {f K c : ℝ} {ρ : ℚ} (hf : |f| ≤ ρ) (hK : |K| ≤ 1) (hc : |c| ≤ 1) :
    ∀ l, |mval f K c l| ≤ mbound ρ l
  | [] => by simp [mval, mbound]
  | t :: l => by
    have ih := abs_mval hf hK hc l
    simp only [mval, mbound]
    push_cast
    refine (abs_add_le _ _).trans (add_le_add ?_ ih)
    rw [abs_mul, abs_mul, abs_mul, abs_pow, abs_pow, abs_pow]
    have h1 : |K| ^ t.2.2.1 ≤ 1 := pow_le_one₀ (abs_nonneg _) hK
    have h2 : |c| ^ t.2.2.2 ≤ 1 := pow_le_one₀ (abs_nonneg _) hc
    have hρ : (0 : ℝ) ≤ ρ := (abs_nonneg _).trans hf
    calc |(t.1 : ℝ)| * |f| ^ t.2.1 * |K| ^ t.2.2.1 * |c| ^ t.2.2.2 ≤ |(t.1 : ℝ)| * (ρ : ℝ) ^ t.2.1 * 1 * 1 := by gcongr
      _ = _ := by ring

/-- Terms of order 4 and more for Vincenty, 4 and more for Rapp. -/
def vinHi : List (ℚ × ℕ × ℕ × ℕ) := [
  (-1/8, 0, 2, 0), (1/4, 0, 2, 1), (-1/8, 0, 2, 2), (15/64, 0, 3, 0), (-9/32, 0, 3, 1), (7/32, 0, 3, 2),
  (-1/4, 0, 3, 3), (-15/128, 0, 4, 0), (3/64, 0, 4, 1), (-1/16, 0, 4, 2), (15/64, 0, 4, 3), (-1/32, 0, 4, 4),
  (3/16, 1, 2, 1), (-3/16, 1, 2, 2), (-1/64, 1, 3, 0), (-3/8, 1, 3, 1), (9/16, 1, 3, 2), (-7/32, 1, 3, 3),
  (-1/256, 1, 4, 0), (23/128, 1, 4, 1), (-29/64, 1, 4, 2), (59/128, 1, 4, 3), (-5/64, 1, 4, 4), (3/256, 1, 5, 0),
  (-3/512, 1, 5, 1), (25/256, 1, 5, 2), (-55/256, 1, 5, 3), (17/256, 1, 5, 4), (-1/128, 1, 5, 5), (-1/16, 2, 3, 0),
  (11/64, 2, 3, 2), (-3/32, 2, 3, 3), (1/8, 2, 4, 0), (-5/64, 2, 4, 1), (-43/128, 2, 4, 2), (47/128, 2, 4, 3),
  (-5/64, 2, 4, 4), (-81/1024, 2, 5, 0), (117/1024, 2, 5, 1), (197/1024, 2, 5, 2), (-49/128, 2, 5, 3),
  (37/256, 2, 5, 4), (-1/64, 2, 5, 5), (1/64, 2, 6, 0), (-21/512, 2, 6, 1), (-29/1024, 2, 6, 2), (241/2048, 2, 6, 3),
  (-33/512, 2, 6, 4), (7/512, 2, 6, 5), (-1/32, 3, 3, 0), (5/64, 3, 3, 2), (-1/32, 3, 3, 3), (27/256, 3, 4, 0),
  (-3/64, 3, 4, 1), (-1/4, 3, 4, 2), (3/16, 3, 4, 3), (-1/32, 3, 4, 4), (-127/1024, 3, 5, 0), (113/1024, 3, 5, 1),
  (269/1024, 3, 5, 2), (-83/256, 3, 5, 3), (7/64, 3, 5, 4), (-1/128, 3, 5, 5), (63/1024, 3, 6, 0),
  (-345/4096, 3, 6, 1), (-27/256, 3, 6, 2), (441/2048, 3, 6, 3), (-57/512, 3, 6, 4), (9/512, 3, 6, 5),
  (-45/4096, 3, 7, 0), (171/8192, 3, 7, 1), (99/8192, 3, 7, 2), (-99/2048, 3, 7, 3), (9/256, 3, 7, 4),
  (-9/1024, 3, 7, 5), (1/64, 4, 4, 0), (-1/64, 4, 4, 1), (-1/32, 4, 4, 2), (1/32, 4, 4, 3), (-41/1024, 4, 5, 0),
  (55/1024, 4, 5, 1), (17/256, 4, 5, 2), (-55/512, 4, 5, 3), (7/256, 4, 5, 4), (39/1024, 4, 6, 0),
  (-135/2048, 4, 6, 1), (-93/2048, 4, 6, 2), (33/256, 4, 6, 3), (-63/1024, 4, 6, 4), (3/512, 4, 6, 5),
  (-261/16384, 4, 7, 0), (567/16384, 4, 7, 1), (9/1024, 4, 7, 2), (-531/8192, 4, 7, 3), (189/4096, 4, 7, 4),
  (-9/1024, 4, 7, 5), (81/32768, 4, 8, 0), (-27/4096, 4, 8, 1), (27/32768, 4, 8, 2), (189/16384, 4, 8, 3),
  (-189/16384, 4, 8, 4), (27/8192, 4, 8, 5), (1/256, 5, 4, 0), (-1/256, 5, 4, 1), (-1/128, 5, 4, 2),
  (1/128, 5, 4, 3), (-13/1024, 5, 5, 0), (17/1024, 5, 5, 1), (11/512, 5, 5, 2), (-17/512, 5, 5, 3), (1/128, 5, 5, 4),
  (67/4096, 5, 6, 0), (-111/4096, 5, 6, 1), (-43/2048, 5, 6, 2), (109/2048, 5, 6, 3), (-3/128, 5, 6, 4),
  (1/512, 5, 6, 5), (-171/16384, 5, 7, 0), (351/16384, 5, 7, 1), (63/8192, 5, 7, 2), (-333/8192, 5, 7, 3),
  (27/1024, 5, 7, 4), (-9/2048, 5, 7, 5), (27/8192, 5, 8, 0), (-135/16384, 5, 8, 1), (243/16384, 5, 8, 3),
  (-27/2048, 5, 8, 4), (27/8192, 5, 8, 5), (-27/65536, 5, 9, 0), (81/65536, 5, 9, 1), (-27/65536, 5, 9, 2),
  (-135/65536, 5, 9, 3), (81/32768, 5, 9, 4), (-27/32768, 5, 9, 5)]
def rappHi : List (ℚ × ℕ × ℕ × ℕ) := [
  (1/2, 0, 1, 1), (-17/8, 0, 2, 2), (11/4, 0, 3, 3), (-9/8, 0, 4, 4), (-1/2, 1, 2, 2), (25/16, 1, 3, 3),
  (-13/8, 1, 4, 4), (9/16, 1, 5, 5), (-1/4, 2, 2, 2), (17/16, 2, 3, 3), (-27/16, 2, 4, 4), (19/16, 2, 5, 5),
  (-5/16, 2, 6, 6)]

theorem vinHi_bound : mbound (1 / 50) vinHi ≤ 21 / 10 := by decide +kernel
/-- `(lRapp - 1) / f`. -/
def rappDev : List (ℚ × ℕ × ℕ × ℕ) := [
  (-1/4, 0, 1, 0), (1/4, 0, 1, 1), (-1/4, 1, 1, 0), (1/4, 1, 1, 1), (1/8, 1, 2, 0), (-1/4, 1, 2, 1), (1/8, 1, 2, 2),
  (-1/4, 2, 1, 0), (1/4, 2, 1, 1), (9/32, 2, 2, 0), (-9/16, 2, 2, 1), (9/32, 2, 2, 2), (-5/64, 2, 3, 0),
  (15/64, 2, 3, 1), (-15/64, 2, 3, 2), (5/64, 2, 3, 3)]
theorem rappDev_bound : mbound (1 / 50) rappDev ≤ 1 := by decide +kernel
theorem rappHi_bound : mbound (1 / 50) rappHi ≤ 66 / 10 := by decide +kernel

/-- `√(1 - f (2 - f) z)` to order 3 in `f`. -/
noncomputable def Q3 (f z : ℝ) : ℝ := 1 - f * z + 1 / 2 * (f ^ 2 * (z - z ^ 2)) + 1 / 2 * (f ^ 3 * z ^ 2 * (1 - z))

theorem Q3_near {f z w : ℝ} (f0 : 0 ≤ f) (f1 : f ≤ 1 / 50) (z0 : 0 ≤ z) (z1 : z ≤ 1) (w0 : 1 - f ≤ w)
    (hw : w ^ 2 = 1 - f * (2 - f) * z) : |w - Q3 f z| ≤ f ^ 4 / 10 := by
  have hz : 0 ≤ z * (1 - z) := mul_nonneg z0 (by linarith)
  have hf2 : 0 ≤ f ^ 2 := by positivity
  have hQ : 98 / 100 ≤ Q3 f z := by
    have h1 : f * z ≤ f * 1 := mul_le_mul_of_nonneg_left z1 f0
    have h2 : 0 ≤ f ^ 2 * (z - z ^ 2) := mul_nonneg hf2 (by nlinarith)
    have h3 : 0 ≤ f ^ 3 * z ^ 2 * (1 - z) := mul_nonneg (by positivity) (by linarith)
    unfold Q3
    linarith
  have hsum : 19 / 10 ≤ w + Q3 f z := by linarith
  have e : (w - Q3 f z) * (w + Q3 f z) =
      f ^ 4 * (z ^ 2 * (1 - z)) * (z - f * (z * (1 - z)) / 2 - (1 - z) / 4 - f ^ 2 * (z * (z * (1 - z))) / 4) := by
    rw [show (w - Q3 f z) * (w + Q3 f z) = w ^ 2 - Q3 f z ^ 2 by ring, hw, Q3]; ring
  have hc : z ^ 2 * (1 - z) ≤ 4 / 27 := by
    nlinarith [mul_nonneg (show 0 ≤ 3 * z + 1 by linarith) (sq_nonneg (3 * z - 2))]
  have hc0 : 0 ≤ z ^ 2 * (1 - z) := mul_nonneg (by positivity) (by linarith)
  have hin : |z - f * (z * (1 - z)) / 2 - (1 - z) / 4 - f ^ 2 * (z * (z * (1 - z))) / 4| ≤ 1 := by
    have a1 : z * (1 - z) ≤ 1 := by nlinarith
    have a2 : f * (z * (1 - z)) ≤ 1 / 50 * 1 := mul_le_mul f1 a1 hz (by norm_num)
    have a3 : 0 ≤ f * (z * (1 - z)) := mul_nonneg f0 hz
    have a4 : z * (z * (1 - z)) ≤ 1 := by nlinarith
    have a4' : 0 ≤ z * (z * (1 - z)) := mul_nonneg z0 hz
    have a5 : f ^ 2 ≤ 1 / 50 := by nlinarith
    have a6 : f ^ 2 * (z * (z * (1 - z))) ≤ 1 / 50 * 1 := mul_le_mul a5 a4 a4' (by norm_num)
    have a7 : 0 ≤ f ^ 2 * (z * (z * (1 - z))) := mul_nonneg hf2 a4'
    rw [abs_le]
    constructor <;> linarith
  have h := congrArg abs e
  rw [abs_mul, abs_of_pos (show 0 < w + Q3 f z by linarith), abs_mul, abs_of_nonneg (mul_nonneg (by positivity) hc0)] at h
  have hf4 : 0 ≤ f ^ 4 := by positivity
  have h3 : f ^ 4 * (z ^ 2 * (1 - z)) * |z - f * (z * (1 - z)) / 2 - (1 - z) / 4 - f ^ 2 * (z * (z * (1 - z))) / 4| ≤
      f ^ 4 * (4 / 27) * 1 := by gcongr
  have := abs_nonneg (w - Q3 f z)
  nlinarith

/-- The derivative of Vincenty's longitude, `c = cos 2 σ`. -/
noncomputable def lVin (f K c : ℝ) : ℝ :=
  (1 - Spec.vincentyC f K) * (1 + Spec.vincentyC f K * c + Spec.vincentyC f K ^ 2 * (2 * c ^ 2 - 1))

/-- The derivative of Rapp's longitude. -/
noncomputable def lRapp (f K c : ℝ) : ℝ :=
  Spec.rappA0 f K + Spec.rappA2 f K * c + 2 * (Spec.rappA4 f K * (2 * c ^ 2 - 1)) + 3 * (Spec.rappA6 f K * (4 * c ^ 3 - 3 * c))

noncomputable def vinLead (K v : ℝ) : ℝ :=
  K * v - 3 / 2 * K ^ 2 * v - 1 / 4 * K ^ 2 * v ^ 2 + K ^ 3 * (5 / 4 * v ^ 3 - 7 / 4 * v ^ 2 + 11 / 8 * v - 1 / 32)

theorem vin_poly (f K c : ℝ) : lVin f K c * (1 + Q3 f (1 - K * ((1 - c) / 2))) - (2 - f) =
    f ^ 3 * vinLead K ((1 - c) / 2) + f ^ 4 * mval f K c vinHi := by
  simp only [lVin, Q3, vinLead, Spec.vincentyC, mval, vinHi]
  push_cast
  ring

theorem rapp_poly (f K c : ℝ) : lRapp f K c * (1 + Q3 f (1 - K * ((1 - c) / 2))) - (2 - f) =
    f ^ 4 * mval f K ((1 - c) / 2) rappHi := by
  simp only [lRapp, Q3, Spec.rappA0, Spec.rappA2, Spec.rappA4, Spec.rappA6, mval, rappHi]
  push_cast
  ring

theorem rapp_dev (f K c : ℝ) : lRapp f K c = 1 + f * mval f K c rappDev := by
  simp only [lRapp, Spec.rappA0, Spec.rappA2, Spec.rappA4, Spec.rappA6, mval, rappDev]
  push_cast
  ring

theorem vinLead_bound {K v : ℝ} (k0 : 0 ≤ K) (k1 : K ≤ 1) (v0 : 0 ≤ v) (v1 : v ≤ 1) : |vinLead K v| ≤ 1 / 4 := by
  have hy0 : 0 ≤ K * v := mul_nonneg k0 v0
  have hy1 : K * v ≤ K := by nlinarith
  have e : vinLead K v = K * v - 3 / 2 * (K * (K * v)) - 1 / 4 * (K * v) ^ 2 + 5 / 4 * (K * v) ^ 3 - 7 / 4 * (K * (K * v) ^ 2) +
      11 / 8 * (K ^ 2 * (K * v)) - 1 / 32 * K ^ 3 := by rw [vinLead]; ring
  rw [e]
  set y := K * v
  have hk3 : K ^ 3 ≤ 1 := pow_le_one₀ k0 k1
  have hk3' : 0 ≤ K ^ 3 := by positivity
  have y1 : y ≤ 1 := by linarith
  rw [abs_le]
  constructor
  · have h1 : 0 ≤ y * (K - (3 / 2 + 7 / 4 * y) / (11 / 4)) ^ 2 := by positivity
    have h2 : 0 ≤ y * (13 / 22 - 53 / 44 * y + 61 / 88 * y ^ 2) :=
      mul_nonneg hy0 (by nlinarith [sq_nonneg (y - 53 / 61)])
    nlinarith
  · have h1 : 0 ≤ y * ((K - y) * (1 - K)) := mul_nonneg hy0 (mul_nonneg (by linarith) (by linarith))
    have h2 : 0 ≤ y * (K - y) := mul_nonneg hy0 (by linarith)
    have h3 : 0 ≤ y ^ 2 * (K - y) := mul_nonneg (by positivity) (by linarith)
    have h4 : y - 7 / 4 * y ^ 2 + 7 / 8 * y ^ 3 ≤ 1 / 4 := by
      nlinarith [mul_nonneg hy0 (sq_nonneg (y - 2 / 5)), sq_nonneg (y - 2 / 5), mul_nonneg (show 0 ≤ 1 - y by linarith) (sq_nonneg (y - 2 / 5))]
    nlinarith
end Vin
end Geo.Ser

namespace Geo.Bessel
open Spec Geo.Ser.Vin

/-- A bound of the derivative is a bound of the difference. -/
theorem sub_le_of_deriv {F F' P P' : ℝ → ℝ} (hF : ∀ σ, HasDerivAt F (F' σ) σ) (hP : ∀ σ, HasDerivAt P (P' σ) σ) {C : ℝ}
    (h : ∀ σ, |F' σ - P' σ| ≤ C) (x y : ℝ) : |(F y - F x) - (P y - P x)| ≤ C * |y - x| := by
  have := Convex.norm_image_sub_le_of_norm_hasDerivWithin_le (f := fun σ => F σ - P σ) (C := C) (s := Set.univ)
    (fun σ _ => ((hF σ).sub (hP σ)).hasDerivWithinAt) (fun σ _ => h σ) convex_univ (Set.mem_univ x) (Set.mem_univ y)
  rw [Real.norm_eq_abs, Real.norm_eq_abs] at this
  convert this using 2; ring

/-- Sums and differences of arcs. -/
theorem sin_sub_arc (k m σ : ℝ) : Real.sin (k * σ) * Real.cos (k * (2 * m + σ)) =
    1 / 2 * (Real.sin (2 * k * (m + σ)) - Real.sin (2 * k * m)) := by
  rw [show 2 * k * (m + σ) = k * (2 * m + σ) + k * σ by ring, show 2 * k * m = k * (2 * m + σ) - k * σ by ring,
    Real.sin_add, Real.sin_sub]
  ring

theorem deriv_sin (k σ : ℝ) : HasDerivAt (fun σ => Real.sin (k * σ)) (k * Real.cos (k * σ)) σ := by
  have := ((hasDerivAt_id σ).const_mul k).sin
  refine this.congr_deriv ?_
  simp; ring

/-! ### Vincenty -/

noncomputable def vinH (B σ : ℝ) : ℝ := B / 2 * Real.sin (2 * σ) + B ^ 2 / 16 * Real.sin (4 * σ) + B ^ 3 / 48 * Real.sin (6 * σ)

theorem delta_eq (B m σ : ℝ) : vincentyDeltaSigma B σ (Real.cos (2 * m + σ)) = vinH B (m + σ) - vinH B m := by
  have h1 := sin_sub_arc 1 m σ
  have h2 := sin_sub_arc 2 m σ
  have h3 := sin_sub_arc 3 m σ
  rw [one_mul, one_mul] at h1
  rw [Real.sin_two_mul, Real.cos_two_mul] at h2
  rw [Real.sin_three_mul, Real.cos_three_mul] at h3
  rw [vincentyDeltaSigma, vinH, vinH]
  rw [show (2 : ℝ) * 1 = 2 by norm_num] at h1
  rw [show (2 : ℝ) * 2 = 4 by norm_num] at h2
  rw [show (2 : ℝ) * 3 = 6 by norm_num] at h3
  linear_combination B * h1 + B ^ 2 / 8 * h2 + B ^ 3 / 24 * h3

theorem vinH_deriv (B σ : ℝ) : HasDerivAt (vinH B)
    (B * Real.cos (2 * σ) + 1 / 4 * (B ^ 2 * Real.cos (4 * σ)) + 1 / 8 * (B ^ 3 * Real.cos (6 * σ))) σ := by
  refine ((((deriv_sin 2 σ).const_mul (B / 2)).add ((deriv_sin 4 σ).const_mul (B ^ 2 / 16))).add
    ((deriv_sin 6 σ).const_mul (B ^ 3 / 48))).congr_deriv ?_
  ring

noncomputable def vinF (x σ : ℝ) : ℝ := vincentyA x * (σ - vinH (vincentyB x) σ)

theorem vinF_deriv (x σ : ℝ) : HasDerivAt (vinF x) (pVin x σ) σ := by
  refine (((hasDerivAt_id σ).sub (vinH_deriv (vincentyB x) σ)).const_mul (vincentyA x)).congr_deriv ?_
  rw [pVin]; ring

noncomputable def vinL (C σ : ℝ) : ℝ := (1 - C) * (σ + C / 2 * Real.sin (2 * σ) + C ^ 2 / 4 * Real.sin (4 * σ))

theorem excess_eq (f sa m σ : ℝ) : vincentyExcess f sa σ (Real.cos (2 * m + σ)) =
    f * sa * (vinL (vincentyC f (1 - sa ^ 2)) (m + σ) - vinL (vincentyC f (1 - sa ^ 2)) m) := by
  have h1 := sin_sub_arc 1 m σ
  have h2 := sin_sub_arc 2 m σ
  rw [one_mul, one_mul] at h1
  rw [Real.sin_two_mul, Real.cos_two_mul] at h2
  rw [show (2 : ℝ) * 1 = 2 by norm_num] at h1
  rw [show (2 : ℝ) * 2 = 4 by norm_num] at h2
  simp only [vincentyExcess, vinL]
  set C := vincentyC f (1 - sa ^ 2)
  linear_combination (1 - C) * f * sa * (C * h1 + C ^ 2 / 2 * h2)

theorem vinL_deriv (f K σ : ℝ) : HasDerivAt (vinL (vincentyC f K)) (lVin f K (Real.cos (2 * σ))) σ := by
  set C := vincentyC f K with hC
  refine ((((hasDerivAt_id σ).add ((deriv_sin 2 σ).const_mul (C / 2))).add ((deriv_sin 4 σ).const_mul (C ^ 2 / 4))).const_mul
    (1 - C)).congr_deriv ?_
  rw [lVin, ← hC, show (4 : ℝ) * σ = 2 * (2 * σ) by ring, Real.cos_two_mul (2 * σ)]
  ring

/-! ### Rapp -/

noncomputable def rappF (x σ : ℝ) : ℝ := rappB0 x * σ + rappB2 x / 2 * Real.sin (2 * σ) + rappB4 x / 2 * Real.sin (4 * σ) +
  rappB6 x / 2 * Real.sin (6 * σ)

theorem rappF_deriv (x σ : ℝ) : HasDerivAt (rappF x) (pRapp x σ) σ := by
  refine (((((hasDerivAt_id σ).const_mul (rappB0 x)).add ((deriv_sin 2 σ).const_mul (rappB2 x / 2))).add
    ((deriv_sin 4 σ).const_mul (rappB4 x / 2))).add ((deriv_sin 6 σ).const_mul (rappB6 x / 2))).congr_deriv ?_
  rw [pRapp]; ring

noncomputable def rappL (f K σ : ℝ) : ℝ := rappA0 f K * σ + rappA2 f K / 2 * Real.sin (2 * σ) + rappA4 f K / 2 * Real.sin (4 * σ) +
  rappA6 f K / 2 * Real.sin (6 * σ)

theorem rappL_deriv (f K σ : ℝ) : HasDerivAt (rappL f K) (lRapp f K (Real.cos (2 * σ))) σ := by
  refine (((((hasDerivAt_id σ).const_mul (rappA0 f K)).add ((deriv_sin 2 σ).const_mul (rappA2 f K / 2))).add
    ((deriv_sin 4 σ).const_mul (rappA4 f K / 2))).add ((deriv_sin 6 σ).const_mul (rappA6 f K / 2))).congr_deriv ?_
  rw [lRapp, show (4 : ℝ) * σ = 2 * (2 * σ) by ring, show (6 : ℝ) * σ = 3 * (2 * σ) by ring, Real.cos_two_mul (2 * σ),
    Real.cos_three_mul]
  ring

/-! ### The errors -/

section
variable {a b s0 c0 x : ℝ} (hb : 0 < b) (hab : b ≤ a) (h1 : s0 ^ 2 + c0 ^ 2 = 1)
  (hx : x = c0 ^ 2 * ((a ^ 2 - b ^ 2) / b ^ 2)) (hf : (a - b) / a ≤ 1 / 50)

include hb hab h1 hx hf in
theorem x_facts : 0 ≤ x ∧ x ≤ 1 / 20 ∧ x ^ 4 ≤ 184 / 10 * ((a - b) / a) ^ 4 ∧ x ≤ 207 / 100 * ((a - b) / a) := by
  have ha : 0 < a := lt_of_lt_of_le hb hab
  set f := (a - b) / a with hfd
  have f0 : 0 ≤ f := div_nonneg (by linarith) ha.le
  have hbf : b = a * (1 - f) := by rw [hfd]; field_simp; ring
  have he : (a ^ 2 - b ^ 2) / b ^ 2 = f * (2 - f) / (1 - f) ^ 2 := by
    have : 1 - f ≠ 0 := by linarith
    rw [hbf]; field_simp; ring
  have hc : c0 ^ 2 ≤ 1 := by nlinarith [sq_nonneg s0]
  have hq : f * (2 - f) / (1 - f) ^ 2 ≤ 207 / 100 * f := by
    rw [div_le_iff₀ (by nlinarith)]
    nlinarith [mul_nonneg f0 (show 0 ≤ 1 / 50 - f by linarith), mul_nonneg f0 f0, mul_nonneg (mul_nonneg f0 f0) f0]
  have hq0 : 0 ≤ f * (2 - f) / (1 - f) ^ 2 := div_nonneg (mul_nonneg f0 (by linarith)) (by positivity)
  rw [he] at hx
  have x0 : 0 ≤ x := by rw [hx]; positivity
  have x1 : x ≤ 207 / 100 * f := by rw [hx]; nlinarith
  refine ⟨x0, by linarith, ?_, x1⟩
  calc x ^ 4 ≤ (207 / 100 * f) ^ 4 := by gcongr
    _ = (207 / 100) ^ 4 * f ^ 4 := by ring
    _ ≤ _ := mul_le_mul_of_nonneg_right (by norm_num) (by positivity)

include hb hab h1 hx in
theorem w_root' (x0 : 0 ≤ x) (σ : ℝ) : a * w a b s0 c0 σ = b * root x σ := by
  have ha : 0 < a := lt_of_lt_of_le hb hab
  have hw := w_pos hb hab h1 σ
  have hr := one_le_root x0 σ
  refine (pow_left_inj₀ (by positivity) (mul_nonneg (by positivity) (by linarith)) two_ne_zero).1 ?_
  rw [mul_pow, mul_pow, w_sq hb hab h1, root_sq x0, Bessel.e2, hx, Real.sin_sq, show s0 ^ 2 = 1 - c0 ^ 2 by linarith]
  field_simp
  ring

/-- The longitude integrand from an approximation of `(2 - f) / (1 + w)`. -/
theorem lon_of {f L e : ℝ} (hb : 0 < b) (hab : b ≤ a) (h1 : s0 ^ 2 + c0 ^ 2 = 1) (hfd : f = (a - b) / a) (hf : f ≤ 1 / 50) (σ : ℝ)
    (hL : |L * (1 + Q3 f (1 - c0 ^ 2 * ((1 - Real.cos (2 * σ)) / 2))) - (2 - f)| ≤ e) (hL1 : |L| ≤ 11 / 10) :
    |f * L - q a b s0 c0 σ| ≤ f * ((e + 11 / 100 * f ^ 4) / (196 / 100)) := by
  have ha : 0 < a := lt_of_lt_of_le hb hab
  have f0 : 0 ≤ f := by rw [hfd]; exact div_nonneg (by linarith) ha.le
  have hw := w_ge hb hab h1 σ
  have hba : b / a = 1 - f := by rw [hfd]; field_simp; ring
  rw [hba] at hw
  have he : Bessel.e2 a b = f * (2 - f) := by
    rw [Bessel.e2, ← div_pow, hba]; ring
  have hw2 := w_sq hb hab h1 σ
  have hz : s0 ^ 2 + c0 ^ 2 * Real.cos σ ^ 2 = 1 - c0 ^ 2 * ((1 - Real.cos (2 * σ)) / 2) := by
    rw [Real.cos_two_mul]; linear_combination h1
  have hzb := R_le hb hab h1 σ
  rw [hz] at hw2 hzb
  rw [he] at hw2
  set z := 1 - c0 ^ 2 * ((1 - Real.cos (2 * σ)) / 2)
  set W := w a b s0 c0 σ with hW
  have hn := Q3_near f0 hf hzb.1 hzb.2 hw hw2
  have hd : 0 < 1 + W := by linarith
  have h2 : |L * (1 + W) - (2 - f)| ≤ e + 11 / 100 * f ^ 4 := by
    rw [show L * (1 + W) - (2 - f) = (L * (1 + Q3 f z) - (2 - f)) + L * (W - Q3 f z) by ring]
    refine (abs_add_le _ _).trans (add_le_add hL ?_)
    rw [abs_mul]
    calc |L| * |W - Q3 f z| ≤ 11 / 10 * (f ^ 4 / 10) := by gcongr
      _ = _ := by ring
  rw [q, he, show f * L - f * (2 - f) / (1 + w a b s0 c0 σ) = f * ((L * (1 + W) - (2 - f)) / (1 + W)) by
    rw [← hW]; field_simp, abs_mul, abs_of_nonneg f0, abs_div, abs_of_pos hd]
  refine mul_le_mul_of_nonneg_left ?_ f0
  exact div_le_div₀ ((abs_nonneg _).trans h2) h2 (by norm_num) (by linarith)
end

section
variable {a b s0 c0 x : ℝ} (hb : 0 < b) (hab : b ≤ a) (h1 : s0 ^ 2 + c0 ^ 2 = 1)
  (hx : x = c0 ^ 2 * ((a ^ 2 - b ^ 2) / b ^ 2)) (hf : (a - b) / a ≤ 1 / 50)
include hb hab h1 hx hf

/-- Vincenty's distance. -/
theorem vin_dist (y z : ℝ) : |(T a b s0 c0 z - T a b s0 c0 y) - (b * vinF x z - b * vinF x y)| ≤
    b * (1 / 20 * ((a - b) / a) ^ 4) * |z - y| := by
  obtain ⟨x0, x1, x2, -⟩ := x_facts hb hab h1 hx hf
  refine sub_le_of_deriv (T_deriv hb hab h1) (fun σ => (vinF_deriv x σ).const_mul b) (fun σ => ?_) y z
  rw [w_root' hb hab h1 hx x0, ← mul_sub, abs_mul, abs_of_pos hb, abs_sub_comm]
  refine mul_le_mul_of_nonneg_left ((pVin_near x0 x1 σ).1.trans ?_) hb.le
  linarith [show 0 ≤ ((a - b) / a) ^ 4 by positivity]

/-- Rapp's distance. -/
theorem rapp_dist (y z : ℝ) : |(T a b s0 c0 z - T a b s0 c0 y) - (b * rappF x z - b * rappF x y)| ≤
    b * (1 / 30 * ((a - b) / a) ^ 4) * |z - y| := by
  obtain ⟨x0, x1, x2, -⟩ := x_facts hb hab h1 hx hf
  refine sub_le_of_deriv (T_deriv hb hab h1) (fun σ => (rappF_deriv x σ).const_mul b) (fun σ => ?_) y z
  rw [w_root' hb hab h1 hx x0, ← mul_sub, abs_mul, abs_of_pos hb, abs_sub_comm]
  refine mul_le_mul_of_nonneg_left ((pRapp_near x0 x1 σ).1.trans ?_) hb.le
  linarith [show 0 ≤ ((a - b) / a) ^ 4 by positivity]
end

section
variable {a b s0 c0 f : ℝ} (hb : 0 < b) (hab : b ≤ a) (h1 : s0 ^ 2 + c0 ^ 2 = 1) (hfd : f = (a - b) / a) (hf : f ≤ 1 / 50)
include hb hab h1 hfd hf

theorem small_facts (σ : ℝ) : 0 ≤ f ∧ 0 ≤ c0 ^ 2 ∧ c0 ^ 2 ≤ 1 ∧ 0 ≤ (1 - Real.cos (2 * σ)) / 2 ∧ (1 - Real.cos (2 * σ)) / 2 ≤ 1 ∧
    |c0 ^ 2| ≤ 1 ∧ |Real.cos (2 * σ)| ≤ 1 ∧ |(1 - Real.cos (2 * σ)) / 2| ≤ 1 ∧ |f| ≤ ((1 / 50 : ℚ) : ℝ) ∧ |s0| ≤ 1 := by
  have ha : 0 < a := lt_of_lt_of_le hb hab
  have f0 : 0 ≤ f := by rw [hfd]; exact div_nonneg (by linarith) ha.le
  have h2 := Real.neg_one_le_cos (2 * σ)
  have h3 := Real.cos_le_one (2 * σ)
  have hc : c0 ^ 2 ≤ 1 := by nlinarith [sq_nonneg s0]
  refine ⟨f0, sq_nonneg _, hc, by linarith, by linarith, ?_, abs_le.2 ⟨h2, h3⟩, abs_le.2 ⟨by linarith, by linarith⟩, ?_,
    abs_le_one_iff_mul_self_le_one.2 (by nlinarith [sq_nonneg c0])⟩
  · rw [abs_of_nonneg (sq_nonneg _)]; exact hc
  · rw [abs_of_nonneg f0]; push_cast; exact hf

theorem lVin_le (σ : ℝ) : |lVin f (c0 ^ 2) (Real.cos (2 * σ))| ≤ 11 / 10 := by
  obtain ⟨f0, k0, k1, v0, v1, ak, ac, av, af, -⟩ := small_facts hb hab h1 hfd hf σ
  set K := c0 ^ 2
  set c := Real.cos (2 * σ)
  have hC0 : 0 ≤ vincentyC f K := by
    unfold vincentyC
    have : 0 ≤ 4 + f * (4 - 3 * K) := by nlinarith
    positivity
  have hC1 : vincentyC f K ≤ 1 / 150 := by
    unfold vincentyC
    have h2 : f * (4 - 3 * K) ≤ 1 / 50 * 4 := mul_le_mul hf (by linarith) (by linarith) (by norm_num)
    have h3 : f / 16 * K ≤ 1 / 800 := by nlinarith
    have h4 : 0 ≤ f / 16 * K := by positivity
    nlinarith
  rw [lVin]
  set C := vincentyC f K
  obtain ⟨c1, c2⟩ := abs_le.1 ac
  have hcc : |2 * c ^ 2 - 1| ≤ 1 := abs_le.2 ⟨by nlinarith, by nlinarith⟩
  rw [abs_mul]
  have p1 : |1 - C| ≤ 1 := abs_le.2 ⟨by linarith, by linarith⟩
  have p2 : |1 + C * c + C ^ 2 * (2 * c ^ 2 - 1)| ≤ 11 / 10 := by
    refine (abs_add_three _ _ _).trans ?_
    rw [abs_mul, abs_mul, abs_one, abs_of_nonneg hC0, abs_of_nonneg (by positivity : 0 ≤ C ^ 2)]
    have : C * |c| ≤ 1 / 150 * 1 := mul_le_mul hC1 ac (abs_nonneg _) (by norm_num)
    have : C ^ 2 * |2 * c ^ 2 - 1| ≤ 1 / 150 * 1 := mul_le_mul (by nlinarith) hcc (abs_nonneg _) (by norm_num)
    linarith
  calc _ ≤ 1 * (11 / 10 : ℝ) := mul_le_mul p1 p2 (abs_nonneg _) zero_le_one
    _ = _ := one_mul _

/-- Vincenty's longitude. -/
theorem vin_lon (y z : ℝ) : |(G a b s0 c0 z - G a b s0 c0 y) -
    (f * s0 * vinL (vincentyC f (c0 ^ 2)) z - f * s0 * vinL (vincentyC f (c0 ^ 2)) y)| ≤ 4 / 25 * f ^ 4 * |z - y| := by
  refine sub_le_of_deriv (G_deriv hb hab h1) (fun σ => (vinL_deriv f (c0 ^ 2) σ).const_mul (f * s0)) (fun σ => ?_) y z
  obtain ⟨f0, k0, k1, v0, v1, ak, ac, av, af, as⟩ := small_facts hb hab h1 hfd hf σ
  have hp : |lVin f (c0 ^ 2) (Real.cos (2 * σ)) * (1 + Q3 f (1 - c0 ^ 2 * ((1 - Real.cos (2 * σ)) / 2))) - (2 - f)| ≤
      f ^ 3 * (1 / 4) + f ^ 4 * (21 / 10) := by
    rw [vin_poly]
    refine (abs_add_le _ _).trans (add_le_add ?_ ?_)
    · rw [abs_mul, abs_of_nonneg (by positivity : 0 ≤ f ^ 3)]
      exact mul_le_mul_of_nonneg_left (vinLead_bound k0 k1 v0 v1) (by positivity)
    · rw [abs_mul, abs_of_nonneg (by positivity : 0 ≤ f ^ 4)]
      refine mul_le_mul_of_nonneg_left ((abs_mval af ak ac _).trans ?_) (by positivity)
      have : ((mbound (1 / 50) vinHi : ℚ) : ℝ) ≤ ((21 / 10 : ℚ) : ℝ) := by exact_mod_cast vinHi_bound
      push_cast at this; exact this
  have h := lon_of hb hab h1 hfd hf σ hp (lVin_le hb hab h1 hfd hf σ)
  rw [show s0 * q a b s0 c0 σ - f * s0 * lVin f (c0 ^ 2) (Real.cos (2 * σ)) =
    -s0 * (f * lVin f (c0 ^ 2) (Real.cos (2 * σ)) - q a b s0 c0 σ) by ring, abs_mul, abs_neg]
  have e : f * ((f ^ 3 * (1 / 4) + f ^ 4 * (21 / 10) + 11 / 100 * f ^ 4) / (196 / 100)) ≤ 4 / 25 * f ^ 4 := by
    have : 0 ≤ f ^ 4 := by positivity
    have : f ^ 5 ≤ 1 / 50 * f ^ 4 := by
      rw [pow_succ]; nlinarith
    nlinarith
  calc _ ≤ 1 * (4 / 25 * f ^ 4) := mul_le_mul as (h.trans e) (abs_nonneg _) zero_le_one
    _ = _ := one_mul _

theorem lRapp_le (σ : ℝ) : |lRapp f (c0 ^ 2) (Real.cos (2 * σ))| ≤ 11 / 10 := by
  obtain ⟨f0, k0, k1, v0, v1, ak, ac, av, af, -⟩ := small_facts hb hab h1 hfd hf σ
  rw [rapp_dev]
  refine (abs_add_le _ _).trans ?_
  have : ((mbound (1 / 50) rappDev : ℚ) : ℝ) ≤ ((1 : ℚ) : ℝ) := by exact_mod_cast rappDev_bound
  have h := (abs_mval af ak ac rappDev).trans this
  rw [abs_one, abs_mul, abs_of_nonneg f0]
  push_cast at h
  have := abs_nonneg (mval f (c0 ^ 2) (Real.cos (2 * σ)) rappDev)
  nlinarith

/-- Rapp's longitude. -/
theorem rapp_lon (y z : ℝ) : |(G a b s0 c0 z - G a b s0 c0 y) -
    (f * s0 * rappL f (c0 ^ 2) z - f * s0 * rappL f (c0 ^ 2) y)| ≤ 7 / 2 * f ^ 5 * |z - y| := by
  refine sub_le_of_deriv (G_deriv hb hab h1) (fun σ => (rappL_deriv f (c0 ^ 2) σ).const_mul (f * s0)) (fun σ => ?_) y z
  obtain ⟨f0, k0, k1, v0, v1, ak, ac, av, af, as⟩ := small_facts hb hab h1 hfd hf σ
  have hp : |lRapp f (c0 ^ 2) (Real.cos (2 * σ)) * (1 + Q3 f (1 - c0 ^ 2 * ((1 - Real.cos (2 * σ)) / 2))) - (2 - f)| ≤
      f ^ 4 * (66 / 10) := by
    rw [rapp_poly, abs_mul, abs_of_nonneg (by positivity : 0 ≤ f ^ 4)]
    refine mul_le_mul_of_nonneg_left ((abs_mval af ak av _).trans ?_) (by positivity)
    have : ((mbound (1 / 50) rappHi : ℚ) : ℝ) ≤ ((66 / 10 : ℚ) : ℝ) := by exact_mod_cast rappHi_bound
    push_cast at this; exact this
  have h := lon_of hb hab h1 hfd hf σ hp (lRapp_le hb hab h1 hfd hf σ)
  rw [show s0 * q a b s0 c0 σ - f * s0 * lRapp f (c0 ^ 2) (Real.cos (2 * σ)) =
    -s0 * (f * lRapp f (c0 ^ 2) (Real.cos (2 * σ)) - q a b s0 c0 σ) by ring, abs_mul, abs_neg]
  have e : f * ((f ^ 4 * (66 / 10) + 11 / 100 * f ^ 4) / (196 / 100)) ≤ 7 / 2 * f ^ 5 := by
    have : 0 ≤ f ^ 5 := by positivity
    nlinarith
  calc _ ≤ 1 * (7 / 2 * f ^ 5) := mul_le_mul as (h.trans e) (abs_nonneg _) zero_le_one
    _ = _ := one_mul _
end

/-! ### The corrections are small -/

theorem vinB_bounds {x : ℝ} (x0 : 0 ≤ x) (x1 : x ≤ 1 / 20) : 0 ≤ vincentyB x ∧ vincentyB x ≤ x / 4 := by
  have h1 : 0 ≤ 128 - x * (74 - 47 * x) := by nlinarith
  have h2 : x * (128 - x * (74 - 47 * x)) ≤ 256 := by nlinarith [mul_nonneg x0 x0, mul_nonneg (mul_nonneg x0 x0) x0]
  have e : vincentyB x = x / 1024 * (256 - x * (128 - x * (74 - 47 * x))) := by rw [vincentyB]; ring
  rw [e]
  exact ⟨mul_nonneg (by positivity) (by linarith), by nlinarith [mul_nonneg x0 (mul_nonneg x0 h1)]⟩

theorem vinA_bounds {x : ℝ} (x0 : 0 ≤ x) (x1 : x ≤ 1 / 20) : 1 ≤ vincentyA x ∧ vincentyA x ≤ 1 + x / 4 := by
  have h1 : 0 ≤ 768 - x * (320 - 175 * x) := by nlinarith
  have h2 : x * (768 - x * (320 - 175 * x)) ≤ 4096 := by nlinarith [mul_nonneg x0 x0, mul_nonneg (mul_nonneg x0 x0) x0]
  have e : vincentyA x = 1 + x / 16384 * (4096 - x * (768 - x * (320 - 175 * x))) := by rw [vincentyA]; ring
  rw [e]
  exact ⟨by have : 0 ≤ x / 16384 * (4096 - x * (768 - x * (320 - 175 * x))) := mul_nonneg (by positivity) (by linarith)
            linarith, by nlinarith [mul_nonneg x0 (mul_nonneg x0 h1)]⟩

theorem vinH_abs {B : ℝ} (b0 : 0 ≤ B) (b1 : B ≤ 1 / 80) (σ : ℝ) : |vinH B σ| ≤ 51 / 100 * B := by
  rw [vinH]
  refine (abs_add_three _ _ _).trans ?_
  rw [abs_mul, abs_mul, abs_mul, abs_of_nonneg (by positivity : 0 ≤ B / 2), abs_of_nonneg (by positivity : 0 ≤ B ^ 2 / 16),
    abs_of_nonneg (by positivity : 0 ≤ B ^ 3 / 48)]
  have h1 : B / 2 * |Real.sin (2 * σ)| ≤ B / 2 * 1 := mul_le_mul_of_nonneg_left (Real.abs_sin_le_one _) (by positivity)
  have h2 : B ^ 2 / 16 * |Real.sin (4 * σ)| ≤ B ^ 2 / 16 * 1 := mul_le_mul_of_nonneg_left (Real.abs_sin_le_one _) (by positivity)
  have h3 : B ^ 3 / 48 * |Real.sin (6 * σ)| ≤ B ^ 3 / 48 * 1 := mul_le_mul_of_nonneg_left (Real.abs_sin_le_one _) (by positivity)
  have h4 : B ^ 2 ≤ 1 / 80 * B := by nlinarith
  have h5 : B ^ 3 ≤ 1 / 80 * B := by nlinarith [mul_nonneg b0 b0]
  linarith

theorem vinH_lip {B : ℝ} (b0 : 0 ≤ B) (b1 : B ≤ 1 / 80) (x y : ℝ) : |vinH B y - vinH B x| ≤ 101 / 100 * B * |y - x| := by
  have := sub_le_of_deriv (F := vinH B) (P := fun _ => 0) (vinH_deriv B) (fun σ => hasDerivAt_const σ (0 : ℝ))
    (C := 101 / 100 * B) (fun σ => ?_) x y
  · simpa using this
  · rw [sub_zero]
    refine (abs_add_three _ _ _).trans ?_
    rw [abs_mul, abs_mul, abs_mul, abs_mul, abs_mul, abs_of_nonneg b0, abs_of_nonneg (by positivity : 0 ≤ B ^ 2),
      abs_of_nonneg (by positivity : 0 ≤ B ^ 3), abs_of_nonneg (by norm_num : (0 : ℝ) ≤ 1 / 4),
      abs_of_nonneg (by norm_num : (0 : ℝ) ≤ 1 / 8)]
    have h1 : B * |Real.cos (2 * σ)| ≤ B * 1 := mul_le_mul_of_nonneg_left (Real.abs_cos_le_one _) b0
    have h2 : B ^ 2 * |Real.cos (4 * σ)| ≤ B ^ 2 * 1 := mul_le_mul_of_nonneg_left (Real.abs_cos_le_one _) (by positivity)
    have h3 : B ^ 3 * |Real.cos (6 * σ)| ≤ B ^ 3 * 1 := mul_le_mul_of_nonneg_left (Real.abs_cos_le_one _) (by positivity)
    have h4 : B ^ 2 ≤ 1 / 80 * B := by nlinarith
    have h5 : B ^ 3 ≤ 1 / 80 * B := by nlinarith [mul_nonneg b0 b0]
    linarith

/-- The arc from the distance, when the arc is the last iterate and `σ'` the one before. -/
theorem vin_arc {a b s0 c0 x m s σ σ' δ : ℝ} (hb : 0 < b) (hab : b ≤ a) (h1 : s0 ^ 2 + c0 ^ 2 = 1)
    (hx : x = c0 ^ 2 * ((a ^ 2 - b ^ 2) / b ^ 2)) (hf : (a - b) / a ≤ 1 / 50) (hδ : |σ - σ'| ≤ δ)
    (hσ : σ = s / (b * vincentyA x) + vincentyDeltaSigma (vincentyB x) σ' (Real.cos (2 * m + σ'))) :
    |σ| ≤ |s| / b + 1 / 90 ∧
    |T a b s0 c0 (m + σ) - T a b s0 c0 m - s| ≤ ((a - b) / a) ^ 4 * (1 / 20 * |s| + 1 / 1800 * a) +
      55 / 100 * a * ((a - b) / a) * δ := by
  have ha : 0 < a := lt_of_lt_of_le hb hab
  obtain ⟨x0, x1, x2, x3⟩ := x_facts hb hab h1 hx hf
  obtain ⟨B0, B1⟩ := vinB_bounds x0 x1
  obtain ⟨A0, A1⟩ := vinA_bounds x0 x1
  set f := (a - b) / a with hfd
  have f0 : 0 ≤ f := div_nonneg (by linarith) ha.le
  rw [delta_eq] at hσ
  have hH := vinH_lip B0 (by linarith) (m + σ) (m + σ')
  have hH1 := vinH_abs B0 (by linarith) (m + σ')
  have hH2 := vinH_abs B0 (by linarith) m
  have hbA : 0 < b * vincentyA x := by positivity
  have harc : |σ| ≤ |s| / b + 1 / 90 := by
    rw [hσ]
    refine (abs_add_le _ _).trans ?_
    have e1 : |s / (b * vincentyA x)| ≤ |s| / b := by
      rw [abs_div, abs_of_pos hbA]
      exact div_le_div_of_nonneg_left (abs_nonneg _) hb (by nlinarith)
    have e2 := abs_sub (vinH (vincentyB x) (m + σ')) (vinH (vincentyB x) m)
    linarith
  refine ⟨harc, ?_⟩
  have hd := vin_dist hb hab h1 hx hf m (m + σ)
  rw [show m + σ - m = σ by ring] at hd
  have hs : s = b * vincentyA x * (σ - (vinH (vincentyB x) (m + σ') - vinH (vincentyB x) m)) := by
    have : σ - (vinH (vincentyB x) (m + σ') - vinH (vincentyB x) m) = s / (b * vincentyA x) := by linarith
    rw [this]; field_simp
  have e : T a b s0 c0 (m + σ) - T a b s0 c0 m - s =
      ((T a b s0 c0 (m + σ) - T a b s0 c0 m) - (b * vinF x (m + σ) - b * vinF x m)) +
      b * vincentyA x * (vinH (vincentyB x) (m + σ') - vinH (vincentyB x) (m + σ)) := by
    simp only [vinF]
    linear_combination -hs
  rw [e]
  refine (abs_add_le _ _).trans (add_le_add ?_ ?_)
  · refine hd.trans ?_
    calc b * (1 / 20 * f ^ 4) * |σ| ≤ b * (1 / 20 * f ^ 4) * (|s| / b + 1 / 90) := by gcongr
      _ = f ^ 4 * (1 / 20 * |s| + 1 / 1800 * b) := by field_simp; ring
      _ ≤ _ := by gcongr
  · rw [abs_mul, abs_of_pos hbA]
    have hδ0 : 0 ≤ δ := (abs_nonneg _).trans hδ
    rw [show m + σ' - (m + σ) = -(σ - σ') by ring, abs_neg] at hH
    calc b * vincentyA x * _ ≤ a * (1 + x / 4) * (101 / 100 * vincentyB x * δ) := by
          refine mul_le_mul (by gcongr) (hH.trans (by gcongr)) (abs_nonneg _) (by positivity)
      _ ≤ a * (81 / 80) * (101 / 100 * (207 / 400 * f) * δ) := by gcongr <;> linarith
      _ = (81 / 80 * (101 / 100 * (207 / 400))) * (a * f * δ) := by ring
      _ ≤ 55 / 100 * (a * f * δ) := by gcongr; norm_num
      _ = _ := by ring

end Geo.Bessel
