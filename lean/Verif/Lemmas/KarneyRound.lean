import Verif.Lemmas.NearGeodesic
import Verif.Lemmas.TransverseParams
import Verif.Lemmas.Conditioning
import Verif.Props.Conditioning

/-! Polar angles, polynomials and sums of sines in IEEE arithmetic, for the Karney solver. -/

namespace Geo
open XR Spec
variable {L : Libm}

/-! ### Polar angles -/

theorem chord_sq' (t : ℝ) : (2 * |Real.sin (t / 2)|) ^ 2 = 2 - 2 * Real.cos t := by
  rw [mul_pow, sq_abs, ← mul_pow, chord_sq]

/-- The angle between two directions. -/
theorem turn_small {t q : ℝ} (ht : |t| ≤ Real.pi) (hc : 0 ≤ Real.cos t) (h : |Real.sin t| ≤ q) (hq : q ≤ 0.009) :
    |t| ≤ 1.0003 * q := by
  have h0 := (abs_nonneg _).trans h
  have h1 := Real.sin_sq_add_cos_sq t
  have h2 : Real.sin t ^ 2 ≤ q ^ 2 := by rw [← sq_abs]; exact pow_le_pow_left₀ (abs_nonneg _) h 2
  have h3 : q ^ 2 ≤ 0.000081 := by nlinarith
  have h4 : 0.9999 ≤ Real.cos t := by norm_num at h3 ⊢; nlinarith
  have h5 : 2 - 2 * Real.cos t ≤ (1.0001 * q) ^ 2 := by
    have : 2 - 2 * Real.cos t ≤ 1.0001 * Real.sin t ^ 2 := by norm_num at h4 ⊢; nlinarith
    norm_num at *
    nlinarith
  rw [← chord_sq'] at h5
  have h6 := chord_small ht (abs_le_of_sq_le_sq' h5 (by positivity)).2 (by norm_num at *; linarith)
  norm_num at *
  linarith

theorem polar_turn {r R θ Θ : ℝ} : ∃ (k : ℤ) (t : ℝ), θ = Θ + k * (2 * Real.pi) + t ∧ |t| ≤ Real.pi ∧
    r * R * Real.cos t = r * Real.cos θ * (R * Real.cos Θ) + r * Real.sin θ * (R * Real.sin Θ) ∧
    r * Real.sin t = r * Real.sin θ * Real.cos Θ - r * Real.cos θ * Real.sin Θ ∧
    r * Real.cos t = r * Real.cos θ * Real.cos Θ + r * Real.sin θ * Real.sin Θ := by
  obtain ⟨k, hk⟩ := remR_same (θ - Θ)
  have e : remR (θ - Θ) = θ - Θ + (k : ℤ) * (2 * Real.pi) := by rw [hk]
  have ec : Real.cos (remR (θ - Θ)) = Real.cos (θ - Θ) := by rw [e, Real.cos_add_int_mul_two_pi]
  have es : Real.sin (remR (θ - Θ)) = Real.sin (θ - Θ) := by rw [e, Real.sin_add_int_mul_two_pi]
  refine ⟨-k, remR (θ - Θ), by rw [e]; push_cast; ring, remR_abs _, ?_, ?_, ?_⟩
  · rw [ec, Real.cos_sub]; ring
  · rw [es, Real.sin_sub]; ring
  · rw [ec, Real.cos_sub]; ring

theorem atan2_err {x θ : ℝ} (hθ : |θ| ≤ Real.pi) (h : |x - θ| ≤ 2⁻¹ ^ 52 * |θ| + 2⁻¹ ^ 1074) : |x - θ| ≤ 7e-16 := by
  have h1 : (2⁻¹ : ℝ) ^ 1074 ≤ 1e-30 := (pow_le_pow_of_le_one (by norm_num) (by norm_num) (show 100 ≤ 1074 by norm_num)).trans (by norm_num)
  have h2 : (2⁻¹ : ℝ) ^ 52 * |θ| ≤ 2⁻¹ ^ 52 * 3.1416 := mul_le_mul_of_nonneg_left (hθ.trans Real.pi_lt_d4.le) (by positivity)
  generalize (2⁻¹ : ℝ) ^ 1074 = t at *
  norm_num at *
  linarith

theorem unit_dot_le {u v d c s : ℝ} (hu : |u| ≤ d) (hv : |v| ≤ d) (h : s ^ 2 + c ^ 2 = 1) : |u * c + v * s| ≤ 1.4143 * d := by
  have d0 := (abs_nonneg _).trans hu
  have h1 : u ^ 2 ≤ d ^ 2 := by rw [← sq_abs]; exact pow_le_pow_left₀ (abs_nonneg _) hu 2
  have h2 : v ^ 2 ≤ d ^ 2 := by rw [← sq_abs]; exact pow_le_pow_left₀ (abs_nonneg _) hv 2
  refine abs_le_of_sq_le_sq ?_ (by positivity)
  have h3 : (u * c + v * s) ^ 2 + (u * s - v * c) ^ 2 = u ^ 2 + v ^ 2 := by linear_combination (u ^ 2 + v ^ 2) * h
  have := sq_nonneg (u * s - v * c)
  norm_num
  nlinarith

/-- `atan2` at a point away from the origin. -/
theorem polar_near (hL : AccurateGeodesic L) {x y : F64 L} {R Θ d ρ E : ℝ} (hx : Near x (R * Real.cos Θ) d)
    (hy : Near y (R * Real.sin Θ) d) (hρ : 0 < ρ) (hR : ρ ≤ R) (hd : 200 * d ≤ ρ) (hE : 1.45 * d + 7e-16 * ρ ≤ E * ρ) :
    ∃ k : ℤ, Near (Flt.atan2 y x) (Θ + k * (2 * Real.pi)) E ∧ |Θ + k * (2 * Real.pi)| ≤ 3.2 := by
  obtain ⟨θ, hθ, h1, h2, h3⟩ := hL.atan2_all x y hx.1 hy.1
  set r := Real.sqrt ((x.toQ : ℝ) ^ 2 + (y.toQ : ℝ) ^ 2) with hr
  obtain ⟨k, t, e, ht, -, es, ec⟩ := polar_turn (r := r) (R := R) (θ := θ) (Θ := Θ)
  have d0 := hx.nonneg
  have q := Real.sin_sq_add_cos_sq Θ
  rw [h1, h2] at es ec
  have k1 := unit_dot_le hy.2 ((abs_neg _).trans_le hx.2) (c := Real.cos Θ) (s := Real.sin Θ) q
  have k2 := unit_dot_le hx.2 hy.2 (c := Real.cos Θ) (s := Real.sin Θ) q
  have es' : |r * Real.sin t| ≤ 1.4143 * d := by
    rw [es]
    refine le_trans (le_of_eq ?_) k1
    congr 1
    ring
  have ec' : |r * Real.cos t - R| ≤ 1.4143 * d := by
    rw [ec]
    refine le_trans (le_of_eq ?_) k2
    congr 1
    linear_combination R * q
  have r0 : 0 ≤ r := Real.sqrt_nonneg _
  have rc : 0.99 * R ≤ r * Real.cos t := by
    have := (abs_le.1 ec').1
    norm_num at *
    linarith
  have R0 : 0 < R := hρ.trans_le hR
  have c1 := Real.cos_le_one t
  have rR : 0.99 * R ≤ r := rc.trans (mul_le_of_le_one_right r0 c1)
  have rp : 0 < r := lt_of_lt_of_le (by positivity) rR
  have c0 : 0 ≤ Real.cos t := by
    by_contra hc
    have := mul_nonpos_of_nonneg_of_nonpos r0 (not_le.1 hc).le
    have : (0 : ℝ) < 0.99 * R := by positivity
    linarith
  have hs : |Real.sin t| ≤ 1.43 * (d / ρ) := by
    rw [abs_mul, abs_of_pos rp] at es'
    have h4 : |Real.sin t| * (0.99 * ρ) ≤ 1.4143 * d := by
      refine le_trans ?_ es'
      rw [mul_comm]
      refine mul_le_mul_of_nonneg_right (le_trans ?_ rR) (abs_nonneg _)
      exact mul_le_mul_of_nonneg_left hR (by norm_num)
    rw [mul_div_assoc', le_div_iff₀ hρ]
    norm_num at *
    linarith [abs_nonneg (Real.sin t)]
  have hdρ : d / ρ ≤ 0.005 := by rw [div_le_iff₀ hρ]; norm_num; linarith
  have T := turn_small ht c0 hs (by norm_num at *; linarith)
  have A := atan2_err hθ h3.2
  have hE' : 1.45 * (d / ρ) + 7e-16 ≤ E := by
    rw [show (1.45 : ℝ) * (d / ρ) + 7e-16 = (1.45 * d + 7e-16 * ρ) / ρ by field_simp, div_le_iff₀ hρ]
    exact hE
  have d1 : 0 ≤ d / ρ := by positivity
  have hcalc : |t| + 7e-16 ≤ E := by norm_num at *; linarith
  have eq1 : θ - t = Θ + k * (2 * Real.pi) := by rw [e]; ring
  refine ⟨k, ⟨h3.1, ?_⟩, ?_⟩
  · rw [← eq1, ← sub_add]
    exact (abs_add_le _ _).trans ((add_comm _ _).trans_le (le_trans (add_le_add le_rfl A) hcalc))
  · rw [← eq1]
    refine (abs_sub _ _).trans ?_
    have := hθ.trans Real.pi_lt_d4.le
    norm_num at *
    linarith

/-- `atan2` anywhere: the error of the point, whatever the angle. -/
theorem polar_near_all (hL : AccurateGeodesic L) {x y : F64 L} {R Θ d : ℝ} (hx : Near x (R * Real.cos Θ) d)
    (hy : Near y (R * Real.sin Θ) d) (hR : 0 ≤ R) :
    ∃ k : ℤ, (Flt.atan2 y x).isFinite ∧ |((Flt.atan2 y x).toQ : ℝ)| ≤ 3.2 ∧
      R * |((Flt.atan2 y x).toQ : ℝ) - (Θ + k * (2 * Real.pi))| ≤ 4.45 * d + 7e-16 * R := by
  obtain ⟨θ, hθ, h1, h2, h3⟩ := hL.atan2_all x y hx.1 hy.1
  set r := Real.sqrt ((x.toQ : ℝ) ^ 2 + (y.toQ : ℝ) ^ 2) with hr
  have hr2 : r ^ 2 = (x.toQ : ℝ) ^ 2 + (y.toQ : ℝ) ^ 2 := Real.sq_sqrt (by positivity)
  obtain ⟨k, t, e, ht, ed, -, -⟩ := polar_turn (r := r) (R := R) (θ := θ) (Θ := Θ)
  have d0 := hx.nonneg
  rw [h1, h2] at ed
  have q := Real.sin_sq_add_cos_sq Θ
  have q' := Real.sin_sq_add_cos_sq θ
  have A := atan2_err hθ h3.2
  have hu : ((x.toQ : ℝ) - R * Real.cos Θ) ^ 2 ≤ d ^ 2 := by rw [← sq_abs]; exact pow_le_pow_left₀ (abs_nonneg _) hx.2 2
  have hv : ((y.toQ : ℝ) - R * Real.sin Θ) ^ 2 ≤ d ^ 2 := by rw [← sq_abs]; exact pow_le_pow_left₀ (abs_nonneg _) hy.2 2
  have c1 := Real.cos_le_one t
  have c2 := Real.neg_one_le_cos t
  have r0 : 0 ≤ r := Real.sqrt_nonneg _
  have key : R ^ 2 * (2 - 2 * Real.cos t) ≤ 8 * d ^ 2 := by
    have s1 : r ^ 2 + R ^ 2 - 2 * (r * R * Real.cos t) ≤ 2 * d ^ 2 := by
      rw [ed, hr2]
      linarith [show (x.toQ : ℝ) ^ 2 + (y.toQ : ℝ) ^ 2 + R ^ 2 - 2 * (x.toQ * (R * Real.cos Θ) + y.toQ * (R * Real.sin Θ)) =
        ((x.toQ : ℝ) - R * Real.cos Θ) ^ 2 + ((y.toQ : ℝ) - R * Real.sin Θ) ^ 2 by linear_combination (-R ^ 2) * q]
    by_cases hc : 0 ≤ Real.cos t
    · nlinarith [sq_nonneg (r - R * Real.cos t), mul_nonneg (mul_nonneg hR hR) (mul_nonneg hc (sub_nonneg.2 c1))]
    · have hc' := (not_le.1 hc).le
      have : r * R * Real.cos t ≤ 0 := mul_nonpos_of_nonneg_of_nonpos (mul_nonneg r0 hR) hc'
      nlinarith [sq_nonneg r, sq_nonneg R]
  have hch : R * (2 * |Real.sin (t / 2)|) ≤ 2.8285 * d := by
    refine (abs_le_of_sq_le_sq' ?_ (by positivity)).2
    rw [mul_pow, chord_sq']
    norm_num
    nlinarith [sq_nonneg d]
  have ht2 : R * |t| ≤ 4.445 * d := by
    have h5 := chord_le ht le_rfl
    have h6 : R * (2 / Real.pi * |t|) ≤ 2.8285 * d := (mul_le_mul_of_nonneg_left h5 hR).trans hch
    have hp := Real.pi_pos
    have hp4 := Real.pi_lt_d4
    have h7 : R * |t| = Real.pi / 2 * (R * (2 / Real.pi * |t|)) := by field_simp
    rw [h7]
    have h8 : Real.pi / 2 * (R * (2 / Real.pi * |t|)) ≤ Real.pi / 2 * (2.8285 * d) := mul_le_mul_of_nonneg_left h6 (by positivity)
    norm_num at *
    nlinarith
  have eq1 : θ - t = Θ + k * (2 * Real.pi) := by rw [e]; ring
  refine ⟨k, h3.1, ?_, ?_⟩
  · have h9 := abs_add_le (((Flt.atan2 y x).toQ : ℝ) - θ) θ
    rw [sub_add_cancel] at h9
    have := hθ.trans Real.pi_lt_d4.le
    norm_num at *
    linarith
  · rw [← eq1, ← sub_add]
    refine (mul_le_mul_of_nonneg_left (abs_add_le _ _) hR).trans ?_
    rw [mul_add]
    have := mul_le_mul_of_nonneg_left A hR
    norm_num at *
    linarith

/-! ### Polynomials -/

theorem int_1 : Near (1 : F64 L) 1 0 := lit_near (q := 1) (show B64.isFinite (B64.lit 1) = true ∧ (B64.lit 1).toQ = 1 by decide +kernel) (by norm_num)
theorem int_2 : Near (2 : F64 L) 2 0 := lit_near (q := 2) (show B64.isFinite (B64.lit 2) = true ∧ (B64.lit 2).toQ = 2 by decide +kernel) (by norm_num)

/-- Value of a polynomial, lowest degree first. -/
noncomputable def pev (X : ℝ) : List ℝ → ℝ
  | [] => 0
  | c :: cs => pev X cs * X + c

/-- Doubles close to real coefficients. -/
inductive CoefNear (g C : ℝ) : List (F64 L) → List ℝ → Prop
  | nil : CoefNear g C [] []
  | cons {c : F64 L} {v : ℝ} {cs vs} : Near c v g → |v| ≤ C → CoefNear g C cs vs → CoefNear g C (c :: cs) (v :: vs)

theorem fastEval_cons (c : F64 L) (cs : List (F64 L)) (x : F64 L) :
    (Polynomial.mk (c :: cs)).fastEvalAt x = Flt.mulAdd ((Polynomial.mk cs).fastEvalAt x) x c := by
  simp [Polynomial.fastEvalAt]

theorem poly_near {x : F64 L} {X g C : ℝ} (hx : Near x X 3e-16) (hX : |X| ≤ 0.0026) (g0 : 0 ≤ g) (hg : g ≤ 1e-15) (hC0 : 0 ≤ C) (hC : C ≤ 1.01)
    {cs : List (F64 L)} {vs : List ℝ} (h : CoefNear g C cs vs) :
    Near ((Polynomial.mk cs).fastEvalAt x) (pev X vs) (1.003 * g + 4.4e-16) ∧ |pev X vs| ≤ 1.0027 * C := by
  induction h with
  | nil => exact ⟨(zero_near).mono (by positivity), by simp only [pev, abs_zero]; positivity⟩
  | @cons c v cs vs hc hv _ ih =>
    obtain ⟨i1, i2⟩ := ih
    have hb : |pev X (v :: vs)| ≤ 1.0027 * C := by
      refine (abs_add_le _ _).trans ?_
      rw [abs_mul]
      have := mul_le_mul i2 hX (abs_nonneg _) (by positivity)
      norm_num at *
      linarith
    refine ⟨?_, hb⟩
    rw [fastEval_cons]
    have hi : |pev X vs| ≤ 1.013 := i2.trans (by norm_num at *; linarith)
    have hb' : |pev X vs * X + v| ≤ 1.013 := hb.trans (by norm_num at *; linarith)
    refine Near.mulAdd i1 hx hc hi hX (R := 1.0131) ?_ (by norm_num) (by norm_num) ?_
    · norm_num at *; linarith
    · norm_num at *; linarith

/-- A polynomial without constant term. -/
theorem poly1_near {x : F64 L} {X g C : ℝ} (hx : Near x X 3e-16) (hX : |X| ≤ 0.0026) (g0 : 0 ≤ g) (hg : g ≤ 1e-15) (hC0 : 0 ≤ C) (hC : C ≤ 1.01)
    {cs : List (F64 L)} {vs : List ℝ} (h : CoefNear g C cs vs) :
    Near ((Polynomial.mk (0 :: cs)).fastEvalAt x) (pev X (0 :: vs)) 3.1e-16 ∧ |pev X (0 :: vs)| ≤ 0.002634 := by
  obtain ⟨i1, i2⟩ := poly_near hx hX g0 hg hC0 hC h
  have hi : |pev X vs| ≤ 1.013 := i2.trans (by norm_num at *; linarith)
  have hb : |pev X vs * X + 0| ≤ 0.002634 := by
    rw [add_zero, abs_mul]
    exact (mul_le_mul hi hX (abs_nonneg _) (by norm_num)).trans (by norm_num)
  refine ⟨?_, hb⟩
  rw [fastEval_cons]
  refine Near.mulAdd i1 hx zero_near hi hX (R := 0.00264) ?_ (by norm_num) (by norm_num) ?_
  · norm_num at *; linarith
  · norm_num at *; linarith

/-- A polynomial divisible by the square. -/
theorem poly2_near {x : F64 L} {X g C : ℝ} (hx : Near x X 3e-16) (hX : |X| ≤ 0.0026) (g0 : 0 ≤ g) (hg : g ≤ 1e-15) (hC0 : 0 ≤ C) (hC : C ≤ 1.01)
    {cs : List (F64 L)} {vs : List ℝ} (h : CoefNear g C cs vs) :
    Near ((Polynomial.mk (0 :: 0 :: cs)).fastEvalAt x) (pev X (0 :: 0 :: vs)) 2e-18 ∧ |pev X (0 :: 0 :: vs)| ≤ 7e-6 := by
  obtain ⟨i1, i2⟩ := poly1_near hx hX g0 hg hC0 hC h
  have hb : |pev X (0 :: vs) * X + 0| ≤ 6.9e-6 := by
    rw [add_zero, abs_mul]
    exact (mul_le_mul i2 hX (abs_nonneg _) (by norm_num)).trans (by norm_num)
  refine ⟨?_, hb.trans (by norm_num)⟩
  rw [fastEval_cons]
  refine Near.mulAdd i1 hx zero_near i2 hX (R := 7e-6) ?_ (by norm_num) (by norm_num) (by norm_num)
  norm_num at *; linarith

/-! ### Sums of sines -/

/-- The recurrence of Clenshaw's algorithm: the last two values. -/
noncomputable def clen (A : ℝ) : List ℝ → ℝ × ℝ
  | [] => (0, 0)
  | c :: cs => (A * (clen A cs).1 - (clen A cs).2 + c, (clen A cs).1)

/-- `∑ cᵢ sin((j + i) X)`. -/
noncomputable def sinSum (X : ℝ) : ℕ → List ℝ → ℝ
  | _, [] => 0
  | j, c :: cs => c * Real.sin (j * X) + sinSum X (j + 1) cs

theorem clen_sum (X : ℝ) (cs : List ℝ) (j : ℕ) :
    sinSum X (j + 1) cs = (clen (2 * Real.cos X) cs).1 * Real.sin ((j + 1 : ℕ) * X) - (clen (2 * Real.cos X) cs).2 * Real.sin (j * X) := by
  induction cs generalizing j with
  | nil => simp [sinSum, clen]
  | cons c cs ih =>
    have h1 : Real.sin ((j + 1 + 1 : ℕ) * X) + Real.sin (j * X) = 2 * Real.cos X * Real.sin ((j + 1 : ℕ) * X) := by
      have e1 : ((j + 1 + 1 : ℕ) : ℝ) * X = ((j + 1 : ℕ) : ℝ) * X + X := by push_cast; ring
      have e2 : (j : ℝ) * X = ((j + 1 : ℕ) : ℝ) * X - X := by push_cast; ring
      rw [e1, e2, Real.sin_add, Real.sin_sub]
      ring
    rw [sinSum, ih (j + 1)]
    simp only [clen]
    linear_combination (clen (2 * Real.cos X) cs).1 * h1

theorem clen_step {α p q c : F64 L} {A P Q C e B g G : ℝ} (hα : Near α A 5e-13) (hA : |A| ≤ 2) (hp : Near p P e) (hP : |P| ≤ B)
    (hq : Near q Q e) (hQ : |Q| ≤ B) (hc : Near c C g) (hC : |C| ≤ G) {b : ℝ}
    (hb : 3.01 * B + 1.01 * G + 4 * e + 2 * g + 1e-20 ≤ b) (hb1 : b ≤ 1) {E : ℝ} (hE : 3.001 * e + g + 5.01e-13 * B + 4.9e-16 * b ≤ E) :
    Near (α * p + -1 * q + c) (A * P - Q + C) E ∧ |A * P - Q + C| ≤ 3 * B + G := by
  have e0 := hp.nonneg
  have g0 := hc.nonneg
  have B0 := (abs_nonneg _).trans hP
  have G0 := (abs_nonneg _).trans hC
  have b0 : 1e-20 ≤ b := le_trans (by linarith) hb
  have h1 : |A * P| ≤ 2 * B := by rw [abs_mul]; exact mul_le_mul hA hP (abs_nonneg _) (by norm_num)
  have h2 := abs_sub (A * P) Q
  have h3 := abs_add_le (A * P - Q) C
  have hbb : |A * P - Q + C| ≤ 3 * B + G := by linarith
  refine ⟨?_, hbb⟩
  have k1 := Near.mul hα hp hA hP (R := b) (E := 2 * e + B * 5e-13 + 5e-13 * e + 1.2e-16 * b) (by norm_num at *; linarith) (by norm_num at *; linarith)
    (by norm_num at *; linarith) (by norm_num)
  have k2 := Near.mul int_1.neg hq (A := 1) (B := B) (by norm_num) hQ (R := b) (E := e + 1.2e-16 * b) (by norm_num at *; linarith)
    (by norm_num at *; linarith) (by norm_num at *; linarith) (by norm_num)
  have e1 : A * P + -1 * Q = A * P - Q := by ring
  have k3 := Near.add k1 k2 (R := b) (E := 3 * e + B * 5e-13 + 5e-13 * e + 3.6e-16 * b) (by rw [e1]; norm_num at *; linarith)
    (by norm_num at *; linarith) (by norm_num at *; linarith) (by norm_num at *; linarith)
  rw [e1] at k3
  exact Near.add k3 hc (R := b) (by norm_num at *; linarith) (by norm_num at *; linarith) (by norm_num at *; linarith) (by norm_num at *; linarith)

/-- The state of the loop after the coefficients of a list. -/
def clenRun (α : F64 L) (cs : List (F64 L)) : ClenshawState (F64 L) :=
  cs.foldr (fun c st => clenshawStep α (-1) st c) { yn2 := 0, yn1 := 0, yn := 0 }

theorem clenRun_near {α : F64 L} {A : ℝ} (hα : Near α A 5e-13) (hA : |A| ≤ 2) {cs : List (F64 L)} {vs : List ℝ}
    (h : CoefNear 2e-18 7e-6 cs vs) (hl : cs.length ≤ 5) :
    Near (clenRun α cs).yn (clen A vs).1 (1.6e-18 * cs.length * 3 ^ cs.length) ∧
    Near (clenRun α cs).yn1 (clen A vs).2 (1.6e-18 * cs.length * 3 ^ cs.length) ∧
    |(clen A vs).1| ≤ 3.5e-6 * (3 ^ cs.length - 1) ∧ |(clen A vs).2| ≤ 3.5e-6 * (3 ^ cs.length - 1) := by
  induction h with
  | nil => exact ⟨by simpa [clenRun, clen] using zero_near, by simpa [clenRun, clen] using zero_near, by simp [clen], by simp [clen]⟩
  | @cons c v cs vs hc hv _ ih =>
    obtain ⟨i1, i2, i3, i4⟩ := ih (le_trans (Nat.le_succ _) hl)
    have hl' : cs.length ≤ 4 := Nat.le_of_succ_le_succ hl
    generalize hm : cs.length = m at *
    have e : (clenRun α (c :: cs)).yn = α * (clenRun α cs).yn + -1 * (clenRun α cs).yn1 + c := rfl
    have e' : (clenRun α (c :: cs)).yn1 = (clenRun α cs).yn := rfl
    have ev : (clen A (v :: vs)).1 = A * (clen A vs).1 - (clen A vs).2 + v := rfl
    have ev' : (clen A (v :: vs)).2 = (clen A vs).1 := rfl
    rw [e, e', ev, ev', List.length_cons, hm]
    have s := fun b h1 h2 E hE => clen_step hα hA i1 i3 i2 i4 hc hv (b := b) h1 h2 (E := E) hE
    refine ⟨(s (3.5e-6 * 3.1 * 3 ^ m + 1e-6) ?_ ?_ _ ?_).1, i1.mono ?_, ?_, i3.trans ?_⟩
    · interval_cases m <;> norm_num
    · interval_cases m <;> norm_num
    · interval_cases m <;> norm_num
    · interval_cases m <;> norm_num
    · have := (s (3.5e-6 * 3.1 * 3 ^ m + 1e-6) (by interval_cases m <;> norm_num) (by interval_cases m <;> norm_num) _ le_rfl).2
      refine this.trans ?_
      interval_cases m <;> norm_num
    · interval_cases m <;> norm_num

/-- `clenshaw_sin_sum` with a small first coefficient and smaller other ones. -/
theorem clenshaw_near (hL : AccurateProjection L) {x c0 c1 : F64 L} {X e v1 : ℝ} {cs : List (F64 L)} {vs : List ℝ} (hx : Near x X e) (hX : |X| ≤ 20)
    (he : e ≤ 2.4e-13) (h1 : Near c1 v1 3.1e-16) (h1' : |v1| ≤ 0.002634) (h : CoefNear 2e-18 7e-6 cs vs) (hl : cs.length ≤ 5) :
    Near (clenshawSinSum (c0 :: c1 :: cs) x) (sinSum X 1 (v1 :: vs)) (0.0055 * e + 7.3e-15) ∧ |sinSum X 1 (v1 :: vs)| ≤ 0.0053 := by
  have e0 := hx.nonneg
  have kc := Near.cos' hL hx (E := e + 2.3e-16) (by norm_num at *; linarith) le_rfl
  have ks := Near.sin' hL hx (E := e + 2.3e-16) (by norm_num at *; linarith) le_rfl
  have cb := Real.abs_cos_le_one X
  have sb := Real.abs_sin_le_one X
  have kα := Near.mul int_2 kc (A := 2) (B := 1) (R := 2.001) (E := 5e-13) (by norm_num) cb (by norm_num at *; linarith) (by norm_num) (by norm_num)
    (by norm_num at *; linarith)
  have hA : |2 * Real.cos X| ≤ 2 := by rw [abs_mul]; norm_num; linarith
  obtain ⟨i1, i2, i3, i4⟩ := clenRun_near kα hA h hl
  have m1 : (1.6e-18 : ℝ) * cs.length * 3 ^ cs.length ≤ 1.95e-15 := by
    generalize cs.length = m at *
    interval_cases m <;> norm_num
  have m2 : (3.5e-6 : ℝ) * (3 ^ cs.length - 1) ≤ 8.48e-4 := by
    generalize cs.length = m at *
    interval_cases m <;> norm_num
  obtain ⟨j1, j2⟩ := clen_step kα hA (i1.mono m1) (i3.trans m2) (i2.mono m1) (i4.trans m2) h1 h1' (b := 0.0053)
    (by norm_num) (by norm_num) (E := 6.7e-15) (by norm_num)
  have e1 : sinSum X 1 (v1 :: vs) = Real.sin X * (clen (2 * Real.cos X) (v1 :: vs)).1 := by
    have := clen_sum X (v1 :: vs) 0
    rw [zero_add] at this
    rw [this]
    simp [mul_comm]
  have e2 : clenshawSinSum (c0 :: c1 :: cs) x = Flt.sin x * (2 * Flt.cos x * (clenRun (2 * Flt.cos x) cs).yn + -1 * (clenRun (2 * Flt.cos x) cs).yn1 + c1) := by
    unfold clenshawSinSum
    simp only [List.foldl_reverse]
    rfl
  have j2' : |(clen (2 * Real.cos X) (v1 :: vs)).1| ≤ 0.0053 := j2.trans (by norm_num)
  rw [e1, e2]
  refine ⟨Near.mul ks j1 sb j2' (R := 0.0054) (by norm_num at *; linarith) (by norm_num) (by norm_num) (by norm_num at *; linarith), ?_⟩
  rw [abs_mul]
  exact (mul_le_mul sb j2' (abs_nonneg _) (by norm_num)).trans (by norm_num)

end Geo
