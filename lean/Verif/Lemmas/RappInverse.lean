import Verif.Lemmas.RappGeodesic
import Verif.Lemmas.RappDirect

/-! The inverse problem of the Rapp solver over the reals. -/

namespace Geo
open XR Spec RappSolver

theorem eval_fin (c : List ℝ) (x : ℝ) :
    (Polynomial.mk (c.map fin)).evalAt (fin x) = fin (c.foldr (fun a y => a + x * y) 0) := by
  unfold Polynomial.evalAt
  rw [List.foldl_reverse]
  induction c with
  | nil => exact zero_eq
  | cons a c ih => rw [List.map_cons, List.foldr_cons, ih, mul_fin, add_fin, List.foldr_cons, add_comm]

theorem axs_eval {a b : ℝ} (hb : 0 < b) (hab : b ≤ a) (s : String) (c : ℝ) :
    (new (ell s a b)).a0.evalAt (fin c) = fin (rappA0 ((a - b) / a) c) ∧
    (new (ell s a b)).a2.evalAt (fin c) = fin (rappA2 ((a - b) / a) c) ∧
    (new (ell s a b)).a4.evalAt (fin c) = fin (rappA4 ((a - b) / a) c) ∧
    (new (ell s a b)).a6.evalAt (fin c) = fin (rappA6 ((a - b) / a) c) := by
  generalize hf : (a - b) / a = f
  have e : (ell s a b).f = fin f := by rw [ell_f hb hab, hf]
  refine ⟨?_, ?_, ?_, ?_⟩ <;>
    simp only [new, e, one_eq, zero_eq, ofNat_eq, neg_fin, mul_fin, add_fin, ne_eq, OfNat.ofNat_ne_zero,
      not_false_eq_true, div_fin] <;>
    simp only [← List.map_cons, ← List.map_nil (f := (fin : ℝ → XR)), eval_fin] <;>
    simp only [List.foldr_cons, List.foldr_nil, rappA0, rappA2, rappA4, rappA6, fin.injEq] <;> ring

/-! ### The excess -/

/-- `A₂ / k`. -/
noncomputable def rapp2 (f k : ℝ) : ℝ :=
  f / 4 * (1 + f + f ^ 2) - f ^ 2 / 4 * (1 + 9 * f / 4) * k + 75 * f ^ 3 / 256 * (k * k)
/-- `A₄ / k²`. -/
noncomputable def rapp4 (f k : ℝ) : ℝ := f ^ 2 / 32 * (1 + 9 * f / 4) - 15 * f ^ 3 / 256 * k

noncomputable def rappR (f β₁ β₂ l : ℝ) : ℝ :=
  let k := 1 - salpha β₁ β₂ l ^ 2
  let u := Real.cos (arc β₁ β₂ l)
  let p := k * u - 2 * Real.sin β₁ * Real.sin β₂
  rapp2 f k * p + 2 * (u * (rapp4 f k * (2 * (p * p) - k * k))) +
    5 * f ^ 3 / 768 * ((4 * (u * u) - 1) * (4 * (p * (p * p)) - 3 * (k * (k * p))))

/-- The excess. -/
noncomputable def rappE (f β₁ β₂ l : ℝ) : ℝ := f * exc β₁ β₂ (rappA0 f) (rappR f β₁ β₂) l

theorem mid_zero {β₁ β₂ l : ℝ} (h : Real.sin (arc β₁ β₂ l) ≠ 0) (h0 : 1 - salpha β₁ β₂ l ^ 2 = 0) :
    Real.sin β₁ * Real.sin β₂ = 0 := by
  have hh := heights β₁ β₂ l h
  have hsc := Real.sin_sq_add_cos_sq (arc β₁ β₂ l)
  set σ := arc β₁ β₂ l
  rw [h0, zero_mul] at hh
  have hs2 : 0 < Real.sin σ ^ 2 := by positivity
  have hc1 : -1 < Real.cos σ := by nlinarith
  have hc2 : Real.cos σ < 1 := by nlinarith
  nlinarith [mul_nonneg (sub_nonneg.2 hc2.le) (sq_nonneg (Real.sin β₁ + Real.sin β₂)),
    mul_nonneg (by linarith : 0 ≤ 1 + Real.cos σ) (sq_nonneg (Real.sin β₁ - Real.sin β₂)),
    mul_pos (sub_pos.2 hc2) (by linarith : 0 < 1 + Real.cos σ)]

theorem rappE_zero {f β₁ β₂ l : ℝ} (h : Real.sin (arc β₁ β₂ l) ≠ 0) (h0 : 1 - salpha β₁ β₂ l ^ 2 = 0) :
    f * salpha β₁ β₂ l * arc β₁ β₂ l = rappE f β₁ β₂ l := by
  have hm := mid_zero h h0
  simp only [rappE, exc, rappR, h0, show 2 * Real.sin β₁ * Real.sin β₂ = 0 by rw [mul_assoc, hm, mul_zero], rappA0]
  ring

theorem rappE_eq {f β₁ β₂ l c : ℝ} (h : Real.sin (arc β₁ β₂ l) ≠ 0) (h0 : 1 - salpha β₁ β₂ l ^ 2 ≠ 0)
    (hc : c = Real.cos (arc β₁ β₂ l) - 2 * Real.sin β₁ * Real.sin β₂ / (1 - salpha β₁ β₂ l ^ 2)) :
    f * salpha β₁ β₂ l * (rappA0 f (1 - salpha β₁ β₂ l ^ 2) * arc β₁ β₂ l
      + rappA2 f (1 - salpha β₁ β₂ l ^ 2) * Real.sin (arc β₁ β₂ l) * c
      + rappA4 f (1 - salpha β₁ β₂ l ^ 2) * (2 * Real.sin (arc β₁ β₂ l) * Real.cos (arc β₁ β₂ l)) * (2 * c ^ 2 - 1)
      + rappA6 f (1 - salpha β₁ β₂ l ^ 2) *
        (3 * Real.sin (arc β₁ β₂ l) * Real.cos (arc β₁ β₂ l) ^ 2 - Real.sin (arc β₁ β₂ l) ^ 3) *
        (c ^ 3 - 3 * c * (1 - c ^ 2))) = rappE f β₁ β₂ l := by
  have hN := salpha_mul h
  have hsc := Real.sin_sq_add_cos_sq (arc β₁ β₂ l)
  simp only [rappE, exc, rappR, ← hN]
  set k := 1 - salpha β₁ β₂ l ^ 2
  set sa := salpha β₁ β₂ l
  set σ := arc β₁ β₂ l
  have e : k * Real.cos σ - 2 * Real.sin β₁ * Real.sin β₂ = k * c := by rw [hc]; field_simp
  have e3 : 3 * Real.sin σ * Real.cos σ ^ 2 - Real.sin σ ^ 3 = Real.sin σ * (4 * (Real.cos σ * Real.cos σ) - 1) := by
    linear_combination -Real.sin σ * hsc
  rw [e, e3]
  simp only [rappA0, rappA2, rappA4, rappA6, rapp2, rapp4]
  ring

theorem rappR_bd {f : ℝ} (f0 : 0 ≤ f) (f1 : f ≤ 1 / 50) {β₁ β₂ l : ℝ} (h : Real.sin (arc β₁ β₂ l) ≠ 0) :
    Bd β₁ β₂ (rappR f β₁ β₂) l (1 / 50) (1 / 30) := by
  have f2 : f ^ 2 ≤ 1 / 2500 := by nlinarith
  have f20 : 0 ≤ f ^ 2 := by positivity
  have f30 : 0 ≤ f ^ 3 := by positivity
  have f3 : f ^ 3 ≤ 1 / 125000 := by
    calc f ^ 3 = f * f ^ 2 := by ring
      _ ≤ 1 / 50 * (1 / 2500) := mul_le_mul f1 f2 f20 (by norm_num)
      _ = _ := by norm_num
  have hk := Bd.kArc h
  have hu := Bd.cosArc h
  have hp := Bd.pArc h
  have h2 : Bd β₁ β₂ (fun x => rapp2 f (1 - salpha β₁ β₂ x ^ 2)) l (53 / 10000) (5 / 10000) := by
    have := (((Bd.const β₁ β₂ (f / 4 * (1 + f + f ^ 2)) l).sub (hk.smul (f ^ 2 / 4 * (1 + 9 * f / 4)))).add
      ((hk.mul hk).smul (75 * f ^ 3 / 256)))
    rw [abs_of_nonneg (by positivity), abs_of_nonneg (by positivity), abs_of_nonneg (by positivity)] at this
    refine Bd.congr (this.mono ?_ ?_) ?_
    · nlinarith
    · nlinarith
    · funext x
      rw [rapp2]
  have h4 : Bd β₁ β₂ (fun x => rapp4 f (1 - salpha β₁ β₂ x ^ 2)) l (15 / 1000000) (2 / 1000000) := by
    have := (Bd.const β₁ β₂ (f ^ 2 / 32 * (1 + 9 * f / 4)) l).sub (hk.smul (15 * f ^ 3 / 256))
    rw [abs_of_nonneg (by positivity), abs_of_nonneg (by positivity)] at this
    refine Bd.congr (this.mono ?_ ?_) ?_
    · nlinarith
    · nlinarith
    · funext x
      rw [rapp4]
  have q2 := (h2.mul hp).mono (C0 := 16 / 1000) (C1 := 28 / 1000) (by norm_num) (by norm_num)
  have q4 := ((hu.mul (h4.mul (((hp.mul hp).smul 2).sub (hk.mul hk)))).smul 2).mono (C0 := 6 / 10000) (C1 := 28 / 10000)
    (by norm_num) (by norm_num)
  have q6 := ((((hu.mul hu).smul 4).sub (Bd.const β₁ β₂ 1 l)).mul
    (((hp.mul (hp.mul hp)).smul 4).sub ((hk.mul (hk.mul hp)).smul 3))).mono (C0 := 585) (C1 := 4100)
    (by norm_num) (by norm_num)
  have q6' := (q6.smul (5 * f ^ 3 / 768)).mono (C0 := 1 / 10000) (C1 := 3 / 10000)
    (by rw [abs_of_nonneg (by positivity)]; linarith) (by rw [abs_of_nonneg (by positivity)]; linarith)
  exact ((q2.add q4).add q6').mono (C0 := 1 / 50) (C1 := 1 / 30) (by norm_num) (by norm_num)

theorem rappA0_deriv (f k : ℝ) : HasDerivAt (rappA0 f)
    (-(f / 4 * (1 + f + f ^ 2)) + 3 * f ^ 2 / 8 * (1 + 9 * f / 4) * k - 75 * f ^ 3 / 128 * k ^ 2) k := by
  have e : rappA0 f = fun k => 1 - f / 4 * (1 + f + f ^ 2) * k + 3 * f ^ 2 / 16 * (1 + 9 * f / 4) * k ^ 2 -
      25 * f ^ 3 / 128 * k ^ 3 := by funext k; rw [rappA0]
  rw [e]
  refine (((((hasDerivAt_id k).const_mul (f / 4 * (1 + f + f ^ 2))).const_sub 1).add
    (((hasDerivAt_id k).pow 2).const_mul (3 * f ^ 2 / 16 * (1 + 9 * f / 4)))).sub
    (((hasDerivAt_id k).pow 3).const_mul (25 * f ^ 3 / 128))).congr_deriv ?_
  simp; ring

theorem rappA0_facts {f : ℝ} (f0 : 0 ≤ f) (f1 : f ≤ 1 / 50) (k : ℝ) (k0 : 0 ≤ k) (k1 : k ≤ 1) :
    9 / 10 ≤ rappA0 f k ∧ rappA0 f k ≤ 1 ∧
      |-(f / 4 * (1 + f + f ^ 2)) + 3 * f ^ 2 / 8 * (1 + 9 * f / 4) * k - 75 * f ^ 3 / 128 * k ^ 2| ≤ 1 / 150 := by
  have h2 : f ^ 2 ≤ 1 / 50 * f := by nlinarith
  have h3 : f ^ 3 ≤ 1 / 50 * f ^ 2 := by nlinarith [sq_nonneg f]
  have p : ∀ n m : ℕ, 0 ≤ f ^ n * k ^ m := fun n m => by positivity
  have e : ∀ n m : ℕ, f ^ n * k ^ m ≤ f ^ n := fun n m => by
    have : k ^ m ≤ 1 := pow_le_one₀ k0 k1
    have h : 0 ≤ f ^ n := by positivity
    nlinarith
  have e' : ∀ n : ℕ, f ^ n * k ^ 2 ≤ f ^ n * k := fun n => by
    have : k ^ 2 ≤ k := by nlinarith
    have h : 0 ≤ f ^ n := by positivity
    nlinarith
  have q1 := e 1 1
  have q2 := e 2 1
  have q3 := e 3 1
  have q4 := e 2 2
  have q5 := e 3 2
  have q6 := e 3 3
  have p1 := p 1 1
  have p2 := p 2 1
  have p3 := p 3 1
  have p4 := p 2 2
  have p5 := p 3 2
  have p6 := p 3 3
  have r2 := e' 2
  have r3 := e' 3
  have r5 : f ^ 2 * k ≤ 1 / 50 * (f * k) := by nlinarith
  have r6 : f ^ 3 * k ≤ 1 / 50 * (f ^ 2 * k) := by nlinarith
  simp only [pow_one] at *
  rw [show rappA0 f k = 1 - 1 / 4 * (f * k) - 1 / 4 * (f ^ 2 * k) - 1 / 4 * (f ^ 3 * k) + 3 / 16 * (f ^ 2 * k ^ 2) +
      27 / 64 * (f ^ 3 * k ^ 2) - 25 / 128 * (f ^ 3 * k ^ 3) by rw [rappA0]; ring]
  have f30 : 0 ≤ f ^ 3 := by positivity
  refine ⟨by linarith, by linarith, ?_⟩
  rw [show -(f / 4 * (1 + f + f ^ 2)) + 3 * f ^ 2 / 8 * (1 + 9 * f / 4) * k - 75 * f ^ 3 / 128 * k ^ 2 =
    -(1 / 4 * f + 1 / 4 * f ^ 2 + 1 / 4 * f ^ 3) + 3 / 8 * (f ^ 2 * k) + 27 / 32 * (f ^ 3 * k) - 75 / 128 * (f ^ 3 * k ^ 2) by ring]
  exact abs_le.2 ⟨by linarith, by linarith⟩

/-! ### The loop -/

/-- The state after an iteration from the longitude difference `l`. -/
structure RealI (st : InverseState XR) (f β₁ β₂ L l : ℝ) : Prop where
  lambda : st.lambda = fin (L + rappE f β₁ β₂ l)
  prev : st.lambda_prev = fin l
  cos_lambda : st.cos_lambda = fin (Real.cos l)
  sigma : st.sigma = fin (arc β₁ β₂ l)
  s1 : st.sin_sigma = fin (Real.sin (arc β₁ β₂ l))
  s2 : st.sin_2_sigma = fin (2 * Real.sin (arc β₁ β₂ l) * Real.cos (arc β₁ β₂ l))
  s3 : st.sin_3_sigma = fin (3 * Real.sin (arc β₁ β₂ l) * Real.cos (arc β₁ β₂ l) ^ 2 - Real.sin (arc β₁ β₂ l) ^ 3)
  s4 : st.sin_4_sigma = fin (4 * Real.sin (arc β₁ β₂ l) * Real.cos (arc β₁ β₂ l) ^ 3 -
    4 * Real.sin (arc β₁ β₂ l) ^ 3 * Real.cos (arc β₁ β₂ l))
  sin_alpha : st.sin_alpha = fin (salpha β₁ β₂ l)
  cos_alpha_sq : st.cos_alpha_sq = fin (1 - salpha β₁ β₂ l ^ 2)
  cos : 1 - salpha β₁ β₂ l ^ 2 ≠ 0 →
    ∃ c, c = Real.cos (arc β₁ β₂ l) - 2 * Real.sin β₁ * Real.sin β₂ / (1 - salpha β₁ β₂ l ^ 2) ∧
      st.cos_2_sigma_m = fin c ∧ st.cos_4_sigma_m = fin (2 * c ^ 2 - 1) ∧
      st.cos_6_sigma_m = fin (c ^ 3 - 3 * c * (1 - c ^ 2)) ∧
      st.cos_8_sigma_m = fin (c ^ 4 - 6 * c ^ 2 * (2 * Real.sin (arc β₁ β₂ l) * Real.cos (arc β₁ β₂ l)) ^ 2 +
        (2 * Real.sin (arc β₁ β₂ l) * Real.cos (arc β₁ β₂ l)) ^ 4)

theorem rappInverseStep_real {a b : ℝ} (hb : 0 < b) (hab : b ≤ a) (n : String) {β₁ β₂ l L : ℝ} (st : InverseState XR)
    (hl : st.lambda = fin l) (hs : Real.sin (arc β₁ β₂ l) ≠ 0) :
    RealI (inverseStep (new (ell n a b)) (fin (Real.sin β₁)) (fin (Real.cos β₁)) (fin (Real.sin β₂)) (fin (Real.cos β₂))
      (fin L) st) ((a - b) / a) β₁ β₂ L l := by
  have e1 : (Real.sin l * Real.cos β₂) ^ 2 + (Real.sin β₂ * Real.cos β₁ - Real.sin β₁ * Real.cos β₂ * Real.cos l) ^ 2
      = ssq β₁ β₂ l := by unfold ssq; ring
  have e2 : Flt.sqrt (fin (ssq β₁ β₂ l)) = fin (Real.sin (arc β₁ β₂ l)) := by rw [sqrt_fin (ssq_nonneg _ _ _), ← sin_arc]
  have e3 : Real.sin β₁ * Real.sin β₂ + Real.cos β₁ * Real.cos β₂ * Real.cos l = Real.cos (arc β₁ β₂ l) :=
    (cos_arc _ _ _).symm
  have e4 : Complex.arg ⟨Real.cos (arc β₁ β₂ l), Real.sin (arc β₁ β₂ l)⟩ = arc β₁ β₂ l := by
    rw [cos_arc, sin_arc]; rfl
  have e5 : Real.cos β₁ * Real.cos β₂ * Real.sin l / Real.sin (arc β₁ β₂ l) = salpha β₁ β₂ l := rfl
  have hf : (new (ell n a b)).ellipsoid.f = fin ((a - b) / a) := ell_f hb hab n
  refine ⟨?_, hl, ?_, ?_, ?_, ?_, ?_, ?_, ?_, ?_, fun hα => ⟨_, rfl, ?_, ?_, ?_, ?_⟩⟩
  · by_cases hα : 1 - salpha β₁ β₂ l ^ 2 = 0
    · simp only [inverseStep, hf, hl, sin_fin, cos_fin, mul_fin, add_fin, sub_fin, powi_fin, ofNat_eq, one_eq, zero_eq,
        e1, e2, e3, atan2_fin, e4, div_fin _ hs, e5, eq_fin, hα, decide_true, if_true]
      rw [rappE_zero hs hα]
    · simp only [inverseStep, hf, hl, sin_fin, cos_fin, mul_fin, add_fin, sub_fin, powi_fin, ofNat_eq, one_eq, zero_eq,
        e1, e2, e3, atan2_fin, e4, div_fin _ hs, e5, eq_fin, hα, decide_false, Bool.false_eq_true, if_false,
        div_fin _ hα, (axs_eval hb hab n _).1, (axs_eval hb hab n _).2.1, (axs_eval hb hab n _).2.2.1,
        (axs_eval hb hab n _).2.2.2]
      rw [rappE_eq hs hα rfl]
  · simp only [inverseStep, hl, cos_fin]
  all_goals
    first
    | (simp only [inverseStep, hl, sin_fin, cos_fin, mul_fin, add_fin, sub_fin, powi_fin, ofNat_eq, one_eq, zero_eq,
        e1, e2, e3, atan2_fin, e4, div_fin _ hs, e5]; done)
    | simp only [inverseStep, hl, sin_fin, cos_fin, mul_fin, add_fin, sub_fin, powi_fin, ofNat_eq, one_eq, zero_eq,
        e1, e2, e3, atan2_fin, e4, div_fin _ hs, e5, eq_fin, hα, decide_false, Bool.false_eq_true, if_false, div_fin _ hα]

theorem rappInverseDone_real {st : InverseState XR} {f β₁ β₂ L l : ℝ} (h : RealI st f β₁ β₂ L l) :
    inverseDone st = decide (|L + rappE f β₁ β₂ l - l| < 0.5e-14) := by
  simp only [inverseDone, h.lambda, h.prev, sub_fin, abs_fin, sci_eq, lt_fin]

theorem rappInverseStep_nan (self : RappSolver XR) {sb1 cb1 sb2 cb2 L : XR} (st : InverseState XR) (h : st.lambda = nan) :
    (inverseStep self sb1 cb1 sb2 cb2 L st).lambda = nan := by
  have e7 : Flt.powi nan 2 = nan := rfl
  simp only [inverseStep, h, sin_nan, cos_nan, mul_nan, nan_mul, e7, sub_nan, nan_add, add_nan, sqrt_nan,
    nan_atan2, nan_div, nan_eq, Bool.false_eq_true, if_false]

theorem rappInverseDone_nan (st : InverseState XR) (h : st.lambda = nan) : inverseDone st = false := by
  simp [inverseDone, h]

theorem rappLoopMax_nan (self : RappSolver XR) (sb1 cb1 sb2 cb2 L : XR) (st : InverseState XR) (h : st.lambda = nan)
    (msg : String) (n : ℕ) : loopMax (inverseStep self sb1 cb1 sb2 cb2 L) inverseDone msg n st = .error (.err msg) := by
  induction n generalizing st with
  | zero => rfl
  | succ n ih =>
    have h' := rappInverseStep_nan self (sb1 := sb1) (cb1 := cb1) (sb2 := sb2) (cb2 := cb2) (L := L) st h
    rw [loopMax]
    simp only [rappInverseDone_nan _ h', Bool.false_eq_true, if_false]
    exact ih _ h'

theorem rappInverseStep_coincident (self : RappSolver XR) {β₁ β₂ l L : ℝ} (st : InverseState XR)
    (hl : st.lambda = fin l) (hs : Real.sin (arc β₁ β₂ l) = 0) :
    (inverseStep self (fin (Real.sin β₁)) (fin (Real.cos β₁)) (fin (Real.sin β₂)) (fin (Real.cos β₂))
      (fin L) st).lambda = nan := by
  have hq : ssq β₁ β₂ l = 0 := by rw [← sin_arc_sq, hs]; norm_num
  have hz : Real.cos β₂ * Real.sin l = 0 := by
    unfold ssq at hq
    nlinarith [sq_nonneg (Real.cos β₂ * Real.sin l),
      sq_nonneg (Real.cos β₁ * Real.sin β₂ - Real.sin β₁ * Real.cos β₂ * Real.cos l)]
  have e1 : (Real.sin l * Real.cos β₂) ^ 2 + (Real.sin β₂ * Real.cos β₁ - Real.sin β₁ * Real.cos β₂ * Real.cos l) ^ 2
      = ssq β₁ β₂ l := by unfold ssq; ring
  have e2 : Flt.sqrt (fin (ssq β₁ β₂ l)) = fin 0 := by rw [hq, sqrt_fin le_rfl, Real.sqrt_zero]
  have e5 : Real.cos β₁ * Real.cos β₂ * Real.sin l = 0 := by rw [mul_assoc, hz, mul_zero]
  have e6 : (fin (Real.cos β₁ * Real.cos β₂ * Real.sin l) / fin 0 : XR) = nan := by
    rw [e5, div_fin_ite, if_pos rfl, signInf_zero]
  have e7 : Flt.powi nan 2 = nan := rfl
  simp only [inverseStep, hl, sin_fin, cos_fin, mul_fin, add_fin, sub_fin, powi_fin, e1, e2, e6, e7, sub_nan, nan_eq,
    Bool.false_eq_true, if_false, mul_nan, nan_mul, nan_add, add_nan]

/-- What a successful loop returns. -/
theorem rappInverseLoop_real {a b : ℝ} (hb : 0 < b) (hab : b ≤ a) (n : String) {β₁ β₂ L : ℝ} (msg : String) (k : ℕ) (l : ℝ)
    (st r : InverseState XR) (hl : st.lambda = fin l)
    (h : loopMax (inverseStep (new (ell n a b)) (fin (Real.sin β₁)) (fin (Real.cos β₁)) (fin (Real.sin β₂))
      (fin (Real.cos β₂)) (fin L)) inverseDone msg k st = .ok r) :
    ∃ p, Real.sin (arc β₁ β₂ p) ≠ 0 ∧ RealI r ((a - b) / a) β₁ β₂ L p ∧ |L + rappE ((a - b) / a) β₁ β₂ p - p| < 0.5e-14 := by
  induction k generalizing l st with
  | zero => cases h
  | succ k ih =>
    rw [loopMax] at h
    by_cases hs : Real.sin (arc β₁ β₂ l) = 0
    · have hn := rappInverseStep_coincident (new (ell n a b)) (L := L) st hl hs
      simp only [rappInverseDone_nan _ hn, Bool.false_eq_true, if_false, rappLoopMax_nan _ _ _ _ _ _ _ hn] at h
      cases h
    · have hr := rappInverseStep_real hb hab n (L := L) st hl hs
      simp only [rappInverseDone_real hr] at h
      split at h
      · rename_i hd
        cases h
        exact ⟨l, hs, hr, of_decide_eq_true hd⟩
      · exact ih _ _ hr.lambda h

/-- The loop ends within `k + 1` iterations on a set where it contracts by `q`. -/
theorem rappInverseLoop_ends {a b : ℝ} (hb : 0 < b) (hab : b ≤ a) (n : String) {β₁ β₂ L q : ℝ} {S : Set ℝ} (q0 : 0 ≤ q)
    (hne : ∀ l ∈ S, Real.sin (arc β₁ β₂ l) ≠ 0) (hin : ∀ l ∈ S, L + rappE ((a - b) / a) β₁ β₂ l ∈ S)
    (hq : ∀ x ∈ S, ∀ y ∈ S, |rappE ((a - b) / a) β₁ β₂ y - rappE ((a - b) / a) β₁ β₂ x| ≤ q * |y - x|) (msg : String)
    (k : ℕ) (D l : ℝ) (st : InverseState XR) (hl : l ∈ S) (h1 : st.lambda = fin l)
    (hD : |L + rappE ((a - b) / a) β₁ β₂ l - l| ≤ D) (hk : q ^ k * D < 0.5e-14) :
    ∃ r, loopMax (inverseStep (new (ell n a b)) (fin (Real.sin β₁)) (fin (Real.cos β₁)) (fin (Real.sin β₂))
      (fin (Real.cos β₂)) (fin L)) inverseDone msg (k + 1) st = .ok r ∧
      ∃ p ∈ S, RealI r ((a - b) / a) β₁ β₂ L p ∧ |L + rappE ((a - b) / a) β₁ β₂ p - p| < 0.5e-14 := by
  induction k generalizing D l st with
  | zero =>
    have hr := rappInverseStep_real hb hab n (L := L) st h1 (hne l hl)
    rw [loopMax]
    rw [pow_zero, one_mul] at hk
    simp only [rappInverseDone_real hr, decide_eq_true (hD.trans_lt hk), if_true]
    exact ⟨_, rfl, l, hl, hr, hD.trans_lt hk⟩
  | succ k ih =>
    have hr := rappInverseStep_real hb hab n (L := L) st h1 (hne l hl)
    have hm := hin l hl
    rw [loopMax]
    simp only [rappInverseDone_real hr]
    split
    · rename_i hd
      exact ⟨_, rfl, l, hl, hr, of_decide_eq_true hd⟩
    · refine ih (q * D) _ _ hm hr.lambda ?_ (by rw [← mul_assoc, ← pow_succ]; exact hk)
      have := hq l hl _ hm
      rw [add_sub_add_left_eq_sub]
      exact this.trans (mul_le_mul_of_nonneg_left hD q0)

end Geo
