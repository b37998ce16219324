import Verif.Lemmas.VincentyStart

/-! The iteration of the direct Vincenty solver in IEEE arithmetic. -/

namespace Geo
open XR Spec VincentyGeodesicSolver
variable {L : Libm} {el : Ellipsoid (F64 L)}

theorem vin_aux_near (h : EarthSized el) (hfl : 0.995 * el.a.m.toQ ≤ el.b.m.toQ) (hL : AccurateGeodesic L) {cb sa : F64 L} {C S : ℝ}
    (kc : Near cb C 2e-15) (hC : |C| ≤ 1) (ks : Near sa S 2.3e-16) (hS : |S| ≤ 1) :
    Near (cb * sa) (C * S) 2.4e-15 ∧ Near (1 - Flt.powi (cb * sa) 2) (1 - (C * S) ^ 2) 5.4e-15 ∧
    Near ((1 - Flt.powi (cb * sa) 2) * el.ePrimeSq)
      ((1 - (C * S) ^ 2) * (((el.a.m.toQ : ℝ) ^ 2 - (el.b.m.toQ : ℝ) ^ 2) / (el.b.m.toQ : ℝ) ^ 2)) 4.4e-16 ∧
    0 ≤ 1 - (C * S) ^ 2 ∧ 1 - (C * S) ^ 2 ≤ 1 := by
  obtain ⟨e1, e2, e3⟩ := ePrime_near h hfl
  have m1 := kc.unit_mul ks hC hS (E := 2.4e-15) (by norm_num) (by norm_num) (by norm_num)
  have q1 : |C * S| ≤ 1 := by rw [abs_mul]; exact mul_le_one₀ hC (abs_nonneg _) hS
  have m2 := m1.powi2 hL.toAccurate q1 (by norm_num) (E := 5.2e-15) (by norm_num)
  have q2 : (C * S) ^ 2 ≤ 1 := by rw [← sq_abs]; exact pow_le_one₀ (abs_nonneg _) q1
  have q3 : 0 ≤ (C * S) ^ 2 := by positivity
  have m3 := Near.sub int_1 m2 (R := 1.01) (E := 5.4e-15) (by rw [abs_of_nonneg (by linarith)]; norm_num; linarith) (by norm_num) (by norm_num) (by norm_num)
  refine ⟨m1, m3, Near.mul m3 e1 (A := 1) (B := 0.0102) ?_ ?_ (R := 0.0103) (by norm_num) (by norm_num) (by norm_num) (by norm_num), by linarith, by linarith⟩
  · rw [abs_of_nonneg (by linarith)]; linarith
  · rw [abs_of_nonneg e2]; exact e3

/-- The arc from the node to the start. -/
theorem vin_sigma1_near (hL : AccurateGeodesic L) {tb ca : F64 L} {t α : ℝ} (ht : |t| ≤ 10) (kt : Near tb t 1e-14) (kc : Near ca (Real.cos α) 2.3e-16) :
    (Flt.atan2 tb ca).isFinite ∧ |((Flt.atan2 tb ca).toQ : ℝ)| ≤ 3.2 ∧ ∃ k : ℤ,
      (1 - (Real.cos (Real.arctan t) * Real.sin α) ^ 2) *
        |((Flt.atan2 tb ca).toQ : ℝ) - (Complex.arg ⟨Real.cos α, t⟩ + k * (2 * Real.pi))| ≤ 5.3e-14 := by
  obtain ⟨p1, p2⟩ := polar_arg (Real.cos α) t
  set R := Real.sqrt (Real.cos α ^ 2 + t ^ 2) with hR
  have R0 : 0 ≤ R := Real.sqrt_nonneg _
  have R2 : R ^ 2 = Real.cos α ^ 2 + t ^ 2 := Real.sq_sqrt (by positivity)
  obtain ⟨k, g1, g2, g3⟩ := polar_near_all hL (R := R) (d := 1e-14) (by rw [p1]; exact kc.mono (by norm_num)) (by rw [p2]; exact kt) R0
  refine ⟨g1, g2, k, ?_⟩
  set C := Real.cos (Real.arctan t) with hC
  have C0 : 0 < C := Real.cos_arctan_pos t
  have C1 : C ≤ 1 := Real.cos_le_one _
  have C2 : C ^ 2 * (1 + t ^ 2) = 1 := by
    rw [hC, Real.cos_sq_arctan]
    field_simp
  have q := Real.sin_sq_add_cos_sq α
  have eK : 1 - (C * Real.sin α) ^ 2 = C ^ 2 * R ^ 2 := by
    rw [R2]; linear_combination -C2 - C ^ 2 * q
  have CR : C * R ≤ 1 := by
    refine (abs_le_one_iff_mul_self_le_one.2 ?_ |> le_of_abs_le)
    have : C * R * (C * R) = 1 - (C * Real.sin α) ^ 2 := by rw [eK]; ring
    rw [this]
    linarith [sq_nonneg (C * Real.sin α)]
  have R10 : R ≤ 11 := by
    refine Real.sqrt_le_iff.2 ⟨by norm_num, ?_⟩
    have := Real.cos_sq_le_one α
    have := (sq_le_sq₀ (abs_nonneg t) (by norm_num)).2 ht
    rw [sq_abs] at this
    linarith
  rw [eK, show C ^ 2 * R ^ 2 = C * (C * R) * R by ring, mul_assoc]
  refine (mul_le_mul (mul_le_one₀ C1 (by positivity) CR) g3 (by positivity) zero_le_one).trans ?_
  norm_num
  linarith

/-- The first iterate. -/
theorem vin_sigma0_near (h : EarthSized el) {Af s : F64 L} {A : ℝ} (kA : Near Af A 2.6e-16) (A1 : 1 ≤ A) (A2 : A ≤ 1.003) (hs : s.isFinite)
    (hs2 : |s.toQ| ≤ 21000000) :
    Near ((ArcLength.mk (⟨s⟩ : Length (F64 L))).divLength (el.b * Af)).rad (s.toQ / (el.b.m.toQ * A)) 1.9e-15 ∧ |(s.toQ : ℝ) / (el.b.m.toQ * A)| ≤ 3.5 := by
  obtain ⟨b1, b2, b3⟩ := earth_real h
  have kb := Near.exact h.b_finite
  have hs3 : |(s.toQ : ℝ)| ≤ 21000000 := by have := cast_abs_le hs2; push_cast at this; exact this
  set b : ℝ := ((el.b.m.toQ : ℚ) : ℝ) with hb
  have ab : |b| ≤ b := (abs_of_nonneg (by linarith)).le
  have aA : |A| ≤ 1.003 := by rw [abs_of_nonneg (by linarith)]; exact A2
  have m3 := Near.mul kA kb aA ab (R := 1.004 * b) (E := 3.9e-16 * b) (by norm_num at *; linarith) (by norm_num at *; linarith) (by norm_num at *; linarith)
    (by norm_num at *; linarith)
  have hA1 : b ≤ A * b := by nlinarith
  have e : ∀ k : ℝ, (k * b) / (0.999 * b) = k / 0.999 := fun k => by field_simp
  have hq : |(s.toQ : ℝ)| ≤ 3.5 * (A * b) := by norm_num; linarith
  have m4 := Near.div' (Near.exact hs) m3 (A := 3.5) (B := b) (C := 0.999 * b) (R := 3.51) (E := 1.9e-15) hq (by norm_num) hA1 (by linarith)
    (by norm_num at *; linarith) (by rw [← mul_assoc, zero_add, e]; norm_num) (by norm_num) (by norm_num) (by rw [← mul_assoc, zero_add, e]; norm_num)
  rw [mul_comm b A]
  refine ⟨by rw [ArcLength.divLength, rad_f64]; exact m4, ?_⟩
  rw [abs_div, abs_of_pos (by linarith : 0 < A * b), div_le_iff₀ (by linarith)]
  exact hq

/-! ### The iteration -/

/-- States of the loop. -/
structure VinState (σ₁ : F64 L) (st : DirectState (F64 L)) : Prop where
  fin : st.sigma.rad.isFinite
  le : |(st.sigma.rad.toQ : ℝ)| ≤ 3.6
  sin : st.sin_sigma = Flt.sin st.sigma.rad
  cos : st.cos_sigma = Flt.cos st.sigma.rad
  cos2 : st.cos_2_sigma_m = Flt.cos (2 * σ₁ + st.sigma.rad)

theorem VinState.near {σ₁ : F64 L} {st : DirectState (F64 L)} (g : VinState σ₁ st) (hL : AccurateGeodesic L) (h1 : σ₁.isFinite) (h2 : |(σ₁.toQ : ℝ)| ≤ 3.2) :
    Near st.sin_sigma (Real.sin st.sigma.rad.toQ) 2.3e-16 ∧ Near st.cos_sigma (Real.cos st.sigma.rad.toQ) 2.3e-16 ∧
    Near st.cos_2_sigma_m (Real.cos (2 * σ₁.toQ + st.sigma.rad.toQ)) 2.6e-15 := by
  have k := Near.exact g.fin
  have gl := g.le
  have b := abs_add_le (2 * (σ₁.toQ : ℝ)) st.sigma.rad.toQ
  rw [abs_mul, abs_of_pos (two_pos : (0 : ℝ) < 2)] at b
  have m1 := Near.mul int_2 (Near.exact h1) (A := 2) (by norm_num) h2 (R := 6.4) (E := 8e-16) (by norm_num) (by norm_num) (by norm_num) (by norm_num)
  have m2 := Near.add m1 k (R := 10.1) (E := 2.1e-15) (by norm_num at *; linarith) (by norm_num) (by norm_num) (by norm_num)
  rw [g.sin, g.cos, g.cos2]
  refine ⟨k.sin' hL.toAccurateProjection (by norm_num at *; linarith) (by norm_num), k.cos' hL.toAccurateProjection (by norm_num at *; linarith) (by norm_num),
    m2.cos' hL.toAccurateProjection (by norm_num at *; linarith) (by norm_num)⟩

/-- The correction depends little on the arc from the node. -/
theorem delta_node {B : ℝ} (B0 : 0 ≤ B) (B1 : B ≤ 1 / 80) (x m σ : ℝ) (k : ℤ) :
    |vincentyDeltaSigma B σ (Real.cos (2 * x + σ)) - vincentyDeltaSigma B σ (Real.cos (2 * m + σ))| ≤
      2.02 * (B * |x - (m + k * (2 * Real.pi))|) := by
  have e : Real.cos (2 * m + σ) = Real.cos (2 * (m + k * (2 * Real.pi)) + σ) := by
    rw [show 2 * (m + k * (2 * Real.pi)) + σ = 2 * m + σ + ((2 * k : ℤ) : ℝ) * (2 * Real.pi) by push_cast; ring, Real.cos_add_int_mul_two_pi]
  rw [e]
  generalize m + k * (2 * Real.pi) = y
  rw [Bessel.delta_eq, Bessel.delta_eq]
  have h1 := Bessel.vinH_lip B0 B1 (y + σ) (x + σ)
  have h2 := Bessel.vinH_lip B0 B1 y x
  rw [add_sub_add_right_eq_sub] at h1
  rw [show Bessel.vinH B (x + σ) - Bessel.vinH B x - (Bessel.vinH B (y + σ) - Bessel.vinH B y) =
    (Bessel.vinH B (x + σ) - Bessel.vinH B (y + σ)) - (Bessel.vinH B x - Bessel.vinH B y) by ring]
  refine (abs_sub _ _).trans ?_
  norm_num
  linarith

section
variable (hL : AccurateGeodesic L) {Bf σ₁ σ₀ : F64 L} {B m S : ℝ} (kB : Near Bf B 1.2e-16) (B0 : 0 ≤ B) (B1 : B ≤ 0.00255) (h1 : σ₁.isFinite)
  (h2 : |(σ₁.toQ : ℝ)| ≤ 3.2) {k : ℤ} (hk : B * |(σ₁.toQ : ℝ) - (m + k * (2 * Real.pi))| ≤ 1.4e-16) (k0 : Near σ₀ S 1.9e-15) (hS : |S| ≤ 3.5)
include hL kB B0 B1 h1 h2 hk k0 hS

theorem vin_step {st : DirectState (F64 L)} (g : VinState σ₁ st) :
    VinState σ₁ (directStep Bf ⟨σ₁⟩ ⟨σ₀⟩ st) ∧ (directStep Bf ⟨σ₁⟩ ⟨σ₀⟩ st).sigma_prev = st.sigma ∧
    |((directStep Bf ⟨σ₁⟩ ⟨σ₀⟩ st).sigma.rad.toQ : ℝ) - (S + vincentyDeltaSigma B st.sigma.rad.toQ (Real.cos (2 * m + st.sigma.rad.toQ)))| ≤ 2.8e-15 := by
  obtain ⟨n1, n2, n3⟩ := g.near hL h1 h2
  obtain ⟨d1, d2⟩ := deltaSigma_near hL kB B0 B1 n1 n2 n3 (Real.abs_cos_le_one _)
  have b := (abs_add_le S _).trans (add_le_add hS d2)
  have d3 := Near.add k0 d1 (R := 3.51) (E := 2.48e-15) (by norm_num at *; linarith) (by norm_num) (by norm_num) (by norm_num)
  have e : (directStep Bf ⟨σ₁⟩ ⟨σ₀⟩ st).sigma.rad = σ₀ + deltaSigma Bf st.sin_sigma st.cos_sigma st.cos_2_sigma_m := by
    simp only [directStep, rad_f64]; rfl
  refine ⟨⟨by rw [e]; exact d3.1, by rw [e]; have := d3.abs_le; norm_num at *; linarith, rfl, rfl, rfl⟩, rfl, ?_⟩
  rw [e]
  have d4 := delta_node B0 (by norm_num at *; linarith) (σ₁.toQ : ℝ) m (st.sigma.rad.toQ : ℝ) k
  have d5 := d3.2
  rw [abs_le] at d4 d5 ⊢
  constructor <;> norm_num at * <;> linarith

/-- The loop ends, with an arc which solves the equation for the arc before. -/
theorem vin_loop (msg : String) {st₀ : DirectState (F64 L)} (g0 : VinState σ₁ st₀) (e0 : st₀.sigma = ⟨σ₀⟩) :
    ∃ st, loopMax (directStep Bf ⟨σ₁⟩ ⟨σ₀⟩) directDone msg MAX_ITERATIONS st₀ = .ok st ∧ VinState σ₁ st ∧ ∃ σ' : ℝ,
      |(st.sigma.rad.toQ : ℝ) - σ'| ≤ 1.1e-12 ∧
      |(st.sigma.rad.toQ : ℝ) - (S + vincentyDeltaSigma B σ' (Real.cos (2 * m + σ')))| ≤ 2.8e-15 := by
  set f := directStep Bf ⟨σ₁⟩ ⟨σ₀⟩ with hf
  have step : ∀ st, VinState σ₁ st → _ := fun st g => vin_step hL kB B0 B1 h1 h2 hk k0 hS (st := st) g
  have good : ∀ n st, VinState σ₁ st → VinState σ₁ (iterate f n st) := by
    intro n
    induction n with
    | zero => intro st g; exact g
    | succ n ih => intro st g; exact ih _ (step st g).1
  have comm : ∀ n st, iterate f (n + 1) st = f (iterate f n st) := by
    intro n
    induction n with
    | zero => intro st; rfl
    | succ n ih => intro st; exact ih (f st)
  have lit : Near (1e-12 : F64 L) 1e-12 1e-27 := by
    refine const_near (q := 1e-12) (ε := 1e-27) (show B64.isFinite (B64.lit 1e-12) = true ∧ |(B64.lit 1e-12).toQ - 1e-12| ≤ 1e-27 from ⟨by decide +kernel, ?_⟩) (by norm_num) (by norm_num)
    rw [abs_le]
    constructor <;> decide +kernel
  have diff : ∀ st, VinState σ₁ st → Near ((f st).sigma.rad - st.sigma.rad) (((f st).sigma.rad.toQ : ℝ) - st.sigma.rad.toQ) 9e-16 := by
    intro st g
    have b := (abs_sub ((f st).sigma.rad.toQ : ℝ) st.sigma.rad.toQ).trans (add_le_add (step st g).1.le g.le)
    exact Near.sub (Near.exact (step st g).1.fin) (Near.exact g.fin) (R := 7.2) (by norm_num at *; linarith) (by norm_num) (by norm_num) (by norm_num)
  have dn : ∀ st, VinState σ₁ st → directDone (f st) = decide (|((f st).sigma.rad - st.sigma.rad).toQ| < (1e-12 : F64 L).toQ) := by
    intro st g
    have d := diff st g
    have e : directDone (f st) = B64.lt (B64.abs ((f st).sigma.rad - st.sigma.rad)) (1e-12 : F64 L) := rfl
    rw [e, B64.lt_fin ((B64.abs_finite _).trans d.1) lit.1]
    exact congrArg (fun q => decide (q < (1e-12 : F64 L).toQ)) (B64.abs_toQ _)
  have lip : ∀ x y : ℝ, |vincentyDeltaSigma B x (Real.cos (2 * m + x)) - vincentyDeltaSigma B y (Real.cos (2 * m + y))| ≤ 0.0026 * |x - y| := by
    intro x y
    rw [Bessel.delta_eq, Bessel.delta_eq, sub_sub_sub_cancel_right]
    refine (Bessel.vinH_lip B0 (by norm_num at *; linarith) (m + y) (m + x)).trans ?_
    rw [add_sub_add_left_eq_sub]
    exact mul_le_mul_of_nonneg_right (by norm_num at *; linarith) (abs_nonneg _)
  cases hr : loopMax f directDone msg MAX_ITERATIONS st₀ with
  | ok st =>
    obtain ⟨j, -, rfl, hd, -⟩ := loopMax_ok hr
    rw [comm] at hd ⊢
    have gj := good j st₀ g0
    obtain ⟨s1, s2, s3⟩ := step _ gj
    refine ⟨_, rfl, s1, (iterate f j st₀).sigma.rad.toQ, ?_, s3⟩
    have d := diff _ gj
    rw [dn _ gj, decide_eq_true_eq] at hd
    have hd' : |(((f (iterate f j st₀)).sigma.rad - (iterate f j st₀).sigma.rad).toQ : ℝ)| < ((1e-12 : F64 L).toQ : ℝ) := by exact_mod_cast hd
    have l2 := (abs_le.1 lit.2).2
    have d2 := abs_le.1 d.2
    have d3 := abs_lt.1 hd'
    clear lit hd hd'
    generalize (1e-12 : F64 L).toQ = q at l2 d3
    obtain ⟨d2, d2'⟩ := d2
    obtain ⟨d3, d3'⟩ := d3
    rw [abs_le]
    constructor <;> norm_num at l2 d2 d2' ⊢ <;> linarith
  | error er =>
    exfalso
    obtain ⟨-, hn⟩ := loopMax_error hr
    have h4 := hn 5 (by norm_num [MAX_ITERATIONS])
    rw [comm, dn _ (good 5 st₀ g0), decide_eq_false_iff_not] at h4
    apply h4
    have seq : ∀ n, |((f (iterate f (n + 1) st₀)).sigma.rad.toQ : ℝ) - (iterate f (n + 1) st₀).sigma.rad.toQ| ≤
        0.0026 * |((f (iterate f n st₀)).sigma.rad.toQ : ℝ) - (iterate f n st₀).sigma.rad.toQ| + 5.6e-15 := by
      intro n
      have a1 := (step _ (good (n + 1) st₀ g0)).2.2
      have a2 := (step _ (good n st₀ g0)).2.2
      rw [comm] at a1 ⊢
      have a3 := lip (f (iterate f n st₀)).sigma.rad.toQ (iterate f n st₀).sigma.rad.toQ
      rw [abs_le] at a1 a2 a3 ⊢
      obtain ⟨a1, a1'⟩ := a1
      obtain ⟨a2, a2'⟩ := a2
      obtain ⟨a3, a3'⟩ := a3
      constructor <;> norm_num at a1 a1' a2 a2' a3 a3' ⊢ <;> linarith
    have z0 : |((f (iterate f 0 st₀)).sigma.rad.toQ : ℝ) - (iterate f 0 st₀).sigma.rad.toQ| ≤ 0.003 := by
      have a2 := (step _ g0).2.2
      obtain ⟨n1, n2, n3⟩ := g0.near hL h1 h2
      have d2 := (deltaSigma_near hL kB B0 B1 n1 n2 (n3.mono le_rfl) (Real.abs_cos_le_one _)).2
      have d4 := delta_node B0 (by norm_num at *; linarith) (σ₁.toQ : ℝ) m (st₀.sigma.rad.toQ : ℝ) k
      have a4 := k0.2
      have e : st₀.sigma.rad = σ₀ := by rw [e0]
      show |((f st₀).sigma.rad.toQ : ℝ) - st₀.sigma.rad.toQ| ≤ 0.003
      rw [e] at a2 d2 d4 ⊢
      rw [abs_le] at a2 d2 d4 a4 ⊢
      obtain ⟨a2, a2'⟩ := a2
      obtain ⟨d2, d2'⟩ := d2
      obtain ⟨d4, d4'⟩ := d4
      obtain ⟨a4, a4'⟩ := a4
      constructor <;> norm_num at a2 a2' d2 d2' d4 d4' a4 a4' hk ⊢ <;> linarith
    have z1 := seq 0
    have z2 := seq 1
    have z3 := seq 2
    have z4 := seq 3
    have z5 := seq 4
    norm_num at z0 z1 z2 z3 z4 z5
    have z : |((f (iterate f 5 st₀)).sigma.rad.toQ : ℝ) - (iterate f 5 st₀).sigma.rad.toQ| ≤ 1e-13 := by norm_num; linarith
    have d := diff _ (good 5 st₀ g0)
    have d1 := d.abs_le
    have l2 := (abs_le.1 lit.2).1
    have : |(((f (iterate f 5 st₀)).sigma.rad - (iterate f 5 st₀).sigma.rad).toQ : ℝ)| < ((1e-12 : F64 L).toQ : ℝ) := by
      clear h4 lit
      generalize (1e-12 : F64 L).toQ = q at l2 ⊢
      norm_num at l2 d1 z ⊢
      linarith
    exact_mod_cast this

end

end Geo
