import Verif.Lemmas.InverseArc

/-! The iterations of the inverse problem are contractions. -/

namespace Geo
open XR Spec

/-- Values and derivatives at `l`, the latter times `N = cos β₁ cos β₂ sin l`. -/
def Bd (β₁ β₂ : ℝ) (g : ℝ → ℝ) (l B0 B1 : ℝ) : Prop :=
  ∃ g', HasDerivAt g g' l ∧ |g l| ≤ B0 ∧ |Real.cos β₁ * Real.cos β₂ * Real.sin l * g'| ≤ B1

namespace Bd
variable {β₁ β₂ l : ℝ} {g h : ℝ → ℝ} {B0 B1 C0 C1 : ℝ}

theorem const (β₁ β₂ c l : ℝ) : Bd β₁ β₂ (fun _ => c) l |c| 0 := ⟨0, hasDerivAt_const _ _, le_rfl, by simp⟩

theorem add (hg : Bd β₁ β₂ g l B0 B1) (hh : Bd β₁ β₂ h l C0 C1) : Bd β₁ β₂ (fun x => g x + h x) l (B0 + C0) (B1 + C1) := by
  obtain ⟨g', d, p, q⟩ := hg
  obtain ⟨h', d', p', q'⟩ := hh
  refine ⟨g' + h', d.add d', (abs_add_le _ _).trans (add_le_add p p'), ?_⟩
  rw [mul_add]
  exact (abs_add_le _ _).trans (add_le_add q q')

theorem mul (hg : Bd β₁ β₂ g l B0 B1) (hh : Bd β₁ β₂ h l C0 C1) :
    Bd β₁ β₂ (fun x => g x * h x) l (B0 * C0) (B1 * C0 + B0 * C1) := by
  obtain ⟨g', d, p, q⟩ := hg
  obtain ⟨h', d', p', q'⟩ := hh
  have b0 := (abs_nonneg _).trans p
  have b1 := (abs_nonneg _).trans q
  refine ⟨_, d.mul d', ?_, ?_⟩
  · rw [abs_mul]; exact mul_le_mul p p' (abs_nonneg _) b0
  · rw [show Real.cos β₁ * Real.cos β₂ * Real.sin l * (g' * h l + g l * h') =
      Real.cos β₁ * Real.cos β₂ * Real.sin l * g' * h l + g l * (Real.cos β₁ * Real.cos β₂ * Real.sin l * h') by ring]
    refine (abs_add_le _ _).trans (add_le_add ?_ ?_)
    · rw [abs_mul]; exact mul_le_mul q p' (abs_nonneg _) b1
    · rw [abs_mul]; exact mul_le_mul p q' (abs_nonneg _) b0

theorem smul (c : ℝ) (hg : Bd β₁ β₂ g l B0 B1) : Bd β₁ β₂ (fun x => c * g x) l (|c| * B0) (|c| * B1) := by
  have := (const β₁ β₂ c l).mul hg
  simpa using this

theorem mono (hg : Bd β₁ β₂ g l B0 B1) (h0 : B0 ≤ C0) (h1 : B1 ≤ C1) : Bd β₁ β₂ g l C0 C1 := by
  obtain ⟨g', d, p, q⟩ := hg
  exact ⟨g', d, p.trans h0, q.trans h1⟩

theorem congr (hg : Bd β₁ β₂ g l B0 B1) (e : g = h) : Bd β₁ β₂ h l B0 B1 := e ▸ hg

theorem sub (hg : Bd β₁ β₂ g l B0 B1) (hh : Bd β₁ β₂ h l C0 C1) : Bd β₁ β₂ (fun x => g x - h x) l (B0 + C0) (B1 + C1) := by
  have : Bd β₁ β₂ (fun x => g x + -1 * h x) l (B0 + C0) (B1 + C1) :=
    (hg.add (hh.smul (-1))).mono (by simp) (by simp)
  refine congr this ?_
  funext x; ring

/-- The cosine of the arc. -/
theorem cosArc (h : Real.sin (arc β₁ β₂ l) ≠ 0) : Bd β₁ β₂ (fun x => Real.cos (arc β₁ β₂ x)) l 1 1 := by
  refine ⟨_, (arc_deriv h).cos, Real.abs_cos_le_one _, ?_⟩
  rw [← salpha_mul h, abs_mul, abs_mul, abs_mul, abs_neg]
  have h1 := abs_salpha h
  have h2 := Real.abs_sin_le_one (arc β₁ β₂ l)
  exact mul_le_one₀ (mul_le_one₀ h1 (abs_nonneg _) h2) (by positivity) (mul_le_one₀ h2 (abs_nonneg _) h1)

/-- `k = 1 - sa²`. -/
theorem kArc (h : Real.sin (arc β₁ β₂ l) ≠ 0) : Bd β₁ β₂ (fun x => 1 - salpha β₁ β₂ x ^ 2) l 1 4 := by
  refine ⟨_, ((salpha_deriv h).pow 2).const_sub 1, ?_, ?_⟩
  · have := salpha_sq_le _ _ _ h
    exact abs_le.2 ⟨by linarith [sq_nonneg (salpha β₁ β₂ l)], by linarith [sq_nonneg (salpha β₁ β₂ l)]⟩
  · have hd := salpha_deriv_bound β₁ β₂ l h
    have h1 := abs_salpha h
    rw [← salpha_mul h]
    set D := Real.cos β₁ * Real.cos β₂ * Real.cos l - salpha β₁ β₂ l ^ 2 * Real.cos (arc β₁ β₂ l)
    set sa := salpha β₁ β₂ l
    have e : sa * Real.sin (arc β₁ β₂ l) * -(((2 : ℕ) : ℝ) * sa ^ (2 - 1) * (D / Real.sin (arc β₁ β₂ l))) = -2 * (sa * sa) * D := by
      field_simp
      norm_num
      ring
    rw [e, abs_mul, abs_mul, show |(-2 : ℝ)| = 2 by norm_num, abs_mul]
    have : |sa| * |sa| ≤ 1 := mul_le_one₀ h1 (abs_nonneg _) h1
    nlinarith [abs_nonneg D, abs_nonneg sa]

/-- `k cos σ - 2 sin β₁ sin β₂`, that is `k cos 2σₘ`. -/
theorem pArc (h : Real.sin (arc β₁ β₂ l) ≠ 0) :
    Bd β₁ β₂ (fun x => (1 - salpha β₁ β₂ x ^ 2) * Real.cos (arc β₁ β₂ x) - 2 * Real.sin β₁ * Real.sin β₂) l 3 5 := by
  refine (((kArc h).mul (cosArc h)).sub (const β₁ β₂ (2 * Real.sin β₁ * Real.sin β₂) l)).mono ?_ (by norm_num)
  have h1 : |2 * Real.sin β₁ * Real.sin β₂| ≤ 2 := by
    rw [mul_assoc, abs_mul, abs_mul, abs_two]
    have := mul_le_one₀ (Real.abs_sin_le_one β₁) (abs_nonneg _) (Real.abs_sin_le_one β₂)
    linarith
  linarith

end Bd

/-- The function that is iterated. -/
noncomputable def exc (β₁ β₂ : ℝ) (A r : ℝ → ℝ) (l : ℝ) : ℝ :=
  salpha β₁ β₂ l * arc β₁ β₂ l * A (1 - salpha β₁ β₂ l ^ 2) + Real.cos β₁ * Real.cos β₂ * Real.sin l * r l

theorem exc_lip {β₁ β₂ M : ℝ} {A A' r : ℝ → ℝ} (s : Set ℝ) (hs : Convex ℝ s) (hM : M < Real.pi)
    (hne : ∀ l ∈ s, Real.sin (arc β₁ β₂ l) ≠ 0 ∧ arc β₁ β₂ l ≤ M) (hA : ∀ k, HasDerivAt A (A' k) k)
    (hA0 : ∀ k, 0 ≤ k → k ≤ 1 → |A k| ≤ 1) (hA1 : ∀ k, 0 ≤ k → k ≤ 1 → |A' k| ≤ 1 / 150)
    (hr : ∀ l ∈ s, Bd β₁ β₂ r l (1 / 50) (1 / 30)) {x y : ℝ} (hx : x ∈ s) (hy : y ∈ s) :
    |exc β₁ β₂ A r y - exc β₁ β₂ A r x| ≤ 31 / 10 * (M / Real.sin M) * |y - x| := by
  have hk : ∀ l ∈ s, 0 ≤ 1 - salpha β₁ β₂ l ^ 2 ∧ 1 - salpha β₁ β₂ l ^ 2 ≤ 1 := fun l hl =>
    ⟨sub_nonneg.2 (salpha_sq_le _ _ _ (hne l hl).1), by linarith [sq_nonneg (salpha β₁ β₂ l)]⟩
  have hex : ∀ l : ℝ, ∃ g', l ∈ s → HasDerivAt r g' l ∧ |r l| ≤ 1 / 50 ∧
      |Real.cos β₁ * Real.cos β₂ * Real.sin l * g'| ≤ 1 / 30 := fun l => by
    by_cases hl : l ∈ s
    · obtain ⟨g', q⟩ := hr l hl
      exact ⟨g', fun _ => q⟩
    · exact ⟨0, fun h => absurd h hl⟩
  choose r' h' using hex
  refine (excess_lip s hs hM (fun l hl => (hne l hl).1) (fun l hl => (hne l hl).2) hA (fun l hl => (h' l hl).1)
    (fun l hl => hA0 _ (hk l hl).1 (hk l hl).2) (fun l hl => hA1 _ (hk l hl).1 (hk l hl).2) (fun l hl => (h' l hl).2.1)
    (fun l hl => (h' l hl).2.2) hx hy).trans (mul_le_mul_of_nonneg_right ?_ (abs_nonneg _))
  obtain ⟨n1, n2⟩ := hne x hx
  have hσ : 0 < arc β₁ β₂ x := lt_of_le_of_ne (arc_nonneg _ _ _) fun e => n1 (by rw [← e, Real.sin_zero])
  have h1 := arc_ratio hσ n2 hM
  have h2 : 1 ≤ arc β₁ β₂ x / Real.sin (arc β₁ β₂ x) := by
    rw [one_le_div (sin_arc_pos n1)]
    exact Real.sin_le hσ.le
  linarith

theorem exc_bound {β₁ β₂ l : ℝ} {A r : ℝ → ℝ} (h : Real.sin (arc β₁ β₂ l) ≠ 0) (h1 : 0 ≤ Real.cos β₁) (h2 : 0 ≤ Real.cos β₂)
    (hA0 : ∀ k, 0 ≤ k → k ≤ 1 → 9 / 10 ≤ A k ∧ A k ≤ 1) (hr : |r l| ≤ 1 / 50) :
    |exc β₁ β₂ A r l| ≤ 4 ∧ (0 ≤ Real.sin l → 0 ≤ exc β₁ β₂ A r l) ∧ (Real.sin l ≤ 0 → exc β₁ β₂ A r l ≤ 0) := by
  obtain ⟨A0, A1⟩ := hA0 (1 - salpha β₁ β₂ l ^ 2) (sub_nonneg.2 (salpha_sq_le _ _ _ h)) (by linarith [sq_nonneg (salpha β₁ β₂ l)])
  have hp := sin_arc_pos h
  have hσ := arc_nonneg β₁ β₂ l
  have hπ := arc_le_pi β₁ β₂ l
  have hs := Real.sin_le hσ
  have hs1 := Real.sin_le_one (arc β₁ β₂ l)
  have p3 := Real.pi_lt_d2
  obtain ⟨r1, r2⟩ := abs_le.1 hr
  have e : exc β₁ β₂ A r l = salpha β₁ β₂ l * (arc β₁ β₂ l * A (1 - salpha β₁ β₂ l ^ 2) + Real.sin (arc β₁ β₂ l) * r l) := by
    rw [exc, ← salpha_mul h]; ring
  have q0 : 0 ≤ arc β₁ β₂ l * A (1 - salpha β₁ β₂ l ^ 2) + Real.sin (arc β₁ β₂ l) * r l := by nlinarith
  have q1 : arc β₁ β₂ l * A (1 - salpha β₁ β₂ l ^ 2) + Real.sin (arc β₁ β₂ l) * r l ≤ 4 := by nlinarith
  rw [e]
  refine ⟨?_, fun hl => mul_nonneg ?_ q0, fun hl => mul_nonpos_of_nonpos_of_nonneg ?_ q0⟩
  · rw [abs_mul, abs_of_nonneg q0]
    calc _ ≤ 1 * 4 := mul_le_mul (abs_salpha h) q1 q0 (by norm_num)
      _ = 4 := by norm_num
  · exact div_nonneg (mul_nonneg (mul_nonneg h1 h2) hl) hp.le
  · exact div_nonpos_of_nonpos_of_nonneg (mul_nonpos_of_nonneg_of_nonpos (mul_nonneg h1 h2) hl) hp.le

/-! ### Vincenty -/

/-- `C / k`. -/
noncomputable def vinKap (f k : ℝ) : ℝ := f / 16 * (4 + f * (4 - 3 * k))

noncomputable def vinR (f β₁ β₂ l : ℝ) : ℝ :=
  let k := 1 - salpha β₁ β₂ l ^ 2
  let u := Real.cos (arc β₁ β₂ l)
  let p := k * u - 2 * Real.sin β₁ * Real.sin β₂
  let κ := vinKap f k
  (1 - κ * k) * (κ * p + u * (2 * ((κ * p) * (κ * p)) - (κ * k) * (κ * k)))

/-- The excess does not depend on the value kept for an equatorial line, and is smooth. -/
theorem excess_exc (f β₁ β₂ l c₀ : ℝ) (h : Real.sin (arc β₁ β₂ l) ≠ 0) :
    vincentyExcess f (salpha β₁ β₂ l) (arc β₁ β₂ l) (mid β₁ β₂ l c₀) =
      f * exc β₁ β₂ (fun k => 1 - vinKap f k * k) (vinR f β₁ β₂) l := by
  have hN := salpha_mul h
  have hh := heights β₁ β₂ l h
  have hsc := Real.sin_sq_add_cos_sq (arc β₁ β₂ l)
  simp only [vincentyExcess, exc, vinR, mid, ← hN]
  set k := 1 - salpha β₁ β₂ l ^ 2 with hk
  set sa := salpha β₁ β₂ l
  set σ := arc β₁ β₂ l
  have hC : vincentyC f k = vinKap f k * k := by rw [vincentyC, vinKap]; ring
  rw [hC]
  by_cases h0 : k = 0
  · have hb : Real.sin β₁ * Real.sin β₂ = 0 := by
      rw [h0, zero_mul] at hh
      have hs2 : 0 < Real.sin σ ^ 2 := by positivity
      have hc1 : -1 < Real.cos σ := by nlinarith
      have hc2 : Real.cos σ < 1 := by nlinarith
      nlinarith [mul_nonneg (sub_nonneg.2 hc2.le) (sq_nonneg (Real.sin β₁ + Real.sin β₂)),
        mul_nonneg (by linarith : 0 ≤ 1 + Real.cos σ) (sq_nonneg (Real.sin β₁ - Real.sin β₂)),
        mul_pos (sub_pos.2 hc2) (by linarith : 0 < 1 + Real.cos σ)]
    rw [if_pos h0, h0, show 2 * Real.sin β₁ * Real.sin β₂ = 2 * (Real.sin β₁ * Real.sin β₂) by ring, hb]
    ring
  · rw [if_neg h0]
    have e : k * (Real.cos σ - 2 * Real.sin β₁ * Real.sin β₂ / k) = k * Real.cos σ - 2 * Real.sin β₁ * Real.sin β₂ := by
      field_simp
    rw [← e]
    ring

theorem vinR_bd {f : ℝ} (f0 : 0 ≤ f) (f1 : f ≤ 1 / 50) {β₁ β₂ l : ℝ} (h : Real.sin (arc β₁ β₂ l) ≠ 0) :
    Bd β₁ β₂ (vinR f β₁ β₂) l (1 / 50) (1 / 30) := by
  have f2 : f ^ 2 ≤ 1 / 2500 := by nlinarith
  have f20 : 0 ≤ f ^ 2 := by positivity
  have hk := Bd.kArc h
  have hu := Bd.cosArc h
  have hp := Bd.pArc h
  have hκ : Bd β₁ β₂ (fun x => vinKap f (1 - salpha β₁ β₂ x ^ 2)) l (53 / 10000) (3 / 10000) := by
    have := ((Bd.const β₁ β₂ (f / 4 + f ^ 2 / 4) l).sub (hk.smul (3 * f ^ 2 / 16)))
    rw [abs_of_nonneg (by positivity), abs_of_nonneg (by positivity)] at this
    refine Bd.congr (this.mono (by linarith) (by linarith)) ?_
    funext x
    rw [vinKap]; ring
  have hC := (hκ.mul hk).mono (C0 := 53 / 10000) (C1 := 22 / 1000) (by norm_num) (by norm_num)
  have hP := (hκ.mul hp).mono (C0 := 16 / 1000) (C1 := 28 / 1000) (by norm_num) (by norm_num)
  have hQ := ((((hP.mul hP).smul 2).sub (hC.mul hC)).mono (C0 := 6 / 10000) (C1 := 22 / 10000) (by norm_num) (by norm_num))
  have hS := (((Bd.const β₁ β₂ 1 l).sub hC).mul (hP.add (hu.mul hQ))).mono (C0 := 1 / 50) (C1 := 1 / 30) (by norm_num)
    (by norm_num)
  exact hS

theorem vinA_deriv (f k : ℝ) : HasDerivAt (fun k => 1 - vinKap f k * k) (-(f / 16 * (4 + 4 * f - 6 * f * k))) k := by
  have e : (fun k => 1 - vinKap f k * k) = fun k => 1 - (f / 16 * (4 + 4 * f) * k - f / 16 * (3 * f) * k ^ 2) := by
    funext k; rw [vinKap]; ring
  rw [e]
  refine ((((hasDerivAt_id k).const_mul (f / 16 * (4 + 4 * f))).sub
    (((hasDerivAt_id k).pow 2).const_mul (f / 16 * (3 * f)))).const_sub 1).congr_deriv ?_
  simp; ring

theorem vinA_facts {f : ℝ} (f0 : 0 ≤ f) (f1 : f ≤ 1 / 50) (k : ℝ) (k0 : 0 ≤ k) (k1 : k ≤ 1) :
    9 / 10 ≤ 1 - vinKap f k * k ∧ 1 - vinKap f k * k ≤ 1 ∧ |-(f / 16 * (4 + 4 * f - 6 * f * k))| ≤ 1 / 150 := by
  have fk : 0 ≤ f * k := mul_nonneg f0 k0
  have fk1 : f * k ≤ f := by nlinarith
  have a0 : 0 ≤ vinKap f k := by rw [vinKap]; exact mul_nonneg (by positivity) (by nlinarith)
  have a1 : vinKap f k ≤ 1 / 10 := by rw [vinKap]; nlinarith
  refine ⟨by nlinarith, by nlinarith [mul_nonneg a0 k0], ?_⟩
  rw [abs_neg, abs_mul, abs_of_nonneg (by positivity : 0 ≤ f / 16)]
  have : |4 + 4 * f - 6 * f * k| ≤ 5 := abs_le.2 ⟨by nlinarith, by nlinarith⟩
  nlinarith [abs_nonneg (4 + 4 * f - 6 * f * k)]

end Geo
