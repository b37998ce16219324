import Verif.Lemmas.Ellipsoid
import Mathlib.Analysis.SpecialFunctions.Trigonometric.Bounds

/-! How far apart the normals and the heights of two points near an ellipsoid can be when the points are close.  A unit
normal is `(x, y, z)`, the point of the ellipsoid with that normal `a / w (x, y, (1 - e) z)` with `w² = 1 - e z²`. -/

namespace Geo

/-- Two normals and heights. -/
structure Pair (a e x₁ y₁ z₁ w₁ h₁ x₂ y₂ z₂ w₂ h₂ : ℝ) : Prop where
  a0 : 0 < a
  e0 : 0 ≤ e
  e1 : e ≤ 0.01
  u₁ : x₁ ^ 2 + y₁ ^ 2 + z₁ ^ 2 = 1
  u₂ : x₂ ^ 2 + y₂ ^ 2 + z₂ ^ 2 = 1
  p₁ : 0 < w₁
  p₂ : 0 < w₂
  s₁ : w₁ ^ 2 = 1 - e * z₁ ^ 2
  s₂ : w₂ ^ 2 = 1 - e * z₂ ^ 2

variable {a e x₁ y₁ z₁ w₁ h₁ x₂ y₂ z₂ w₂ h₂ ε : ℝ}

/-- The squared distance of the normals. -/
def gapN (x₁ y₁ z₁ x₂ y₂ z₂ : ℝ) : ℝ := (x₁ - x₂) ^ 2 + (y₁ - y₂) ^ 2 + (z₁ - z₂) ^ 2

/-- The squared distance of the points. -/
noncomputable def gapX (a e x₁ y₁ z₁ w₁ h₁ x₂ y₂ z₂ w₂ h₂ : ℝ) : ℝ :=
  ((a / w₁ + h₁) * x₁ - (a / w₂ + h₂) * x₂) ^ 2 + ((a / w₁ + h₁) * y₁ - (a / w₂ + h₂) * y₂) ^ 2 +
    ((a / w₁ * (1 - e) + h₁) * z₁ - (a / w₂ * (1 - e) + h₂) * z₂) ^ 2

theorem Pair.swap (p : Pair a e x₁ y₁ z₁ w₁ h₁ x₂ y₂ z₂ w₂ h₂) : Pair a e x₂ y₂ z₂ w₂ h₂ x₁ y₁ z₁ w₁ h₁ :=
  ⟨p.a0, p.e0, p.e1, p.u₂, p.u₁, p.p₂, p.p₁, p.s₂, p.s₁⟩

theorem gapX_swap : gapX a e x₂ y₂ z₂ w₂ h₂ x₁ y₁ z₁ w₁ h₁ = gapX a e x₁ y₁ z₁ w₁ h₁ x₂ y₂ z₂ w₂ h₂ := by
  unfold gapX; ring

theorem gapN_swap : gapN x₂ y₂ z₂ x₁ y₁ z₁ = gapN x₁ y₁ z₁ x₂ y₂ z₂ := by
  unfold gapN; ring

theorem gapN_nonneg : 0 ≤ gapN x₁ y₁ z₁ x₂ y₂ z₂ := by unfold gapN; positivity

theorem w_bounds {e z w : ℝ} (e0 : 0 ≤ e) (e1 : e ≤ 0.01) (hz : z ^ 2 ≤ 1) (p : 0 < w) (s : w ^ 2 = 1 - e * z ^ 2) :
    0.994 ≤ w ∧ w ≤ 1 := by
  have h1 : e * z ^ 2 ≤ 0.01 * 1 := mul_le_mul e1 hz (sq_nonneg _) (by norm_num)
  have h2 : 0 ≤ e * z ^ 2 := by positivity
  norm_num at *
  constructor <;> nlinarith

theorem cauchy3 (A B C u v w : ℝ) : (A * u + B * v + C * w) ^ 2 ≤ (A ^ 2 + B ^ 2 + C ^ 2) * (u ^ 2 + v ^ 2 + w ^ 2) := by
  linarith [sq_nonneg (A * v - B * u), sq_nonneg (A * w - C * u), sq_nonneg (B * w - C * v)]

theorem half_gap {e x₁ y₁ z₁ w₁ x₂ y₂ z₂ w₂ : ℝ} (e0 : 0 ≤ e) (e1 : e ≤ 0.01) (q₁ : z₁ ^ 2 ≤ 1) (q₂ : z₂ ^ 2 ≤ 1)
    (b1 : 0.994 ≤ w₁) (b3 : 0.994 ≤ w₂) (id2 : (w₁ - w₂) * (w₁ + w₂) = -(e * ((z₁ - z₂) * (z₁ + z₂)))) :
    0.989 * gapN x₁ y₁ z₁ x₂ y₂ z₂ ≤ (x₁ - x₂) ^ 2 + (y₁ - y₂) ^ 2 + (1 - e) * (z₁ - z₂) ^ 2 - (w₁ - w₂) ^ 2 := by
  have c1 : (z₁ + z₂) ^ 2 ≤ 4 := by nlinarith [sq_nonneg (z₁ - z₂)]
  have c2 : (w₁ - w₂) ^ 2 * (w₁ + w₂) ^ 2 ≤ 4 * (e ^ 2 * (z₁ - z₂) ^ 2) := by
    have h1 : (w₁ - w₂) ^ 2 * (w₁ + w₂) ^ 2 = e ^ 2 * (z₁ - z₂) ^ 2 * (z₁ + z₂) ^ 2 := by
      rw [← mul_pow, id2]; ring
    have h2 : 0 ≤ e ^ 2 * (z₁ - z₂) ^ 2 := by positivity
    have := mul_le_mul_of_nonneg_left c1 h2
    linarith
  have c3 : 3.9 ≤ (w₁ + w₂) ^ 2 := by
    have : (1.988 : ℝ) ^ 2 ≤ (w₁ + w₂) ^ 2 := pow_le_pow_left₀ (by norm_num) (by linarith) 2
    exact le_trans (by norm_num) this
  have c4 : e ^ 2 ≤ 0.0001 := (pow_le_pow_left₀ e0 e1 2).trans (by norm_num)
  have h1 := mul_le_mul_of_nonneg_left c3 (sq_nonneg (w₁ - w₂))
  have h2 : e ^ 2 * (z₁ - z₂) ^ 2 ≤ 0.0001 * (z₁ - z₂) ^ 2 := mul_le_mul_of_nonneg_right c4 (sq_nonneg _)
  have h3 : e * (z₁ - z₂) ^ 2 ≤ 0.01 * (z₁ - z₂) ^ 2 := mul_le_mul_of_nonneg_right e1 (sq_nonneg _)
  have h4 := sq_nonneg (z₁ - z₂)
  have h5 := sq_nonneg (x₁ - x₂)
  have h6 := sq_nonneg (y₁ - y₂)
  have h7 : (w₁ - w₂) ^ 2 * (w₁ + w₂) ^ 2 ≤ 4 * (0.0001 * (z₁ - z₂) ^ 2) := by linarith
  rw [gapN, sub_mul, one_mul]
  generalize (z₁ - z₂) ^ 2 = Z at *
  generalize (w₁ - w₂) ^ 2 * (w₁ + w₂) ^ 2 = W at *
  generalize (w₁ - w₂) ^ 2 = V at *
  generalize (x₁ - x₂) ^ 2 = X at *
  generalize (y₁ - y₂) ^ 2 = Y at *
  clear c1 c2 c3 c4 h2 id2 q₁ q₂ b1 b3 e1
  norm_num at *
  linarith

/-- How much of the distance of the normals the surface sees. -/
theorem Pair.key (p : Pair a e x₁ y₁ z₁ w₁ h₁ x₂ y₂ z₂ w₂ h₂) :
    0.4945 * gapN x₁ y₁ z₁ x₂ y₂ z₂ ≤ w₁ * w₂ - (x₁ * x₂ + y₁ * y₂ + (1 - e) * (z₁ * z₂)) := by
  obtain ⟨a0, e0, e1, u₁, u₂, p₁, p₂, s₁, s₂⟩ := p
  have q₁ : z₁ ^ 2 ≤ 1 := by nlinarith [sq_nonneg x₁, sq_nonneg y₁]
  have q₂ : z₂ ^ 2 ≤ 1 := by nlinarith [sq_nonneg x₂, sq_nonneg y₂]
  obtain ⟨b1, b2⟩ := w_bounds e0 e1 q₁ p₁ s₁
  obtain ⟨b3, b4⟩ := w_bounds e0 e1 q₂ p₂ s₂
  have id1 : w₁ * w₂ - (x₁ * x₂ + y₁ * y₂ + (1 - e) * (z₁ * z₂)) =
      ((x₁ - x₂) ^ 2 + (y₁ - y₂) ^ 2 + (1 - e) * (z₁ - z₂) ^ 2 - (w₁ - w₂) ^ 2) / 2 := by
    linear_combination (s₁ + s₂) / 2 - (u₁ + u₂) / 2
  have id2 : (w₁ - w₂) * (w₁ + w₂) = -(e * ((z₁ - z₂) * (z₁ + z₂))) := by linear_combination s₁ - s₂
  have := half_gap (x₁ := x₁) (y₁ := y₁) (x₂ := x₂) (y₂ := y₂) e0 e1 q₁ q₂ b1 b3 id2
  rw [id1, le_div_iff₀ (by norm_num)]
  linarith

/-- The normals of close points are close. -/
theorem Pair.normal (p : Pair a e x₁ y₁ z₁ w₁ h₁ x₂ y₂ z₂ w₂ h₂) (hε : 0 ≤ ε)
    (hX : gapX a e x₁ y₁ z₁ w₁ h₁ x₂ y₂ z₂ w₂ h₂ ≤ ε ^ 2) :
    (0.989 * a + (h₁ + h₂) / 2) * Real.sqrt (gapN x₁ y₁ z₁ x₂ y₂ z₂) ≤ ε := by
  have k := p.key
  obtain ⟨a0, e0, e1, u₁, u₂, p₁, p₂, s₁, s₂⟩ := p
  have q₁ : z₁ ^ 2 ≤ 1 := by nlinarith [sq_nonneg x₁, sq_nonneg y₁]
  have q₂ : z₂ ^ 2 ≤ 1 := by nlinarith [sq_nonneg x₂, sq_nonneg y₂]
  obtain ⟨-, b2⟩ := w_bounds e0 e1 q₁ p₁ s₁
  obtain ⟨-, b4⟩ := w_bounds e0 e1 q₂ p₂ s₂
  set g := x₁ * x₂ + y₁ * y₂ + (1 - e) * (z₁ * z₂) with hg
  set N := gapN x₁ y₁ z₁ x₂ y₂ z₂ with hN
  have N0 : 0 ≤ N := gapN_nonneg
  set A := (a / w₁ + h₁) * x₁ - (a / w₂ + h₂) * x₂ with hA
  set B := (a / w₁ + h₁) * y₁ - (a / w₂ + h₂) * y₂ with hB
  set C := (a / w₁ * (1 - e) + h₁) * z₁ - (a / w₂ * (1 - e) + h₂) * z₂ with hC
  have hX' : A ^ 2 + B ^ 2 + C ^ 2 ≤ ε ^ 2 := hX
  have dot : A * (x₁ - x₂) + B * (y₁ - y₂) + C * (z₁ - z₂) =
      a / w₁ * (w₁ ^ 2 - g) + a / w₂ * (w₂ ^ 2 - g) + (h₁ + h₂) / 2 * N := by
    rw [hA, hB, hC, hg, hN, gapN]
    linear_combination (a / w₁ + (h₁ - h₂) / 2) * u₁ + (a / w₂ - (h₁ - h₂) / 2) * u₂ - a / w₁ * s₁ - a / w₂ * s₂
  have i1 : a / w₁ * (w₁ ^ 2 - g) + a / w₂ * (w₂ ^ 2 - g) = a * ((1 / w₁ + 1 / w₂) * (w₁ * w₂ - g)) := by
    field_simp
    ring
  have i2 : 2 ≤ 1 / w₁ + 1 / w₂ := by
    have h1 : 1 ≤ 1 / w₁ := by rw [le_div_iff₀ p₁]; linarith
    have h2 : 1 ≤ 1 / w₂ := by rw [le_div_iff₀ p₂]; linarith
    linarith
  have i3 : 0.989 * N ≤ (1 / w₁ + 1 / w₂) * (w₁ * w₂ - g) := by
    have h1 : 0 ≤ w₁ * w₂ - g := le_trans (by positivity) k
    have h2 := mul_le_mul_of_nonneg_right i2 h1
    linarith
  have i4 := mul_le_mul_of_nonneg_left i3 a0.le
  have low : (0.989 * a + (h₁ + h₂) / 2) * N ≤ A * (x₁ - x₂) + B * (y₁ - y₂) + C * (z₁ - z₂) := by
    rw [dot, i1]
    linarith
  have cs : (A * (x₁ - x₂) + B * (y₁ - y₂) + C * (z₁ - z₂)) ^ 2 ≤ (A ^ 2 + B ^ 2 + C ^ 2) * N := by
    rw [hN, gapN]
    exact cauchy3 _ _ _ _ _ _
  have up : A * (x₁ - x₂) + B * (y₁ - y₂) + C * (z₁ - z₂) ≤ ε * Real.sqrt N := by
    refine (le_abs_self _).trans (abs_le_of_sq_le_sq ?_ (by positivity))
    rw [mul_pow, Real.sq_sqrt N0]
    exact cs.trans (mul_le_mul_of_nonneg_right hX' N0)
  rcases eq_or_lt_of_le (Real.sqrt_nonneg N) with h | h
  · rw [← h]
    simpa using hε
  · have e2 := Real.mul_self_sqrt N0
    have : (0.989 * a + (h₁ + h₂) / 2) * Real.sqrt N * Real.sqrt N ≤ ε * Real.sqrt N := by
      rw [mul_assoc, e2]
      exact low.trans up
    exact le_of_mul_le_mul_right this h

/-- And so are the heights. -/
theorem Pair.height (p : Pair a e x₁ y₁ z₁ w₁ h₁ x₂ y₂ z₂ w₂ h₂) (hε : 0 ≤ ε)
    (hX : gapX a e x₁ y₁ z₁ w₁ h₁ x₂ y₂ z₂ w₂ h₂ ≤ ε ^ 2) :
    h₁ - h₂ ≤ ε - h₂ / 2 * gapN x₁ y₁ z₁ x₂ y₂ z₂ := by
  have k := p.key
  obtain ⟨a0, e0, e1, u₁, u₂, p₁, p₂, s₁, s₂⟩ := p
  set g := x₁ * x₂ + y₁ * y₂ + (1 - e) * (z₁ * z₂) with hg
  have N0 : 0 ≤ gapN x₁ y₁ z₁ x₂ y₂ z₂ := gapN_nonneg
  set A := (a / w₁ + h₁) * x₁ - (a / w₂ + h₂) * x₂ with hA
  set B := (a / w₁ + h₁) * y₁ - (a / w₂ + h₂) * y₂ with hB
  set C := (a / w₁ * (1 - e) + h₁) * z₁ - (a / w₂ * (1 - e) + h₂) * z₂ with hC
  have hX' : A ^ 2 + B ^ 2 + C ^ 2 ≤ ε ^ 2 := hX
  have dot : A * x₁ + B * y₁ + C * z₁ = a / w₁ * w₁ ^ 2 - a / w₂ * g + h₁ - h₂ + h₂ / 2 * gapN x₁ y₁ z₁ x₂ y₂ z₂ := by
    rw [hA, hB, hC, hg, gapN]
    linear_combination (a / w₁ + h₁ - h₂ / 2) * u₁ - h₂ / 2 * u₂ - a / w₁ * s₁
  have i1 : a / w₁ * w₁ ^ 2 - a / w₂ * g = a / w₂ * (w₁ * w₂ - g) := by
    field_simp
  have i2 : 0 ≤ a / w₂ * (w₁ * w₂ - g) := mul_nonneg (by positivity) (le_trans (by positivity) k)
  have cs : (A * x₁ + B * y₁ + C * z₁) ^ 2 ≤ ε ^ 2 := by
    refine le_trans ?_ hX'
    have := cauchy3 A B C x₁ y₁ z₁
    rw [u₁, mul_one] at this
    exact this
  have up := (le_abs_self _).trans (abs_le_of_sq_le_sq cs hε)
  linarith

/-! ### From normals to angles -/

/-- Half chords. -/
theorem chord_le {t c : ℝ} (ht : |t| ≤ Real.pi) (h : 2 * |Real.sin (t / 2)| ≤ c) : 2 / Real.pi * |t| ≤ c := by
  have h1 : |Real.sin (t / 2)| = Real.sin (|t| / 2) := by
    rw [← abs_of_nonneg (Real.sin_nonneg_of_nonneg_of_le_pi (x := |t| / 2) (by positivity) (by linarith [Real.pi_pos]))]
    rcases abs_cases t with ⟨h, -⟩ | ⟨h, -⟩ <;> rw [h]
    rw [neg_div, Real.sin_neg, abs_neg]
  have h2 := Real.mul_le_sin (x := |t| / 2) (by positivity) (by linarith)
  rw [h1] at h
  have : 2 / Real.pi * (|t| / 2) * 2 = 2 / Real.pi * |t| := by ring
  linarith

theorem chord_small {t c : ℝ} (ht : |t| ≤ Real.pi) (h : 2 * |Real.sin (t / 2)| ≤ c) (hc : c ≤ 0.01) : |t| ≤ 1.0001 * c := by
  have h0 := chord_le ht h
  have hp := Real.pi_pos
  have hp4 := Real.pi_le_four
  have h1 : |Real.sin (t / 2)| = Real.sin (|t| / 2) := by
    rw [← abs_of_nonneg (Real.sin_nonneg_of_nonneg_of_le_pi (x := |t| / 2) (by positivity) (by linarith [Real.pi_pos]))]
    rcases abs_cases t with ⟨h, -⟩ | ⟨h, -⟩ <;> rw [h]
    rw [neg_div, Real.sin_neg, abs_neg]
  rw [h1] at h
  have ht0 := abs_nonneg t
  generalize |t| = T at *
  have T1 : T ≤ 0.02 := by
    rw [div_mul_eq_mul_div, div_le_iff₀ hp] at h0
    have c0 : 0 ≤ c := by
      have := Real.sin_nonneg_of_nonneg_of_le_pi (x := T / 2) (by positivity) (by linarith)
      linarith
    norm_num at *
    nlinarith
  rcases eq_or_lt_of_le ht0 with h2 | h2
  · rw [← h2] at h ⊢
    simp at h
    norm_num
    linarith
  · have h3 := Real.sin_gt_sub_cube (x := T / 2) (by linarith)
    have h4 : (T / 2) ^ 3 ≤ 0.0001 * (T / 2) := by
      have : (T / 2) ^ 2 ≤ 0.0001 := by norm_num at *; nlinarith
      nlinarith
    norm_num at *
    linarith

end Geo
