import Verif.Props.RoundTripExact
import Verif.Lemmas.Conditioning

/-!
# C102: close points have close geodetic coordinates

In exact arithmetic.  Latitudes and longitudes are compared by the chords of the unit circle, `2 |sin ((a - b) / 2)|`.
-/

namespace Geo
open XR Spec GeodeticDatum

theorem ecc2_small {a b : ℝ} (hb : 0 < b) (hab : b ≤ a) (hfl : 0.995 * a ≤ b) : 0 ≤ ecc2 a b ∧ ecc2 a b ≤ 0.01 := by
  refine ⟨ecc2_nonneg hb hab, ?_⟩
  have : 0 < a := lt_of_lt_of_le hb hab
  rw [ecc2, div_le_iff₀ (by positivity)]
  have h1 : a - b ≤ 0.005 * a := by norm_num at *; linarith
  have h2 : a + b ≤ 2 * a := by linarith
  exact (mul_le_mul h1 h2 (by linarith) (by linarith)).trans (by ring_nf; rfl)

theorem pair_of {a b : ℝ} (hb : 0 < b) (hab : b ≤ a) (hfl : 0.995 * a ≤ b) (l₁ φ₁ h₁ l₂ φ₂ h₂ : ℝ) :
    Pair a (ecc2 a b) (Real.cos φ₁ * Real.cos l₁) (Real.cos φ₁ * Real.sin l₁) (Real.sin φ₁) (Real.sqrt (wf a b φ₁)) h₁
      (Real.cos φ₂ * Real.cos l₂) (Real.cos φ₂ * Real.sin l₂) (Real.sin φ₂) (Real.sqrt (wf a b φ₂)) h₂ := by
  obtain ⟨e0, e1⟩ := ecc2_small hb hab hfl
  have u : ∀ φ l : ℝ, (Real.cos φ * Real.cos l) ^ 2 + (Real.cos φ * Real.sin l) ^ 2 + Real.sin φ ^ 2 = 1 := by
    intro φ l
    linear_combination Real.cos φ ^ 2 * Real.sin_sq_add_cos_sq l + Real.sin_sq_add_cos_sq φ
  exact ⟨lt_of_lt_of_le hb hab, e0, e1, u _ _, u _ _, Real.sqrt_pos.2 (wf_pos hb hab _), Real.sqrt_pos.2 (wf_pos hb hab _),
    Real.sq_sqrt (wf_pos hb hab _).le, Real.sq_sqrt (wf_pos hb hab _).le⟩

theorem chord_sq (t : ℝ) : (2 * Real.sin (t / 2)) ^ 2 = 2 - 2 * Real.cos t := by
  have h1 := Real.cos_two_mul (t / 2)
  rw [mul_div_cancel₀ t (two_ne_zero)] at h1
  linear_combination 4 * Real.sin_sq_add_cos_sq (t / 2) + 2 * h1

theorem gapN_geo (l₁ φ₁ l₂ φ₂ : ℝ) :
    gapN (Real.cos φ₁ * Real.cos l₁) (Real.cos φ₁ * Real.sin l₁) (Real.sin φ₁) (Real.cos φ₂ * Real.cos l₂)
      (Real.cos φ₂ * Real.sin l₂) (Real.sin φ₂) =
    (2 * Real.sin ((φ₁ - φ₂) / 2)) ^ 2 + Real.cos φ₁ * Real.cos φ₂ * (2 * Real.sin ((l₁ - l₂) / 2)) ^ 2 := by
  rw [chord_sq, chord_sq, Real.cos_sub, Real.cos_sub, gapN]
  linear_combination Real.cos φ₁ ^ 2 * Real.sin_sq_add_cos_sq l₁ + Real.cos φ₂ ^ 2 * Real.sin_sq_add_cos_sq l₂ +
    Real.sin_sq_add_cos_sq φ₁ + Real.sin_sq_add_cos_sq φ₂

/-- **C102**: two points at most `ε` apart, on ellipsoids flattened by at most 1/200.  With `ρ = 0.989 a + (h₁ + h₂) / 2`,
which is positive unless the points are far below the surface: the normals are at most `ε / ρ` apart, which bounds the
difference of the latitudes and, weighted with the cosines of the latitudes, that of the longitudes; and the heights differ
by at most `ε`, up to a term in `(ε / ρ)²` for points below the surface. -/
theorem C102_conditioning {a b : ℝ} (hb : 0 < b) (hab : b ≤ a) (hfl : 0.995 * a ≤ b) (id n pn : String)
    (l0 l₁ φ₁ h₁ l₂ φ₂ h₂ x₁ y₁ z₁ x₂ y₂ z₂ ε : ℝ)
    (hp₁ : -(Real.pi / 2) ≤ φ₁) (hq₁ : φ₁ ≤ Real.pi / 2) (hp₂ : -(Real.pi / 2) ≤ φ₂) (hq₂ : φ₂ ≤ Real.pi / 2)
    (hr : 0 < 0.989 * a + (h₁ + h₂) / 2) (hε : 0 ≤ ε)
    (e₁ : (dat id n pn a b l0).llhToXyz (llh l₁ φ₁ h₁) = xyz x₁ y₁ z₁)
    (e₂ : (dat id n pn a b l0).llhToXyz (llh l₂ φ₂ h₂) = xyz x₂ y₂ z₂)
    (hd : (x₁ - x₂) ^ 2 + (y₁ - y₂) ^ 2 + (z₁ - z₂) ^ 2 ≤ ε ^ 2) :
    2 * |Real.sin ((φ₁ - φ₂) / 2)| ≤ ε / (0.989 * a + (h₁ + h₂) / 2) ∧
    Real.sqrt (Real.cos φ₁ * Real.cos φ₂) * (2 * |Real.sin ((l₁ - l₂) / 2)|) ≤ ε / (0.989 * a + (h₁ + h₂) / 2) ∧
    Real.cos φ₁ * (2 * |Real.sin ((l₁ - l₂) / 2)|) ≤ 2 * (ε / (0.989 * a + (h₁ + h₂) / 2)) ∧
    |h₁ - h₂| ≤ ε + max 0 (max (-h₁) (-h₂)) / 2 * (ε / (0.989 * a + (h₁ + h₂) / 2)) ^ 2 := by
  rw [llhToXyz_all hb hab] at e₁ e₂
  have hl : effLon a b l0 l₁ - effLon a b l0 l₂ = l₁ - l₂ := by
    unfold effLon
    split_ifs <;> ring
  rw [← hl]
  generalize effLon a b l0 l₁ = L₁ at *
  generalize effLon a b l0 l₂ = L₂ at *
  simp only [geo, xyz, XYZ.mk.injEq, Length.mk.injEq, XR.fin.injEq] at e₁ e₂
  obtain ⟨rfl, rfl, rfl⟩ := e₁
  obtain ⟨rfl, rfl, rfl⟩ := e₂
  have p := pair_of hb hab hfl L₁ φ₁ h₁ L₂ φ₂ h₂
  have hX : gapX a (ecc2 a b) (Real.cos φ₁ * Real.cos L₁) (Real.cos φ₁ * Real.sin L₁) (Real.sin φ₁) (Real.sqrt (wf a b φ₁)) h₁
      (Real.cos φ₂ * Real.cos L₂) (Real.cos φ₂ * Real.sin L₂) (Real.sin φ₂) (Real.sqrt (wf a b φ₂)) h₂ ≤ ε ^ 2 := by
    refine le_trans (le_of_eq ?_) hd
    unfold gapX pvr
    ring
  have hn := p.normal hε hX
  have k1 := p.height hε hX
  have k2 := p.swap.height hε (by rw [gapX_swap]; exact hX)
  rw [gapN_swap] at k2
  rw [mul_comm, ← le_div_iff₀ hr] at hn
  have N0 := gapN_nonneg (x₁ := Real.cos φ₁ * Real.cos L₁) (y₁ := Real.cos φ₁ * Real.sin L₁) (z₁ := Real.sin φ₁)
    (x₂ := Real.cos φ₂ * Real.cos L₂) (y₂ := Real.cos φ₂ * Real.sin L₂) (z₂ := Real.sin φ₂)
  have hN := Real.sq_sqrt N0
  have eN := gapN_geo L₁ φ₁ L₂ φ₂
  have hx : (Real.cos φ₁ * Real.cos L₁ - Real.cos φ₂ * Real.cos L₂) ^ 2 +
      (Real.cos φ₁ * Real.sin L₁ - Real.cos φ₂ * Real.sin L₂) ^ 2 ≤
      gapN (Real.cos φ₁ * Real.cos L₁) (Real.cos φ₁ * Real.sin L₁) (Real.sin φ₁) (Real.cos φ₂ * Real.cos L₂)
      (Real.cos φ₂ * Real.sin L₂) (Real.sin φ₂) := by
    unfold gapN
    linarith [sq_nonneg (Real.sin φ₁ - Real.sin φ₂)]
  generalize gapN (Real.cos φ₁ * Real.cos L₁) (Real.cos φ₁ * Real.sin L₁) (Real.sin φ₁) (Real.cos φ₂ * Real.cos L₂)
      (Real.cos φ₂ * Real.sin L₂) (Real.sin φ₂) = N at *
  generalize ε / (0.989 * a + (h₁ + h₂) / 2) = δ at *
  have c₁ := Real.cos_nonneg_of_neg_pi_div_two_le_of_le hp₁ hq₁
  have c₂ := Real.cos_nonneg_of_neg_pi_div_two_le_of_le hp₂ hq₂
  have c₁₂ := mul_nonneg c₁ c₂
  have hδ : 0 ≤ δ := (Real.sqrt_nonneg N).trans hn
  have hN2 : N ≤ δ ^ 2 := by rw [← hN]; exact pow_le_pow_left₀ (Real.sqrt_nonneg _) hn 2
  have s1 := mul_nonneg c₁₂ (sq_nonneg (2 * Real.sin ((L₁ - L₂) / 2)))
  have s2 := sq_nonneg (2 * Real.sin ((φ₁ - φ₂) / 2))
  have abs2 : ∀ t : ℝ, 2 * |t| = |2 * t| := fun t => by rw [abs_mul, abs_two]
  refine ⟨?_, ?_, ?_, ?_⟩
  · rw [abs2]
    exact abs_le_of_sq_le_sq (by linarith) hδ
  · rw [abs2, ← abs_of_nonneg (Real.sqrt_nonneg (Real.cos φ₁ * Real.cos φ₂)), ← abs_mul]
    refine abs_le_of_sq_le_sq ?_ hδ
    rw [mul_pow, Real.sq_sqrt c₁₂]
    linarith
  · -- by the triangle inequality in the plane of the equator
    rw [abs2, ← abs_of_nonneg c₁, ← abs_mul]
    refine abs_le_of_sq_le_sq ?_ (by linarith)
    have i1 : (2 * Real.sin ((L₁ - L₂) / 2)) ^ 2 = 2 - 2 * Real.cos (L₁ - L₂) := chord_sq _
    have i2 : (Real.cos φ₁ * Real.cos L₁ - Real.cos φ₂ * Real.cos L₂) ^ 2 +
        (Real.cos φ₁ * Real.sin L₁ - Real.cos φ₂ * Real.sin L₂) ^ 2 =
        (Real.cos φ₁ - Real.cos φ₂) ^ 2 + Real.cos φ₁ * Real.cos φ₂ * (2 * Real.sin ((L₁ - L₂) / 2)) ^ 2 := by
      rw [i1, Real.cos_sub]
      linear_combination Real.cos φ₁ ^ 2 * Real.sin_sq_add_cos_sq L₁ + Real.cos φ₂ ^ 2 * Real.sin_sq_add_cos_sq L₂
    rw [i2] at hx
    have i3 : (2 * Real.sin ((L₁ - L₂) / 2)) ^ 2 ≤ 4 := by
      rw [i1]
      linarith [Real.neg_one_le_cos (L₁ - L₂)]
    have i4 := sq_nonneg (2 * Real.sin ((L₁ - L₂) / 2))
    rw [mul_pow]
    generalize (2 * Real.sin ((L₁ - L₂) / 2)) ^ 2 = t at *
    clear p hX hd
    generalize Real.cos φ₁ = p at *
    generalize Real.cos φ₂ = q at *
    -- p² t ≤ 4 ((p - q)² + p q t)
    have : p ^ 2 * t ≤ 4 * ((p - q) ^ 2 + p * q * t) := by
      have j1 := mul_nonneg (sub_nonneg.2 i3) (sq_nonneg (p - q))
      have j2 := mul_nonneg i4 (add_nonneg (sq_nonneg q) c₁₂)
      have j3 := mul_nonneg i4 c₁₂
      linarith
    linarith
  · have m0 : 0 ≤ max 0 (max (-h₁) (-h₂)) := le_max_left _ _
    have m1 : -h₁ ≤ max 0 (max (-h₁) (-h₂)) := (le_max_left _ _).trans (le_max_right _ _)
    have m2 : -h₂ ≤ max 0 (max (-h₁) (-h₂)) := (le_max_right _ _).trans (le_max_right _ _)
    generalize max 0 (max (-h₁) (-h₂)) = M at *
    have j0 := mul_le_mul_of_nonneg_left hN2 m0
    have j1 := mul_le_mul_of_nonneg_right m1 N0
    have j2 := mul_le_mul_of_nonneg_right m2 N0
    rw [abs_le]
    constructor <;> linarith

/-- A point of the equator and the one 100 m above it. -/
example : ∃ x₁ z₁ x₂ z₂ : ℝ,
    (dat "" "" "" 6378137 6356752 0).llhToXyz (llh 0 0 0) = xyz x₁ 0 z₁ ∧
    (dat "" "" "" 6378137 6356752 0).llhToXyz (llh 0 0 100) = xyz x₂ 0 z₂ ∧
    (x₁ - x₂) ^ 2 + ((0 : ℝ) - 0) ^ 2 + (z₁ - z₂) ^ 2 ≤ 100 ^ 2 ∧ (0 : ℝ) < 0.989 * 6378137 + (0 + 100) / 2 ∧
    (0.995 : ℝ) * 6378137 ≤ 6356752 := by
  refine ⟨6378137, 0, 6378237, 0, ?_, ?_, by norm_num, by norm_num, by norm_num⟩ <;>
    (rw [llhToXyz_all (by norm_num) (by norm_num)]; simp [geo, effLon, pvr, wf]; try norm_num)

end Geo
