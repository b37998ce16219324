import Verif.Lemmas.VincentyGeodesic

/-! Vincenty's series under a small change of the azimuth: length and excess of longitude hardly move. -/

namespace Geo.VincentyStable
open Spec Geo.Bessel

/-- The product of two quantities that move little. -/
theorem mul_close {p p' r r' P R A B : ℝ} (hp : |p - p'| ≤ P) (hr : |r - r'| ≤ R) (ha : |p| ≤ A) (hb : |r'| ≤ B) :
    |p * r - p' * r'| ≤ P * B + A * R := by
  have e : p * r - p' * r' = (p - p') * r' + p * (r - r') := by ring
  rw [e]
  refine (abs_add_le _ _).trans ?_
  rw [abs_mul, abs_mul]
  exact add_le_add (mul_le_mul hp hb (abs_nonneg _) ((abs_nonneg _).trans hp))
    (mul_le_mul ha hr (abs_nonneg _) ((abs_nonneg _).trans ha))

theorem add_close {p p' r r' P R : ℝ} (hp : |p - p'| ≤ P) (hr : |r - r'| ≤ R) : |(p + r) - (p' + r')| ≤ P + R := by
  rw [show (p + r) - (p' + r') = (p - p') + (r - r') by ring]
  exact (abs_add_le _ _).trans (add_le_add hp hr)

/-- `B / K`, a polynomial. -/
noncomputable def serB (E K : ℝ) : ℝ := E / 1024 * (256 + K * E * (-128 + K * E * (74 - 47 * (K * E))))

theorem vincentyB_eq (E K : ℝ) : vincentyB (K * E) = K * serB E K := by rw [vincentyB, serB]; ring

/-- Equation (6) as a polynomial in `q = K cos 2σₘ`. -/
noncomputable def delta (w K q σ : ℝ) : ℝ :=
  Real.sin σ * (w * q + 1 / 4 * Real.cos σ * (w ^ 2 * (2 * q ^ 2 - K ^ 2)) +
    -(1 / 24) * (4 * Real.sin σ ^ 2 - 3) * (w ^ 3 * (q * (4 * q ^ 2 - 3 * K ^ 2))))

theorem delta_poly (E K c σ : ℝ) : vincentyDeltaSigma (vincentyB (K * E)) σ c = delta (serB E K) K (K * c) σ := by
  rw [vincentyB_eq, vincentyDeltaSigma, delta]; ring

section
variable {E K K' : ℝ} (E0 : 0 ≤ E) (E1 : E ≤ 1 / 20) (k0 : 0 ≤ K) (k1 : K ≤ 1) (k0' : 0 ≤ K') (k1' : K' ≤ 1)

theorem quad_close {δ q q' : ℝ} (k0 : 0 ≤ K) (k1 : K ≤ 1) (k0' : 0 ≤ K') (k1' : K' ≤ 1)
    (hk : |K - K'| ≤ 2 * δ) (hq : |q - q'| ≤ 4 * δ) (q1 : |q| ≤ 1) (q1' : |q'| ≤ 1) :
    |(2 * q ^ 2 - K ^ 2) - (2 * q' ^ 2 - K' ^ 2)| ≤ 20 * δ ∧ |2 * q ^ 2 - K ^ 2| ≤ 2 ∧
    |(4 * q ^ 2 - 3 * K ^ 2) - (4 * q' ^ 2 - 3 * K' ^ 2)| ≤ 44 * δ ∧ |4 * q ^ 2 - 3 * K ^ 2| ≤ 4 := by
  have h1 : |q ^ 2 - q' ^ 2| ≤ 8 * δ := by
    have := mul_close hq hq q1 q1'
    rw [sq, sq]; linarith
  have h2 : |K ^ 2 - K' ^ 2| ≤ 4 * δ := by
    have := mul_close hk hk (abs_le.2 ⟨by linarith, k1⟩) (abs_le.2 ⟨by linarith, k1'⟩)
    rw [sq, sq]; linarith
  have h3 : q ^ 2 ≤ 1 := by rw [← sq_abs]; exact pow_le_one₀ (abs_nonneg _) q1
  have h4 : K ^ 2 ≤ 1 := pow_le_one₀ k0 k1
  have h5 := sq_nonneg q
  have h6 := sq_nonneg K
  rw [abs_le] at h1 h2
  refine ⟨abs_le.2 ⟨by linarith, by linarith⟩, abs_le.2 ⟨by linarith, by linarith⟩, abs_le.2 ⟨by linarith, by linarith⟩,
    abs_le.2 ⟨by linarith, by linarith⟩⟩

include E0 E1 k0 k1 k0' k1'

theorem ser_close {δ : ℝ} (hk : |K - K'| ≤ 2 * δ) :
    |serB E K - serB E K'| ≤ 1 / 1600 * δ ∧ |serB E K| ≤ 1 / 80 ∧ |vincentyA (K * E) - vincentyA (K' * E)| ≤ 1 / 40 * δ := by
  have hδ : 0 ≤ δ := by linarith [abs_nonneg (K - K')]
  have u0 : 0 ≤ K * E := mul_nonneg k0 E0
  have u0' : 0 ≤ K' * E := mul_nonneg k0' E0
  have u1 : K * E ≤ 1 / 20 := by nlinarith
  have u1' : K' * E ≤ 1 / 20 := by nlinarith
  have hu : |K * E - K' * E| ≤ 1 / 10 * δ := by
    rw [← sub_mul, abs_mul, abs_of_nonneg E0]
    calc |K - K'| * E ≤ 2 * δ * (1 / 20) := by gcongr
      _ = _ := by ring
  have hu2 : |K * E - K' * E| ≤ E * (2 * δ) := by
    rw [← sub_mul, abs_mul, abs_of_nonneg E0, mul_comm]; gcongr
  rw [serB, serB, vincentyA, vincentyA]
  set u := K * E
  set u' := K' * E
  have e1 : E / 1024 * (256 + u * (-128 + u * (74 - 47 * u))) - E / 1024 * (256 + u' * (-128 + u' * (74 - 47 * u'))) =
      E / 1024 * (-128 + 74 * (u + u') - 47 * (u ^ 2 + u * u' + u' ^ 2)) * (u - u') := by ring
  have e2 : 1 + u / 16384 * (4096 + u * (-768 + u * (320 - 175 * u))) -
      (1 + u' / 16384 * (4096 + u' * (-768 + u' * (320 - 175 * u')))) =
      1 / 16384 * (4096 - 768 * (u + u') + 320 * (u ^ 2 + u * u' + u' ^ 2) -
        175 * ((u + u') * (u ^ 2 + u' ^ 2))) * (u - u') := by ring
  have s0 : u ^ 2 ≤ 1 / 400 := by nlinarith
  have s1 : u' ^ 2 ≤ 1 / 400 := by nlinarith
  have s2 : u * u' ≤ 1 / 400 := by nlinarith
  have s3 : 0 ≤ u * u' := mul_nonneg u0 u0'
  have s4 := sq_nonneg u
  have s5 := sq_nonneg u'
  have s6 : u ^ 2 ≤ 1 / 20 * u := by nlinarith
  have s7 : u' ^ 2 ≤ 1 / 20 * u' := by nlinarith
  have s8 : u * u' ≤ 1 / 20 * u := by nlinarith
  refine ⟨?_, ?_, ?_⟩
  · rw [e1, abs_mul, abs_mul, abs_of_nonneg (by positivity : 0 ≤ E / 1024)]
    have : |(-128 + 74 * (u + u') - 47 * (u ^ 2 + u * u' + u' ^ 2))| ≤ 128 := abs_le.2 ⟨by linarith, by linarith⟩
    calc E / 1024 * |(-128 + 74 * (u + u') - 47 * (u ^ 2 + u * u' + u' ^ 2))| * |u - u'|
        ≤ (1 / 20) / 1024 * 128 * (1 / 10 * δ) := by gcongr
      _ = _ := by ring
  · have h1 : 0 ≤ 128 - u * (74 - 47 * u) := by nlinarith
    have h2 : u * (128 - u * (74 - 47 * u)) ≤ 256 := by nlinarith [mul_nonneg u0 u0, mul_nonneg (mul_nonneg u0 u0) u0]
    have h3 := mul_nonneg u0 h1
    rw [show E / 1024 * (256 + u * (-128 + u * (74 - 47 * u))) = E / 1024 * (256 - u * (128 - u * (74 - 47 * u))) by ring,
      abs_of_nonneg (mul_nonneg (by positivity) (by linarith))]
    calc E / 1024 * (256 - u * (128 - u * (74 - 47 * u))) ≤ (1 / 20) / 1024 * 256 := by
          refine mul_le_mul (by linarith) (by linarith) (by linarith) (by norm_num)
      _ = _ := by norm_num
  · rw [e2, abs_mul, abs_mul, abs_of_nonneg (by norm_num : (0 : ℝ) ≤ 1 / 16384)]
    have hp : 0 ≤ (u + u') * (u ^ 2 + u' ^ 2) := by positivity
    have hp2 : (u + u') * (u ^ 2 + u' ^ 2) ≤ (1 / 10) * (1 / 200) := by
      refine mul_le_mul (by linarith) (by linarith) (by positivity) (by norm_num)
    have : |4096 - 768 * (u + u') + 320 * (u ^ 2 + u * u' + u' ^ 2) - 175 * ((u + u') * (u ^ 2 + u' ^ 2))| ≤ 4096 := by
      refine abs_le.2 ⟨by linarith, ?_⟩
      nlinarith
    calc 1 / 16384 * _ * |u - u'| ≤ 1 / 16384 * 4096 * (1 / 10 * δ) := by gcongr
      _ = _ := by ring

theorem delta_close {δ q q' : ℝ} (hk : |K - K'| ≤ 2 * δ) (hq : |q - q'| ≤ 4 * δ) (q1 : |q| ≤ 1) (q1' : |q'| ≤ 1) (σ : ℝ) :
    |delta (serB E K) K q σ - delta (serB E K') K' q' σ| ≤ 52 / 1000 * δ * |Real.sin σ| := by
  have hδ : 0 ≤ δ := by linarith [abs_nonneg (K - K')]
  obtain ⟨hw, w1, -⟩ := ser_close E0 E1 k0 k1 k0' k1' hk
  have w1' := (ser_close E0 E1 k0' k1' k0 k1 (by rw [abs_sub_comm]; exact hk)).2.1
  obtain ⟨a1, a2, a3, a4⟩ := quad_close k0 k1 k0' k1' hk hq q1 q1'
  obtain ⟨-, b2, -, b4⟩ := quad_close k0' k1' k0 k1 (by rw [abs_sub_comm]; exact hk) (by rw [abs_sub_comm]; exact hq) q1' q1
  set w := serB E K
  set w' := serB E K'
  have hw2 : |w ^ 2 - w' ^ 2| ≤ 1 / 64000 * δ := by
    have := mul_close hw hw w1 w1'
    rw [sq, sq]; linarith
  have hw2b : |w ^ 2| ≤ 1 / 6400 := by
    rw [abs_pow]; exact (pow_le_pow_left₀ (abs_nonneg _) w1 2).trans (by norm_num)
  have hw3 : |w ^ 3 - w' ^ 3| ≤ 1 / 1000000 * δ := by
    have := mul_close hw2 hw hw2b w1'
    rw [pow_succ, pow_succ w']; linarith
  have hw3b : |w ^ 3| ≤ 1 / 512000 := by
    rw [abs_pow]; exact (pow_le_pow_left₀ (abs_nonneg _) w1 3).trans (by norm_num)
  have t1 := mul_close hw hq w1 q1'
  have t2 := mul_close hw2 a1 hw2b b2
  have c1 := mul_close hq a3 q1 b4
  have c2 : |q' * (4 * q' ^ 2 - 3 * K' ^ 2)| ≤ 1 * 4 := by
    rw [abs_mul]; exact mul_le_mul q1' b4 (abs_nonneg _) (by norm_num)
  have t3 := mul_close hw3 c1 hw3b c2
  have cc : |1 / 4 * Real.cos σ| ≤ 1 / 4 := by
    rw [abs_mul, abs_of_nonneg (by norm_num : (0 : ℝ) ≤ 1 / 4)]; linarith [Real.abs_cos_le_one σ]
  have cs : |-(1 / 24) * (4 * Real.sin σ ^ 2 - 3)| ≤ 1 / 8 := by
    have := Real.sin_sq_le_one σ
    have := sq_nonneg (Real.sin σ)
    exact abs_le.2 ⟨by linarith, by linarith⟩
  rw [delta, delta, ← mul_sub, abs_mul, mul_comm]
  refine mul_le_mul_of_nonneg_right ?_ (abs_nonneg _)
  have t2' : |1 / 4 * Real.cos σ * (w ^ 2 * (2 * q ^ 2 - K ^ 2)) - 1 / 4 * Real.cos σ * (w' ^ 2 * (2 * q' ^ 2 - K' ^ 2))| ≤
      1 / 4 * (1 / 64000 * δ * 2 + 1 / 6400 * (20 * δ)) := by
    rw [← mul_sub, abs_mul]
    exact mul_le_mul cc t2 (abs_nonneg _) (by norm_num)
  have t3' : |-(1 / 24) * (4 * Real.sin σ ^ 2 - 3) * (w ^ 3 * (q * (4 * q ^ 2 - 3 * K ^ 2))) -
      -(1 / 24) * (4 * Real.sin σ ^ 2 - 3) * (w' ^ 3 * (q' * (4 * q' ^ 2 - 3 * K' ^ 2)))| ≤
      1 / 8 * (1 / 1000000 * δ * (1 * 4) + 1 / 512000 * (4 * δ * 4 + 1 * (44 * δ))) := by
    rw [← mul_sub, abs_mul]
    exact mul_le_mul cs t3 (abs_nonneg _) (by norm_num)
  refine (add_close (add_close t1 t2') t3').trans ?_
  linarith

end

/-- `C / K`. -/
noncomputable def serC (f K : ℝ) : ℝ := f / 16 * (4 + f * (4 - 3 * K))

theorem vincentyC_eq (f K : ℝ) : vincentyC f K = K * serC f K := by rw [vincentyC, serC]; ring

/-- Equation (11) divided by `f sin α`, as a polynomial in `q = K cos 2σₘ`. -/
noncomputable def excess (k K q σ : ℝ) : ℝ :=
  (1 - K * k) * (σ + Real.sin σ * (k * q + Real.cos σ * (k ^ 2 * (2 * q ^ 2 - K ^ 2))))

theorem excess_poly (f sa σ c : ℝ) :
    vincentyExcess f sa σ c = f * (sa * excess (serC f (1 - sa ^ 2)) (1 - sa ^ 2) ((1 - sa ^ 2) * c) σ) := by
  simp only [vincentyExcess, vincentyC_eq, excess]; ring

theorem excess_close {f K K' δ q q' σ : ℝ} (f0 : 0 ≤ f) (f1 : f ≤ 1 / 50) (k0 : 0 ≤ K) (k1 : K ≤ 1) (k0' : 0 ≤ K')
    (k1' : K' ≤ 1) (hk : |K - K'| ≤ 2 * δ) (hq : |q - q'| ≤ 4 * δ) (q1 : |q| ≤ 1) (q1' : |q'| ≤ 1) (hσ : 0 ≤ σ) :
    |excess (serC f K) K q σ - excess (serC f K') K' q' σ| ≤ 33 / 1000 * δ * σ ∧
    |excess (serC f K') K' q' σ| ≤ 1006 / 1000 * σ := by
  have hδ : 0 ≤ δ := by linarith [abs_nonneg (K - K')]
  have bd : ∀ k, 0 ≤ k → k ≤ 1 → 0 ≤ serC f k ∧ serC f k ≤ 51 / 10000 := fun k h0 h1 => by
    have e0 : 0 ≤ 4 + f * (4 - 3 * k) := by nlinarith
    have e1 : 4 + f * (4 - 3 * k) ≤ 4 + 1 / 50 * 4 := by nlinarith [mul_nonneg f0 h0]
    refine ⟨mul_nonneg (by positivity) e0, ?_⟩
    calc f / 16 * (4 + f * (4 - 3 * k)) ≤ (1 / 50) / 16 * (4 + 1 / 50 * 4) := by
          refine mul_le_mul (by linarith) e1 e0 (by norm_num)
      _ ≤ _ := by norm_num
  obtain ⟨w0, w1⟩ := bd K k0 k1
  obtain ⟨w0', w1'⟩ := bd K' k0' k1'
  obtain ⟨a1, a2, -, -⟩ := quad_close k0 k1 k0' k1' hk hq q1 q1'
  obtain ⟨-, b2, -, -⟩ := quad_close k0' k1' k0 k1 (by rw [abs_sub_comm]; exact hk) (by rw [abs_sub_comm]; exact hq) q1' q1
  have hw : |serC f K - serC f K'| ≤ 15 / 100000 * δ := by
    rw [serC, serC, show f / 16 * (4 + f * (4 - 3 * K)) - f / 16 * (4 + f * (4 - 3 * K')) = -(3 / 16 * f ^ 2) * (K - K') by ring,
      abs_mul, abs_neg, abs_of_nonneg (by positivity)]
    calc 3 / 16 * f ^ 2 * |K - K'| ≤ 3 / 16 * (1 / 50) ^ 2 * (2 * δ) := by gcongr
      _ = _ := by ring
  rw [excess, excess]
  set w := serC f K
  set w' := serC f K'
  have aw : |w| ≤ 51 / 10000 := abs_le.2 ⟨by linarith, w1⟩
  have aw' : |w'| ≤ 51 / 10000 := abs_le.2 ⟨by linarith, w1'⟩
  have hw2 : |w ^ 2 - w' ^ 2| ≤ 2 / 1000000 * δ := by
    have := mul_close hw hw aw aw'
    rw [sq, sq]; linarith
  have hw2b : ∀ v : ℝ, |v| ≤ 51 / 10000 → |v ^ 2| ≤ 27 / 1000000 := fun v hv => by
    rw [abs_pow]; exact (pow_le_pow_left₀ (abs_nonneg _) hv 2).trans (by norm_num)
  have t1 := mul_close hw hq aw q1'
  have t2 := mul_close hw2 a1 (hw2b _ aw) b2
  have hsin : |Real.sin σ| ≤ σ := by rw [← abs_of_nonneg hσ]; rw [abs_of_nonneg hσ]; exact Real.abs_sin_le_abs.trans (abs_of_nonneg hσ).le
  have hC : |(1 - K * w) - (1 - K' * w')| ≤ 104 / 10000 * δ := by
    have := mul_close hk hw (abs_le.2 ⟨by linarith, k1⟩ : |K| ≤ 1) aw'
    rw [show (1 - K * w) - (1 - K' * w') = -(K * w - K' * w') by ring, abs_neg]; linarith
  have hC1 : |1 - K * w| ≤ 1 := abs_le.2 ⟨by nlinarith, by nlinarith⟩
  have hC1' : |1 - K' * w'| ≤ 1 := abs_le.2 ⟨by nlinarith, by nlinarith⟩
  have hR : |(σ + Real.sin σ * (w * q + Real.cos σ * (w ^ 2 * (2 * q ^ 2 - K ^ 2)))) -
      (σ + Real.sin σ * (w' * q' + Real.cos σ * (w' ^ 2 * (2 * q' ^ 2 - K' ^ 2))))| ≤ σ * (22 / 1000 * δ) := by
    rw [add_sub_add_left_eq_sub, ← mul_sub, abs_mul]
    refine mul_le_mul hsin ?_ (abs_nonneg _) hσ
    have t2' : |Real.cos σ * (w ^ 2 * (2 * q ^ 2 - K ^ 2)) - Real.cos σ * (w' ^ 2 * (2 * q' ^ 2 - K' ^ 2))| ≤
        1 * (2 / 1000000 * δ * 2 + 27 / 1000000 * (20 * δ)) := by
      rw [← mul_sub, abs_mul]
      exact mul_le_mul (Real.abs_cos_le_one _) t2 (abs_nonneg _) (by norm_num)
    refine (add_close t1 t2').trans ?_
    linarith
  have hR' : |σ + Real.sin σ * (w' * q' + Real.cos σ * (w' ^ 2 * (2 * q' ^ 2 - K' ^ 2)))| ≤ 1006 / 1000 * σ := by
    have h1 : |w' * q' + Real.cos σ * (w' ^ 2 * (2 * q' ^ 2 - K' ^ 2))| ≤ 6 / 1000 := by
      refine (abs_add_le _ _).trans ?_
      rw [abs_mul, abs_mul, abs_mul]
      have e1 : |w'| * |q'| ≤ 51 / 10000 * 1 := mul_le_mul aw' q1' (abs_nonneg _) (by norm_num)
      have e2 : |w' ^ 2| * |2 * q' ^ 2 - K' ^ 2| ≤ 27 / 1000000 * 2 := mul_le_mul (hw2b _ aw') b2 (abs_nonneg _) (by norm_num)
      have e3 : |Real.cos σ| * (|w' ^ 2| * |2 * q' ^ 2 - K' ^ 2|) ≤ 1 * (27 / 1000000 * 2) :=
        mul_le_mul (Real.abs_cos_le_one _) e2 (by positivity) (by norm_num)
      linarith
    refine (abs_add_le _ _).trans ?_
    rw [abs_of_nonneg hσ, abs_mul]
    have := mul_le_mul hsin h1 (abs_nonneg _) hσ
    linarith
  refine ⟨?_, ?_⟩
  · refine (mul_close hC hR hC1 hR').trans ?_
    have := mul_nonneg hδ hσ
    linarith
  · rw [abs_mul]
    calc _ ≤ 1 * (1006 / 1000 * σ) := mul_le_mul hC1' hR' (abs_nonneg _) (by norm_num)
      _ = _ := one_mul _

end Geo.VincentyStable
