import Verif.Lemmas.KarneyArc

/-! The end of the geodesic of the Karney solver in IEEE arithmetic. -/

namespace Geo
open XR Spec KarneyGeodesicSolver
variable {L : Libm} {el : Ellipsoid (F64 L)}

/-! ### Exact arithmetic -/

theorem reduced_arg {a b β : ℝ} (hb : 0 < b) (hab : b ≤ a) (hc : 0 ≤ Real.cos β) :
    Bessel.Reduced a b (Complex.arg ⟨b / a * Real.cos β, Real.sin β⟩) β ∧
    -(Real.pi / 2) ≤ Complex.arg ⟨b / a * Real.cos β, Real.sin β⟩ ∧ Complex.arg ⟨b / a * Real.cos β, Real.sin β⟩ ≤ Real.pi / 2 ∧
    ∃ β', (ell "" a b).reducedLatitude (latR (Complex.arg ⟨b / a * Real.cos β, Real.sin β⟩)) = ⟨fin β'⟩ ∧
      Real.cos β' = Real.cos β ∧ Real.sin β' = Real.sin β := by
  obtain ⟨β', hβ', hcβ', hsβ', p1, p2⟩ := reduced_of_geodetic hb hab "" (R := Real.cos β) (Z := Real.sin β) hc
    (by rw [add_comm]; exact Real.sin_sq_add_cos_sq β) rfl
  obtain ⟨⟨r1, r2⟩, -, -⟩ := reduced_of_eq hb hab (Real.cos_nonneg_of_neg_pi_div_two_le_of_le p1 p2) hβ'
  exact ⟨⟨by rw [r1, hcβ'], by rw [r2, hsβ']⟩, p1, p2, β', hβ', hcβ', hsβ'⟩

theorem end_error {a b N7 s d e : ℝ} (hb : 0 < b) (hab : b ≤ a) (hab' : a ≤ 103 / 100 * b) (hN : 0 ≤ N7) (hs : 0 ≤ s)
    (hd : d ≤ N7 * (4 * a + s)) (he : e ≤ 12 * N7 * (s / b + 1 / 50)) : d + a * e ≤ N7 * (5 * a + 14 * s) := by
  have ha : 0 < a := lt_of_lt_of_le hb hab
  have hsb : a * (s / b) ≤ 103 / 100 * s := by
    rw [mul_div_assoc', div_le_iff₀ hb]
    nlinarith
  calc _ ≤ N7 * (4 * a + s) + a * (12 * N7 * (s / b + 1 / 50)) := add_le_add hd (mul_le_mul_of_nonneg_left he ha.le)
    _ = N7 * (4 * a + s + 12 * (a * (s / b)) + 12 / 50 * a) := by ring
    _ ≤ _ := mul_le_mul_of_nonneg_left (by linarith) hN

theorem end_error' {a b N7 s d e : ℝ} (hb : 0 < b) (hab : b ≤ a) (hab' : a ≤ 103 / 100 * b) (hN : 0 ≤ N7) (hs : 0 ≤ s) (hd0 : 0 ≤ d)
    (hd : d ≤ N7 * (4 * a + s)) (he : e ≤ 12 * N7 * (s / b + 1 / 50)) : a / b ^ 2 * d + e ≤ N7 * (5 + 14 * (s / a)) := by
  have ha : 0 < a := lt_of_lt_of_le hb hab
  have hba : a / b ^ 2 ≤ (107 / 100) / a := by
    rw [div_le_div_iff₀ (by positivity) ha]
    nlinarith
  have hsb' : s / b ≤ 103 / 100 * (s / a) := by
    rw [mul_div_assoc', div_le_div_iff₀ hb ha]
    nlinarith
  have hsa0 : 0 ≤ s / a := by positivity
  calc _ ≤ (107 / 100) / a * (N7 * (4 * a + s)) + 12 * N7 * (s / b + 1 / 50) :=
        add_le_add (mul_le_mul hba hd hd0 (by positivity)) he
    _ = N7 * (107 / 100 * (4 + s / a) + 12 * (s / b) + 12 / 50) := by field_simp; ring
    _ ≤ _ := mul_le_mul_of_nonneg_left (by linarith) hN

set_option maxHeartbeats 1000000 in
/-- The geodesic of exact arithmetic, from the triangles of the start and of the end. -/
theorem karney_ideal {a b : ℝ} (hb : 0 < b) (hab : b ≤ a) (hn : (a - b) / (a + b) ≤ 1 / 100) (l : ℝ) {β α α₀ σ₁ ω₁ σ₂ α₂ β₂ ω₂ k2 ε τ s : ℝ}
    (hβ : 0 < Real.cos β)
    (s0 : Real.cos β * Real.sin α = Real.sin α₀) (a1 : Real.cos β * Real.cos α = Real.cos α₀ * Real.cos σ₁)
    (a2 : Real.sin β = Real.cos α₀ * Real.sin σ₁) (a3 : Real.cos β * Real.cos ω₁ = Real.cos σ₁)
    (a4 : Real.cos β * Real.sin ω₁ = Real.sin α₀ * Real.sin σ₁) (hc : 0 ≤ Real.cos β₂)
    (b1 : Real.sin β₂ = Real.cos α₀ * Real.sin σ₂) (b2 : Real.cos β₂ * Real.sin α₂ = Real.sin α₀)
    (b3 : Real.cos β₂ * Real.cos α₂ = Real.cos α₀ * Real.cos σ₂) (b4 : Real.cos β₂ * Real.cos ω₂ = Real.cos σ₂)
    (b5 : Real.cos β₂ * Real.sin ω₂ = Real.sin α₀ * Real.sin σ₂)
    (hk2 : k2 = Real.cos α₀ ^ 2 * ((a ^ 2 - b ^ 2) / b ^ 2)) (hε : ε = (Real.sqrt (1 + k2) - 1) / (Real.sqrt (1 + k2) + 1))
    (hτ : b * karneyA1 ε * τ = b * karneyI1 ε σ₁ + s) (hσ₂ : σ₂ = karneySigma ε τ) :
    ∃ γ : ℝ → E3, IsGeodesic a b γ ∧ γ 0 = surfacePoint a b l (Complex.arg ⟨b / a * Real.cos β, Real.sin β⟩) ∧
      deriv γ 0 = direction l (Complex.arg ⟨b / a * Real.cos β, Real.sin β⟩) α ∧
      ‖surfacePoint a b (l + ((ω₂ - ω₁) - (a - b) / a * Real.sin α₀ * (karneyI3 ((a - b) / (a + b)) ε σ₂ - karneyI3 ((a - b) / (a + b)) ε σ₁)))
        (Complex.arg ⟨b / a * Real.cos β₂, Real.sin β₂⟩) - γ s‖ ≤ ((a - b) / (a + b)) ^ 7 * (5 * a + 14 * |s|) ∧
      (Real.cos β₂ ≠ 0 → ‖direction (l + ((ω₂ - ω₁) - (a - b) / a * Real.sin α₀ * (karneyI3 ((a - b) / (a + b)) ε σ₂ - karneyI3 ((a - b) / (a + b)) ε σ₁)))
        (Complex.arg ⟨b / a * Real.cos β₂, Real.sin β₂⟩) α₂ - deriv γ s‖ ≤ ((a - b) / (a + b)) ^ 7 * (5 + 14 * (|s| / a))) := by
  have ha : 0 < a := lt_of_lt_of_le hb hab
  have hend := arcEnd_of_triangles hβ s0.symm (a1.symm ▸ mul_comm _ _) (a2.symm ▸ mul_comm _ _) a3 a4 hc b1 b2 b3 b4 b5
  obtain ⟨hr, -, -, -⟩ := reduced_arg hb hab hβ.le
  obtain ⟨hr2, -, -, -⟩ := reduced_arg hb hab hc
  set φ := Complex.arg ⟨b / a * Real.cos β, Real.sin β⟩ with hφ
  set φ₂ := Complex.arg ⟨b / a * Real.cos β₂, Real.sin β₂⟩ with hφ₂
  have h1 : Real.sin α₀ ^ 2 + Real.cos α₀ ^ 2 = 1 := Real.sin_sq_add_cos_sq α₀
  obtain ⟨γ, hγ, g0, g1, hE⟩ := Bessel.arc_geodesic hb hab (l := l) hβ hr s0.symm (by rw [a1, mul_comm]) (by rw [a2, mul_comm]) h1
  obtain ⟨k1, k2'⟩ := hE _ β₂ _ α₂ φ₂ hend hr2
  obtain ⟨m1, m2⟩ := Bessel.arc_error hb hab h1 hk2 hε hn hτ
  have m3 := Bessel.lon_error hb hab h1 hk2 hε hn σ₁ (karneySigma ε τ)
  rw [← hσ₂] at m1 m2 m3
  rw [show σ₁ + (σ₂ - σ₁) = σ₂ by ring] at k1 k2'
  set N := (a - b) / (a + b) with hN
  set x := (a - b) / a * Real.sin α₀ * (karneyI3 N ε σ₂ - karneyI3 N ε σ₁) with hx
  set t := Bessel.T a b (Real.sin α₀) (Real.cos α₀) σ₂ - Bessel.T a b (Real.sin α₀) (Real.cos α₀) σ₁ with ht
  set y := Bessel.G a b (Real.sin α₀) (Real.cos α₀) σ₂ - Bessel.G a b (Real.sin α₀) (Real.cos α₀) σ₁ with hy
  have hN0 : 0 ≤ N := div_nonneg (by linarith) (by linarith)
  have hN7 : 0 ≤ N ^ 7 := by positivity
  have hab' : a ≤ 103 / 100 * b := by
    rw [hN, div_le_iff₀ (by positivity)] at hn
    linarith
  have m4 := m3.trans (mul_le_mul_of_nonneg_left m1 (by positivity))
  have ed : l + (ω₂ - ω₁ - x) - (l + (ω₂ - ω₁ - y)) = y - x := by ring
  refine ⟨γ, hγ, g0, g1, ?_, fun h => ?_⟩
  · have p1 := Bessel.surfacePoint_sub (l := l + (ω₂ - ω₁ - x)) (l' := l + (ω₂ - ω₁ - y)) ha.le hr2
    have p2 := hγ.chord s t
    rw [k1] at p2
    rw [ed] at p1
    refine (norm_sub_le_norm_sub_add_norm_sub _ (surfacePoint a b (l + (ω₂ - ω₁ - y)) φ₂) _).trans ?_
    have p3 := end_error hb hab hab' hN7 (abs_nonneg s) m2 m4
    linarith
  · have p1 := direction_sub (l + (ω₂ - ω₁ - x)) (l + (ω₂ - ω₁ - y)) φ₂ α₂
    have p2 := hγ.turn hb hab s t
    rw [k2' h] at p2
    rw [ed] at p1
    refine (norm_sub_le_norm_sub_add_norm_sub _ (direction (l + (ω₂ - ω₁ - y)) φ₂ α₂) _).trans ?_
    have p3 := end_error' hb hab hab' hN7 (abs_nonneg s) (abs_nonneg _) m2 m4
    linarith

/-! ### Distances -/

theorem norm3_le {u v w : ℝ} : ‖(!₂[u, v, w] : E3)‖ ≤ |u| + |v| + |w| := by
  rw [EuclideanSpace.norm_eq]
  refine Real.sqrt_le_iff.2 ⟨by positivity, ?_⟩
  simp [Fin.sum_univ_three]
  have h1 := abs_nonneg u
  have h2 := abs_nonneg v
  have h3 := abs_nonneg w
  rw [← sq_abs u, ← sq_abs v, ← sq_abs w]
  nlinarith [mul_nonneg h1 h2, mul_nonneg h1 h3, mul_nonneg h2 h3]

/-- Points of nearby reduced latitudes on a meridian. -/
theorem surface_meridian {a b l φ φ' β β' d d' : ℝ} (hb : 0 < b) (hab : b ≤ a) (h : Bessel.Reduced a b φ β) (h' : Bessel.Reduced a b φ' β')
    (hc : |Real.cos β - Real.cos β'| ≤ d) (hs : |Real.sin β - Real.sin β'| ≤ d') :
    ‖surfacePoint a b l φ - surfacePoint a b l φ'‖ ≤ a * (d + d') := by
  have ha : 0 < a := lt_of_lt_of_le hb hab
  have d0 := (abs_nonneg _).trans hc
  have d0' := (abs_nonneg _).trans hs
  rw [Bessel.surfacePoint_reduced h, Bessel.surfacePoint_reduced h', EuclideanSpace.norm_eq]
  refine Real.sqrt_le_iff.2 ⟨by positivity, ?_⟩
  simp [Fin.sum_univ_three]
  have e : (a * Real.cos β * Real.cos l - a * Real.cos β' * Real.cos l) ^ 2 + (a * Real.cos β * Real.sin l - a * Real.cos β' * Real.sin l) ^ 2 +
      (b * Real.sin β - b * Real.sin β') ^ 2 = a ^ 2 * (Real.cos β - Real.cos β') ^ 2 + b ^ 2 * (Real.sin β - Real.sin β') ^ 2 := by
    linear_combination a ^ 2 * (Real.cos β - Real.cos β') ^ 2 * Real.sin_sq_add_cos_sq l
  rw [e]
  have q1 : (Real.cos β - Real.cos β') ^ 2 ≤ d ^ 2 := by rw [← sq_abs]; exact pow_le_pow_left₀ (abs_nonneg _) hc 2
  have q2 : (Real.sin β - Real.sin β') ^ 2 ≤ d' ^ 2 := by rw [← sq_abs]; exact pow_le_pow_left₀ (abs_nonneg _) hs 2
  have q3 : b ^ 2 ≤ a ^ 2 := pow_le_pow_left₀ hb.le hab 2
  have q4 : a ^ 2 * (Real.cos β - Real.cos β') ^ 2 ≤ a ^ 2 * d ^ 2 := mul_le_mul_of_nonneg_left q1 (by positivity)
  have q5 : b ^ 2 * (Real.sin β - Real.sin β') ^ 2 ≤ a ^ 2 * d' ^ 2 := mul_le_mul q3 q2 (by positivity) (by positivity)
  nlinarith [mul_nonneg d0 d0', sq_nonneg a, mul_nonneg (sq_nonneg a) (mul_nonneg d0 d0')]

/-- Points on a parallel. -/
theorem surface_parallel {a b l l' φ β : ℝ} (ha : 0 ≤ a) (h : Bessel.Reduced a b φ β) (hc : 0 ≤ Real.cos β) :
    ‖surfacePoint a b l φ - surfacePoint a b l' φ‖ ≤ a * (Real.cos β * |l - l'|) := by
  rw [Bessel.surfacePoint_reduced h, Bessel.surfacePoint_reduced h, EuclideanSpace.norm_eq]
  refine Real.sqrt_le_iff.2 ⟨by positivity, ?_⟩
  simp [Fin.sum_univ_three]
  have e1 : (a * Real.cos β * Real.cos l - a * Real.cos β * Real.cos l') ^ 2 +
      (a * Real.cos β * Real.sin l - a * Real.cos β * Real.sin l') ^ 2 =
      a ^ 2 * Real.cos β ^ 2 * (4 * Real.sin ((l - l') / 2) ^ 2) := by
    have h1 := Real.cos_sub l l'
    have h2 := Real.cos_sq' ((l - l') / 2)
    have h3 := Real.cos_two_mul ((l - l') / 2)
    rw [show 2 * ((l - l') / 2) = l - l' by ring] at h3
    linear_combination a ^ 2 * Real.cos β ^ 2 * (Real.sin_sq_add_cos_sq l + Real.sin_sq_add_cos_sq l' + 2 * h1
      - 2 * h3 - 4 * h2)
  rw [e1, show (a * (Real.cos β * |l - l'|)) ^ 2 = a ^ 2 * Real.cos β ^ 2 * |l - l'| ^ 2 by ring, sq_abs]
  refine mul_le_mul_of_nonneg_left ?_ (by positivity)
  have k2 : Real.sin ((l - l') / 2) ^ 2 ≤ ((l - l') / 2) ^ 2 := Real.sin_sq_le_sq
  linarith

/-- Directions at nearby latitudes on a meridian. -/
theorem direction_meridian (l φ φ' α α' : ℝ) :
    ‖direction l φ α - direction l φ' α'‖ ≤ |Real.cos α - Real.cos α'| + |Real.sin α - Real.sin α'| + 2 * |φ - φ'| := by
  have e : direction l φ α - direction l φ' α' =
      (Real.cos α - Real.cos α') • !₂[-Real.sin φ * Real.cos l, -Real.sin φ * Real.sin l, Real.cos φ] +
      (Real.sin α - Real.sin α') • !₂[-Real.sin l, Real.cos l, 0] +
      Real.cos α' • !₂[-(Real.sin φ - Real.sin φ') * Real.cos l, -(Real.sin φ - Real.sin φ') * Real.sin l, Real.cos φ - Real.cos φ'] := by
    unfold direction
    ext i
    fin_cases i <;> simp <;> ring
  have n1 : ‖(!₂[-Real.sin φ * Real.cos l, -Real.sin φ * Real.sin l, Real.cos φ] : E3)‖ = 1 := by
    rw [EuclideanSpace.norm_eq, Real.sqrt_eq_one]
    simp [Fin.sum_univ_three]
    linear_combination Real.sin φ ^ 2 * Real.sin_sq_add_cos_sq l + Real.sin_sq_add_cos_sq φ
  have n2 : ‖(!₂[-Real.sin l, Real.cos l, 0] : E3)‖ = 1 := by
    rw [EuclideanSpace.norm_eq, Real.sqrt_eq_one]
    simp [Fin.sum_univ_three]
  have n3 : ‖(!₂[-(Real.sin φ - Real.sin φ') * Real.cos l, -(Real.sin φ - Real.sin φ') * Real.sin l, Real.cos φ - Real.cos φ'] : E3)‖ ≤ 2 * |φ - φ'| := by
    have h1 := abs_sin_sub_le φ φ'
    have h2 := abs_cos_sub_le φ φ'
    rw [EuclideanSpace.norm_eq]
    refine Real.sqrt_le_iff.2 ⟨by positivity, ?_⟩
    simp [Fin.sum_univ_three]
    have q1 : (Real.sin φ - Real.sin φ') ^ 2 ≤ |φ - φ'| ^ 2 := by rw [← sq_abs]; exact pow_le_pow_left₀ (abs_nonneg _) h1 2
    have q2 : (Real.cos φ - Real.cos φ') ^ 2 ≤ |φ - φ'| ^ 2 := by rw [← sq_abs]; exact pow_le_pow_left₀ (abs_nonneg _) h2 2
    have q3 : ((Real.sin φ' - Real.sin φ) * Real.cos l) ^ 2 + ((Real.sin φ' - Real.sin φ) * Real.sin l) ^ 2 = (Real.sin φ - Real.sin φ') ^ 2 := by
      linear_combination (Real.sin φ - Real.sin φ') ^ 2 * Real.sin_sq_add_cos_sq l
    rw [q3, mul_pow]
    nlinarith [sq_nonneg |φ - φ'|]
  rw [e]
  refine (norm_add₃_le).trans ?_
  rw [norm_smul, norm_smul, norm_smul, n1, n2, mul_one, mul_one, Real.norm_eq_abs, Real.norm_eq_abs, Real.norm_eq_abs]
  have := mul_le_mul (Real.abs_cos_le_one α') n3 (norm_nonneg _) zero_le_one
  linarith

end Geo
