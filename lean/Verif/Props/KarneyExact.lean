import Verif.Lemmas.Karney
import Verif.Props.DirectExact

/-! # C63, C64, C65, C74: the direct geodesic of the Karney solver, in exact arithmetic -/

namespace Geo
open XR Spec KarneyGeodesicSolver

/-- The latitude from the tangent of the reduced latitude, poles included. -/
theorem lat_of_tan {a b β : ℝ} (hb : 0 < b) (ha : 0 < a) (hc : 0 ≤ Real.cos β) :
    Flt.atan (Flt.tan (fin β) / fin (b / a)) = fin (Complex.arg ⟨b / a * Real.cos β, Real.sin β⟩) := by
  have hba : 0 < b / a := by positivity
  rcases hc.lt_or_eq with h | h
  · rw [tan_fin h.ne', div_fin _ hba.ne', atan_fin]
    congr 1
    set z : ℂ := ⟨b / a * Real.cos β, Real.sin β⟩ with hz
    have hre : 0 < z.re := mul_pos hba h
    have ht : Real.tan z.arg = Real.tan β / (b / a) := by
      rw [Complex.tan_arg, Real.tan_eq_sin_div_cos]
      show Real.sin β / (b / a * Real.cos β) = _
      rw [div_div, mul_comm (b / a)]
    have hlt := Complex.abs_arg_lt_pi_div_two_iff.2 (Or.inl hre)
    rw [← ht, Real.arctan_tan (abs_lt.1 hlt).1 (abs_lt.1 hlt).2]
  · rw [tan_fin_ite, if_pos h.symm, ← h, mul_zero]
    have q := Real.sin_sq_add_cos_sq β
    rw [← h] at q
    have : Real.sin β = 1 ∨ Real.sin β = -1 := by
      have : (Real.sin β - 1) * (Real.sin β + 1) = 0 := by nlinarith
      rcases mul_eq_zero.1 this with h | h
      · exact Or.inl (by linarith)
      · exact Or.inr (by linarith)
    rcases this with e | e
    · rw [e, signInf_pos one_pos, show (pinf / fin (b / a) : XR) = if b / a < 0 then ninf else pinf from rfl,
        if_neg (not_lt.2 hba.le), atan_pinf]
      exact congrArg fin Complex.arg_I.symm
    · rw [e, signInf_neg (by norm_num), show (ninf / fin (b / a) : XR) = if b / a < 0 then pinf else ninf from rfl,
        if_neg (not_lt.2 hba.le), atan_ninf]
      have : (⟨0, -1⟩ : ℂ) = -Complex.I := by apply Complex.ext <;> simp
      rw [this, Complex.arg_neg_I]

/-- The expansion parameter is in `[0, 1)`. -/
theorem epsilon_bounds {k2 : ℝ} (h : 0 ≤ k2) : 0 < Real.sqrt (1 + k2) + 1 ∧
    0 ≤ (Real.sqrt (1 + k2) - 1) / (Real.sqrt (1 + k2) + 1) ∧
    (Real.sqrt (1 + k2) - 1) / (Real.sqrt (1 + k2) + 1) < 1 := by
  have h1 : 1 ≤ Real.sqrt (1 + k2) := Real.one_le_sqrt.2 (by linarith)
  refine ⟨by linarith, div_nonneg (by linarith) (by linarith), ?_⟩
  rw [div_lt_one (by linarith)]
  linarith

theorem karneyA1_pos {ε : ℝ} (h1 : ε < 1) : 0 < karneyA1 ε := by
  unfold karneyA1
  have : 0 < 1 - ε := by linarith
  positivity

/-- **C74**: what the Karney direct solver returns, from any start off the poles: the arc on the auxiliary sphere is
found from the distance with the series (15) and (20) of the paper, the end point and the azimuth are those of the arc
of great circle, and the longitude is reduced by the series (23). -/
theorem C74_karney_direct {a b : ℝ} (hb : 0 < b) (hab : b ≤ a) (n : String) (l φ α s : ℝ) (hc : 0 < Real.cos φ) :
    ∃ β₁ sa k2 ε σ₁ τ₂ : ℝ, (ell n a b).reducedLatitude (latR φ) = ⟨fin β₁⟩ ∧ sa = Real.cos β₁ * Real.sin α ∧
      k2 = (1 - sa ^ 2) * ((a ^ 2 - b ^ 2) / b ^ 2) ∧ ε = (Real.sqrt (1 + k2) - 1) / (Real.sqrt (1 + k2) + 1) ∧
      IsNodeArc β₁ α σ₁ ∧ -Real.pi < σ₁ ∧ σ₁ ≤ Real.pi ∧ b * karneyA1 ε * τ₂ = b * karneyI1 ε σ₁ + s ∧
      ArcOutcome a b n l φ α s (karneySigma ε τ₂ - σ₁)
        ((a - b) / a * sa * (karneyI3 ((a - b) / (a + b)) ε (karneySigma ε τ₂) -
          karneyI3 ((a - b) / (a + b)) ε σ₁))
        ((new (ell n a b)).direct (lonR l, latR φ) (aziR α) (lenR s)) := by
  have ha : 0 < a := lt_of_lt_of_le hb hab
  have hn : (a - b) / (a + b) = nR a b := rfl
  set β := Real.arctan (b / a * Real.tan φ) with hβ
  have hcβ : 0 < Real.cos β := Real.cos_arctan_pos _
  have hred := reducedLatitude_off hb hab n hc
  obtain ⟨α₀, σ₁, ω₁, hT, hs0, hc0, a1, a2, a3, a4, r1, r2⟩ := triangle_P β α hcβ
  have hK : 0 ≤ 1 - (Real.cos β * Real.sin α) ^ 2 := by
    rw [← hs0]; linarith [Real.sin_sq_le_one α₀]
  set k2 := (1 - (Real.cos β * Real.sin α) ^ 2) * ((a ^ 2 - b ^ 2) / b ^ 2) with hk2
  have hk0 : 0 ≤ k2 := mul_nonneg hK (div_nonneg (by nlinarith) (by positivity))
  set ε := (Real.sqrt (1 + k2) - 1) / (Real.sqrt (1 + k2) + 1) with hε
  obtain ⟨t0, -, ε1⟩ := epsilon_bounds hk0
  rw [← hε] at ε1
  have hA := karneyA1_pos ε1
  set τ₂ := (b * karneyI1 ε σ₁ + s) / (b * karneyA1 ε) with hτ
  set σ₂ := karneySigma ε τ₂ with hσ₂
  obtain ⟨α₂, β₂, ω₂, hE, g1, g2, hcβ₂, b1, b2, b3, b4, b5⟩ := triangle_E α₀ σ₂ (by rw [hc0]; exact Real.sqrt_nonneg _)
  have hend := arcEnd_of_triangles hcβ hs0 a1 a2 a3 a4 hcβ₂ b1 b2 b3 b4 b5
  obtain ⟨β', hβ', hcβ', hsβ', p1, p2⟩ := reduced_of_geodetic hb hab n (R := Real.cos β₂) (Z := Real.sin β₂) hcβ₂
    (by rw [add_comm]; exact Real.sin_sq_add_cos_sq β₂) rfl
  have hend' : ArcEnd β α (σ₂ - σ₁) β' (ω₂ - ω₁) α₂ := by
    obtain ⟨c1, c2, c3, c4, c5, c6⟩ := hend
    rw [← hcβ'] at c1 c3 c4 c5 c6
    rw [← hsβ'] at c2
    exact ⟨c1, c2, c3, c4, c5, c6⟩
  refine ⟨β, _, k2, ε, σ₁, τ₂, hred, rfl, hk2, hε, ⟨by rw [← hc0]; exact a1, by rw [← hc0]; exact a2⟩, r1, r2, ?_, β, β',
    ω₂ - ω₁, α₂, _, hred, hβ', p1, p2, g1, g2, hend', ?_⟩
  · rw [hτ, mul_div_cancel₀ _ (by positivity)]
  · have e1 : 1 - (a - b) / a = b / a := by field_simp; ring
    have hk : (ell n a b).ePrimeSq * fin (Real.cos α₀) * fin (Real.cos α₀) = fin k2 := by
      rw [ell_ePrimeSq hb, mul_fin, mul_fin, hk2, hc0]
      congr 1
      rw [mul_assoc, Real.mul_self_sqrt hK, mul_comm]
    have ht : Flt.sqrt (1 + fin k2) = fin (Real.sqrt (1 + k2)) := by rw [one_eq, add_fin, sqrt_fin (by linarith)]
    have hεx : (fin (Real.sqrt (1 + k2)) - 1) / (fin (Real.sqrt (1 + k2)) + 1) = fin ε := by
      rw [one_eq, sub_fin, add_fin, div_fin _ t0.ne']
    have hf1 : (1 : XR) - (ell n a b).f = fin (b / a) := by rw [ell_f hb hab, one_eq, sub_fin, e1]
    have hell : (new (ell n a b)).ellipsoid = ell n a b := rfl
    have hbm : (ell n a b).b = ⟨fin b⟩ := rfl
    have hτx : (ArcLength.mk ((⟨fin b⟩ : Length XR) * fin (karneyI1 ε σ₁) + lenR s)).divLength
        ((⟨fin b⟩ : Length XR) * fin (karneyA1 ε)) = ⟨fin τ₂⟩ := by
      simp only [ArcLength.divLength, Length.mk_mul, Length.mk_add, mul_fin, add_fin, Length.mk_div_mk]
      rw [div_fin _ (mul_pos hA hb).ne', angle_new_rad, hτ, mul_comm b, mul_comm b]
    simp only [direct, hell, hred, ← hβ, hT, Azimuth.sin, Azimuth.cos, Angle.sin, Angle.cos, sin_fin, cos_fin, hk, ht, hεx,
      A1_fin ε1, I1_fin ε1, hbm, hτx, Sigma_fin, ← hσ₂, hE, A3_fin hb hab, I3_fin hb hab]
    simp only [Angle.tan, hf1, lat_of_tan hb ha hcβ₂]
    simp only [ell_f hb hab, mul_fin, angle_new_rad, Angle.mk_sub, sub_fin, Lon.addAngle, lat_new_fin, clampR_id p1 p2, hn,
      hs0]
    congr 3
    show (⟨fin l⟩ + ⟨fin _⟩ : Angle XR) = _
    simp only [Angle.mk_add, add_fin, Angle.mk.injEq, fin.injEq]
    ring

/-- **C65** (Karney): Clairaut's relation. -/
theorem C65_karney {a b : ℝ} (hb : 0 < b) (hab : b ≤ a) (n : String) (l φ α s : ℝ) (hc : 0 < Real.cos φ) :
    ∃ β₁ β₂ α₂ : ℝ, (ell n a b).reducedLatitude (latR φ) = ⟨fin β₁⟩ ∧
      (ell n a b).reducedLatitude ((new (ell n a b)).direct (lonR l, latR φ) (aziR α) (lenR s)).p2.2 = ⟨fin β₂⟩ ∧
      ((new (ell n a b)).direct (lonR l, latR φ) (aziR α) (lenR s)).alpha2 = aziR α₂ ∧
      Real.cos β₁ * Real.sin α = Real.cos β₂ * Real.sin α₂ := by
  obtain ⟨_, _, _, _, _, _, _, _, _, _, _, _, _, _, β₁, β₂, lam, α₂, φ₂, e1, e2, _, _, _, _, he, hg⟩ :=
    C74_karney_direct hb hab n l φ α s hc
  rw [hg]
  exact ⟨β₁, β₂, α₂, e1, e2, rfl, he.clairaut.symm⟩

theorem karney_sphere_outcome {a : ℝ} (ha : 0 < a) (n : String) (l φ α s : ℝ) (hc : 0 < Real.cos φ) :
    ArcOutcome a a n l φ α s (s / a) 0 ((new (ell n a a)).direct (lonR l, latR φ) (aziR α) (lenR s)) := by
  obtain ⟨β₁, sa, k2, ε, σ₁, τ₂, -, -, hk, hε, -, -, -, hτ, ho⟩ := C74_karney_direct ha le_rfl n l φ α s hc
  have hk0 : k2 = 0 := by rw [hk, sub_self, zero_div, mul_zero]
  have hε0 : ε = 0 := by rw [hε, hk0]; simp
  have hA : karneyA1 0 = 1 := by norm_num [karneyA1]
  have hC : ∀ x, sineSum (karneyC1 0) x = 0 := fun x => by
    refine Finset.sum_eq_zero fun k hk => ?_
    have hk' := Finset.mem_range.1 hk
    interval_cases k <;> simp [karneyC1]
  have hC' : ∀ x, sineSum (karneyC1' 0) x = 0 := fun x => by
    refine Finset.sum_eq_zero fun k hk => ?_
    have hk' := Finset.mem_range.1 hk
    interval_cases k <;> simp [karneyC1']
  have hI : ∀ x, karneyI1 0 x = x := fun x => by rw [karneyI1, hA, hC, one_mul, add_zero]
  have hS : ∀ x, karneySigma 0 x = x := fun x => by rw [karneySigma, hC', add_zero]
  rw [hε0, hS, sub_self, zero_div, zero_mul, zero_mul] at ho
  rw [hε0, hA, hI, mul_one] at hτ
  have : τ₂ - σ₁ = s / a := by field_simp; linarith
  rwa [this] at ho

/-- **C64** (Karney direct): on a sphere the end point is on the great circle at the angle `s / a` from the start, and
the azimuth there is the direction of the great circle. -/
theorem C64_karney_direct {a : ℝ} (ha : 0 < a) (n : String) (l φ α s : ℝ) (h1 : -(Real.pi / 2) < φ)
    (h2 : φ < Real.pi / 2) :
    let g := (new (ell n a a)).direct (lonR l, latR φ) (aziR α) (lenR s)
    ∃ l₂ φ₂ α₂, g.p2 = (lonR l₂, latR φ₂) ∧ g.alpha2 = aziR α₂ ∧
      unitAt l₂ φ₂ = Real.cos (s / a) • unitAt l φ + Real.sin (s / a) • tangentAt l φ α ∧
      (Real.cos φ₂ ≠ 0 → tangentAt l₂ φ₂ α₂ = -Real.sin (s / a) • unitAt l φ + Real.cos (s / a) • tangentAt l φ α) :=
  (karney_sphere_outcome ha n l φ α s (Real.cos_pos_of_mem_Ioo ⟨h1, h2⟩)).sphere ha h1.le h2.le

/-- **C63** (Karney, spheres only; on an ellipsoid the truncated series (15) and (20) are not exact inverses of each
other, so that the end point is the start up to the truncation error): a geodesic of length zero ends where it starts,
with the same azimuth. -/
theorem C63_karney_partial {a : ℝ} (ha : 0 < a) (n : String) (l φ α : ℝ) (h1 : -(Real.pi / 2) < φ)
    (h2 : φ < Real.pi / 2) (h3 : -Real.pi < α) (h4 : α ≤ Real.pi) :
    let g := (new (ell n a a)).direct (lonR l, latR φ) (aziR α) (lenR 0)
    ∃ l', SameDirection l' l ∧ g.p2 = (Lon.new ⟨fin l'⟩, latR φ) ∧ g.alpha2 = aziR α ∧
      (-Real.pi < l → l < Real.pi → g.p2.1 = lonR l) := by
  intro g
  have ho := karney_sphere_outcome ha n l φ α 0 (Real.cos_pos_of_mem_Ioo ⟨h1, h2⟩)
  rw [zero_div] at ho
  obtain ⟨⟨l', hl, hp⟩, ha2⟩ := ho.zero ha le_rfl h1 h2 h3 h4
  refine ⟨l', hl, hp, ha2, fun q1 q2 => ?_⟩
  have := remR_id q1.le q2.le
  rw [hp, lon_new_fin, remR_congr' hl.symm (by rw [this]; exact q1) (by rw [this]; exact q2), this]
  rfl

/-- **C73** (Karney): on a sphere the azimuth at an end point off the poles is the direction of the great circle. -/
theorem C73_karney {a : ℝ} (ha : 0 < a) (n : String) (l φ α s : ℝ) (h1 : -(Real.pi / 2) < φ) (h2 : φ < Real.pi / 2) :
    let g := (new (ell n a a)).direct (lonR l, latR φ) (aziR α) (lenR s)
    ∃ l₂ φ₂ α₂, g.p2 = (lonR l₂, latR φ₂) ∧ g.alpha2 = aziR α₂ ∧ (Real.cos φ₂ ≠ 0 →
      tangentAt l₂ φ₂ α₂ = -Real.sin (s / a) • unitAt l φ + Real.cos (s / a) • tangentAt l φ α) := by
  obtain ⟨l₂, φ₂, α₂, k1, k2, -, k3⟩ := C64_karney_direct ha n l φ α s h1 h2
  exact ⟨l₂, φ₂, α₂, k1, k2, k3⟩

/-- The start of C74 and C65 may be in any latitude, such as 45° north. -/
example : (6378137 : ℝ) > 0 ∧ (6356752 : ℝ) ≤ 6378137 ∧ 0 < Real.cos (Real.pi / 4) :=
  ⟨by norm_num, by norm_num, Real.cos_pos_of_mem_Ioo ⟨by linarith [Real.pi_pos], by linarith [Real.pi_pos]⟩⟩

end Geo
