import Verif.Lemmas.ShortestPath
import Verif.Lemmas.SurfaceGeodesic
import Verif.Lemmas.SurfacePath

/-! Every geodesic of the ellipsoid is a curve of the field, and so is shortest. -/

namespace Geo.Shortest
open Spec

theorem eq_of_deriv {F G F' : ℝ → ℝ} (hF : ∀ x, HasDerivAt F (F' x) x) (hG : ∀ x, HasDerivAt G (F' x) x) (h : F 0 = G 0)
    (x : ℝ) : F x = G x := by
  have := is_const_of_deriv_eq_zero (f := fun x => F x - G x) (fun x => ((hF x).sub (hG x)).differentiableAt)
    (fun x => by rw [((hF x).fun_sub (hG x)).deriv, sub_self]) x 0
  simp only [h, sub_self] at this
  linarith

theorem D2.slice {g : ℝ × ℝ → ℝ} {g1 g2 x y : ℝ} (h : D2 g g1 g2 (x, y)) : HasDerivAt (fun x => g (x, y)) g1 x :=
  ((show HasFDerivAt _ _ _ from h).comp_hasDerivAt x ((hasDerivAt_id x).prodMk (hasDerivAt_const x y))).congr_deriv (by simp)

theorem node {β : ℝ} (α : ℝ) : ∃ s0 c0 σ₁, s0 = Real.cos β * Real.sin α ∧ Real.cos σ₁ * c0 = Real.cos β * Real.cos α ∧
    Real.sin σ₁ * c0 = Real.sin β ∧ s0 ^ 2 + c0 ^ 2 = 1 := by
  obtain ⟨p1, p2⟩ := polar (Real.cos β * Real.cos α) (Real.sin β)
  refine ⟨_, _, _, rfl, (mul_comm _ _).trans p1, (mul_comm _ _).trans p2, ?_⟩
  rw [Real.sq_sqrt (by positivity)]
  linear_combination Real.cos β ^ 2 * Real.sin_sq_add_cos_sq α + Real.sin_sq_add_cos_sq β

section
variable {a b : ℝ} (hb : 0 < b) (hab : b ≤ a)
include hb hab

/-- The geodesic of the field with the azimuth `α`. -/
theorem field_geodesic {l φ β : ℝ} (α : ℝ) (hβ : 0 < Real.cos β) (hr : Bessel.Reduced a b φ β) :
    ∃ γ, IsGeodesic a b γ ∧ γ 0 = surfacePoint a b l φ ∧ deriv γ 0 = direction l φ α ∧
      ∀ s, ∃ σ, γ s = endF a b l β (σ, α) ∧ s = a * lenF (Bessel.e2 a b) β σ α ∧ (0 ≤ s → 0 ≤ σ ∧ b * σ ≤ s) := by
  have ha := hb.trans_le hab
  have e0 := Bessel.e2_nonneg hb hab
  have e1 := Bessel.e2_lt hb hab
  obtain ⟨s0, c0, σ₁, hs, hc, hn, h1⟩ := node (β := β) α
  have hR : Real.cos β ^ 2 = s0 ^ 2 + c0 ^ 2 * Real.cos σ₁ ^ 2 := by
    rw [hs]
    linear_combination -(Real.cos β ^ 2) * Real.sin_sq_add_cos_sq α - (Real.cos σ₁ * c0 + Real.cos β * Real.cos α) * hc
  obtain ⟨ω, o1, o2⟩ := Bessel.exists_omega h1 hR hβ
  obtain ⟨f, hf, hf0, hγ, hd⟩ := Bessel.geodesic hb hab h1 (l - ω + Bessel.G a b s0 c0 σ₁) σ₁
  have e0' : l - ω + Bessel.G a b s0 c0 σ₁ - Bessel.G a b s0 c0 σ₁ + ω = l := by ring
  have node_x : ∀ σ, Real.cos (σ₁ + σ) * Real.cos ω + s0 * Real.sin (σ₁ + σ) * Real.sin ω = ux β σ α := fun σ => by
    refine mul_left_cancel₀ hβ.ne' ?_
    rw [ux, Real.cos_add, Real.sin_add]
    linear_combination (Real.cos σ₁ * Real.cos σ - Real.sin σ₁ * Real.sin σ) * o1 +
      s0 * (Real.sin σ₁ * Real.cos σ + Real.cos σ₁ * Real.sin σ) * o2 - Real.cos σ * hR - Real.cos σ * Real.cos σ₁ ^ 2 * h1 +
      Real.cos σ * s0 ^ 2 * Real.sin_sq_add_cos_sq σ₁ - Real.sin β * Real.sin σ * hc - Real.cos σ₁ * c0 * Real.sin σ * hn +
      Real.cos σ₁ * Real.sin σ₁ * Real.sin σ * h1
  have node_y : ∀ σ, s0 * Real.sin (σ₁ + σ) * Real.cos ω - Real.cos (σ₁ + σ) * Real.sin ω = uy σ α := fun σ => by
    refine mul_left_cancel₀ hβ.ne' ?_
    rw [uy, Real.cos_add, Real.sin_add]
    linear_combination s0 * (Real.sin σ₁ * Real.cos σ + Real.cos σ₁ * Real.sin σ) * o1 -
      (Real.cos σ₁ * Real.cos σ - Real.sin σ₁ * Real.sin σ) * o2 + s0 * Real.sin σ * Real.sin_sq_add_cos_sq σ₁ + Real.sin σ * hs
  have hz : ∀ σ, c0 * Real.sin (σ₁ + σ) = uz β σ α := fun σ => by
    rw [uz, hh, Real.sin_add]
    linear_combination Real.cos σ * hn + Real.sin σ * hc
  have hw : ∀ σ, Bessel.w a b s0 c0 (σ₁ + σ) = wf (Bessel.e2 a b) (uz β σ α) := fun σ => by
    rw [Bessel.w, wf, ← hz]
    congr 1
    linear_combination -Bessel.e2 a b * h1 - Bessel.e2 a b * c0 ^ 2 * (Real.sin_sq_add_cos_sq (σ₁ + σ))
  have hG : ∀ σ, Bessel.G a b s0 c0 (σ₁ + σ) - Bessel.G a b s0 c0 σ₁ = lamF (Bessel.e2 a b) β σ α := by
    refine eq_of_deriv (F' := fun σ => s0 * Bessel.q a b s0 c0 (σ₁ + σ))
      (fun σ => ((Bessel.G_deriv hb hab h1 (σ₁ + σ)).comp_const_add σ₁ σ).sub_const _) (fun σ => ?_) ?_
    · refine (lamF_d2 β σ α e0 e1).slice.congr_deriv ?_
      rw [Bessel.q, hw, hs, Vf]
    · simp [lamF, I]
  have hT : ∀ σ, Bessel.T a b s0 c0 (σ₁ + σ) - Bessel.T a b s0 c0 σ₁ = a * lenF (Bessel.e2 a b) β σ α := by
    refine eq_of_deriv (F' := fun σ => a * Bessel.w a b s0 c0 (σ₁ + σ))
      (fun σ => ((Bessel.T_deriv hb hab h1 (σ₁ + σ)).comp_const_add σ₁ σ).sub_const _) (fun σ => ?_) ?_
    · refine ((lenF_d2 β σ α e0 e1).slice.const_mul a).congr_deriv ?_
      rw [hw, wf_eq e0 e1]
    · simp [lenF, lamF, I, Q]
  refine ⟨_, hγ, ?_, ?_, fun s => ⟨f s - σ₁, ?_, ?_, ?_⟩⟩
  · simp only [hf0]
    rw [Bessel.pos_eq _ hr o1 o2 (by rw [← hn]; ring), e0']
  · rw [hd, hf0, Bessel.vel_eq hb hab h1 _ hβ hr o1 o2 (by rw [← hn]; ring) hs.symm (by rw [← hc]; ring), e0']
  · have hg := hG (f s - σ₁)
    have hz' := hz (f s - σ₁)
    rw [add_sub_cancel] at hg hz'
    have em : l - ω + Bessel.G a b s0 c0 σ₁ - Bessel.G a b s0 c0 (f s) = l - lamF (Bessel.e2 a b) β (f s - σ₁) α - ω := by
      rw [← hg]; ring
    have eσ : f s = σ₁ + (f s - σ₁) := by ring
    have hA : Real.cos (f s) * Real.cos ω + s0 * Real.sin (f s) * Real.sin ω = ux β (f s - σ₁) α := by
      rw [eσ]; simpa using node_x (f s - σ₁)
    have hB : s0 * Real.sin (f s) * Real.cos ω - Real.cos (f s) * Real.sin ω = uy (f s - σ₁) α := by
      rw [eσ]; simpa using node_y (f s - σ₁)
    simp only [Bessel.pos, em, endF, pxF, pyF]
    rw [mul_assoc b, hz', ← hA, ← hB, Real.cos_sub _ ω, Real.sin_sub _ ω]
    congr 1
    ext i
    fin_cases i
    · show a * _ = a * _; ring
    · show a * _ = a * _; ring
    · rfl
  · have := hT (f s - σ₁)
    rw [add_sub_cancel, hf] at this
    linarith
  · intro h0
    have hm : σ₁ ≤ f s := by
      rw [← (Bessel.T_strictMono hb hab h1).le_iff_le, hf]; linarith
    have := Bessel.T_grow hb hab h1 hm
    rw [hf] at this
    constructor <;> linarith

/-- The geodetic latitude of a reduced latitude. -/
theorem exists_geodetic {β : ℝ} (hβ : 0 < Real.cos β) : ∃ φ, 0 < Real.cos φ ∧ Bessel.Reduced a b φ β := by
  have ha := hb.trans_le hab
  obtain ⟨p1, p2⟩ := polar (b * Real.cos β) (a * Real.sin β)
  set w := Real.sqrt ((b * Real.cos β) ^ 2 + (a * Real.sin β) ^ 2) with hw
  set φ := Complex.arg ⟨b * Real.cos β, a * Real.sin β⟩
  have hw0 : 0 < w := Real.sqrt_pos.2 (by positivity)
  have c1 : Real.cos φ = b * Real.cos β / w := by rw [← p1]; field_simp
  have c2 : Real.sin φ = a * Real.sin β / w := by rw [← p2]; field_simp
  have hs : Real.sqrt (a ^ 2 * Real.cos φ ^ 2 + b ^ 2 * Real.sin φ ^ 2) = a * b / w := by
    rw [c1, c2, ← Real.sqrt_sq (show 0 ≤ a * b / w by positivity)]
    congr 1
    field_simp
    linear_combination Real.sin_sq_add_cos_sq β
  refine ⟨φ, by rw [c1]; positivity, ?_, ?_⟩
  · rw [hs, c1]; field_simp
  · rw [hs, c2]; field_simp

/-- The direction of a geodesic at its start. -/
theorem exists_direction {γ : ℝ → E3} (h : IsGeodesic a b γ) {l φ : ℝ} (h0 : γ 0 = surfacePoint a b l φ) :
    ∃ α, deriv γ 0 = direction l φ α := by
  have ha := hb.trans_le hab
  have hd := fun t i => hasDerivAt_coord (h.differentiable t).hasDerivAt i
  have hs : ∀ t, γ t 0 ^ 2 / a ^ 2 + γ t 1 ^ 2 / a ^ 2 + γ t 2 ^ 2 / b ^ 2 = 1 := fun t => by
    have := h.surface t; unfold OnEllipsoid at this; rw [← this]
  have h1 : γ 0 0 * deriv γ 0 0 / a ^ 2 + γ 0 1 * deriv γ 0 1 / a ^ 2 + γ 0 2 * deriv γ 0 2 / b ^ 2 = 0 := by
    have d := ((((hd 0 0).pow 2).div_const (a ^ 2)).add (((hd 0 1).pow 2).div_const (a ^ 2))).add
      (((hd 0 2).pow 2).div_const (b ^ 2))
    have e : HasDerivAt (fun t => γ t 0 ^ 2 / a ^ 2 + γ t 1 ^ 2 / a ^ 2 + γ t 2 ^ 2 / b ^ 2) 0 0 := by
      rw [funext hs]; exact hasDerivAt_const _ _
    have := d.unique e
    push_cast at this
    linear_combination (1 / 2) * this
  have hn := h.unit_speed 0
  rw [EuclideanSpace.norm_eq, Real.sqrt_eq_one, Fin.sum_univ_three] at hn
  simp only [Real.norm_eq_abs, sq_abs] at hn
  generalize deriv γ 0 = v at h1 hn ⊢
  rw [h0, surfacePoint] at h1
  have hD : 0 < a ^ 2 * Real.cos φ ^ 2 + b ^ 2 * Real.sin φ ^ 2 := by
    have := Real.sin_sq_add_cos_sq φ
    have h2 : b ^ 2 ≤ a ^ 2 := by gcongr
    have h3 := mul_le_mul_of_nonneg_right h2 (sq_nonneg (Real.cos φ))
    have : 0 < b ^ 2 := by positivity
    nlinarith
  have hN : 0 < a ^ 2 / Real.sqrt (a ^ 2 * Real.cos φ ^ 2 + b ^ 2 * Real.sin φ ^ 2) := by
    have := Real.sqrt_pos.2 hD
    positivity
  simp only at h1
  set N := a ^ 2 / Real.sqrt (a ^ 2 * Real.cos φ ^ 2 + b ^ 2 * Real.sin φ ^ 2)
  simp at h1
  have k : Real.cos φ * Real.cos l * v 0 + Real.cos φ * Real.sin l * v 1 + Real.sin φ * v 2 = 0 := by
    refine (mul_eq_zero.1 (?_ : N / a ^ 2 * (_ : ℝ) = 0)).resolve_left (by positivity)
    rw [← h1]; field_simp
  have e1 := Real.sin_sq_add_cos_sq φ
  have e2 := Real.sin_sq_add_cos_sq l
  set x := -Real.sin φ * Real.cos l * v 0 - Real.sin φ * Real.sin l * v 1 + Real.cos φ * v 2 with hx
  set y := -Real.sin l * v 0 + Real.cos l * v 1 with hy
  have v0 : v 0 = x * (-Real.sin φ * Real.cos l) + y * -Real.sin l := by
    linear_combination Real.cos φ * Real.cos l * k - v 0 * e2 - (Real.cos l ^ 2 * v 0 + Real.cos l * Real.sin l * v 1) * e1
  have v1 : v 1 = x * (-Real.sin φ * Real.sin l) + y * Real.cos l := by
    linear_combination Real.cos φ * Real.sin l * k - v 1 * e2 - (Real.cos l * Real.sin l * v 0 + Real.sin l ^ 2 * v 1) * e1
  have v2 : v 2 = x * Real.cos φ := by
    linear_combination Real.sin φ * k - v 2 * e1
  have hxy : x ^ 2 + y ^ 2 = 1 := by
    rw [← hn, v0, v1, v2]
    linear_combination -(x ^ 2 * Real.sin φ ^ 2 + y ^ 2) * e2 - x ^ 2 * e1
  obtain ⟨p1, p2⟩ := polar x y
  rw [hxy, Real.sqrt_one, one_mul] at p1 p2
  refine ⟨Complex.arg ⟨x, y⟩, ?_⟩
  rw [direction, p1, p2]
  ext i
  fin_cases i
  · simp [v0]
  · simp [v1]
  · simp [v2]

end

section
variable {a b : ℝ} (hb : 0 < b) (hab : b ≤ a) (hf : (a - b) / a ≤ 1 / 250)
include hb hab hf

theorem shortest_off {γ : ℝ → E3} (h : IsGeodesic a b γ) {l β s T : ℝ} (hβ : 0 < Real.cos β) (h0 : γ 0 = pt a b l β)
    (s0 : 0 ≤ s) (s1 : s ≤ 3 * b) {c : ℝ → E3} (hc : IsSurfacePath a b (γ 0) (γ s) T c) : s ≤ T := by
  have ha := hb.trans_le hab
  have f0 : 0 ≤ (a - b) / a := div_nonneg (by linarith) ha.le
  obtain ⟨φ, hφ, hr⟩ := exists_geodetic hb hab hβ
  have hp : pt a b l β = surfacePoint a b l φ := (Bessel.surfacePoint_reduced hr).symm
  obtain ⟨α, hα⟩ := exists_direction hb hab h (h0.trans hp)
  obtain ⟨δ, k, k0, k1, k2⟩ := field_geodesic hb hab (l := l) α hβ hr
  obtain rfl := h.unique hb hab k 0 (h0.trans (hp.trans k0.symm)) (hα.trans k1.symm)
  obtain ⟨σ, e1, e2, e3⟩ := k2 s
  obtain ⟨e3, e4⟩ := e3 s0
  by_contra hlt
  have hM : (3.016 : ℝ) < Real.pi := by linarith [Real.pi_gt_d6]
  have hσ : σ ≤ 3.016 := by
    have : b * σ ≤ b * 3 := by linarith
    linarith [le_of_mul_le_mul_left this hb]
  have hsin : 0.125 ≤ Real.sin 3.016 := by
    have key : ∀ x : ℝ, 0.1255 ≤ x → x ≤ 0.13 → 0.125 ≤ Real.sin x := fun x x0 x1 => by
      have := Real.sin_gt_sub_cube (x := x) (by linarith)
      have h3 : x ^ 3 ≤ (0.13 : ℝ) ^ 3 := by gcongr
      norm_num at x0 h3 ⊢
      linarith
    rw [← Real.sin_pi_sub]
    exact key _ (by linarith [Real.pi_gt_d6]) (by linarith [Real.pi_lt_d6])
  have hq : (a - b) / a * (3.016 / Real.sin 3.016) ≤ 1 / 10 := by
    have : 3.016 / Real.sin 3.016 ≤ 3.016 / 0.125 := by gcongr
    have : (a - b) / a * (3.016 / Real.sin 3.016) ≤ 1 / 250 * (3.016 / 0.125) := by gcongr
    norm_num at this ⊢
    linarith
  rw [h0, e1] at hc
  have := path_length hb hab hf hM hq hβ e3 hσ hc (by
    have : T / b ≤ 3 := by rw [div_le_iff₀ hb]; linarith
    linarith)
  linarith

/-- A geodesic is shortest up to the length `3 b`. -/
theorem shortest {γ : ℝ → E3} (h : IsGeodesic a b γ) {s t T : ℝ} (st : s ≤ t) (s1 : t - s ≤ 3 * b)
    {c : ℝ → E3} (hc : IsSurfacePath a b (γ s) (γ t) T c) : t - s ≤ T := by
  -- points that are not poles
  have off : ∀ u, u ≤ t → t - u ≤ 3 * b → (γ u 2) ^ 2 ≠ b ^ 2 → ∀ {U : ℝ} {d : ℝ → E3}, IsSurfacePath a b (γ u) (γ t) U d →
      t - u ≤ U := fun u ut u1 hu U d hd => by
    obtain ⟨L, β, hβ, e⟩ := exists_pt hb hab 0 (h.surface u)
    have hβ' : 0 < Real.cos β := lt_of_le_of_ne hβ fun h0 => hu (by
      have := Real.sin_sq_add_cos_sq β
      rw [← h0] at this
      rw [e]; simp [pt, mul_pow]
      linear_combination b ^ 2 * this)
    exact shortest_off hb hab hf (h.shift u) (s := t - u) hβ' (by simpa using e) (by linarith) u1
      (by simpa only [add_zero, add_sub_cancel] using hd)
  by_cases hs : (γ s 2) ^ 2 = b ^ 2
  swap
  · exact off s st s1 hs hc
  rcases st.eq_or_lt with rfl | hlt
  · rw [sub_self]; exact hc.nonneg
  refine le_of_forall_pos_le_add fun ε hε => ?_
  have hne : ∀ᶠ u in nhdsWithin s (Set.Ioi s), γ u ≠ γ s := by
    have h1 : deriv γ s ≠ 0 := fun h0 => by
      have := h.unit_speed s; rw [h0, norm_zero] at this; exact zero_ne_one this
    exact ((h.differentiable s).hasDerivAt.eventually_ne h1).filter_mono (nhdsWithin_mono s fun x hx => (ne_of_gt hx))
  have hio : Set.Ioo s (min (s + min (ε / 2) b) t) ∈ nhdsWithin s (Set.Ioi s) :=
    Ioo_mem_nhdsGT (lt_min (by linarith [lt_min (half_pos hε) hb]) hlt)
  obtain ⟨u, hu, hi⟩ := (hne.and hio).exists
  have u2 := hi.2.trans_le (min_le_left _ _)
  have u3 := hi.2.trans_le (min_le_right _ _)
  have u4 := min_le_left (ε / 2) b
  have u5 := min_le_right (ε / 2) b
  have hpole : (γ u 2) ^ 2 ≠ b ^ 2 := fun he => by
    have coords : ∀ v, (γ v 2) ^ 2 = b ^ 2 → γ v 0 = 0 ∧ γ v 1 = 0 := fun v hv => by
      have := h.surface v
      unfold OnEllipsoid at this
      rw [hv, div_self (by positivity)] at this
      have h1 : 0 ≤ (γ v 0) ^ 2 / a ^ 2 := by positivity
      have h2 : 0 ≤ (γ v 1) ^ 2 / a ^ 2 := by positivity
      have ha := (hb.trans_le hab).ne'
      constructor
      · have : (γ v 0) ^ 2 / a ^ 2 = 0 := by linarith
        simpa [ha] using this
      · have : (γ v 1) ^ 2 / a ^ 2 = 0 := by linarith
        simpa [ha] using this
    obtain ⟨x1, y1⟩ := coords u he
    obtain ⟨x2, y2⟩ := coords s hs
    have hz : γ u 2 = γ s 2 := by
      rcases sq_eq_sq_iff_eq_or_eq_neg.1 (he.trans hs.symm) with h1 | h1
      · exact h1
      exfalso
      have h2 := (PiLp.norm_apply_le (γ u - γ s) 2).trans (h.chord s u)
      rw [abs_of_pos (by linarith [hi.1]), Real.norm_eq_abs] at h2
      simp only [PiLp.sub_apply, h1] at h2
      obtain ⟨h3, h4⟩ := abs_le.1 h2
      nlinarith
    refine hu ?_
    ext i
    fin_cases i
    · exact x1.trans x2.symm
    · exact y1.trans y2.symm
    · exact hz
  obtain ⟨e, he⟩ := ((h.path hi.1.le).symm).trans hc
  have := off u u3.le (by linarith [hi.1]) hpole he
  linarith

end

end Geo.Shortest
