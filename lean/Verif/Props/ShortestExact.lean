import Verif.Lemmas.SurfaceDistance
import Verif.Props.GeodesicSymmetryExact
import Verif.Props.RappInverseExact
import Verif.Props.SolversAgreeExact

/-! # C96: geodesics are shortest, and the distances of the inverse solvers and of 2D geographic CRSs are distances on the
ellipsoid, in exact arithmetic -/

namespace Geo
open XR Spec

/-- **C96**: every geodesic of an ellipsoid with flattening at most 1/250 is the shortest curve on the ellipsoid between
any two of its points that are at most `3 b` apart along it. (On a sphere geodesics stop being shortest at `π b`.) -/
theorem C96_geodesics_shortest {a b : ℝ} (hb : 0 < b) (hab : b ≤ a) (hf : (a - b) / a ≤ 1 / 250) {γ : ℝ → E3}
    (h : IsGeodesic a b γ) {s t : ℝ} (hst : s ≤ t) (h3 : t - s ≤ 3 * b) : IsSurfaceDistance a b (γ s) (γ t) (t - s) :=
  ⟨fun _ ⟨_, hc⟩ => Shortest.shortest hb hab hf h hst h3 hc, fun _ hx => hx ⟨_, h.path hst⟩⟩

/-- The excess of the longitude on the sphere, in units of `f sin α`. -/
theorem excess_le {f K m σ : ℝ} (f0 : 0 ≤ f) (f1 : f ≤ 1 / 250) (k0 : 0 ≤ K) (k1 : K ≤ 1) (s0 : 0 ≤ σ) (hσ : σ ≤ Real.pi) :
    |Bessel.vinL (vincentyC f K) (m + σ) - Bessel.vinL (vincentyC f K) m| ≤ 32 / 10 := by
  have hC0 : 0 ≤ vincentyC f K := by
    unfold vincentyC
    have : 0 ≤ 4 + f * (4 - 3 * K) := by nlinarith
    positivity
  have hC1 : vincentyC f K ≤ 1 / 500 := by
    unfold vincentyC
    have h1 : f / 16 * K ≤ 1 / 4000 := by nlinarith
    have h2 : 4 + f * (4 - 3 * K) ≤ 5 := by nlinarith
    have h3 : 0 ≤ 4 + f * (4 - 3 * K) := by nlinarith
    nlinarith
  set C := vincentyC f K
  have e : Bessel.vinL C (m + σ) - Bessel.vinL C m = (1 - C) * (σ + C / 2 * (Real.sin (2 * (m + σ)) - Real.sin (2 * m)) +
      C ^ 2 / 4 * (Real.sin (4 * (m + σ)) - Real.sin (4 * m))) := by
    unfold Bessel.vinL; ring
  have b1 : |C / 2 * (Real.sin (2 * (m + σ)) - Real.sin (2 * m))| ≤ C := by
    rw [abs_mul, abs_of_nonneg (by positivity)]
    have := abs_le.1 (Real.abs_sin_le_one (2 * (m + σ)))
    have := abs_le.1 (Real.abs_sin_le_one (2 * m))
    have : |Real.sin (2 * (m + σ)) - Real.sin (2 * m)| ≤ 2 := by rw [abs_le]; constructor <;> linarith
    nlinarith
  have b2 : |C ^ 2 / 4 * (Real.sin (4 * (m + σ)) - Real.sin (4 * m))| ≤ C ^ 2 := by
    rw [abs_mul, abs_of_nonneg (by positivity)]
    have := abs_le.1 (Real.abs_sin_le_one (4 * (m + σ)))
    have := abs_le.1 (Real.abs_sin_le_one (4 * m))
    have : |Real.sin (4 * (m + σ)) - Real.sin (4 * m)| ≤ 2 := by rw [abs_le]; constructor <;> linarith
    nlinarith [sq_nonneg C]
  rw [e, abs_mul, abs_of_nonneg (by linarith)]
  refine (mul_le_of_le_one_left (abs_nonneg _) (by linarith)).trans ?_
  refine (abs_add_three _ _ _).trans ?_
  rw [abs_of_nonneg s0]
  have h := Real.pi_lt_d2
  norm_num at h
  have : C ^ 2 ≤ C := by nlinarith
  linarith

/-- The returned length is hardly longer than the arc between the points on the sphere. -/
theorem length_le {a b : ℝ} (hb : 0 < b) (hab : b ≤ a) (hf : (a - b) / a ≤ 1 / 250) (n : String)
    (l₁ φ₁ l₂ φ₂ : ℝ) (hc₁ : 0 < Real.cos φ₁) (hc₂ : 0 ≤ Real.cos φ₂) (g : Geodesic XR)
    (h : VincentyGeodesicSolver.inverse ⟨ell n a b⟩ (lonR l₁, latR φ₁) (lonR l₂, latR φ₂) = .ok g) :
    ∃ s β₁ β₂, g.s = lenR s ∧ (ell n a b).reducedLatitude (latR φ₁) = ⟨fin β₁⟩ ∧
      (ell n a b).reducedLatitude (latR φ₂) = ⟨fin β₂⟩ ∧ s ≤ 1026 / 1000 * (arc β₁ β₂ (l₂ - l₁) + 1 / 75) * b := by
  have ha : 0 < a := lt_of_lt_of_le hb hab
  have f0 : 0 ≤ (a - b) / a := div_nonneg (by linarith) ha.le
  obtain ⟨β₁, β₂, L, l, l', σ, sa, c, e₁, e₂, hL, ht, hl', hlt, hs, -, -⟩ := C62_converged hb hab n l₁ φ₁ l₂ φ₂ g h
  obtain ⟨r₁, b1, b1'⟩ := reduced_of_eq hb hab hc₁.le e₁
  obtain ⟨r₂, b2, b2'⟩ := reduced_of_eq hb hab hc₂ e₂
  have c1 := reduced_cos_pos hb hab r₁ hc₁
  have c2 := Real.cos_nonneg_of_neg_pi_div_two_le_of_le b2 b2'
  obtain ⟨-, -, -, m, -, -, -, hp, h1, hmid, -, -, -⟩ := inverse_outcome hb hab r₁ r₂ c1 c2 ht hL.2.2
  have hσ0 : 0 < σ := lt_of_le_of_ne ht.nonneg fun e => by rw [← e, Real.sin_zero] at hp; exact lt_irrefl _ hp
  have hK : 0 ≤ 1 - sa ^ 2 := by nlinarith [sq_nonneg (Real.sqrt (1 - sa ^ 2))]
  have hsq := Real.sq_sqrt hK
  have hx : (1 - sa ^ 2) * ((a ^ 2 - b ^ 2) / b ^ 2) = Real.sqrt (1 - sa ^ 2) ^ 2 * ((a ^ 2 - b ^ 2) / b ^ 2) := by rw [hsq]
  obtain ⟨x0, x1, -, -⟩ := Bessel.x_facts hb hab h1 hx (hf.trans (by norm_num))
  set u := (1 - sa ^ 2) * ((a ^ 2 - b ^ 2) / b ^ 2) with hu
  set f := (a - b) / a with hfd
  have hlen : vincentyLength a b sa σ c = b * (Bessel.vinF u (m + σ) - Bessel.vinF u m) := by
    by_cases h0 : 1 - sa ^ 2 = 0
    · have hu0 : u = 0 := by rw [hu, h0, zero_mul]
      rw [vincentyLength, ← hu, hu0]
      simp only [Bessel.vinF, Bessel.vinH, vincentyA, vincentyB, vincentyDeltaSigma]
      ring
    · rw [vincentyLength, ← hu, hmid h0]
      simp only [Bessel.delta_eq, Bessel.vinF]
      ring
  have hexc : vincentyExcess f sa σ c = f * sa * (Bessel.vinL (vincentyC f (1 - sa ^ 2)) (m + σ) -
      Bessel.vinL (vincentyC f (1 - sa ^ 2)) m) := by
    by_cases h0 : 1 - sa ^ 2 = 0
    · simp only [vincentyExcess, h0, Bessel.vinL, vincentyC]
      ring
    · rw [hmid h0, Bessel.excess_eq]
  have hsa : |sa| ≤ 1 := by rw [abs_le_one_iff_mul_self_le_one]; nlinarith
  have he := excess_le (m := m) f0 hf hK (by nlinarith [sq_nonneg sa]) hσ0.le ht.le_pi
  have hE : |vincentyExcess f sa σ c| ≤ 128 / 10000 := by
    rw [hexc, abs_mul, abs_mul, abs_of_nonneg f0]
    have : f * |sa| ≤ 1 / 250 := by nlinarith [abs_nonneg sa]
    refine (mul_le_mul this he (abs_nonneg _) (by norm_num)).trans (by norm_num)
  have hσ : σ = arc β₁ β₂ l := by
    rw [arc_eq_arccos, csig, ← ht.cos_arc, Real.arccos_cos ht.nonneg ht.le_pi]
  have h2 := arc_lip β₁ β₂ l L
  rw [arc_congr hL.2.2, ← hσ] at h2
  have h3 : |l - L| ≤ 1 / 75 := by
    have : l - L = -(l' - l) + vincentyExcess f sa σ c := by rw [hl']; ring
    rw [this]
    refine (abs_add_le _ _).trans ?_
    rw [abs_neg]
    norm_num at hlt ⊢
    linarith
  obtain ⟨-, hi⟩ := vin_length_bounds (m := m) x0 x1 hσ0
  refine ⟨_, β₁, β₂, hs, e₁, e₂, ?_⟩
  rw [hlen, mul_comm]
  refine mul_le_mul_of_nonneg_right (hi.trans ?_) hb.le
  linarith
/-- Likewise for the Rapp solver. -/
theorem rapp_length_le {a b : ℝ} (hb : 0 < b) (hab : b ≤ a) (hf : (a - b) / a ≤ 1 / 250) (n : String)
    (l₁ φ₁ l₂ φ₂ β₁ β₂ : ℝ) (hc₁ : 0 < Real.cos φ₁) (hc₂ : 0 ≤ Real.cos φ₂)
    (e₁ : (ell n a b).reducedLatitude (latR φ₁) = ⟨fin β₁⟩) (e₂ : (ell n a b).reducedLatitude (latR φ₂) = ⟨fin β₂⟩)
    (g : Geodesic XR) (h : RappSolver.inverse (RappSolver.new (ell n a b)) (lonR l₁, latR φ₁) (lonR l₂, latR φ₂) = .ok g) :
    ∃ s, g.s = lenR s ∧ s ≤ 1026 / 1000 * (arc β₁ β₂ (l₂ - l₁) + 1 / 60) * b := by
  have ha : 0 < a := lt_of_lt_of_le hb hab
  have f0 : 0 ≤ (a - b) / a := div_nonneg (by linarith) ha.le
  have hf' : (a - b) / a ≤ 1 / 50 := hf.trans (by norm_num)
  obtain ⟨r₁, b1, b1'⟩ := reduced_of_eq hb hab hc₁.le e₁
  obtain ⟨r₂, b2, b2'⟩ := reduced_of_eq hb hab hc₂ e₂
  have c1 := reduced_cos_pos hb hab r₁ hc₁
  have c2 := Real.cos_nonneg_of_neg_pi_div_two_le_of_le b2 b2'
  rw [rapp_inverse_eq n l₁ φ₁ l₂ φ₂ β₁ β₂ e₁ e₂] at h
  obtain ⟨st, hst, hg⟩ := bind_eq_ok.1 h
  obtain ⟨l, hs, hr, hlt⟩ := rappInverseLoop_real hb hab n _ _ _ _ st rfl hst
  have hL := normR_same (l₂ - l₁)
  have ht := auxTriangle β₁ β₂ l 0 hs
  obtain ⟨-, -, -, m, -, -, -, hp, h1, hmid, -, -, -⟩ := inverse_outcome hb hab r₁ r₂ c1 c2 ht hL
  have hσ0 : 0 < arc β₁ β₂ l := lt_of_le_of_ne ht.nonneg fun e => by rw [← e, Real.sin_zero] at hp; exact lt_irrefl _ hp
  have hK : 0 ≤ 1 - salpha β₁ β₂ l ^ 2 := sub_nonneg.2 (salpha_sq_le _ _ _ hs)
  have hsq := Real.sq_sqrt hK
  have hx : (1 - salpha β₁ β₂ l ^ 2) * ((a ^ 2 - b ^ 2) / b ^ 2) =
      Real.sqrt (1 - salpha β₁ β₂ l ^ 2) ^ 2 * ((a ^ 2 - b ^ 2) / b ^ 2) := by rw [hsq]
  obtain ⟨x0, x1, x2, -⟩ := Bessel.x_facts hb hab h1 hx hf'
  obtain ⟨s, hlen, hnear⟩ := rapp_inverse_length (m := m) hb n hr hs x2 fun h0 => by rw [← hmid h0, mid, if_neg h0]
  have hF : ((a - b) / a) ^ 4 ≤ 1 / 1000 := (pow_le_pow_left₀ f0 hf' 4).trans (by norm_num)
  obtain ⟨-, hi⟩ := rapp_length_bounds hb x0 x1 hσ0 hF hnear
  cases hg
  refine ⟨s, hlen, ?_⟩
  obtain ⟨-, -, hr0, -⟩ := rappR_bd f0 hf' hs
  have hE := (exc_bound hs c1.le c2 (fun k k0 k1 => ⟨(rappA0_facts f0 hf' k k0 k1).1, (rappA0_facts f0 hf' k k0 k1).2.1⟩) hr0).1
  have hE' : |rappE ((a - b) / a) β₁ β₂ l| ≤ 16 / 1000 := by
    rw [rappE, abs_mul, abs_of_nonneg f0]
    exact (mul_le_mul hf hE (abs_nonneg _) (by norm_num)).trans (by norm_num)
  have h2 := arc_lip β₁ β₂ l (normR (l₂ - l₁))
  rw [arc_congr hL] at h2
  have h3 : |l - normR (l₂ - l₁)| ≤ 1 / 60 := by
    have : l - normR (l₂ - l₁) = -(normR (l₂ - l₁) + rappE ((a - b) / a) β₁ β₂ l - l) + rappE ((a - b) / a) β₁ β₂ l := by ring
    rw [this]
    refine (abs_add_le _ _).trans ?_
    rw [abs_neg]
    norm_num at hlt ⊢
    linarith
  rw [← div_le_iff₀ hb]
  refine hi.trans ?_
  linarith

section
variable {a b : ℝ} (hb : 0 < b) (hab : b ≤ a) (hf : (a - b) / a ≤ 1 / 250)
include hb hab hf

theorem small_error {k c s : ℝ} (k0 : 0 ≤ k) (k1 : k ≤ 1) (c1 : c ≤ 1e-12) (h3 : s ≤ 3 * b) :
    k * ((a - b) / a) ^ 4 * s + c * a ≤ b / 250 := by
  have ha := hb.trans_le hab
  have f0 : 0 ≤ (a - b) / a := div_nonneg (by linarith) ha.le
  have h1 : ((a - b) / a) ^ 4 ≤ (1 / 250) ^ 4 := by gcongr
  have h2 : k * ((a - b) / a) ^ 4 ≤ (1 / 250) ^ 4 :=
    (mul_le_mul k1 h1 (by positivity) (by norm_num)).trans (by norm_num)
  have h0 : 0 ≤ k * ((a - b) / a) ^ 4 := by positivity
  have h4 : a ≤ 2 * b := by
    rw [div_le_iff₀ ha] at hf
    linarith
  have h5 : k * ((a - b) / a) ^ 4 * s ≤ (1 / 250) ^ 4 * (3 * b) :=
    (mul_le_mul_of_nonneg_left h3 h0).trans (mul_le_mul_of_nonneg_right h2 (by positivity))
  have h6 : c * a ≤ 1e-12 * (2 * b) := (mul_le_mul_of_nonneg_right c1 ha.le).trans (mul_le_mul_of_nonneg_left h4 (by norm_num))
  norm_num at h5 h6 ⊢
  linarith

/-- **C96**: the distance returned by the Vincenty inverse solver, if at most `3 b`, is the distance on the ellipsoid,
up to `0.23 f⁴ s + 1.1e-12 a` (7 micrometres and 3 parts in 10¹¹ on the Earth).  Not both points may be poles. -/
theorem C96_vincenty_distance (n : String) (l₁ φ₁ l₂ φ₂ : ℝ) (hc₁ : 0 ≤ Real.cos φ₁) (hc₂ : 0 ≤ Real.cos φ₂)
    (hp : 0 < Real.cos φ₁ ∨ 0 < Real.cos φ₂) (g : Geodesic XR)
    (h : VincentyGeodesicSolver.inverse ⟨ell n a b⟩ (lonR l₁, latR φ₁) (lonR l₂, latR φ₂) = .ok g) :
    ∃ s, g.s = lenR s ∧ 0 < s ∧ (s ≤ 3 * b → ∃ d, IsSurfaceDistance a b (surfacePoint a b l₁ φ₁) (surfacePoint a b l₂ φ₂) d ∧
      |s - d| ≤ 23 / 100 * ((a - b) / a) ^ 4 * s + 1.1e-12 * a) := by
  wlog hc : 0 < Real.cos φ₁ generalizing l₁ φ₁ l₂ φ₂ g
  · obtain ⟨g', h', e⟩ := C62_symmetric hb hab n l₁ φ₁ l₂ φ₂ g h
    obtain ⟨s, h1, h2, h3⟩ := this l₂ φ₂ l₁ φ₁ hc₂ hc₁ hp.symm g' h' (hp.resolve_left hc)
    exact ⟨s, e ▸ h1, h2, fun k => (h3 k).imp fun d hd => ⟨hd.1.symm, hd.2⟩⟩
  have ha := hb.trans_le hab
  have f0 : 0 ≤ (a - b) / a := div_nonneg (by linarith) ha.le
  obtain ⟨γ, s, α₁, α₂, hγ, g0, rfl, s0, -, -, -, -, w, -⟩ :=
    C80_vincenty_inverse hb hab (hf.trans (by norm_num)) n l₁ φ₁ l₂ φ₂ hc hc₂ g h
  refine ⟨s, rfl, s0, fun h3 => ?_⟩
  obtain ⟨d, hd, k⟩ := Shortest.distance_near hb hab hf hγ s0.le h3 (surfacePoint_on hb hab l₂ φ₂) w
    (small_error hb hab hf (by norm_num) (by norm_num) (by norm_num) h3)
  rw [g0] at hd
  refine ⟨d, hd, k.trans ?_⟩
  have : 0 ≤ ((a - b) / a) ^ 4 * s := by positivity
  norm_num
  linarith

/-- What nearness through space means for the solvers. -/
theorem near_arc (n : String) {l₁ φ₁ l₂ φ₂ : ℝ} (hc₁ : 0 ≤ Real.cos φ₁) (hc₂ : 0 ≤ Real.cos φ₂)
    (hd : surfacePoint a b l₁ φ₁ ≠ surfacePoint a b l₂ φ₂)
    (hn : ‖surfacePoint a b l₁ φ₁ - surfacePoint a b l₂ φ₂‖ ≤ 198 / 100 * b) :
    ∃ β₁ β₂, (ell n a b).reducedLatitude (latR φ₁) = ⟨fin β₁⟩ ∧ (ell n a b).reducedLatitude (latR φ₂) = ⟨fin β₂⟩ ∧
      arc β₁ β₂ (l₂ - l₁) ≤ 29 / 10 ∧ (0 < Real.cos φ₁ ∨ 0 < Real.cos φ₂) ∧
      10 * ((a - b) / a) * 3 ≤ Real.sin 3 ∧
      Real.arccos (Real.sin β₁ * Real.sin β₂ + Real.cos β₁ * Real.cos β₂ * Real.cos (l₂ - l₁)) + 4 * ((a - b) / a) ≤ 3 := by
  have ha := hb.trans_le hab
  have f0 : 0 ≤ (a - b) / a := div_nonneg (by linarith) ha.le
  obtain ⟨β₁, e₁, -⟩ := reducedLatitude_all hb hab n φ₁
  obtain ⟨β₂, e₂, -⟩ := reducedLatitude_all hb hab n φ₂
  obtain ⟨r₁, b1, b1'⟩ := reduced_of_eq hb hab hc₁ e₁
  obtain ⟨r₂, b2, b2'⟩ := reduced_of_eq hb hab hc₂ e₂
  have hchord : ‖Shortest.sph l₁ β₁ - Shortest.sph l₂ β₂‖ ≤ 198 / 100 := by
    have := Shortest.sph_le_pt hb hab l₁ l₂ β₁ β₂
    rw [Shortest.pt, Shortest.pt, ← Bessel.surfacePoint_reduced r₁, ← Bessel.surfacePoint_reduced r₂] at this
    have := this.trans hn
    rw [mul_comm] at this
    exact le_of_mul_le_mul_right this hb
  have hcos : -(9604 / 10000) ≤ Real.cos (arc β₁ β₂ (l₂ - l₁)) := by
    have h := Shortest.sph_chord l₁ l₂ β₁ β₂
    have := pow_le_pow_left₀ (norm_nonneg _) hchord 2
    rw [h] at this
    norm_num at this ⊢
    linarith
  have harc : arc β₁ β₂ (l₂ - l₁) ≤ 29 / 10 := by
    by_contra hlt
    have h1 := Real.cos_lt_cos_of_nonneg_of_le_pi (by norm_num) (arc_le_pi β₁ β₂ (l₂ - l₁)) (not_le.1 hlt)
    have h2 := Real.one_sub_sq_div_two_le_cos (x := Real.pi - 29 / 10)
    rw [Real.cos_pi_sub] at h2
    have h3 := Real.pi_lt_d2
    have h4 := Real.pi_gt_three
    norm_num at h3
    nlinarith
  have hp : 0 < Real.cos φ₁ ∨ 0 < Real.cos φ₂ := by
    by_contra hne
    rw [not_or, not_lt, not_lt] at hne
    have pole : ∀ φ β : ℝ, 0 ≤ Real.cos φ → Real.cos φ ≤ 0 → Bessel.Reduced a b φ β → Real.cos β = 0 := fun φ β h h' r => by
      have := r.1
      rw [le_antisymm h' h, mul_zero] at this
      exact (mul_eq_zero.1 this.symm).resolve_left ha.ne'
    have z₁ := pole _ _ hc₁ hne.1 r₁
    have z₂ := pole _ _ hc₂ hne.2 r₂
    have h0 := (arc_nonneg β₁ β₂ (l₂ - l₁)).lt_of_ne' (arc_ne_of_surface r₁ r₂ hd)
    have hs := Real.sin_pos_of_pos_of_lt_pi h0 (harc.trans_lt (by linarith [Real.pi_gt_three]))
    have hq : Real.sin (arc β₁ β₂ (l₂ - l₁)) ^ 2 = 0 := by
      rw [Real.sin_sq, cos_arc, csig, z₁, z₂]
      have q₁ := Real.sin_sq_add_cos_sq β₁
      have q₂ := Real.sin_sq_add_cos_sq β₂
      rw [z₁] at q₁
      rw [z₂] at q₂
      linear_combination -Real.sin β₂ ^ 2 * q₁ - q₂
    exact (pow_pos hs 2).ne' hq
  have h3 : (141 / 1000 : ℝ) ≤ Real.sin 3 := by
    have hp := Real.pi_gt_d4
    have hp' := Real.pi_lt_d4
    have := Real.sin_gt_sub_cube (x := Real.pi - 3) (by linarith)
    rw [Real.sin_pi_sub] at this
    have h2 : (Real.pi - 3) ^ 3 ≤ (1416 / 10000) ^ 3 := pow_le_pow_left₀ (by linarith) (by linarith) 3
    norm_num at h2 hp hp' ⊢
    linarith
  refine ⟨β₁, β₂, e₁, e₂, harc, hp, by linarith, ?_⟩
  change Real.arccos (csig β₁ β₂ (l₂ - l₁)) + _ ≤ _
  rw [← arc_eq_arccos]
  linarith

/-- **C96**: for every two distinct points whose distance through space is at most `1.98 b` (163° on a sphere) the
Vincenty inverse solver returns the distance on the ellipsoid, up to `0.23 f⁴ s + 1.1e-12 a`. -/
theorem C96_vincenty_all (n : String) (l₁ φ₁ l₂ φ₂ : ℝ) (hc₁ : 0 ≤ Real.cos φ₁) (hc₂ : 0 ≤ Real.cos φ₂)
    (hd : surfacePoint a b l₁ φ₁ ≠ surfacePoint a b l₂ φ₂)
    (hn : ‖surfacePoint a b l₁ φ₁ - surfacePoint a b l₂ φ₂‖ ≤ 198 / 100 * b) :
    ∃ g s d, VincentyGeodesicSolver.inverse ⟨ell n a b⟩ (lonR l₁, latR φ₁) (lonR l₂, latR φ₂) = .ok g ∧ g.s = lenR s ∧
      0 < s ∧ s ≤ 3 * b ∧ IsSurfaceDistance a b (surfacePoint a b l₁ φ₁) (surfacePoint a b l₂ φ₂) d ∧
      |s - d| ≤ 23 / 100 * ((a - b) / a) ^ 4 * s + 1.1e-12 * a := by
  obtain ⟨β₁, β₂, e₁, e₂, harc, hp, h3, h4⟩ := near_arc hb hab hf n hc₁ hc₂ hd hn
  obtain ⟨g, hg⟩ := C80_vincenty_returns hb hab (hf.trans (by norm_num)) n l₁ φ₁ l₂ φ₂ β₁ β₂ 3 hc₁ hc₂ e₁ e₂ hd
    Real.pi_gt_three h3 h4
  obtain ⟨s, h1, s0, h2⟩ := C96_vincenty_distance hb hab hf n l₁ φ₁ l₂ φ₂ hc₁ hc₂ hp g hg
  have hs : s ≤ 3 * b := by
    rcases hp with hp | hp
    · obtain ⟨s', β₁', β₂', k1, k2, k3, k4⟩ := length_le hb hab hf n l₁ φ₁ l₂ φ₂ hp hc₂ g hg
      rw [e₁] at k2
      rw [e₂] at k3
      rw [h1] at k1
      cases k1; cases k2; cases k3
      exact k4.trans (mul_le_mul_of_nonneg_right (by linarith) hb.le)
    · obtain ⟨g', hg', e⟩ := C62_symmetric hb hab n l₁ φ₁ l₂ φ₂ g hg
      obtain ⟨s', β₂', β₁', k1, k2, k3, k4⟩ := length_le hb hab hf n l₂ φ₂ l₁ φ₁ hp hc₁ g' hg'
      rw [e₂] at k2
      rw [e₁] at k3
      rw [e, h1] at k1
      cases k1; cases k2; cases k3
      have : arc β₂ β₁ (l₁ - l₂) = arc β₁ β₂ (l₂ - l₁) := by
        rw [arc_eq_arccos, arc_eq_arccos, csig, csig, ← neg_sub l₂ l₁, Real.cos_neg]
        ring_nf
      rw [this] at k4
      exact k4.trans (mul_le_mul_of_nonneg_right (by linarith) hb.le)
  obtain ⟨d, k1, k2⟩ := h2 hs
  exact ⟨g, s, d, hg, h1, s0, hs, k1, k2⟩

/-- **C96**: likewise for the Rapp inverse solver, up to `0.15 f⁴ s + 1e-14 a`. -/
theorem C96_rapp_distance (n : String) (l₁ φ₁ l₂ φ₂ : ℝ) (hc₁ : 0 < Real.cos φ₁) (hc₂ : 0 ≤ Real.cos φ₂) (g : Geodesic XR)
    (h : RappSolver.inverse (RappSolver.new (ell n a b)) (lonR l₁, latR φ₁) (lonR l₂, latR φ₂) = .ok g) :
    ∃ s, g.s = lenR s ∧ 0 < s ∧ (s ≤ 3 * b → ∃ d, IsSurfaceDistance a b (surfacePoint a b l₁ φ₁) (surfacePoint a b l₂ φ₂) d ∧
      |s - d| ≤ 15 / 100 * ((a - b) / a) ^ 4 * s + 1e-14 * a) := by
  have ha := hb.trans_le hab
  have f0 : 0 ≤ (a - b) / a := div_nonneg (by linarith) ha.le
  obtain ⟨γ, s, hγ, g0, e, s0, w⟩ :=
    C82_rapp_distance hb hab (hf.trans (by norm_num)) n l₁ φ₁ l₂ φ₂ hc₁ hc₂ g h
  refine ⟨s, e, s0, fun h3 => ?_⟩
  obtain ⟨d, hd, k⟩ := Shortest.distance_near hb hab hf hγ s0.le h3 (surfacePoint_on hb hab l₂ φ₂) w
    (small_error hb hab hf (by norm_num) (by norm_num) (by norm_num) h3)
  rw [g0] at hd
  refine ⟨d, hd, k.trans ?_⟩
  have : 0 ≤ ((a - b) / a) ^ 4 * s := by positivity
  norm_num
  linarith

/-- **C96**: and returns it for every two distinct points, not both poles, whose distance through space is at most
`1.98 b`. -/
theorem C96_rapp_all (n : String) (l₁ φ₁ l₂ φ₂ : ℝ) (hc₁ : 0 < Real.cos φ₁) (hc₂ : 0 ≤ Real.cos φ₂)
    (hd : surfacePoint a b l₁ φ₁ ≠ surfacePoint a b l₂ φ₂)
    (hn : ‖surfacePoint a b l₁ φ₁ - surfacePoint a b l₂ φ₂‖ ≤ 198 / 100 * b) :
    ∃ g s d, RappSolver.inverse (RappSolver.new (ell n a b)) (lonR l₁, latR φ₁) (lonR l₂, latR φ₂) = .ok g ∧ g.s = lenR s ∧
      0 < s ∧ s ≤ 3 * b ∧ IsSurfaceDistance a b (surfacePoint a b l₁ φ₁) (surfacePoint a b l₂ φ₂) d ∧
      |s - d| ≤ 15 / 100 * ((a - b) / a) ^ 4 * s + 1e-14 * a := by
  obtain ⟨β₁, β₂, e₁, e₂, harc, -, h3, h4⟩ := near_arc hb hab hf n hc₁.le hc₂ hd hn
  obtain ⟨g, hg⟩ := C82_rapp_returns hb hab (hf.trans (by norm_num)) n l₁ φ₁ l₂ φ₂ β₁ β₂ 3 hc₁.le hc₂ e₁ e₂ hd
    Real.pi_gt_three h3 h4
  obtain ⟨s, h1, s0, h2⟩ := C96_rapp_distance hb hab hf n l₁ φ₁ l₂ φ₂ hc₁ hc₂ g hg
  obtain ⟨s', k1, k4⟩ := rapp_length_le hb hab hf n l₁ φ₁ l₂ φ₂ β₁ β₂ hc₁ hc₂ e₁ e₂ g hg
  rw [h1] at k1
  cases k1
  have hs : s ≤ 3 * b := k4.trans (mul_le_mul_of_nonneg_right (by linarith) hb.le)
  obtain ⟨d, k1, k2⟩ := h2 hs
  exact ⟨g, s, d, hg, h1, s0, hs, k1, k2⟩

/-- **C96**: so the two inverse solvers return the same distance. -/
theorem C96_inverse_agree (n : String) (l₁ φ₁ l₂ φ₂ : ℝ) (hc₁ : 0 < Real.cos φ₁) (hc₂ : 0 ≤ Real.cos φ₂)
    (hd : surfacePoint a b l₁ φ₁ ≠ surfacePoint a b l₂ φ₂)
    (hn : ‖surfacePoint a b l₁ φ₁ - surfacePoint a b l₂ φ₂‖ ≤ 198 / 100 * b) :
    ∃ g g' s s', VincentyGeodesicSolver.inverse ⟨ell n a b⟩ (lonR l₁, latR φ₁) (lonR l₂, latR φ₂) = .ok g ∧
      RappSolver.inverse (RappSolver.new (ell n a b)) (lonR l₁, latR φ₁) (lonR l₂, latR φ₂) = .ok g' ∧
      g.s = lenR s ∧ g'.s = lenR s' ∧
      |s - s'| ≤ ((a - b) / a) ^ 4 * (23 / 100 * s + 15 / 100 * s') + 1.2e-12 * a := by
  obtain ⟨g, s, d, h, h1, -, -, d1, d2⟩ := C96_vincenty_all hb hab hf n l₁ φ₁ l₂ φ₂ hc₁.le hc₂ hd hn
  obtain ⟨g', s', d', h', h1', -, -, d1', d2'⟩ := C96_rapp_all hb hab hf n l₁ φ₁ l₂ φ₂ hc₁ hc₂ hd hn
  refine ⟨g, g', s, s', h, h', h1, h1', ?_⟩
  obtain rfl := IsGLB.unique d1 d1'
  have := abs_sub_le s d s'
  rw [abs_sub_comm d s'] at this
  have ha := hb.trans_le hab
  norm_num at d2 d2' ⊢
  linarith

/-- **C96**: the end of the line that the Vincenty direct solver returns for a distance `s` between 0 and `3 b` is at
that distance from the start, on the ellipsoid. -/
theorem C96_vincenty_direct (n : String) (l φ α s : ℝ) (hc : 0 < Real.cos φ) (s0 : 0 ≤ s) (h3 : s ≤ 3 * b) :
    ∃ l₂ φ₂ α₂ d : ℝ, VincentyGeodesicSolver.direct ⟨ell n a b⟩ (lonR l, latR φ) (aziR α) (lenR s) =
        .ok ⟨(lonR l, latR φ), aziR α, (lonR l₂, latR φ₂), aziR α₂, lenR s⟩ ∧
      IsSurfaceDistance a b (surfacePoint a b l φ) (surfacePoint a b l₂ φ₂) d ∧
      |s - d| ≤ ((a - b) / a) ^ 4 * (23 / 100 * s + a / 390) + 1.1e-12 * ((a - b) / a) * a := by
  have ha := hb.trans_le hab
  have f0 : 0 ≤ (a - b) / a := div_nonneg (by linarith) ha.le
  obtain ⟨g, hg, γ, l₂, φ₂, α₂, hγ, g0, -, rfl, -, -, -, -, -, -, w, -⟩ :=
    C79_vincenty_direct hb hab (hf.trans (by norm_num)) n l φ α s hc
  rw [norm_sub_rev, abs_of_nonneg s0] at w
  obtain ⟨d, hd, k⟩ := Shortest.distance_near hb hab hf hγ s0 h3 (surfacePoint_on hb hab l₂ φ₂) w (by
    have h1 : ((a - b) / a) ^ 4 ≤ (1 / 250) ^ 4 := by gcongr
    have h4 : a ≤ 2 * b := by
      rw [div_le_iff₀ ha] at hf
      linarith
    have h5 := mul_le_mul h1 (show 22 / 100 * s + a / 400 ≤ b by linarith) (by positivity) (by norm_num)
    have h6 := mul_le_mul hf h4 ha.le (by norm_num)
    norm_num at h5 h6 ⊢
    linarith)
  rw [g0] at hd
  refine ⟨l₂, φ₂, α₂, d, hg, hd, k.trans ?_⟩
  have : 0 ≤ ((a - b) / a) ^ 4 * s := by positivity
  have : 0 ≤ ((a - b) / a) ^ 4 * a := by positivity
  have : 0 ≤ (a - b) / a * a := by positivity
  norm_num
  linarith

/-- **C96**: likewise for Karney's direct solver. -/
theorem C96_karney_direct (n : String) (l φ α s : ℝ) (hc : 0 < Real.cos φ) (s0 : 0 ≤ s) (h3 : s ≤ 3 * b) :
    ∃ l₂ φ₂ α₂ d : ℝ,
      ((KarneyGeodesicSolver.new (ell n a b)).direct (lonR l, latR φ) (aziR α) (lenR s)).p2 = (lonR l₂, latR φ₂) ∧
      ((KarneyGeodesicSolver.new (ell n a b)).direct (lonR l, latR φ) (aziR α) (lenR s)).alpha2 = aziR α₂ ∧
      IsSurfaceDistance a b (surfacePoint a b l φ) (surfacePoint a b l₂ φ₂) d ∧
      |s - d| ≤ ((a - b) / (a + b)) ^ 7 * (6 * a + 15 * s) := by
  have ha := hb.trans_le hab
  have f0 : 0 ≤ (a - b) / (a + b) := div_nonneg (by linarith) (by positivity)
  obtain ⟨γ, l₂, φ₂, α₂, hγ, g0, -, p, q, -, -, -, -, -, -, w, -⟩ :=
    C78_karney_direct hb hab (third_le hb hab (hf.trans (by norm_num))) n l φ α s hc
  rw [norm_sub_rev, abs_of_nonneg s0] at w
  obtain ⟨d, hd, k⟩ := Shortest.distance_near hb hab hf hγ s0 h3 (surfacePoint_on hb hab l₂ φ₂) w (by
    have h1 : ((a - b) / (a + b)) ^ 7 ≤ (1 / 100) ^ 7 :=
      pow_le_pow_left₀ f0 (third_le hb hab (hf.trans (by norm_num))) 7
    have h4 : a ≤ 2 * b := by
      rw [div_le_iff₀ ha] at hf
      linarith
    have h5 := mul_le_mul h1 (show 5 * a + 14 * s ≤ 52 * b by linarith) (by positivity) (by norm_num)
    norm_num at h5 ⊢
    linarith)
  rw [g0] at hd
  refine ⟨l₂, φ₂, α₂, d, p, q, hd, k.trans ?_⟩
  have : 0 ≤ ((a - b) / (a + b)) ^ 7 * s := by positivity
  have : 0 ≤ ((a - b) / (a + b)) ^ 7 * a := by positivity
  norm_num
  linarith

/-- **C96**: the distance that a 2D geographic CRS returns for two positions is the distance on the ellipsoid, as its
documentation says, when it is at most `3 b`. -/
theorem C96_crs_dist (id n pn : String) (l0 : ℝ) (s : GeodeticSystem) (hv : s.Valid) (h2 : ¬ s.Is3D) (crs : GeographicCrs XR)
    (hax : crs.axes = s.axes) (hdat : crs.datum = dat id n pn a b l0) (c d : List ℝ) (hc : s.Fits c) (hd : s.Fits d)
    (hc₁ : |s.latOf c| ≤ Real.pi / 2) (hc₂ : |s.latOf d| ≤ Real.pi / 2)
    (hp : |s.latOf c| < Real.pi / 2 ∨ |s.latOf d| < Real.pi / 2) (r : Length XR)
    (h : crs.toCrs.dist (c.map fin) (d.map fin) = .ok r) :
    ∃ x, r = lenR x ∧ 0 < x ∧ (x ≤ 3 * b → ∃ D, IsSurfaceDistance a b (surfacePoint a b (s.lonOf c) (s.latOf c))
      (surfacePoint a b (s.lonOf d) (s.latOf d)) D ∧ |x - D| ≤ 23 / 100 * ((a - b) / a) ^ 4 * x + 1.1e-12 * a) := by
  rw [geographic_2d_dist id n pn l0 s hv h2 crs hax hdat c d hc hd] at h
  obtain ⟨g, hg, e⟩ := bind_eq_ok.1 h
  cases e
  obtain ⟨c1, c1'⟩ := abs_le.1 hc₁
  obtain ⟨c2, c2'⟩ := abs_le.1 hc₂
  rw [clampR_id c1 c1', clampR_id c2 c2'] at hg
  obtain ⟨x, h1, h2, h3⟩ := C96_vincenty_distance hb hab hf n _ _ _ _ (Real.cos_nonneg_of_neg_pi_div_two_le_of_le c1 c1')
    (Real.cos_nonneg_of_neg_pi_div_two_le_of_le c2 c2')
    (hp.imp (fun k => Real.cos_pos_of_mem_Ioo (abs_lt.1 k)) fun k => Real.cos_pos_of_mem_Ioo (abs_lt.1 k)) g hg
  refine ⟨x, h1, h2, fun k => ?_⟩
  have e : ∀ l φ, surfacePoint a b (remR l) φ = surfacePoint a b l φ := fun l φ => by
    simp only [surfacePoint, (remR_same l).cos, (remR_same l).sin]
  rw [← e (s.lonOf c), ← e (s.lonOf d)]
  exact h3 k

/-- **C96**: for every two distinct positions whose distance through space is at most `1.98 b` a 2D geographic CRS
returns their distance on the ellipsoid. -/
theorem C96_crs_all (id n pn : String) (l0 : ℝ) (s : GeodeticSystem) (hv : s.Valid) (h2 : ¬ s.Is3D) (crs : GeographicCrs XR)
    (hax : crs.axes = s.axes) (hdat : crs.datum = dat id n pn a b l0) (c d : List ℝ) (hc : s.Fits c) (hd : s.Fits d)
    (hc₁ : |s.latOf c| ≤ Real.pi / 2) (hc₂ : |s.latOf d| ≤ Real.pi / 2)
    (hne : surfacePoint a b (s.lonOf c) (s.latOf c) ≠ surfacePoint a b (s.lonOf d) (s.latOf d))
    (hn : ‖surfacePoint a b (s.lonOf c) (s.latOf c) - surfacePoint a b (s.lonOf d) (s.latOf d)‖ ≤ 198 / 100 * b) :
    ∃ x D, crs.toCrs.dist (c.map fin) (d.map fin) = .ok (lenR x) ∧
      IsSurfaceDistance a b (surfacePoint a b (s.lonOf c) (s.latOf c)) (surfacePoint a b (s.lonOf d) (s.latOf d)) D ∧
      |x - D| ≤ 23 / 100 * ((a - b) / a) ^ 4 * x + 1.1e-12 * a := by
  obtain ⟨c1, c1'⟩ := abs_le.1 hc₁
  obtain ⟨c2, c2'⟩ := abs_le.1 hc₂
  have e : ∀ l φ, surfacePoint a b (remR l) φ = surfacePoint a b l φ := fun l φ => by
    simp only [surfacePoint, (remR_same l).cos, (remR_same l).sin]
  rw [← e (s.lonOf c), ← e (s.lonOf d)] at hne hn ⊢
  obtain ⟨g, x, D, k1, k2, -, -, k3, k4⟩ := C96_vincenty_all hb hab hf n _ _ _ _
    (Real.cos_nonneg_of_neg_pi_div_two_le_of_le c1 c1') (Real.cos_nonneg_of_neg_pi_div_two_le_of_le c2 c2') hne hn
  refine ⟨x, D, ?_, k3, k4⟩
  rw [geographic_2d_dist id n pn l0 s hv h2 crs hax hdat c d hc hd, clampR_id c1 c1', clampR_id c2 c2']
  exact bind_eq_ok.2 ⟨g, k1, congrArg Except.ok k2⟩

/-- **C96**: the triangle inequality for the distances that a 2D geographic CRS returns. -/
theorem C96_crs_triangle (id n pn : String) (l0 : ℝ) (s : GeodeticSystem) (hv : s.Valid) (h2 : ¬ s.Is3D)
    (crs : GeographicCrs XR) (hax : crs.axes = s.axes) (hdat : crs.datum = dat id n pn a b l0) (c : Fin 3 → List ℝ)
    (hc : ∀ i, s.Fits (c i)) (hl : ∀ i, |s.latOf (c i)| ≤ Real.pi / 2)
    (hne : ∀ i j, i ≠ j → surfacePoint a b (s.lonOf (c i)) (s.latOf (c i)) ≠ surfacePoint a b (s.lonOf (c j)) (s.latOf (c j)))
    (hn : ∀ i j, ‖surfacePoint a b (s.lonOf (c i)) (s.latOf (c i)) -
      surfacePoint a b (s.lonOf (c j)) (s.latOf (c j))‖ ≤ 198 / 100 * b) :
    ∃ x y z, crs.toCrs.dist ((c 0).map fin) ((c 1).map fin) = .ok (lenR x) ∧
      crs.toCrs.dist ((c 1).map fin) ((c 2).map fin) = .ok (lenR y) ∧
      crs.toCrs.dist ((c 0).map fin) ((c 2).map fin) = .ok (lenR z) ∧
      z ≤ x + y + (23 / 100 * ((a - b) / a) ^ 4 * (x + y + z) + 3.3e-12 * a) := by
  have key := fun i j hij => C96_crs_all hb hab hf id n pn l0 s hv h2 crs hax hdat (c i) (c j) (hc i) (hc j) (hl i) (hl j)
    (hne i j hij) (hn i j)
  obtain ⟨x, D1, k1, a1, b1⟩ := key 0 1 (by decide)
  obtain ⟨y, D2, k2, a2, b2⟩ := key 1 2 (by decide)
  obtain ⟨z, D3, k3, a3, b3⟩ := key 0 2 (by decide)
  refine ⟨x, y, z, k1, k2, k3, ?_⟩
  have := a1.triangle a2 a3
  have := (abs_le.1 b1).1
  have := (abs_le.1 b2).1
  have := (abs_le.1 b3).2
  norm_num at *
  linarith

/-- Two points of the northern hemisphere at most 90° of longitude apart are near enough. -/
theorem near_of_north {l₁ φ₁ l₂ φ₂ : ℝ} (hc₁ : 0 ≤ Real.cos φ₁) (hc₂ : 0 ≤ Real.cos φ₂) (hs₁ : 0 ≤ Real.sin φ₁)
    (hs₂ : 0 ≤ Real.sin φ₂) (hl : 0 ≤ Real.cos (l₁ - l₂)) :
    ‖surfacePoint a b l₁ φ₁ - surfacePoint a b l₂ φ₂‖ ≤ 198 / 100 * b := by
  have ha := hb.trans_le hab
  obtain ⟨β₁, e₁, -⟩ := reducedLatitude_all hb hab "" φ₁
  obtain ⟨β₂, e₂, -⟩ := reducedLatitude_all hb hab "" φ₂
  obtain ⟨r₁, b1, b1'⟩ := reduced_of_eq hb hab hc₁ e₁
  obtain ⟨r₂, b2, b2'⟩ := reduced_of_eq hb hab hc₂ e₂
  have c1 := Real.cos_nonneg_of_neg_pi_div_two_le_of_le b1 b1'
  have c2 := Real.cos_nonneg_of_neg_pi_div_two_le_of_le b2 b2'
  have s1 : 0 ≤ b * Real.sin β₁ := by rw [← r₁.2]; positivity
  have s2 : 0 ≤ b * Real.sin β₂ := by rw [← r₂.2]; positivity
  rw [Bessel.surfacePoint_reduced r₁, Bessel.surfacePoint_reduced r₂]
  refine Shortest.norm_le_of_sq (by positivity) ?_
  rw [Shortest.vec_dist]
  have h4 : a ≤ 14 / 10 * b := by
    rw [div_le_iff₀ ha] at hf
    linarith
  have h5 : a ^ 2 ≤ (14 / 10 * b) ^ 2 := by gcongr
  have h6 : b ^ 2 ≤ a ^ 2 := by gcongr
  rw [Real.cos_sub] at hl
  have p := mul_nonneg (mul_nonneg (mul_nonneg c1 c2) hl) (sq_nonneg a)
  have q := mul_nonneg s1 s2
  have w1 := mul_le_mul_of_nonneg_right h6 (sq_nonneg (Real.sin β₁))
  have w2 := mul_le_mul_of_nonneg_right h6 (sq_nonneg (Real.sin β₂))
  have t1 := Real.sin_sq_add_cos_sq l₁
  have t2 := Real.sin_sq_add_cos_sq l₂
  have u1 := Real.sin_sq_add_cos_sq β₁
  have u2 := Real.sin_sq_add_cos_sq β₂
  have E : (a * Real.cos β₁ * Real.cos l₁ - a * Real.cos β₂ * Real.cos l₂) ^ 2 +
      (a * Real.cos β₁ * Real.sin l₁ - a * Real.cos β₂ * Real.sin l₂) ^ 2 + (b * Real.sin β₁ - b * Real.sin β₂) ^ 2 =
      2 * a ^ 2 - 2 * (Real.cos β₁ * Real.cos β₂ * (Real.cos l₁ * Real.cos l₂ + Real.sin l₁ * Real.sin l₂) * a ^ 2) -
      2 * (b * Real.sin β₁ * (b * Real.sin β₂)) - (a ^ 2 * Real.sin β₁ ^ 2 - b ^ 2 * Real.sin β₁ ^ 2) -
      (a ^ 2 * Real.sin β₂ ^ 2 - b ^ 2 * Real.sin β₂ ^ 2) := by
    linear_combination a ^ 2 * Real.cos β₁ ^ 2 * t1 + a ^ 2 * Real.cos β₂ ^ 2 * t2 + a ^ 2 * u1 + a ^ 2 * u2
  rw [E]
  nlinarith

omit hf in
/-- Points at longitudes less than 180° apart are distinct. -/
theorem ne_of_lon {l₁ φ₁ l₂ φ₂ : ℝ} (hc₁ : 0 ≤ Real.cos φ₁) (hc₂ : 0 < Real.cos φ₂) (hl : 0 < Real.sin (l₂ - l₁)) :
    surfacePoint a b l₁ φ₁ ≠ surfacePoint a b l₂ φ₂ := by
  obtain ⟨β₁, e₁, -⟩ := reducedLatitude_all hb hab "" φ₁
  obtain ⟨β₂, e₂, -⟩ := reducedLatitude_all hb hab "" φ₂
  obtain ⟨r₁, -, -⟩ := reduced_of_eq hb hab hc₁ e₁
  obtain ⟨r₂, -, -⟩ := reduced_of_eq hb hab hc₂.le e₂
  have k := reduced_cos_pos hb hab r₂ hc₂
  rw [Bessel.surfacePoint_reduced r₁, Bessel.surfacePoint_reduced r₂]
  intro h
  have h0 := congrArg (fun v : E3 => v 0) h
  have h1 := congrArg (fun v : E3 => v 1) h
  simp only [Matrix.cons_val_zero, Matrix.cons_val_one] at h0 h1
  have ha := hb.trans_le hab
  have : a * Real.cos β₂ * Real.sin (l₂ - l₁) = 0 := by
    rw [Real.sin_sub]
    linear_combination Real.sin l₁ * h0 - Real.cos l₁ * h1
  exact (by positivity : a * Real.cos β₂ * Real.sin (l₂ - l₁) ≠ 0) this

end

theorem acute {x : ℝ} (h0 : 0 ≤ x) (h1 : x ≤ 3 / 2) : 0 < Real.cos x ∧ 0 ≤ Real.sin x :=
  ⟨Real.cos_pos_of_mem_Ioo ⟨by linarith [Real.pi_gt_three], by linarith [Real.pi_gt_three]⟩,
    Real.sin_nonneg_of_nonneg_of_le_pi h0 (by linarith [Real.pi_gt_three])⟩

/-- On WGS 84, from (0, 1/2) to (1, 1/4): Vincenty's distance is the distance on the ellipsoid, to 7.2 micrometres and
3 parts in 10¹¹. -/
example : ∃ g s d, VincentyGeodesicSolver.inverse ⟨ell "WGS 84" 6378137 6356752.314245⟩ (lonR 0, latR (1 / 2))
      (lonR 1, latR (1 / 4)) = .ok g ∧ g.s = lenR s ∧
    IsSurfaceDistance 6378137 6356752.314245 (surfacePoint 6378137 6356752.314245 0 (1 / 2))
      (surfacePoint 6378137 6356752.314245 1 (1 / 4)) d ∧ |s - d| ≤ 3e-11 * s + 7.2e-6 := by
  have hb : (0 : ℝ) < 6356752.314245 := by norm_num
  have hab : (6356752.314245 : ℝ) ≤ 6378137 := by norm_num
  have hf : (6378137 - 6356752.314245 : ℝ) / 6378137 ≤ 1 / 250 := by norm_num
  obtain ⟨c1, s1⟩ := acute (x := 1 / 2) (by norm_num) (by norm_num)
  obtain ⟨c2, s2⟩ := acute (x := 1 / 4) (by norm_num) (by norm_num)
  obtain ⟨g, s, d, h1, h2, s0, -, h3, h4⟩ := C96_vincenty_all hb hab hf "WGS 84" 0 (1 / 2) 1 (1 / 4) c1.le c2.le
    (ne_of_lon hb hab c1.le c2 (Real.sin_pos_of_pos_of_lt_pi (by norm_num) (by linarith [Real.pi_gt_three])))
    (near_of_north hb hab hf c1.le c2.le s1 s2 (by rw [Real.cos_sub, Real.cos_zero, Real.sin_zero, one_mul, zero_mul, add_zero]
                                                   exact (acute (by norm_num) (by norm_num)).1.le))
  refine ⟨g, s, d, h1, h2, h3, h4.trans ?_⟩
  norm_num
  linarith

/-- Both inverse solvers from the equator to the pole of WGS 84. -/
example : ∃ g g' s s',
    VincentyGeodesicSolver.inverse ⟨ell "WGS 84" 6378137 6356752.314245⟩ (lonR 0, latR 0) (lonR 1, latR (Real.pi / 2)) = .ok g ∧
    RappSolver.inverse (RappSolver.new (ell "WGS 84" 6378137 6356752.314245)) (lonR 0, latR 0) (lonR 1, latR (Real.pi / 2)) =
      .ok g' ∧ g.s = lenR s ∧ g'.s = lenR s' ∧ |s - s'| ≤ 3e-11 * (|s| + |s'|) + 7.7e-6 := by
  have hb : (0 : ℝ) < 6356752.314245 := by norm_num
  have hab : (6356752.314245 : ℝ) ≤ 6378137 := by norm_num
  have hf : (6378137 - 6356752.314245 : ℝ) / 6378137 ≤ 1 / 250 := by norm_num
  have c0 : (0 : ℝ) < Real.cos 0 := by rw [Real.cos_zero]; norm_num
  have c1 : (0 : ℝ) ≤ Real.cos (Real.pi / 2) := by rw [Real.cos_pi_div_two]
  obtain ⟨g, g', s, s', h1, h2, h3, h4, h5⟩ := C96_inverse_agree hb hab hf "WGS 84" 0 0 1 (Real.pi / 2) c0 c1
    (by
      intro e
      have := congrArg (fun v : E3 => v 0) e
      simp [surfacePoint] at this)
    (near_of_north hb hab hf c0.le c1 (by rw [Real.sin_zero]) (by rw [Real.sin_pi_div_two]; norm_num) (by
      rw [zero_sub, Real.cos_neg]
      exact (acute (by norm_num) (by norm_num)).1.le))
  refine ⟨g, g', s, s', h1, h2, h3, h4, h5.trans ?_⟩
  have := le_abs_self s
  have := le_abs_self s'
  have := abs_nonneg s
  have := abs_nonneg s'
  norm_num
  linarith

/-- 1000 km from latitude 45° with azimuth 1, the Vincenty and the Karney
direct solvers end at that distance from the start. -/
example : (∃ l₂ φ₂ α₂ d : ℝ, VincentyGeodesicSolver.direct ⟨ell "WGS 84" 6378137 6356752.314245⟩
        (lonR 0, latR (Real.pi / 4)) (aziR 1) (lenR 1e6) =
        .ok ⟨(lonR 0, latR (Real.pi / 4)), aziR 1, (lonR l₂, latR φ₂), aziR α₂, lenR 1e6⟩ ∧
      IsSurfaceDistance 6378137 6356752.314245 (surfacePoint 6378137 6356752.314245 0 (Real.pi / 4))
        (surfacePoint 6378137 6356752.314245 l₂ φ₂) d ∧ |1e6 - d| ≤ 4e-5) ∧
    ∃ l₂ φ₂ d : ℝ,
      ((KarneyGeodesicSolver.new (ell "WGS 84" 6378137 6356752.314245)).direct (lonR 0, latR (Real.pi / 4)) (aziR 1)
        (lenR 1e6)).p2 = (lonR l₂, latR φ₂) ∧
      IsSurfaceDistance 6378137 6356752.314245 (surfacePoint 6378137 6356752.314245 0 (Real.pi / 4))
        (surfacePoint 6378137 6356752.314245 l₂ φ₂) d ∧ |1e6 - d| ≤ 1e-11 := by
  have hc : 0 < Real.cos (Real.pi / 4) := by rw [Real.cos_pi_div_four]; positivity
  obtain ⟨l₂, φ₂, α₂, d, h1, h2, h3⟩ := C96_vincenty_direct (a := 6378137) (b := 6356752.314245) (by norm_num) (by norm_num)
    (by norm_num) "WGS 84" 0 (Real.pi / 4) 1 1e6 hc (by norm_num) (by norm_num)
  obtain ⟨l₂', φ₂', -, d', k1, -, k2, k3⟩ := C96_karney_direct (a := 6378137) (b := 6356752.314245) (by norm_num) (by norm_num)
    (by norm_num) "WGS 84" 0 (Real.pi / 4) 1 1e6 hc (by norm_num) (by norm_num)
  exact ⟨⟨l₂, φ₂, α₂, d, h1, h2, h3.trans (by norm_num)⟩, l₂', φ₂', d', k1, k2, k3.trans (by norm_num)⟩

/-- Latitude and longitude in 57ths of a radian on WGS 84: (45, 3), (10, 8) and (20, 30). -/
example (crs : GeographicCrs XR) (hax : crs.axes = .northEast (angleUnit 1 57))
    (hdat : crs.datum = dat "d" "e" "p" 6378137 6356752.314245 0) :
    ∃ x y z, crs.toCrs.dist [fin 45, fin 3] [fin 10, fin 8] = .ok (lenR x) ∧
      crs.toCrs.dist [fin 10, fin 8] [fin 20, fin 30] = .ok (lenR y) ∧
      crs.toCrs.dist [fin 45, fin 3] [fin 20, fin 30] = .ok (lenR z) ∧ z ≤ x + y + (3e-11 * |x + y + z| + 3e-5) := by
  have hb : (0 : ℝ) < 6356752.314245 := by norm_num
  have hab : (6356752.314245 : ℝ) ≤ 6378137 := by norm_num
  have hf : (6378137 - 6356752.314245 : ℝ) / 6378137 ≤ 1 / 250 := by norm_num
  let c : Fin 3 → List ℝ := ![[45, 3], [10, 8], [20, 30]]
  let S : GeodeticSystem := .northEast 1 57
  have hlat : ∀ i, 0 ≤ S.latOf (c i) ∧ S.latOf (c i) ≤ 3 / 2 := by
    intro i; fin_cases i <;> simp [S, c, GeodeticSystem.latOf] <;> norm_num
  have hlon : ∀ i j, i < j → 0 < S.lonOf (c j) - S.lonOf (c i) := by
    intro i j h; fin_cases i <;> fin_cases j <;> simp [S, c, GeodeticSystem.lonOf] at h ⊢ <;> norm_num
  have hlon' : ∀ i, 0 ≤ S.lonOf (c i) ∧ S.lonOf (c i) ≤ 3 / 2 := by
    intro i; fin_cases i <;> simp [S, c, GeodeticSystem.lonOf] <;> norm_num
  have hp := Real.pi_gt_three
  have hne : ∀ i j, i < j → surfacePoint 6378137 6356752.314245 (S.lonOf (c i)) (S.latOf (c i)) ≠
      surfacePoint 6378137 6356752.314245 (S.lonOf (c j)) (S.latOf (c j)) := fun i j h =>
    ne_of_lon hb hab (acute (hlat i).1 (hlat i).2).1.le (acute (hlat j).1 (hlat j).2).1
      (Real.sin_pos_of_pos_of_lt_pi (hlon i j h) (by linarith [hlon' i, hlon' j]))
  obtain ⟨x, y, z, h1, h2, h3, h4⟩ := C96_crs_triangle hb hab hf "d" "e" "p" 0 S ⟨by norm_num, by norm_num⟩ (fun h => h) crs hax
    hdat c (by intro i; fin_cases i <;> rfl) (fun i => by rw [abs_of_nonneg (hlat i).1]; linarith [(hlat i).2])
    (fun i j hij => (lt_or_gt_of_ne hij).elim (hne i j) fun h => (hne j i h).symm)
    (fun i j => near_of_north hb hab hf (acute (hlat i).1 (hlat i).2).1.le (acute (hlat j).1 (hlat j).2).1.le
      (acute (hlat i).1 (hlat i).2).2 (acute (hlat j).1 (hlat j).2).2
      (by rw [← Real.cos_abs]; exact (acute (abs_nonneg _) (by rw [abs_le]; constructor <;> linarith [hlon' i, hlon' j])).1.le))
  refine ⟨x, y, z, h1, h2, h3, h4.trans ?_⟩
  have := le_abs_self (x + y + z)
  have h0 := abs_nonneg (x + y + z)
  norm_num
  nlinarith

end Geo
