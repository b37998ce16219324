import Verif.Lemmas.ActionIntegral
import Verif.Lemmas.Bessel

/-! The geodesics of the ellipsoid that start at one point, as a function of the arc and of the azimuth: the length
increases at most as fast as a curve across them moves (the lemma of Gauss). -/

namespace Geo.Shortest
open Spec

/-! ### Functions of two variables -/

/-- Partial derivatives `g1`, `g2` of a function that is differentiable. -/
def D2 (g : ℝ × ℝ → ℝ) (g1 g2 : ℝ) (p : ℝ × ℝ) : Prop :=
  HasFDerivAt g (g1 • ContinuousLinearMap.fst ℝ ℝ ℝ + g2 • ContinuousLinearMap.snd ℝ ℝ ℝ) p

namespace D2
variable {f g : ℝ × ℝ → ℝ} {f1 f2 g1 g2 : ℝ} {p : ℝ × ℝ}

theorem fst : D2 (fun p => p.1) 1 0 p := by
  unfold D2; refine (hasFDerivAt_fst).congr_fderiv ?_; ext <;> simp
theorem snd : D2 (fun p => p.2) 0 1 p := by
  unfold D2; refine (hasFDerivAt_snd).congr_fderiv ?_; ext <;> simp

theorem const (c : ℝ) : D2 (fun _ => c) 0 0 p := by
  unfold D2; refine (hasFDerivAt_const c p).congr_fderiv ?_; ext <;> simp

theorem congr {g1' g2' : ℝ} (h : D2 g g1 g2 p) (e1 : g1 = g1') (e2 : g2 = g2') : D2 g g1' g2' p := e1 ▸ e2 ▸ h

theorem add (hf : D2 f f1 f2 p) (hg : D2 g g1 g2 p) : D2 (fun p => f p + g p) (f1 + g1) (f2 + g2) p := by
  unfold D2 at *; refine (hf.add hg).congr_fderiv ?_; ext <;> simp
theorem sub (hf : D2 f f1 f2 p) (hg : D2 g g1 g2 p) : D2 (fun p => f p - g p) (f1 - g1) (f2 - g2) p := by
  unfold D2 at *; refine (hf.sub hg).congr_fderiv ?_; ext <;> simp
theorem mul (hf : D2 f f1 f2 p) (hg : D2 g g1 g2 p) :
    D2 (fun p => f p * g p) (f1 * g p + f p * g1) (f2 * g p + f p * g2) p := by
  unfold D2 at *
  refine (hf.mul hg).congr_fderiv ?_
  ext <;> simp <;> ring
theorem const_mul (c : ℝ) (hg : D2 g g1 g2 p) : D2 (fun p => c * g p) (c * g1) (c * g2) p := by
  refine ((const c).mul hg).congr ?_ ?_ <;> ring
theorem comp {φ : ℝ → ℝ} {φ' : ℝ} (hφ : HasDerivAt φ φ' (g p)) (hg : D2 g g1 g2 p) :
    D2 (fun p => φ (g p)) (φ' * g1) (φ' * g2) p := by
  unfold D2 at *
  refine (hφ.comp_hasFDerivAt p hg).congr_fderiv ?_
  ext <;> simp
theorem pair {F : ℝ × ℝ → ℝ} {F1 F2 : ℝ} (hF : D2 F F1 F2 (f p, g p)) (hf : D2 f f1 f2 p) (hg : D2 g g1 g2 p) :
    D2 (fun p => F (f p, g p)) (F1 * f1 + F2 * g1) (F1 * f2 + F2 * g2) p := by
  unfold D2 at *
  refine (HasFDerivAt.comp p hF (hf.prodMk hg)).congr_fderiv ?_
  ext <;> simp
end D2

/-! ### The function integrated -/

/-- `√(1 - e² cos² β)` and `e² / (1 + √(1 - e² cos² β))`, by `h = sin β`. -/
noncomputable def wf (e h : ℝ) : ℝ := Real.sqrt (1 - e + e * h ^ 2)
noncomputable def Vf (e h : ℝ) : ℝ := e / (1 + wf e h)
noncomputable def Vf1 (e h : ℝ) : ℝ := -(e * (e * h / wf e h)) / (1 + wf e h) ^ 2

section
variable {e : ℝ} (h0 : 0 ≤ e) (h1 : e < 1)
include h0 h1

theorem wf_arg (h : ℝ) : 0 < 1 - e + e * h ^ 2 := by nlinarith [mul_nonneg h0 (sq_nonneg h)]
theorem wf_pos (h : ℝ) : 0 < wf e h := Real.sqrt_pos.2 (wf_arg h0 h1 h)
theorem wf_sq (h : ℝ) : wf e h ^ 2 = 1 - e + e * h ^ 2 := Real.sq_sqrt (wf_arg h0 h1 h).le

theorem Vf_mul (h : ℝ) : Vf e h * (1 + wf e h) = e :=
  div_mul_cancel₀ _ (by have := wf_pos h0 h1 h; positivity)

theorem wf_eq (h : ℝ) : wf e h = 1 - Vf e h * (1 - h ^ 2) := by
  have h2 := wf_pos h0 h1 h
  have h3 := Vf_mul h0 h1 h
  have h4 := wf_sq h0 h1 h
  have : (1 + wf e h) * (wf e h - (1 - Vf e h * (1 - h ^ 2))) = 0 := by linear_combination h4 + (1 - h ^ 2) * h3
  rcases mul_eq_zero.1 this with h5 | h5 <;> linarith

theorem Vf_e (h : ℝ) : e = Vf e h * (2 - Vf e h * (1 - h ^ 2)) := by
  have h3 := Vf_mul h0 h1 h
  have h4 := wf_eq h0 h1 h
  linear_combination -h3 + Vf e h * h4

theorem Vf_nonneg (h : ℝ) : 0 ≤ Vf e h := div_nonneg h0 (by have := wf_pos h0 h1 h; positivity)

theorem wf_deriv (h : ℝ) : HasDerivAt (wf e) (e * h / wf e h) h := by
  have := ((((hasDerivAt_id h).pow 2).const_mul e).const_add (1 - e)).sqrt (wf_arg h0 h1 h).ne'
  refine this.congr_deriv ?_
  have h2 := (wf_pos h0 h1 h).ne'
  simp only [id, Pi.pow_apply]
  rw [← wf]
  field_simp
  ring

theorem Vf_deriv (h : ℝ) : HasDerivAt (Vf e) (Vf1 e h) h := by
  have h2 := wf_pos h0 h1 h
  refine ((hasDerivAt_const h e).div ((wf_deriv h0 h1 h).const_add 1) (by positivity)).congr_deriv ?_
  rw [Vf1]; ring

theorem wf_contDiff : ContDiff ℝ 1 (wf e) := by
  unfold wf
  refine ContDiff.sqrt (by fun_prop) fun h => (wf_arg h0 h1 h).ne'

theorem Vf1_contDiff : ContDiff ℝ 1 (Vf1 e) := by
  have k := wf_contDiff h0 h1
  have k1 : ContDiff ℝ 1 fun h => e * (e * h / wf e h) :=
    contDiff_const.mul ((contDiff_const.mul contDiff_id).div k fun h => (wf_pos h0 h1 h).ne')
  exact k1.neg.div ((contDiff_const.add k).pow 2) fun h => by have := wf_pos h0 h1 h; positivity

theorem Vf1_deriv (h : ℝ) : HasDerivAt (Vf1 e) (deriv (Vf1 e) h) h :=
  ((Vf1_contDiff h0 h1).differentiable (by norm_num) h).hasDerivAt

theorem Vf2_continuous : Continuous (deriv (Vf1 e)) := (Vf1_contDiff h0 h1).continuous_deriv le_rfl

end

/-! ### The field -/

/-- Excess of longitude at the end of the arc `σ` that starts at the reduced latitude `β` with azimuth `α`. -/
noncomputable def lamF (e β σ α : ℝ) : ℝ :=
  Real.cos β * Real.sin α * I (Vf e) (Real.sin β) (Real.cos β * Real.cos α) σ
/-- Length, divided by the semi-major axis. -/
noncomputable def lenF (e β σ α : ℝ) : ℝ :=
  σ - Q (Vf e) (Real.sin β) (Real.cos β * Real.cos α) σ - Real.cos β * Real.sin α * lamF e β σ α
/-- The end on the unit sphere. -/
noncomputable def ux (β σ α : ℝ) : ℝ := Real.cos β * Real.cos σ - Real.sin β * Real.sin σ * Real.cos α
noncomputable def uy (σ α : ℝ) : ℝ := Real.sin σ * Real.sin α
noncomputable def uz (β σ α : ℝ) : ℝ := hh (Real.sin β) (Real.cos β * Real.cos α) σ
noncomputable def uz' (β σ α : ℝ) : ℝ := hd (Real.sin β) (Real.cos β * Real.cos α) σ
/-- The end on the ellipsoid, turned back by the excess, without the semi-axes. -/
noncomputable def pxF (e l β σ α : ℝ) : ℝ :=
  ux β σ α * Real.cos (l - lamF e β σ α) - uy σ α * Real.sin (l - lamF e β σ α)
noncomputable def pyF (e l β σ α : ℝ) : ℝ :=
  ux β σ α * Real.sin (l - lamF e β σ α) + uy σ α * Real.cos (l - lamF e β σ α)

theorem u_norm (β σ α : ℝ) : ux β σ α ^ 2 + uy σ α ^ 2 = 1 - uz β σ α ^ 2 := by
  have h1 := Real.sin_sq_add_cos_sq β
  have h2 := Real.sin_sq_add_cos_sq σ
  have h3 := Real.sin_sq_add_cos_sq α
  simp only [ux, uy, uz, hh]
  linear_combination Real.sin σ ^ 2 * h3 + (Real.cos σ ^ 2 + Real.sin σ ^ 2 * Real.cos α ^ 2) * h1 + h2

theorem uz_energy (β σ α : ℝ) : uz' β σ α ^ 2 = 1 - uz β σ α ^ 2 - (Real.cos β * Real.sin α) ^ 2 := by
  have h1 := hh_energy (Real.sin β) (Real.cos β * Real.cos α) σ
  have h2 := Real.sin_sq_add_cos_sq β
  have h3 := Real.sin_sq_add_cos_sq α
  simp only [uz, uz']
  linear_combination h1 + h2 + Real.cos β ^ 2 * h3

section
variable (β σ α : ℝ)

theorem ux_d2 : D2 (fun p => ux β p.1 p.2) (-(Real.cos β * Real.sin σ) - Real.sin β * Real.cos σ * Real.cos α)
    (Real.sin β * Real.sin σ * Real.sin α) (σ, α) := by
  have s := D2.comp (Real.hasDerivAt_sin σ) (D2.fst (p := (σ, α)))
  have c := D2.comp (Real.hasDerivAt_cos σ) (D2.fst (p := (σ, α)))
  have ca := D2.comp (Real.hasDerivAt_cos α) (D2.snd (p := (σ, α)))
  refine ((c.const_mul (Real.cos β)).sub ((s.const_mul (Real.sin β)).mul ca)).congr ?_ ?_ <;> ring

theorem uy_d2 : D2 (fun p => uy p.1 p.2) (Real.cos σ * Real.sin α) (Real.sin σ * Real.cos α) (σ, α) := by
  have s := D2.comp (Real.hasDerivAt_sin σ) (D2.fst (p := (σ, α)))
  have sa := D2.comp (Real.hasDerivAt_sin α) (D2.snd (p := (σ, α)))
  refine (s.mul sa).congr ?_ ?_ <;> ring

theorem uz_d2 : D2 (fun p => uz β p.1 p.2) (uz' β σ α) (-(Real.cos β * Real.sin α * Real.sin σ)) (σ, α) := by
  have s := D2.comp (Real.hasDerivAt_sin σ) (D2.fst (p := (σ, α)))
  have c := D2.comp (Real.hasDerivAt_cos σ) (D2.fst (p := (σ, α)))
  have ca := D2.comp (Real.hasDerivAt_cos α) (D2.snd (p := (σ, α)))
  refine ((c.const_mul (Real.sin β)).add ((ca.const_mul (Real.cos β)).mul s)).congr ?_ ?_
  · rw [uz', hd]; ring
  · ring

theorem slope_d2 : D2 (fun p : ℝ × ℝ => Real.cos β * Real.cos p.2) 0 (-(Real.cos β * Real.sin α)) (σ, α) := by
  have ca := D2.comp (Real.hasDerivAt_cos α) (D2.snd (p := (σ, α)))
  refine (ca.const_mul (Real.cos β)).congr ?_ ?_ <;> ring

theorem sine_d2 : D2 (fun p : ℝ × ℝ => Real.cos β * Real.sin p.2) 0 (Real.cos β * Real.cos α) (σ, α) := by
  have sa := D2.comp (Real.hasDerivAt_sin α) (D2.snd (p := (σ, α)))
  refine (sa.const_mul (Real.cos β)).congr ?_ ?_ <;> ring

/-- Derivative of the excess with respect to the azimuth. -/
noncomputable def lamA (e β σ α : ℝ) : ℝ :=
  Real.cos β * Real.cos α * I (Vf e) (Real.sin β) (Real.cos β * Real.cos α) σ -
    (Real.cos β * Real.sin α) ^ 2 * IA (Vf1 e) (Real.sin β) (Real.cos β * Real.cos α) σ

variable {e : ℝ} (h0 : 0 ≤ e) (h1 : e < 1)
include h0 h1

theorem lamF_d2 : D2 (fun p => lamF e β p.1 p.2) (Real.cos β * Real.sin α * Vf e (uz β σ α)) (lamA e β σ α) (σ, α) := by
  have hI : D2 (fun p : ℝ × ℝ => I (Vf e) (Real.sin β) p.1 p.2) _ _ (Real.cos β * Real.cos α, σ) :=
    I_fderiv (Vf_deriv h0 h1) (Vf1_deriv h0 h1) (Vf2_continuous h0 h1) (Real.sin β) (Real.cos β * Real.cos α) σ
  have := D2.pair hI (slope_d2 β σ α) (D2.fst (p := (σ, α)))
  refine ((sine_d2 β σ α).mul this).congr ?_ ?_
  · simp only [uz]; ring
  · simp only [lamA]; ring

theorem lenF_d2 : D2 (fun p => lenF e β p.1 p.2) (1 - Vf e (uz β σ α) * (1 - uz β σ α ^ 2))
    (Real.cos β * Real.sin α * (Vf e (uz β σ α) * uz' β σ α * Real.sin σ - lamA e β σ α)) (σ, α) := by
  have hQ : D2 (fun p : ℝ × ℝ => Q (Vf e) (Real.sin β) p.1 p.2) _ _ (Real.cos β * Real.cos α, σ) :=
    Q_fderiv (Vf_deriv h0 h1) (Vf1_deriv h0 h1) (Vf2_continuous h0 h1) (Real.sin β) (Real.cos β * Real.cos α) σ
  have q := D2.pair hQ (slope_d2 β σ α) (D2.fst (p := (σ, α)))
  have m := (sine_d2 β σ α).mul (lamF_d2 β σ α h0 h1)
  have he := uz_energy β σ α
  refine ((D2.fst.sub q).sub m).congr ?_ ?_
  · rw [← uz, ← uz']
    linear_combination -Vf e (uz β σ α) * he
  · simp only [lamF]
    rw [← uz, ← uz']
    ring

/-- Derivatives of the position. -/
theorem pxF_d2 (l : ℝ) : D2 (fun p => pxF e l β p.1 p.2)
    ((-(Real.cos β * Real.sin σ) - Real.sin β * Real.cos σ * Real.cos α + Real.cos β * Real.sin α * Vf e (uz β σ α) * uy σ α) *
        Real.cos (l - lamF e β σ α) -
      (Real.cos σ * Real.sin α - Real.cos β * Real.sin α * Vf e (uz β σ α) * ux β σ α) * Real.sin (l - lamF e β σ α))
    ((Real.sin β * Real.sin σ * Real.sin α + lamA e β σ α * uy σ α) * Real.cos (l - lamF e β σ α) -
      (Real.sin σ * Real.cos α - lamA e β σ α * ux β σ α) * Real.sin (l - lamF e β σ α)) (σ, α) := by
  have t := (D2.const l).sub (lamF_d2 β σ α h0 h1)
  have c := D2.comp (Real.hasDerivAt_cos _) t
  have s := D2.comp (Real.hasDerivAt_sin _) t
  refine (((ux_d2 β σ α).mul c).sub ((uy_d2 σ α).mul s)).congr ?_ ?_ <;> ring

theorem pyF_d2 (l : ℝ) : D2 (fun p => pyF e l β p.1 p.2)
    ((-(Real.cos β * Real.sin σ) - Real.sin β * Real.cos σ * Real.cos α + Real.cos β * Real.sin α * Vf e (uz β σ α) * uy σ α) *
        Real.sin (l - lamF e β σ α) +
      (Real.cos σ * Real.sin α - Real.cos β * Real.sin α * Vf e (uz β σ α) * ux β σ α) * Real.cos (l - lamF e β σ α))
    ((Real.sin β * Real.sin σ * Real.sin α + lamA e β σ α * uy σ α) * Real.sin (l - lamF e β σ α) +
      (Real.sin σ * Real.cos α - lamA e β σ α * ux β σ α) * Real.cos (l - lamF e β σ α)) (σ, α) := by
  have t := (D2.const l).sub (lamF_d2 β σ α h0 h1)
  have c := D2.comp (Real.hasDerivAt_cos _) t
  have s := D2.comp (Real.hasDerivAt_sin _) t
  refine (((ux_d2 β σ α).mul s).add ((uy_d2 σ α).mul c)).congr ?_ ?_ <;> ring

end

/-- The algebra of the lemma of Gauss. -/
theorem gauss_alg {x y z xs ys zs xa ya za k V K S : ℝ} (f1 : x ^ 2 + y ^ 2 = 1 - z ^ 2) (f2 : xs ^ 2 + ys ^ 2 + zs ^ 2 = 1)
    (f3 : x * ys - y * xs = k) (f4 : zs ^ 2 = 1 - z ^ 2 - k ^ 2) (f5 : xs * xa + ys * ya + zs * za = 0)
    (f6 : y * xa - x * ya = -(S * zs)) (f7 : za = -(k * S)) :
    (xs + k * V * y) ^ 2 + (ys - k * V * x) ^ 2 + (1 - V * (2 - V * (1 - z ^ 2))) * zs ^ 2 = (1 - V * (1 - z ^ 2)) ^ 2 ∧
    (xs + k * V * y) * (xa + K * y) + (ys - k * V * x) * (ya - K * x) + (1 - V * (2 - V * (1 - z ^ 2))) * (zs * za) =
      (1 - V * (1 - z ^ 2)) * (k * (V * zs * S - K)) := by
  subst f7
  constructor
  · linear_combination f2 - 2 * k * V * f3 + k ^ 2 * V ^ 2 * f1 + (-2 * V + V ^ 2 * (1 - z ^ 2)) * f4
  · linear_combination f5 - K * f3 + k * V * f6 + k * V * K * f1

/-- The end on the ellipsoid. -/
noncomputable def endF (a b l β : ℝ) (p : ℝ × ℝ) : E3 :=
  !₂[a * pxF (Bessel.e2 a b) l β p.1 p.2, a * pyF (Bessel.e2 a b) l β p.1 p.2, b * uz β p.1 p.2]

theorem cauchy3 (x y z u v w : ℝ) : (x * u + y * v + z * w) ^ 2 ≤ (x ^ 2 + y ^ 2 + z ^ 2) * (u ^ 2 + v ^ 2 + w ^ 2) := by
  nlinarith [sq_nonneg (x * v - y * u), sq_nonneg (x * w - z * u), sq_nonneg (y * w - z * v)]

/-- The lemma of Gauss: near any geodesic of the field the length grows at most as fast as the end moves. -/
theorem gauss {a b : ℝ} (hb : 0 < b) (hab : b ≤ a) (l β σ α : ℝ) {ε : ℝ} (hε : 0 < ε) :
    ∀ᶠ p in nhds (σ, α), |a * lenF (Bessel.e2 a b) β p.1 p.2 - a * lenF (Bessel.e2 a b) β σ α| ≤
      ‖endF a b l β p - endF a b l β (σ, α)‖ + ε * ‖p - (σ, α)‖ := by
  have ha : 0 < a := lt_of_lt_of_le hb hab
  have h0 := Bessel.e2_nonneg hb hab
  have h1 := Bessel.e2_lt hb hab
  have hb2 : b ^ 2 = a ^ 2 * (1 - Bessel.e2 a b) := by unfold Bessel.e2; field_simp; ring
  set e := Bessel.e2 a b
  have X := pxF_d2 β σ α h0 h1 l
  have Y := pyF_d2 β σ α h0 h1 l
  have Z := uz_d2 β σ α
  have L := lenF_d2 β σ α h0 h1
  have hV := Vf_e h0 h1 (uz β σ α)
  have hw := wf_eq h0 h1 (uz β σ α)
  have hwp := wf_pos h0 h1 (uz β σ α)
  have b1 := Real.sin_sq_add_cos_sq β
  have b2 := Real.sin_sq_add_cos_sq σ
  have b3 := Real.sin_sq_add_cos_sq α
  have b4 := Real.sin_sq_add_cos_sq (l - lamF e β σ α)
  obtain ⟨g1, g2⟩ := gauss_alg (x := ux β σ α) (y := uy σ α) (z := uz β σ α)
    (xs := -(Real.cos β * Real.sin σ) - Real.sin β * Real.cos σ * Real.cos α) (ys := Real.cos σ * Real.sin α)
    (zs := uz' β σ α) (xa := Real.sin β * Real.sin σ * Real.sin α) (ya := Real.sin σ * Real.cos α)
    (za := -(Real.cos β * Real.sin α * Real.sin σ)) (k := Real.cos β * Real.sin α) (V := Vf e (uz β σ α))
    (K := lamA e β σ α) (S := Real.sin σ) (u_norm β σ α)
    (by simp only [uz', hd]
        linear_combination Real.cos σ ^ 2 * b3 + (Real.sin σ ^ 2 + Real.cos σ ^ 2 * Real.cos α ^ 2) * b1 + b2)
    (by simp only [ux, uy]; linear_combination Real.cos β * Real.sin α * b2)
    (uz_energy β σ α)
    (by simp only [uz', hd]; linear_combination -(Real.sin σ * Real.cos σ * Real.sin α * Real.cos α) * b1)
    (by simp only [ux, uy, uz', hd]; linear_combination Real.sin β * Real.sin σ ^ 2 * b3)
    rfl
  rw [← hV, ← hw] at g1 g2
  set p := -(Real.cos β * Real.sin σ) - Real.sin β * Real.cos σ * Real.cos α + Real.cos β * Real.sin α * Vf e (uz β σ α) * uy σ α
  set q := Real.cos σ * Real.sin α - Real.cos β * Real.sin α * Vf e (uz β σ α) * ux β σ α
  set p' := Real.sin β * Real.sin σ * Real.sin α + lamA e β σ α * uy σ α
  set q' := Real.sin σ * Real.cos α - lamA e β σ α * ux β σ α
  set C := Real.cos (l - lamF e β σ α)
  set S := Real.sin (l - lamF e β σ α)
  rw [← hw] at L
  set w := wf e (uz β σ α)
  set E0 := a * (p * C - q * S)
  set E1 := a * (p * S + q * C)
  set E2 := b * uz' β σ α
  have n : E0 ^ 2 + E1 ^ 2 + E2 ^ 2 = (a * w) ^ 2 := by
    simp only [E0, E1, E2]
    linear_combination a ^ 2 * (p ^ 2 + q ^ 2) * b4 + a ^ 2 * g1 + uz' β σ α ^ 2 * hb2
  have D := ((((X.const_mul a).const_mul E0).add ((Y.const_mul a).const_mul E1)).add ((Z.const_mul b).const_mul E2)).sub
    ((L.const_mul a).const_mul (a * w))
  have D0 : D2 (fun r => E0 * (a * pxF e l β r.1 r.2) + E1 * (a * pyF e l β r.1 r.2) + E2 * (b * uz β r.1 r.2) -
      a * w * (a * lenF e β r.1 r.2)) 0 0 (σ, α) := by
    refine D.congr ?_ ?_
    · linear_combination n
    · simp only [E0, E1, E2]
      linear_combination a ^ 2 * (p * p' + q * q') * b4 + a ^ 2 * g2 -
        uz' β σ α * (Real.cos β * Real.sin α * Real.sin σ) * hb2
  unfold D2 at D0
  have hW : 0 < a * w := mul_pos ha hwp
  have := D0.isLittleO.def (mul_pos hε hW)
  filter_upwards [this] with r hr
  simp only [zero_smul, add_zero, zero_apply, sub_zero] at hr
  have cs : |E0 * (a * pxF e l β r.1 r.2 - a * pxF e l β σ α) + E1 * (a * pyF e l β r.1 r.2 - a * pyF e l β σ α) +
      E2 * (b * uz β r.1 r.2 - b * uz β σ α)| ≤ a * w * ‖endF a b l β r - endF a b l β (σ, α)‖ := by
    refine abs_le_of_sq_le_sq ?_ (by positivity)
    have en : ‖endF a b l β r - endF a b l β (σ, α)‖ ^ 2 = (a * pxF e l β r.1 r.2 - a * pxF e l β σ α) ^ 2 +
        (a * pyF e l β r.1 r.2 - a * pyF e l β σ α) ^ 2 + (b * uz β r.1 r.2 - b * uz β σ α) ^ 2 := by
      rw [EuclideanSpace.norm_sq_eq]
      simp [Fin.sum_univ_three, endF, e]
    rw [mul_pow, en, ← n]
    exact cauchy3 _ _ _ _ _ _
  obtain ⟨r1, r2⟩ := abs_le.1 hr
  obtain ⟨c1, c2⟩ := abs_le.1 cs
  have : a * w * |a * lenF e β r.1 r.2 - a * lenF e β σ α| ≤ a * w * (‖endF a b l β r - endF a b l β (σ, α)‖ + ε * ‖r - (σ, α)‖) := by
    rw [← abs_of_pos hW, ← abs_mul, abs_of_pos hW, abs_le]
    constructor <;> linarith
  exact le_of_mul_le_mul_left this hW

end Geo.Shortest
