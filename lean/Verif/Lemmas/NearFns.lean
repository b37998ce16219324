import Verif.Lemmas.NearExists
import Verif.Lemmas.Rel
import Verif.Lemmas.TransverseMercator
import Mathlib.Analysis.SpecialFunctions.Trigonometric.InverseDeriv

/-! Rules for the rounding errors of the functions used by the map projections. -/

namespace Geo
open Spec

/-! ### Lipschitz bounds -/

theorem lip_of_deriv {f f' : ℝ → ℝ} {s : Set ℝ} {C x y : ℝ} (hs : Convex ℝ s) (hd : ∀ z ∈ s, HasDerivAt f (f' z) z)
    (hb : ∀ z ∈ s, |f' z| ≤ C) (hx : x ∈ s) (hy : y ∈ s) : |f x - f y| ≤ C * |x - y| := by
  have := Convex.norm_image_sub_le_of_norm_hasDerivWithin_le (f := f) (f' := f') (C := C) (s := s) (x := y) (y := x)
    (fun z hz => (hd z hz).hasDerivWithinAt) (fun z hz => by rw [Real.norm_eq_abs]; exact hb z hz) hs hy hx
  simpa [Real.norm_eq_abs] using this

theorem arctan_lip (x y : ℝ) : |Real.arctan x - Real.arctan y| ≤ |x - y| := by
  have := lip_of_deriv (f := Real.arctan) (C := 1) (x := x) (y := y) convex_univ (fun z _ => Real.hasDerivAt_arctan z)
    (fun z _ => by
      rw [abs_of_pos (by positivity), div_le_one (by positivity)]
      nlinarith [sq_nonneg z]) (Set.mem_univ _) (Set.mem_univ _)
  rwa [one_mul] at this

theorem cosh_mono {x M : ℝ} (h : |x| ≤ M) : Real.cosh x ≤ Real.cosh M := by
  rw [Real.cosh_le_cosh]
  exact h.trans (le_abs_self M)

theorem sinh_lip {x y M : ℝ} (hx : |x| ≤ M) (hy : |y| ≤ M) : |Real.sinh x - Real.sinh y| ≤ Real.cosh M * |x - y| :=
  lip_of_deriv (convex_Icc (-M) M) (fun z _ => Real.hasDerivAt_sinh z)
    (fun z hz => by rw [abs_of_pos (Real.cosh_pos z)]; exact cosh_mono (abs_le.2 hz)) (abs_le.1 hx) (abs_le.1 hy)

theorem abs_sinh_mono {x M : ℝ} (h : |x| ≤ M) : |Real.sinh x| ≤ Real.sinh M := by
  obtain ⟨h1, h2⟩ := abs_le.1 h
  rw [abs_le]
  refine ⟨?_, Real.sinh_le_sinh.2 h2⟩
  rw [← Real.sinh_neg]
  exact Real.sinh_le_sinh.2 h1

theorem cosh_lip {x y M : ℝ} (hx : |x| ≤ M) (hy : |y| ≤ M) : |Real.cosh x - Real.cosh y| ≤ Real.sinh M * |x - y| :=
  lip_of_deriv (convex_Icc (-M) M) (fun z _ => Real.hasDerivAt_cosh z)
    (fun _ hz => abs_sinh_mono (abs_le.2 hz)) (abs_le.1 hx) (abs_le.1 hy)

theorem tanh_lip (x y : ℝ) : |Real.tanh x - Real.tanh y| ≤ |x - y| := by
  have := lip_of_deriv (C := 1) (x := x) (y := y) convex_univ (fun z _ => hasDerivAt_tanh z)
    (fun z _ => by
      have h := abs_lt.1 (abs_tanh_lt z)
      have : Real.tanh z ^ 2 ≤ 1 := by nlinarith [h.1, h.2]
      rw [abs_of_nonneg (by linarith)]
      linarith [sq_nonneg (Real.tanh z)]) (Set.mem_univ _) (Set.mem_univ _)
  rwa [one_mul] at this

theorem arsinh_lip (x y : ℝ) : |Real.arsinh x - Real.arsinh y| ≤ |x - y| := by
  have := lip_of_deriv (C := 1) (x := x) (y := y) convex_univ (fun z _ => Real.hasDerivAt_arsinh z)
    (fun z _ => by
      rw [abs_of_nonneg (by positivity)]
      apply inv_le_one_of_one_le₀
      apply Real.le_sqrt_of_sq_le
      nlinarith [sq_nonneg z]) (Set.mem_univ _) (Set.mem_univ _)
  rwa [one_mul] at this

theorem artanh_lip {x y m K : ℝ} (hx : |x| ≤ m) (hy : |y| ≤ m) (hm : m < 1) (hK : 1 ≤ K * (1 - m ^ 2)) :
    |Real.artanh x - Real.artanh y| ≤ K * |x - y| :=
  lip_of_deriv (convex_Icc (-m) m) (fun z hz => hasDerivAt_artanh (by linarith [hz.1]) (by linarith [hz.2]))
    (fun z hz => by
      have h1 : z ^ 2 ≤ m ^ 2 := by nlinarith [hz.1, hz.2]
      have h0 : 0 ≤ m := by linarith [hz.1, hz.2]
      have h2 : 0 < 1 - m ^ 2 := by nlinarith
      have h3 : 0 < 1 - z ^ 2 := by linarith
      have hK0 : 0 ≤ K := by
        by_contra hc
        push Not at hc
        have := mul_neg_of_neg_of_pos hc h2
        linarith
      rw [abs_of_pos (by positivity), div_le_iff₀ h3]
      exact hK.trans (mul_le_mul_of_nonneg_left (by linarith) hK0)) (abs_le.1 hx) (abs_le.1 hy)

theorem arcsin_lip {x y m K : ℝ} (hx : |x| ≤ m) (hy : |y| ≤ m) (hm : m < 1) (hK0 : 0 ≤ K) (hK : 1 ≤ K ^ 2 * (1 - m ^ 2)) :
    |Real.arcsin x - Real.arcsin y| ≤ K * |x - y| :=
  lip_of_deriv (convex_Icc (-m) m)
    (fun z hz => Real.hasDerivAt_arcsin (show z ≠ -1 by intro h; linarith [hz.1]) (show z ≠ 1 by intro h; linarith [hz.2]))
    (fun z hz => by
      have h1 : z ^ 2 ≤ m ^ 2 := by nlinarith [hz.1, hz.2]
      have h0 : 0 ≤ m := by linarith [hz.1, hz.2]
      have h2 : 0 < 1 - m ^ 2 := by nlinarith
      have h3 : 0 < 1 - z ^ 2 := by linarith
      have h4 := Real.sqrt_pos.2 h3
      rw [abs_of_pos (by positivity), div_le_iff₀ h4]
      refine le_trans ?_ (mul_le_mul_of_nonneg_left (Real.sqrt_le_sqrt (show 1 - m ^ 2 ≤ 1 - z ^ 2 by linarith)) hK0)
      rw [← Real.sqrt_sq hK0, ← Real.sqrt_mul (sq_nonneg K)]
      exact Real.one_le_sqrt.2 hK) (abs_le.1 hx) (abs_le.1 hy)

theorem exp_lip {x y M : ℝ} (hx : x ≤ M) (hy : y ≤ M) : |Real.exp x - Real.exp y| ≤ Real.exp M * |x - y| :=
  lip_of_deriv (convex_Iic M) (fun z _ => Real.hasDerivAt_exp z)
    (fun z hz => by rw [abs_of_pos (Real.exp_pos z)]; exact Real.exp_le_exp.2 hz) hx hy

theorem gd_lip (x y : ℝ) : |Real.arctan (Real.sinh x) - Real.arctan (Real.sinh y)| ≤ |x - y| := by
  have := lip_of_deriv (C := 1) (x := x) (y := y) convex_univ (fun z _ => (Real.hasDerivAt_sinh z).arctan)
    (fun z _ => by
      have h1 := Real.cosh_sq z
      have h2 := Real.one_le_cosh z
      rw [abs_of_nonneg (by have := Real.cosh_pos z; positivity), add_comm, ← h1, one_div, inv_mul_le_iff₀ (by positivity)]
      nlinarith) (Set.mem_univ _) (Set.mem_univ _)
  rwa [one_mul] at this

/-- `arsinh` and `arctan` turn relative errors into absolute ones. -/
theorem lip_rel {f f' : ℝ → ℝ} {C x r δ : ℝ} (hd : ∀ z, HasDerivAt f (f' z) z) (hb : ∀ z, z ≠ 0 → |f' z| ≤ C / |z|)
    (hC : 0 ≤ C) (h : |x - r| ≤ δ * |r|) (hδ0 : 0 ≤ δ) (hδ : δ ≤ 1e-3) : |f x - f r| ≤ 1.002 * C * δ := by
  rcases eq_or_ne r 0 with rfl | hr
  · rw [abs_zero, mul_zero, sub_zero] at h
    have : x = 0 := abs_eq_zero.1 (le_antisymm h (abs_nonneg x))
    rw [this, sub_self, abs_zero]
    positivity
  have hr0 := abs_pos.2 hr
  have key := lip_of_deriv (f := f) (f' := f') (s := Set.uIcc x r) (C := C / ((1 - δ) * |r|)) (x := x) (y := r)
    (convex_uIcc x r) (fun z _ => hd z) (fun z hz => ?_) Set.left_mem_uIcc Set.right_mem_uIcc
  · refine key.trans ?_
    have h1 : 0 < 1 - δ := by norm_num at hδ; linarith
    rw [div_mul_eq_mul_div, div_le_iff₀ (by positivity)]
    have h2 := mul_le_mul_of_nonneg_left h hC
    refine h2.trans ?_
    have h3 : 1 ≤ 1.002 * (1 - δ) := by norm_num at *; linarith
    have h4 : 0 ≤ C * δ * |r| := by positivity
    nlinarith
  · have hz1 : |z - r| ≤ |x - r| := by
      rw [abs_sub_comm z, abs_sub_comm x]
      exact Set.abs_sub_right_of_mem_uIcc hz
    have h1 : (1 - δ) * |r| ≤ |z| := by
      have := abs_sub_abs_le_abs_sub r z
      rw [abs_sub_comm] at this
      nlinarith
    have h2 : 0 < (1 - δ) * |r| := mul_pos (by norm_num at hδ; linarith) hr0
    have hz0 : z ≠ 0 := by
      rintro rfl
      rw [abs_zero] at h1
      linarith
    exact (hb z hz0).trans (div_le_div_of_nonneg_left hC h2 h1)

theorem arsinh_rel {x r δ : ℝ} (h : |x - r| ≤ δ * |r|) (h0 : 0 ≤ δ) (hδ : δ ≤ 1e-3) :
    |Real.arsinh x - Real.arsinh r| ≤ 1.002 * δ := by
  have := lip_rel (C := 1) (fun z => Real.hasDerivAt_arsinh z) (fun z hz => ?_) (by norm_num) h h0 hδ
  · rwa [mul_one] at this
  · have hz0 := abs_pos.2 hz
    rw [abs_of_nonneg (by positivity), one_div]
    refine inv_anti₀ hz0 (Real.le_sqrt_of_sq_le ?_)
    rw [sq_abs]
    linarith

theorem arctan_rel {x r δ : ℝ} (h : |x - r| ≤ δ * |r|) (h0 : 0 ≤ δ) (hδ : δ ≤ 1e-3) :
    |Real.arctan x - Real.arctan r| ≤ 1.002 * (1 / 2) * δ := by
  refine lip_rel (C := 1 / 2) (fun z => Real.hasDerivAt_arctan z) (fun z hz => ?_) (by norm_num) h h0 hδ
  have hz0 := abs_pos.2 hz
  rw [abs_of_pos (by positivity), div_div]
  refine one_div_le_one_div_of_le (by positivity) ?_
  rw [← sq_abs]
  nlinarith [sq_nonneg (|z| - 1)]

end Geo
namespace Geo.Spec
open Geo
variable {L : Libm} {x y z : F64 L} {r s ε δ E R A B D K m : ℝ}

/-- A function computed with a relative error, at an argument that is not exact. -/
theorem Near.of_fn {f : ℝ → ℝ} {κ k : ℝ} (hf : Near y (f x.toQ) (κ * |f x.toQ| + 2⁻¹ ^ 1074)) (hD : |f x.toQ - f r| ≤ D)
    (hA : |f r| ≤ A) (h0 : 0 ≤ κ) (hκ : κ ≤ k) (hE : D + k * (A + D) + 1e-70 ≤ E) : Near y (f r) E := by
  refine ⟨hf.1, ?_⟩
  have h1 := abs_sub_le (y.toQ : ℝ) (f x.toQ) (f r)
  have h2 : |f x.toQ| ≤ A + D := by
    have := abs_add_le (f x.toQ - f r) (f r)
    rw [sub_add_cancel] at this
    linarith
  have h3 : κ * |f x.toQ| ≤ k * (A + D) := mul_le_mul hκ h2 (abs_nonneg _) (h0.trans hκ)
  have h4 := tiny_le
  have h5 := hf.2
  generalize (2⁻¹ : ℝ) ^ 1074 = t at *
  norm_num at hE h4 ⊢
  linarith

theorem Near.sin' (hL : AccurateProjection L) (h : Near x r ε) (hr : |r| + ε ≤ 32) (hE : ε + 2.3e-16 ≤ E) :
    Near (Flt.sin x) (Real.sin r) E := by
  obtain ⟨f, k⟩ := hL.sin_wide x h.1 (h.abs_le_rat (by push_cast; exact hr))
  refine ⟨f, ?_⟩
  have := abs_sub_le ((Flt.sin x : F64 L).toQ : ℝ) (Real.sin x.toQ) (Real.sin r)
  have := (abs_sin_sub_le x.toQ r).trans h.2
  have : (2⁻¹ : ℝ) ^ 52 ≤ 2.3e-16 := by norm_num
  linarith

theorem Near.cos' (hL : AccurateProjection L) (h : Near x r ε) (hr : |r| + ε ≤ 32) (hE : ε + 2.3e-16 ≤ E) :
    Near (Flt.cos x) (Real.cos r) E := by
  obtain ⟨f, k⟩ := hL.cos_wide x h.1 (h.abs_le_rat (by push_cast; exact hr))
  refine ⟨f, ?_⟩
  have := abs_sub_le ((Flt.cos x : F64 L).toQ : ℝ) (Real.cos x.toQ) (Real.cos r)
  have := (abs_cos_sub_le x.toQ r).trans h.2
  have : (2⁻¹ : ℝ) ^ 52 ≤ 2.3e-16 := by norm_num
  linarith

theorem Near.sinh (hL : AccurateProjection L) (h : Near x r ε) (hm : |r| + ε ≤ m) (h32 : m ≤ 32) (hK : Real.cosh m ≤ K)
    (hA : |Real.sinh r| ≤ A) (hE : K * ε + 4.5e-16 * (A + K * ε) + 1e-70 ≤ E) : Near (Flt.sinh x) (Real.sinh r) E := by
  have h0 := h.nonneg
  refine Near.of_fn (hL.sinh x h.1 (h.abs_le_rat (by push_cast; linarith))) (D := K * ε) ?_ hA (by positivity) (by norm_num) hE
  refine (sinh_lip (h.abs_le.trans hm) (by linarith)).trans ?_
  exact mul_le_mul hK h.2 (abs_nonneg _) ((Real.cosh_pos m).le.trans hK)

theorem Near.cosh (hL : AccurateProjection L) (h : Near x r ε) (hm : |r| + ε ≤ m) (h32 : m ≤ 32) (hK : Real.sinh m ≤ K)
    (hA : Real.cosh r ≤ A) (hE : K * ε + 4.5e-16 * (A + K * ε) + 1e-70 ≤ E) : Near (Flt.cosh x) (Real.cosh r) E := by
  have h0 := h.nonneg
  have hm0 : 0 ≤ m := by linarith [abs_nonneg r]
  refine Near.of_fn (hL.cosh x h.1 (h.abs_le_rat (by push_cast; linarith))) (D := K * ε) ?_
    (by rw [abs_of_pos (Real.cosh_pos r)]; exact hA) (by positivity) (by norm_num) hE
  refine (cosh_lip (h.abs_le.trans hm) (by linarith)).trans ?_
  exact mul_le_mul hK h.2 (abs_nonneg _) ((Real.sinh_nonneg_iff.2 hm0).trans hK)

theorem Near.tanh (hL : AccurateProjection L) (h : Near x r ε) (hE : ε + 4.5e-16 * (1 + ε) + 1e-70 ≤ E) :
    Near (Flt.tanh x) (Real.tanh r) E :=
  Near.of_fn (hL.tanh x h.1) ((tanh_lip _ _).trans h.2) (abs_tanh_lt r).le (by positivity) (by norm_num) hE

theorem Near.atan (hL : AccurateProjection L) (h : Near x r ε) (hA : |Real.arctan r| ≤ A)
    (hE : ε + 4.5e-16 * (A + ε) + 1e-70 ≤ E) : Near (Flt.atan x) (Real.arctan r) E :=
  Near.of_fn (hL.atan x h.1) ((arctan_lip _ _).trans h.2) hA (by positivity) (by norm_num) hE

theorem Near.atanh (hL : AccurateProjection L) (h : Near x r ε) (hm : |r| + ε ≤ m) (hm1 : m ≤ 0.99) (hK : 1 ≤ K * (1 - m ^ 2))
    (hA : |Real.artanh r| ≤ A) (hE : K * ε + 9e-16 * (A + K * ε) + 1e-70 ≤ E) : Near (Flt.atanh x) (Real.artanh r) E := by
  have h0 := h.nonneg
  have hm0 : 0 ≤ m := by linarith [abs_nonneg r]
  have h1 : m < 1 := lt_of_le_of_lt hm1 (by norm_num)
  have hK0 : 0 ≤ K := by
    by_contra hc
    push Not at hc
    have := mul_neg_of_neg_of_pos hc (show 0 < 1 - m ^ 2 by nlinarith)
    linarith
  refine Near.of_fn (hL.atanh x h.1 (h.abs_le_rat (by push_cast; linarith))) (D := K * ε) ?_ hA (by positivity) (by norm_num) hE
  exact (artanh_lip (h.abs_le.trans hm) (by linarith) h1 hK).trans (mul_le_mul_of_nonneg_left h.2 hK0)

theorem Near.asin (hL : AccurateProjection L) (h : Near x r ε) (hm : |r| + ε ≤ m) (hm1 : m < 1) (hK0 : 0 ≤ K)
    (hK : 1 ≤ K ^ 2 * (1 - m ^ 2)) (hE : K * ε + 4.5e-16 * (1.58 + K * ε) + 1e-70 ≤ E) :
    Near (Flt.asin x) (Real.arcsin r) E := by
  have h0 := h.nonneg
  refine Near.of_fn (hL.asin x h.1 (h.abs_le_rat (by push_cast; linarith))) (D := K * ε) ?_ (A := 1.58) ?_ (by positivity)
    (by norm_num) hE
  · exact (arcsin_lip (h.abs_le.trans hm) (by linarith) hm1 hK0 hK).trans (mul_le_mul_of_nonneg_left h.2 hK0)
  · have := Real.pi_lt_d2
    have h1 := Real.neg_pi_div_two_le_arcsin r
    have h2 := Real.arcsin_le_pi_div_two r
    rw [_root_.abs_le]
    norm_num at *
    constructor <;> linarith

theorem Near.mulAdd {t τ : ℝ} (hx : Near x r ε) (hy : Near y s δ) (hz : Near z t τ) (hA : |r| ≤ A) (hB : |s| ≤ B)
    (hR : |r * s + t| + (A * δ + B * ε + ε * δ + τ) ≤ R) (h1 : 1e-50 ≤ R) (h2 : R ≤ 1e60)
    (hE : A * δ + B * ε + ε * δ + τ + 1.2e-16 * R ≤ E) : Near (Flt.mulAdd x y z) (r * s + t) E := by
  have h : |((x.toQ * y.toQ + z.toQ : ℚ) : ℝ) - (r * s + t)| ≤ A * δ + B * ε + ε * δ + τ := by
    push_cast
    rw [add_sub_add_comm]
    exact (abs_add_le _ _).trans (add_le_add (mul_near hx.2 hy.2 hA hB) hz.2)
  obtain ⟨k1, k2⟩ := round_near h hR h1 h2 hE
  have e : Flt.mulAdd x y z = B64.ofQ (xor (B64.isNeg x) (B64.isNeg y) && B64.isNeg z) (x.toQ * y.toQ + z.toQ) := by
    show B64.mulAdd x y z = _
    unfold B64.mulAdd
    have f1 : B64.isFinite x = true := hx.1
    have f2 : B64.isFinite y = true := hy.1
    have f3 : B64.isFinite z = true := hz.1
    rw [f1, f2, f3]
    rfl
  have f : B64.isFinite (B64.ofQ (xor (B64.isNeg x) (B64.isNeg y) && B64.isNeg z) (x.toQ * y.toQ + z.toQ)) = true :=
    (B64.ofQ_finite _ _).2 k1
  rw [e]
  exact ⟨f, by rw [show F64.toQ (L := L) (B64.ofQ _ _) = _ from B64.ofQ_toQ f]; exact k2⟩

theorem split_abs {d a b : ℝ} (h : |d| ≤ a + b) (ha : 0 ≤ a) (hb : 0 ≤ b) : ∃ c, |c| ≤ a ∧ |d - c| ≤ b := by
  obtain ⟨h1, h2⟩ := _root_.abs_le.1 h
  rcases le_or_gt d (-a) with c1 | c1
  · exact ⟨-a, by rw [abs_neg, abs_of_nonneg ha], by rw [_root_.abs_le]; constructor <;> linarith⟩
  · rcases le_or_gt a d with c2 | c2
    · exact ⟨a, by rw [abs_of_nonneg ha], by rw [_root_.abs_le]; constructor <;> linarith⟩
    · exact ⟨d, by rw [_root_.abs_le]; constructor <;> linarith, by rw [sub_self, abs_zero]; exact hb⟩

/-- `asinh` of a number with a small relative error. -/
theorem Rel.asinh (hL : AccurateProjection L) {η : ℝ} (h : Rel x r δ η) (h0 : 0 ≤ δ) (h1 : δ ≤ 1e-3) (hη : 0 ≤ η)
    (hx : |r| ≤ 1e19) (h2 : η ≤ 1) (hA : |Real.arsinh r| ≤ A)
    (hE : 1.002 * δ + η + 9e-16 * (A + (1.002 * δ + η)) + 1e-70 ≤ E) : Near (Flt.asinh x) (Real.arsinh r) E := by
  obtain ⟨c, c1, c2⟩ := split_abs h.2 (mul_nonneg h0 (abs_nonneg r)) hη
  have hb : |x.toQ| ≤ 1e20 := by
    have h3 : |(x.toQ : ℝ)| ≤ ((1e20 : ℚ) : ℝ) := by
      have := abs_add_le ((x.toQ : ℝ) - r) r
      rw [sub_add_cancel] at this
      have h4 := h.2
      have h5 : δ * |r| ≤ 1e-3 * 1e19 := mul_le_mul h1 hx (abs_nonneg _) (by norm_num)
      norm_num at *
      linarith
    rw [← Rat.cast_abs] at h3
    exact Rat.cast_le.1 h3
  refine Near.of_fn (hL.asinh x h.1 hb) (D := 1.002 * δ + η) ?_ hA (by positivity) (by norm_num) hE
  have k1 := arsinh_rel (x := r + c) (r := r) (by rw [add_sub_cancel_left]; exact c1) h0 h1
  rw [sub_sub] at c2
  have k2 := (arsinh_lip x.toQ (r + c)).trans c2
  have k3 := abs_sub_le (Real.arsinh x.toQ) (Real.arsinh (r + c)) (Real.arsinh r)
  linarith

/-- `atan(sinh(x))`. -/
theorem Near.gd (hL : AccurateProjection L) (h : Near x r ε) (hr : |r| + ε ≤ 32) (hE : ε + 1e-15 ≤ E) (hE1 : E ≤ 1e-3) :
    Near (Flt.atan (Flt.sinh x)) (Real.arctan (Real.sinh r)) E := by
  have k := hL.sinh x h.1 (h.abs_le_rat (by push_cast; exact hr))
  obtain ⟨c, c1, c2⟩ := split_abs k.2 (by positivity) (by positivity)
  have h0 := h.nonneg
  have k1 := arctan_rel (x := Real.sinh x.toQ + c) (r := Real.sinh x.toQ) (δ := 2⁻¹ ^ 51) (by rw [add_sub_cancel_left]; exact c1)
    (by positivity) (by norm_num)
  rw [sub_sub] at c2
  have k2 := (arctan_lip (Flt.sinh x : F64 L).toQ (Real.sinh x.toQ + c)).trans c2
  have k3 := abs_sub_le (Real.arctan (Flt.sinh x : F64 L).toQ) (Real.arctan (Real.sinh x.toQ + c)) (Real.arctan (Real.sinh x.toQ))
  have k4 := abs_sub_le (Real.arctan (Flt.sinh x : F64 L).toQ) (Real.arctan (Real.sinh x.toQ)) (Real.arctan (Real.sinh r))
  have k5 := (gd_lip x.toQ r).trans h.2
  have k6 := tiny_le
  have hp := Real.pi_lt_d2
  have b : |Real.arctan (Real.sinh r)| ≤ 1.575 := by
    have h1 := Real.neg_pi_div_two_lt_arctan (Real.sinh r)
    have h2 := Real.arctan_lt_pi_div_two (Real.sinh r)
    rw [_root_.abs_le]
    norm_num at *
    constructor <;> linarith
  refine Near.of_fn (f := Real.arctan) (hL.atan _ k.1) (D := ε + 2.3e-16) ?_ b (by positivity) (show (2⁻¹ : ℝ) ^ 51 ≤ 4.45e-16 by norm_num) ?_
  · generalize (2⁻¹ : ℝ) ^ 1074 = t at *
    norm_num at *
    linarith
  · norm_num at *
    linarith

theorem tan_rel (hL : AccurateProjection L) {x : F64 L} (h : x.isFinite) (hb : |x.toQ| ≤ (Flt.pi_2 : F64 L).toQ) :
    Rel (Flt.tan x) (Real.tan x.toQ) 4.5e-16 1e-71 := by
  obtain ⟨f, k⟩ := hL.tan x h hb
  refine ⟨f, k.trans (add_le_add (mul_le_mul_of_nonneg_right (by norm_num) (abs_nonneg _)) tiny_le)⟩

end Geo.Spec
