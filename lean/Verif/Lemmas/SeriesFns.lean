import Verif.Lemmas.Series
import Mathlib.Analysis.Complex.Trigonometric
import Mathlib.Analysis.SpecialFunctions.Exp
import Mathlib.Algebra.BigOperators.Field

/-! Taylor polynomials, with remainder, of the functions used with `Geo.Ser`. -/

namespace Geo.Ser
open Complex

theorem qeval_append {K : Type} [RCLike K] (x : K) : ∀ p q : List ℚ, qeval x (p ++ q) = qeval x p + x ^ p.length * qeval x q
  | [], q => by simp [qeval]
  | a :: p, q => by
    rw [List.cons_append, qeval, qeval, qeval_append x p q, List.length_cons, pow_succ]; ring

theorem qeval_range {K : Type} [RCLike K] (x : K) (f : ℕ → ℚ) (N : ℕ) :
    qeval x ((List.range N).map f) = ∑ m ∈ Finset.range N, (f m : K) * x ^ m := by
  induction N with
  | zero => simp [qeval]
  | succ N ih =>
    rw [List.range_succ, List.map_append, qeval_append, ih, Finset.sum_range_succ]
    simp [qeval]; ring

theorem qeval_ofReal (x : ℝ) : ∀ q : List ℚ, ((qeval x q : ℝ) : ℂ) = qeval (x : ℂ) q
  | [] => by simp [qeval]
  | a :: q => by simp only [qeval]; push_cast; rw [qeval_ofReal x q]

/-- Taylor coefficients. -/
def sinQ (N : ℕ) : List ℚ := (List.range N).map fun m =>
  if m % 4 = 1 then 1 / (m.factorial : ℚ) else if m % 4 = 3 then -1 / (m.factorial : ℚ) else 0
def cosQ (N : ℕ) : List ℚ := (List.range N).map fun m =>
  if m % 4 = 0 then 1 / (m.factorial : ℚ) else if m % 4 = 2 then -1 / (m.factorial : ℚ) else 0
def sinhQ (N : ℕ) : List ℚ := (List.range N).map fun m => if m % 2 = 1 then 1 / (m.factorial : ℚ) else 0
def coshQ (N : ℕ) : List ℚ := (List.range N).map fun m => if m % 2 = 0 then 1 / (m.factorial : ℚ) else 0
/-- Bound of the remainder for `‖x‖ ≤ 1`. -/
def expK (N : ℕ) : ℚ := (N + 1) / (N.factorial * N)

theorem exp_taylor {N : ℕ} (hN : 0 < N) (z : ℂ) (hz : ‖z‖ ≤ 1) :
    ‖Complex.exp z - ∑ m ∈ Finset.range N, z ^ m / m.factorial‖ ≤ (expK N : ℝ) * ‖z‖ ^ N := by
  have h := Complex.exp_bound hz hN
  refine h.trans (le_of_eq ?_)
  simp only [expK]; push_cast
  rw [mul_comm, div_eq_mul_inv]

theorem half_sum {a b : ℂ} {B : ℝ} (ha : ‖a‖ ≤ B) (hb : ‖b‖ ≤ B) (u : ℂ) (hu : ‖u‖ = 1) :
    ‖(a + b) * u / 2‖ ≤ B := by
  rw [norm_div, norm_mul, hu, mul_one]
  have := norm_add_le a b
  norm_num
  linarith

theorem half_sub {a b : ℂ} {B : ℝ} (ha : ‖a‖ ≤ B) (hb : ‖b‖ ≤ B) (u : ℂ) (hu : ‖u‖ = 1) :
    ‖(a - b) * u / 2‖ ≤ B := by
  rw [sub_eq_add_neg]
  exact half_sum ha (by rwa [norm_neg]) u hu

theorem I_pow_cases (m : ℕ) : (m % 4 = 0 ∧ I ^ m = 1 ∧ (-I) ^ m = 1) ∨ (m % 4 = 1 ∧ I ^ m = I ∧ (-I) ^ m = -I) ∨
    (m % 4 = 2 ∧ I ^ m = -1 ∧ (-I) ^ m = -1) ∨ (m % 4 = 3 ∧ I ^ m = -I ∧ (-I) ^ m = I) := by
  have h4 : I ^ 4 = 1 := by rw [show 4 = 2 * 2 by rfl, pow_mul, I_sq]; ring
  have h4' : (-I) ^ 4 = 1 := by rw [neg_pow, h4]; norm_num
  have e : I ^ m = I ^ (m % 4) := by
    conv_lhs => rw [← Nat.div_add_mod m 4, pow_add, pow_mul, h4, one_pow, one_mul]
  have e' : (-I) ^ m = (-I) ^ (m % 4) := by
    conv_lhs => rw [← Nat.div_add_mod m 4, pow_add, pow_mul, h4', one_pow, one_mul]
  have hlt : m % 4 < 4 := Nat.mod_lt _ (by norm_num)
  have h3 : I ^ 3 = -I := by rw [pow_succ, I_sq]; ring
  rw [e, e']
  rcases (by omega : m % 4 = 0 ∨ m % 4 = 1 ∨ m % 4 = 2 ∨ m % 4 = 3) with h | h | h | h <;> rw [h]
  · simp
  · simp
  · simp
  · refine Or.inr (Or.inr (Or.inr ⟨rfl, h3, ?_⟩))
    rw [neg_pow, h3]; norm_num

theorem sin_taylor {N : ℕ} (hN : 0 < N) (z : ℂ) (hz : ‖z‖ ≤ 1) :
    ‖Complex.sin z - qeval z (sinQ N)‖ ≤ (expK N : ℝ) * ‖z‖ ^ N := by
  have h1 := exp_taylor hN (-z * I) (by simpa using hz)
  have h2 := exp_taylor hN (z * I) (by simpa using hz)
  have hn1 : ‖-z * I‖ = ‖z‖ := by simp
  have hn2 : ‖z * I‖ = ‖z‖ := by simp
  rw [hn1] at h1
  rw [hn2] at h2
  have h := half_sub h1 h2 I norm_I
  refine le_of_eq_of_le ?_ h
  congr 1
  rw [sinQ, qeval_range, Complex.sin]
  have : ∑ m ∈ Finset.range N, (((if m % 4 = 1 then 1 / (m.factorial : ℚ) else if m % 4 = 3 then -1 / (m.factorial : ℚ) else 0 : ℚ)) : ℂ) * z ^ m
      = ((∑ m ∈ Finset.range N, (-z * I) ^ m / m.factorial) - ∑ m ∈ Finset.range N, (z * I) ^ m / m.factorial) * I / 2 := by
    rw [← Finset.sum_sub_distrib, Finset.sum_mul, Finset.sum_div]
    refine Finset.sum_congr rfl fun m _ => ?_
    have hf : (m.factorial : ℂ) ≠ 0 := by exact_mod_cast m.factorial_ne_zero
    rw [show -z * I = z * (-I) by ring, mul_pow, mul_pow]
    rcases I_pow_cases m with ⟨h, e1, e2⟩ | ⟨h, e1, e2⟩ | ⟨h, e1, e2⟩ | ⟨h, e1, e2⟩ <;> rw [e1, e2]
    · rw [if_neg (by omega), if_neg (by omega)]; push_cast; ring
    · rw [if_pos (by omega)]; push_cast; linear_combination (z ^ m / m.factorial) * I_sq
    · rw [if_neg (by omega), if_neg (by omega)]; push_cast; ring
    · rw [if_neg (by omega), if_pos (by omega)]; push_cast; linear_combination (-(z ^ m / m.factorial)) * I_sq
  rw [this]; ring

theorem cos_taylor {N : ℕ} (hN : 0 < N) (z : ℂ) (hz : ‖z‖ ≤ 1) :
    ‖Complex.cos z - qeval z (cosQ N)‖ ≤ (expK N : ℝ) * ‖z‖ ^ N := by
  have h1 := exp_taylor hN (z * I) (by simpa using hz)
  have h2 := exp_taylor hN (-z * I) (by simpa using hz)
  have hn1 : ‖-z * I‖ = ‖z‖ := by simp
  have hn2 : ‖z * I‖ = ‖z‖ := by simp
  rw [hn2] at h1
  rw [hn1] at h2
  have h := half_sum h1 h2 1 norm_one
  refine le_of_eq_of_le ?_ h
  congr 1
  rw [cosQ, qeval_range, Complex.cos]
  have : ∑ m ∈ Finset.range N, (((if m % 4 = 0 then 1 / (m.factorial : ℚ) else if m % 4 = 2 then -1 / (m.factorial : ℚ) else 0 : ℚ)) : ℂ) * z ^ m
      = ((∑ m ∈ Finset.range N, (z * I) ^ m / m.factorial) + ∑ m ∈ Finset.range N, (-z * I) ^ m / m.factorial) / 2 := by
    rw [← Finset.sum_add_distrib, Finset.sum_div]
    refine Finset.sum_congr rfl fun m _ => ?_
    have hf : (m.factorial : ℂ) ≠ 0 := by exact_mod_cast m.factorial_ne_zero
    rw [show -z * I = z * (-I) by ring, mul_pow, mul_pow]
    rcases I_pow_cases m with ⟨h, e1, e2⟩ | ⟨h, e1, e2⟩ | ⟨h, e1, e2⟩ | ⟨h, e1, e2⟩ <;> rw [e1, e2] <;> simp [h] <;> field_simp <;>
      norm_num
  rw [this]; ring

theorem sinh_taylor {N : ℕ} (hN : 0 < N) (z : ℂ) (hz : ‖z‖ ≤ 1) :
    ‖Complex.sinh z - qeval z (sinhQ N)‖ ≤ (expK N : ℝ) * ‖z‖ ^ N := by
  have h1 := exp_taylor hN z hz
  have h2 := exp_taylor hN (-z) (by simpa using hz)
  rw [norm_neg] at h2
  have h := half_sub h1 h2 1 norm_one
  refine le_of_eq_of_le ?_ h
  congr 1
  rw [sinhQ, qeval_range, Complex.sinh]
  have : ∑ m ∈ Finset.range N, (((if m % 2 = 1 then 1 / (m.factorial : ℚ) else 0 : ℚ)) : ℂ) * z ^ m
      = ((∑ m ∈ Finset.range N, z ^ m / m.factorial) - ∑ m ∈ Finset.range N, (-z) ^ m / m.factorial) / 2 := by
    rw [← Finset.sum_sub_distrib, Finset.sum_div]
    refine Finset.sum_congr rfl fun m _ => ?_
    have hf : (m.factorial : ℂ) ≠ 0 := by exact_mod_cast m.factorial_ne_zero
    rcases Nat.even_or_odd m with h | h
    · rw [h.neg_pow, if_neg (by have := Nat.even_iff.1 h; omega)]; simp
    · rw [h.neg_pow, if_pos (Nat.odd_iff.1 h)]; push_cast; field_simp; ring
  rw [this]; ring

theorem cosh_taylor {N : ℕ} (hN : 0 < N) (z : ℂ) (hz : ‖z‖ ≤ 1) :
    ‖Complex.cosh z - qeval z (coshQ N)‖ ≤ (expK N : ℝ) * ‖z‖ ^ N := by
  have h1 := exp_taylor hN z hz
  have h2 := exp_taylor hN (-z) (by simpa using hz)
  rw [norm_neg] at h2
  have h := half_sum h1 h2 1 norm_one
  refine le_of_eq_of_le ?_ h
  congr 1
  rw [coshQ, qeval_range, Complex.cosh]
  have : ∑ m ∈ Finset.range N, (((if m % 2 = 0 then 1 / (m.factorial : ℚ) else 0 : ℚ)) : ℂ) * z ^ m
      = ((∑ m ∈ Finset.range N, z ^ m / m.factorial) + ∑ m ∈ Finset.range N, (-z) ^ m / m.factorial) / 2 := by
    rw [← Finset.sum_add_distrib, Finset.sum_div]
    refine Finset.sum_congr rfl fun m _ => ?_
    have hf : (m.factorial : ℂ) ≠ 0 := by exact_mod_cast m.factorial_ne_zero
    rcases Nat.even_or_odd m with h | h
    · rw [h.neg_pow, if_pos (Nat.even_iff.1 h)]; push_cast; field_simp; ring
    · rw [h.neg_pow, if_neg (by have := Nat.odd_iff.1 h; omega)]; push_cast; field_simp; ring
  rw [this]; ring

/-! Over the reals. -/

theorem real_taylor {F : ℝ → ℝ} {G : ℂ → ℂ} {q : List ℚ} {κ ρ : ℚ} {N : ℕ} (hFG : ∀ x : ℝ, ((F x : ℝ) : ℂ) = G x)
    (h : ∀ z : ℂ, ‖z‖ ≤ ρ → ‖G z - qeval z q‖ ≤ κ * ‖z‖ ^ N) (x : ℝ) (hx : ‖x‖ ≤ ρ) :
    ‖F x - qeval x q‖ ≤ κ * ‖x‖ ^ N := by
  have h1 := h x (by rwa [Complex.norm_real])
  rwa [← hFG, ← qeval_ofReal, ← Complex.ofReal_sub, Complex.norm_real, Complex.norm_real] at h1

theorem rsin_taylor {N : ℕ} (hN : 0 < N) (x : ℝ) (hx : ‖x‖ ≤ ((1 : ℚ) : ℝ)) :
    ‖Real.sin x - qeval x (sinQ N)‖ ≤ (expK N : ℝ) * ‖x‖ ^ N :=
  real_taylor Complex.ofReal_sin (fun z hz => sin_taylor hN z (by simpa using hz)) x hx

theorem rcos_taylor {N : ℕ} (hN : 0 < N) (x : ℝ) (hx : ‖x‖ ≤ ((1 : ℚ) : ℝ)) :
    ‖Real.cos x - qeval x (cosQ N)‖ ≤ (expK N : ℝ) * ‖x‖ ^ N :=
  real_taylor Complex.ofReal_cos (fun z hz => cos_taylor hN z (by simpa using hz)) x hx

theorem rsinh_taylor {N : ℕ} (hN : 0 < N) (x : ℝ) (hx : ‖x‖ ≤ ((1 : ℚ) : ℝ)) :
    ‖Real.sinh x - qeval x (sinhQ N)‖ ≤ (expK N : ℝ) * ‖x‖ ^ N :=
  real_taylor Complex.ofReal_sinh (fun z hz => sinh_taylor hN z (by simpa using hz)) x hx

theorem rcosh_taylor {N : ℕ} (hN : 0 < N) (x : ℝ) (hx : ‖x‖ ≤ ((1 : ℚ) : ℝ)) :
    ‖Real.cosh x - qeval x (coshQ N)‖ ≤ (expK N : ℝ) * ‖x‖ ^ N :=
  real_taylor Complex.ofReal_cosh (fun z hz => cosh_taylor hN z (by simpa using hz)) x hx

end Geo.Ser
