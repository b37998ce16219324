import Verif.Lemmas.SeriesFns
import Verif.Lemmas.Isometric

/-!
The series of the inverse Mercator projection: latitude from conformal latitude, up to the power 8 of the eccentricity.
-/

namespace Geo.Ser

/-- A real angle and a small parameter. -/
noncomputable def realEnv {r : ℚ} (ε θ : ℝ) (h : |ε| ≤ r) : Env ℝ r 1 where
  ε := ε
  C k := Real.cos (k * θ)
  S k := Real.sin (k * θ)
  C0 := by simp
  S0 := by simp
  Cs k := by push_cast; rw [add_mul, Real.cos_add]; simp; ring
  Ss k := by push_cast; rw [add_mul, Real.sin_add]; simp; ring
  circle := Real.sin_sq_add_cos_sq _
  hε := h
  hC k := by simpa using Real.abs_cos_le_one _
  hS k := by simpa using Real.abs_sin_le_one _

/-! ### The function `artanh (√t) / √t` -/

def artQ : List ℚ := [1, 1/3, 1/5, 1/7, 1/9]

/-- `artanh (√t) / √t`, continued by its Taylor polynomial. -/
noncomputable def artF (t : ℝ) : ℝ := if 0 < t then Real.artanh (Real.sqrt t) / Real.sqrt t else qeval t artQ

theorem artanh_taylor {y : ℝ} (h0 : 0 ≤ y) (h1 : y ^ 2 ≤ 1 / 40) :
    |Real.artanh y - (y + y ^ 3 / 3 + y ^ 5 / 5 + y ^ 7 / 7 + y ^ 9 / 9)| ≤ 1 / 10 * y ^ 11 := by
  have hy1 : y < 1 := by nlinarith
  have hsq : ∀ x ∈ Set.Icc 0 y, 0 ≤ x ∧ x < 1 ∧ x ^ 2 ≤ 1 / 40 := by
    intro x hx
    exact ⟨hx.1, lt_of_le_of_lt hx.2 hy1, le_trans (by nlinarith [hx.1, hx.2]) h1⟩
  have hd : ∀ x ∈ Set.Icc 0 y, HasDerivAt (fun x => Real.artanh x - (x + x ^ 3 / 3 + x ^ 5 / 5 + x ^ 7 / 7 + x ^ 9 / 9))
      (x ^ 10 / (1 - x ^ 2)) x := by
    intro x hx
    obtain ⟨a1, a2, a3⟩ := hsq x hx
    have e1 := hasDerivAt_artanh (x := x) (by linarith) a2
    have e2 : HasDerivAt (fun x : ℝ => x + x ^ 3 / 3 + x ^ 5 / 5 + x ^ 7 / 7 + x ^ 9 / 9)
        (1 + x ^ 2 + x ^ 4 + x ^ 6 + x ^ 8) x := by
      have p := fun n : ℕ => hasDerivAt_pow n x
      refine HasDerivAt.congr_deriv (((((hasDerivAt_id x).add ((p 3).div_const 3)).add ((p 5).div_const 5)).add
        ((p 7).div_const 7)).add ((p 9).div_const 9)) ?_
      push_cast; ring
    refine HasDerivAt.congr_deriv (e1.sub e2) ?_
    have : 1 - x ^ 2 ≠ 0 := by nlinarith
    field_simp
    ring
  have hd2 : ∀ x ∈ Set.Icc 0 y, HasDerivAt (fun x : ℝ => 1 / 10 * x ^ 11) (1 / 10 * (11 * x ^ 10)) x := by
    intro x _
    refine HasDerivAt.congr_deriv ((hasDerivAt_pow 11 x).const_mul (1 / 10)) ?_
    push_cast; ring
  set f := fun x => Real.artanh x - (x + x ^ 3 / 3 + x ^ 5 / 5 + x ^ 7 / 7 + x ^ 9 / 9) with hf
  set g := fun x : ℝ => 1 / 10 * x ^ 11 with hg
  have hf0 : f 0 = 0 := by simp [hf]
  have hg0 : g 0 = 0 := by simp [hg]
  have m1 : MonotoneOn f (Set.Icc 0 y) := by
    apply monotoneOn_of_deriv_nonneg (convex_Icc _ _)
    · exact fun x hx => (hd x hx).continuousAt.continuousWithinAt
    · exact fun x hx => (hd x (interior_subset hx)).differentiableAt.differentiableWithinAt
    · intro x hx
      rw [(hd x (interior_subset hx)).deriv]
      obtain ⟨a1, a2, a3⟩ := hsq x (interior_subset hx)
      exact div_nonneg (by positivity) (by linarith)
  have m2 : MonotoneOn (fun x => g x - f x) (Set.Icc 0 y) := by
    have hd3 := fun x hx => (hd2 x hx).sub (hd x hx)
    apply monotoneOn_of_deriv_nonneg (convex_Icc _ _)
    · exact fun x hx => (hd3 x hx).continuousAt.continuousWithinAt
    · exact fun x hx => (hd3 x (interior_subset hx)).differentiableAt.differentiableWithinAt
    · intro x hx
      have := (hd3 x (interior_subset hx)).deriv
      rw [show (fun x => g x - f x) = g - f from rfl, this]
      obtain ⟨a1, a2, a3⟩ := hsq x (interior_subset hx)
      have hp : 0 < 1 - x ^ 2 := by linarith
      rw [sub_nonneg, div_le_iff₀ hp]
      have : 0 ≤ x ^ 10 := by positivity
      nlinarith
  have h2 := m1 (Set.left_mem_Icc.2 h0) (Set.right_mem_Icc.2 h0) h0
  have h3 := m2 (Set.left_mem_Icc.2 h0) (Set.right_mem_Icc.2 h0) h0
  simp only [hf0, hg0] at h2 h3
  rw [abs_of_nonneg h2]
  show f y ≤ g y
  linarith

theorem artF_taylor (t : ℝ) (ht : ‖t‖ ≤ ((1 / 40 : ℚ) : ℝ)) : ‖artF t - qeval t artQ‖ ≤ ((1 / 10 : ℚ) : ℝ) * ‖t‖ ^ 5 := by
  unfold artF
  split
  · rename_i h0
    have hs : 0 < Real.sqrt t := Real.sqrt_pos.2 h0
    have hsq : Real.sqrt t ^ 2 = t := Real.sq_sqrt h0.le
    rw [Real.norm_eq_abs, abs_of_pos h0] at ht
    push_cast at ht
    have h := artanh_taylor hs.le (by rw [hsq]; linarith)
    set y := Real.sqrt t
    rw [Real.norm_eq_abs, Real.norm_eq_abs, abs_of_pos h0]
    have e : Real.artanh y / y - qeval t artQ =
        (Real.artanh y - (y + y ^ 3 / 3 + y ^ 5 / 5 + y ^ 7 / 7 + y ^ 9 / 9)) / y := by
      rw [← hsq]
      simp only [qeval, artQ]; push_cast; field_simp; ring
    rw [e, abs_div, abs_of_pos hs, div_le_iff₀ hs]
    refine h.trans (le_of_eq ?_)
    rw [← hsq]; push_cast; ring
  · simp

theorem e_artanh {ε x : ℝ} (h : 0 ≤ ε) (hlt : -1 < Real.sqrt ε * x ∧ Real.sqrt ε * x < 1) :
    Real.sqrt ε * Real.artanh (Real.sqrt ε * x) = ε * (x * artF (ε * (x * x))) := by
  by_cases h0 : 0 < ε * (x * x)
  · have he : 0 < ε := by
      rcases h.lt_or_eq with h | h
      · exact h
      · rw [← h] at h0; simp at h0
    have hx : x ≠ 0 := by rintro rfl; simp at h0
    have hsq := Real.sq_sqrt he.le
    have hse : 0 < Real.sqrt ε := Real.sqrt_pos.2 he
    rw [artF, if_pos h0, Real.sqrt_mul he.le, Real.sqrt_mul_self_eq_abs]
    rcases lt_or_gt_of_ne hx with hx' | hx'
    · rw [abs_of_neg hx', mul_neg]
      have hodd : Real.artanh (-(Real.sqrt ε * x)) = -Real.artanh (Real.sqrt ε * x) := artanh_neg' hlt.1 hlt.2
      rw [hodd]
      field_simp
      rw [hsq]; ring
    · rw [abs_of_pos hx']
      field_simp
      rw [hsq]; ring
  · have : ε * (x * x) = 0 := le_antisymm (not_lt.1 h0) (mul_nonneg h (mul_self_nonneg x))
    rcases mul_eq_zero.1 this with h1 | h1
    · subst h1; simp
    · have : x = 0 := mul_self_eq_zero.1 h1
      subst this; simp

/-! ### The residual of the series -/

namespace Merc

def sin2 : Co := ⟨[], [0, 2]⟩
def sin4 : Co := ⟨[], [0, 4, 0, -8]⟩
def sin6 : Co := ⟨[], [0, 6, 0, -32, 0, 32]⟩
def sin8 : Co := ⟨[], [0, 8, 0, -80, 0, 192, 0, -128]⟩
def sinC : Co := ⟨[0, 1], []⟩
def cosC : Co := ⟨[], [1]⟩

variable {r M : ℚ}

theorem cv_sin2 (E : Env ℝ r M) : cv E sin2 = 2 * E.s * E.c := by
  simp [cv, sin2, peval, qv]; ring
theorem cv_sin4 (E : Env ℝ r M) : cv E sin4 = 4 * E.s * E.c * (1 - 2 * E.s ^ 2) := by
  simp [cv, sin4, peval, qv]; ring
theorem cv_sin6 (E : Env ℝ r M) : cv E sin6 = 2 * E.s * E.c * (3 - 16 * E.s ^ 2 + 16 * E.s ^ 4) := by
  simp [cv, sin6, peval, qv]; ring
theorem cv_sin8 (E : Env ℝ r M) : cv E sin8 = 8 * E.s * E.c * (1 - 10 * E.s ^ 2 + 24 * E.s ^ 4 - 16 * E.s ^ 6) := by
  simp [cv, sin8, peval, qv]; ring

theorem sin_4 (χ : ℝ) : Real.sin (4 * χ) = 4 * Real.sin χ * Real.cos χ * (1 - 2 * Real.sin χ ^ 2) := by
  rw [show 4 * χ = 2 * (2 * χ) by ring, Real.sin_two_mul, Real.sin_two_mul, Real.cos_two_mul, Real.cos_sq']; ring
theorem cos_4 (χ : ℝ) : Real.cos (4 * χ) = 1 - 8 * Real.sin χ ^ 2 + 8 * Real.sin χ ^ 4 := by
  rw [show 4 * χ = 2 * (2 * χ) by ring, Real.cos_two_mul, Real.cos_two_mul, Real.cos_sq']; ring
theorem sin_6 (χ : ℝ) :
    Real.sin (6 * χ) = 2 * Real.sin χ * Real.cos χ * (3 - 16 * Real.sin χ ^ 2 + 16 * Real.sin χ ^ 4) := by
  rw [show 6 * χ = 4 * χ + 2 * χ by ring, Real.sin_add, sin_4, cos_4, Real.sin_two_mul, Real.cos_two_mul, Real.cos_sq']
  ring
theorem sin_8 (χ : ℝ) : Real.sin (8 * χ) =
    8 * Real.sin χ * Real.cos χ * (1 - 10 * Real.sin χ ^ 2 + 24 * Real.sin χ ^ 4 - 16 * Real.sin χ ^ 6) := by
  rw [show 8 * χ = 2 * (4 * χ) by ring, Real.sin_two_mul, sin_4, cos_4]
  ring

def r0 : ℚ := 1 / 50
def mulM (a b : Mod) : Mod := Mod.mul 5 r0 1 a b
def compM (q : List ℚ) (κ : ℚ) (a : Mod) : Mod := Mod.comp 5 r0 1 q κ a

/-- The series, as in the code, without its first term. -/
def SL : List Co :=
  [Co.zero, Co.ofQ (1/2) * sin2, Co.ofQ (5/24) * sin2 + Co.ofQ (7/48) * sin4,
   Co.ofQ (1/12) * sin2 + Co.ofQ (29/240) * sin4 + Co.ofQ (7/120) * sin6,
   Co.ofQ (13/360) * sin2 + Co.ofQ (811/11520) * sin4 + Co.ofQ (81/1120) * sin6 + Co.ofQ (4279/161280) * sin8]
def SM : Mod := Mod.exact SL
def sinSM : Mod := compM (sinQ 5) (expK 5) SM
def cosSM : Mod := compM (cosQ 5) (expK 5) SM
def XM : Mod := (mulM (.const sinC) cosSM).add (mulM (.const cosC) sinSM)
def epsM : Mod := Mod.exact [Co.zero, Co.ofQ 1]
def TM : Mod := mulM epsM (mulM XM XM)
def AM : Mod := compM artQ (1/10) TM
def WM : Mod := mulM epsM (mulM XM AM)
def shM : Mod := compM (sinhQ 5) (expK 5) WM
def chM : Mod := compM (coshQ 5) (expK 5) WM
def EM : Mod := sinSM.add (mulM (.const cosC) ((mulM XM (chM.add (.const (Co.ofQ (-1))))).sub shM))

/-- Everything that has to be computed. -/
theorem checks : (SM.co.head?.all Co.isZero && decide (SM.slope 5 r0 1 * r0 ≤ 1) && TM.co.head?.all Co.isZero &&
    decide (TM.slope 5 r0 1 * r0 ≤ 1/40) && WM.co.head?.all Co.isZero && decide (WM.slope 5 r0 1 * r0 ≤ 1) &&
    EM.co.all Co.isZero && decide (EM.rem ≤ 13/10)) = true := by decide +kernel

/-- The series without its first term. -/
noncomputable def S (ε χ : ℝ) : ℝ :=
  (ε / 2 + 5 / 24 * ε ^ 2 + ε ^ 3 / 12 + 13 / 360 * ε ^ 4) * Real.sin (2 * χ)
    + (7 / 48 * ε ^ 2 + 29 / 240 * ε ^ 3 + 811 / 11520 * ε ^ 4) * Real.sin (4 * χ)
    + (7 / 120 * ε ^ 3 + 81 / 1120 * ε ^ 4) * Real.sin (6 * χ)
    + 4279 / 161280 * ε ^ 4 * Real.sin (8 * χ)

theorem residual {ε : ℝ} (h0 : 0 ≤ ε) (h1 : ε ≤ 1 / 50) (χ : ℝ) :
    |Real.sin (S ε χ) + Real.cos χ * (Real.sin (χ + S ε χ) *
      (Real.cosh (Real.sqrt ε * Real.artanh (Real.sqrt ε * Real.sin (χ + S ε χ))) - 1) -
      Real.sinh (Real.sqrt ε * Real.artanh (Real.sqrt ε * Real.sin (χ + S ε χ))))| ≤ 13 / 10 * ε ^ 5 := by
  have hc := checks
  simp only [Bool.and_eq_true, decide_eq_true_eq] at hc
  obtain ⟨⟨⟨⟨⟨⟨⟨c1, c2⟩, c3⟩, c4⟩, c5⟩, c6⟩, c7⟩, c8⟩ := hc
  let E : Env ℝ r0 1 := realEnv ε χ (by rw [abs_of_nonneg h0]; norm_num [r0]; linarith)
  have hs : E.s = Real.sin χ := by simp [E, realEnv, Env.s]
  have hcc : E.c = Real.cos χ := by simp [E, realEnv, Env.c]
  have hε : E.ε = ε := rfl
  have iS : Is 5 E SM (S ε χ) := by
    refine (Is.exact E SL).congr ?_
    simp only [sv, SL, peval, cv_add, cv_mul, cv_ofQ, cv_zero, cv_sin2, cv_sin4, cv_sin6, cv_sin8, hs, hcc, hε]
    rw [S, sin_4, sin_6, sin_8, Real.sin_two_mul]
    push_cast; ring
  have iSin : Is 5 E sinSM (Real.sin (S ε χ)) := iS.comp (by norm_num) c1 (by norm_num [expK, Nat.factorial]) c2 (rsin_taylor (by norm_num))
  have iCos : Is 5 E cosSM (Real.cos (S ε χ)) := iS.comp (by norm_num) c1 (by norm_num [expK, Nat.factorial]) c2 (rcos_taylor (by norm_num))
  have is : Is 5 E (.const sinC) (Real.sin χ) := (Is.const E sinC).congr (by rw [← hs]; simp [cv, sinC, peval, qv])
  have ic : Is 5 E (.const cosC) (Real.cos χ) := (Is.const E cosC).congr (by rw [← hcc]; simp [cv, cosC, peval, qv])
  set x := Real.sin (χ + S ε χ) with hx
  have iX : Is 5 E XM x := ((is.mul iCos).add (ic.mul iSin)).congr (by rw [hx, Real.sin_add])
  have ie : Is 5 E epsM ε := (Is.exact E _).congr (by simp [sv, peval, cv_zero, cv_ofQ, hε])
  have iT : Is 5 E TM (ε * (x * x)) := ie.mul (iX.mul iX)
  have iA : Is 5 E AM (artF (ε * (x * x))) := iT.comp (by norm_num) c3 (by norm_num) c4 artF_taylor
  have hlt : -1 < Real.sqrt ε * x ∧ Real.sqrt ε * x < 1 :=
    abs_e_sin_lt (Real.sqrt_nonneg _) (by rw [Real.sqrt_lt' one_pos]; linarith) _
  have iW : Is 5 E WM (Real.sqrt ε * Real.artanh (Real.sqrt ε * x)) :=
    (ie.mul (iX.mul iA)).congr (e_artanh h0 hlt).symm
  set w := Real.sqrt ε * Real.artanh (Real.sqrt ε * x)
  have iSh : Is 5 E shM (Real.sinh w) := iW.comp (by norm_num) c5 (by norm_num [expK, Nat.factorial]) c6 (rsinh_taylor (by norm_num))
  have iCh : Is 5 E chM (Real.cosh w) := iW.comp (by norm_num) c5 (by norm_num [expK, Nat.factorial]) c6 (rcosh_taylor (by norm_num))
  have i1 : Is 5 E (.const (Co.ofQ (-1))) (-1 : ℝ) := (Is.const E _).congr (by rw [cv_ofQ]; norm_num)
  have iE : Is 5 E EM (Real.sin (S ε χ) + Real.cos χ * (x * (Real.cosh w + -1) - Real.sinh w)) :=
    iSin.add (ic.mul ((iX.mul (iCh.add i1)).sub iSh))
  have := iE.bound c7 c8
  rw [Real.norm_eq_abs, Real.norm_eq_abs, hε, abs_of_nonneg h0] at this
  push_cast at this
  rw [← sub_eq_add_neg] at this
  exact this

end Merc

end Geo.Ser
