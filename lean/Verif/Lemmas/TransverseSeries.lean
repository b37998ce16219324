import Verif.Lemmas.KarneySeries
import Verif.Spec.TransverseMercator

/-!
The two correction series of transverse Mercator are inverse to each other, up to terms of the fifth order in the third
flattening.
-/

namespace Geo.Ser
namespace Tm

def r0 : ℚ := 1 / 190
def hQ : ℕ → List ℚ
  | 1 => [0, 1/2, -2/3, 5/16, 41/180]
  | 2 => [0, 0, 13/48, -3/5, 557/1440]
  | 3 => [0, 0, 0, 61/240, -103/140]
  | 4 => [0, 0, 0, 0, 49561/161280]
  | _ => []
/-- With the sign of the inverse. -/
def pQ : ℕ → List ℚ
  | 1 => [0, -1/2, 2/3, -37/96, 1/360]
  | 2 => [0, 0, -1/48, -1/15, 437/1440]
  | 3 => [0, 0, 0, -17/480, 37/840]
  | 4 => [0, 0, 0, 0, -4397/161280]
  | _ => []

section
-- `f`, `g`: coefficients of the series applied first and second.
variable (M : ℚ) (f g : ℕ → List ℚ)
def mulF (a b : Mod) : Mod := Mod.mulF 5 r0 M a b
def SM : Mod := .exact (ser f sinK 4)
def S2 : Mod := (SM f).smul 2
def sD : Mod := Mod.compF 5 r0 M (sinQ 5) (expK 5) (S2 f)
def cD : Mod := Mod.compF 5 r0 M (cosQ 5) (expK 5) (S2 f)
/-- Sine and cosine of twice the argument of the second series. -/
def X1 : Mod := (mulF M (.const sinC) (cD M f)).add (mulF M (.const cosC) (sD M f))
def Y1 : Mod := (mulF M (.const cosC) (cD M f)).sub (mulF M (.const sinC) (sD M f))
def XY : ℕ → Mod × Mod
  | 0 => (.const Co.zero, .const (Co.ofQ 1))
  | k + 1 => let p := XY k; ((mulF M (X1 M f) p.2).add (mulF M (Y1 M f) p.1),
      (mulF M (Y1 M f) p.2).sub (mulF M (X1 M f) p.1))
def sumM : ℕ → Mod
  | 0 => SM f
  | k + 1 => (sumM k).add (mulF M (qM (g (k + 1))) (XY M f (k + 1)).1)

/-- What has to be computed. -/
def check (C : ℚ) : Bool :=
  (S2 f).co.head?.all Co.isZero && decide ((S2 f).slope 5 r0 M * r0 ≤ 1) && (sumM M f g 4).co.all Co.isZero &&
    decide ((sumM M f g 4).rem ≤ C)
end

theorem check_wide : check 3 hQ pQ 265 = true := by decide +kernel
theorem check_zone : check (5 / 4) hQ pQ (62 / 5) = true := by decide +kernel

theorem check_wide' : check 3 pQ hQ 565 = true := by decide +kernel
theorem check_zone' : check (5 / 4) pQ hQ 30 = true := by decide +kernel

theorem norm_sin_le (z : ℂ) : ‖Complex.sin z‖ ≤ Real.exp |z.im| ∧ ‖Complex.cos z‖ ≤ Real.exp |z.im| := by
  have h1 : ‖Complex.exp (z * Complex.I)‖ ≤ Real.exp |z.im| := by
    rw [Complex.norm_exp]
    apply Real.exp_le_exp.2
    simpa using neg_le_abs z.im
  have h2 : ‖Complex.exp (-z * Complex.I)‖ ≤ Real.exp |z.im| := by
    rw [Complex.norm_exp]
    apply Real.exp_le_exp.2
    simpa using le_abs_self z.im
  constructor
  · rw [Complex.sin]
    exact half_sub h2 h1 Complex.I Complex.norm_I
  · have h := half_sum h1 h2 1 norm_one
    rwa [mul_one] at h

/-- The angle of the series is `2 z`. -/
noncomputable def env {M : ℚ} (n : ℝ) (z : ℂ) (hn : |n| ≤ r0) (hz : Real.exp (2 * |z.im|) ≤ M) : Env ℂ r0 M where
  ε := n
  C k := Complex.cos (2 * k * z)
  S k := Complex.sin (2 * k * z)
  C0 := by simp
  S0 := by simp
  Cs k := by
    push_cast
    rw [show (2 * ((k : ℂ) + 1) * z) = 2 * k * z + 2 * 1 * z by ring, Complex.cos_add]; simp; ring
  Ss k := by
    push_cast
    rw [show (2 * ((k : ℂ) + 1) * z) = 2 * k * z + 2 * 1 * z by ring, Complex.sin_add]; simp; ring
  circle := Complex.sin_sq_add_cos_sq _
  hε := by rw [Complex.norm_real]; exact hn
  hC k := by
    refine (norm_sin_le _).2.trans ?_
    have : |(2 * (k : ℂ) * z).im| = k * (2 * |z.im|) := by
      have : (2 * (k : ℂ) * z).im = 2 * k * z.im := by simp [Complex.mul_im]
      rw [this, abs_mul, abs_mul]; simp; ring
    rw [this, Real.exp_nat_mul]
    gcongr
  hS k := by
    refine (norm_sin_le _).1.trans ?_
    have : |(2 * (k : ℂ) * z).im| = k * (2 * |z.im|) := by
      have : (2 * (k : ℂ) * z).im = 2 * k * z.im := by simp [Complex.mul_im]
      rw [this, abs_mul, abs_mul]; simp; ring
    rw [this, Real.exp_nat_mul]
    gcongr

/-- The series with coefficients `f`. -/
noncomputable def sumC (f : ℕ → List ℚ) (n : ℝ) (z : ℂ) : ℂ :=
  ∑ k ∈ Finset.range 4, qeval (n : ℂ) (f (k + 1)) * Complex.sin (2 * (k + 1 : ℕ) * z)

theorem residual {M C : ℚ} {f g : ℕ → List ℚ} (hc : check M f g C = true) {n : ℝ} {z : ℂ} (hn : |n| ≤ r0)
    (hz : Real.exp (2 * |z.im|) ≤ M) : ‖sumC f n z + sumC g n (z + sumC f n z)‖ ≤ C * |n| ^ 5 := by
  simp only [check, Bool.and_eq_true, decide_eq_true_eq] at hc
  obtain ⟨⟨⟨c1, c2⟩, c3⟩, c4⟩ := hc
  set E := env n z hn hz with hE
  set D := sumC f n z with hD
  have iD : Is 5 E (SM f) D := by
    refine (Is.exact E _).congr ?_
    rw [sv_ser, hD, sumC]
    simp only [cv_sinK]
    rfl
  have i2 : Is 5 E (S2 f) (2 * D) := (iD.smul 2).congr (by push_cast; ring)
  have iS : Is 5 E (sD M f) (Complex.sin (2 * D)) :=
    i2.compF (by norm_num) c1 (by norm_num [expK, Nat.factorial]) c2 fun x hx => sin_taylor (by norm_num) x (by simpa using hx)
  have iC : Is 5 E (cD M f) (Complex.cos (2 * D)) :=
    i2.compF (by norm_num) c1 (by norm_num [expK, Nat.factorial]) c2 fun x hx => cos_taylor (by norm_num) x (by simpa using hx)
  have is : Is 5 E (.const sinC) (Complex.sin (2 * z)) := (Is.const E _).congr (by rw [cv_sinC]; simp [hE, env])
  have ic : Is 5 E (.const cosC) (Complex.cos (2 * z)) := (Is.const E _).congr (by rw [cv_cosC]; simp [hE, env])
  set x := 2 * z + 2 * D with hx
  have iX : Is 5 E (X1 M f) (Complex.sin x) := ((is.mulF iC).add (ic.mulF iS)).congr (by rw [hx, Complex.sin_add])
  have iY : Is 5 E (Y1 M f) (Complex.cos x) := ((ic.mulF iC).sub (is.mulF iS)).congr (by rw [hx, Complex.cos_add])
  have iXY : ∀ k : ℕ, Is 5 E (XY M f k).1 (Complex.sin (k * x)) ∧ Is 5 E (XY M f k).2 (Complex.cos (k * x)) := by
    intro k
    induction k with
    | zero =>
      exact ⟨(Is.const E _).congr (by rw [cv_zero]; simp), (Is.const E _).congr (by rw [cv_ofQ]; simp)⟩
    | succ k ih =>
      refine ⟨((iX.mulF ih.2).add (iY.mulF ih.1)).congr ?_, ((iY.mulF ih.2).sub (iX.mulF ih.1)).congr ?_⟩
      · push_cast; rw [show ((k : ℂ) + 1) * x = k * x + x by ring, Complex.sin_add (k * x) x]; ring
      · push_cast; rw [show ((k : ℂ) + 1) * x = k * x + x by ring, Complex.cos_add (k * x) x]; ring
  have iSum : ∀ m : ℕ, Is 5 E (sumM M f g m)
      (D + ∑ k ∈ Finset.range m, qeval (n : ℂ) (g (k + 1)) * Complex.sin ((k + 1 : ℕ) * x)) := by
    intro m
    induction m with
    | zero => simpa [sumM] using iD
    | succ m ih =>
      refine (ih.add ((Is.qM E (g (m + 1))).mulF (iXY (m + 1)).1)).congr ?_
      rw [Finset.sum_range_succ, add_assoc]; rfl
  have hb := (iSum 4).bound c3 c4
  have he : ‖E.ε‖ = |n| := by rw [hE]; simp [env]
  rw [he] at hb
  refine le_of_eq_of_le ?_ hb
  congr 2
  refine Finset.sum_congr rfl fun k _ => ?_
  rw [hx]; push_cast; ring_nf

end Tm
end Geo.Ser
