import Verif.Lemmas.MercatorSeries
import Verif.Lemmas.SeriesFast
import Verif.Spec.Karney

/-!
The series of Karney's method: the distance integral, its reversion and the longitude integral, each with a bound of the
error.
-/

namespace Geo.Ser

variable {K : Type} [RCLike K] {r M : ℚ}

def sinC : Co := ⟨[0, 1], []⟩
def cosC : Co := ⟨[], [1]⟩

/-- Cosine and sine of `k` times the angle. -/
def csK : ℕ → Co × Co
  | 0 => (Co.ofQ 1, Co.zero)
  | k + 1 => let p := csK k; ((cosC * p.1 + Co.ofQ (-1) * (sinC * p.2)).trim, (sinC * p.1 + cosC * p.2).trim)
def sinK (k : ℕ) : Co := (csK k).2
def cosK (k : ℕ) : Co := (csK k).1

theorem cv_sinC (E : Env K r M) : cv E sinC = E.S 1 := by simp [cv, sinC, peval, qv]
theorem cv_cosC (E : Env K r M) : cv E cosC = E.C 1 := by simp [cv, cosC, peval, qv]

theorem cv_csK (E : Env K r M) : ∀ k, cv E (csK k).1 = E.C k ∧ cv E (csK k).2 = E.S k
  | 0 => by simp [csK, cv_ofQ, cv_zero, E.C0, E.S0]
  | k + 1 => by
    obtain ⟨h1, h2⟩ := cv_csK E k
    simp only [csK, cv_trim, cv_add, cv_mul, cv_sinC, cv_cosC, cv_ofQ, h1, h2, E.Cs k, E.Ss k]
    push_cast
    ring_nf
    trivial

theorem cv_sinK (E : Env K r M) (k : ℕ) : cv E (sinK k) = E.S k := (cv_csK E k).2
theorem cv_cosK (E : Env K r M) (k : ℕ) : cv E (cosK k) = E.C k := (cv_csK E k).1

/-- `∑ f k (ε) t k`, for `k` from 1 to `n`. -/
def ser (f : ℕ → List ℚ) (t : ℕ → Co) : ℕ → List Co
  | 0 => []
  | k + 1 => padd (ser f t k) ((f (k + 1)).map fun q => (Co.ofQ q * t (k + 1)).trim)

theorem sv_map_ofQ (E : Env K r M) (t : Co) : ∀ l : List ℚ,
    sv E (l.map fun q => (Co.ofQ q * t).trim) = qeval E.ε l * cv E t
  | [] => by simp [sv, peval, qeval]
  | q :: l => by
    have := sv_map_ofQ E t l
    simp only [sv] at this
    simp only [sv, List.map_cons, peval, this, cv_trim, cv_mul, cv_ofQ, qeval]; ring

theorem sv_ser (E : Env K r M) (f : ℕ → List ℚ) (t : ℕ → Co) : ∀ n,
    sv E (ser f t n) = ∑ k ∈ Finset.range n, qeval E.ε (f (k + 1)) * cv E (t (k + 1))
  | 0 => by simp [ser, sv, peval]
  | n + 1 => by
    have h := sv_ser E f t n
    rw [Finset.sum_range_succ, ← h, ← sv_map_ofQ]
    simp only [ser, sv, peval_padd (cv_add E)]

/-- A polynomial in `ε`. -/
def qM (l : List ℚ) : Mod := Mod.exact (l.map Co.ofQ)

theorem Is.qM {N : ℕ} (E : Env K r M) (l : List ℚ) : Is N E (qM l) (qeval E.ε l) := by
  refine (Is.exact E (l.map Co.ofQ)).congr ?_
  induction l with
  | nil => simp [sv, peval, qeval]
  | cons q l ih =>
    simp only [sv] at ih
    simp only [sv, List.map_cons, peval, ih, cv_ofQ, qeval]

/-- With a larger bound of the remainder. -/
def Mod.weak (m : Mod) (q : ℚ) : Mod := ⟨m.co, q⟩

theorem Is.weak {N : ℕ} {E : Env K r M} {m : Mod} {f : K} (h : Is N E m f) {q : ℚ} (hq : m.rem ≤ q) :
    Is N E (m.weak q) f := by
  refine ⟨h.1.trans hq, h.2.trans ?_⟩
  have : (m.rem : ℝ) ≤ q := by exact_mod_cast hq
  exact mul_le_mul_of_nonneg_right this (by positivity)

/-- A lower order. -/
theorem Is.lower {N k : ℕ} {E : Env K r M} {m : Mod} {f : K} (h : Is (N + k) E m f) :
    Is N E ⟨m.co, m.rem * r ^ k⟩ f := by
  have hr := E.r_nonneg
  have h0 : (0 : ℝ) ≤ m.rem := by exact_mod_cast h.1
  refine ⟨mul_nonneg h.1 (pow_nonneg (by exact_mod_cast hr) _), h.2.trans ?_⟩
  push_cast
  rw [pow_add, mul_assoc, mul_comm (‖E.ε‖ ^ N)]
  have := E.hε
  gcongr

namespace Kar

def r0 : ℚ := 1 / 100
def mulM (a b : Mod) : Mod := Mod.mul 7 r0 1 a b
def mulF (a b : Mod) : Mod := Mod.mulF 7 r0 1 a b
def compM (q : List ℚ) (κ : ℚ) (a : Mod) : Mod := Mod.comp 7 r0 1 q κ a

/-! ### Coefficients -/

def A1 : List ℚ := [1, 0, 1/4, 0, 1/64, 0, 1/256]
def C1 : ℕ → List ℚ
  | 1 => [0, -1/2, 0, 3/16, 0, -1/32]
  | 2 => [0, 0, -1/16, 0, 1/32, 0, -9/2048]
  | 3 => [0, 0, 0, -1/48, 0, 3/256]
  | 4 => [0, 0, 0, 0, -5/512, 0, 3/512]
  | 5 => [0, 0, 0, 0, 0, -7/1280]
  | 6 => [0, 0, 0, 0, 0, 0, -7/2048]
  | _ => []
def C1p : ℕ → List ℚ
  | 1 => [0, 1/2, 0, -9/32, 0, 205/1536]
  | 2 => [0, 0, 5/16, 0, -37/96, 0, 1335/4096]
  | 3 => [0, 0, 0, 29/96, 0, -75/128]
  | 4 => [0, 0, 0, 0, 539/1536, 0, -2391/2560]
  | 5 => [0, 0, 0, 0, 0, 3467/7680]
  | 6 => [0, 0, 0, 0, 0, 0, 38081/61440]
  | _ => []
/-- Of `n ^ j` in `A₃`. -/
def A3 : ℕ → List ℚ
  | 0 => [1, -1/2, -1/4, -1/16, -3/64, -3/128]
  | 1 => [0, 1/2, -1/8, -3/16, -1/32]
  | 2 => [0, 0, 3/8, -1/16]
  | _ => []
/-- Of `n ^ j` in `C₃`. -/
def C3 : ℕ → ℕ → List ℚ
  | 0, 1 => [0, 1/4, 1/8, 3/64, 5/128, 3/128]
  | 0, 2 => [0, 0, 1/16, 3/64, 3/128, 5/256]
  | 0, 3 => [0, 0, 0, 5/192, 3/128, 7/512]
  | 0, 4 => [0, 0, 0, 0, 7/512, 7/512]
  | 0, 5 => [0, 0, 0, 0, 0, 21/2560]
  | 1, 1 => [0, -1/4, 0, 3/64, 1/64]
  | 1, 2 => [0, 0, -3/32, -1/32, 1/128]
  | 1, 3 => [0, 0, 0, -3/64, -5/192]
  | 1, 4 => [0, 0, 0, 0, -7/256]
  | 2, 1 => [0, 0, -1/8, -1/64]
  | 2, 2 => [0, 0, 1/32, -3/64]
  | 2, 3 => [0, 0, 0, 5/192]
  | _, _ => []
/-- Coefficients of the derivative with respect to `σ`. -/
def dbl (f : ℕ → List ℚ) (k : ℕ) : List ℚ := (f k).map (2 * k * ·)

/-! ### The distance integral -/

def oneM : Mod := .const (Co.ofQ 1)
/-- The derivative of the series. -/
def pM : Mod := mulM (qM A1) (oneM.add (.exact (ser (dbl C1) cosK 6)))
/-- `1 - 2 ε cos 2σ + ε²`. -/
def qqL : List Co := [Co.ofQ 1, Co.ofQ (-2) * cosC, Co.ofQ 1]
def res1 : Mod := (mulM pM pM).sub (.exact qqL)

/-! ### Its reversion -/

def DM : Mod := .exact (ser C1p sinK 6)
def D2 : Mod := DM.smul 2
def sD : Mod := compM (sinQ 7) (expK 7) D2
def cD : Mod := compM (cosQ 7) (expK 7) D2
def sDw : Mod := sD.weak (196/100)
def cDw : Mod := cD.weak (56/10)
def X1 : Mod := (mulF (.const sinC) cDw).add (mulF (.const cosC) sDw)
def Y1 : Mod := (mulF (.const cosC) cDw).sub (mulF (.const sinC) sDw)
def XY : ℕ → Mod × Mod
  | 0 => (.const Co.zero, .const (Co.ofQ 1))
  | k + 1 => let p := XY k; ((mulF X1 p.2).add (mulF Y1 p.1), (mulF Y1 p.2).sub (mulF X1 p.1))
def sumM : ℕ → Mod
  | 0 => DM
  | k + 1 => (sumM k).add (mulF (qM (C1 (k + 1))) (XY (k + 1)).1)
def res2 : Mod := sumM 6

/-! ### The longitude integral -/

/-- Of `n ^ j` in `1 + ∑ 2k C₃ₖ cos 2kσ`. -/
def B3 : ℕ → Mod
  | 0 => oneM.add (.exact (ser (dbl (C3 0)) cosK 6))
  | j => .exact (ser (dbl (C3 j)) cosK 6)
/-- Of `n ^ j` in the derivative of the series. -/
def P3 (N : ℕ) : ℕ → Mod
  | 0 => .mul N r0 1 (qM (A3 0)) (B3 0)
  | 1 => (Mod.mul N r0 1 (qM (A3 0)) (B3 1)).add (.mul N r0 1 (qM (A3 1)) (B3 0))
  | 2 => ((Mod.mul N r0 1 (qM (A3 0)) (B3 2)).add (.mul N r0 1 (qM (A3 1)) (B3 1))).add (.mul N r0 1 (qM (A3 2)) (B3 0))
  | 3 => (Mod.mul N r0 1 (qM (A3 1)) (B3 2)).add (.mul N r0 1 (qM (A3 2)) (B3 1))
  | _ => .mul N r0 1 (qM (A3 2)) (B3 2)
/-- The square root, to order `7 - k`. -/
def rootM (k : ℕ) : Mod := ⟨pM.co, (pM.rem + 3/25) * r0 ^ k⟩
def leM : Mod := qM [1, -1]
/-- Of `n ^ j` in the residual. -/
def R3 (j : ℕ) : Mod := match j with
  | 0 => (Mod.mul 6 r0 1 (P3 6 0) (leM.add (rootM 1))).sub (leM.smul 2)
  | 5 => Mod.mul 1 r0 1 (P3 1 4) (leM.sub (rootM 6))
  | j => (Mod.mul (6 - j) r0 1 (P3 (6 - j) j) (leM.add (rootM (j + 1)))).add
      (.mul (6 - j) r0 1 (P3 (6 - j) (j - 1)) (leM.sub (rootM (j + 1))))

/-! ### Everything that has to be computed -/

theorem checks1 : (res1.co.all Co.isZero && decide (res1.rem ≤ 22/100) && (pM.sub oneM).co.head?.all Co.isZero &&
    decide ((pM.sub oneM).slope 7 r0 1 ≤ 2)) = true := by decide +kernel

theorem checks2a : (D2.co.head?.all Co.isZero && decide (D2.slope 7 r0 1 * r0 ≤ 1) && decide (sD.rem ≤ 196/100) &&
    decide (cD.rem ≤ 56/10)) = true := by decide +kernel
theorem checks2b : (res2.co.all Co.isZero && decide (res2.rem ≤ 33/10)) = true := by decide +kernel

theorem checks3 : ((R3 0).co.all Co.isZero && decide ((R3 0).rem ≤ 12/10) && (R3 1).co.all Co.isZero &&
    decide ((R3 1).rem ≤ 22/10) && (R3 2).co.all Co.isZero && decide ((R3 2).rem ≤ 36/10) && (R3 3).co.all Co.isZero &&
    decide ((R3 3).rem ≤ 28/10) && (R3 4).co.all Co.isZero && decide ((R3 4).rem ≤ 1/100) && (R3 5).co.all Co.isZero &&
    decide ((R3 5).rem ≤ 1/100)) = true := by decide +kernel

end Kar
end Geo.Ser
