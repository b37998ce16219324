import Mathlib.Analysis.RCLike.Basic
import Mathlib.Tactic.LinearCombination
import Mathlib.Tactic.Positivity
import Mathlib.Tactic.GCongr
import Mathlib.Tactic.Ring
import Mathlib.Tactic.Linarith

/-!
# Truncated series with an explicit remainder

A small calculus, computable in the rationals, for functions of a small parameter `ε` and of an angle whose sine and cosine
are `s` and `c`: a `Mod` is a polynomial in `ε` with coefficients in `ℚ[s, c] / (s² + c² - 1)` and a rational `rem` such that
the function differs from the polynomial by at most `rem * ‖ε‖ ^ N`.
-/

namespace Geo.Ser

section generic
variable {R K : Type} [Add R] [Mul R] [RCLike K]

/-- Sum of two polynomials, lowest coefficient first. -/
def padd : List R → List R → List R
  | [], q => q
  | a :: p, [] => a :: p
  | a :: p, b :: q => (a + b) :: padd p q

/-- Product of two polynomials; `z` is zero. -/
def pmul (z : R) : List R → List R → List R
  | [], _ => []
  | a :: p, q => padd (q.map (a * ·)) (z :: pmul z p q)

/-- Value at `x`, with `φ` the value of a coefficient. -/
def peval (φ : R → K) (x : K) : List R → K
  | [] => 0
  | a :: p => φ a + x * peval φ x p

/-- Bound of the value for `‖x‖ ≤ r`, with `ν` a bound of a coefficient. -/
def pnorm (ν : R → ℚ) (r : ℚ) : List R → ℚ
  | [] => 0
  | a :: p => ν a + r * pnorm ν r p

variable {φ : R → K} {x : K}

omit [Mul R] in
theorem peval_padd (ha : ∀ a b, φ (a + b) = φ a + φ b) :
    ∀ p q : List R, peval φ x (padd p q) = peval φ x p + peval φ x q
  | [], q => by simp [padd, peval]
  | a :: p, [] => by simp [padd, peval]
  | a :: p, b :: q => by simp only [padd, peval, ha, peval_padd ha p q]; ring

omit [Add R] in
theorem peval_map_mul (hm : ∀ a b, φ (a * b) = φ a * φ b) (a : R) :
    ∀ q : List R, peval φ x (q.map (a * ·)) = φ a * peval φ x q
  | [] => by simp [peval]
  | b :: q => by simp only [List.map_cons, peval, hm, peval_map_mul hm a q]; ring

theorem peval_pmul {z : R} (hz : φ z = 0) (ha : ∀ a b, φ (a + b) = φ a + φ b) (hm : ∀ a b, φ (a * b) = φ a * φ b) :
    ∀ p q : List R, peval φ x (pmul z p q) = peval φ x p * peval φ x q
  | [], q => by simp [pmul, peval]
  | a :: p, q => by
    rw [pmul, peval_padd ha, peval_map_mul hm, peval, peval, hz, peval_pmul hz ha hm p q]; ring

omit [Add R] [Mul R] in
theorem norm_peval {ν : R → ℚ} {r : ℚ} (hν : ∀ a, ‖φ a‖ ≤ ν a) (hx : ‖x‖ ≤ r) :
    ∀ p : List R, ‖peval φ x p‖ ≤ pnorm ν r p
  | [] => by simp [peval, pnorm]
  | a :: p => by
    have h := norm_peval hν hx p
    have h0 : (0 : ℝ) ≤ r := le_trans (norm_nonneg _) hx
    simp only [peval, pnorm]
    push_cast
    calc ‖φ a + x * peval φ x p‖ ≤ ‖φ a‖ + ‖x‖ * ‖peval φ x p‖ := by
          refine (norm_add_le _ _).trans ?_
          rw [norm_mul]
      _ ≤ _ := by
          gcongr
          exact hν a

omit [Add R] [Mul R] in
theorem peval_split (N : ℕ) : ∀ p : List R, peval φ x p = peval φ x (p.take N) + x ^ N * peval φ x (p.drop N) := by
  induction N with
  | zero => intro p; simp [peval]
  | succ N ih =>
    intro p
    cases p with
    | nil => simp [peval]
    | cons a p => simp only [List.take_succ_cons, List.drop_succ_cons, peval, pow_succ]; rw [ih p]; ring

end generic

/-! ### Coefficients -/

/-- `u(s) + c v(s)`. -/
structure Co where
  u : List ℚ
  v : List ℚ

namespace Co
def zero : Co := ⟨[], []⟩
def ofQ (a : ℚ) : Co := ⟨[a], []⟩
instance : Add Co := ⟨fun a b => ⟨padd a.u b.u, padd a.v b.v⟩⟩
/-- With `c² = 1 - s²`. -/
instance : Mul Co := ⟨fun a b => ⟨padd (pmul 0 a.u b.u) (pmul 0 [1, 0, -1] (pmul 0 a.v b.v)), padd (pmul 0 a.u b.v) (pmul 0 a.v b.u)⟩⟩

/-- A trigonometric polynomial `∑ a_k cos kθ + b_k sin kθ`. -/
structure Tr where
  a : List ℚ
  b : List ℚ

/-- Times `sin θ`. -/
def Tr.mulS (t : Tr) : Tr :=
  ⟨padd (t.b.tail.map (1 / 2 * ·)) (padd (0 :: t.b.map (-1 / 2 * ·)) [0, 1 / 2 * t.b.headD 0]),
   padd (0 :: t.a.map (1 / 2 * ·)) (padd (t.a.tail.map (-1 / 2 * ·)) [0, 1 / 2 * t.a.headD 0])⟩
/-- Times `cos θ`. -/
def Tr.mulC (t : Tr) : Tr :=
  ⟨padd (0 :: t.a.map (1 / 2 * ·)) (padd (t.a.tail.map (1 / 2 * ·)) [0, 1 / 2 * t.a.headD 0]),
   padd (0 :: t.b.map (1 / 2 * ·)) (padd (t.b.tail.map (1 / 2 * ·)) [0, -1 / 2 * t.b.headD 0])⟩
/-- `p (sin θ)`. -/
def Tr.ofPoly : List ℚ → Tr
  | [] => ⟨[], []⟩
  | q :: p => let t := (Tr.ofPoly p).mulS; ⟨padd [q] t.a, t.b⟩
def toTr (x : Co) : Tr :=
  let t := Tr.ofPoly x.u
  let w := (Tr.ofPoly x.v).mulC
  ⟨padd t.a w.a, padd t.b w.b⟩

/-- Bound of the value when `‖cos kθ‖ ≤ M ^ k`, `‖sin kθ‖ ≤ M ^ k`. -/
def nrm (M : ℚ) (x : Co) : ℚ :=
  pnorm (fun q : ℚ => |q|) M x.toTr.a + pnorm (fun q : ℚ => |q|) M x.toTr.b

/-- Without trailing zeros. -/
def trimQ : List ℚ → List ℚ
  | [] => []
  | a :: p => match trimQ p with
    | [] => if a = 0 then [] else [a]
    | b :: q => a :: b :: q
def trim (a : Co) : Co := ⟨trimQ a.u, trimQ a.v⟩

/-- The coefficient is zero. -/
def isZero (a : Co) : Bool := a.u.all (· == 0) && a.v.all (· == 0)
end Co

/-- The parameter and the angle; `C k` and `S k` are the cosine and sine of `k` times the angle. -/
structure Env (K : Type) [RCLike K] (r M : ℚ) where
  ε : K
  C : ℕ → K
  S : ℕ → K
  C0 : C 0 = 1
  S0 : S 0 = 0
  Cs : ∀ k, C (k + 1) = C 1 * C k - S 1 * S k
  Ss : ∀ k, S (k + 1) = S 1 * C k + C 1 * S k
  circle : S 1 ^ 2 + C 1 ^ 2 = 1
  hε : ‖ε‖ ≤ r
  hC : ∀ k, ‖C k‖ ≤ (M : ℝ) ^ k
  hS : ∀ k, ‖S k‖ ≤ (M : ℝ) ^ k

variable {K : Type} [RCLike K] {r M : ℚ}

def qv (q : ℚ) : K := (q : K)

theorem qv_add (a b : ℚ) : (qv (a + b) : K) = qv a + qv b := by simp [qv]
theorem qv_mul (a b : ℚ) : (qv (a * b) : K) = qv a * qv b := by simp [qv]
theorem qv_zero : (qv 0 : K) = 0 := by simp [qv]
theorem norm_qv (a : ℚ) : ‖(qv a : K)‖ ≤ ((|a| : ℚ) : ℝ) := by
  have : (qv a : K) = ((a : ℝ) : K) := by simp [qv]
  rw [this, RCLike.norm_ofReal]; simp

/-- Sine and cosine of the angle. -/
abbrev Env.s (E : Env K r M) : K := E.S 1
abbrev Env.c (E : Env K r M) : K := E.C 1

theorem Env.r_nonneg (E : Env K r M) : (0 : ℝ) ≤ r := le_trans (norm_nonneg _) E.hε
theorem Env.M_nonneg (E : Env K r M) : (0 : ℝ) ≤ M := le_trans (norm_nonneg _) ((E.hS 1).trans (by rw [pow_one]))

/-- Value of a coefficient. -/
def cv (E : Env K r M) (a : Co) : K := peval qv E.s a.u + E.c * peval qv E.s a.v

theorem cv_add (E : Env K r M) (a b : Co) : cv E (a + b) = cv E a + cv E b := by
  show cv E ⟨padd a.u b.u, padd a.v b.v⟩ = _
  simp only [cv, peval_padd qv_add]; ring

theorem cv_mul (E : Env K r M) (a b : Co) : cv E (a * b) = cv E a * cv E b := by
  show cv E ⟨padd (pmul 0 a.u b.u) (pmul 0 [1, 0, -1] (pmul 0 a.v b.v)), padd (pmul 0 a.u b.v) (pmul 0 a.v b.u)⟩ = _
  simp only [cv, peval_padd qv_add, peval_pmul qv_zero qv_add qv_mul]
  have h : peval qv E.s [1, 0, -1] = E.c ^ 2 := by
    simp only [peval, qv]; push_cast
    linear_combination -E.circle
  rw [h]; ring

theorem cv_zero (E : Env K r M) : cv E Co.zero = 0 := by simp [cv, Co.zero, peval]
theorem cv_ofQ (E : Env K r M) (a : ℚ) : cv E (Co.ofQ a) = (a : K) := by simp [cv, Co.ofQ, peval, qv]

theorem peval_trimQ (x : K) : ∀ p : List ℚ, peval qv x (Co.trimQ p) = peval qv x p
  | [] => rfl
  | a :: p => by
    have ih := peval_trimQ x p
    rw [Co.trimQ, peval, ← ih]
    cases h : Co.trimQ p with
    | nil =>
      by_cases ha : a = 0
      · simp [ha, peval, qv]
      · simp [ha, peval]
    | cons b q => rfl

theorem cv_trim (E : Env K r M) (a : Co) : cv E a.trim = cv E a := by
  simp only [cv, Co.trim, peval_trimQ]

/-- `∑ p_i f (k + i)`. -/
def leval (f : ℕ → K) : ℕ → List ℚ → K
  | _, [] => 0
  | k, q :: p => (q : K) * f k + leval f (k + 1) p

theorem leval_padd (f : ℕ → K) : ∀ (k : ℕ) (p q : List ℚ), leval f k (padd p q) = leval f k p + leval f k q
  | k, [], q => by simp [padd, leval]
  | k, a :: p, [] => by simp [padd, leval]
  | k, a :: p, b :: q => by simp only [padd, leval, leval_padd f (k + 1) p q]; push_cast; ring

theorem leval_map (f : ℕ → K) (a : ℚ) : ∀ (k : ℕ) (p : List ℚ), leval f k (p.map (a * ·)) = (a : K) * leval f k p
  | k, [] => by simp [leval]
  | k, b :: p => by simp only [List.map_cons, leval, leval_map f a (k + 1) p]; push_cast; ring

theorem norm_leval {f : ℕ → K} (hf : ∀ k, ‖f k‖ ≤ (M : ℝ) ^ k) (hM : (0 : ℝ) ≤ M) : ∀ (k : ℕ) (p : List ℚ),
    ‖leval f k p‖ ≤ (M : ℝ) ^ k * pnorm (fun q : ℚ => |q|) M p
  | k, [] => by simp [leval, pnorm]
  | k, a :: p => by
    have h := norm_leval hf hM (k + 1) p
    simp only [leval, pnorm]
    push_cast
    refine (norm_add_le _ _).trans ?_
    rw [norm_mul]
    have h1 : ‖(a : K)‖ ≤ |(a : ℝ)| := by have := norm_qv (K := K) a; simpa [qv] using this
    have h2 : ‖(a : K)‖ * ‖f k‖ ≤ |(a : ℝ)| * (M : ℝ) ^ k := mul_le_mul h1 (hf k) (norm_nonneg _) (abs_nonneg _)
    calc _ ≤ |(a : ℝ)| * (M : ℝ) ^ k + (M : ℝ) ^ (k + 1) * pnorm (fun q : ℚ => |q|) M p := add_le_add h2 h
      _ = _ := by rw [pow_succ]; ring

theorem Env.sC (E : Env K r M) (k : ℕ) : E.S 1 * E.C (k + 1) = (1 / 2) * (E.S (k + 2) - E.S k) := by
  have h1 := E.Ss (k + 1)
  have h2 := E.Ss k
  have h3 := E.Cs k
  have h4 := E.circle
  linear_combination (-1 / 2) * h1 + (1 / 2 * E.S 1) * h3 - (1 / 2 * E.C 1) * h2 - (1 / 2 * E.S k) * h4

theorem Env.sS (E : Env K r M) (k : ℕ) : E.S 1 * E.S (k + 1) = (1 / 2) * (E.C k - E.C (k + 2)) := by
  have h1 := E.Cs (k + 1)
  have h2 := E.Ss k
  have h3 := E.Cs k
  have h4 := E.circle
  linear_combination (1 / 2) * h1 + (1 / 2 * E.S 1) * h2 + (1 / 2 * E.C 1) * h3 + (1 / 2 * E.C k) * h4

theorem Env.cC (E : Env K r M) (k : ℕ) : E.C 1 * E.C (k + 1) = (1 / 2) * (E.C (k + 2) + E.C k) := by
  have h1 := E.Cs (k + 1)
  have h2 := E.Ss k
  have h3 := E.Cs k
  have h4 := E.circle
  linear_combination (-1 / 2) * h1 + (1 / 2 * E.S 1) * h2 + (1 / 2 * E.C 1) * h3 + (1 / 2 * E.C k) * h4

theorem Env.cS (E : Env K r M) (k : ℕ) : E.C 1 * E.S (k + 1) = (1 / 2) * (E.S (k + 2) + E.S k) := by
  have h1 := E.Ss (k + 1)
  have h2 := E.Ss k
  have h3 := E.Cs k
  have h4 := E.circle
  linear_combination (-1 / 2) * h1 - (1 / 2 * E.S 1) * h3 + (1 / 2 * E.C 1) * h2 + (1 / 2 * E.S k) * h4

theorem leval_three {x : K} {f g : ℕ → K} {a b : ℚ} (h : ∀ k, x * f (k + 1) = (a : K) * g (k + 2) + (b : K) * g k) :
    ∀ (k : ℕ) (p : List ℚ), x * leval f (k + 1) p = (a : K) * leval g (k + 2) p + (b : K) * leval g k p
  | k, [] => by simp [leval]
  | k, q :: p => by
    have ih := leval_three h (k + 1) p
    simp only [leval]
    linear_combination (q : K) * h k + ih

/-- Value of a trigonometric polynomial. -/
def tval (E : Env K r M) (t : Co.Tr) : K := leval E.C 0 t.a + leval E.S 0 t.b

theorem tval_mulS (E : Env K r M) (t : Co.Tr) : tval E t.mulS = E.S 1 * tval E t := by
  obtain ⟨a, b⟩ := t
  have h1 : ∀ p, E.S 1 * leval E.C 1 p = ((1 / 2 : ℚ) : K) * leval E.S 2 p + ((-1 / 2 : ℚ) : K) * leval E.S 0 p :=
    leval_three (fun k => by rw [E.sC]; push_cast; ring) 0
  have h2 : ∀ p, E.S 1 * leval E.S 1 p = ((-1 / 2 : ℚ) : K) * leval E.C 2 p + ((1 / 2 : ℚ) : K) * leval E.C 0 p :=
    leval_three (fun k => by rw [E.sS]; push_cast; ring) 0
  simp only [tval, Co.Tr.mulS, leval_padd, leval, leval_map, mul_add]
  have ha : E.S 1 * leval E.C 0 a = ((1 / 2 : ℚ) : K) * leval E.S 1 a + ((-1 / 2 : ℚ) : K) * leval E.S 0 a.tail +
      ((1 / 2 * a.headD 0 : ℚ) : K) * E.S 1 := by
    cases a with
    | nil => simp [leval]
    | cons x l =>
      simp only [leval, List.tail_cons, List.headD_cons, E.C0]
      have := h1 l
      push_cast at *
      linear_combination this
  have hb : E.S 1 * leval E.S 0 b = ((-1 / 2 : ℚ) : K) * leval E.C 1 b + ((1 / 2 : ℚ) : K) * leval E.C 0 b.tail +
      ((1 / 2 * b.headD 0 : ℚ) : K) * E.C 1 := by
    cases b with
    | nil => simp [leval]
    | cons x l =>
      simp only [leval, List.tail_cons, List.headD_cons, E.S0]
      have := h2 l
      push_cast at *
      linear_combination this
  rw [ha, hb]; push_cast; ring

theorem tval_mulC (E : Env K r M) (t : Co.Tr) : tval E t.mulC = E.C 1 * tval E t := by
  obtain ⟨a, b⟩ := t
  have h1 : ∀ p, E.C 1 * leval E.C 1 p = ((1 / 2 : ℚ) : K) * leval E.C 2 p + ((1 / 2 : ℚ) : K) * leval E.C 0 p :=
    leval_three (fun k => by rw [E.cC]; push_cast; ring) 0
  have h2 : ∀ p, E.C 1 * leval E.S 1 p = ((1 / 2 : ℚ) : K) * leval E.S 2 p + ((1 / 2 : ℚ) : K) * leval E.S 0 p :=
    leval_three (fun k => by rw [E.cS]; push_cast; ring) 0
  simp only [tval, Co.Tr.mulC, leval_padd, leval, leval_map, mul_add]
  have ha : E.C 1 * leval E.C 0 a = ((1 / 2 : ℚ) : K) * leval E.C 1 a + ((1 / 2 : ℚ) : K) * leval E.C 0 a.tail +
      ((1 / 2 * a.headD 0 : ℚ) : K) * E.C 1 := by
    cases a with
    | nil => simp [leval]
    | cons x l =>
      simp only [leval, List.tail_cons, List.headD_cons, E.C0]
      have := h1 l
      push_cast at *
      linear_combination this
  have hb : E.C 1 * leval E.S 0 b = ((1 / 2 : ℚ) : K) * leval E.S 1 b + ((1 / 2 : ℚ) : K) * leval E.S 0 b.tail +
      ((-1 / 2 * b.headD 0 : ℚ) : K) * E.S 1 := by
    cases b with
    | nil => simp [leval]
    | cons x l =>
      simp only [leval, List.tail_cons, List.headD_cons, E.S0]
      have := h2 l
      push_cast at *
      linear_combination this
  rw [ha, hb]; push_cast; ring

theorem tval_ofPoly (E : Env K r M) : ∀ p : List ℚ, tval E (Co.Tr.ofPoly p) = peval qv (E.S 1) p
  | [] => by simp [tval, Co.Tr.ofPoly, leval, peval]
  | q :: p => by
    have ih := tval_ofPoly E p
    have h := tval_mulS E (Co.Tr.ofPoly p)
    rw [ih] at h
    simp only [tval] at h
    simp only [tval, Co.Tr.ofPoly, leval_padd, leval, peval, qv, E.C0]
    rw [← h]; ring

theorem tval_toTr (E : Env K r M) (x : Co) : tval E x.toTr = cv E x := by
  have h1 := tval_ofPoly E x.u
  have h2 := tval_mulC E (Co.Tr.ofPoly x.v)
  rw [tval_ofPoly] at h2
  simp only [tval] at h1 h2
  simp only [tval, Co.toTr, leval_padd, cv]
  rw [← h1, ← h2]; ring

theorem norm_cv (E : Env K r M) (x : Co) : ‖cv E x‖ ≤ Co.nrm M x := by
  have h1 := norm_leval E.hC E.M_nonneg 0 x.toTr.a
  have h2 := norm_leval E.hS E.M_nonneg 0 x.toTr.b
  rw [← tval_toTr, tval]
  simp only [pow_zero, one_mul] at h1 h2
  simp only [Co.nrm]
  push_cast
  exact (norm_add_le _ _).trans (add_le_add h1 h2)

theorem peval_allZero (x : K) : ∀ p : List ℚ, p.all (· == 0) = true → peval qv x p = 0
  | [], _ => rfl
  | a :: p, h => by
    simp only [List.all_cons, Bool.and_eq_true, beq_iff_eq] at h
    rw [peval, peval_allZero x p h.2, h.1, qv_zero]; ring

theorem cv_isZero (E : Env K r M) {a : Co} (h : a.isZero = true) : cv E a = 0 := by
  simp only [Co.isZero, Bool.and_eq_true] at h
  simp [cv, peval_allZero _ _ h.1, peval_allZero _ _ h.2]

/-! ### Series -/

/-- A polynomial in `ε` and a bound of the remainder. -/
structure Mod where
  co : List Co
  rem : ℚ

/-- A decimal fraction above `q`. -/
def up (q : ℚ) : ℚ := mkRat (q.num * 1000000 / q.den + 1) 1000000

theorem le_up (q : ℚ) : q ≤ up q := by
  have hd : (0 : ℚ) < q.den := by exact_mod_cast q.den_pos
  have h : q.num * 1000000 < (q.num * 1000000 / q.den + 1) * q.den := by
    have := Int.lt_ediv_add_one_mul_self (q.num * 1000000) (b := (q.den : ℤ)) (by exact_mod_cast q.den_pos)
    exact this
  have h' : (q.num : ℚ) * 1000000 < ((q.num * 1000000 / q.den : ℤ) + 1) * q.den := by exact_mod_cast h
  rw [up, Rat.mkRat_eq_div]
  conv_lhs => rw [← Rat.num_div_den q]
  rw [div_le_div_iff₀ hd (by norm_num)]
  push_cast
  linarith

/-- Value of the polynomial. -/
def sv (E : Env K r M) (l : List Co) : K := peval (cv E) E.ε l

/-- Bound of the polynomial. -/
def sn (r M : ℚ) (l : List Co) : ℚ := pnorm (Co.nrm M) r l

theorem norm_sv (E : Env K r M) (l : List Co) : ‖sv E l‖ ≤ sn r M l := norm_peval (norm_cv E) E.hε l

/-- `f` is the polynomial up to `rem * ‖ε‖ ^ N`. -/
def Is (N : ℕ) (E : Env K r M) (m : Mod) (f : K) : Prop := 0 ≤ m.rem ∧ ‖f - sv E m.co‖ ≤ m.rem * ‖E.ε‖ ^ N

namespace Mod

def const (a : Co) : Mod := ⟨[a], 0⟩
/-- An exact polynomial. -/
def exact (l : List Co) : Mod := ⟨l, 0⟩
def add (a b : Mod) : Mod := ⟨padd a.co b.co, a.rem + b.rem⟩
def smul (q : ℚ) (a : Mod) : Mod := ⟨a.co.map (Co.ofQ q * ·), |q| * a.rem⟩
def sub (a b : Mod) : Mod := a.add (b.smul (-1))
/-- Drop the terms of order `N` and more, drop leading zeros, round the remainder up. -/
def trunc (N : ℕ) (r M : ℚ) (a : Mod) : Mod := ⟨(a.co.take N).map Co.trim, up (a.rem + sn r M (a.co.drop N))⟩
def mul (N : ℕ) (r M : ℚ) (a b : Mod) : Mod :=
  trunc N r M ⟨pmul Co.zero a.co b.co, sn r M a.co * b.rem + a.rem * (sn r M b.co + b.rem * r ^ N)⟩
/-- The polynomial `q` in `a`, by Horner's scheme. -/
def horner (N : ℕ) (r M : ℚ) (a : Mod) : List ℚ → Mod
  | [] => ⟨[], 0⟩
  | [q] => const (Co.ofQ q)
  | q :: qs => (const (Co.ofQ q)).add (mul N r M a (horner N r M a qs))
/-- Bound of `‖f‖ / ‖ε‖` when the constant coefficient is zero. -/
def slope (N : ℕ) (r M : ℚ) (a : Mod) : ℚ := sn r M a.co.tail + a.rem * r ^ (N - 1)
/-- A function with Taylor polynomial `q` of order `N` and remainder `κ |x| ^ N`, applied to a series without constant term. -/
def comp (N : ℕ) (r M : ℚ) (q : List ℚ) (κ : ℚ) (a : Mod) : Mod :=
  let h := horner N r M a q
  ⟨h.co, h.rem + κ * slope N r M a ^ N⟩

end Mod

theorem Is.exact {N : ℕ} (E : Env K r M) (l : List Co) : Is N E (Mod.exact l) (sv E l) :=
  ⟨le_rfl, by simp [Mod.exact]⟩

theorem Is.const {N : ℕ} (E : Env K r M) (a : Co) : Is N E (Mod.const a) (cv E a) :=
  ⟨le_rfl, by simp [Mod.const, sv, peval]⟩

theorem Is.congr {N : ℕ} {E : Env K r M} {m : Mod} {f g : K} (h : Is N E m f) (e : f = g) : Is N E m g := e ▸ h

theorem Is.add {N : ℕ} {E : Env K r M} {a b : Mod} {f g : K} (ha : Is N E a f) (hb : Is N E b g) :
    Is N E (a.add b) (f + g) := by
  refine ⟨add_nonneg ha.1 hb.1, ?_⟩
  have h1 := ha.2
  have h2 := hb.2
  simp only [Mod.add, sv, peval_padd (cv_add E)] at *
  push_cast
  calc ‖f + g - (peval (cv E) E.ε a.co + peval (cv E) E.ε b.co)‖
      = ‖(f - peval (cv E) E.ε a.co) + (g - peval (cv E) E.ε b.co)‖ := by congr 1; ring
    _ ≤ _ := norm_add_le _ _
    _ ≤ _ := by rw [add_mul]; exact add_le_add h1 h2

theorem norm_ratCast (q : ℚ) : ‖((q : ℚ) : K)‖ = |(q : ℝ)| := by
  have : ((q : ℚ) : K) = ((q : ℝ) : K) := by simp
  rw [this, RCLike.norm_ofReal]

theorem Is.smul {N : ℕ} {E : Env K r M} {a : Mod} {f : K} (q : ℚ) (ha : Is N E a f) :
    Is N E (a.smul q) ((q : K) * f) := by
  refine ⟨mul_nonneg (abs_nonneg _) ha.1, ?_⟩
  have h1 := ha.2
  simp only [Mod.smul, sv, peval_map_mul (cv_mul E), cv_ofQ]
  push_cast
  rw [← mul_sub, norm_mul, norm_ratCast, mul_assoc]
  exact mul_le_mul_of_nonneg_left h1 (abs_nonneg _)

theorem Is.sub {N : ℕ} {E : Env K r M} {a b : Mod} {f g : K} (ha : Is N E a f) (hb : Is N E b g) :
    Is N E (a.sub b) (f - g) :=
  (ha.add (hb.smul (-1))).congr (by push_cast; ring)

theorem sn_nonneg (E : Env K r M) (l : List Co) : (0 : ℝ) ≤ sn r M l := le_trans (norm_nonneg _) (norm_sv E l)

theorem sv_trim (E : Env K r M) : ∀ l : List Co, sv E (l.map Co.trim) = sv E l
  | [] => rfl
  | a :: l => by
    have := sv_trim E l
    simp only [sv] at this
    simp only [sv, List.map_cons, peval, cv_trim, this]

theorem Is.trunc {N : ℕ} {E : Env K r M} {a : Mod} {f : K} (ha : Is N E a f) : Is N E (a.trunc N r M) f := by
  have h3 := sn_nonneg E (a.co.drop N)
  have hup := le_up (a.rem + sn r M (a.co.drop N))
  refine ⟨(add_nonneg ha.1 (by exact_mod_cast h3)).trans hup, ?_⟩
  suffices h : ‖f - sv E (a.co.take N)‖ ≤ ((a.rem + sn r M (a.co.drop N) : ℚ) : ℝ) * ‖E.ε‖ ^ N by
    simp only [Mod.trunc, sv_trim]
    refine h.trans ?_
    gcongr
  have h1 := ha.2
  have h2 := norm_sv E (a.co.drop N)
  push_cast
  have e : f - sv E (a.co.take N) = (f - sv E a.co) + E.ε ^ N * sv E (a.co.drop N) := by
    have := peval_split (φ := cv E) (x := E.ε) N a.co
    simp only [sv]; rw [this]; ring
  rw [e, add_mul]
  refine (norm_add_le _ _).trans (add_le_add h1 ?_)
  rw [norm_mul, norm_pow, mul_comm]
  exact mul_le_mul_of_nonneg_right h2 (by positivity)

theorem Is.norm_le {N : ℕ} {E : Env K r M} {a : Mod} {f : K} (ha : Is N E a f) :
    ‖f‖ ≤ sn r M a.co + a.rem * r ^ N := by
  have h1 := ha.2
  have h2 := norm_sv E a.co
  have h0 : (0 : ℝ) ≤ a.rem := by exact_mod_cast ha.1
  have h3 : (a.rem : ℝ) * ‖E.ε‖ ^ N ≤ a.rem * r ^ N := by
    have := E.hε
    gcongr
  have e : f = sv E a.co + (f - sv E a.co) := by ring
  rw [e]
  exact (norm_add_le _ _).trans (add_le_add h2 (h1.trans h3))

theorem Is.mul {N : ℕ} {E : Env K r M} {a b : Mod} {f g : K} (ha : Is N E a f) (hb : Is N E b g) :
    Is N E (Mod.mul N r M a b) (f * g) := by
  apply Is.trunc
  have hr := E.r_nonneg
  have hb0 : (0 : ℝ) ≤ b.rem := by exact_mod_cast hb.1
  have ha0 : (0 : ℝ) ≤ a.rem := by exact_mod_cast ha.1
  have h1 := ha.2
  have h2 := hb.2
  have h3 := norm_sv E a.co
  have h4 := hb.norm_le
  have h5 := sn_nonneg E a.co
  have h6 := sn_nonneg E b.co
  refine ⟨?_, ?_⟩
  · have : (0 : ℝ) ≤ sn r M a.co * b.rem + a.rem * (sn r M b.co + b.rem * r ^ N) := by positivity
    exact_mod_cast this
  · simp only [sv, peval_pmul (cv_zero E) (cv_add E) (cv_mul E)] at *
    push_cast
    have e : f * g - peval (cv E) E.ε a.co * peval (cv E) E.ε b.co =
        peval (cv E) E.ε a.co * (g - peval (cv E) E.ε b.co) + (f - peval (cv E) E.ε a.co) * g := by ring
    rw [e]
    refine (norm_add_le _ _).trans ?_
    rw [norm_mul, norm_mul, add_mul]
    apply add_le_add
    · rw [mul_assoc]
      exact mul_le_mul h3 h2 (norm_nonneg _) h5
    · calc ‖f - peval (cv E) E.ε a.co‖ * ‖g‖ ≤ (a.rem * ‖E.ε‖ ^ N) * (sn r M b.co + b.rem * r ^ N) :=
            mul_le_mul h1 h4 (norm_nonneg _) (by positivity)
        _ = _ := by ring

/-- Value of a rational polynomial. -/
def qeval (x : K) : List ℚ → K
  | [] => 0
  | q :: qs => (q : K) + x * qeval x qs

theorem Is.horner {N : ℕ} {E : Env K r M} {a : Mod} {f : K} (ha : Is N E a f) :
    ∀ q : List ℚ, Is N E (Mod.horner N r M a q) (qeval f q)
  | [] => ⟨le_rfl, by simp [Mod.horner, sv, peval, qeval]⟩
  | [q] => (Is.const E (Co.ofQ q)).congr (by simp [cv_ofQ, qeval])
  | q :: p :: qs =>
    ((Is.const E (Co.ofQ q)).add (ha.mul (Is.horner ha (p :: qs)))).congr (by rw [cv_ofQ]; rfl)

theorem Is.slope {N : ℕ} {E : Env K r M} {a : Mod} {f : K} (hN : 0 < N) (ha : Is N E a f)
    (h0 : a.co.head?.all Co.isZero = true) : ‖f‖ ≤ a.slope N r M * ‖E.ε‖ := by
  obtain ⟨co, rem⟩ := a
  have h1 := ha.2
  have hr0 : (0 : ℝ) ≤ rem := by exact_mod_cast ha.1
  have h2 := norm_sv E co.tail
  have hs : sv E co = E.ε * sv E co.tail := by
    cases co with
    | nil => simp [sv, peval]
    | cons x l =>
      simp only [List.head?_cons, Option.all_some] at h0
      simp only [sv, peval, List.tail_cons, cv_isZero E h0]; ring
  simp only [Mod.slope] at *
  push_cast
  obtain ⟨n, rfl⟩ : ∃ n, N = n + 1 := ⟨N - 1, by omega⟩
  have e : f = (f - sv E co) + E.ε * sv E co.tail := by rw [hs]; ring
  rw [e]
  refine (norm_add_le _ _).trans ?_
  rw [norm_mul, add_mul, add_comm]
  apply add_le_add
  · rw [mul_comm]
    exact mul_le_mul_of_nonneg_right h2 (norm_nonneg _)
  · refine h1.trans ?_
    rw [pow_succ, ← mul_assoc, Nat.add_sub_cancel]
    have := E.hε
    gcongr

/-- Composition with a function known by its Taylor polynomial. -/
theorem Is.comp {N : ℕ} {E : Env K r M} {a : Mod} {f : K} (hN : 0 < N) (ha : Is N E a f)
    (h0 : a.co.head?.all Co.isZero = true) {G : K → K} {q : List ℚ} {κ ρ : ℚ} (hκ : 0 ≤ κ)
    (hρ : a.slope N r M * r ≤ ρ) (hG : ∀ x : K, ‖x‖ ≤ ρ → ‖G x - qeval x q‖ ≤ κ * ‖x‖ ^ N) :
    Is N E (Mod.comp N r M q κ a) (G f) := by
  have h1 := ha.slope hN h0
  have h2 := ha.horner q
  have hr := E.r_nonneg
  have hsl : (0 : ℝ) ≤ a.slope N r M := by
    have := sn_nonneg E a.co.tail
    have hr0 : (0 : ℝ) ≤ a.rem := by exact_mod_cast ha.1
    simp only [Mod.slope]; push_cast
    positivity
  have hκ' : (0 : ℝ) ≤ κ := by exact_mod_cast hκ
  have hf : ‖f‖ ≤ ρ := by
    refine h1.trans ((mul_le_mul_of_nonneg_left E.hε hsl).trans ?_)
    exact_mod_cast hρ
  have h3 := hG f hf
  refine ⟨?_, ?_⟩
  · have h4 : (0 : ℝ) ≤ (Mod.horner N r M a q).rem := by exact_mod_cast h2.1
    have : (0 : ℝ) ≤ (Mod.horner N r M a q).rem + κ * a.slope N r M ^ N := by positivity
    simp only [Mod.comp]
    exact_mod_cast this
  · simp only [Mod.comp]
    push_cast
    have e : G f - sv E (Mod.horner N r M a q).co = (qeval f q - sv E (Mod.horner N r M a q).co) + (G f - qeval f q) := by
      ring
    rw [e, add_mul]
    refine (norm_add_le _ _).trans (add_le_add h2.2 (h3.trans ?_))
    rw [mul_assoc, ← mul_pow]
    gcongr

/-- A series whose coefficients are all zero. -/
theorem sv_allZero (E : Env K r M) : ∀ l : List Co, l.all Co.isZero = true → sv E l = 0
  | [], _ => rfl
  | a :: l, h => by
    simp only [List.all_cons, Bool.and_eq_true] at h
    have := sv_allZero E l h.2
    simp only [sv] at this
    simp only [sv, peval, cv_isZero E h.1, this]; ring

theorem Is.bound {N : ℕ} {E : Env K r M} {a : Mod} {f : K} (ha : Is N E a f) (hz : a.co.all Co.isZero = true) {C : ℚ}
    (hC : a.rem ≤ C) : ‖f‖ ≤ C * ‖E.ε‖ ^ N := by
  have h := ha.2
  rw [sv_allZero E _ hz, sub_zero] at h
  refine h.trans ?_
  have : (a.rem : ℝ) ≤ C := by exact_mod_cast hC
  gcongr

end Geo.Ser
