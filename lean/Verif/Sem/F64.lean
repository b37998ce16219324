import Verif.Arith
import Verif.Sem.Round

/-!
IEEE 754 binary64 arithmetic, round to nearest ties to even (what Rust's `f64` guarantees for
`+ - * /`, `mul_add`, comparisons, `abs`, `signum`, `floor`, `trunc`, `round`, `round_ties_even`).

The remaining operations (`sqrt`, `hypot`, `sin`, ...) are given by an arbitrary record `L : Libm`: theorems about
`F64 L` hold whatever these functions return.  All NaNs are one value.
-/

namespace Geo

/-- `q` is the value of a finite double. -/
def IsDouble (q : ℚ) : Prop := ∃ m e : ℤ, q = m * 2 ^ e ∧ |m| < 2 ^ 53 ∧ -1074 ≤ e ∧ e ≤ 971

/-- `2 ^ 1024`: results of this magnitude overflow. -/
def huge : ℚ := 2 ^ (1024 : ℤ)

theorem IsDouble.rep {q : ℚ} (h : IsDouble q) : Rep q := by
  obtain ⟨m, e, hq, hm, he, _⟩ := h
  exact ⟨m, e, hq, hm.le, he⟩

theorem isDouble_zero : IsDouble 0 := ⟨0, 0, by simp, by norm_num, by norm_num, by norm_num⟩

theorem IsDouble.neg {q : ℚ} (h : IsDouble q) : IsDouble (-q) := by
  obtain ⟨m, e, hq, hm, he⟩ := h
  exact ⟨-m, e, by rw [hq]; push_cast; ring, by rwa [abs_neg], he⟩

theorem IsDouble.abs_lt {q : ℚ} (h : IsDouble q) : |q| < huge := by
  obtain ⟨m, e, rfl, hm, _, he⟩ := h
  rw [huge, abs_mul, abs_of_pos (two_zpow_pos e), show (1024 : ℤ) = 53 + 971 by norm_num, two_zpow_add]
  have h1 : |(m : ℚ)| < 2 ^ (53 : ℤ) := by exact_mod_cast hm
  have h2 := two_zpow_le he
  have h3 := two_zpow_pos e
  calc |(m : ℚ)| * 2 ^ e < 2 ^ (53 : ℤ) * 2 ^ e := mul_lt_mul_of_pos_right h1 h3
    _ ≤ _ := mul_le_mul_of_nonneg_left h2 (two_zpow_pos _).le

theorem Rep.isDouble {q : ℚ} (h : Rep q) (hq : |q| < huge) : IsDouble q := by
  obtain ⟨m, hm⟩ := h.grid
  have h2 := two_zpow_pos (expo q)
  refine ⟨m, expo q, hm, ?_, expo_min q, ?_⟩
  · have := lt_expo q
    rw [add_comm, two_zpow_add] at this
    nth_rw 1 [hm] at this
    rw [abs_mul, abs_of_pos h2] at this
    have := lt_of_mul_lt_mul_right this h2.le
    exact_mod_cast this
  · exact expo_le (by norm_num) (by norm_num [huge] at hq ⊢; exact hq)

/-- A double. -/
inductive B64 where
  | nan
  | inf (neg : Bool)
  | negZero
  /-- A finite number other than `-0.0`. -/
  | num (q : ℚ) (h : IsDouble q)
  deriving DecidableEq

namespace B64

/-- The real value of a finite double. -/
def toQ : B64 → ℚ
  | num q _ => q
  | _ => 0

def isFinite : B64 → Bool
  | nan | inf _ => false
  | _ => true

/-- The sign bit (NaN excluded). -/
def isNeg : B64 → Bool
  | nan => false
  | inf s => s
  | negZero => true
  | num q _ => decide (q < 0)

/-- Rounds an exact result; `s` is the sign of a zero. -/
def ofQ (s : Bool) (q : ℚ) : B64 :=
  if h : |rndQ q| < huge then
    if rndQ q = 0 ∧ s = true then negZero else num (rndQ q) ((rndQ_rep q).isDouble h)
  else inf (decide (q < 0))

def neg : B64 → B64
  | nan => nan
  | inf s => inf (!s)
  | negZero => num 0 isDouble_zero
  | num q h => if q = 0 then negZero else num (-q) h.neg

def abs (a : B64) : B64 := if a.isNeg then neg a else a

/-- Sum of two finite doubles: an exact zero is `+0.0` unless both are `-0.0`. -/
def addFin (a b : B64) : B64 := if a = negZero ∧ b = negZero then negZero else ofQ false (a.toQ + b.toQ)

def add (a b : B64) : B64 :=
  match a with
  | nan => nan
  | inf s =>
    match b with
    | nan => nan
    | inf t => if s = t then inf s else nan
    | _ => inf s
  | _ =>
    match b with
    | nan => nan
    | inf t => inf t
    | _ => addFin a b

def sub (a b : B64) : B64 := add a (neg b)

/-- Product of two finite doubles. -/
def mulFin (a b : B64) : B64 := ofQ (xor a.isNeg b.isNeg) (a.toQ * b.toQ)

def mul (a b : B64) : B64 :=
  match a with
  | nan => nan
  | inf s =>
    match b with
    | nan => nan
    | inf t => inf (xor s t)
    | _ => if b.toQ = 0 then nan else inf (xor s b.isNeg)
  | _ =>
    match b with
    | nan => nan
    | inf t => if a.toQ = 0 then nan else inf (xor a.isNeg t)
    | _ => mulFin a b

/-- Quotient of two finite doubles. -/
def divFin (a b : B64) : B64 :=
  if b.toQ = 0 then (if a.toQ = 0 then nan else inf (xor a.isNeg b.isNeg))
  else ofQ (xor a.isNeg b.isNeg) (a.toQ / b.toQ)

def div (a b : B64) : B64 :=
  match a with
  | nan => nan
  | inf s =>
    match b with
    | nan => nan
    | inf _ => nan
    | _ => inf (xor s b.isNeg)
  | _ =>
    match b with
    | nan => nan
    | inf t => ofQ (xor a.isNeg t) 0
    | _ => divFin a b

/-- `a * b + c` with one rounding. -/
def mulAdd (a b c : B64) : B64 :=
  if a.isFinite && b.isFinite && c.isFinite then
    ofQ (xor a.isNeg b.isNeg && c.isNeg) (a.toQ * b.toQ + c.toQ)
  else if a.isFinite && b.isFinite then c else add (mul a b) c

def lt : B64 → B64 → Bool
  | nan, _ => false
  | _, nan => false
  | inf s, inf t => s && !t
  | inf s, _ => s
  | _, inf t => !t
  | a, b => decide (a.toQ < b.toQ)

def eq : B64 → B64 → Bool
  | nan, _ => false
  | _, nan => false
  | inf s, inf t => s == t
  | inf _, _ => false
  | _, inf _ => false
  | a, b => decide (a.toQ = b.toQ)

def le (a b : B64) : Bool := lt a b || eq a b

/-- Rounding to an integer keeps the sign of zero, infinities and NaN. -/
def mapInt (f : ℚ → ℤ) (a : B64) : B64 := if a.isFinite then ofQ a.isNeg (f a.toQ) else a

/-- Toward zero. -/
def truncQ (x : ℚ) : ℤ := if x < 0 then -⌊-x⌋ else ⌊x⌋

/-- Nearest, ties away from zero. -/
def rtaQ (x : ℚ) : ℤ := if x < 0 then -⌊-x + 1 / 2⌋ else ⌊x + 1 / 2⌋

def signum : B64 → B64
  | nan => nan
  | a => if a.isNeg then ofQ true (-1) else ofQ false 1

/-- Nearest double of a decimal number. -/
def lit (q : ℚ) : B64 := ofQ (decide (q < 0)) q

/-- `std::f64::consts::PI`, 0x400921FB54442D18. -/
def pi : B64 := ofQ false (7074237752028440 / 2 ^ 51)
def pi_2 : B64 := ofQ false (7074237752028440 / 2 ^ 52)
def pi_4 : B64 := ofQ false (7074237752028440 / 2 ^ 53)
def tau : B64 := ofQ false (7074237752028440 / 2 ^ 50)

end B64

/-- The functions of the mathematical library, about which nothing is assumed. -/
structure Libm where
  sqrt : B64 → B64
  cbrt : B64 → B64
  hypot : B64 → B64 → B64
  powi : B64 → Nat → B64
  powf : B64 → B64 → B64
  exp : B64 → B64
  ln : B64 → B64
  sin : B64 → B64
  cos : B64 → B64
  tan : B64 → B64
  asin : B64 → B64
  atan : B64 → B64
  atan2 : B64 → B64 → B64
  sinh : B64 → B64
  cosh : B64 → B64
  tanh : B64 → B64
  asinh : B64 → B64
  atanh : B64 → B64

/-- Doubles with the mathematical library `L`. -/
def F64 (_ : Libm) : Type := B64

namespace F64
variable {L : Libm}

instance : DecidableEq (F64 L) := inferInstanceAs (DecidableEq B64)

instance : Flt (F64 L) where
  add := B64.add
  sub := B64.sub
  mul := B64.mul
  div := B64.div
  neg := B64.neg
  lit := B64.lit
  infinity := B64.inf false
  pi := B64.pi
  pi_2 := B64.pi_2
  pi_4 := B64.pi_4
  tau := B64.tau
  lt := B64.lt
  le := B64.le
  eq := B64.eq
  isInfinite := fun a => match a with | .inf _ => true | _ => false
  abs := B64.abs
  signum := B64.signum
  floor := B64.mapInt Int.floor
  trunc := B64.mapInt B64.truncQ
  round := B64.mapInt B64.rtaQ
  roundTiesEven := B64.mapInt rteQ
  mulAdd := B64.mulAdd
  sqrt := L.sqrt
  cbrt := L.cbrt
  hypot := L.hypot
  powi := L.powi
  powf := L.powf
  exp := L.exp
  ln := L.ln
  sin := L.sin
  cos := L.cos
  tan := L.tan
  asin := L.asin
  atan := L.atan
  atan2 := L.atan2
  sinh := L.sinh
  cosh := L.cosh
  tanh := L.tanh
  asinh := L.asinh
  atanh := L.atanh

/-- The real value of a finite double. -/
def toQ (a : F64 L) : ℚ := B64.toQ a

/-- `f64::is_finite` -/
def isFinite (a : F64 L) : Prop := B64.isFinite a = true

/-- `f64::NAN` -/
def nan : F64 L := B64.nan

/-- `f64::is_nan` -/
def isNaN (a : F64 L) : Prop := a = B64.nan

end F64

/-- Sanity checks of the arithmetic: `0.1 + 0.2 = 0.30000000000000004`, `1 / -0 = -∞`, ties to even at `2 ^ 53 + 1`,
gradual underflow, overflow. -/
example : B64.add (B64.lit 0.1) (B64.lit 0.2) = B64.lit 0.30000000000000004 ∧
    B64.add (B64.lit 0.1) (B64.lit 0.2) ≠ B64.lit 0.3 ∧
    B64.div (B64.lit 1) (B64.neg (B64.lit 0)) = B64.inf true ∧
    B64.add (B64.lit (2 ^ 53)) (B64.lit 1) = B64.lit (2 ^ 53) ∧
    B64.lit (1 / 2 ^ 1075) = B64.lit 0 ∧ B64.lit (3 / 2 ^ 1075) = B64.lit (1 / 2 ^ 1073) ∧
    B64.mul (B64.lit (2 ^ 1023)) (B64.lit 2) = B64.inf false ∧
    B64.pi.toQ = 7074237752028440 / 2 ^ 51 ∧ B64.lit (3.14159265358979323846) = B64.pi := by
  decide +kernel

end Geo
