import Verif.Arith
import Mathlib.Analysis.SpecialFunctions.Arsinh
import Mathlib.Analysis.SpecialFunctions.Artanh
import Mathlib.Analysis.SpecialFunctions.Complex.Arg
import Mathlib.Analysis.SpecialFunctions.Pow.Real
import Mathlib.Analysis.SpecialFunctions.Trigonometric.Inverse
import Mathlib.Analysis.SpecialFunctions.Trigonometric.Arctan

/-!
Exact arithmetic: real numbers with NaN and the two infinities, no rounding.

`XR` follows IEEE-754 for the non-finite values.  Two simplifications with respect to a real `f64`:
there is a single zero (so `x / 0` is `+∞` for `x > 0`, and `atan2 0 x = π` for `x < 0`), and no
rounding or overflow happens.
-/

namespace Geo

/-- Extended reals with NaN. -/
inductive XR where
  | nan
  | pinf
  | ninf
  | fin (x : ℝ)

namespace XR
open Classical

/-- `+∞` when `x > 0`, `-∞` when `x < 0`, NaN when `x = 0`: the value of `x · ∞`. -/
noncomputable def signInf (x : ℝ) : XR := if x = 0 then nan else if 0 < x then pinf else ninf

/-- `-a` -/
def neg : XR → XR
  | nan => nan
  | pinf => ninf
  | ninf => pinf
  | fin x => fin (-x)

/-- `a + b` -/
noncomputable def add : XR → XR → XR
  | fin x, fin y => fin (x + y)
  | nan, _ | _, nan => nan
  | pinf, ninf | ninf, pinf => nan
  | pinf, _ | _, pinf => pinf
  | ninf, _ | _, ninf => ninf

/-- `a * b` -/
noncomputable def mul : XR → XR → XR
  | fin x, fin y => fin (x * y)
  | nan, _ | _, nan => nan
  | pinf, pinf | ninf, ninf => pinf
  | pinf, ninf | ninf, pinf => ninf
  | fin x, pinf | pinf, fin x => signInf x
  | fin x, ninf | ninf, fin x => signInf (-x)

/-- `a / b` -/
noncomputable def div : XR → XR → XR
  | fin x, fin y => if y = 0 then signInf x else fin (x / y)
  | nan, _ | _, nan => nan
  | fin _, pinf | fin _, ninf => fin 0
  | pinf, fin y => if y < 0 then ninf else pinf
  | ninf, fin y => if y < 0 then pinf else ninf
  | pinf, pinf | pinf, ninf | ninf, pinf | ninf, ninf => nan

/-- `a < b` -/
noncomputable def lt : XR → XR → Bool
  | fin x, fin y => decide (x < y)
  | nan, _ | _, nan => false
  | ninf, ninf => false
  | ninf, _ => true
  | pinf, _ => false
  | fin _, pinf => true
  | fin _, ninf => false

/-- `a == b` -/
noncomputable def eq : XR → XR → Bool
  | fin x, fin y => decide (x = y)
  | pinf, pinf | ninf, ninf => true
  | _, _ => false

/-- `a <= b` -/
noncomputable def le (a b : XR) : Bool := lt a b || eq a b

/-- Nearest integer, ties to even. -/
noncomputable def rte (x : ℝ) : ℤ :=
  if Int.fract x < 1 / 2 then ⌊x⌋
  else if 1 / 2 < Int.fract x then ⌊x⌋ + 1
  else if Even ⌊x⌋ then ⌊x⌋ else ⌊x⌋ + 1

/-- Nearest integer, ties away from zero. -/
noncomputable def rta (x : ℝ) : ℤ := if x < 0 then -⌊-x + 1 / 2⌋ else ⌊x + 1 / 2⌋

/-- Rounding toward zero. -/
noncomputable def truncR (x : ℝ) : ℤ := if x < 0 then -⌊-x⌋ else ⌊x⌋

/-- Lifts a function that keeps the non-finite values. -/
def mapFin (f : ℝ → ℝ) : XR → XR
  | nan => nan
  | pinf => pinf
  | ninf => ninf
  | fin x => fin (f x)

/-- Lifts a function defined on finite values only. -/
def onFin (f : ℝ → ℝ) : XR → XR
  | fin x => fin (f x)
  | _ => nan

def abs : XR → XR
  | nan => nan
  | pinf | ninf => pinf
  | fin x => fin |x|

noncomputable def signum : XR → XR
  | nan => nan
  | pinf => fin 1
  | ninf => fin (-1)
  | fin x => fin (if x < 0 then -1 else 1)

noncomputable def sqrt : XR → XR
  | pinf => pinf
  | fin x => if x < 0 then nan else fin (Real.sqrt x)
  | _ => nan

/-- The odd real cube root. -/
noncomputable def cbrtR (x : ℝ) : ℝ := if x < 0 then -((-x) ^ (1 / 3 : ℝ)) else x ^ (1 / 3 : ℝ)

noncomputable def hypot : XR → XR → XR
  | fin x, fin y => fin (Real.sqrt (x ^ 2 + y ^ 2))
  | pinf, _ | ninf, _ | _, pinf | _, ninf => pinf
  | _, _ => nan

noncomputable def powi (a : XR) (n : Nat) : XR :=
  match a with
  | fin x => fin (x ^ n)
  | nan => if n = 0 then fin 1 else nan
  | pinf => if n = 0 then fin 1 else pinf
  | ninf => if n = 0 then fin 1 else if Even n then pinf else ninf

/-- `a.powf(b)` (IEEE `pow`; the cases on infinite arguments ignore the sign of odd integer powers of
`-∞`, which the crate never computes). -/
noncomputable def powf : XR → XR → XR
  | fin x, fin y =>
    if 0 < x then fin (x ^ y)
    else if y = 0 then fin 1
    else if x = 0 then (if 0 < y then fin 0 else pinf)
    else if h : ∃ n : ℤ, (n : ℝ) = y then fin (x ^ (Classical.choose h)) else nan
  | _, fin y => if y = 0 then fin 1 else nan
  | fin x, pinf => if |x| = 1 then fin 1 else if 1 < |x| then pinf else fin 0
  | fin x, ninf => if |x| = 1 then fin 1 else if 1 < |x| then fin 0 else pinf
  | _, _ => nan

noncomputable def exp : XR → XR
  | nan => nan
  | pinf => pinf
  | ninf => fin 0
  | fin x => fin (Real.exp x)

noncomputable def ln : XR → XR
  | pinf => pinf
  | fin x => if x < 0 then nan else if x = 0 then ninf else fin (Real.log x)
  | _ => nan

noncomputable def tan : XR → XR
  | fin x => if Real.cos x = 0 then signInf (Real.sin x) else fin (Real.tan x)
  | _ => nan

noncomputable def asin : XR → XR
  | fin x => if x < -1 ∨ 1 < x then nan else fin (Real.arcsin x)
  | _ => nan

noncomputable def atan : XR → XR
  | nan => nan
  | pinf => fin (Real.pi / 2)
  | ninf => fin (-(Real.pi / 2))
  | fin x => fin (Real.arctan x)

/-- `y.atan2(x)` -/
noncomputable def atan2 : XR → XR → XR
  | fin y, fin x => fin (Complex.arg ⟨x, y⟩)
  | nan, _ | _, nan => nan
  | fin _, pinf => fin 0
  | fin y, ninf => if y < 0 then fin (-Real.pi) else fin Real.pi
  | pinf, fin _ => fin (Real.pi / 2)
  | ninf, fin _ => fin (-(Real.pi / 2))
  | pinf, pinf => fin (Real.pi / 4)
  | pinf, ninf => fin (3 * (Real.pi / 4))
  | ninf, pinf => fin (-(Real.pi / 4))
  | ninf, ninf => fin (-(3 * (Real.pi / 4)))

noncomputable def cosh : XR → XR
  | nan => nan
  | pinf | ninf => pinf
  | fin x => fin (Real.cosh x)

noncomputable def tanh : XR → XR
  | nan => nan
  | pinf => fin 1
  | ninf => fin (-1)
  | fin x => fin (Real.tanh x)

noncomputable def atanh : XR → XR
  | fin x => if x = 1 then pinf else if x = -1 then ninf
      else if x < -1 ∨ 1 < x then nan else fin (Real.artanh x)
  | _ => nan

def isInfinite : XR → Bool
  | pinf | ninf => true
  | _ => false

noncomputable instance : Flt XR where
  add := add
  sub a b := add a (neg b)
  mul := mul
  div := div
  neg := neg
  lit q := fin (q : ℝ)
  infinity := pinf
  pi := fin Real.pi
  pi_2 := fin (Real.pi / 2)
  pi_4 := fin (Real.pi / 4)
  tau := fin (2 * Real.pi)
  lt := lt
  le := le
  eq := eq
  isInfinite := isInfinite
  abs := abs
  signum := signum
  floor := mapFin fun x => (⌊x⌋ : ℝ)
  trunc := mapFin fun x => (truncR x : ℝ)
  round := mapFin fun x => (rta x : ℝ)
  roundTiesEven := mapFin fun x => (rte x : ℝ)
  mulAdd a b c := add (mul a b) c
  sqrt := sqrt
  cbrt := mapFin cbrtR
  hypot := hypot
  powi := powi
  powf := powf
  exp := exp
  ln := ln
  sin := onFin Real.sin
  cos := onFin Real.cos
  tan := tan
  asin := asin
  atan := atan
  atan2 := atan2
  sinh := mapFin Real.sinh
  cosh := cosh
  tanh := tanh
  asinh := mapFin Real.arsinh
  atanh := atanh

/-- A value is finite. -/
def IsFin (a : XR) : Prop := ∃ x, a = fin x

variable (x y z : ℝ)

@[simp] theorem fin_inj : (fin x = fin y) ↔ x = y := ⟨fun h => by cases h; rfl, fun h => by rw [h]⟩

@[simp] theorem add_fin : (fin x + fin y : XR) = fin (x + y) := rfl
@[simp] theorem sub_fin : (fin x - fin y : XR) = fin (x - y) := by
  show add (fin x) (neg (fin y)) = _
  simp [add, neg, sub_eq_add_neg]
@[simp] theorem mul_fin : (fin x * fin y : XR) = fin (x * y) := rfl
@[simp] theorem neg_fin : (-fin x : XR) = fin (-x) := rfl
theorem div_fin_ite : (fin x / fin y : XR) = if y = 0 then signInf x else fin (x / y) := rfl
theorem div_fin {y : ℝ} (h : y ≠ 0) : (fin x / fin y : XR) = fin (x / y) := by
  rw [div_fin_ite, if_neg h]
@[simp] theorem zero_eq : (0 : XR) = fin 0 := by
  show fin (((0 : ℕ) : ℚ) : ℝ) = _
  norm_num
@[simp] theorem one_eq : (1 : XR) = fin 1 := by
  show fin (((1 : ℕ) : ℚ) : ℝ) = _
  norm_num
@[simp] theorem ofNat_eq (n : ℕ) [n.AtLeastTwo] :
    (OfNat.ofNat n : XR) = fin (OfNat.ofNat n : ℝ) := by
  show fin (((n : ℕ) : ℚ) : ℝ) = _
  rw [Rat.cast_natCast]
  rfl
@[simp] theorem sci_eq (m : ℕ) (s : Bool) (e : ℕ) :
    (OfScientific.ofScientific m s e : XR) = fin (OfScientific.ofScientific m s e : ℝ) := by
  show fin (((OfScientific.ofScientific m s e : ℚ)) : ℝ) = _
  rw [Rat.cast_ofScientific]
@[simp] theorem lit_eq (q : ℚ) : (Flt.lit q : XR) = fin (q : ℝ) := rfl
@[simp] theorem pi_eq : (Flt.pi : XR) = fin Real.pi := rfl
@[simp] theorem pi_2_eq : (Flt.pi_2 : XR) = fin (Real.pi / 2) := rfl
@[simp] theorem pi_4_eq : (Flt.pi_4 : XR) = fin (Real.pi / 4) := rfl
@[simp] theorem tau_eq : (Flt.tau : XR) = fin (2 * Real.pi) := rfl
@[simp] theorem infinity_eq : (Flt.infinity : XR) = pinf := rfl
@[simp] theorem lt_fin : (fin x <. fin y) = decide (x < y) := rfl
@[simp] theorem eq_fin : (fin x ==. fin y) = decide (x = y) := rfl
@[simp] theorem le_fin : (fin x <=. fin y) = decide (x ≤ y) := by
  show (decide (x < y) || decide (x = y)) = _
  rw [← Bool.decide_or]
  exact decide_eq_decide.2 le_iff_lt_or_eq.symm
@[simp] theorem isInfinite_fin : Flt.isInfinite (fin x) = false := rfl
@[simp] theorem abs_fin : Flt.abs (fin x) = fin |x| := rfl
@[simp] theorem signum_fin : Flt.signum (fin x) = fin (if x < 0 then -1 else 1) := rfl
@[simp] theorem floor_fin : Flt.floor (fin x) = fin (⌊x⌋ : ℝ) := rfl
@[simp] theorem trunc_fin : Flt.trunc (fin x) = fin (truncR x : ℝ) := rfl
@[simp] theorem round_fin : Flt.round (fin x) = fin (rta x : ℝ) := rfl
@[simp] theorem roundTiesEven_fin : Flt.roundTiesEven (fin x) = fin (rte x : ℝ) := rfl
@[simp] theorem mulAdd_fin : Flt.mulAdd (fin x) (fin y) (fin z) = fin (x * y + z) := rfl
theorem sqrt_fin_ite : Flt.sqrt (fin x) = if x < 0 then nan else fin (Real.sqrt x) := rfl
theorem sqrt_fin {x : ℝ} (h : 0 ≤ x) : Flt.sqrt (fin x) = fin (Real.sqrt x) := by
  rw [sqrt_fin_ite, if_neg (not_lt.2 h)]
@[simp] theorem cbrt_fin : Flt.cbrt (fin x) = fin (cbrtR x) := rfl
@[simp] theorem hypot_fin : Flt.hypot (fin x) (fin y) = fin (Real.sqrt (x ^ 2 + y ^ 2)) := rfl
@[simp] theorem powi_fin (n : ℕ) : Flt.powi (fin x) n = fin (x ^ n) := rfl
theorem powf_fin {x : ℝ} (h : 0 < x) (y : ℝ) : Flt.powf (fin x) (fin y) = fin (x ^ y) := by
  show (if 0 < x then fin (x ^ y) else _) = _
  rw [if_pos h]
@[simp] theorem exp_fin : Flt.exp (fin x) = fin (Real.exp x) := rfl
theorem ln_fin {x : ℝ} (h : 0 < x) : Flt.ln (fin x) = fin (Real.log x) := by
  show (if x < 0 then nan else if x = 0 then ninf else fin (Real.log x)) = _
  rw [if_neg (not_lt.2 h.le), if_neg h.ne']
@[simp] theorem sin_fin : Flt.sin (fin x) = fin (Real.sin x) := rfl
@[simp] theorem cos_fin : Flt.cos (fin x) = fin (Real.cos x) := rfl
theorem tan_fin_ite : Flt.tan (fin x) =
    if Real.cos x = 0 then signInf (Real.sin x) else fin (Real.tan x) := rfl
theorem tan_fin {x : ℝ} (h : Real.cos x ≠ 0) : Flt.tan (fin x) = fin (Real.tan x) := by
  rw [tan_fin_ite, if_neg h]
theorem asin_fin_ite :
    Flt.asin (fin x) = if x < -1 ∨ 1 < x then nan else fin (Real.arcsin x) := rfl
theorem asin_fin {x : ℝ} (h1 : -1 ≤ x) (h2 : x ≤ 1) : Flt.asin (fin x) = fin (Real.arcsin x) := by
  rw [asin_fin_ite, if_neg (by rintro (h | h) <;> linarith)]
@[simp] theorem atan_fin : Flt.atan (fin x) = fin (Real.arctan x) := rfl
@[simp] theorem atan_pinf : Flt.atan pinf = fin (Real.pi / 2) := rfl
@[simp] theorem atan_ninf : Flt.atan ninf = fin (-(Real.pi / 2)) := rfl
@[simp] theorem atan2_fin : Flt.atan2 (fin y) (fin x) = fin (Complex.arg ⟨x, y⟩) := rfl
@[simp] theorem sinh_fin : Flt.sinh (fin x) = fin (Real.sinh x) := rfl
@[simp] theorem cosh_fin : Flt.cosh (fin x) = fin (Real.cosh x) := rfl
@[simp] theorem tanh_fin : Flt.tanh (fin x) = fin (Real.tanh x) := rfl
@[simp] theorem asinh_fin : Flt.asinh (fin x) = fin (Real.arsinh x) := rfl
theorem atanh_fin {x : ℝ} (h1 : -1 < x) (h2 : x < 1) : Flt.atanh (fin x) = fin (Real.artanh x) := by
  show (if x = 1 then pinf else if x = -1 then ninf
      else if x < -1 ∨ 1 < x then nan else fin (Real.artanh x)) = _
  rw [if_neg h2.ne, if_neg h1.ne', if_neg (by rintro (h | h) <;> linarith)]

@[simp] theorem signInf_pos {x : ℝ} (h : 0 < x) : signInf x = pinf := by
  unfold signInf; rw [if_neg h.ne', if_pos h]
@[simp] theorem signInf_neg {x : ℝ} (h : x < 0) : signInf x = ninf := by
  unfold signInf; rw [if_neg h.ne, if_neg (not_lt.2 h.le)]
@[simp] theorem signInf_zero : signInf 0 = nan := by
  unfold signInf; rw [if_pos rfl]

/-! NaN -/
@[simp] theorem nan_add (a : XR) : (nan + a : XR) = nan := by cases a <;> rfl
@[simp] theorem add_nan (a : XR) : (a + nan : XR) = nan := by cases a <;> rfl
@[simp] theorem nan_sub (a : XR) : (nan - a : XR) = nan := by cases a <;> rfl
@[simp] theorem sub_nan (a : XR) : (a - nan : XR) = nan := by cases a <;> rfl
@[simp] theorem nan_mul (a : XR) : (nan * a : XR) = nan := by cases a <;> rfl
@[simp] theorem mul_nan (a : XR) : (a * nan : XR) = nan := by cases a <;> rfl
@[simp] theorem nan_div (a : XR) : (nan / a : XR) = nan := by cases a <;> rfl
@[simp] theorem div_nan (a : XR) : (a / nan : XR) = nan := by cases a <;> rfl
@[simp] theorem neg_nan : (-nan : XR) = nan := rfl
@[simp] theorem nan_lt (a : XR) : (nan <. a) = false := by cases a <;> rfl
@[simp] theorem lt_nan (a : XR) : (a <. nan) = false := by cases a <;> rfl
@[simp] theorem nan_le (a : XR) : (nan <=. a) = false := by cases a <;> rfl
@[simp] theorem le_nan (a : XR) : (a <=. nan) = false := by cases a <;> rfl
@[simp] theorem nan_eq (a : XR) : (nan ==. a) = false := by cases a <;> rfl
@[simp] theorem eq_nan (a : XR) : (a ==. nan) = false := by cases a <;> rfl
@[simp] theorem abs_nan : Flt.abs nan = nan := rfl
@[simp] theorem sqrt_nan : Flt.sqrt nan = nan := rfl
@[simp] theorem cbrt_nan : Flt.cbrt nan = nan := rfl
@[simp] theorem sin_nan : Flt.sin nan = nan := rfl
@[simp] theorem cos_nan : Flt.cos nan = nan := rfl
@[simp] theorem tan_nan : Flt.tan nan = nan := rfl
@[simp] theorem atan_nan : Flt.atan nan = nan := rfl
@[simp] theorem nan_atan2 (a : XR) : Flt.atan2 nan a = nan := by cases a <;> rfl
@[simp] theorem atan2_nan (a : XR) : Flt.atan2 a nan = nan := by cases a <;> rfl

end XR
end Geo
