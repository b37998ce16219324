import Mathlib.Data.Nat.Find
/-
Operations the model needs from a floating-point type, results, loops.

The whole model is generic in a type `F` carrying the operations below.  There are no laws here on
purpose: see `Verif/Sem/XR.lean` (exact reals with NaN and infinities) and `Verif/Sem/F64.lean`
(IEEE-754 binary64) for the two concrete arithmetics the theorems use.
-/

namespace Geo

/-- The `f64` operations used by geokit (`pub type Float = f64`, math/fp.rs:2). -/
class Flt (F : Type) extends Add F, Sub F, Mul F, Div F, Neg F where
  /-- A decimal literal of the Rust source (also `n as f64`). -/
  lit : Rat → F
  /-- `f64::INFINITY` -/
  infinity : F
  /-- `std::f64::consts::{PI, FRAC_PI_2, FRAC_PI_4, TAU}` (math/fp.rs:4-7) -/
  pi : F
  pi_2 : F
  pi_4 : F
  tau : F
  /-- `a < b`, `a <= b`, `a == b` -/
  lt : F → F → Bool
  le : F → F → Bool
  eq : F → F → Bool
  /-- `f64::is_infinite` -/
  isInfinite : F → Bool
  abs : F → F
  signum : F → F
  floor : F → F
  trunc : F → F
  round : F → F
  roundTiesEven : F → F
  /-- `mulAdd a b c = a.mul_add(b, c)` -/
  mulAdd : F → F → F → F
  sqrt : F → F
  cbrt : F → F
  hypot : F → F → F
  powi : F → Nat → F
  powf : F → F → F
  exp : F → F
  ln : F → F
  sin : F → F
  cos : F → F
  tan : F → F
  asin : F → F
  atan : F → F
  /-- `atan2 y x = y.atan2(x)` -/
  atan2 : F → F → F
  sinh : F → F
  cosh : F → F
  tanh : F → F
  asinh : F → F
  atanh : F → F

export Flt (lit pi pi_2 pi_4 tau)

/-- Rust float literals: `2.`, `1e-12`, ... -/
scoped instance {F : Type} [Flt F] (n : Nat) : OfNat F n := ⟨Flt.lit (n : Rat)⟩
scoped instance {F : Type} [Flt F] : OfScientific F :=
  ⟨fun m s e => Flt.lit (OfScientific.ofScientific m s e : Rat)⟩

/-- `a < b` of the Rust source: a Boolean, false on NaN. -/
scoped infix:50 " <. " => Flt.lt
/-- `a <= b` -/
scoped infix:50 " <=. " => Flt.le
/-- `a == b` -/
scoped infix:50 " ==. " => Flt.eq
/-- `a > b` -/
scoped notation:50 a:51 " >. " b:51 => Flt.lt b a
/-- `a >= b` -/
scoped notation:50 a:51 " >=. " b:51 => Flt.le b a

section
variable {F : Type} [Flt F]

/-- `f64::fract`: `self - self.trunc()`. -/
def fract (x : F) : F := x - Flt.trunc x

/-- `f64::clamp` (std): panics unless `min <= max` (always constants here, so the panic is omitted). -/
def clamp (x min max : F) : F :=
  if x <. min then min else if max <. x then max else x

/-- `f64::to_degrees` (std): multiplication by the constant `180.0 / PI`. -/
def toDegrees (x : F) : F := x * ((180 : F) / pi)

/-- `Iterator::sum::<f64>()` (std): left fold from `-0.0`/`0.0`; the model starts from `0`.
The start value is irrelevant for every non-empty sum that is not a sum of negative zeros. -/
def fsum (xs : List F) : F := xs.foldl (fun acc x => acc + x) (0 : F)

end

/-- Why a call did not return a value. -/
inductive Fail where
  /-- The Rust function returned `Err(msg)`. -/
  | err (msg : String)
  /-- The Rust function panicked. -/
  | panic (msg : String)
  /-- The Rust function does not return. -/
  | diverge
  deriving DecidableEq, Repr

/-- Result of a Rust function that can fail, panic or loop for ever. -/
abbrev Res (α : Type) := Except Fail α

/-- Slice indexing `s[i]`: panics when out of bounds. -/
def idx {α : Type} (s : List α) (i : Nat) : Res α :=
  match s[i]? with
  | some a => .ok a
  | none => .error (.panic "index out of bounds")

/-- Slice assignment `s[i] = a`: panics when out of bounds. -/
def setIdx {α : Type} (s : List α) (i : Nat) (a : α) : Res (List α) :=
  if i < s.length then .ok (s.set i a) else .error (.panic "index out of bounds")

/-- Slicing `&s[lo..hi]`: panics unless `lo <= hi <= s.len()`. -/
def slice {α : Type} (s : List α) (lo hi : Nat) : Res (List α) :=
  if lo ≤ hi ∧ hi ≤ s.length then .ok ((s.drop lo).take (hi - lo))
  else .error (.panic "slice index out of range")

/-- `assert!(b, msg)` -/
def rassert (b : Bool) (msg : String) : Res Unit :=
  if b then .ok () else .error (.panic msg)

/-- `n`-fold iteration of a loop body. -/
def iterate {σ : Type} (step : σ → σ) : Nat → σ → σ
  | 0, s => s
  | n + 1, s => iterate step n (step s)

/-- `loop { iter_count += 1; s = step(s); if done(s) { break } if iter_count == max { return Err(msg) } }`
with `n` iterations left.  (`n = 0` is never reached from `max > 0`; it is given the same value.) -/
def loopMax {σ : Type} (step : σ → σ) (done : σ → Bool) (msg : String) : Nat → σ → Res σ
  | 0, _ => .error (.err msg)
  | n + 1, s =>
    let s' := step s
    if done s' then .ok s' else loopMax step done msg n s'

open Classical in
/-- `loop { s = step(s); if done(s) { break } }`: the state after the first iteration at which `done`
holds; `diverge` when there is none. -/
noncomputable def loopUntil {σ : Type} (step : σ → σ) (done : σ → Bool) (s : σ) : Res σ :=
  if h : ∃ n, done (iterate step (n + 1) s) = true then
    .ok (iterate step (Nat.find h + 1) s)
  else .error .diverge

end Geo
