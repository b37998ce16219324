import Verif.Arith

/-! Model of `geokit/src/math/*.rs`. -/

namespace Geo
variable {F : Type} [Flt F]

/-- math/fp.rs:9-11 `sq`. -/
def sq (x : F) : F := x * x

/-- math/fp.rs:12-14 `remainder`. -/
def remainder (val r : F) : F := val - Flt.roundTiesEven (val / r) * r

/-- State of the loop of `clenshaw_sin_sum`: `(y_n_plus_2, y_n_plus_1, y_n)`. -/
structure ClenshawState (F : Type) where
  yn2 : F
  yn1 : F
  yn : F

/-- One iteration of the loop, math/fp.rs:32-36. -/
def clenshawStep (alpha beta : F) (st : ClenshawState F) (ck : F) : ClenshawState F :=
  let yn2 := st.yn1
  let yn1 := st.yn
  { yn2 := yn2, yn1 := yn1, yn := alpha * yn1 + beta * yn2 + ck }

/-- math/fp.rs:25-41 `clenshaw_sin_sum`. -/
def clenshawSinSum (c_k : List F) (x : F) : F :=
  let alpha := 2 * Flt.cos x
  let beta : F := -1
  let st := c_k.reverse.foldl (clenshawStep alpha beta) { yn2 := 0, yn1 := 0, yn := 0 }
  Flt.sin x * st.yn1

/-- math/fp.rs:46-51 `sum` (two-sum). -/
def twoSum (a b : F) : F × F :=
  let x := a + b
  let z := x - a
  let y := a - (x - z) + (b - z)
  (x, y)

/-- math/polynomial.rs:9 `Polynomial<D, Float>`: the coefficient array, lowest degree first.
The const generic `D` is the length of the list. -/
structure Polynomial (F : Type) where
  coef : List F

/-- math/polynomial.rs:23-31 `eval_at`, for `V = T = Float`. -/
def Polynomial.evalAt (p : Polynomial F) (x : F) : F :=
  p.coef.reverse.foldl (fun acc coef_i => x * acc + coef_i) 0

/-- math/polynomial.rs:40-45 `fast_eval_at`. -/
def Polynomial.fastEvalAt (p : Polynomial F) (x : F) : F :=
  p.coef.reverse.foldl (fun acc coef_i => Flt.mulAdd acc x coef_i) 0

/-- math/complex.rs:6-9 `Complex` (named `Cplx` here). -/
structure Cplx (F : Type) where
  re : F
  im : F

namespace Cplx

/-- math/complex.rs:12-14, 53-55 `zero`. -/
def zero : Cplx F := ⟨0, 0⟩
/-- math/complex.rs:20-25 `conj`. -/
def conj (z : Cplx F) : Cplx F := ⟨z.re, -z.im⟩
/-- math/complex.rs:28-30 `abs_sq`. -/
def absSq (z : Cplx F) : F := z.re * z.re + z.im * z.im
/-- math/complex.rs:33-35 `abs`. -/
def abs (z : Cplx F) : F := Flt.hypot z.re z.im
/-- math/complex.rs:57-59 `is_zero`. -/
def isZero (z : Cplx F) : Bool := (z.re ==. 0) && (z.im ==. 0)
/-- math/complex.rs:62-71 `Add`. -/
def add (a b : Cplx F) : Cplx F := ⟨a.re + b.re, a.im + b.im⟩
/-- math/complex.rs:73-82 `Add<Float>`. -/
def addF (a : Cplx F) (r : F) : Cplx F := ⟨a.re + r, a.im⟩
/-- math/complex.rs:84-93 `Sub`. -/
def sub (a b : Cplx F) : Cplx F := ⟨a.re - b.re, a.im - b.im⟩
/-- math/complex.rs:95-104 `Sub<Float>`. -/
def subF (a : Cplx F) (r : F) : Cplx F := ⟨a.re - r, a.im⟩
/-- math/complex.rs:106-115 `Mul`. -/
def mul (a b : Cplx F) : Cplx F :=
  ⟨a.re * b.re - a.im * b.im, a.re * b.im + a.im * b.re⟩
/-- math/complex.rs:117-126 `Mul<Float>`. -/
def mulF (a : Cplx F) (r : F) : Cplx F := ⟨a.re * r, a.im * r⟩
/-- math/complex.rs:137-146 `Div<Float>`. -/
def divF (a : Cplx F) (r : F) : Cplx F := ⟨a.re / r, a.im / r⟩
/-- math/complex.rs:43-49 `inv`. -/
def inv (z : Cplx F) : Res (Cplx F) :=
  if z.isZero then .error (.err "Complex not invertible: |z| = 0.0")
  else .ok (z.conj.divF z.absSq)
/-- math/complex.rs:128-135 `Div`. -/
def div (a b : Cplx F) : Res (Cplx F) := do
  let i ← b.inv
  return a.mul i

end Cplx

/-- math/polynomial.rs:23-31 `eval_at`, for `V = Complex`, `T = Float`. -/
def Polynomial.evalAtCplx (p : Polynomial F) (x : Cplx F) : Cplx F :=
  p.coef.reverse.foldl (fun acc coef_i => (x.mul acc).addF coef_i) Cplx.zero

/-- Body of the loop of `iter_fn`, math/utils.rs:10-13.  State: `(res, ds)`, `ds` being the
increments of the last iteration.  Arrays `[Float; D]` are lists. -/
def iterFnStep (deltas : List F → List F) (st : List F × List F) : List F × List F :=
  let ds := deltas st.1
  (List.zipWith (fun r d => r + d) st.1 ds, ds)

/-- Exit test of `iter_fn`, math/utils.rs:14. -/
def iterFnDone (epsilon : List F) (st : List F × List F) : Bool :=
  (st.2.zip epsilon).all (fun p => Flt.abs p.1 <. p.2)

/-- math/utils.rs:3-19 `iter_fn`. -/
noncomputable def iterFn (init : List F) (deltas : List F → List F) (epsilon : List F) :
    Res (List F) := do
  let st ← loopUntil (iterFnStep deltas) (iterFnDone epsilon) (init, [])
  return st.1

end Geo
