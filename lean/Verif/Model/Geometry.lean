import Verif.Model.Crs

/-! Model of `geokit/src/geometry/**.rs`. -/

namespace Geo
variable {F : Type} [Flt F]

/-- geometry/mod.rs:10-15 `GeometryType`. -/
inductive GeometryType where
  | point (d : Nat)
  | curve (d : Nat)
  | surface (d : Nat)
  | solid
  deriving DecidableEq, Repr

/-- geometry/mod.rs:19-26 `dim`. -/
def GeometryType.dim : GeometryType → Nat
  | .point _ => 0
  | .curve _ => 1
  | .surface _ => 2
  | .solid => 3

/-- geometry/mod.rs:29-34 `coord_dim`. -/
def GeometryType.coordDim : GeometryType → Nat
  | .point d | .curve d | .surface d => d
  | .solid => 3

/-! ### primitive/point.rs -/

/-- geometry/primitive/point.rs:13-16 `Point`; `coord : [Float; 3]` is a list of length 3. -/
structure Point (F : Type) where
  coordDim : Nat
  coord : List F

namespace Point

/-- geometry/primitive/point.rs:25-31 `new`. -/
def new (pos : List F) : Res (Point F) := do
  let coord_dim := pos.length
  rassert (coord_dim == 2 || coord_dim == 3) "assertion failed: coord_dim == 2 || coord_dim == 3"
  let zeros : List F := [0, 0, 0]
  return { coordDim := coord_dim, coord := pos ++ zeros.drop coord_dim }

/-- geometry/primitive/point.rs:53-55 `deref`; also 59-61 and 69-71. -/
def deref (self : Point F) : Res (List F) := slice self.coord 0 self.coordDim

/-- geometry/primitive/point.rs:59-61 `deref_mut` followed by an assignment `point[i] = v`. -/
def setCoord (self : Point F) (i : Nat) (v : F) : Res (Point F) := do
  let s ← self.deref
  let s ← setIdx s i v
  return { self with coord := s ++ self.coord.drop self.coordDim }

/-- geometry/primitive/point.rs:35-37 `geometry_type`. -/
def geometryType (self : Point F) : GeometryType := .point self.coordDim

/-- geometry/primitive/point.rs:39-41 `is_cycle`. -/
def isCycle (_ : Point F) : Bool := true

end Point

/-- geometry/primitive/curve.rs:20-23 `CurveBoundary`. -/
structure CurveBoundary (F : Type) where
  start : Point F
  end_ : Point F

/-- `==` of two slices of floats. -/
def posEq : List F → List F → Bool
  | [], [] => true
  | x :: xs, y :: ys => (x ==. y) && posEq xs ys
  | _, _ => false

/-! ### coordinate/curve/line_string.rs -/

/-- geometry/coordinate/curve/line_string.rs:15-19 `LineString`; also the fields of
`LineStringBuilder` (130-135) apart from the CRS. -/
structure LineString (F : Type) where
  coordDim : Nat
  pos : List F
  len : List (Length F)

/-- Lengths of a path: left fold from `0. * M`, line_string.rs:77, curve.rs:94-97. -/
def sumLengths (ls : List (Length F)) : Length F :=
  ls.foldl (fun acc l => acc + l) (Length.new 0 M)

namespace LineString

/-- The assertions of `LineString::new` and `LineStringBuilder::new`, line_string.rs:28-36, 150-158.
`% 0` panics in Rust. -/
def checks (coord_dim : Nat) (pos : List F) (len : List (Length F)) : Res Unit := do
  rassert (coord_dim != 0) "attempt to calculate the remainder with a divisor of zero"
  rassert (pos.length % coord_dim == 0) "Incomplete position in `pos`"
  rassert (2 * coord_dim ≤ pos.length) "Need at least 2 positions in `pos`"
  rassert (len.length == pos.length / coord_dim - 1) "Invalid lengthes in `len`"

/-- geometry/coordinate/curve/line_string.rs:27-42 `new`. -/
def new (coord_dim : Nat) (pos : List F) (len : List (Length F)) : Res (LineString F) := do
  checks coord_dim pos len
  return { coordDim := coord_dim, pos := pos, len := len }

/-- geometry/coordinate/curve/line_string.rs:45-47 `len()` (builder: 191-193); a division by zero would
panic in Rust (`coord_dim` is never 0, see `checks`). -/
def count (self : LineString F) : Nat := self.pos.length / self.coordDim

/-- geometry/coordinate/curve/line_string.rs:54-56 `pos(n)` (builder: 187-189). -/
def posAt (self : LineString F) (n : Nat) : Res (List F) :=
  slice self.pos (n * self.coordDim) ((n + 1) * self.coordDim)

/-- `chunks_exact(n)` of a slice; `fuel` bounds the number of chunks. -/
def chunksExact (n : Nat) : Nat → List F → List (List F)
  | 0, _ => []
  | fuel + 1, xs => if n ≤ xs.length then xs.take n :: chunksExact n fuel (xs.drop n) else []

/-- geometry/coordinate/curve/line_string.rs:58-60 `pos_iter`; `chunks_exact(0)` panics. -/
def posIter (self : LineString F) : Res (List (List F)) := do
  rassert (self.coordDim != 0) "chunk size must be non-zero"
  return chunksExact self.coordDim self.pos.length self.pos

/-- geometry/coordinate/curve/line_string.rs:68-70 `start`. -/
def start (self : LineString F) : Res (List F) := self.posAt 0

/-- geometry/coordinate/curve/line_string.rs:72-74 `end`. -/
def end_ (self : LineString F) : Res (List F) := self.posAt (self.count - 1)

/-- geometry/coordinate/curve/line_string.rs:76-78 `length`. -/
def length (self : LineString F) : Length F := sumLengths self.len

/-- The loop of `param`, geometry/coordinate/curve/line_string.rs:86-93: `(start_pos_ix, ratio)`. -/
def paramLoop : List (Length F) → Length F → Nat → Nat × F
  | [], _, ix => (ix, 0)
  | l :: ls, res_len, ix =>
    if res_len.le l then (ix, res_len / l) else paramLoop ls (res_len - l) (ix + 1)

/-- Linear interpolation of positions, geometry/coordinate/curve/line_string.rs:97-102. -/
def interpolate (ratio : F) (start end_ : List F) : List F :=
  List.zipWith (fun s e => (1 - ratio) * s + ratio * e) start end_

/-- geometry/coordinate/curve/line_string.rs:80-103 `param`. -/
def param (self : LineString F) (s : Length F) : Res (List F) := do
  rassert (s.le self.length) "Invalid curvilinear parameter `s`"
  let r := paramLoop self.len s 0
  let start ← self.posAt r.1
  let end_ ← self.posAt (r.1 + 1)
  return interpolate r.2 start end_

/-- geometry/coordinate/curve/line_string.rs:120-125 `curve_boundary`. -/
def curveBoundary (self : LineString F) : Res (CurveBoundary F) := do
  let start ← Point.new (← self.posAt 0)
  let end_ ← Point.new (← self.posAt (self.count - 1))
  return { start := start, end_ := end_ }

end LineString

/-- geometry/coordinate/curve/line_string.rs:130-135 `LineStringBuilder`. -/
structure LineStringBuilder (F : Type) where
  crs : Crs F
  line : LineString F

namespace LineStringBuilder

/-- geometry/coordinate/curve/line_string.rs:144-165 `new`. -/
def new (crs : Crs F) (pos : List F) (len : List (Length F)) : Res (LineStringBuilder F) := do
  LineString.checks crs.dim pos len
  return { crs := crs, line := { coordDim := crs.dim, pos := pos, len := len } }

/-- geometry/coordinate/curve/line_string.rs:169-181 `with_line`. -/
def withLine (crs : Crs F) (from_ to : List F) : Res (LineStringBuilder F) := do
  let len ← crs.dist from_ to
  new crs (from_ ++ to) [len]

/-- geometry/coordinate/curve/line_string.rs:199-209 `line_to`. -/
def lineTo (self : LineStringBuilder F) (p : List F) : Res (LineStringBuilder F) := do
  if p.length ≠ self.line.coordDim then
    .error (.err "Invalid coordinate dimension")
  else
    let last ← self.line.posAt (self.line.count - 1)
    let length ← self.crs.dist last p
    return { self with
      line := { self.line with pos := self.line.pos ++ p, len := self.line.len ++ [length] } }

/-- geometry/coordinate/curve/line_string.rs:219-225 `build`. -/
def build (self : LineStringBuilder F) : LineString F := self.line

/-- geometry/coordinate/curve/line_string.rs:213-216 `close`. -/
def close (self : LineStringBuilder F) : Res (LineString F) := do
  let start ← self.line.posAt 0
  let b ← self.lineTo start
  return b.build

end LineStringBuilder

/-! ### coordinate/curve/mod.rs, primitive/curve.rs -/

/-- geometry/coordinate/curve/mod.rs:12-61 `dyn CurveSegment`: the record of the methods used by
`Curve`.  (`as_line_string` is `todo!()` everywhere and not modelled.) -/
structure CurveSegment (F : Type) where
  coordDim : Nat
  start : Res (List F)
  end_ : Res (List F)
  length : Crs F → Res (Length F)
  param : Crs F → Length F → Res (List F)

/-- `impl CurveSegment for LineString`, line_string.rs:63-126: the CRS is ignored. -/
def LineString.toSegment (self : LineString F) : CurveSegment F :=
  { coordDim := self.coordDim, start := self.start, end_ := self.end_
    length := fun _ => .ok self.length, param := fun _ s => self.param s }

/-- geometry/primitive/curve.rs:54-57 `Curve`. -/
structure Curve (F : Type) where
  coordDim : Nat
  seg : List (CurveSegment F)

/-- `Option::unwrap`. -/
def unwrap {α : Type} : Option α → Res α
  | some a => .ok a
  | none => .error (.panic "called `Option::unwrap()` on a `None` value")

namespace Curve

/-- geometry/primitive/curve.rs:60-62 `geometry_type`. -/
def geometryType (self : Curve F) : GeometryType := .curve self.coordDim

/-- geometry/primitive/curve.rs:85-87 `start`. -/
def start (self : Curve F) : Res (List F) := do (← unwrap self.seg.head?).start

/-- geometry/primitive/curve.rs:89-91 `end`. -/
def end_ (self : Curve F) : Res (List F) := do (← unwrap self.seg.getLast?).end_

/-- geometry/primitive/curve.rs:64-66 `is_cycle`. -/
def isCycle (self : Curve F) : Res Bool := do
  let s ← self.start
  let e ← self.end_
  return posEq s e

/-- geometry/primitive/curve.rs:68-77 `boundary`. -/
def boundary (self : Curve F) : Res (Option (CurveBoundary F)) := do
  if ← self.isCycle then return none
  else
    let start ← Point.new (← self.start)
    let end_ ← Point.new (← self.end_)
    return some { start := start, end_ := end_ }

/-- Accumulation of the lengths of the segments, geometry/primitive/curve.rs:94-97. -/
def lengthLoop (crs : Crs F) : List (CurveSegment F) → Length F → Res (Length F)
  | [], acc => .ok acc
  | s :: ss, acc => do
    let l ← s.length crs
    lengthLoop crs ss (acc + l)

/-- geometry/primitive/curve.rs:93-98 `length`. -/
def length (self : Curve F) (crs : Crs F) : Res (Length F) :=
  lengthLoop crs self.seg (Length.new 0 M)

/-- The loop of `param`, geometry/primitive/curve.rs:105-112: `(seg_ix, res_len)`. -/
def paramLoop (crs : Crs F) : List (CurveSegment F) → Length F → Nat → Res (Nat × Length F)
  | [], res_len, ix => .ok (ix, res_len)
  | s :: ss, res_len, ix => do
    let seg_len ← s.length crs
    if res_len.le seg_len then .ok (ix, res_len)
    else paramLoop crs ss (res_len - seg_len) (ix + 1)

/-- geometry/primitive/curve.rs:100-115 `param`. -/
def param (self : Curve F) (crs : Crs F) (s : Length F) : Res (List F) := do
  let total ← self.length crs
  rassert (s.le total) "Invalid curvilinear parameter `s`"
  let r ← paramLoop crs self.seg s 0
  let seg ← idx self.seg r.1
  seg.param crs r.2

end Curve

/-- geometry/primitive/curve.rs:128-132 `CurveBuilder`. -/
structure CurveBuilder (F : Type) where
  crs : Crs F
  coordDim : Nat
  seg : List (CurveSegment F)

namespace CurveBuilder

/-- geometry/primitive/curve.rs:135-141 `new`. -/
def new (crs : Crs F) (seg : List (CurveSegment F)) : CurveBuilder F :=
  { crs := crs, coordDim := crs.dim, seg := seg }

/-- geometry/primitive/curve.rs:143-148 `with_seg`. -/
def withSeg (crs : Crs F) (seg : CurveSegment F) : Res (CurveBuilder F) := .ok (new crs [seg])

/-- geometry/primitive/curve.rs:150-162 `append_segment`. -/
def appendSegment (self : CurveBuilder F) (seg : CurveSegment F) : Res (CurveBuilder F) := do
  if self.coordDim ≠ seg.coordDim then .error (.err "Invalid coordinate dimension")
  else
    let last ← unwrap self.seg.getLast?
    let e ← last.end_
    let s ← seg.start
    if !posEq e s then .error (.err "Disconnected segment")
    else return { self with seg := self.seg ++ [seg] }

/-- geometry/primitive/curve.rs:164-169 `build`. -/
def build (self : CurveBuilder F) : Curve F := { coordDim := self.coordDim, seg := self.seg }

end CurveBuilder

end Geo
