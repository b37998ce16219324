import Verif.Model.Geometry
import Verif.Lemmas.Res
import Mathlib.Data.List.Chain

/-!
C52, C53, C54, C57, C58, C59: points, line strings and curves, for every float semantics.
-/

set_option linter.unusedSectionVars false

namespace Geo
variable {F : Type} [Flt F]

/-! ### Points -/

/-- **C52**: `Point::new` panics exactly for positions without 2 or 3 coordinates; otherwise dereferencing
gives back the coordinates and the reported geometry type is a point of that dimension, without boundary
dimension. -/
theorem C52_point (pos : List F) :
    (¬ (pos.length = 2 ∨ pos.length = 3) → ∃ msg, Point.new pos = .error (.panic msg)) ∧
    ((pos.length = 2 ∨ pos.length = 3) → ∃ p, Point.new pos = .ok p ∧ p.deref = .ok pos ∧
      p.geometryType = .point pos.length ∧ p.geometryType.dim = 0 ∧
      p.geometryType.coordDim = pos.length ∧ p.isCycle = true) := by
  rcases pos with _ | ⟨a, _ | ⟨b, _ | ⟨c, _ | ⟨d, l⟩⟩⟩⟩ <;>
    simp [Point.new, Point.deref, slice, Point.geometryType, GeometryType.dim, GeometryType.coordDim,
      Point.isCycle, rassert]

omit [Flt F] in
/-- **C52**: the dimensions of the geometry types are 0 to 3 in this order, whatever the coordinate dimension, and a
solid fills its coordinate space. -/
theorem C52_dimensions (d : Nat) : [GeometryType.point d, .curve d, .surface d, .solid].map GeometryType.dim = [0, 1, 2, 3] ∧
    [GeometryType.point d, .curve d, .surface d].map GeometryType.coordDim = [d, d, d] ∧
    GeometryType.solid.coordDim = GeometryType.solid.dim := ⟨rfl, rfl, rfl⟩

/-- **C52**: assigning through the mutable dereference changes exactly that coordinate. -/
theorem C52_point_set (pos : List F) (h : pos.length = 2 ∨ pos.length = 3) (i : Nat) (v : F) :
    ∃ p, Point.new pos = .ok p ∧
      (i < pos.length → ∃ q, p.setCoord i v = .ok q ∧ q.deref = .ok (pos.set i v)) ∧
      (pos.length ≤ i → ∃ msg, p.setCoord i v = .error (.panic msg)) := by
  obtain ⟨p, hp, hd, -⟩ := (C52_point pos).2 h
  refine ⟨p, hp, ?_, ?_⟩
  · intro hi
    have hc : p.coordDim = pos.length := by
      have := ((C52_point pos).2 h); obtain ⟨p', hp', _, hg, _⟩ := this
      rw [hp] at hp'; cases hp'
      simpa [Point.geometryType] using hg
    refine ⟨_, by simp [Point.setCoord, hd, setIdx, hi]; rfl, ?_⟩
    have hlen : (pos.set i v).length = p.coordDim := by simp [hc]
    unfold Point.deref slice
    simp [hlen, hc]
  · intro hi
    exact ⟨_, by simp [Point.setCoord, hd, setIdx, Nat.not_lt.2 hi]; rfl⟩

example (x y : F) : ∃ p, Point.new [x, y] = .ok p ∧ p.deref = .ok [x, y] := by
  obtain ⟨p, h1, h2, -⟩ := (C52_point [x, y]).2 (Or.inl rfl)
  exact ⟨p, h1, h2⟩

/-! ### Line strings -/

/-- Specification: the control positions of a line string, as seen through `len()` and `pos(n)`. -/
def LineString.HasPositions (l : LineString F) (ps : List (List F)) : Prop :=
  l.count = ps.length ∧ ∀ (i : Nat) (p : List F), ps[i]? = some p → l.posAt i = .ok p

/-- `with_line(crs, p0, p1)` followed by `line_to(p)` for each `p` of `ps`. -/
def runLines (crs : Crs F) (p0 p1 : List F) (ps : List (List F)) : Res (LineStringBuilder F) := do
  let b ← LineStringBuilder.withLine crs p0 p1
  ps.foldlM (fun b p => b.lineTo p) b

/-- The CRS rejects positions with a number of coordinates other than `dim()`; see `C53_crs_checks` for
the CRSs of the crate. -/
def Crs.ChecksLength (crs : Crs F) : Prop :=
  ∀ a b l, crs.dist a b = .ok l → a.length = crs.dim ∧ b.length = crs.dim

/-- **C53**: the three kinds of CRS of the crate reject positions of the wrong length. -/
theorem C53_crs_checks :
    (∀ c : GeocentricCrs F, c.toCrs.ChecksLength) ∧ (∀ c : ProjectedCrs F, c.toCrs.ChecksLength) ∧
    (∀ c : GeographicCrs F, c.toCrs.ChecksLength) := by
  refine ⟨fun c a b l h => ?_, fun c a b l h => ?_, fun c a b l h => ?_⟩
  all_goals
    obtain ⟨_, h1, h⟩ := bind_eq_ok.1 h
    obtain ⟨_, h2, h⟩ := bind_eq_ok.1 h
    unfold rassert at h1 h2
    split at h1 <;> split at h2
    · rename_i e1 e2
      exact ⟨beq_iff_eq.1 e1, beq_iff_eq.1 e2⟩
    all_goals simp_all

/-- Invariant of the builder. -/
structure LineInv (b : LineStringBuilder F) (crs : Crs F) (ps : List (List F)) : Prop where
  crs_eq : b.crs = crs
  dim_eq : b.line.coordDim = crs.dim
  two : 2 ≤ ps.length
  each : ∀ p ∈ ps, p.length = crs.dim
  pos_eq : b.line.pos = ps.flatten
  len_eq : b.line.len.length + 1 = ps.length
  dists : ∀ (i : Nat) (p q : List F) (l : Length F), ps[i]? = some p → ps[i + 1]? = some q →
    b.line.len[i]? = some l → crs.dist p q = .ok l

theorem flatten_length {ps : List (List F)} {d : Nat} (h : ∀ p ∈ ps, p.length = d) :
    ps.flatten.length = ps.length * d := by
  induction ps with
  | nil => simp
  | cons p ps ih =>
    rw [List.flatten_cons, List.length_append, h p (by simp),
      ih (fun q hq => h q (List.mem_cons_of_mem p hq)), List.length_cons]
    ring

theorem slice_flatten {ps : List (List F)} {d : Nat} (h : ∀ p ∈ ps, p.length = d) (i : Nat)
    (p : List F) (hi : ps[i]? = some p) : slice ps.flatten (i * d) ((i + 1) * d) = .ok p := by
  have hlt : i < ps.length := by
    by_contra hc
    rw [List.getElem?_eq_none (Nat.le_of_not_lt hc)] at hi
    cases hi
  have hlen := flatten_length h
  unfold slice
  rw [if_pos]
  · congr 1
    have he : (i + 1) * d - i * d = d := by rw [Nat.add_mul]; omega
    rw [he]
    induction ps generalizing i with
    | nil => simp at hi
    | cons q ps ih =>
      have hq : q.length = d := h q (by simp)
      rcases i with _ | i
      · simp at hi
        subst hi
        simp [hq]
      · have hps : ∀ p ∈ ps, p.length = d := fun r hr => h r (List.mem_cons_of_mem q hr)
        have : (i + 1) * d = q.length + i * d := by rw [hq]; ring
        rw [List.flatten_cons, this, List.drop_append]
        simp only [Nat.add_sub_cancel_left]
        rw [List.drop_eq_nil_of_le (by omega), List.nil_append]
        exact ih hps i (by simpa using hi) (by simpa using hlt) (flatten_length hps)
          (by rw [Nat.add_mul]; omega)
  · rw [hlen]
    exact ⟨Nat.mul_le_mul_right d (Nat.le_succ i), Nat.mul_le_mul_right d hlt⟩

theorem LineInv.positions {b : LineStringBuilder F} {crs : Crs F} {ps : List (List F)}
    (h : LineInv b crs ps) (hd : 0 < crs.dim) : b.line.HasPositions ps := by
  constructor
  · unfold LineString.count
    rw [h.pos_eq, flatten_length h.each, h.dim_eq, Nat.mul_div_cancel _ hd]
  · intro i p hi
    unfold LineString.posAt
    rw [h.pos_eq, h.dim_eq]
    exact slice_flatten h.each i p hi

theorem LineInv.withLine {crs : Crs F} (hc : crs.ChecksLength) {p0 p1 : List F}
    {b : LineStringBuilder F} (h : LineStringBuilder.withLine crs p0 p1 = .ok b) :
    LineInv b crs [p0, p1] := by
  obtain ⟨l, h1, h⟩ := bind_eq_ok.1 h
  obtain ⟨_, -, h⟩ := bind_eq_ok.1 h
  cases h
  obtain ⟨e0, e1⟩ := hc _ _ _ h1
  refine ⟨rfl, rfl, by simp, ?_, by simp, rfl, ?_⟩
  · intro p hp
    simp at hp
    rcases hp with rfl | rfl <;> assumption
  · intro i p q l' hp hq hl
    rcases i with _ | i
    · simp at hp hq hl
      subst hp hq hl
      exact h1
    · simp at hq

theorem LineInv.lineTo {crs : Crs F} (hd : 0 < crs.dim) {b b' : LineStringBuilder F}
    {ps : List (List F)} {p : List F} (hi : LineInv b crs ps) (h : b.lineTo p = .ok b') :
    LineInv b' crs (ps ++ [p]) := by
  have hpos := hi.positions hd
  unfold LineStringBuilder.lineTo at h
  split at h
  · cases h
  · rename_i hne
    have hpl : p.length = crs.dim := by
      rw [← hi.dim_eq]; by_contra hc; exact hne hc
    obtain ⟨last, h1, h⟩ := bind_eq_ok.1 h
    obtain ⟨l, h2, h⟩ := bind_eq_ok.1 h
    cases h
    have htwo := hi.two
    have hlast : ps[ps.length - 1]? = some last := by
      have hlt : ps.length - 1 < ps.length := by omega
      have := hpos.2 (ps.length - 1) ps[ps.length - 1] (List.getElem?_eq_getElem hlt)
      rw [hpos.1, this] at h1
      cases h1
      exact List.getElem?_eq_getElem hlt
    refine ⟨hi.crs_eq, hi.dim_eq, by simp; omega, ?_, by simp [hi.pos_eq], ?_, ?_⟩
    · intro q hq
      rcases List.mem_append.1 hq with hq | hq
      · exact hi.each q hq
      · simp at hq; rw [hq]; exact hpl
    · simp [hi.len_eq]
    · intro i q r l' hq hr hl
      have hle := hi.len_eq
      by_cases hlt : i < b.line.len.length
      · have e1 : ps[i]? = some q := by
          rw [← hq, List.getElem?_append_left (by omega)]
        have e2 : ps[i + 1]? = some r := by
          rw [← hr, List.getElem?_append_left (by omega)]
        have e3 : b.line.len[i]? = some l' := by
          rw [← hl]; exact (List.getElem?_append_left hlt).symm
        exact hi.dists i q r l' e1 e2 e3
      · have hil : i + 1 = ps.length := by
          have hlt2 : i + 1 < (ps ++ [p]).length := by
            by_contra hc
            rw [List.getElem?_eq_none (Nat.le_of_not_lt hc)] at hr
            cases hr
          simp at hlt2
          omega
        have e0 : i = ps.length - 1 := by omega
        rw [List.getElem?_append_left (by omega), e0, hlast] at hq
        rw [hil, List.getElem?_append_right (by omega)] at hr
        simp at hr
        have e4 : i = b.line.len.length := by omega
        have hl' : (b.line.len ++ [l])[i]? = some l' := hl
        rw [e4, List.getElem?_append_right (by omega)] at hl'
        simp at hl'
        cases hq
        subst hr hl'
        rw [← hi.crs_eq]
        exact h2

theorem LineInv.run {crs : Crs F} (hd : 0 < crs.dim) (ps : List (List F)) :
    ∀ {b b' : LineStringBuilder F} {qs : List (List F)}, LineInv b crs qs →
      ps.foldlM (fun b p => b.lineTo p) b = .ok b' → LineInv b' crs (qs ++ ps) := by
  induction ps with
  | nil =>
    intro b b' qs hi h
    cases h
    simpa using hi
  | cons p ps ih =>
    intro b b' qs hi h
    rw [List.foldlM_cons] at h
    obtain ⟨b1, h1, h⟩ := bind_eq_ok.1 h
    have := ih (hi.lineTo hd h1) h
    simpa using this

/-- **C53**: after `with_line` and any sequence of successful `line_to`, the built line string has exactly the
given control positions in order, one length less than positions, and the `i`-th length is the CRS distance
between positions `i` and `i + 1`. -/
theorem C53_line_string_builder (crs : Crs F) (hc : crs.ChecksLength) (hd : 0 < crs.dim)
    (p0 p1 : List F) (ps : List (List F)) (b : LineStringBuilder F)
    (h : runLines crs p0 p1 ps = .ok b) :
    b.build.HasPositions (p0 :: p1 :: ps) ∧
    b.build.coordDim = crs.dim ∧
    b.build.len.length = ps.length + 1 ∧
    ∀ (i : Nat) (p q : List F) (l : Length F), (p0 :: p1 :: ps)[i]? = some p →
      (p0 :: p1 :: ps)[i + 1]? = some q → b.build.len[i]? = some l → crs.dist p q = .ok l := by
  obtain ⟨b0, h0, h⟩ := bind_eq_ok.1 h
  have hi := LineInv.run hd ps (LineInv.withLine hc h0) h
  refine ⟨hi.positions hd, hi.dim_eq, ?_, hi.dists⟩
  have := hi.len_eq
  simp at this
  simpa [LineStringBuilder.build] using this

/-- **C53** (failures of `line_to`): a call on a reachable builder fails exactly when the position has the
wrong number of coordinates or the CRS cannot compute the distance from the last position, and then with that
error. -/
theorem C53_line_to_fails (crs : Crs F) (hc : crs.ChecksLength) (hd : 0 < crs.dim)
    (p0 p1 : List F) (ps : List (List F)) (b : LineStringBuilder F)
    (h : runLines crs p0 p1 ps = .ok b) (p : List F) :
    (p.length ≠ crs.dim → b.lineTo p = .error (.err "Invalid coordinate dimension")) ∧
    (p.length = crs.dim → ∀ last, (p0 :: p1 :: ps).getLast? = some last →
      (∀ e, crs.dist last p = .error e → b.lineTo p = .error e) ∧
      (∀ l, crs.dist last p = .ok l → ∃ b', b.lineTo p = .ok b')) := by
  obtain ⟨b0, h0, h⟩ := bind_eq_ok.1 h
  have hi := LineInv.run hd ps (LineInv.withLine hc h0) h
  have hpos := hi.positions hd
  constructor
  · intro hne
    unfold LineStringBuilder.lineTo
    rw [if_pos (by rw [hi.dim_eq]; exact hne)]
  · intro heq last hl
    have hp : b.line.posAt (b.line.count - 1) = .ok last := by
      apply hpos.2
      rw [hpos.1, ← List.getLast?_eq_getElem?]
      simpa using hl
    unfold LineStringBuilder.lineTo
    rw [if_neg (by rw [hi.dim_eq]; simpa using heq), hp, hi.crs_eq]
    constructor
    · intro e he
      simp [he]
    · intro l he
      simp [he]

/-- **C53** (failures of `with_line`): with positions of the right length it fails exactly as the CRS distance
does. -/
theorem C53_with_line_fails (crs : Crs F) (hd : 0 < crs.dim) (p0 p1 : List F)
    (h0 : p0.length = crs.dim) (h1 : p1.length = crs.dim) :
    (∀ e, crs.dist p0 p1 = .error e → LineStringBuilder.withLine crs p0 p1 = .error e) ∧
    (∀ l, crs.dist p0 p1 = .ok l → ∃ b, LineStringBuilder.withLine crs p0 p1 = .ok b) := by
  constructor
  · intro e he
    simp [LineStringBuilder.withLine, he]
  · intro l he
    have e2 : (crs.dim + crs.dim) % crs.dim = 0 := by simp
    have e3 : 1 = (crs.dim + crs.dim) / crs.dim - 1 := by
      rw [← Nat.two_mul, Nat.mul_div_cancel _ hd]
    have e4 : crs.dim ≠ 0 := by omega
    have e5 : 2 * crs.dim ≤ crs.dim + crs.dim := by omega
    simp [LineStringBuilder.withLine, he, LineStringBuilder.new, LineString.checks, h0, h1, rassert,
      e4, e5, ← e3]

/-- **C54**: `close()` on a reachable builder appends exactly the start position; the result ends where it
starts, keeps all positions and lengths, and it fails exactly as the CRS distance from the last to the first
position does. -/
theorem C54_close (crs : Crs F) (hc : crs.ChecksLength) (hd : 0 < crs.dim)
    (p0 p1 : List F) (ps : List (List F)) (b : LineStringBuilder F)
    (h : runLines crs p0 p1 ps = .ok b) (last : List F)
    (hlast : (p0 :: p1 :: ps).getLast? = some last) :
    (∀ l, crs.dist last p0 = .ok l → ∃ ls, b.close = .ok ls ∧
      ls.HasPositions (p0 :: p1 :: ps ++ [p0]) ∧ ls.len = b.build.len ++ [l] ∧
      ls.start = .ok p0 ∧ ls.end_ = .ok p0) ∧
    (∀ e, crs.dist last p0 = .error e → b.close = .error e) := by
  have hrun := h
  obtain ⟨b0, h0, h⟩ := bind_eq_ok.1 h
  have hi := LineInv.run hd ps (LineInv.withLine hc h0) h
  have hpos := hi.positions hd
  have hp0 : p0.length = crs.dim := hi.each p0 (by simp)
  have hstart : b.line.posAt 0 = .ok p0 := hpos.2 0 p0 (by simp)
  have hfail := (C53_line_to_fails crs hc hd p0 p1 ps b hrun p0).2 hp0 last hlast
  constructor
  · intro l hl
    obtain ⟨b', hb'⟩ := hfail.2 l hl
    have hi' := hi.lineTo hd hb'
    have hpos' := hi'.positions hd
    have hlen : b'.line.len = b.line.len ++ [l] := by
      unfold LineStringBuilder.lineTo at hb'
      split at hb'
      · cases hb'
      · obtain ⟨last', h1, hb'⟩ := bind_eq_ok.1 hb'
        obtain ⟨l', h2, hb'⟩ := bind_eq_ok.1 hb'
        cases hb'
        have hp : b.line.posAt (b.line.count - 1) = .ok last := by
          apply hpos.2
          rw [hpos.1, ← List.getLast?_eq_getElem?]
          simpa using hlast
        rw [hp] at h1
        cases h1
        rw [hi.crs_eq, hl] at h2
        cases h2
        rfl
    refine ⟨b'.build, ?_, by simpa [LineStringBuilder.build] using hpos', hlen, ?_, ?_⟩
    · simp [LineStringBuilder.close, hstart, hb']
    · exact hpos'.2 0 p0 (by simp)
    · apply hpos'.2
      have : b'.build.count = ([p0, p1] ++ ps ++ [p0]).length := hpos'.1
      rw [this]
      simp
  · intro e he
    simp [LineStringBuilder.close, hstart, hfail.1 e he]

/-- A one-segment line in a 2D projected CRS. -/
theorem runLines_eastNorth (dat : GeodeticDatum F) (spec : ProjectionSpec F) (a b c d : F) :
    ∃ l, runLines (ProjectedCrs.mk "id" dat (.eastNorth M) spec).toCrs [a, b] [c, d] [] =
      .ok ⟨(ProjectedCrs.mk "id" dat (.eastNorth M) spec).toCrs, ⟨2, [a, b, c, d], [l]⟩⟩ := by
  simp [runLines, LineStringBuilder.withLine, LineStringBuilder.new, LineString.checks,
      ProjectedCrs.toCrs, ProjectedCrs.dist, ProjectedAxes.dim, ProjectedAxes.normalize, rassert]

/-- The hypotheses are met: a projected CRS, three positions; the builder succeeds. -/
example (dat : GeodeticDatum F) (spec : ProjectionSpec F) (x y z : F) :
    ∃ b, runLines (ProjectedCrs.mk "id" dat (.eastNorth M) spec).toCrs [x, y] [y, z] [[z, x]] = .ok b ∧
      b.build.HasPositions [[x, y], [y, z], [z, x]] := by
  let crs := (ProjectedCrs.mk "id" dat (.eastNorth M) spec).toCrs
  have hd : crs.dim = 2 := rfl
  have hr : ∃ b, runLines crs [x, y] [y, z] [[z, x]] = .ok b := by
    simp [runLines, LineStringBuilder.withLine, LineStringBuilder.new, LineString.checks, crs,
      ProjectedCrs.toCrs, ProjectedCrs.dist, ProjectedAxes.dim, ProjectedAxes.normalize, rassert, LineStringBuilder.lineTo,
      LineString.posAt, LineString.count, slice]
  obtain ⟨b, hb⟩ := hr
  exact ⟨b, hb, (C53_line_string_builder crs (C53_crs_checks.2.1 _) (by omega) _ _ _ b hb).1⟩

/-! ### Curves -/

/-- `with_seg(crs, s0)` followed by `append_segment(s)` for each `s` of `ss`. -/
def runSegs (crs : Crs F) (s0 : CurveSegment F) (ss : List (CurveSegment F)) : Res (CurveBuilder F) := do
  let b ← CurveBuilder.withSeg crs s0
  ss.foldlM (fun b s => b.appendSegment s) b

/-- Specification: two positions are equal coordinate by coordinate (`==` of floats). -/
def SamePos (a b : List F) : Prop := List.Forall₂ (fun x y => Flt.eq x y = true) a b

theorem posEq_iff (a b : List F) : posEq a b = true ↔ SamePos a b := by
  induction a generalizing b with
  | nil =>
    cases b with
    | nil => simp [posEq, SamePos]
    | cons y ys => exact ⟨fun h => by simp [posEq] at h, fun h => nomatch h⟩
  | cons x xs ih =>
    cases b with
    | nil => exact ⟨fun h => by simp [posEq] at h, fun h => nomatch h⟩
    | cons y ys =>
      have := ih ys
      unfold SamePos at this ⊢
      simp [posEq, this]

/-- Specification: segment `t` starts where segment `s` ends. -/
def Follows (s t : CurveSegment F) : Prop :=
  ∃ e st, s.end_ = .ok e ∧ t.start = .ok st ∧ SamePos e st

theorem appendSegment_ok {b b' : CurveBuilder F} {s : CurveSegment F}
    (h : b.appendSegment s = .ok b') :
    b'.crs = b.crs ∧ b'.coordDim = b.coordDim ∧ b'.seg = b.seg ++ [s] ∧ b.coordDim = s.coordDim ∧
    ∃ l, b.seg.getLast? = some l ∧ Follows l s := by
  unfold CurveBuilder.appendSegment at h
  split at h
  · cases h
  · rename_i hdim
    obtain ⟨l, h1, h⟩ := bind_eq_ok.1 h
    obtain ⟨e, h2, h⟩ := bind_eq_ok.1 h
    obtain ⟨st, h3, h⟩ := bind_eq_ok.1 h
    split at h
    · cases h
    · rename_i hp
      cases h
      have hl : b.seg.getLast? = some l := by
        cases hg : b.seg.getLast? with
        | none => rw [hg] at h1; cases h1
        | some l' => rw [hg] at h1; cases h1; rfl
      exact ⟨rfl, rfl, rfl, by simpa using hdim, l, hl, e, st, h2, h3, (posEq_iff e st).1 (by simpa using hp)⟩

theorem runSegs_ok (ss : List (CurveSegment F)) :
    ∀ {b b' : CurveBuilder F}, b.seg ≠ [] → b.seg.IsChain Follows →
      ss.foldlM (fun b s => b.appendSegment s) b = .ok b' →
      b'.coordDim = b.coordDim ∧ b'.seg = b.seg ++ ss ∧ b'.seg.IsChain Follows ∧
      ∀ s ∈ ss, s.coordDim = b.coordDim := by
  induction ss with
  | nil =>
    intro b b' hne hch h
    cases h
    simp [hch]
  | cons s ss ih =>
    intro b b' hne hch h
    rw [List.foldlM_cons] at h
    obtain ⟨b1, h1, h⟩ := bind_eq_ok.1 h
    obtain ⟨_, hd, hs, hsd, l, hl, hf⟩ := appendSegment_ok h1
    have hch1 : b1.seg.IsChain Follows := by
      rw [hs]
      apply List.IsChain.append hch (by simp)
      intro x hx y hy
      rw [hl] at hx
      simp at hx hy
      subst hx hy
      exact hf
    obtain ⟨i1, i2, i3, i4⟩ := ih (by rw [hs]; simp) hch1 h
    refine ⟨i1.trans hd, by rw [i2, hs]; simp, i3, ?_⟩
    intro t ht
    rcases List.mem_cons.1 ht with rfl | ht
    · exact hsd.symm
    · rw [i4 t ht, hd]

/-- **C57**: a curve built from `with_seg` and any sequence of successful `append_segment` has exactly the
given segments, in order, each starting where the previous one ends. -/
theorem C57_curve_connected (crs : Crs F) (s0 : CurveSegment F) (ss : List (CurveSegment F))
    (b : CurveBuilder F) (h : runSegs crs s0 ss = .ok b) :
    b.build.seg = s0 :: ss ∧ (s0 :: ss).IsChain Follows := by
  obtain ⟨b0, h0, h⟩ := bind_eq_ok.1 h
  cases h0
  have := runSegs_ok ss (b := CurveBuilder.new crs [s0]) (by simp [CurveBuilder.new])
    (by simp [CurveBuilder.new]) h
  obtain ⟨-, h2, h3, -⟩ := this
  have h2' : b.build.seg = s0 :: ss := h2
  exact ⟨h2', by rw [h2] at h3; exact h3⟩

/-- **C57** (outcome of `append_segment`): on a builder whose last segment ends at `e`, a segment of another
dimension or not starting at `e` is rejected with the matching message; any other segment is accepted. -/
theorem C57_append_outcome (b : CurveBuilder F) (l s : CurveSegment F) (e st : List F)
    (hl : b.seg.getLast? = some l) (he : l.end_ = .ok e) (hs : s.start = .ok st) :
    (b.coordDim ≠ s.coordDim → b.appendSegment s = .error (.err "Invalid coordinate dimension")) ∧
    (b.coordDim = s.coordDim → ¬ SamePos e st →
      b.appendSegment s = .error (.err "Disconnected segment")) ∧
    (b.coordDim = s.coordDim → SamePos e st →
      ∃ b', b.appendSegment s = .ok b' ∧ b'.build.seg = b.build.seg ++ [s]) := by
  unfold CurveBuilder.appendSegment
  refine ⟨fun h => by rw [if_pos h], fun h hn => ?_, fun h hp => ?_⟩
  · have : posEq e st = false := by
      rw [Bool.eq_false_iff]; intro hc; exact hn ((posEq_iff e st).1 hc)
    simp [h, hl, unwrap, he, hs, this]
  · have : posEq e st = true := (posEq_iff e st).2 hp
    simp [h, hl, unwrap, he, hs, this, CurveBuilder.build]

/-- **C58, negation**: `with_seg` accepts a segment of another dimension than the CRS.  Here a 3D projected
CRS and a 2D line string produced by the public builder of a 2D CRS: the curve says 3 dimensions, its start
has 2 coordinates. -/
theorem C58_curve_dimension_violated (dat : GeodeticDatum F) (spec : ProjectionSpec F) :
    ∃ (crs2 crs3 : ProjectedCrs F) (lb : LineStringBuilder F) (b : CurveBuilder F) (s : List F),
      runLines crs2.toCrs [0, 0] [1, 1] [] = .ok lb ∧
      runSegs crs3.toCrs lb.build.toSegment [] = .ok b ∧
      b.build.geometryType.coordDim = 3 ∧ b.build.start = .ok s ∧ s.length = 2 := by
  obtain ⟨l, hl⟩ := runLines_eastNorth dat spec 0 0 1 1
  refine ⟨⟨"id", dat, .eastNorth M, spec⟩, ⟨"3D", dat, .eastNorthUp M M, spec⟩, _, _, [0, 0], hl, rfl, rfl,
    ?_, rfl⟩
  simp [CurveBuilder.build, CurveBuilder.new, Curve.start, LineString.toSegment, LineString.start,
    LineString.posAt, slice, LineStringBuilder.build, unwrap]

/-- **C58** (what holds): when the first segment has the dimension of the CRS and the segments' end points
have the dimension the segments report (`C58_line_string_segment` for line strings), the start and end of the
curve have the dimension the curve reports.  Missing for the full property: the builder does not check the
dimension of the first segment. -/
theorem C58_curve_dimension_partial (crs : Crs F) (s0 : CurveSegment F) (ss : List (CurveSegment F))
    (b : CurveBuilder F) (h : runSegs crs s0 ss = .ok b) (h0 : s0.coordDim = crs.dim)
    (hseg : ∀ s ∈ s0 :: ss, ∀ p, (s.start = .ok p ∨ s.end_ = .ok p) → p.length = s.coordDim) :
    ∀ p, (b.build.start = .ok p ∨ b.build.end_ = .ok p) →
      p.length = b.build.geometryType.coordDim := by
  obtain ⟨hsegs, -⟩ := C57_curve_connected crs s0 ss b h
  obtain ⟨b0, hb0, h⟩ := bind_eq_ok.1 h
  cases hb0
  obtain ⟨h1, -, -, h4⟩ := runSegs_ok ss (b := CurveBuilder.new crs [s0])
    (by simp [CurveBuilder.new]) (by simp [CurveBuilder.new]) h
  have hcd : b.build.geometryType.coordDim = crs.dim := h1
  have hall : ∀ s ∈ s0 :: ss, s.coordDim = crs.dim := by
    intro s hs
    rcases List.mem_cons.1 hs with rfl | hs
    · exact h0
    · rw [h4 s hs]; rfl
  rintro p (hp | hp)
  · unfold Curve.start at hp
    rw [hsegs] at hp
    rw [hcd, ← hall s0 (by simp)]
    exact hseg s0 (by simp) p (Or.inl hp)
  · unfold Curve.end_ at hp
    rw [hsegs] at hp
    obtain ⟨s, hs, hp⟩ := bind_eq_ok.1 hp
    have hmem : s ∈ s0 :: ss := by
      cases hg : (s0 :: ss).getLast? with
      | none => simp at hg
      | some l =>
        rw [hg] at hs
        cases hs
        exact List.mem_of_getLast? hg
    rw [hcd, ← hall s hmem]
    exact hseg s hmem p (Or.inr hp)

/-- **C58**: the end points of a line string segment have the dimension it reports. -/
theorem C58_line_string_segment (l : LineString F) (p : List F)
    (h : l.toSegment.start = .ok p ∨ l.toSegment.end_ = .ok p) : p.length = l.toSegment.coordDim := by
  have key : ∀ n p, l.posAt n = .ok p → p.length = l.coordDim := by
    intro n p hp
    unfold LineString.posAt slice at hp
    split at hp
    · rename_i hh
      cases hp
      rw [List.length_take, List.length_drop, Nat.add_mul]
      have := hh.2
      rw [Nat.add_mul] at this
      omega
    · cases hp
  rcases h with h | h
  · exact key _ _ h
  · exact key _ _ h

/-- **C58** (what holds, in any case): only the first segment can differ, and then it is the only one. -/
theorem C58_only_first_can_differ (crs : Crs F) (s0 : CurveSegment F) (ss : List (CurveSegment F))
    (b : CurveBuilder F) (h : runSegs crs s0 ss = .ok b) :
    ∀ s ∈ ss, s.coordDim = b.build.geometryType.coordDim := by
  obtain ⟨b0, hb0, h⟩ := bind_eq_ok.1 h
  cases hb0
  obtain ⟨h1, -, -, h4⟩ := runSegs_ok ss (b := CurveBuilder.new crs [s0])
    (by simp [CurveBuilder.new]) (by simp [CurveBuilder.new]) h
  intro s hs
  rw [h4 s hs]
  exact h1.symm

/-- **C59**: for a curve whose end points can be read, `is_cycle` tells whether they coincide, `boundary` is
empty exactly for cycles, and otherwise holds the two end points (which must have 2 or 3 coordinates). -/
theorem C59_boundary (c : Curve F) (s e : List F) (hs : c.start = .ok s) (he : c.end_ = .ok e) :
    (SamePos s e → c.isCycle = .ok true ∧ c.boundary = .ok none) ∧
    (¬ SamePos s e → c.isCycle = .ok false ∧
      ((s.length = 2 ∨ s.length = 3) → (e.length = 2 ∨ e.length = 3) →
        ∃ bd, c.boundary = .ok (some bd) ∧ bd.start.deref = .ok s ∧ bd.end_.deref = .ok e)) := by
  constructor
  · intro h
    have hp := (posEq_iff s e).2 h
    constructor
    · simp [Curve.isCycle, hs, he, hp]
    · simp [Curve.boundary, Curve.isCycle, hs, he, hp]
  · intro h
    have hp : posEq s e = false := by
      rw [Bool.eq_false_iff]; intro hc; exact h ((posEq_iff s e).1 hc)
    refine ⟨by simp [Curve.isCycle, hs, he, hp], fun h1 h2 => ?_⟩
    obtain ⟨p, hp1, hp2, -⟩ := (C52_point s).2 h1
    obtain ⟨q, hq1, hq2, -⟩ := (C52_point e).2 h2
    exact ⟨⟨p, q⟩, by simp [Curve.boundary, Curve.isCycle, hs, he, hp, hp1, hq1], hp2, hq2⟩

/-- The hypotheses of C58 and C59 are met by a curve made of one line. -/
example (dat : GeodeticDatum F) (spec : ProjectionSpec F) (x y : F) :
    ∃ lb b, runLines (ProjectedCrs.mk "id" dat (.eastNorth M) spec).toCrs [x, y] [y, x] [] = .ok lb ∧
      lb.build.toSegment.coordDim = 2 ∧
      runSegs (ProjectedCrs.mk "id" dat (.eastNorth M) spec).toCrs lb.build.toSegment [] = .ok b ∧
      b.build.start = .ok [x, y] ∧ b.build.end_ = .ok [y, x] := by
  obtain ⟨l, hl⟩ := runLines_eastNorth dat spec x y y x
  refine ⟨_, _, hl, rfl, rfl, ?_, ?_⟩ <;>
  simp [CurveBuilder.build, CurveBuilder.new, Curve.start, Curve.end_, LineString.toSegment,
    LineString.start, LineString.end_, LineString.count,
    LineString.posAt, slice, LineStringBuilder.build, unwrap]

end Geo
