import Verif.Props.GeometryAny
import Verif.Props.AxesExact

/-! # C55, C60: arc-length parameterisation of line strings and curves, in exact arithmetic -/

namespace Geo
open XR

/-- The position at ratio `t` of the straight segment from `p` to `q`. -/
noncomputable def between (t : ℝ) (p q : List ℝ) : List ℝ := List.zipWith (fun a b => (1 - t) * a + t * b) p q

theorem between_zero {p q : List ℝ} (h : p.length = q.length) : between 0 p q = p := by
  unfold between
  induction p generalizing q with
  | nil => simp
  | cons a p ih =>
    cases q with
    | nil => simp at h
    | cons b q =>
      rw [List.zipWith_cons_cons, ih (by simpa using h)]
      simp

theorem between_one {p q : List ℝ} (h : p.length = q.length) : between 1 p q = q := by
  unfold between
  induction p generalizing q with
  | nil => cases q with
    | nil => rfl
    | cons b q => simp at h
  | cons a p ih =>
    cases q with
    | nil => simp at h
    | cons b q =>
      rw [List.zipWith_cons_cons, ih (by simpa using h)]
      simp

theorem interpolate_fin (t : ℝ) (p q : List ℝ) :
    LineString.interpolate (fin t) (p.map fin) (q.map fin) = (between t p q).map fin := by
  unfold LineString.interpolate between
  induction p generalizing q with
  | nil => simp
  | cons a p ih =>
    cases q with
    | nil => simp
    | cons b q => simp [ih]

/-- A length in metres. -/
def metres (x : ℝ) : Length XR := ⟨fin x⟩

theorem new_zero_metres : Length.new (0 : XR) M = metres 0 := by
  rw [zero_eq, length_new_m]; rfl

theorem foldl_metres (ls : List ℝ) (acc : ℝ) :
    (ls.map metres).foldl (fun acc l => acc + l) (metres acc) = metres (acc + ls.sum) := by
  induction ls generalizing acc with
  | nil => simp
  | cons x ls ih =>
    rw [List.map_cons, List.foldl_cons, List.sum_cons, ← add_assoc, ← ih]
    rfl

theorem sumLengths_metres (ls : List ℝ) : sumLengths (ls.map metres) = metres ls.sum := by
  have h := foldl_metres ls 0
  rw [zero_add] at h
  unfold sumLengths
  rw [← h, new_zero_metres]

theorem metres_le (x y : ℝ) : (metres x).le (metres y) = decide (x ≤ y) := by
  simp [metres, Length.le]

/-- The loop finds the segment that contains arc length `s`. -/
theorem paramLoop_metres (ls : List ℝ) (hpos : ∀ l ∈ ls, 0 < l) (hne : ls ≠ []) (s : ℝ) (hs : s ≤ ls.sum) (ix : ℕ) :
    ∃ i l, ls[i]? = some l ∧ LineString.paramLoop (ls.map metres) (metres s) ix =
        (ix + i, fin ((s - (ls.take i).sum) / l)) ∧
      (i = 0 ∨ (ls.take i).sum < s) ∧ s ≤ (ls.take i).sum + l := by
  induction ls generalizing s ix with
  | nil => exact absurd rfl hne
  | cons x ls ih =>
    have hx := hpos x (by simp)
    by_cases h : s ≤ x
    · refine ⟨0, x, rfl, ?_, Or.inl rfl, by simpa using h⟩
      rw [List.map_cons, LineString.paramLoop, metres_le, if_pos (by simpa using h)]
      simp [metres, div_fin _ hx.ne']
    · push Not at h
      have hne' : ls ≠ [] := by
        rintro rfl
        simp at hs
        linarith
      rw [List.sum_cons] at hs
      obtain ⟨i, l, h1, h2, h3, h4⟩ := ih (fun l hl => hpos l (List.mem_cons_of_mem _ hl)) hne' (s - x) (by linarith)
        (ix + 1)
      refine ⟨i + 1, l, by simpa using h1, ?_, Or.inr ?_, ?_⟩
      · rw [List.map_cons, LineString.paramLoop, metres_le, if_neg (by simpa using h)]
        have : (metres s - metres x : Length XR) = metres (s - x) := rfl
        rw [this, h2, List.take_succ_cons, List.sum_cons]
        congr 1
        · ring
        · congr 2; ring
      · rw [List.take_succ_cons, List.sum_cons]
        rcases h3 with rfl | h3
        · simpa using h
        · linarith
      · rw [List.take_succ_cons, List.sum_cons]
        linarith

/-- A line string over the given positions, with the given positive segment lengths. -/
structure IsLine (l : LineString XR) (ps : List (List ℝ)) (ls : List ℝ) : Prop where
  positions : l.HasPositions (ps.map (·.map fin))
  lengths : l.len = ls.map metres
  count : ps.length = ls.length + 1
  pos : ∀ x ∈ ls, 0 < x
  nonempty : ls ≠ []
  dim : ∃ d, ∀ p ∈ ps, p.length = d

theorem take_sum_le {ls : List ℝ} (hpos : ∀ x ∈ ls, 0 < x) (i : ℕ) : 0 ≤ (ls.take i).sum :=
  List.sum_nonneg fun x hx => (hpos x (List.mem_of_mem_take hx)).le

theorem IsLine.getElem {l : LineString XR} {ps : List (List ℝ)} {ls : List ℝ} (h : IsLine l ps ls) {i : ℕ} {p : List ℝ}
    (hp : ps[i]? = some p) : l.posAt i = .ok (p.map fin) :=
  h.positions.2 i _ (by rw [List.getElem?_map, hp]; rfl)

theorem IsLine.param_eq {l : LineString XR} {ps : List (List ℝ)} {ls : List ℝ} (h : IsLine l ps ls) (s : ℝ)
    (hs : s ≤ ls.sum) : ∃ i p q len, ps[i]? = some p ∧ ps[i + 1]? = some q ∧ ls[i]? = some len ∧
      (i = 0 ∨ (ls.take i).sum < s) ∧ s ≤ (ls.take i).sum + len ∧
      l.param (metres s) = .ok ((between ((s - (ls.take i).sum) / len) p q).map fin) := by
  obtain ⟨i, len, h1, h2, h3, h4⟩ := paramLoop_metres ls h.pos h.nonempty s hs 0
  have hi : i < ls.length := (List.getElem?_eq_some_iff.1 h1).1
  have hc := h.count
  have hp : ps[i]? = some (ps[i]'(by omega)) := List.getElem?_eq_getElem _
  have hq : ps[i + 1]? = some (ps[i + 1]'(by omega)) := List.getElem?_eq_getElem _
  refine ⟨i, _, _, len, hp, hq, h1, h3, h4, ?_⟩
  have e1 := h.getElem hp
  have e2 := h.getElem hq
  rw [zero_add] at h2
  simp only [LineString.param, LineString.length, h.lengths, sumLengths_metres, metres_le, h2, e1, e2, rassert,
    decide_eq_true hs, if_true, ok_bind]
  exact congrArg _ (interpolate_fin _ _ _)

theorem IsLine.end_eq {l : LineString XR} {ps : List (List ℝ)} {ls : List ℝ} (h : IsLine l ps ls) {q : List ℝ}
    (hq : ps[ls.length]? = some q) : l.end_ = .ok (q.map fin) := by
  have : l.count = ls.length + 1 := by rw [h.positions.1, List.length_map, h.count]
  rw [LineString.end_, this, Nat.add_sub_cancel, h.getElem hq]

/-- **C55**: the total length is the sum of the segment lengths; `param(s)` is the position at arc length `s`: on the
segment `i` whose end points are at arc lengths `S ≤ s ≤ S + len`, at the ratio `(s - S) / len` of the way. -/
theorem C55_param {l : LineString XR} {ps : List (List ℝ)} {ls : List ℝ} (h : IsLine l ps ls) :
    l.length = metres ls.sum ∧
    ∀ s, 0 ≤ s → s ≤ ls.sum → ∃ i p q len, ps[i]? = some p ∧ ps[i + 1]? = some q ∧ ls[i]? = some len ∧
      (ls.take i).sum ≤ s ∧ s ≤ (ls.take i).sum + len ∧
      l.param (metres s) = .ok ((between ((s - (ls.take i).sum) / len) p q).map fin) := by
  refine ⟨by rw [LineString.length, h.lengths, sumLengths_metres], fun s h0 hs => ?_⟩
  obtain ⟨i, p, q, len, e1, e2, e3, e4, e5, e6⟩ := h.param_eq s hs
  refine ⟨i, p, q, len, e1, e2, e3, ?_, e5, e6⟩
  rcases e4 with rfl | e4
  · simpa using h0
  · exact e4.le

/-- **C55**: the two ends. -/
theorem C55_ends {l : LineString XR} {ps : List (List ℝ)} {ls : List ℝ} (h : IsLine l ps ls) :
    l.param (metres 0) = l.start ∧ l.param l.length = l.end_ := by
  have hsum : 0 ≤ ls.sum := List.sum_nonneg fun x hx => (h.pos x hx).le
  obtain ⟨d, hd⟩ := h.dim
  have hsame : ∀ {i p q}, ps[i]? = some p → ps[i + 1]? = some q → p.length = q.length := fun h1 h2 => by
    rw [hd _ (List.mem_of_getElem? h1), hd _ (List.mem_of_getElem? h2)]
  constructor
  · obtain ⟨i, p, q, len, e1, e2, e3, e4, e5, e6⟩ := h.param_eq 0 hsum
    have hi : i = 0 := by
      rcases e4 with e4 | e4
      · exact e4
      · exact absurd (take_sum_le h.pos i) (not_le.2 e4)
    subst hi
    rw [e6, List.take_zero, List.sum_nil, sub_zero, zero_div, between_zero (hsame e1 e2)]
    exact (h.getElem e1).symm
  · rw [(C55_param h).1]
    obtain ⟨i, p, q, len, e1, e2, e3, e4, e5, e6⟩ := h.param_eq ls.sum le_rfl
    obtain ⟨hi, hl⟩ := List.getElem?_eq_some_iff.1 e3
    have hsplit : (ls.take i).sum + (len + (ls.drop (i + 1)).sum) = ls.sum := by
      conv_rhs => rw [← List.take_append_drop i ls, List.sum_append, List.drop_eq_getElem_cons hi, hl, List.sum_cons]
    have hlen : 0 < len := h.pos len (List.mem_of_getElem? e3)
    have hrest : ls.drop (i + 1) = [] := by
      by_contra hne
      have : 0 < (ls.drop (i + 1)).sum := List.sum_pos _ (fun x hx => h.pos x (List.mem_of_mem_drop hx)) hne
      linarith
    have hi' : i + 1 = ls.length := le_antisymm hi (List.drop_eq_nil_iff.1 hrest)
    have hr : (ls.sum - (ls.take i).sum) / len = 1 := by
      rw [hrest, List.sum_nil, add_zero] at hsplit
      rw [← hsplit, add_sub_cancel_left, div_self hlen.ne']
    rw [e6, hr, between_one (hsame e1 e2)]
    rw [hi'] at e2
    exact (h.end_eq e2).symm

/-- **C55**: `param` panics exactly for an arc length beyond the end. -/
theorem C55_panics {l : LineString XR} {ps : List (List ℝ)} {ls : List ℝ} (h : IsLine l ps ls) (s : ℝ) :
    ls.sum < s ↔ ∃ msg, l.param (metres s) = .error (.panic msg) := by
  constructor
  · intro hs
    simp only [LineString.param, LineString.length, h.lengths, sumLengths_metres, metres_le, rassert,
      decide_eq_false (not_le.2 hs)]
    exact ⟨_, rfl⟩
  · rintro ⟨msg, hm⟩
    by_contra hs
    obtain ⟨i, p, q, len, _, _, _, _, _, e6⟩ := h.param_eq s (not_lt.1 hs)
    rw [e6] at hm
    cases hm

/-- Specification of a Cartesian CRS: its distance is the Euclidean one of some affine embedding of its coordinates. -/
structure Cartesian (crs : Crs XR) where
  embed : List ℝ → EuclideanSpace ℝ (Fin 3)
  affine : ∀ t p q, p.length = crs.dim → q.length = crs.dim →
    embed (between t p q) = (1 - t) • embed p + t • embed q
  dist_eq : ∀ p q, p.length = crs.dim → q.length = crs.dim →
    crs.dist (p.map fin) (q.map fin) = .ok (metres (dist (embed p) (embed q)))

/-- **C55**: geocentric and projected CRSs are Cartesian. -/
theorem C55_cartesian :
    (∀ crs : GeocentricCrs XR, Nonempty (Cartesian crs.toCrs)) ∧
    (∀ (s : ProjectedSystem) (crs : ProjectedCrs XR), s.Valid → crs.axes = s.axes →
      Nonempty (Cartesian crs.toCrs)) := by
  constructor
  · intro crs
    refine ⟨⟨fun c => match c with | [a, b, c] => point3 a b c | _ => 0, ?_, ?_⟩⟩
    · intro t p q hp hq
      obtain ⟨a, b, c, rfl⟩ := List.length_eq_three.1 hp
      obtain ⟨a', b', c', rfl⟩ := List.length_eq_three.1 hq
      ext i
      fin_cases i <;> simp [between]
    · intro p q hp hq
      obtain ⟨a, b, c, rfl⟩ := List.length_eq_three.1 hp
      obtain ⟨a', b', c', rfl⟩ := List.length_eq_three.1 hq
      exact C19_crs_dist.1 crs a b c a' b' c'
  · intro s crs hv hax
    have hdim : crs.toCrs.dim = s.axes.dim := by rw [← hax]; rfl
    refine ⟨⟨fun c => point3 (s.eastOf c) (s.northOf c) (s.heightOf c), ?_, ?_⟩⟩
    · intro t p q hp hq
      rw [hdim] at hp hq
      cases s with
      | eastNorthUp a b a' b' =>
        obtain ⟨a, b, c, rfl⟩ := List.length_eq_three.1 hp
        obtain ⟨a', b', c', rfl⟩ := List.length_eq_three.1 hq
        ext i
        fin_cases i <;>
          simp [between, ProjectedSystem.eastOf, ProjectedSystem.northOf, ProjectedSystem.heightOf] <;> ring
      | eastNorth a b =>
        obtain ⟨a, b, rfl⟩ := List.length_eq_two.1 hp
        obtain ⟨a', b', rfl⟩ := List.length_eq_two.1 hq
        ext i
        fin_cases i <;>
          simp [between, ProjectedSystem.eastOf, ProjectedSystem.northOf, ProjectedSystem.heightOf] <;> ring
    · intro p q hp hq
      rw [hdim] at hp hq
      exact C19_crs_dist.2 s crs hv hax p q hp hq

/-- A line string built over distinct consecutive positions of a Cartesian CRS is as required above. -/
theorem isLine_of_build (crs : Crs XR) (hc : crs.ChecksLength) (hd : 0 < crs.dim) (C : Cartesian crs)
    (p0 p1 : List ℝ) (ps : List (List ℝ)) (hdim : ∀ p ∈ p0 :: p1 :: ps, p.length = crs.dim)
    (hne : ∀ i p q, (p0 :: p1 :: ps)[i]? = some p → (p0 :: p1 :: ps)[i + 1]? = some q → C.embed p ≠ C.embed q)
    (b : LineStringBuilder XR)
    (h : runLines crs (p0.map fin) (p1.map fin) (ps.map (·.map fin)) = .ok b) :
    ∃ ls, IsLine b.build (p0 :: p1 :: ps) ls ∧ ∀ i p q len, (p0 :: p1 :: ps)[i]? = some p →
      (p0 :: p1 :: ps)[i + 1]? = some q → ls[i]? = some len → len = dist (C.embed p) (C.embed q) := by
  obtain ⟨h1, _, h3, h4⟩ := C53_line_string_builder crs hc hd _ _ _ b h
  set P := p0 :: p1 :: ps with hP
  have hPm : p0.map fin :: p1.map fin :: ps.map (·.map fin) = P.map (·.map fin) := rfl
  rw [hPm] at h1 h4
  have hPl : P.length = ps.length + 2 := rfl
  have hlen : b.build.len.length = ps.length + 1 := by rw [h3, List.length_map]
  -- every length is the distance of its end points
  have key : ∀ i (hi : i < b.build.len.length), b.build.len[i] =
      metres (dist (C.embed (P[i]'(by omega))) (C.embed (P[i + 1]'(by omega)))) := by
    intro i hi
    have := h4 i (P[i].map fin) (P[i + 1].map fin) b.build.len[i]
      (by rw [List.getElem?_map, List.getElem?_eq_getElem (by omega)]; rfl)
      (by rw [List.getElem?_map, List.getElem?_eq_getElem (by omega)]; rfl)
      (List.getElem?_eq_getElem hi)
    rw [C.dist_eq _ _ (hdim _ (List.getElem_mem _)) (hdim _ (List.getElem_mem _))] at this
    exact (Except.ok.inj this).symm
  let ls : List ℝ := List.ofFn fun i : Fin (ps.length + 1) =>
    dist (C.embed (P[i.1]'(by omega))) (C.embed (P[i.1 + 1]'(by omega)))
  have hls : ls.length = ps.length + 1 := by simp [ls]
  refine ⟨ls, ⟨h1, ?_, by omega, ?_, ?_, ⟨_, hdim⟩⟩, ?_⟩
  · apply List.ext_getElem
    · rw [List.length_map, hls, hlen]
    · intro i hi hi'
      rw [key i hi, List.getElem_map, List.getElem_ofFn]
  · intro x hx
    obtain ⟨i, rfl⟩ := List.mem_ofFn.1 hx
    exact dist_pos.2 (hne i.1 _ _ (List.getElem?_eq_getElem _) (List.getElem?_eq_getElem _))
  · intro he
    rw [he] at hls
    simp at hls
  · intro i p q len hp hq hl
    obtain ⟨hi, rfl⟩ := List.getElem?_eq_some_iff.1 hl
    obtain ⟨_, rfl⟩ := List.getElem?_eq_some_iff.1 hp
    obtain ⟨_, rfl⟩ := List.getElem?_eq_some_iff.1 hq
    exact List.getElem_ofFn _

/-- **C55**: in a Cartesian CRS the line from the start to `param(s)` has length `s`: the position is on a straight
segment of the line, the segments before it have total length `S`, and it is at distance `s - S` from the start of its
segment (and at the remaining distance from the end of its segment). -/
theorem C55_arc_length (crs : Crs XR) (hc : crs.ChecksLength) (hd : 0 < crs.dim) (C : Cartesian crs)
    (p0 p1 : List ℝ) (ps : List (List ℝ)) (hdim : ∀ p ∈ p0 :: p1 :: ps, p.length = crs.dim)
    (hne : ∀ i p q, (p0 :: p1 :: ps)[i]? = some p → (p0 :: p1 :: ps)[i + 1]? = some q → C.embed p ≠ C.embed q)
    (b : LineStringBuilder XR)
    (h : runLines crs (p0.map fin) (p1.map fin) (ps.map (·.map fin)) = .ok b) :
    ∃ ls : List ℝ, b.build.len = ls.map metres ∧ b.build.length = metres ls.sum ∧
      ∀ s, 0 ≤ s → s ≤ ls.sum → ∃ (i : ℕ) (p q r : List ℝ), (p0 :: p1 :: ps)[i]? = some p ∧ (p0 :: p1 :: ps)[i + 1]? = some q ∧
        b.build.param (metres s) = .ok (r.map fin) ∧ (ls.take i).sum ≤ s ∧
        crs.dist (p.map fin) (r.map fin) = .ok (metres (s - (ls.take i).sum)) ∧
        crs.dist (r.map fin) (q.map fin) = .ok (metres ((ls.take (i + 1)).sum - s)) := by
  obtain ⟨ls, hl, hlen⟩ := isLine_of_build crs hc hd C p0 p1 ps hdim hne b h
  refine ⟨ls, hl.lengths, (C55_param hl).1, fun s h0 hs => ?_⟩
  obtain ⟨i, p, q, len, e1, e2, e3, e4, e5, e6⟩ := (C55_param hl).2 s h0 hs
  have hL := hlen i p q len e1 e2 e3
  have hpos : 0 < len := hl.pos len (List.mem_of_getElem? e3)
  have hp := hdim p (List.mem_of_getElem? e1)
  have hq := hdim q (List.mem_of_getElem? e2)
  set t := (s - (ls.take i).sum) / len with ht
  have ht0 : 0 ≤ t := div_nonneg (by linarith) hpos.le
  have ht1 : t ≤ 1 := by rw [ht, div_le_one hpos]; linarith
  have hts : t * len = s - (ls.take i).sum := by rw [ht]; field_simp
  have hr : (between t p q).length = crs.dim := by simp [between, hp, hq]
  have htake : (ls.take (i + 1)).sum = (ls.take i).sum + len := by
    obtain ⟨hi, hv⟩ := List.getElem?_eq_some_iff.1 e3
    rw [List.sum_take_succ _ _ hi, hv]
  refine ⟨i, p, q, between t p q, e1, e2, e6, e4, ?_, ?_⟩
  · rw [C.dist_eq _ _ hp hr, C.affine t p q hp hq]
    congr 2
    rw [dist_eq_norm, show C.embed p - ((1 - t) • C.embed p + t • C.embed q) = t • (C.embed p - C.embed q) by module,
      norm_smul, Real.norm_of_nonneg ht0, ← dist_eq_norm, ← hL, hts]
  · rw [C.dist_eq _ _ hr hq, C.affine t p q hp hq]
    congr 2
    rw [dist_eq_norm, show (1 - t) • C.embed p + t • C.embed q - C.embed q = (1 - t) • (C.embed p - C.embed q) by module,
      norm_smul, Real.norm_of_nonneg (by linarith), ← dist_eq_norm, ← hL, htake]
    linarith

/-- The hypotheses are met: a line of two segments in geocentric coordinates. -/
example (crs : GeocentricCrs XR) : ∃ b, runLines crs.toCrs [fin 0, fin 0, fin 0] [fin 3, fin 4, fin 0]
    [[fin 3, fin 4, fin 12]] = .ok b ∧ IsLine b.build [[0, 0, 0], [3, 4, 0], [3, 4, 12]] [5, 12] := by
  have h1 := C19_crs_dist.1 crs 0 0 0 3 4 0
  have h2 := C19_crs_dist.1 crs 3 4 0 3 4 12
  rw [dist_point3, show ((0:ℝ) - 3) ^ 2 + (0 - 4) ^ 2 + (0 - 0) ^ 2 = 5 ^ 2 by norm_num,
    Real.sqrt_sq (by norm_num)] at h1
  rw [dist_point3, show ((3:ℝ) - 3) ^ 2 + (4 - 4) ^ 2 + (0 - 12) ^ 2 = 12 ^ 2 by norm_num,
    Real.sqrt_sq (by norm_num)] at h2
  have hdim : crs.toCrs.dim = 3 := rfl
  have hb : runLines crs.toCrs [fin 0, fin 0, fin 0] [fin 3, fin 4, fin 0] [[fin 3, fin 4, fin 12]] =
      .ok ⟨crs.toCrs, ⟨3, [fin 0, fin 0, fin 0, fin 3, fin 4, fin 0, fin 3, fin 4, fin 12], [⟨fin 5⟩, ⟨fin 12⟩]⟩⟩ := by
    simp [runLines, LineStringBuilder.withLine, LineStringBuilder.new, LineString.checks, h1, hdim, rassert,
      LineStringBuilder.lineTo, LineString.posAt, LineString.count, slice, h2]
  refine ⟨_, hb, ⟨⟨by simp [LineString.count, LineStringBuilder.build], ?_⟩, rfl, rfl, by simp, by simp, ⟨3, by simp⟩⟩⟩
  exact (C53_line_string_builder crs.toCrs (C53_crs_checks.1 crs) (by rw [hdim]; norm_num) _ _ _ _ hb).1.2

/-! ### C60 -/

/-- A segment of length `L` that satisfies the contract of the `CurveSegment` trait. -/
structure GoodSegment (crs : Crs XR) (s : CurveSegment XR) (L : ℝ) : Prop where
  pos : 0 < L
  length : s.length crs = .ok (metres L)
  start : s.param crs (metres 0) = s.start
  end_ : s.param crs (metres L) = s.end_
  noPanic : ∀ x, 0 ≤ x → x ≤ L → ∃ p, s.param crs (metres x) = .ok p

/-- **C60**: line strings with positive segment lengths satisfy the contract. -/
theorem C60_line_string_segment {l : LineString XR} {ps : List (List ℝ)} {ls : List ℝ} (h : IsLine l ps ls)
    (crs : Crs XR) : GoodSegment crs l.toSegment ls.sum := by
  obtain ⟨h1, h2⟩ := C55_ends h
  have hlen := (C55_param h).1
  rw [hlen] at h2
  refine ⟨List.sum_pos _ h.pos h.nonempty, by rw [LineString.toSegment, hlen], h1, h2, fun x h0 hx => ?_⟩
  obtain ⟨i, p, q, len, _, _, _, _, _, e⟩ := (C55_param h).2 x h0 hx
  exact ⟨_, e⟩

theorem lengthLoop_metres (crs : Crs XR) {segs : List (CurveSegment XR)} {Ls : List ℝ}
    (h : List.Forall₂ (GoodSegment crs) segs Ls) (acc : ℝ) :
    Curve.lengthLoop crs segs (metres acc) = .ok (metres (acc + Ls.sum)) := by
  induction h generalizing acc with
  | nil => simp [Curve.lengthLoop]
  | @cons _ L _ _ h1 _ ih =>
    rw [Curve.lengthLoop, h1.length]
    have := ih (acc + L)
    rw [List.sum_cons, ← add_assoc]
    exact this

theorem curveParamLoop_metres (crs : Crs XR) {segs : List (CurveSegment XR)} {Ls : List ℝ}
    (h : List.Forall₂ (GoodSegment crs) segs Ls) (hne : segs ≠ []) (s : ℝ) (hs : s ≤ Ls.sum) (ix : ℕ) :
    ∃ i seg L, segs[i]? = some seg ∧ Ls[i]? = some L ∧
      Curve.paramLoop crs segs (metres s) ix = .ok (ix + i, metres (s - (Ls.take i).sum)) ∧
      (i = 0 ∨ (Ls.take i).sum < s) ∧ s ≤ (Ls.take i).sum + L := by
  induction h generalizing s ix with
  | nil => exact absurd rfl hne
  | @cons seg L segs Ls h1 hrest ih =>
    by_cases hle : s ≤ L
    · refine ⟨0, seg, L, rfl, rfl, ?_, Or.inl rfl, by simpa using hle⟩
      rw [Curve.paramLoop, h1.length]
      simp [metres_le, hle]
    · push Not at hle
      have hne' : segs ≠ [] := by
        rintro rfl
        cases hrest
        simp at hs
        linarith
      rw [List.sum_cons] at hs
      obtain ⟨i, seg', L', e1, e2, e3, e4, e5⟩ := ih hne' (s - L) (by linarith) (ix + 1)
      refine ⟨i + 1, seg', L', by simpa using e1, by simpa using e2, ?_, Or.inr ?_, ?_⟩
      · rw [Curve.paramLoop, h1.length]
        have hsub : (metres s - metres L : Length XR) = metres (s - L) := rfl
        simp only [ok_bind, metres_le, decide_eq_false (not_le.2 hle), hsub]
        rw [if_neg (by simp), e3, List.take_succ_cons, List.sum_cons]
        congr 2
        · ring
        · congr 1; ring
      · rw [List.take_succ_cons, List.sum_cons]
        rcases e4 with rfl | e4
        · simpa using hle
        · linarith
      · rw [List.take_succ_cons, List.sum_cons]
        linarith

/-- **C60**: the length is the sum of the lengths of the segments, and `param(s)` is the position at the remaining arc
length `s - S` of the segment whose end points are at arc lengths `S ≤ s ≤ S + L`. -/
theorem C60_param (crs : Crs XR) (c : Curve XR) {Ls : List ℝ} (h : List.Forall₂ (GoodSegment crs) c.seg Ls)
    (hne : c.seg ≠ []) :
    c.length crs = .ok (metres Ls.sum) ∧
    ∀ s, 0 ≤ s → s ≤ Ls.sum → ∃ i seg L, c.seg[i]? = some seg ∧ Ls[i]? = some L ∧
      (Ls.take i).sum ≤ s ∧ s ≤ (Ls.take i).sum + L ∧ (i = 0 ∨ (Ls.take i).sum < s) ∧
      c.param crs (metres s) = seg.param crs (metres (s - (Ls.take i).sum)) := by
  have hlen : c.length crs = .ok (metres Ls.sum) := by
    have := lengthLoop_metres crs h 0
    rw [zero_add] at this
    rw [Curve.length, ← this, new_zero_metres]
  refine ⟨hlen, fun s h0 hs => ?_⟩
  obtain ⟨i, seg, L, e1, e2, e3, e4, e5⟩ := curveParamLoop_metres crs h hne s hs 0
  refine ⟨i, seg, L, e1, e2, ?_, e5, e4, ?_⟩
  · rcases e4 with rfl | e4
    · simpa using h0
    · exact e4.le
  · rw [zero_add] at e3
    simp only [Curve.param, hlen, ok_bind, metres_le, decide_eq_true hs, rassert, e3, idx, e1]
    rfl

/-- **C60**: the two ends. -/
theorem C60_ends (crs : Crs XR) (c : Curve XR) {Ls : List ℝ} (h : List.Forall₂ (GoodSegment crs) c.seg Ls)
    (hne : c.seg ≠ []) : c.param crs (metres 0) = c.start ∧ c.param crs (metres Ls.sum) = c.end_ := by
  have hpos : ∀ L ∈ Ls, 0 < L := by
    intro L hL
    obtain ⟨i, hi, rfl⟩ := List.getElem_of_mem hL
    have := List.Forall₂.length_eq h
    exact (List.Forall₂.get h (by omega) hi).pos
  have hsum : 0 ≤ Ls.sum := List.sum_nonneg fun x hx => (hpos x hx).le
  constructor
  · obtain ⟨i, seg, L, e1, e2, _, _, e4, e6⟩ := (C60_param crs c h hne).2 0 le_rfl hsum
    have hi : i = 0 := by
      rcases e4 with e4 | e4
      · exact e4
      · exact absurd (take_sum_le hpos i) (not_le.2 e4)
    subst hi
    obtain ⟨hi, rfl⟩ := List.getElem?_eq_some_iff.1 e1
    obtain ⟨hi', rfl⟩ := List.getElem?_eq_some_iff.1 e2
    have hg := List.Forall₂.get h hi hi'
    rw [e6, List.take_zero, List.sum_nil, sub_zero]
    refine hg.start.trans ?_
    rw [Curve.start, List.head?_eq_getElem?, List.getElem?_eq_getElem hi]
    rfl
  · obtain ⟨i, seg, L, e1, e2, _, e5, e4, e6⟩ := (C60_param crs c h hne).2 Ls.sum hsum le_rfl
    obtain ⟨hi, rfl⟩ := List.getElem?_eq_some_iff.1 e1
    obtain ⟨hi', rfl⟩ := List.getElem?_eq_some_iff.1 e2
    have hg := List.Forall₂.get h hi hi'
    have hl := List.Forall₂.length_eq h
    have hsplit : (Ls.take i).sum + (Ls[i] + (Ls.drop (i + 1)).sum) = Ls.sum := by
      conv_rhs => rw [← List.take_append_drop i Ls, List.sum_append, List.drop_eq_getElem_cons hi', List.sum_cons]
    have hrest : Ls.drop (i + 1) = [] := by
      by_contra hne
      have : 0 < (Ls.drop (i + 1)).sum := List.sum_pos _ (fun x hx => hpos x (List.mem_of_mem_drop hx)) hne
      linarith
    have hi'' : i + 1 = Ls.length := le_antisymm hi' (List.drop_eq_nil_iff.1 hrest)
    rw [e6, show Ls.sum - (Ls.take i).sum = Ls[i] by rw [hrest, List.sum_nil] at hsplit; linarith]
    refine hg.end_.trans ?_
    rw [Curve.end_, List.getLast?_eq_getElem?, show c.seg.length - 1 = i by omega, List.getElem?_eq_getElem hi]
    rfl

/-- **C60**: `param` panics for every arc length beyond the end, and returns a position for every one from 0 to the
end. -/
theorem C60_panics (crs : Crs XR) (c : Curve XR) {Ls : List ℝ} (h : List.Forall₂ (GoodSegment crs) c.seg Ls)
    (hne : c.seg ≠ []) (s : ℝ) (h0 : 0 ≤ s) :
    (Ls.sum < s → ∃ msg, c.param crs (metres s) = .error (.panic msg)) ∧
    (s ≤ Ls.sum → ∃ p, c.param crs (metres s) = .ok p) := by
  obtain ⟨hlen, hpar⟩ := C60_param crs c h hne
  constructor
  · intro hs
    simp only [Curve.param, hlen, ok_bind, metres_le, rassert, decide_eq_false (not_le.2 hs)]
    exact ⟨_, rfl⟩
  · intro hs
    obtain ⟨i, seg, L, e1, e2, e3, e5, _, e6⟩ := hpar s h0 hs
    obtain ⟨hi, rfl⟩ := List.getElem?_eq_some_iff.1 e1
    obtain ⟨hi', rfl⟩ := List.getElem?_eq_some_iff.1 e2
    obtain ⟨p, hp⟩ := (List.Forall₂.get h hi hi').noPanic (s - (Ls.take i).sum) (by linarith)
      (by rw [List.get_eq_getElem]; linarith)
    exact ⟨p, e6.trans hp⟩

/-- The hypotheses are met: a curve of two line strings. -/
example (crs : Crs XR) : List.Forall₂ (GoodSegment crs)
    [(LineString.mk 2 [fin 0, fin 0, fin 3, fin 4] [metres 5]).toSegment,
     (LineString.mk 2 [fin 3, fin 4, fin 3, fin 10] [metres 6]).toSegment] [[5].sum, [6].sum] := by
  have key : ∀ a b c d l : ℝ, 0 < l → IsLine ⟨2, [fin a, fin b, fin c, fin d], [metres l]⟩ [[a, b], [c, d]] [l] := by
    intro a b c d l hl
    refine ⟨⟨by simp [LineString.count, LineStringBuilder.build], ?_⟩, rfl, rfl, by simpa using hl, by simp, ⟨2, by simp⟩⟩
    intro i p hp
    match i, hp with
    | 0, hp => cases hp; rfl
    | 1, hp => cases hp; rfl
    | i + 2, hp => simp at hp
  exact .cons (C60_line_string_segment (key 0 0 3 4 5 (by norm_num)) crs)
    (.cons (C60_line_string_segment (key 3 4 3 10 6 (by norm_num)) crs) .nil)

end Geo
