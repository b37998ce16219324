import Verif.Props.GeometryAny

/-!
C89: line strings given by their coordinates, for every float semantics.
-/

namespace Geo
variable {F : Type} [Flt F]

/-- Coordinates made of `n` complete positions are the concatenation of these positions. -/
theorem split_positions (d : Nat) : ∀ (n : Nat) (pos : List F), pos.length = n * d →
    ∃ ps : List (List F), ps.length = n ∧ (∀ p ∈ ps, p.length = d) ∧ pos = ps.flatten
  | 0, pos, h => ⟨[], rfl, by simp, by simpa using h⟩
  | n + 1, pos, h => by
    rw [Nat.add_mul, Nat.one_mul] at h
    obtain ⟨ps, h1, h2, h3⟩ := split_positions d n (pos.drop d) (by simp [h])
    refine ⟨pos.take d :: ps, by simp [h1], ?_, ?_⟩
    · intro p hp
      rcases List.mem_cons.1 hp with rfl | hp
      · simp [h]
      · exact h2 p hp
    · rw [List.flatten_cons, ← h3, List.take_append_drop]

theorem chunksExact_flatten {d : Nat} (hd : 0 < d) : ∀ (fuel : Nat) (ps : List (List F)), (∀ p ∈ ps, p.length = d) →
    ps.length ≤ fuel → LineString.chunksExact d fuel ps.flatten = ps
  | 0, ps, _, h => by
    have : ps = [] := List.length_eq_zero_iff.1 (by omega)
    rw [this]; rfl
  | fuel + 1, [], _, _ => by simp [LineString.chunksExact, hd.ne']
  | fuel + 1, p :: ps, h, hl => by
    have hp : p.length = d := h p (by simp)
    have := chunksExact_flatten hd fuel ps (fun q hq => h q (by simp [hq])) (by simpa using hl)
    simp [LineString.chunksExact, hp, this]

/-- The positions `ps` of the right size, with one length less. -/
def GivesLine (d : Nat) (pos : List F) (len : List (Length F)) (ps : List (List F)) : Prop :=
  0 < d ∧ 2 ≤ ps.length ∧ (∀ p ∈ ps, p.length = d) ∧ pos = ps.flatten ∧ len.length + 1 = ps.length

theorem line_ok {d : Nat} {pos : List F} {len : List (Length F)} {ps : List (List F)} (h : GivesLine d pos len ps) :
    LineString.new d pos len = .ok ⟨d, pos, len⟩ := by
  obtain ⟨hd, h2, he, rfl, hl⟩ := h
  have hf := flatten_length he
  have e1 : ¬ d = 0 := by omega
  have e2 : 2 * d ≤ ps.length * d := Nat.mul_le_mul_right d h2
  have e3 : ps.length * d / d = ps.length := Nat.mul_div_cancel _ hd
  have e4 : len.length = ps.length - 1 := by omega
  simp [LineString.new, LineString.checks, hf, rassert, e1, e2, e3, e4]

/-- **C89**: `LineString::new` succeeds exactly when the coordinates are those of at least two complete positions and there is
one length less than positions; it panics for everything else. -/
theorem C89_new (d : Nat) (pos : List F) (len : List (Length F)) :
    ((∃ l, LineString.new d pos len = .ok l) ↔ ∃ ps, GivesLine d pos len ps) ∧
    ((¬ ∃ ps, GivesLine d pos len ps) → ∃ msg, LineString.new d pos len = .error (.panic msg)) := by
  have key : (∃ ps, GivesLine d pos len ps) ∨ ∃ msg, LineString.new d pos len = .error (.panic msg) := by
    by_cases e1 : d = 0
    · exact Or.inr ⟨_, by simp [LineString.new, LineString.checks, rassert, e1]; rfl⟩
    by_cases e2 : pos.length % d = 0
    swap
    · exact Or.inr ⟨_, by simp [LineString.new, LineString.checks, rassert, e1, e2]; rfl⟩
    by_cases e3 : 2 * d ≤ pos.length
    swap
    · exact Or.inr ⟨_, by simp [LineString.new, LineString.checks, rassert, e1, e2, e3]; rfl⟩
    by_cases e4 : len.length = pos.length / d - 1
    swap
    · exact Or.inr ⟨_, by simp [LineString.new, LineString.checks, rassert, e1, e2, e3, e4]; rfl⟩
    have hd : 0 < d := Nat.pos_of_ne_zero e1
    obtain ⟨ps, h1, h2, h3⟩ := split_positions d (pos.length / d) pos (Nat.div_mul_cancel (Nat.dvd_of_mod_eq_zero e2)).symm
    have h5 : 2 ≤ pos.length / d := (Nat.le_div_iff_mul_le hd).2 e3
    exact Or.inl ⟨ps, hd, by omega, h2, h3, by omega⟩
  refine ⟨⟨fun ⟨l, hl⟩ => ?_, fun ⟨ps, h⟩ => ⟨_, line_ok h⟩⟩, fun h => key.resolve_left h⟩
  rcases key with h | ⟨msg, h⟩
  · exact h
  · rw [h] at hl; cases hl

/-- **C89**: the line string has the given positions, in order, through `pos(n)` and `pos_iter`, starts at the first and ends at
the last, and its length is the sum of the given lengths. -/
theorem C89_positions (d : Nat) (pos : List F) (len : List (Length F)) (ps : List (List F)) (h : GivesLine d pos len ps) :
    ∃ l, LineString.new d pos len = .ok l ∧ l.coordDim = d ∧ l.HasPositions ps ∧ l.posIter = .ok ps ∧
      (∀ i, ps.length ≤ i → ∃ msg, l.posAt i = .error (.panic msg)) ∧
      (∀ p, ps.head? = some p → l.start = .ok p) ∧ (∀ p, ps.getLast? = some p → l.end_ = .ok p) ∧
      l.length = len.foldl (· + ·) (Length.new 0 M) := by
  refine ⟨_, line_ok h, rfl, ?_⟩
  obtain ⟨hd, h2, he, rfl, hl⟩ := h
  have hf := flatten_length he
  have hc : LineString.count (⟨d, ps.flatten, len⟩ : LineString F) = ps.length := by
    show ps.flatten.length / d = _
    rw [hf, Nat.mul_div_cancel _ hd]
  have hp : LineString.HasPositions (⟨d, ps.flatten, len⟩ : LineString F) ps := ⟨hc, fun i p hi => slice_flatten he i p hi⟩
  refine ⟨hp, ?_, ?_, ?_, ?_, rfl⟩
  · have e1 : d ≠ 0 := by omega
    have e2 : ps.length ≤ ps.flatten.length := by rw [hf]; exact Nat.le_mul_of_pos_right _ hd
    simp only [LineString.posIter, chunksExact_flatten hd _ ps he e2]
    simp [rassert, e1]
  · intro i hi
    have : ¬ ((i + 1) * d ≤ ps.flatten.length) := by
      rw [hf, Nat.not_le]; exact Nat.mul_lt_mul_of_pos_right (by omega) hd
    exact ⟨_, by simp only [LineString.posAt, slice]; rw [if_neg (fun h => this h.2)]⟩
  · intro p hh
    exact hp.2 0 p (by rw [← List.head?_eq_getElem?]; exact hh)
  · intro p hh
    refine hp.2 _ p ?_
    rw [hc, ← List.getLast?_eq_getElem?]; exact hh

/-- **C89**: in two and three dimensions the boundary holds the first and the last position; in other dimensions it panics. -/
theorem C89_boundary (d : Nat) (pos : List F) (len : List (Length F)) (ps : List (List F)) (h : GivesLine d pos len ps)
    (l : LineString F) (hl : LineString.new d pos len = .ok l) :
    ((d = 2 ∨ d = 3) → ∃ b, l.curveBoundary = .ok b ∧
      (∀ p, ps.head? = some p → b.start.deref = .ok p) ∧ (∀ p, ps.getLast? = some p → b.end_.deref = .ok p)) ∧
    (¬ (d = 2 ∨ d = 3) → ∃ msg, l.curveBoundary = .error (.panic msg)) := by
  obtain ⟨l', hl', -, -, -, -, hs, he, -⟩ := C89_positions d pos len ps h
  rw [hl] at hl'; cases hl'
  obtain ⟨hd, h2, hlen, -, -⟩ := h
  have hne : ps ≠ [] := by rintro rfl; simp at h2
  have hs' := hs _ (List.head?_eq_some_head hne)
  have he' := he _ (List.getLast?_eq_some_getLast hne)
  have l1 := hlen _ (List.head_mem hne)
  have l2 := hlen _ (List.getLast_mem hne)
  simp only [LineString.start, LineString.end_] at hs' he'
  simp only [LineString.curveBoundary, hs', he', ok_bind]
  constructor
  · intro hd
    obtain ⟨a, ha, ha', -⟩ := (C52_point (ps.head hne)).2 (by rw [l1]; exact hd)
    obtain ⟨b, hb, hb', -⟩ := (C52_point (ps.getLast hne)).2 (by rw [l2]; exact hd)
    rw [ha, hb]
    refine ⟨⟨a, b⟩, rfl, fun p hp => ?_, fun p hp => ?_⟩
    · rw [List.head?_eq_some_head hne] at hp; cases hp; exact ha'
    · rw [List.getLast?_eq_some_getLast hne] at hp; cases hp; exact hb'
  · intro hd
    obtain ⟨msg, hm⟩ := (C52_point (ps.head hne)).1 (by rw [l1]; exact hd)
    exact ⟨msg, by rw [hm]; rfl⟩

/-- Three positions in the plane. -/
example (a b c d e f : F) (l m : Length F) : GivesLine 2 [a, b, c, d, e, f] [l, m] [[a, b], [c, d], [e, f]] := by
  refine ⟨by decide, by simp, ?_, rfl, rfl⟩
  intro p hp
  simp at hp
  rcases hp with rfl | rfl | rfl <;> rfl

/-- A missing coordinate panics. -/
example (a b c : F) (l : Length F) : ∃ msg, LineString.new 2 [a, b, c] [l] = .error (.panic msg) := by
  refine (C89_new _ _ _).2 ?_
  rintro ⟨ps, -, h2, he, hf, -⟩
  have := flatten_length he
  rw [← hf] at this
  simp at this
  omega

end Geo
