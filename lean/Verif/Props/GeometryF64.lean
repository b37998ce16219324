import Verif.Props.GeometryAny
import Verif.Props.ValuesF64

/-! C56: the parameterisation of line strings in IEEE arithmetic. -/

namespace Geo
variable {L : Libm}

/-! ### Interpolation at the ends -/

/-- `x == y` in every coordinate. -/
def SameCoords (p q : List (F64 L)) : Prop := List.Forall₂ (fun x y => (x ==. y) = true) p q

/-- A position without NaN or infinite coordinate. -/
def FinitePos (p : List (F64 L)) : Prop := ∀ x ∈ p, x.isFinite

theorem rnd_toQ (a : F64 L) : rndQ a.toQ = a.toQ := (B64.toQ_rep a).rnd

theorem toQ_lt_huge (a : F64 L) : |a.toQ| < huge := (B64.toQ_isDouble a).abs_lt

theorem add_f64 {a b : F64 L} (ha : a.isFinite) (hb : b.isFinite) (h : |rndQ (a.toQ + b.toQ)| < huge) :
    (a + b).isFinite ∧ (a + b).toQ = rndQ (a.toQ + b.toQ) :=
  have hf := B64.add_finite_of ha hb h
  ⟨hf, (B64.add_finite hf).2.2⟩

theorem sub_f64 {a b : F64 L} (ha : a.isFinite) (hb : b.isFinite) (h : |rndQ (a.toQ - b.toQ)| < huge) :
    (a - b).isFinite ∧ (a - b).toQ = rndQ (a.toQ - b.toQ) :=
  have hf := B64.sub_finite_of ha hb h
  ⟨hf, (B64.sub_finite hf).2.2⟩

theorem mul_f64 {a b : F64 L} (ha : a.isFinite) (hb : b.isFinite) (h : |rndQ (a.toQ * b.toQ)| < huge) :
    (a * b).isFinite ∧ (a * b).toQ = rndQ (a.toQ * b.toQ) :=
  have hf := B64.mul_finite_of ha hb h
  ⟨hf, (B64.mul_finite hf).2.2⟩

theorem zero_lt_huge : |(0 : ℚ)| < huge := by
  rw [abs_zero]; exact two_zpow_pos _

theorem one_lt_huge : |(1 : ℚ)| < huge := by
  rw [abs_one]
  have : (2 : ℚ) ^ (0 : ℤ) < huge := two_zpow_lt (by norm_num)
  simpa using this

theorem rndQ_one : rndQ 1 = 1 := B64.isDouble_one.rep.rnd

theorem mix_zero {r s e : F64 L} (hr : r.isFinite) (hr0 : r.toQ = 0) (hs : s.isFinite) (he : e.isFinite) :
    (((1 : F64 L) - r) * s + r * e ==. s) = true := by
  obtain ⟨a1, a2⟩ := sub_f64 one_f64.1 hr (by rw [hr0, one_f64.2, sub_zero, rndQ_one]; exact one_lt_huge)
  rw [hr0, one_f64.2, sub_zero, rndQ_one] at a2
  obtain ⟨b1, b2⟩ := mul_f64 a1 hs (by rw [a2, one_mul, rnd_toQ]; exact toQ_lt_huge s)
  rw [a2, one_mul, rnd_toQ] at b2
  obtain ⟨c1, c2⟩ := mul_f64 hr he (by rw [hr0, zero_mul, rndQ_zero]; exact zero_lt_huge)
  rw [hr0, zero_mul, rndQ_zero] at c2
  obtain ⟨d1, d2⟩ := add_f64 b1 c1 (by rw [b2, c2, add_zero, rnd_toQ]; exact toQ_lt_huge s)
  rw [b2, c2, add_zero, rnd_toQ] at d2
  rw [eq_fin_f64 d1 hs, d2]
  simp

theorem mix_one {r s e : F64 L} (hr : r.isFinite) (hr1 : r.toQ = 1) (hs : s.isFinite) (he : e.isFinite) :
    (((1 : F64 L) - r) * s + r * e ==. e) = true := by
  obtain ⟨a1, a2⟩ := sub_f64 one_f64.1 hr (by rw [hr1, one_f64.2, sub_self, rndQ_zero]; exact zero_lt_huge)
  rw [hr1, one_f64.2, sub_self, rndQ_zero] at a2
  obtain ⟨b1, b2⟩ := mul_f64 a1 hs (by rw [a2, zero_mul, rndQ_zero]; exact zero_lt_huge)
  rw [a2, zero_mul, rndQ_zero] at b2
  obtain ⟨c1, c2⟩ := mul_f64 hr he (by rw [hr1, one_mul, rnd_toQ]; exact toQ_lt_huge e)
  rw [hr1, one_mul, rnd_toQ] at c2
  obtain ⟨d1, d2⟩ := add_f64 b1 c1 (by rw [b2, c2, zero_add, rnd_toQ]; exact toQ_lt_huge e)
  rw [b2, c2, zero_add, rnd_toQ] at d2
  rw [eq_fin_f64 d1 he, d2]
  simp

theorem interpolate_zero {r : F64 L} (hr : r.isFinite) (hr0 : r.toQ = 0) {p q : List (F64 L)} (hp : FinitePos p)
    (hq : FinitePos q) (h : p.length = q.length) : SameCoords (LineString.interpolate r p q) p := by
  unfold SameCoords LineString.interpolate
  induction p generalizing q with
  | nil => simp
  | cons a p ih =>
    cases q with
    | nil => simp at h
    | cons b q =>
      rw [List.zipWith_cons_cons]
      exact .cons (mix_zero hr hr0 (hp _ (by simp)) (hq _ (by simp)))
        (ih (fun x hx => hp x (by simp [hx])) (fun x hx => hq x (by simp [hx])) (by simpa using h))

theorem interpolate_one {r : F64 L} (hr : r.isFinite) (hr1 : r.toQ = 1) {p q : List (F64 L)} (hp : FinitePos p)
    (hq : FinitePos q) (h : p.length = q.length) : SameCoords (LineString.interpolate r p q) q := by
  unfold SameCoords LineString.interpolate
  induction p generalizing q with
  | nil =>
    cases q with
    | nil => simp
    | cons b q => simp at h
  | cons a p ih =>
    cases q with
    | nil => simp at h
    | cons b q =>
      rw [List.zipWith_cons_cons]
      exact .cons (mix_one hr hr1 (hp _ (by simp)) (hq _ (by simp)))
        (ih (fun x hx => hp x (by simp [hx])) (fun x hx => hq x (by simp [hx])) (by simpa using h))

/-! ### Sums of lengths -/

/-- The exact sum of lengths. -/
def totalQ (ls : List (Length (F64 L))) : ℚ := (ls.map fun l => l.m.toQ).sum

/-- Positive finite lengths, multiples of `2 ^ e`. -/
def GoodLengths (e : ℤ) (ls : List (Length (F64 L))) : Prop := ∀ l ∈ ls, l.m.isFinite ∧ 0 < l.m.toQ ∧ OnGrid e l.m.toQ

theorem totalQ_nonneg {e : ℤ} {ls : List (Length (F64 L))} (h : GoodLengths e ls) : 0 ≤ totalQ ls :=
  List.sum_nonneg fun x hx => by
    obtain ⟨l, hl, rfl⟩ := List.mem_map.1 hx
    exact (h l hl).2.1.le

theorem totalQ_grid {e : ℤ} {ls : List (Length (F64 L))} (h : GoodLengths e ls) : OnGrid e (totalQ ls) := by
  induction ls with
  | nil => exact ⟨0, by simp [totalQ]⟩
  | cons x ls ih =>
    rw [totalQ, List.map_cons, List.sum_cons]
    exact (h x (by simp)).2.2.add (ih fun l hl => h l (by simp [hl]))

theorem totalQ_cons (x : Length (F64 L)) (ls : List (Length (F64 L))) : totalQ (x :: ls) = x.m.toQ + totalQ ls := by
  rw [totalQ, List.map_cons, List.sum_cons]; rfl

theorem foldl_exact {e : ℤ} (he : -1074 ≤ e) (ls : List (Length (F64 L))) (h : GoodLengths e ls) (acc : Length (F64 L))
    (ha : acc.m.isFinite) (ha0 : 0 ≤ acc.m.toQ) (hag : OnGrid e acc.m.toQ) (hb : acc.m.toQ + totalQ ls ≤ 2 ^ (e + 53))
    (hb' : acc.m.toQ + totalQ ls < huge) :
    (ls.foldl (fun acc l => acc + l) acc).m.isFinite ∧
    (ls.foldl (fun acc l => acc + l) acc).m.toQ = acc.m.toQ + totalQ ls := by
  induction ls generalizing acc with
  | nil => exact ⟨ha, by simp [totalQ]⟩
  | cons x ls ih =>
    obtain ⟨x1, x2, x3⟩ := h x (by simp)
    have hls : GoodLengths e ls := fun l hl => h l (by simp [hl])
    have hn := totalQ_nonneg hls
    rw [totalQ_cons] at hb hb' ⊢
    have hsum : rndQ (acc.m.toQ + x.m.toQ) = acc.m.toQ + x.m.toQ :=
      ((hag.add x3).rep he (by rw [abs_of_nonneg (by linarith)]; linarith)).rnd
    obtain ⟨s1, s2⟩ := add_f64 ha x1 (by rw [hsum, abs_of_nonneg (by linarith)]; linarith)
    rw [hsum] at s2
    obtain ⟨r1, r2⟩ := ih hls (acc + x) s1 (by show 0 ≤ (acc.m + x.m).toQ; rw [s2]; linarith)
      (by show OnGrid e (acc.m + x.m).toQ; rw [s2]; exact hag.add x3)
      (by show (acc.m + x.m).toQ + _ ≤ _; rw [s2]; linarith) (by show (acc.m + x.m).toQ + _ < _; rw [s2]; linarith)
    refine ⟨r1, ?_⟩
    rw [List.foldl_cons, r2]
    show (acc.m + x.m).toQ + _ = _
    rw [s2]; ring

theorem div_self_f64 {s l : F64 L} (hs : s.isFinite) (hl : l.isFinite) (h0 : 0 < l.toQ) (h : s.toQ = l.toQ) :
    (s / l).isFinite ∧ (s / l).toQ = 1 := by
  have e : B64.toQ s / B64.toQ l = 1 := by
    rw [show B64.toQ s = B64.toQ l from h]
    exact div_self (ne_of_gt h0)
  obtain ⟨d1, d2⟩ := B64.div_finite_of (a := s) (b := l) hs hl (ne_of_gt h0) (by rw [e, rndQ_one]; exact one_lt_huge)
  rw [e, rndQ_one] at d2
  exact ⟨d1, d2⟩

theorem paramLoop_exact {e : ℤ} (he : -1074 ≤ e) (ls : List (Length (F64 L))) (h : GoodLengths e ls) (hne : ls ≠ [])
    (s : Length (F64 L)) (hs : s.m.isFinite) (hst : s.m.toQ = totalQ ls) (hb : totalQ ls ≤ 2 ^ (e + 53))
    (hb' : totalQ ls < huge) (ix : ℕ) :
    ∃ r, LineString.paramLoop ls s ix = (ix + (ls.length - 1), r) ∧ r.isFinite ∧ r.toQ = 1 := by
  induction ls generalizing s ix with
  | nil => exact absurd rfl hne
  | cons x ls ih =>
    obtain ⟨x1, x2, x3⟩ := h x (by simp)
    have hls : GoodLengths e ls := fun l hl => h l (by simp [hl])
    have hle : s.le x = decide (s.m.toQ ≤ x.m.toQ) := le_fin_f64 hs x1
    cases ls with
    | nil =>
      have hsx : s.m.toQ = x.m.toQ := by rw [hst, totalQ_cons]; simp [totalQ]
      rw [LineString.paramLoop, hle, if_pos (by rw [hsx]; simp)]
      obtain ⟨d1, d2⟩ := div_self_f64 hs x1 x2 hsx
      exact ⟨s.m / x.m, rfl, d1, d2⟩
    | cons y ls =>
      have hn := totalQ_nonneg hls
      have hy := (hls y (by simp)).2.1
      have hpos : 0 < totalQ (y :: ls) := by
        rw [totalQ_cons]
        have := totalQ_nonneg (e := e) (ls := ls) fun l hl => hls l (by simp [hl])
        linarith
      rw [totalQ_cons] at hst hb hb'
      rw [LineString.paramLoop, hle, if_neg (by simp; linarith)]
      have hd : s.m.toQ - x.m.toQ = totalQ (y :: ls) := by rw [hst]; ring
      have hr : rndQ (s.m.toQ - x.m.toQ) = totalQ (y :: ls) := by
        rw [hd]
        exact ((totalQ_grid hls).rep he (by rw [abs_of_pos hpos]; linarith)).rnd
      obtain ⟨s1, s2⟩ := sub_f64 hs x1 (by rw [hr, abs_of_pos hpos]; linarith)
      rw [hr] at s2
      obtain ⟨r, r1, r2, r3⟩ := ih hls (by simp) (s - x) s1 s2 (by linarith) (by linarith) (ix + 1)
      refine ⟨r, ?_, r2, r3⟩
      rw [r1]
      simp only [List.length_cons]
      congr 1
      omega

/-- C56, partial: `param(0)` is `start()` when the first segment has a positive length and the lengths are not NaN or
negative.  Missing: line strings that begin with a repeated position (`C56_start_violated`). -/
theorem C56_start_partial {l : LineString (F64 L)} {ps : List (List (F64 L))} (h : l.HasPositions ps)
    (l₀ : Length (F64 L)) (ls : List (Length (F64 L))) (hlen : l.len = l₀ :: ls) (hl₀ : l₀.m.isFinite) (hp : 0 < l₀.m.toQ)
    (hle : (Length.mk 0).le l.length = true) (p q : List (F64 L)) (hps : ps[0]? = some p) (hqs : ps[1]? = some q)
    (hpf : FinitePos p) (hqf : FinitePos q) (hpq : p.length = q.length) :
    l.start = .ok p ∧ ∃ c, l.param ⟨0⟩ = .ok c ∧ SameCoords c p := by
  refine ⟨h.2 0 p hps, ?_⟩
  have hc : (Length.mk (0 : F64 L)).le l₀ = true := by
    have := le_fin_f64 (zero_f64 (L := L)).1 hl₀
    rw [zero_f64.2, decide_eq_true hp.le] at this
    exact this
  have hloop : LineString.paramLoop l.len ⟨0⟩ 0 = (0, (⟨0⟩ : Length (F64 L)) / l₀) := by
    rw [hlen, LineString.paramLoop, if_pos hc]
  have e0 : B64.toQ (0 : F64 L) / B64.toQ l₀.m = 0 := by
    rw [show B64.toQ (0 : F64 L) = 0 from zero_f64.2, zero_div]
  obtain ⟨d1, d2⟩ := B64.div_finite_of (a := (0 : F64 L)) (b := l₀.m) zero_f64.1 hl₀ (ne_of_gt hp)
    (by rw [e0, rndQ_zero]; exact zero_lt_huge)
  rw [e0, rndQ_zero] at d2
  have e1 := h.2 0 p hps
  have e2 := h.2 1 q hqs
  simp only [LineString.param, hle, rassert, if_true, hloop, e1, e2, Nat.zero_add]
  exact ⟨_, rfl, interpolate_zero d1 d2 hpf hqf hpq⟩

/-- C56, partial: `param(length())` is `end()` when the lengths are positive multiples of some `2 ^ e` and their sum is at most
`2 ^ (e + 53)` (in particular for a single segment, and for lengths in whole metres), so that no sum of lengths is rounded.
Missing: other lengths (`C56_end_violated`). -/
theorem C56_end_partial {l : LineString (F64 L)} {ps : List (List (F64 L))} (h : l.HasPositions ps) (e : ℤ) (he : -1074 ≤ e)
    (hg : GoodLengths e l.len) (hb : totalQ l.len ≤ 2 ^ (e + 53)) (hb' : totalQ l.len < huge)
    (hn : ps.length = l.len.length + 1) (hne : l.len ≠ []) (p q : List (F64 L)) (hps : ps[l.len.length - 1]? = some p)
    (hqs : ps[l.len.length]? = some q) (hpf : FinitePos p) (hqf : FinitePos q) (hpq : p.length = q.length) :
    l.length.m.toQ = totalQ l.len ∧ l.end_ = .ok q ∧ ∃ c, l.param l.length = .ok c ∧ SameCoords c q := by
  have hz : (Length.new (0 : F64 L) M) = ⟨0⟩ := Length.ext (C09_bits 0).2.2.1
  obtain ⟨s1, s2⟩ := foldl_exact he l.len hg (Length.new 0 M) (by rw [hz]; exact zero_f64.1)
    (by rw [hz]; exact zero_f64.2.ge) (by rw [hz]; exact ⟨0, by rw [zero_f64.2]; simp⟩)
    (by rw [hz]; show (0 : F64 L).toQ + _ ≤ _; rw [zero_f64.2, zero_add]; exact hb)
    (by rw [hz]; show (0 : F64 L).toQ + _ < _; rw [zero_f64.2, zero_add]; exact hb')
  have s2' : l.length.m.toQ = totalQ l.len := by
    have : l.length.m.toQ = (Length.new (0 : F64 L) M).m.toQ + totalQ l.len := s2
    rw [hz] at this
    rw [this]
    show (0 : F64 L).toQ + _ = _
    rw [zero_f64.2, zero_add]
  have s1' : l.length.m.isFinite := s1
  have hlast : l.end_ = .ok q := by
    rw [LineString.end_, h.1, hn, Nat.add_sub_cancel]
    exact h.2 _ q hqs
  refine ⟨s2', hlast, ?_⟩
  obtain ⟨r, r1, r2, r3⟩ := paramLoop_exact he l.len hg hne l.length s1' s2' hb hb' 0
  have hpos : 0 < l.len.length := List.length_pos_of_ne_nil hne
  have hle : l.length.le l.length = true := by
    have := le_fin_f64 s1' s1'
    simp at this
    exact this
  have e1 := h.2 _ p hps
  have e2 := h.2 _ q hqs
  have hi : l.len.length - 1 + 1 = l.len.length := by omega
  rw [Nat.zero_add] at r1
  simp only [LineString.param, hle, rassert, if_true, r1, hi, e1, e2]
  exact ⟨_, rfl, interpolate_one r2 r3 hpf hqf hpq⟩

/-! ### The contract is violated -/

/-- `hypot` of a number and zero, exact in every `libm` (IEEE 754, 9.2.1). -/
def HypotAxis (L : Libm) : Prop := ∀ x : B64, L.hypot x (B64.lit 0) = x.abs ∧ L.hypot (B64.lit 0) x = x.abs

theorem geocentric_dist (c : GeocentricCrs (F64 L)) (x y z x' y' z' : F64 L) :
    c.toCrs.dist [x, y, z] [x', y', z'] = .ok ⟨Flt.hypot (Flt.hypot (x - x') (y - y')) (z - z')⟩ := by
  show c.dist [x, y, z] [x', y', z'] = _
  unfold GeocentricCrs.dist
  rw [(C16_geocentric_bits x y z c.axes [x, y, z] rfl).1, (C16_geocentric_bits x' y' z' c.axes [x, y, z] rfl).1]
  rfl

/-- The line string of `C56_end_violated`. -/
def badLine (L : Libm) : LineString (F64 L) :=
  ⟨3, [Flt.lit 0, Flt.lit 0, Flt.lit 0, Flt.lit 0.1, Flt.lit 0, Flt.lit 0, Flt.lit 0.1, Flt.lit 0.2, Flt.lit 0,
    Flt.lit 0.1, Flt.lit 0.2, Flt.lit 0.3], [⟨Flt.lit 0.1⟩, ⟨Flt.lit 0.2⟩, ⟨Flt.lit 0.3⟩]⟩

/-- The computed length of `badLine`, 0.6000000000000001. -/
def badTotal : B64 := ((B64.add (B64.lit 0) (B64.lit 0.1)).add (B64.lit 0.2)).add (B64.lit 0.3)

theorem badLine_length : (badLine L).length = ⟨badTotal⟩ := by
  have hz : (Length.new (0 : F64 L) M) = ⟨0⟩ := Length.ext (C09_bits 0).2.2.1
  show sumLengths (badLine L).len = _
  unfold sumLengths
  rw [hz]
  rfl

theorem bad_loop : (LineString.paramLoop (badLine L).len (badLine L).length 0).1 = 3 := by
  rw [badLine_length]
  have h1 : (Length.mk (F := F64 L) badTotal).le ⟨Flt.lit 0.1⟩ = false := by
    show badTotal.le (B64.lit 0.1) = false
    decide +kernel
  have h2 : (Length.mk (F := F64 L) badTotal - ⟨Flt.lit 0.1⟩).le ⟨Flt.lit 0.2⟩ = false := by
    show (badTotal.sub (B64.lit 0.1)).le (B64.lit 0.2) = false
    decide +kernel
  have h3 : (Length.mk (F := F64 L) badTotal - ⟨Flt.lit 0.1⟩ - ⟨Flt.lit 0.2⟩).le ⟨Flt.lit 0.3⟩ = false := by
    show ((badTotal.sub (B64.lit 0.1)).sub (B64.lit 0.2)).le (B64.lit 0.3) = false
    decide +kernel
  simp [badLine, LineString.paramLoop, h1, h2, h3]

/-- C56, negation: along the path (0, 0, 0), (0.1, 0, 0), (0.1, 0.2, 0), (0.1, 0.2, 0.3) of a geocentric CRS, with lengths
0.1, 0.2 and 0.3, the builder succeeds and `param(length())` panics. -/
theorem C56_end_violated (hL : HypotAxis L) (c : GeocentricCrs (F64 L)) :
    ∃ b, runLines c.toCrs [Flt.lit 0, Flt.lit 0, Flt.lit 0] [Flt.lit 0.1, Flt.lit 0, Flt.lit 0]
        [[Flt.lit 0.1, Flt.lit 0.2, Flt.lit 0], [Flt.lit 0.1, Flt.lit 0.2, Flt.lit 0.3]] = .ok b ∧
      b.build.end_ = .ok [Flt.lit 0.1, Flt.lit 0.2, Flt.lit 0.3] ∧
      b.build.param b.build.length = .error (.panic "slice index out of range") := by
  have s00 : B64.sub (B64.lit 0) (B64.lit 0) = B64.lit 0 := by decide +kernel
  have s11 : B64.sub (B64.lit 0.1) (B64.lit 0.1) = B64.lit 0 := by decide +kernel
  have s22 : B64.sub (B64.lit 0.2) (B64.lit 0.2) = B64.lit 0 := by decide +kernel
  have a0 : (B64.lit 0).abs = B64.lit 0 := by decide +kernel
  have a1 : (B64.sub (B64.lit 0) (B64.lit 0.1)).abs = B64.lit 0.1 := by decide +kernel
  have a1' : (B64.lit 0.1).abs = B64.lit 0.1 := by decide +kernel
  have a2 : (B64.sub (B64.lit 0) (B64.lit 0.2)).abs = B64.lit 0.2 := by decide +kernel
  have a2' : (B64.lit 0.2).abs = B64.lit 0.2 := by decide +kernel
  have a3 : (B64.sub (B64.lit 0) (B64.lit 0.3)).abs = B64.lit 0.3 := by decide +kernel
  have d1 : c.toCrs.dist [Flt.lit 0, Flt.lit 0, Flt.lit 0] [Flt.lit 0.1, Flt.lit 0, Flt.lit 0] = .ok ⟨Flt.lit 0.1⟩ := by
    have h : L.hypot (L.hypot (B64.sub (B64.lit 0) (B64.lit 0.1)) (B64.sub (B64.lit 0) (B64.lit 0))) (B64.sub (B64.lit 0) (B64.lit 0)) = B64.lit 0.1 := by
      rw [s00, (hL (L.hypot _ _)).1, (hL _).1, a1, a1']
    rw [geocentric_dist]
    exact congrArg (fun v : F64 L => Except.ok (ε := Fail) (Length.mk v)) h
  have d2 : c.toCrs.dist [Flt.lit 0.1, Flt.lit 0, Flt.lit 0] [Flt.lit 0.1, Flt.lit 0.2, Flt.lit 0] = .ok ⟨Flt.lit 0.2⟩ := by
    have h : L.hypot (L.hypot (B64.sub (B64.lit 0.1) (B64.lit 0.1)) (B64.sub (B64.lit 0) (B64.lit 0.2))) (B64.sub (B64.lit 0) (B64.lit 0)) = B64.lit 0.2 := by
      rw [s00, s11, (hL (L.hypot _ _)).1, (hL _).2, a2, a2']
    rw [geocentric_dist]
    exact congrArg (fun v : F64 L => Except.ok (ε := Fail) (Length.mk v)) h
  have d3 : c.toCrs.dist [Flt.lit 0.1, Flt.lit 0.2, Flt.lit 0] [Flt.lit 0.1, Flt.lit 0.2, Flt.lit 0.3] = .ok ⟨Flt.lit 0.3⟩ := by
    have h : L.hypot (L.hypot (B64.sub (B64.lit 0.1) (B64.lit 0.1)) (B64.sub (B64.lit 0.2) (B64.lit 0.2))) (B64.sub (B64.lit 0) (B64.lit 0.3)) = B64.lit 0.3 := by
      rw [s11, s22, (hL (B64.lit 0)).1, a0, (hL _).2, a3]
    rw [geocentric_dist]
    exact congrArg (fun v : F64 L => Except.ok (ε := Fail) (Length.mk v)) h
  refine ⟨⟨c.toCrs, badLine L⟩, ?_, ?_, ?_⟩
  · have e : c.toCrs.dim = 3 := rfl
    simp [runLines, LineStringBuilder.withLine, d1, d2, d3, LineStringBuilder.new, LineString.checks, e, rassert,
      LineStringBuilder.lineTo, LineString.posAt, LineString.count, slice, badLine, List.foldlM]
  · simp [LineStringBuilder.build, LineString.end_, LineString.posAt, LineString.count, slice, badLine]
  · show (badLine L).param (badLine L).length = _
    have hle : (badLine L).length.le (badLine L).length = true := by
      rw [badLine_length]
      show badTotal.le badTotal = true
      decide +kernel
    simp only [LineString.param, hle, rassert, if_true, bad_loop]
    rfl

/-- C56, negation: on a line string from a position to itself, `param(0)` is not `start()`: every coordinate is NaN. -/
theorem C56_start_violated (hL : HypotAxis L) (c : GeocentricCrs (F64 L)) :
    ∃ b, runLines c.toCrs [Flt.lit 1, Flt.lit 2, Flt.lit 3] [Flt.lit 1, Flt.lit 2, Flt.lit 3] [] = .ok b ∧
      b.build.start = .ok [Flt.lit 1, Flt.lit 2, Flt.lit 3] ∧
      b.build.param ⟨0⟩ = .ok [F64.nan, F64.nan, F64.nan] := by
  have a0 : (B64.lit 0).abs = B64.lit 0 := by decide +kernel
  have d : c.toCrs.dist [Flt.lit 1, Flt.lit 2, Flt.lit 3] [Flt.lit 1, Flt.lit 2, Flt.lit 3] = .ok ⟨0⟩ := by
    have h : L.hypot (L.hypot (B64.sub (B64.lit 1) (B64.lit 1)) (B64.sub (B64.lit 2) (B64.lit 2))) (B64.sub (B64.lit 3) (B64.lit 3)) = B64.lit 0 := by
      rw [show B64.sub (B64.lit 1) (B64.lit 1) = B64.lit 0 by decide +kernel,
        show B64.sub (B64.lit 2) (B64.lit 2) = B64.lit 0 by decide +kernel,
        show B64.sub (B64.lit 3) (B64.lit 3) = B64.lit 0 by decide +kernel, (hL (B64.lit 0)).1, a0, (hL _).1, a0]
    rw [geocentric_dist]
    exact congrArg (fun v : F64 L => Except.ok (ε := Fail) (Length.mk v)) h
  refine ⟨⟨c.toCrs, ⟨3, [Flt.lit 1, Flt.lit 2, Flt.lit 3, Flt.lit 1, Flt.lit 2, Flt.lit 3], [⟨0⟩]⟩⟩, ?_, rfl, ?_⟩
  · have e : c.toCrs.dim = 3 := rfl
    simp [runLines, LineStringBuilder.withLine, d, LineStringBuilder.new, LineString.checks, e, rassert]
  · have hz : (Length.new (0 : F64 L) M) = ⟨0⟩ := Length.ext (C09_bits 0).2.2.1
    have hlen : sumLengths [(⟨0⟩ : Length (F64 L))] = ⟨B64.lit 0⟩ := by
      unfold sumLengths
      rw [hz]
      show (⟨B64.add (B64.lit 0) (B64.lit 0)⟩ : Length (F64 L)) = _
      rw [show B64.add (B64.lit 0) (B64.lit 0) = B64.lit 0 by decide +kernel]
    have hle : (⟨0⟩ : Length (F64 L)).le ⟨B64.lit 0⟩ = true := by
      show (B64.lit 0).le (B64.lit 0) = true
      decide +kernel
    have hle' : (⟨0⟩ : Length (F64 L)).le ⟨0⟩ = true := hle
    have hd : (⟨0⟩ : Length (F64 L)) / (⟨0⟩ : Length (F64 L)) = (F64.nan : F64 L) := by
      show (B64.lit 0).div (B64.lit 0) = B64.nan
      decide +kernel
    have hn : ∀ x : F64 L, ((1 : F64 L) - F64.nan) * x + F64.nan * x = F64.nan := fun x => by
      have h : ∀ y : B64, ((B64.sub (B64.lit 1) B64.nan).mul y).add (B64.nan.mul y) = B64.nan := fun y => by
        rw [show B64.sub (B64.lit 1) B64.nan = B64.nan by decide +kernel, B64.mul_nan_left]
        decide +kernel
      exact h x
    simp [LineStringBuilder.build, LineString.param, LineString.length, hlen, hle, hle', rassert, LineString.paramLoop,
      LineString.posAt, slice, LineString.interpolate, hd, hn]

/-- There is such a `hypot`. -/
example : ∃ L, HypotAxis L := by
  refine ⟨⟨id, id, fun x y => if y = B64.lit 0 then x.abs else y.abs, fun x _ => x, fun x _ => x, id, id, id, id, id, id, id,
    fun x _ => x, id, id, id, id, id⟩, fun x => ⟨by simp, ?_⟩⟩
  by_cases h : x = B64.lit 0
  · rw [h]; simp
  · simp [h]

/-- The hypotheses of the partial theorems are met by the lengths 3, 4 of a path of two segments. -/
example : GoodLengths (L := L) 0 [⟨Flt.lit 3⟩, ⟨Flt.lit 4⟩] ∧
    totalQ (L := L) [⟨Flt.lit 3⟩, ⟨Flt.lit 4⟩] ≤ 2 ^ (0 + 53 : ℤ) ∧ totalQ (L := L) [⟨Flt.lit 3⟩, ⟨Flt.lit 4⟩] < huge := by
  have h3 : (B64.lit 3).toQ = 3 ∧ (B64.lit 3).isFinite = true := by decide +kernel
  have h4 : (B64.lit 4).toQ = 4 ∧ (B64.lit 4).isFinite = true := by decide +kernel
  have ht : totalQ (L := L) [⟨Flt.lit 3⟩, ⟨Flt.lit 4⟩] = 7 := by
    show (B64.lit 3).toQ + ((B64.lit 4).toQ + 0) = 7
    rw [h3.1, h4.1]; norm_num
  refine ⟨fun l hl => ?_, ?_, ?_⟩
  · simp only [List.mem_cons, List.not_mem_nil, or_false] at hl
    rcases hl with rfl | rfl
    · exact ⟨h3.2, by show 0 < (B64.lit 3).toQ; rw [h3.1]; norm_num, 3, by show (B64.lit 3).toQ = _; rw [h3.1]; norm_num⟩
    · exact ⟨h4.2, by show 0 < (B64.lit 4).toQ; rw [h4.1]; norm_num, 4, by show (B64.lit 4).toQ = _; rw [h4.1]; norm_num⟩
  · rw [ht]; norm_num
  · rw [ht]
    have : (2 : ℚ) ^ (3 : ℤ) < huge := two_zpow_lt (by norm_num)
    norm_num at this
    linarith

end Geo
