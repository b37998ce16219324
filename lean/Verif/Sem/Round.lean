import Mathlib.Data.Int.Log
import Mathlib.Data.Rat.Floor
import Mathlib.Tactic.Linarith
import Mathlib.Tactic.FieldSimp
import Mathlib.Tactic.Positivity
import Mathlib.Tactic.Ring
import Mathlib.Tactic.NormNum
import Mathlib.Algebra.Order.Field.Power

/-! Rounding of rational numbers to binary64, round to nearest, ties to even (IEEE 754-2019, 4.3.1), and its
properties.  Overflow is left to `F64.lean`. -/

namespace Geo

/-- Nearest integer, ties to even. -/
def rteQ (x : ℚ) : ℤ :=
  if x - ⌊x⌋ < 1 / 2 then ⌊x⌋
  else if 1 / 2 < x - ⌊x⌋ then ⌊x⌋ + 1
  else if ⌊x⌋ % 2 = 0 then ⌊x⌋ else ⌊x⌋ + 1

/-- Exponent of the last place of `q`: 53 significant bits, at least `2 ^ -1074`. -/
def expo (q : ℚ) : ℤ := if q = 0 then -1074 else max (Int.log 2 |q| - 52) (-1074)

/-- Nearest number of precision 53 with exponents not below `-1074`. -/
def rndQ (q : ℚ) : ℚ := rteQ (q / 2 ^ expo q) * 2 ^ expo q

/-- A number of precision 53 with exponents not below `-1074` (and unbounded above). -/
def Rep (q : ℚ) : Prop := ∃ m e : ℤ, q = m * 2 ^ e ∧ |m| ≤ 2 ^ 53 ∧ -1074 ≤ e

/-- `q` is a multiple of `2 ^ e`. -/
def OnGrid (e : ℤ) (q : ℚ) : Prop := ∃ m : ℤ, q = m * 2 ^ e

/-! ### Nearest integers -/

theorem rteQ_err (x : ℚ) : |(rteQ x : ℚ) - x| ≤ 1 / 2 := by
  have h1 := Int.floor_le x
  have h2 := Int.lt_floor_add_one x
  unfold rteQ
  split_ifs <;> rw [abs_le] <;> push_cast <;> constructor <;> linarith

theorem rteQ_int (n : ℤ) : rteQ n = n := by
  unfold rteQ
  simp

theorem rteQ_nearest (x : ℚ) (n : ℤ) : |(rteQ x : ℚ) - x| ≤ |(n : ℚ) - x| := by
  have h := rteQ_err x
  by_cases e : n = rteQ x
  · rw [e]
  · have h1 : (1 : ℚ) ≤ |(n : ℚ) - rteQ x| := by
      have : (1 : ℤ) ≤ |n - rteQ x| := Int.one_le_abs (sub_ne_zero.2 e)
      exact_mod_cast this
    have h2 : |(n : ℚ) - rteQ x| ≤ |(n : ℚ) - x| + |(rteQ x : ℚ) - x| := by
      rw [abs_sub_comm (rteQ x : ℚ) x]
      calc |(n : ℚ) - rteQ x| = |((n : ℚ) - x) + (x - rteQ x)| := by ring_nf
        _ ≤ _ := abs_add_le _ _
    linarith

theorem rteQ_neg (x : ℚ) : rteQ (-x) = -rteQ x := by
  have h1 := Int.floor_le x
  have h2 := Int.lt_floor_add_one x
  by_cases hx : x = ⌊x⌋
  · rw [hx, ← Int.cast_neg, rteQ_int, rteQ_int]
  · have h1' : (⌊x⌋ : ℚ) < x := lt_of_le_of_ne h1 (Ne.symm hx)
    have hf : ⌊-x⌋ = -⌊x⌋ - 1 := by
      rw [Int.floor_eq_iff]
      push_cast
      constructor <;> linarith
    unfold rteQ
    rw [hf]
    push_cast
    split_ifs <;> first | omega | (exfalso; linarith)

/-! ### Exponents -/

theorem two_zpow_pos (e : ℤ) : (0 : ℚ) < 2 ^ e := zpow_pos (by norm_num) e

theorem two_zpow_le {e e' : ℤ} (h : e ≤ e') : (2 : ℚ) ^ e ≤ 2 ^ e' := zpow_le_zpow_right₀ (by norm_num) h

theorem two_zpow_lt {e e' : ℤ} (h : e < e') : (2 : ℚ) ^ e < 2 ^ e' := zpow_lt_zpow_right₀ (by norm_num) h

theorem two_zpow_add (e e' : ℤ) : (2 : ℚ) ^ (e + e') = 2 ^ e * 2 ^ e' := zpow_add₀ (by norm_num) e e'

theorem expo_min (q : ℚ) : -1074 ≤ expo q := by
  unfold expo
  split_ifs
  · exact le_rfl
  · exact le_max_right _ _

theorem lt_expo (q : ℚ) : |q| < 2 ^ (expo q + 53) := by
  unfold expo
  split_ifs with h
  · rw [h, abs_zero]; exact two_zpow_pos _
  · refine (Int.lt_zpow_succ_log_self (b := 2) (by norm_num) |q|).trans_le ?_
    push_cast
    apply two_zpow_le
    have := le_max_left (Int.log 2 |q| - 52) (-1074)
    linarith

theorem expo_le {q : ℚ} {e : ℤ} (he : -1074 ≤ e) (h : |q| < 2 ^ (e + 53)) : expo q ≤ e := by
  unfold expo
  split_ifs with h0
  · exact he
  · refine max_le ?_ he
    have := (Int.zpow_log_le_self (b := 2) (by norm_num) (abs_pos.2 h0)).trans_lt h
    push_cast at this
    have := (zpow_lt_zpow_iff_right₀ (by norm_num : (1 : ℚ) < 2)).1 this
    linarith

theorem le_of_expo {q : ℚ} (h : -1074 < expo q) : 2 ^ (expo q + 52) ≤ |q| := by
  unfold expo at h ⊢
  split_ifs at h ⊢ with h0
  · exact absurd h (lt_irrefl _)
  · have hm : max (Int.log 2 |q| - 52) (-1074) = Int.log 2 |q| - 52 := by
      rcases max_choice (Int.log 2 |q| - 52) (-1074) with e | e
      · exact e
      · rw [e] at h; exact absurd h (lt_irrefl _)
    rw [hm, sub_add_cancel]
    have := Int.zpow_log_le_self (b := 2) (by norm_num) (abs_pos.2 h0)
    push_cast at this
    exact this

theorem expo_mono {p q : ℚ} (h : |p| ≤ |q|) : expo p ≤ expo q :=
  expo_le (expo_min q) (h.trans_lt (lt_expo q))

theorem expo_neg (q : ℚ) : expo (-q) = expo q := by
  unfold expo
  rw [abs_neg]
  simp only [neg_eq_zero]

/-! ### Grids -/

theorem OnGrid.add {e : ℤ} {p q : ℚ} (hp : OnGrid e p) (hq : OnGrid e q) : OnGrid e (p + q) := by
  obtain ⟨m, rfl⟩ := hp
  obtain ⟨n, rfl⟩ := hq
  exact ⟨m + n, by push_cast; ring⟩

theorem OnGrid.neg {e : ℤ} {p : ℚ} (hp : OnGrid e p) : OnGrid e (-p) := by
  obtain ⟨m, rfl⟩ := hp
  exact ⟨-m, by push_cast; ring⟩

theorem OnGrid.sub {e : ℤ} {p q : ℚ} (hp : OnGrid e p) (hq : OnGrid e q) : OnGrid e (p - q) := by
  rw [sub_eq_add_neg]; exact hp.add hq.neg

theorem OnGrid.mono {e e' : ℤ} {p : ℚ} (hp : OnGrid e p) (h : e' ≤ e) : OnGrid e' p := by
  obtain ⟨m, rfl⟩ := hp
  obtain ⟨k, hk⟩ := Int.eq_ofNat_of_zero_le (sub_nonneg.2 h)
  refine ⟨m * 2 ^ k, ?_⟩
  rw [show e = (k : ℤ) + e' by linarith, two_zpow_add]
  push_cast
  rw [zpow_natCast]
  ring

theorem OnGrid.pow {e e' : ℤ} (h : e ≤ e') : OnGrid e ((2 : ℚ) ^ e') :=
  OnGrid.mono ⟨1, by simp⟩ h

theorem rndQ_grid (q : ℚ) : OnGrid (expo q) (rndQ q) := ⟨_, rfl⟩

/-- A number on the grid of its own exponent is not changed. -/
theorem rndQ_of_grid {q : ℚ} (h : OnGrid (expo q) q) : rndQ q = q := by
  obtain ⟨m, hm⟩ := h
  have h2 := (two_zpow_pos (expo q)).ne'
  have : q / 2 ^ expo q = m := by
    rw [div_eq_iff h2]; exact hm
  rw [rndQ, this, rteQ_int, ← hm]

theorem OnGrid.rnd {e : ℤ} {q : ℚ} (h : OnGrid e q) (he : expo q ≤ e) : rndQ q = q := rndQ_of_grid (h.mono he)

theorem OnGrid.rep {e : ℤ} {q : ℚ} (h : OnGrid e q) (he : -1074 ≤ e) (hq : |q| ≤ 2 ^ (e + 53)) : Rep q := by
  obtain ⟨m, rfl⟩ := h
  refine ⟨m, e, rfl, ?_, he⟩
  rw [abs_mul, abs_of_pos (two_zpow_pos e), add_comm, two_zpow_add] at hq
  have := le_of_mul_le_mul_right hq (two_zpow_pos e)
  exact_mod_cast this

theorem Rep.grid {q : ℚ} (h : Rep q) : OnGrid (expo q) q := by
  obtain ⟨m, e, hq, hm, he⟩ := h
  rcases hm.lt_or_eq with h | h
  · refine OnGrid.mono ⟨m, hq⟩ (expo_le he ?_)
    rw [hq, abs_mul, abs_of_pos (two_zpow_pos e), add_comm, two_zpow_add]
    refine mul_lt_mul_of_pos_right ?_ (two_zpow_pos e)
    exact_mod_cast h
  · have hg : OnGrid (e + 1) q := by
      rcases (abs_eq (by positivity)).1 h with h | h
      · refine ⟨2 ^ 52, ?_⟩
        rw [hq, h, two_zpow_add]; push_cast; norm_num; ring
      · refine ⟨-2 ^ 52, ?_⟩
        rw [hq, h, two_zpow_add]; push_cast; norm_num; ring
    refine hg.mono (expo_le (by linarith) ?_)
    rw [hq, abs_mul, abs_of_pos (two_zpow_pos e), ← Int.cast_abs, h, add_assoc, two_zpow_add, mul_comm]
    refine mul_lt_mul_of_pos_left ?_ (two_zpow_pos e)
    norm_num

theorem Rep.rnd {q : ℚ} (h : Rep q) : rndQ q = q := rndQ_of_grid h.grid

theorem Rep.neg {q : ℚ} (h : Rep q) : Rep (-q) := by
  obtain ⟨m, e, hq, hm, he⟩ := h
  exact ⟨-m, e, by rw [hq]; push_cast; ring, by rwa [abs_neg], he⟩

/-! ### Errors -/

theorem rndQ_err (q : ℚ) : |rndQ q - q| ≤ 2 ^ expo q / 2 := by
  have h2 := two_zpow_pos (expo q)
  have h := rteQ_err (q / 2 ^ expo q)
  have e : rndQ q - q = (rteQ (q / 2 ^ expo q) - q / 2 ^ expo q) * 2 ^ expo q := by
    rw [rndQ]; field_simp
  rw [e, abs_mul, abs_of_pos h2]
  nlinarith

theorem rndQ_nearest_grid (q p : ℚ) (hp : OnGrid (expo q) p) : |rndQ q - q| ≤ |p - q| := by
  obtain ⟨n, rfl⟩ := hp
  have h2 := two_zpow_pos (expo q)
  have h := rteQ_nearest (q / 2 ^ expo q) n
  have e : rndQ q - q = (rteQ (q / 2 ^ expo q) - q / 2 ^ expo q) * 2 ^ expo q := by
    rw [rndQ]; field_simp
  have e' : (n : ℚ) * 2 ^ expo q - q = (n - q / 2 ^ expo q) * 2 ^ expo q := by field_simp
  rw [e, e', abs_mul, abs_mul, abs_of_pos h2]
  exact mul_le_mul_of_nonneg_right h h2.le

/-- No representable number is nearer. -/
theorem rndQ_nearest (q p : ℚ) (hp : Rep p) : |rndQ q - q| ≤ |p - q| := by
  rcases le_or_gt (expo q) (expo p) with h | h
  · exact rndQ_nearest_grid q p (hp.grid.mono h)
  · have hq := le_of_expo (lt_of_le_of_lt (expo_min p) h)
    have hp' : |p| < 2 ^ (expo q + 52) := (lt_expo p).trans_le (two_zpow_le (by linarith))
    have hg : OnGrid (expo q) ((2 : ℚ) ^ (expo q + 52)) := OnGrid.pow (by linarith)
    obtain ⟨p1, p2⟩ := abs_lt.1 hp'
    rcases le_or_gt 0 q with hs | hs
    · rw [abs_of_nonneg hs] at hq
      refine (rndQ_nearest_grid q _ hg).trans ?_
      rw [abs_of_nonpos (by linarith), abs_of_nonpos (by linarith)]
      linarith
    · rw [abs_of_neg hs] at hq
      refine (rndQ_nearest_grid q _ hg.neg).trans ?_
      rw [abs_of_nonneg (by linarith), abs_of_nonneg (by linarith)]
      linarith

theorem rndQ_abs_le (q : ℚ) : |rndQ q| ≤ 2 ^ (expo q + 53) := by
  have hg : OnGrid (expo q) ((2 : ℚ) ^ (expo q + 53)) := OnGrid.pow (by linarith)
  have hq := lt_expo q
  have h1 := rndQ_err q
  by_contra hc
  push Not at hc
  -- one grid step beyond
  obtain ⟨m, hm⟩ := rndQ_grid q
  have h2 := two_zpow_pos (expo q)
  have h3 : (2 : ℚ) ^ (expo q + 53) = 2 ^ 53 * 2 ^ expo q := by rw [add_comm, two_zpow_add]; norm_num
  rw [hm, abs_mul, abs_of_pos h2, h3] at hc
  have h4 := lt_of_mul_lt_mul_right hc h2.le
  have h5 : (2 ^ 53 : ℤ) + 1 ≤ |m| := by
    have : (2 ^ 53 : ℤ) < |m| := by exact_mod_cast h4
    linarith
  have h6 : ((2 : ℚ) ^ 53 + 1) * 2 ^ expo q ≤ |rndQ q| := by
    rw [hm, abs_mul, abs_of_pos h2]
    refine mul_le_mul_of_nonneg_right ?_ h2.le
    exact_mod_cast h5
  have h7 : |rndQ q| ≤ |rndQ q - q| + |q| := by
    calc |rndQ q| = |(rndQ q - q) + q| := by ring_nf
      _ ≤ _ := abs_add_le _ _
  rw [h3] at hq
  linarith

theorem rndQ_rep (q : ℚ) : Rep (rndQ q) := (rndQ_grid q).rep (expo_min q) (rndQ_abs_le q)

theorem rndQ_idem (q : ℚ) : rndQ (rndQ q) = rndQ q := (rndQ_rep q).rnd

theorem rndQ_mono {p q : ℚ} (h : p ≤ q) : rndQ p ≤ rndQ q := by
  by_contra hc
  push Not at hc
  have h1 := rndQ_nearest p _ (rndQ_rep q)
  have h2 := rndQ_nearest q _ (rndQ_rep p)
  have a1 : rndQ q + rndQ p ≤ 2 * p := by
    by_contra hn
    push Not at hn
    have := le_abs_self (rndQ p - p)
    have h3 : |rndQ q - p| < rndQ p - p := abs_lt.2 ⟨by linarith, by linarith⟩
    linarith
  have a2 : 2 * q ≤ rndQ q + rndQ p := by
    by_contra hn
    push Not at hn
    have := neg_abs_le (rndQ q - q)
    have h3 : |rndQ p - q| < q - rndQ q := abs_lt.2 ⟨by linarith, by linarith⟩
    linarith
  have : p = q := by linarith
  rw [this] at hc
  exact lt_irrefl _ hc

theorem rndQ_neg (q : ℚ) : rndQ (-q) = -rndQ q := by
  rw [rndQ, rndQ, expo_neg, neg_div, rteQ_neg]
  push_cast
  ring

theorem rndQ_zero : rndQ 0 = 0 := Rep.rnd ⟨0, 0, by simp, by simp, by norm_num⟩

theorem rndQ_le {q p : ℚ} (hp : Rep p) (h : q ≤ p) : rndQ q ≤ p := by
  rw [← hp.rnd]; exact rndQ_mono h

theorem le_rndQ {q p : ℚ} (hp : Rep p) (h : p ≤ q) : p ≤ rndQ q := by
  rw [← hp.rnd]; exact rndQ_mono h

theorem rndQ_nonneg {q : ℚ} (h : 0 ≤ q) : 0 ≤ rndQ q := by
  rw [← rndQ_zero]; exact rndQ_mono h

theorem abs_rndQ (q : ℚ) : |rndQ q| = rndQ |q| := by
  rcases le_or_gt 0 q with h | h
  · rw [abs_of_nonneg h, abs_of_nonneg (rndQ_nonneg h)]
  · rw [abs_of_neg h, rndQ_neg, abs_of_nonpos]
    have := rndQ_nonneg (neg_nonneg.2 h.le)
    rw [rndQ_neg] at this
    linarith

end Geo
