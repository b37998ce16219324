import Verif.Lemmas.F64
import Verif.Model.Math

/-! Exactness of the two-sum algorithm on representable numbers. -/

namespace Geo

theorem le_expo {q : ℚ} {e : ℤ} (h : 2 ^ (e + 52) ≤ |q|) : e ≤ expo q := by
  by_contra hc
  have h1 := lt_expo q
  have h2 : (2 : ℚ) ^ (expo q + 53) ≤ 2 ^ (e + 52) := two_zpow_le (by linarith)
  linarith

theorem Rep.pow {e : ℤ} (h : -1074 ≤ e) : Rep (2 ^ e) := ⟨1, e, by simp, by norm_num, h⟩

theorem two_zpow_succ (e : ℤ) : (2 : ℚ) ^ (e + 1) = 2 * 2 ^ e := by rw [two_zpow_add]; norm_num; ring

/-- Largest number of an exponent. -/
theorem Rep.abs_le {q : ℚ} (h : Rep q) {e : ℤ} (he : expo q ≤ e) : |q| ≤ 2 ^ (e + 53) - 2 ^ e := by
  obtain ⟨m, hm⟩ := h.grid
  have h2 := two_zpow_pos (expo q)
  have h1 := lt_expo q
  have h53 : ∀ e : ℤ, (2 : ℚ) ^ (e + 53) = 2 ^ 53 * 2 ^ e := fun e => by
    rw [add_comm, two_zpow_add]; norm_num
  have h4 : |m| ≤ 2 ^ 53 - 1 := by
    have : |(m : ℚ)| < 2 ^ 53 := by
      rw [h53] at h1
      nth_rw 1 [hm] at h1
      rw [abs_mul, abs_of_pos h2] at h1
      exact lt_of_mul_lt_mul_right h1 h2.le
    have : |m| < 2 ^ 53 := by exact_mod_cast this
    linarith
  have h5 : |(m : ℚ)| ≤ 2 ^ 53 - 1 := by exact_mod_cast h4
  have h6 := two_zpow_le he
  nth_rw 1 [hm]
  rw [abs_mul, abs_of_pos h2, h53]
  nlinarith

theorem sum_grid {a b : ℚ} (ha : Rep a) (hb : Rep b) (h : expo b ≤ expo a) : OnGrid (expo b) (a + b) :=
  (ha.grid.mono h).add hb.grid

/-- The rounding error of a sum is at most each of the terms. -/
theorem sum_err_left {a : ℚ} (b : ℚ) (ha : Rep a) : |rndQ (a + b) - (a + b)| ≤ |b| := by
  refine (rndQ_nearest (a + b) a ha).trans (le_of_eq ?_)
  rw [← abs_neg]; congr 1; ring

/-- The rounding error of a sum is representable. -/
theorem sum_err_rep' {a b : ℚ} (ha : Rep a) (hb : Rep b) (h : expo b ≤ expo a) : Rep (a + b - rndQ (a + b)) := by
  rcases le_or_gt (expo (a + b)) (expo b) with h1 | h1
  · rw [(sum_grid ha hb h).rnd h1, sub_self]
    exact isDouble_zero.rep
  · refine ((sum_grid ha hb h).sub ((rndQ_grid _).mono h1.le)).rep (expo_min b) ?_
    rw [abs_sub_comm]
    exact (sum_err_left b ha).trans (lt_expo b).le

theorem sum_err_rep {a b : ℚ} (ha : Rep a) (hb : Rep b) : Rep (a + b - rndQ (a + b)) := by
  rcases le_total (expo b) (expo a) with h | h
  · exact sum_err_rep' ha hb h
  · rw [add_comm]; exact sum_err_rep' hb ha h

theorem expo_sum {a b : ℚ} (h : expo b ≤ expo a) : expo (a + b) ≤ expo a + 1 := by
  refine expo_le (by linarith [expo_min a]) ?_
  have h1 := lt_expo a
  have h2 := (lt_expo b).trans_le (two_zpow_le (add_le_add_left h 53))
  have h3 := abs_add_le a b
  rw [show expo a + 1 + 53 = (expo a + 53) + 1 by ring, two_zpow_succ]
  linarith

/-- The difference between a rounded sum and the term of larger exponent is representable. -/
theorem fast_sum {p q : ℚ} (hp : Rep p) (hq : Rep q) (h : expo q ≤ expo p) : Rep (rndQ (p + q) - p) := by
  have herr := rndQ_err (p + q)
  have htri : |rndQ (p + q) - p| ≤ |rndQ (p + q) - (p + q)| + |q| := by
    calc |rndQ (p + q) - p| = |(rndQ (p + q) - (p + q)) + q| := by ring_nf
      _ ≤ _ := abs_add_le _ _
  rcases le_or_gt (expo p) (expo (p + q)) with h1 | h1
  · refine (((rndQ_grid _).mono h1).sub hp.grid).rep (expo_min p) ?_
    have h2 := two_zpow_le (expo_sum h)
    rw [two_zpow_succ] at h2
    have h3 := hq.abs_le h
    linarith
  · rcases le_or_gt (expo (p + q)) (expo q) with h2 | h2
    · rw [(sum_grid hp hq h).rnd h2]
      rwa [add_sub_cancel_left]
    · refine ((rndQ_grid _).sub (hp.grid.mono h1.le)).rep (expo_min _) ?_
      have h3 := hq.abs_le h2.le
      have := two_zpow_pos (expo (p + q))
      linarith

/-- The two-sum algorithm is exact, and its intermediate results are not much larger than the operands. -/
theorem two_sum_exact {a b x z w u v y M : ℚ} (ha : Rep a) (hb : Rep b) (hx : x = rndQ (a + b)) (hz : z = rndQ (x - a))
    (hw : w = rndQ (x - z)) (hu : u = rndQ (a - w)) (hv : v = rndQ (b - z)) (hy : y = rndQ (u + v))
    (hM : |a| ≤ M) (hM' : |b| ≤ M) :
    x + y = a + b ∧ |x| ≤ 3 * M ∧ |z| ≤ 3 * M ∧ |w| ≤ 3 * M ∧ |u| ≤ 3 * M ∧ |v| ≤ 3 * M ∧ |y| ≤ 3 * M := by
  have hM0 : 0 ≤ M := (abs_nonneg a).trans hM
  have herr : Rep (a + b - x) := hx ▸ sum_err_rep ha hb
  have hea : |x - (a + b)| ≤ |b| := hx ▸ sum_err_left b ha
  have heb : |x - (a + b)| ≤ |a| := by
    have := sum_err_left a hb
    rwa [add_comm b a, ← hx] at this
  obtain ⟨a1, a2⟩ := abs_le.1 hM
  obtain ⟨b1, b2⟩ := abs_le.1 hM'
  obtain ⟨e1, e2⟩ := abs_le.1 (hea.trans hM')
  have hxM : |x| ≤ 3 * M := abs_le.2 ⟨by linarith, by linarith⟩
  rcases le_or_gt (expo b) (expo a) with h | h
  · -- the difference `x - a` is exact
    have z1 : z = x - a := by rw [hz]; exact (hx ▸ fast_sum ha hb h : Rep (x - a)).rnd
    have w1 : w = a := by rw [hw, z1, sub_sub_cancel]; exact ha.rnd
    have u1 : u = 0 := by rw [hu, w1, sub_self]; exact rndQ_zero
    have v1 : v = a + b - x := by
      rw [hv, z1, show b - (x - a) = a + b - x by ring]; exact herr.rnd
    have y1 : y = a + b - x := by rw [hy, u1, zero_add, v1]; exact herr.rnd
    refine ⟨by rw [y1]; ring, hxM, ?_, ?_, ?_, ?_, ?_⟩
    · rw [z1, abs_le]; constructor <;> linarith
    · rw [w1]; linarith
    · rw [u1, abs_zero]; linarith
    · rw [v1, abs_le]; constructor <;> linarith
    · rw [y1, abs_le]; constructor <;> linarith
  · by_cases hex : x = a + b
    · have z1 : z = b := by rw [hz, hex, add_sub_cancel_left]; exact hb.rnd
      have w1 : w = a := by rw [hw, hex, z1, add_sub_cancel_right]; exact ha.rnd
      have u1 : u = 0 := by rw [hu, w1, sub_self]; exact rndQ_zero
      have v1 : v = 0 := by rw [hv, z1, sub_self]; exact rndQ_zero
      have y1 : y = 0 := by rw [hy, u1, v1, add_zero]; exact rndQ_zero
      refine ⟨by rw [y1, hex, add_zero], hxM, ?_, ?_, ?_, ?_, ?_⟩
      · rw [z1]; linarith
      · rw [w1]; linarith
      · rw [u1, abs_zero]; linarith
      · rw [v1, abs_zero]; linarith
      · rw [y1, abs_zero]; linarith
    · have hxr : Rep x := hx ▸ rndQ_rep _
      -- the sum has a larger exponent than `a`
      have hs : expo a < expo (a + b) := by
        by_contra hc
        refine hex ?_
        rw [hx]
        have := sum_grid hb ha h.le
        rw [add_comm] at this
        exact this.rnd (not_lt.1 hc)
      have hxe : expo a ≤ expo x := by
        refine hs.le.trans (le_expo ?_)
        rw [hx, abs_rndQ]
        exact le_rndQ (Rep.pow (by linarith [expo_min (a + b)])) (le_of_expo (lt_of_le_of_lt (expo_min a) hs))
      have hna : expo (-a) ≤ expo x := by rwa [expo_neg]
      have hf := fast_sum hxr ha.neg hna
      have hf' := sum_err_rep hxr ha.neg
      rw [← sub_eq_add_neg, ← hz] at hf hf'
      have w1 : w = x - z := by
        rw [hw]
        have := hf.neg
        rw [neg_sub] at this
        exact this.rnd
      have u1 : u = a - w := by
        rw [hu, w1]
        have := hf'.neg
        rw [show -(x - a - z) = a - (x - z) by ring] at this
        exact this.rnd
      -- `z` is close to `b`
      have hzb : |z - (x - a)| ≤ |b - (x - a)| := hz ▸ rndQ_nearest (x - a) b hb
      have hzb' : |b - (x - a)| = |x - (a + b)| := by rw [← abs_neg]; congr 1; ring
      rw [hzb'] at hzb
      have hbd : |x - (a + b)| ≤ 2 ^ expo b := by
        have h1 := rndQ_err (a + b)
        rw [← hx] at h1
        have h2 := two_zpow_le (expo_sum h.le)
        rw [two_zpow_succ, add_comm b a] at h2
        linarith
      have hzb2 : |b - z| ≤ 2 * 2 ^ expo b := by
        calc |b - z| = |(b - (x - a)) - (z - (x - a))| := by ring_nf
          _ ≤ |b - (x - a)| + |z - (x - a)| := abs_sub _ _
          _ ≤ _ := by rw [hzb']; linarith
      have hbm : -1074 < expo b := lt_of_le_of_lt (expo_min a) h
      have hbl := le_of_expo hbm
      have hze : expo b - 1 ≤ expo (x - a) := by
        refine le_expo ?_
        have h1 : |b| ≤ |x - a| + |b - (x - a)| := by
          calc |b| = |(x - a) + (b - (x - a))| := by ring_nf
            _ ≤ _ := abs_add_le _ _
        rw [hzb'] at h1
        have h2 : (2 : ℚ) ^ (expo b + 52) = 2 * 2 ^ (expo b - 1 + 52) := by
          rw [← two_zpow_succ]; congr 1; ring
        have h3 : (2 : ℚ) ^ expo b ≤ 2 ^ (expo b - 1 + 52) := two_zpow_le (by linarith)
        linarith
      have hzg : OnGrid (expo b - 1) z := hz ▸ (rndQ_grid (x - a)).mono hze
      have hvr : Rep (b - z) := by
        refine ((hb.grid.mono (by linarith)).sub hzg).rep (by linarith) ?_
        rw [← two_zpow_succ] at hzb2
        exact hzb2.trans (two_zpow_le (by linarith))
      have v1 : v = b - z := by rw [hv]; exact hvr.rnd
      have y1 : y = a + b - x := by
        rw [hy, u1, v1, w1, show a - (x - z) + (b - z) = a + b - x by ring]; exact herr.rnd
      obtain ⟨c1, c2⟩ := abs_le.1 (hzb.trans (hea.trans hM'))
      refine ⟨by rw [y1]; ring, hxM, ?_, ?_, ?_, ?_, ?_⟩
      · rw [abs_le]; constructor <;> linarith
      · rw [w1, abs_le]; constructor <;> linarith
      · rw [u1, w1, abs_le]; constructor <;> linarith
      · rw [v1, abs_le]; constructor <;> linarith
      · rw [y1, abs_le]; constructor <;> linarith

end Geo
