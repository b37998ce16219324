import Verif.Lemmas.TwoSum

/-! C51: `fp::sum` in IEEE arithmetic. -/

namespace Geo

/-- C51.  If the second component is finite then neither it nor any intermediate result has overflowed, the first
component is a double nearest to the exact sum, and the two components add up to the exact sum. -/
theorem C51_two_sum {L : Libm} (a b : F64 L) (h : (twoSum a b).2.isFinite) :
    (twoSum a b).1 = a + b ∧ (twoSum a b).1.isFinite ∧
    (∀ p : F64 L, |(twoSum a b).1.toQ - (a.toQ + b.toQ)| ≤ |p.toQ - (a.toQ + b.toQ)|) ∧
    (twoSum a b).1.toQ + (twoSum a b).2.toQ = a.toQ + b.toQ := by
  obtain ⟨hu, hv, hy⟩ := B64.add_finite h
  obtain ⟨-, hw, hu'⟩ := B64.sub_finite hu
  obtain ⟨-, -, hv'⟩ := B64.sub_finite hv
  obtain ⟨hx, hz, hw'⟩ := B64.sub_finite hw
  obtain ⟨-, -, hz'⟩ := B64.sub_finite hz
  obtain ⟨-, -, hx'⟩ := B64.add_finite hx
  refine ⟨rfl, hx, fun p => ?_, ?_⟩
  · have := rndQ_nearest (a.toQ + b.toQ) p.toQ (B64.toQ_rep p)
    rw [show (twoSum a b).1.toQ = rndQ (a.toQ + b.toQ) from hx']
    exact this
  · exact (two_sum_exact (B64.toQ_rep a) (B64.toQ_rep b) hx' hz' hw' hu' hv' hy
      (le_max_left _ _) (le_max_right _ _)).1

/-- C51.  The hypothesis holds for all operands up to `2 ^ 1022`. -/
theorem C51_no_overflow {L : Libm} (a b : F64 L) (ha : a.isFinite) (hb : b.isFinite)
    (ha' : |a.toQ| ≤ 2 ^ 1022) (hb' : |b.toQ| ≤ 2 ^ 1022) : (twoSum a b).2.isFinite := by
  have H := two_sum_exact (B64.toQ_rep a) (B64.toQ_rep b) rfl rfl rfl rfl rfl rfl ha' hb'
  obtain ⟨-, bx, bz, bw, bu, bv, bby⟩ := H
  have big : ∀ q : ℚ, |q| ≤ 3 * 2 ^ 1022 → |q| < huge := by
    intro q hq
    refine hq.trans_lt ?_
    rw [huge, show (1024 : ℤ) = (1024 : ℕ) by norm_num, zpow_natCast,
      show (2 : ℚ) ^ 1024 = 4 * 2 ^ 1022 by rw [show 1024 = 2 + 1022 by norm_num, pow_add]; norm_num]
    have : (0 : ℚ) < 2 ^ 1022 := by positivity
    exact mul_lt_mul_of_pos_right (by norm_num) this
  have hx := B64.add_finite_of ha hb (big _ bx)
  obtain ⟨-, -, hx'⟩ := B64.add_finite hx
  have hz : (B64.sub (B64.add a b) a).isFinite = true := B64.sub_finite_of hx ha (big _ (by rw [hx']; exact bz))
  obtain ⟨-, -, hz'⟩ := B64.sub_finite hz
  have hw : (B64.sub (B64.add a b) (B64.sub (B64.add a b) a)).isFinite = true :=
    B64.sub_finite_of hx hz (big _ (by rw [hz', hx']; exact bw))
  obtain ⟨-, -, hw'⟩ := B64.sub_finite hw
  have hu : (B64.sub a (B64.sub (B64.add a b) (B64.sub (B64.add a b) a))).isFinite = true :=
    B64.sub_finite_of ha hw (big _ (by rw [hw', hz', hx']; exact bu))
  obtain ⟨-, -, hu'⟩ := B64.sub_finite hu
  have hv : (B64.sub b (B64.sub (B64.add a b) a)).isFinite = true :=
    B64.sub_finite_of hb hz (big _ (by rw [hz', hx']; exact bv))
  obtain ⟨-, -, hv'⟩ := B64.sub_finite hv
  have hy : (B64.add (B64.sub a (B64.sub (B64.add a b) (B64.sub (B64.add a b) a)))
      (B64.sub b (B64.sub (B64.add a b) a))).isFinite = true :=
    B64.add_finite_of hu hv (big _ (by rw [hu', hv', hw', hz', hx']; exact bby))
  exact hy

/-- `0.1 + 0.2`: the sum is inexact and the second component is the rounding error `-2 ^ -55`. -/
example (L : Libm) : (twoSum (Flt.lit 0.1 : F64 L) (Flt.lit 0.2)).2.isFinite ∧
    (twoSum (Flt.lit 0.1 : F64 L) (Flt.lit 0.2)).2.toQ = -1 / 2 ^ 55 := by
  constructor
  · show (B64.add (B64.sub (B64.lit 0.1) (B64.sub (B64.add (B64.lit 0.1) (B64.lit 0.2))
      (B64.sub (B64.add (B64.lit 0.1) (B64.lit 0.2)) (B64.lit 0.1))))
      (B64.sub (B64.lit 0.2) (B64.sub (B64.add (B64.lit 0.1) (B64.lit 0.2)) (B64.lit 0.1)))).isFinite = true
    decide +kernel
  · show (B64.add (B64.sub (B64.lit 0.1) (B64.sub (B64.add (B64.lit 0.1) (B64.lit 0.2))
      (B64.sub (B64.add (B64.lit 0.1) (B64.lit 0.2)) (B64.lit 0.1))))
      (B64.sub (B64.lit 0.2) (B64.sub (B64.add (B64.lit 0.1) (B64.lit 0.2)) (B64.lit 0.1)))).toQ = -1 / 2 ^ 55
    decide +kernel

end Geo
