import Verif.Lemmas.NearExists
import Verif.Lemmas.TransverseOverflow

/-! There is a mathematical library that is accurate and follows IEEE 754 on special values. -/

namespace Geo
open Spec

/-- Forces a finite double into `[lo, hi]`. -/
def clampB (lo hi x : B64) : B64 := if x.toQ < lo.toQ then lo else if hi.toQ < x.toQ then hi else x

theorem clampB_range {lo hi x : B64} (h1 : lo.isFinite = true) (h2 : hi.isFinite = true) (hx : x.isFinite = true) (h : lo.toQ ≤ hi.toQ) :
    (clampB lo hi x).isFinite = true ∧ lo.toQ ≤ (clampB lo hi x).toQ ∧ (clampB lo hi x).toQ ≤ hi.toQ := by
  unfold clampB
  split_ifs with a b
  · exact ⟨h1, le_rfl, h⟩
  · exact ⟨h2, h, le_rfl⟩
  · exact ⟨hx, not_lt.1 a, not_lt.1 b⟩

theorem clampB_near {L : Libm} {lo hi x : B64} {r ε δ : ℝ} (h1 : lo.isFinite = true) (h2 : hi.isFinite = true) (hx : Near (L := L) x r ε)
    (ha : lo.toQ - δ ≤ r) (hb : r ≤ hi.toQ + δ) (hδ : δ ≤ ε) : Near (L := L) (clampB lo hi x) r ε := by
  have k := abs_le.1 hx.2
  unfold clampB
  split_ifs with a b
  · refine ⟨h1, ?_⟩
    have a' : ((B64.toQ x : ℚ) : ℝ) < ((B64.toQ lo : ℚ) : ℝ) := by exact_mod_cast a
    change |((B64.toQ lo : ℚ) : ℝ) - r| ≤ ε
    change -ε ≤ ((B64.toQ x : ℚ) : ℝ) - r ∧ ((B64.toQ x : ℚ) : ℝ) - r ≤ ε at k
    rw [abs_le]
    constructor <;> linarith
  · refine ⟨h2, ?_⟩
    have b' : ((B64.toQ hi : ℚ) : ℝ) < ((B64.toQ x : ℚ) : ℝ) := by exact_mod_cast b
    change |((B64.toQ hi : ℚ) : ℝ) - r| ≤ ε
    change -ε ≤ ((B64.toQ x : ℚ) : ℝ) - r ∧ ((B64.toQ x : ℚ) : ℝ) - r ≤ ε at k
    rw [abs_le]
    constructor <;> linarith
  · exact hx

/-- The library `roundLibm`, with the special values of IEEE 754 and values forced into the range of the function; `sinh` and `cosh`
are only accurate up to 32, where `AccurateProjection` demands it. -/
noncomputable def specialLibm : Libm :=
  { roundLibm with
    sin := fun x => if x.isFinite then clampB (B64.lit (-1)) (B64.lit 1) (roundReal (Real.sin x.toQ)) else .nan
    cos := fun x => if x.isFinite then clampB (B64.lit (-1)) (B64.lit 1) (roundReal (Real.cos x.toQ)) else .nan
    tan := fun x => if x.isFinite then roundReal (Real.tan x.toQ) else .nan
    asin := fun x => if x.isFinite ∧ |x.toQ| ≤ 1 then clampB (B64.neg B64.pi_2) B64.pi_2 (roundReal (Real.arcsin x.toQ)) else .nan
    asinh := fun x => if x.isFinite then roundReal (Real.arsinh x.toQ) else .nan
    sinh := fun x => if |x.toQ| ≤ 32 then roundReal (Real.sinh x.toQ) else if |x.toQ| ≤ 709 then B64.lit 1 else x
    cosh := fun x => if x = .nan then .nan else if x.isFinite ∧ |x.toQ| ≤ 709 then
        if |x.toQ| ≤ 32 then clampB (B64.lit 1) (B64.lit (2 ^ 1023)) (roundReal (Real.cosh x.toQ)) else B64.lit 1
      else .inf false }

theorem clamp_consts : ((B64.lit (-1)).isFinite = true ∧ (B64.lit (-1)).toQ = -1) ∧ ((B64.lit 1).isFinite = true ∧ (B64.lit 1).toQ = 1) ∧
    ((B64.lit (2 ^ 1023)).isFinite = true ∧ (B64.lit (2 ^ 1023)).toQ = 2 ^ 1023) ∧ (B64.neg B64.pi_2).isFinite = true := by decide +kernel

theorem sinh_round {q : ℚ} (h : |q| ≤ 32) : |Real.sinh q| ≤ 1e60 :=
  (abs_sinh_le_cosh _).trans ((cosh_32 (by have := cast_abs_le h; push_cast at this; exact this)).trans (by norm_num))

theorem cosh_round {q : ℚ} (h : |q| ≤ 32) : |Real.cosh q| ≤ 1e60 :=
  (abs_of_pos (Real.cosh_pos _)).le.trans ((cosh_32 (by have := cast_abs_le h; push_cast at this; exact this)).trans (by norm_num))

theorem arcsin_round (x : ℝ) : -Real.pi / 2 ≤ Real.arcsin x ∧ Real.arcsin x ≤ Real.pi / 2 :=
  ⟨by rw [neg_div]; exact Real.neg_pi_div_two_le_arcsin x, Real.arcsin_le_pi_div_two x⟩

theorem finite_999 {r : ℝ} (h : |r| ≤ 1e60) : (roundReal r).isFinite = true :=
  (near_roundReal_51 (L := roundLibm) h).1

theorem special_cosh {x : B64} (hx : x.isFinite = true) (h : |x.toQ| ≤ 709) :
    (specialLibm.cosh x).isFinite = true ∧ 1 ≤ (specialLibm.cosh x).toQ ∧ (specialLibm.cosh x).toQ ≤ 2 ^ 1023 := by
  obtain ⟨_, ⟨b1, b2⟩, ⟨c1, c2⟩, _⟩ := clamp_consts
  have big : (1 : ℚ) ≤ 2 ^ 1023 := one_le_pow₀ (by norm_num)
  have hn : x ≠ .nan := by rintro rfl; cases hx
  have e : specialLibm.cosh x = if |x.toQ| ≤ 32 then clampB (B64.lit 1) (B64.lit (2 ^ 1023)) (roundReal (Real.cosh x.toQ)) else B64.lit 1 := by
    show (if x = .nan then _ else _) = _
    rw [if_neg hn, if_pos ⟨hx, h⟩]
  rw [e]
  split_ifs with k
  · have := clampB_range b1 c1 (finite_999 (cosh_round k)) (by rw [b2, c2]; exact big)
    rw [b2, c2] at this
    exact this
  · exact ⟨b1, b2.ge, by rw [b2]; exact big⟩

theorem special_cosh_eq {x : B64} (hx : x.isFinite = true) (h : |x.toQ| ≤ 32) :
    specialLibm.cosh x = clampB (B64.lit 1) (B64.lit (2 ^ 1023)) (roundReal (Real.cosh x.toQ)) := by
  show (if x = .nan then _ else _) = _
  rw [if_neg (by rintro rfl; cases hx), if_pos ⟨hx, h.trans (by norm_num)⟩, if_pos h]

theorem specialLibm_ieee : IeeeSpecial specialLibm := by
  obtain ⟨⟨a1, a2⟩, ⟨b1, b2⟩, ⟨c1, c2⟩, d1⟩ := clamp_consts
  have big : (1 : ℚ) ≤ 2 ^ 1023 := one_le_pow₀ (by norm_num)
  have ez : (2 : ℚ) ^ (1023 : ℤ) = 2 ^ 1023 := zpow_ofNat 2 1023
  have ez2 : (1 : ℚ) ≤ 2 ^ (1023 : ℤ) := ez ▸ big
  constructor
  · intro x hx
    show (if x.isFinite = true then _ else _) = _
    rw [hx]; rfl
  · rfl
  · rfl
  · rfl
  · intro x hn hx
    show (if x = .nan then _ else _) = _
    rw [if_neg hn, if_neg]
    rintro ⟨f, b⟩
    have := hx f
    linarith
  · intro x hn
    by_cases k : x.isFinite = true ∧ |x.toQ| ≤ 709
    · exact Or.inr ⟨(special_cosh k.1 k.2).1, (special_cosh k.1 k.2).2.1⟩
    · left
      show (if x = .nan then _ else _) = _
      rw [if_neg hn, if_neg k]
  · intro x hx h
    obtain ⟨f, l, u⟩ := special_cosh hx h
    exact ⟨f, by rw [ez, abs_of_nonneg (le_trans zero_le_one l)]; exact u⟩
  · intro x hx h
    show (if |x.toQ| ≤ 32 then _ else _ : B64).isFinite = true ∧ |(if |x.toQ| ≤ 32 then _ else _ : B64).toQ| ≤ _
    by_cases k : |x.toQ| ≤ 32
    · rw [if_pos k]
      have n := near_roundReal_51 (L := specialLibm) (sinh_round k)
      refine ⟨n.1, ?_⟩
      have g := n.abs_le_rat (q := 2 ^ 202) (by
        have := sinh_round k
        have t2 : (2⁻¹ : ℝ) ^ 1074 ≤ 1 := pow_le_one₀ (by norm_num) (by norm_num)
        generalize (2⁻¹ : ℝ) ^ 1074 = w at *
        generalize |Real.sinh x.toQ| = y at *
        push_cast
        norm_num at *
        linarith)
      refine le_trans g ?_
      rw [ez]
      exact pow_le_pow_right₀ (by norm_num) (by norm_num)
    · rw [if_neg k, if_pos h]
      exact ⟨b1, by rw [b2, abs_one]; exact ez2⟩
  · intro x hx
    show (if x.isFinite = true then _ else _ : B64).isFinite = true ∧ |(if x.isFinite = true then _ else _ : B64).toQ| ≤ 1
    rw [if_pos hx]
    have := clampB_range a1 b1 (finite_999 (r := Real.sin x.toQ) ((Real.abs_sin_le_one _).trans (by norm_num))) (by rw [a2, b2]; norm_num)
    rw [a2, b2] at this
    exact ⟨this.1, abs_le.2 this.2⟩
  · intro x hx
    show (if x.isFinite = true then _ else _ : B64).isFinite = true ∧ |(if x.isFinite = true then _ else _ : B64).toQ| ≤ 1
    rw [if_pos hx]
    have := clampB_range a1 b1 (finite_999 (r := Real.cos x.toQ) ((Real.abs_cos_le_one _).trans (by norm_num))) (by rw [a2, b2]; norm_num)
    rw [a2, b2] at this
    exact ⟨this.1, abs_le.2 this.2⟩
  · intro x hx h
    show |(if x.isFinite = true ∧ |x.toQ| ≤ 1 then _ else _ : B64).toQ| ≤ _
    rw [if_pos ⟨hx, h⟩]
    have := clampB_range d1 pi_2_fin.1 (finite_999 (arcsin_big x.toQ)) (by rw [B64.neg_toQ, pi_2_fin.2]; norm_num)
    rw [B64.neg_toQ] at this
    exact abs_le.2 this.2

theorem Near.relib {A B : Libm} {x : B64} {r ε : ℝ} (h : Near (L := A) x r ε) : Near (L := B) x r ε := ⟨h.1, h.2⟩

theorem specialLibm_accurate : AccurateProjection specialLibm := by
  obtain ⟨⟨a1, a2⟩, ⟨b1, b2⟩, ⟨c1, c2⟩, d1⟩ := clamp_consts
  have R := roundLibm_accurateProjection
  have hsin : ∀ x : F64 specialLibm, x.isFinite → Near (Flt.sin x) (Real.sin x.toQ) (2⁻¹ ^ 52) := by
    intro x hx
    have e : (Flt.sin x : F64 specialLibm) = clampB (B64.lit (-1)) (B64.lit 1) (roundReal (Real.sin x.toQ)) := if_pos hx
    rw [e]
    refine clampB_near (δ := 0) a1 b1 (near_roundReal ((Real.abs_sin_le_one _).trans (by norm_num))) ?_ ?_ (by positivity)
    · rw [a2]; push_cast; linarith [Real.neg_one_le_sin (x.toQ : ℝ)]
    · rw [b2]; push_cast; linarith [Real.sin_le_one (x.toQ : ℝ)]
  have hcos : ∀ x : F64 specialLibm, x.isFinite → Near (Flt.cos x) (Real.cos x.toQ) (2⁻¹ ^ 52) := by
    intro x hx
    have e : (Flt.cos x : F64 specialLibm) = clampB (B64.lit (-1)) (B64.lit 1) (roundReal (Real.cos x.toQ)) := if_pos hx
    rw [e]
    refine clampB_near (δ := 0) a1 b1 (near_roundReal ((Real.abs_cos_le_one _).trans (by norm_num))) ?_ ?_ (by positivity)
    · rw [a2]; push_cast; linarith [Real.neg_one_le_cos (x.toQ : ℝ)]
    · rw [b2]; push_cast; linarith [Real.cos_le_one (x.toQ : ℝ)]
  refine {
    sqrt := fun x h k => Near.relib (R.sqrt x h k)
    sq := fun x h k => Near.relib (R.sq x h k)
    sin := fun x h _ => hsin x h
    cos := fun x h _ => hcos x h
    sin_wide := fun x h _ => hsin x h
    cos_wide := fun x h _ => hcos x h
    atan := fun x h => Near.relib (R.atan x h)
    tanh := fun x h => Near.relib (R.tanh x h)
    atanh := fun x h k => Near.relib (R.atanh x h k)
    exp := fun x h k => Near.relib (R.exp x h k)
    ln := fun x h k l => Near.relib (R.ln x h k l)
    powf := fun x y h k l m n => Near.relib (R.powf x y h k l m n)
    tan := ?_
    asin := ?_
    asinh := ?_
    sinh := ?_
    cosh := ?_ }
  · intro x hx h
    have e : (Flt.tan x : F64 specialLibm) = roundReal (Real.tan x.toQ) := if_pos hx
    rw [e]
    exact Near.relib (R.tan x hx h)
  · intro x hx h
    have e : (Flt.asin x : F64 specialLibm) = clampB (B64.neg B64.pi_2) B64.pi_2 (roundReal (Real.arcsin x.toQ)) := if_pos ⟨hx, h⟩
    rw [e]
    have hp := arcsin_round (x.toQ : ℝ)
    obtain ⟨p1, p2⟩ := pi_2_real
    by_cases k : |Real.arcsin x.toQ| ≤ ((B64.pi_2.toQ : ℚ) : ℝ)
    · obtain ⟨k1, k2⟩ := abs_le.1 k
      refine clampB_near (δ := 0) d1 pi_2_fin.1 (near_roundReal_51 (arcsin_big _)) ?_ ?_ (by positivity)
      · rw [B64.neg_toQ]; push_cast; linarith
      · linarith
    · have g : (6.2e-17 : ℝ) ≤ 2⁻¹ ^ 51 * |Real.arcsin x.toQ| := by
        have k' := not_le.1 k
        have := Real.pi_gt_three
        have h1 : 1 ≤ |Real.arcsin x.toQ| := by norm_num at p1; linarith
        calc (6.2e-17 : ℝ) ≤ 2⁻¹ ^ 51 * 1 := by norm_num
          _ ≤ _ := mul_le_mul_of_nonneg_left h1 (by norm_num)
      refine clampB_near (δ := 6.2e-17) d1 pi_2_fin.1 (near_roundReal_51 (arcsin_big _)) ?_ ?_ (g.trans (le_add_of_nonneg_right (by positivity)))
      · rw [B64.neg_toQ]; push_cast; norm_num at p1 ⊢; linarith
      · norm_num at p1 ⊢; linarith
  · intro x hx h
    have e : (Flt.sinh x : F64 specialLibm) = roundReal (Real.sinh x.toQ) := if_pos h
    rw [e]
    exact Near.relib (R.sinh x hx h)
  · intro x hx h
    have e : (Flt.cosh x : F64 specialLibm) = clampB (B64.lit 1) (B64.lit (2 ^ 1023)) (roundReal (Real.cosh x.toQ)) :=
      special_cosh_eq hx h
    rw [e]
    refine clampB_near (δ := 0) b1 c1 (near_roundReal_51 (cosh_round h)) ?_ ?_ (by positivity)
    · rw [b2]; push_cast; linarith [Real.one_le_cosh (x.toQ : ℝ)]
    · rw [c2]
      have k := (le_abs_self _).trans (cosh_round h)
      refine k.trans ?_
      push_cast
      rw [add_zero]
      exact le_trans (by norm_num) (pow_le_pow_right₀ (by norm_num) (by norm_num : 200 ≤ 1023))
  · intro x hx h
    have e : (Flt.asinh x : F64 specialLibm) = roundReal (Real.arsinh x.toQ) := if_pos hx
    rw [e]
    exact Near.relib (R.asinh x hx h)

end Geo
