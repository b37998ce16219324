import Verif.Lemmas.NearFns
import Verif.Props.GeodeticF64
import Verif.Props.CrsF64

/-! The transverse Mercator projection in IEEE arithmetic: parameters and auxiliary latitude. -/

namespace Geo
open XR Spec
variable {L : Libm}

/-! ### Constants -/

theorem const_near {x : F64 L} {q ε : ℚ} {r E : ℝ} (h : B64.isFinite x = true ∧ |B64.toQ x - q| ≤ ε) (hr : (q : ℝ) = r)
    (hE : (ε : ℝ) ≤ E) : Near x r E := by
  refine ⟨h.1, ?_⟩
  have h1 := (Rat.cast_le (K := ℝ)).2 h.2
  push_cast at h1
  rw [← hr]
  exact le_trans h1 hE

theorem horner_step {acc x c : F64 L} {r n c' A E γ C A' E' : ℝ} (ha : Near acc r E ∧ |r| ≤ A) (hx : Near x n 3.1e-17)
    (hn : |n| ≤ 0.077) (hc : Near c c' γ) (hc' : |c'| ≤ C) (hA' : A * 0.077 + C ≤ A') (h1 : 1e-40 ≤ A') (h2 : A' ≤ 1e10)
    (hE' : A * 3.1e-17 + 0.077 * E + E * 3.1e-17 + γ + 1.2e-16 * (A' + (A * 3.1e-17 + 0.077 * E + E * 3.1e-17 + γ)) ≤ E') (hE1 : E' ≤ 1) :
    Near (Flt.mulAdd acc x c) (r * n + c') E' ∧ |r * n + c'| ≤ A' := by
  have hb : |r * n + c'| ≤ A' := by
    refine (abs_add_le _ _).trans ((add_le_add ?_ hc').trans hA')
    rw [abs_mul]
    exact mul_le_mul ha.2 hn (abs_nonneg _) ((abs_nonneg _).trans ha.2)
  have h0 : 0 ≤ A * 3.1e-17 + 0.077 * E + E * 3.1e-17 + γ := by
    have := ha.1.nonneg
    have := hc.nonneg
    have := (abs_nonneg _).trans ha.2
    positivity
  have hE0 : A * 3.1e-17 + 0.077 * E + E * 3.1e-17 + γ ≤ A' + (A * 3.1e-17 + 0.077 * E + E * 3.1e-17 + γ) := by
    linarith [(abs_nonneg _).trans hb]
  refine ⟨Near.mulAdd ha.1 hx hc ha.2 hn (R := A' + (A * 3.1e-17 + 0.077 * E + E * 3.1e-17 + γ)) (add_le_add hb le_rfl)
    (by norm_num at *; linarith) ?_ hE', hb⟩
  norm_num at *
  linarith

theorem zero_acc : Near (0 : F64 L) 0 0 ∧ |(0 : ℝ)| ≤ 0 := ⟨zero_near, by simp⟩

theorem tm_consts :
    (B64.isFinite (B64.lit 0) = true ∧ |(B64.lit 0).toQ - (0)| ≤ 0) ∧
    (B64.isFinite (B64.lit 0.5) = true ∧ |(B64.lit 0.5).toQ - (1 / 2)| ≤ 0) ∧
    (B64.isFinite (B64.div (B64.neg (B64.lit 2)) (B64.lit 3)) = true ∧ |(B64.div (B64.neg (B64.lit 2)) (B64.lit 3)).toQ - (-2 / 3)| ≤ 3.8e-17) ∧
    (B64.isFinite (B64.div (B64.lit 5) (B64.lit 16)) = true ∧ |(B64.div (B64.lit 5) (B64.lit 16)).toQ - (5 / 16)| ≤ 0) ∧
    (B64.isFinite (B64.div (B64.lit 41) (B64.lit 180)) = true ∧ |(B64.div (B64.lit 41) (B64.lit 180)).toQ - (41 / 180)| ≤ 4.4e-18) ∧
    (B64.isFinite (B64.div (B64.lit 13) (B64.lit 48)) = true ∧ |(B64.div (B64.lit 13) (B64.lit 48)).toQ - (13 / 48)| ≤ 1.9e-17) ∧
    (B64.isFinite (B64.div (B64.neg (B64.lit 3)) (B64.lit 5)) = true ∧ |(B64.div (B64.neg (B64.lit 3)) (B64.lit 5)).toQ - (-3 / 5)| ≤ 2.3e-17) ∧
    (B64.isFinite (B64.div (B64.lit 557) (B64.lit 1440)) = true ∧ |(B64.div (B64.lit 557) (B64.lit 1440)).toQ - (557 / 1440)| ≤ 1.4e-17) ∧
    (B64.isFinite (B64.div (B64.lit 61) (B64.lit 240)) = true ∧ |(B64.div (B64.lit 61) (B64.lit 240)).toQ - (61 / 240)| ≤ 1.5e-17) ∧
    (B64.isFinite (B64.div (B64.neg (B64.lit 103)) (B64.lit 140)) = true ∧ |(B64.div (B64.neg (B64.lit 103)) (B64.lit 140)).toQ - (-103 / 140)| ≤ 5.1e-17) ∧
    (B64.isFinite (B64.div (B64.lit 49561) (B64.lit 161280)) = true ∧ |(B64.div (B64.lit 49561) (B64.lit 161280)).toQ - (49561 / 161280)| ≤ 1.7e-17) ∧
    (B64.isFinite (B64.div (B64.lit 37) (B64.lit 96)) = true ∧ |(B64.div (B64.lit 37) (B64.lit 96)).toQ - (37 / 96)| ≤ 1.9e-17) ∧
    (B64.isFinite (B64.div (B64.neg (B64.lit 1)) (B64.lit 360)) = true ∧ |(B64.div (B64.neg (B64.lit 1)) (B64.lit 360)).toQ - (-1 / 360)| ≤ 1.1e-19) ∧
    (B64.isFinite (B64.div (B64.lit 1) (B64.lit 48)) = true ∧ |(B64.div (B64.lit 1) (B64.lit 48)).toQ - (1 / 48)| ≤ 1.2e-18) ∧
    (B64.isFinite (B64.div (B64.lit 1) (B64.lit 15)) = true ∧ |(B64.div (B64.lit 1) (B64.lit 15)).toQ - (1 / 15)| ≤ 9.3e-19) ∧
    (B64.isFinite (B64.div (B64.neg (B64.lit 437)) (B64.lit 1440)) = true ∧ |(B64.div (B64.neg (B64.lit 437)) (B64.lit 1440)).toQ - (-437 / 1440)| ≤ 2.4e-17) ∧
    (B64.isFinite (B64.div (B64.lit 17) (B64.lit 480)) = true ∧ |(B64.div (B64.lit 17) (B64.lit 480)).toQ - (17 / 480)| ≤ 9.3e-19) ∧
    (B64.isFinite (B64.div (B64.neg (B64.lit 37)) (B64.lit 840)) = true ∧ |(B64.div (B64.neg (B64.lit 37)) (B64.lit 840)).toQ - (-37 / 840)| ≤ 3.2e-18) ∧
    (B64.isFinite (B64.div (B64.lit 4397) (B64.lit 161280)) = true ∧ |(B64.div (B64.lit 4397) (B64.lit 161280)).toQ - (4397 / 161280)| ≤ 2.9e-19) ∧
    (B64.isFinite (B64.lit 1) = true ∧ |(B64.lit 1).toQ - (1)| ≤ 0) ∧
    (B64.isFinite (B64.lit 0.25) = true ∧ |(B64.lit 0.25).toQ - (1 / 4)| ≤ 0) ∧
    (B64.isFinite (B64.div (B64.lit 1) (B64.lit 64)) = true ∧ |(B64.div (B64.lit 1) (B64.lit 64)).toQ - (1 / 64)| ≤ 0) := by
  decide +kernel

theorem tm_h0_near {x : F64 L} {n : ℝ} (hx : Near x n 3.1e-17) (hn : |n| ≤ 0.077) :
    Near (fastPoly [0, 0.5, -2 / 3, 5 / 16, 41 / 180] x) (tmh0 n) 3.1e-17 ∧ |tmh0 n| ≤ 4.4e-2 := by
  have s0 := horner_step zero_acc hx hn (const_near (q := 41 / 180) (r := 41 / 180) (E := 4.4e-18) tm_consts.2.2.2.2.1 (by norm_num) (by norm_num))
    (C := 41 / 180) (A' := 0.23) (E' := 3.3e-17) (by norm_num [abs_le]) (by norm_num) (by norm_num) (by norm_num) (by norm_num) (by norm_num)
  have s1 := horner_step s0 hx hn (const_near (q := 5 / 16) (r := 5 / 16) (E := 0) tm_consts.2.2.2.1 (by norm_num) (by norm_num))
    (C := 5 / 16) (A' := 0.34) (E' := 5.1e-17) (by norm_num [abs_le]) (by norm_num) (by norm_num) (by norm_num) (by norm_num) (by norm_num)
  have s2 := horner_step s1 hx hn (const_near (q := -2 / 3) (r := -2 / 3) (E := 3.8e-17) tm_consts.2.2.1 (by norm_num) (by norm_num))
    (C := 2 / 3) (A' := 0.7) (E' := 1.4e-16) (by norm_num [abs_le]) (by norm_num) (by norm_num) (by norm_num) (by norm_num) (by norm_num)
  have s3 := horner_step s2 hx hn (const_near (q := 1 / 2) (r := 1 / 2) (E := 0) tm_consts.2.1 (by norm_num) (by norm_num))
    (C := 1 / 2) (A' := 0.56) (E' := 1e-16) (by norm_num [abs_le]) (by norm_num) (by norm_num) (by norm_num) (by norm_num) (by norm_num)
  have s4 := horner_step s3 hx hn (const_near (q := 0) (r := 0) (E := 0) tm_consts.1 (by norm_num) (by norm_num))
    (C := 0) (A' := 4.4e-2) (E' := 3.1e-17) (by norm_num [abs_le]) (by norm_num) (by norm_num) (by norm_num) (by norm_num) (by norm_num)
  have e : (((((0) * n + (41 / 180)) * n + (5 / 16)) * n + (-2 / 3)) * n + (1 / 2)) * n + (0) = tmh0 n := by unfold tmh0; ring
  rw [e] at s4
  exact s4

theorem tm_h1_near {x : F64 L} {n : ℝ} (hx : Near x n 3.1e-17) (hn : |n| ≤ 0.077) :
    Near (fastPoly [0, 0, 13 / 48, -3 / 5, 557 / 1440] x) (tmh1 n) 2.7e-18 ∧ |tmh1 n| ≤ 2.1e-3 := by
  have s0 := horner_step zero_acc hx hn (const_near (q := 557 / 1440) (r := 557 / 1440) (E := 1.4e-17) tm_consts.2.2.2.2.2.2.2.1 (by norm_num) (by norm_num))
    (C := 557 / 1440) (A' := 0.39) (E' := 6.1e-17) (by norm_num [abs_le]) (by norm_num) (by norm_num) (by norm_num) (by norm_num) (by norm_num)
  have s1 := horner_step s0 hx hn (const_near (q := -3 / 5) (r := -3 / 5) (E := 2.3e-17) tm_consts.2.2.2.2.2.2.1 (by norm_num) (by norm_num))
    (C := 3 / 5) (A' := 0.64) (E' := 1.2e-16) (by norm_num [abs_le]) (by norm_num) (by norm_num) (by norm_num) (by norm_num) (by norm_num)
  have s2 := horner_step s1 hx hn (const_near (q := 13 / 48) (r := 13 / 48) (E := 1.9e-17) tm_consts.2.2.2.2.2.1 (by norm_num) (by norm_num))
    (C := 13 / 48) (A' := 0.33) (E' := 8.8e-17) (by norm_num [abs_le]) (by norm_num) (by norm_num) (by norm_num) (by norm_num) (by norm_num)
  have s3 := horner_step s2 hx hn (const_near (q := 0) (r := 0) (E := 0) tm_consts.1 (by norm_num) (by norm_num))
    (C := 0) (A' := 2.6e-2) (E' := 2.1e-17) (by norm_num [abs_le]) (by norm_num) (by norm_num) (by norm_num) (by norm_num) (by norm_num)
  have s4 := horner_step s3 hx hn (const_near (q := 0) (r := 0) (E := 0) tm_consts.1 (by norm_num) (by norm_num))
    (C := 0) (A' := 2.1e-3) (E' := 2.7e-18) (by norm_num [abs_le]) (by norm_num) (by norm_num) (by norm_num) (by norm_num) (by norm_num)
  have e : (((((0) * n + (557 / 1440)) * n + (-3 / 5)) * n + (13 / 48)) * n + (0)) * n + (0) = tmh1 n := by unfold tmh1; ring
  rw [e] at s4
  exact s4

theorem tm_h2_near {x : F64 L} {n : ℝ} (hx : Near x n 3.1e-17) (hn : |n| ≤ 0.077) :
    Near (fastPoly [0, 0, 0, 61 / 240, -103 / 140] x) (tmh2 n) 2.9e-19 ∧ |tmh2 n| ≤ 1.6e-4 := by
  have s0 := horner_step zero_acc hx hn (const_near (q := -103 / 140) (r := -103 / 140) (E := 5.1e-17) tm_consts.2.2.2.2.2.2.2.2.2.1 (by norm_num) (by norm_num))
    (C := 103 / 140) (A' := 0.74) (E' := 1.4e-16) (by norm_num [abs_le]) (by norm_num) (by norm_num) (by norm_num) (by norm_num) (by norm_num)
  have s1 := horner_step s0 hx hn (const_near (q := 61 / 240) (r := 61 / 240) (E := 1.5e-17) tm_consts.2.2.2.2.2.2.2.2.1 (by norm_num) (by norm_num))
    (C := 61 / 240) (A' := 0.32) (E' := 8.8e-17) (by norm_num [abs_le]) (by norm_num) (by norm_num) (by norm_num) (by norm_num) (by norm_num)
  have s2 := horner_step s1 hx hn (const_near (q := 0) (r := 0) (E := 0) tm_consts.1 (by norm_num) (by norm_num))
    (C := 0) (A' := 2.5e-2) (E' := 2e-17) (by norm_num [abs_le]) (by norm_num) (by norm_num) (by norm_num) (by norm_num) (by norm_num)
  have s3 := horner_step s2 hx hn (const_near (q := 0) (r := 0) (E := 0) tm_consts.1 (by norm_num) (by norm_num))
    (C := 0) (A' := 2e-3) (E' := 2.6e-18) (by norm_num [abs_le]) (by norm_num) (by norm_num) (by norm_num) (by norm_num) (by norm_num)
  have s4 := horner_step s3 hx hn (const_near (q := 0) (r := 0) (E := 0) tm_consts.1 (by norm_num) (by norm_num))
    (C := 0) (A' := 1.6e-4) (E' := 2.9e-19) (by norm_num [abs_le]) (by norm_num) (by norm_num) (by norm_num) (by norm_num) (by norm_num)
  have e : (((((0) * n + (-103 / 140)) * n + (61 / 240)) * n + (0)) * n + (0)) * n + (0) = tmh2 n := by unfold tmh2; ring
  rw [e] at s4
  exact s4

theorem tm_h3_near {x : F64 L} {n : ℝ} (hx : Near x n 3.1e-17) (hn : |n| ≤ 0.077) :
    Near (fastPoly [0, 0, 0, 0, 49561 / 161280] x) (tmh3 n) 2.7e-20 ∧ |tmh3 n| ≤ 1.2e-5 := by
  have s0 := horner_step zero_acc hx hn (const_near (q := 49561 / 161280) (r := 49561 / 161280) (E := 1.7e-17) tm_consts.2.2.2.2.2.2.2.2.2.2.1 (by norm_num) (by norm_num))
    (C := 49561 / 161280) (A' := 0.31) (E' := 5.5e-17) (by norm_num [abs_le]) (by norm_num) (by norm_num) (by norm_num) (by norm_num) (by norm_num)
  have s1 := horner_step s0 hx hn (const_near (q := 0) (r := 0) (E := 0) tm_consts.1 (by norm_num) (by norm_num))
    (C := 0) (A' := 2.4e-2) (E' := 1.7e-17) (by norm_num [abs_le]) (by norm_num) (by norm_num) (by norm_num) (by norm_num) (by norm_num)
  have s2 := horner_step s1 hx hn (const_near (q := 0) (r := 0) (E := 0) tm_consts.1 (by norm_num) (by norm_num))
    (C := 0) (A' := 1.9e-3) (E' := 2.3e-18) (by norm_num [abs_le]) (by norm_num) (by norm_num) (by norm_num) (by norm_num) (by norm_num)
  have s3 := horner_step s2 hx hn (const_near (q := 0) (r := 0) (E := 0) tm_consts.1 (by norm_num) (by norm_num))
    (C := 0) (A' := 1.5e-4) (E' := 2.6e-19) (by norm_num [abs_le]) (by norm_num) (by norm_num) (by norm_num) (by norm_num) (by norm_num)
  have s4 := horner_step s3 hx hn (const_near (q := 0) (r := 0) (E := 0) tm_consts.1 (by norm_num) (by norm_num))
    (C := 0) (A' := 1.2e-5) (E' := 2.7e-20) (by norm_num [abs_le]) (by norm_num) (by norm_num) (by norm_num) (by norm_num) (by norm_num)
  have e : (((((0) * n + (49561 / 161280)) * n + (0)) * n + (0)) * n + (0)) * n + (0) = tmh3 n := by unfold tmh3; ring
  rw [e] at s4
  exact s4

theorem tm_p0_near {x : F64 L} {n : ℝ} (hx : Near x n 3.1e-17) (hn : |n| ≤ 0.077) :
    Near (fastPoly [0, 0.5, -2 / 3, 37 / 96, -1 / 360] x) (tmp0 n) 3.1e-17 ∧ |tmp0 n| ≤ 4.4e-2 := by
  have s0 := horner_step zero_acc hx hn (const_near (q := -1 / 360) (r := -1 / 360) (E := 1.1e-19) tm_consts.2.2.2.2.2.2.2.2.2.2.2.2.1 (by norm_num) (by norm_num))
    (C := 1 / 360) (A' := 2.8e-3) (E' := 4.5e-19) (by norm_num [abs_le]) (by norm_num) (by norm_num) (by norm_num) (by norm_num) (by norm_num)
  have s1 := horner_step s0 hx hn (const_near (q := 37 / 96) (r := 37 / 96) (E := 1.9e-17) tm_consts.2.2.2.2.2.2.2.2.2.2.2.1 (by norm_num) (by norm_num))
    (C := 37 / 96) (A' := 0.39) (E' := 6.6e-17) (by norm_num [abs_le]) (by norm_num) (by norm_num) (by norm_num) (by norm_num) (by norm_num)
  have s2 := horner_step s1 hx hn (const_near (q := -2 / 3) (r := -2 / 3) (E := 3.8e-17) tm_consts.2.2.1 (by norm_num) (by norm_num))
    (C := 2 / 3) (A' := 0.7) (E' := 1.4e-16) (by norm_num [abs_le]) (by norm_num) (by norm_num) (by norm_num) (by norm_num) (by norm_num)
  have s3 := horner_step s2 hx hn (const_near (q := 1 / 2) (r := 1 / 2) (E := 0) tm_consts.2.1 (by norm_num) (by norm_num))
    (C := 1 / 2) (A' := 0.56) (E' := 1e-16) (by norm_num [abs_le]) (by norm_num) (by norm_num) (by norm_num) (by norm_num) (by norm_num)
  have s4 := horner_step s3 hx hn (const_near (q := 0) (r := 0) (E := 0) tm_consts.1 (by norm_num) (by norm_num))
    (C := 0) (A' := 4.4e-2) (E' := 3.1e-17) (by norm_num [abs_le]) (by norm_num) (by norm_num) (by norm_num) (by norm_num) (by norm_num)
  have e : (((((0) * n + (-1 / 360)) * n + (37 / 96)) * n + (-2 / 3)) * n + (1 / 2)) * n + (0) = tmp0 n := by unfold tmp0; ring
  rw [e] at s4
  exact s4

theorem tm_p1_near {x : F64 L} {n : ℝ} (hx : Near x n 3.1e-17) (hn : |n| ≤ 0.077) :
    Near (fastPoly [0, 0, 1 / 48, 1 / 15, -437 / 1440] x) (tmp1 n) 2.4e-19 ∧ |tmp1 n| ≤ 1.7e-4 := by
  have s0 := horner_step zero_acc hx hn (const_near (q := -437 / 1440) (r := -437 / 1440) (E := 2.4e-17) tm_consts.2.2.2.2.2.2.2.2.2.2.2.2.2.2.2.1 (by norm_num) (by norm_num))
    (C := 437 / 1440) (A' := 0.31) (E' := 6.2e-17) (by norm_num [abs_le]) (by norm_num) (by norm_num) (by norm_num) (by norm_num) (by norm_num)
  have s1 := horner_step s0 hx hn (const_near (q := 1 / 15) (r := 1 / 15) (E := 9.3e-19) tm_consts.2.2.2.2.2.2.2.2.2.2.2.2.2.2.1 (by norm_num) (by norm_num))
    (C := 1 / 15) (A' := 9.1e-2) (E' := 2.7e-17) (by norm_num [abs_le]) (by norm_num) (by norm_num) (by norm_num) (by norm_num) (by norm_num)
  have s2 := horner_step s1 hx hn (const_near (q := 1 / 48) (r := 1 / 48) (E := 1.2e-18) tm_consts.2.2.2.2.2.2.2.2.2.2.2.2.2.1 (by norm_num) (by norm_num))
    (C := 1 / 48) (A' := 2.8e-2) (E' := 9.5e-18) (by norm_num [abs_le]) (by norm_num) (by norm_num) (by norm_num) (by norm_num) (by norm_num)
  have s3 := horner_step s2 hx hn (const_near (q := 0) (r := 0) (E := 0) tm_consts.1 (by norm_num) (by norm_num))
    (C := 0) (A' := 2.2e-3) (E' := 1.9e-18) (by norm_num [abs_le]) (by norm_num) (by norm_num) (by norm_num) (by norm_num) (by norm_num)
  have s4 := horner_step s3 hx hn (const_near (q := 0) (r := 0) (E := 0) tm_consts.1 (by norm_num) (by norm_num))
    (C := 0) (A' := 1.7e-4) (E' := 2.4e-19) (by norm_num [abs_le]) (by norm_num) (by norm_num) (by norm_num) (by norm_num) (by norm_num)
  have e : (((((0) * n + (-437 / 1440)) * n + (1 / 15)) * n + (1 / 48)) * n + (0)) * n + (0) = tmp1 n := by unfold tmp1; ring
  rw [e] at s4
  exact s4

theorem tm_p2_near {x : F64 L} {n : ℝ} (hx : Near x n 3.1e-17) (hn : |n| ≤ 0.077) :
    Near (fastPoly [0, 0, 0, 17 / 480, -37 / 840] x) (tmp2 n) 3.3e-20 ∧ |tmp2 n| ≤ 1.9e-5 := by
  have s0 := horner_step zero_acc hx hn (const_near (q := -37 / 840) (r := -37 / 840) (E := 3.2e-18) tm_consts.2.2.2.2.2.2.2.2.2.2.2.2.2.2.2.2.2.1 (by norm_num) (by norm_num))
    (C := 37 / 840) (A' := 4.5e-2) (E' := 8.7e-18) (by norm_num [abs_le]) (by norm_num) (by norm_num) (by norm_num) (by norm_num) (by norm_num)
  have s1 := horner_step s0 hx hn (const_near (q := 17 / 480) (r := 17 / 480) (E := 9.3e-19) tm_consts.2.2.2.2.2.2.2.2.2.2.2.2.2.2.2.2.1 (by norm_num) (by norm_num))
    (C := 17 / 480) (A' := 3.9e-2) (E' := 7.7e-18) (by norm_num [abs_le]) (by norm_num) (by norm_num) (by norm_num) (by norm_num) (by norm_num)
  have s2 := horner_step s1 hx hn (const_near (q := 0) (r := 0) (E := 0) tm_consts.1 (by norm_num) (by norm_num))
    (C := 0) (A' := 3.1e-3) (E' := 2.2e-18) (by norm_num [abs_le]) (by norm_num) (by norm_num) (by norm_num) (by norm_num) (by norm_num)
  have s3 := horner_step s2 hx hn (const_near (q := 0) (r := 0) (E := 0) tm_consts.1 (by norm_num) (by norm_num))
    (C := 0) (A' := 2.4e-4) (E' := 3e-19) (by norm_num [abs_le]) (by norm_num) (by norm_num) (by norm_num) (by norm_num) (by norm_num)
  have s4 := horner_step s3 hx hn (const_near (q := 0) (r := 0) (E := 0) tm_consts.1 (by norm_num) (by norm_num))
    (C := 0) (A' := 1.9e-5) (E' := 3.3e-20) (by norm_num [abs_le]) (by norm_num) (by norm_num) (by norm_num) (by norm_num) (by norm_num)
  have e : (((((0) * n + (-37 / 840)) * n + (17 / 480)) * n + (0)) * n + (0)) * n + (0) = tmp2 n := by unfold tmp2; ring
  rw [e] at s4
  exact s4

theorem tm_p3_near {x : F64 L} {n : ℝ} (hx : Near x n 3.1e-17) (hn : |n| ≤ 0.077) :
    Near (fastPoly [0, 0, 0, 0, 4397 / 161280] x) (tmp3 n) 2.5e-21 ∧ |tmp3 n| ≤ 1.1e-6 := by
  have s0 := horner_step zero_acc hx hn (const_near (q := 4397 / 161280) (r := 4397 / 161280) (E := 2.9e-19) tm_consts.2.2.2.2.2.2.2.2.2.2.2.2.2.2.2.2.2.2.1 (by norm_num) (by norm_num))
    (C := 4397 / 161280) (A' := 2.8e-2) (E' := 3.7e-18) (by norm_num [abs_le]) (by norm_num) (by norm_num) (by norm_num) (by norm_num) (by norm_num)
  have s1 := horner_step s0 hx hn (const_near (q := 0) (r := 0) (E := 0) tm_consts.1 (by norm_num) (by norm_num))
    (C := 0) (A' := 2.2e-3) (E' := 1.5e-18) (by norm_num [abs_le]) (by norm_num) (by norm_num) (by norm_num) (by norm_num) (by norm_num)
  have s2 := horner_step s1 hx hn (const_near (q := 0) (r := 0) (E := 0) tm_consts.1 (by norm_num) (by norm_num))
    (C := 0) (A' := 1.7e-4) (E' := 2.1e-19) (by norm_num [abs_le]) (by norm_num) (by norm_num) (by norm_num) (by norm_num) (by norm_num)
  have s3 := horner_step s2 hx hn (const_near (q := 0) (r := 0) (E := 0) tm_consts.1 (by norm_num) (by norm_num))
    (C := 0) (A' := 1.4e-5) (E' := 2.4e-20) (by norm_num [abs_le]) (by norm_num) (by norm_num) (by norm_num) (by norm_num) (by norm_num)
  have s4 := horner_step s3 hx hn (const_near (q := 0) (r := 0) (E := 0) tm_consts.1 (by norm_num) (by norm_num))
    (C := 0) (A' := 1.1e-6) (E' := 2.5e-21) (by norm_num [abs_le]) (by norm_num) (by norm_num) (by norm_num) (by norm_num) (by norm_num)
  have e : (((((0) * n + (4397 / 161280)) * n + (0)) * n + (0)) * n + (0)) * n + (0) = tmp3 n := by unfold tmp3; ring
  rw [e] at s4
  exact s4

theorem tm_Bp_near {x : F64 L} {n : ℝ} (hx : Near x n 3.1e-17) (hn : |n| ≤ 0.077) :
    Near (fastPoly [1, 0, 0.25, 0, 1 / 64] x) (1 + n ^ 2 / 4 + n ^ 4 / 64) 1.4e-16 ∧ |1 + n ^ 2 / 4 + n ^ 4 / 64| ≤ 1.1 := by
  have s0 := horner_step zero_acc hx hn (const_near (q := 1 / 64) (r := 1 / 64) (E := 0) tm_consts.2.2.2.2.2.2.2.2.2.2.2.2.2.2.2.2.2.2.2.2.2 (by norm_num) (by norm_num))
    (C := 1 / 64) (A' := 1.6e-2) (E' := 2e-18) (by norm_num [abs_le]) (by norm_num) (by norm_num) (by norm_num) (by norm_num) (by norm_num)
  have s1 := horner_step s0 hx hn (const_near (q := 0) (r := 0) (E := 0) tm_consts.1 (by norm_num) (by norm_num))
    (C := 0) (A' := 1.3e-3) (E' := 8.1e-19) (by norm_num [abs_le]) (by norm_num) (by norm_num) (by norm_num) (by norm_num) (by norm_num)
  have s2 := horner_step s1 hx hn (const_near (q := 1 / 4) (r := 1 / 4) (E := 0) tm_consts.2.2.2.2.2.2.2.2.2.2.2.2.2.2.2.2.2.2.2.2.1 (by norm_num) (by norm_num))
    (C := 1 / 4) (A' := 0.26) (E' := 3.2e-17) (by norm_num [abs_le]) (by norm_num) (by norm_num) (by norm_num) (by norm_num) (by norm_num)
  have s3 := horner_step s2 hx hn (const_near (q := 0) (r := 0) (E := 0) tm_consts.1 (by norm_num) (by norm_num))
    (C := 0) (A' := 2.1e-2) (E' := 1.4e-17) (by norm_num [abs_le]) (by norm_num) (by norm_num) (by norm_num) (by norm_num) (by norm_num)
  have s4 := horner_step s3 hx hn (const_near (q := 1) (r := 1) (E := 0) tm_consts.2.2.2.2.2.2.2.2.2.2.2.2.2.2.2.2.2.2.2.1 (by norm_num) (by norm_num))
    (C := 1) (A' := 1.1) (E' := 1.4e-16) (by norm_num [abs_le]) (by norm_num) (by norm_num) (by norm_num) (by norm_num) (by norm_num)
  have e : (((((0) * n + (1 / 64)) * n + (0)) * n + (1 / 4)) * n + (0)) * n + (1) = 1 + n ^ 2 / 4 + n ^ 4 / 64 := by ring
  rw [e] at s4
  exact s4

/-! ### The ellipsoid -/

section
variable {el : Ellipsoid (F64 L)}

theorem nR_bound {a b : ℝ} (hb : 6000000 ≤ b) (hab : b ≤ a) (ha : a ≤ 7000000) : 0 ≤ nR a b ∧ nR a b ≤ 0.077 := by
  refine ⟨nR_nonneg (by linarith) hab, ?_⟩
  rw [nR, div_le_iff₀ (by linarith)]
  norm_num
  linarith

theorem tm_n_near (h : EarthSized el) : Near el.n (nR el.a.m.toQ el.b.m.toQ) 3.1e-17 ∧ |nR el.a.m.toQ el.b.m.toQ| ≤ 0.077 := by
  obtain ⟨h1, h2, h3⟩ := earth_real h
  have ka := Near.exact h.a_finite
  have kb := Near.exact h.b_finite
  obtain ⟨k0, k1⟩ := nR_bound h1 h2 h3
  generalize ((el.a.m.toQ : ℚ) : ℝ) = a at *
  generalize ((el.b.m.toQ : ℚ) : ℝ) = b at *
  have d := Near.sub ka kb (R := 1000000) (E := 1.2e-10) (by rw [abs_of_nonneg (by linarith)]; linarith) (by norm_num)
    (by norm_num) (by norm_num)
  have s := Near.add ka kb (R := 14000000) (E := 1.7e-9) (by rw [abs_of_nonneg (by linarith)]; linarith) (by norm_num)
    (by norm_num) (by norm_num)
  refine ⟨Near.div' d s (A := 0.077) (B := 12000000) (C := 11999999) (R := 0.0771) ?_ (by norm_num) (by linarith) (by norm_num)
    (by norm_num) (by norm_num) (by norm_num) (by norm_num) (by norm_num), by rw [abs_of_nonneg k0]; exact k1⟩
  rw [abs_of_nonneg (by linarith)]
  rw [nR, div_le_iff₀ (by linarith)] at k1
  exact k1

theorem eSq_nonneg (h : EarthSized el) : 0 ≤ el.eSq.toQ := by
  obtain ⟨r1, r2, r3⟩ := earth_real h
  have ka := Near.exact h.a_finite
  have kb := Near.exact h.b_finite
  have aa : (3.6e13 : ℝ) ≤ el.a.m.toQ * el.a.m.toQ := by nlinarith
  have d := Near.sub ka kb (R := 1000000) (E := 1.2e-10) (by rw [abs_of_nonneg (by linarith)]; linarith) (by norm_num)
    (by norm_num) (by norm_num)
  have s := Near.add ka kb (R := 14000000) (E := 1.7e-9) (by rw [abs_of_nonneg (by linarith)]; linarith) (by norm_num)
    (by norm_num) (by norm_num)
  have p := Near.mul d s (A := 1000000) (B := 14000000) (R := 2e13) (E := 1) (by rw [abs_of_nonneg (by linarith)]; linarith)
    (by rw [abs_of_nonneg (by linarith)]; linarith) (by norm_num) (by norm_num) (by norm_num) (by norm_num)
  have q := Near.mul ka ka (A := 7000000) (B := 7000000) (R := 5e13) (E := 1) (by rw [abs_of_nonneg (by linarith)]; linarith)
    (by rw [abs_of_nonneg (by linarith)]; linarith) (by norm_num) (by norm_num) (by norm_num) (by norm_num)
  have h1 : 6000000 ≤ B64.toQ el.b.m := h.lo
  have h2 : B64.toQ el.b.m ≤ B64.toQ el.a.m := h.le
  have e2 : (el.a.m - el.b.m : F64 L).toQ = _ := (B64.sub_finite d.1).2.2
  have e3 : (el.a.m + el.b.m : F64 L).toQ = _ := (B64.add_finite s.1).2.2
  have e4 : ((el.a.m - el.b.m) * (el.a.m + el.b.m) : F64 L).toQ = _ := (B64.mul_finite p.1).2.2
  have e5 : (el.a.m * el.a.m : F64 L).toQ = _ := (B64.mul_finite q.1).2.2
  have n2 : 0 ≤ (el.a.m - el.b.m : F64 L).toQ := e2 ▸ rndQ_nonneg (by linarith)
  have n3 : 0 ≤ (el.a.m + el.b.m : F64 L).toQ := e3 ▸ rndQ_nonneg (by linarith)
  have n4 : 0 ≤ ((el.a.m - el.b.m) * (el.a.m + el.b.m) : F64 L).toQ := e4 ▸ rndQ_nonneg (mul_nonneg n2 n3)
  have n5 : 0 ≤ (el.a.m * el.a.m : F64 L).toQ := e5 ▸ rndQ_nonneg (mul_self_nonneg _)
  have n6 : B64.toQ (el.a.m * el.a.m : F64 L) ≠ 0 := by
    intro h0
    have := q.2
    rw [show (el.a.m * el.a.m : F64 L).toQ = 0 from h0, Rat.cast_zero, zero_sub, abs_neg, abs_of_nonneg (by linarith)] at this
    norm_num at this aa
    linarith
  have f := (eSq_near h).1
  have e6 : el.eSq.toQ = rndQ (((el.a.m - el.b.m) * (el.a.m + el.b.m) : F64 L).toQ / (el.a.m * el.a.m : F64 L).toQ) := by
    have e : el.eSq = B64.divFin ((el.a.m - el.b.m) * (el.a.m + el.b.m) : F64 L) (el.a.m * el.a.m : F64 L) := B64.div_fin p.1 q.1
    have e' : B64.divFin ((el.a.m - el.b.m) * (el.a.m + el.b.m) : F64 L) (el.a.m * el.a.m : F64 L) = _ := if_neg n6
    rw [e, e'] at f
    rw [e, e']
    exact B64.ofQ_toQ f
  rw [e6]
  exact rndQ_nonneg (div_nonneg n4 n5)

theorem tm_e_near (hL : Accurate L) (h : EarthSized el) :
    Near el.e (Real.sqrt (ecc2 el.a.m.toQ el.b.m.toQ)) 4.5e-16 ∧ 0 ≤ Real.sqrt (ecc2 el.a.m.toQ el.b.m.toQ) ∧
      Real.sqrt (ecc2 el.a.m.toQ el.b.m.toQ) ≤ 0.52 := by
  obtain ⟨h1, h2, h3⟩ := earth_real h
  obtain ⟨k0, k1⟩ := ecc2_le h1 h2 h3
  have b : Real.sqrt (ecc2 el.a.m.toQ el.b.m.toQ) ≤ 0.52 := Real.sqrt_le_iff.2 ⟨by norm_num, k1.trans (by norm_num)⟩
  have k := Rel.sqrt0 hL (eSq_rel h) (eSq_nonneg h) k0 (by norm_num) (by norm_num) (G := 1e-32) (D := 8.3e-16) (H := 2e-32)
    (by norm_num) (by norm_num) (by norm_num) (by norm_num) (by norm_num)
  exact ⟨k.toNear (A := 0.52) (by rw [abs_of_nonneg (Real.sqrt_nonneg _)]; exact b) (by norm_num) (by norm_num), Real.sqrt_nonneg _, b⟩

theorem tm_B_near (h : EarthSized el) :
    Near (el.a / (1.0 + el.n) * fastPoly [1, 0, 0.25, 0, 1 / 64] el.n : Length (F64 L)).m (tmB el.a.m.toQ el.b.m.toQ) 4.5e-9 ∧
      6000000 ≤ tmB el.a.m.toQ el.b.m.toQ ∧ tmB el.a.m.toQ el.b.m.toQ ≤ 7020000 := by
  obtain ⟨h1, h2, h3⟩ := earth_real h
  have ka := Near.exact h.a_finite
  obtain ⟨k0, k1⟩ := nR_bound h1 h2 h3
  obtain ⟨kn, kn'⟩ := tm_n_near h
  obtain ⟨kp, kp'⟩ := tm_Bp_near kn kn'
  have k0n : nR (el.a.m.toQ : ℝ) el.b.m.toQ ^ 2 ≤ 0.006 := by nlinarith
  have k0m : 0 ≤ nR (el.a.m.toQ : ℝ) el.b.m.toQ ^ 4 ∧ nR (el.a.m.toQ : ℝ) el.b.m.toQ ^ 4 ≤ 0.0001 :=
    ⟨by positivity, by nlinarith [sq_nonneg (nR (el.a.m.toQ : ℝ) el.b.m.toQ)]⟩
  have hs : (1 + nR (el.a.m.toQ : ℝ) el.b.m.toQ) * (el.a.m.toQ + el.b.m.toQ) = 2 * el.a.m.toQ := by
    have : (el.a.m.toQ : ℝ) + el.b.m.toQ ≠ 0 := by linarith
    rw [nR, add_mul, div_mul_cancel₀ _ this]; ring
  have hd : Near (1.0 + el.n) (1 + nR el.a.m.toQ el.b.m.toQ) 1.7e-16 :=
    Near.add near_one kn (R := 1.08) (by rw [abs_of_nonneg (by linarith)]; norm_num at *; linarith) (by norm_num) (by norm_num) (by norm_num)
  have hq : (el.a.m.toQ : ℝ) / (1 + nR el.a.m.toQ el.b.m.toQ) ≤ 7000000 ∧ 6000000 ≤ (el.a.m.toQ : ℝ) / (1 + nR el.a.m.toQ el.b.m.toQ) := by
    rw [div_le_iff₀ (by linarith), le_div_iff₀ (by linarith)]
    constructor <;> nlinarith
  have kq : Near (el.a.m / (1.0 + el.n)) ((el.a.m.toQ : ℝ) / (1 + nR el.a.m.toQ el.b.m.toQ)) 2.1e-9 := by
    refine Near.div' ka hd (A := 7000000) (B := 1) (C := 0.999999) (R := 7000001) ?_ (by norm_num) (by linarith) (by norm_num)
      (by norm_num) (by norm_num) (by norm_num) (by norm_num) (by norm_num)
    rw [abs_of_nonneg (by linarith)]; nlinarith
  have km : Near (fastPoly [1, 0, 0.25, 0, 1 / 64] el.n * (el.a.m / (1.0 + el.n))) (tmB el.a.m.toQ el.b.m.toQ) 4.5e-9 := by
    refine (Near.mul kp kq (A := 1.002) (B := 7000000) (R := 7020000)
      (by rw [abs_of_nonneg (by linarith [sq_nonneg (nR (el.a.m.toQ : ℝ) el.b.m.toQ)])]; norm_num at *; linarith)
      (by rw [abs_of_nonneg (by linarith)]; exact hq.1) (by norm_num) (by norm_num) (by norm_num) (by norm_num)).congr
      (mul_comm _ _)
  refine ⟨km, ?_, ?_⟩
  · unfold tmB
    nlinarith [sq_nonneg (nR (el.a.m.toQ : ℝ) el.b.m.toQ)]
  · unfold tmB
    nlinarith [sq_nonneg (nR (el.a.m.toQ : ℝ) el.b.m.toQ)]

end

end Geo
