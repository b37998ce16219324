import Verif.Lemmas.TransverseProj
import Verif.Props.TransverseMercatorExact

/-! The transverse Mercator projection in IEEE arithmetic: the loop of the inverse. -/

namespace Geo
open XR Spec
variable {L : Libm}

section
variable {e : ℝ} {e' q : F64 L}

theorem iterQ_near (hL : AccurateProjection L) (he : Near e' e 4.5e-16) (h0 : 0 ≤ e) (h1 : e ≤ 0.1) (hq : q.isFinite)
    (bq : |(q.toQ : ℝ)| ≤ 3.5) {x : F64 L} (hx : x.isFinite) :
    Near (TransverseMercator.iterQ e' q x) (iterR e q.toQ x.toQ) 6e-16 ∧ |iterR e q.toQ x.toQ| ≤ 3.52 := by
  have bt := (abs_tanh_lt (x.toQ : ℝ)).le
  have be : |e| ≤ 0.1 := by rw [abs_of_nonneg h0]; exact h1
  have k1 := Near.tanh hL (Near.exact hx) (E := 4.51e-16) (by norm_num)
  have k2 := Near.mul he k1 (A := 0.1) (B := 1) (R := 0.11) (E := 5.1e-16) be bt (by norm_num) (by norm_num) (by norm_num) (by norm_num)
  have b2 : |e * Real.tanh x.toQ| ≤ 0.1 := by
    rw [abs_mul]; exact (mul_le_mul be bt (abs_nonneg _) (by norm_num)).trans (by norm_num)
  have b3 := abs_artanh_le_div (A := 0.102) b2 (by norm_num) (by norm_num)
  have k3 := Near.atanh hL k2 (m := 0.11) (K := 1.02) (A := 0.102) (E := 6.2e-16) (by norm_num at *; linarith) (by norm_num) (by norm_num) b3
    (by norm_num)
  have k4 := Near.mul he k3 (A := 0.1) (B := 0.102) (R := 0.011) (E := 1.2e-16) be b3 (by norm_num) (by norm_num) (by norm_num) (by norm_num)
  have b4 : |e * Real.artanh (e * Real.tanh x.toQ)| ≤ 0.0102 := by
    rw [abs_mul]; exact (mul_le_mul be b3 (abs_nonneg _) (by norm_num)).trans (by norm_num)
  have b5 := abs_add_le (q.toQ : ℝ) (e * Real.artanh (e * Real.tanh x.toQ))
  refine ⟨Near.add (Near.exact hq) k4 (R := 3.6) (by norm_num at *; linarith) (by norm_num) (by norm_num) (by norm_num), ?_⟩
  unfold iterR
  norm_num at *; linarith

/-- The successive iterates. -/
theorem iterate_solveQ_f64 (hL : AccurateProjection L) (he : Near e' e 4.5e-16) (h0 : 0 ≤ e) (h1 : e ≤ 0.1) (hq : q.isFinite)
    (bq : |(q.toQ : ℝ)| ≤ 3.5) (m : ℕ) (x y : F64 L) (hx : x.isFinite) (bx : |(x.toQ : ℝ)| ≤ 3.53) :
    ∃ u v : F64 L, iterate (fun st : F64 L × F64 L => (TransverseMercator.iterQ e' q st.1, st.1)) (m + 1) (x, y) = (u, v) ∧
      u.isFinite ∧ v.isFinite ∧ |(u.toQ : ℝ)| ≤ 3.53 ∧ |(v.toQ : ℝ)| ≤ 3.53 ∧ |(u.toQ : ℝ) - iterR e q.toQ v.toQ| ≤ 6e-16 ∧
      |(u.toQ : ℝ) - v.toQ| ≤ 0.01 ^ m * |((TransverseMercator.iterQ e' q x).toQ : ℝ) - x.toQ| + 1.25e-15 * (1 - 0.01 ^ m) := by
  induction m generalizing x y with
  | zero =>
    obtain ⟨k, b⟩ := iterQ_near hL he h0 h1 hq bq hx
    refine ⟨TransverseMercator.iterQ e' q x, x, rfl, k.1, hx, ?_, bx, k.2, by simp⟩
    have := k.abs_le
    norm_num at *; linarith
  | succ m ih =>
    obtain ⟨k, b⟩ := iterQ_near hL he h0 h1 hq bq hx
    have b1 := k.abs_le
    obtain ⟨u, v, e1, e2, e3, e4, e5, e6, e7⟩ := ih (TransverseMercator.iterQ e' q x) x k.1 (by norm_num at *; linarith)
    refine ⟨u, v, e1, e2, e3, e4, e5, e6, e7.trans ?_⟩
    obtain ⟨k', _⟩ := iterQ_near hL he h0 h1 hq bq k.1
    have l1 := iterR_lip h0 (lt_of_le_of_lt h1 (by norm_num)) q.toQ (TransverseMercator.iterQ e' q x).toQ x.toQ
    have l2 : |((TransverseMercator.iterQ e' q (TransverseMercator.iterQ e' q x)).toQ : ℝ) - (TransverseMercator.iterQ e' q x).toQ| ≤
        0.01 * |((TransverseMercator.iterQ e' q x).toQ : ℝ) - x.toQ| + 1.2e-15 := by
      have t1 := k'.2
      have t2 := k.2
      have he2 : e ^ 2 ≤ 0.01 := by norm_num at *; nlinarith
      have t3 := mul_le_mul_of_nonneg_right he2 (abs_nonneg (((TransverseMercator.iterQ e' q x).toQ : ℝ) - x.toQ))
      have t4 := l1.trans t3
      generalize ((TransverseMercator.iterQ e' q (TransverseMercator.iterQ e' q x)).toQ : ℝ) = A at *
      generalize iterR e q.toQ (TransverseMercator.iterQ e' q x).toQ = B at *
      generalize ((TransverseMercator.iterQ e' q x).toQ : ℝ) = C at *
      generalize iterR e q.toQ x.toQ = D at *
      have := abs_sub_le A B C
      have := abs_sub_le B D C
      rw [abs_sub_comm] at t2
      norm_num at *; linarith
    have hp : (0 : ℝ) ≤ 0.01 ^ m := by positivity
    have := mul_le_mul_of_nonneg_left l2 hp
    rw [pow_succ]
    generalize (0.01 : ℝ) ^ m = P at *
    norm_num at this ⊢
    linarith

theorem abs_lt_b64 {x : B64} (h : x.isFinite = true) {t : B64} (ht : t.isFinite = true) :
    B64.lt (B64.abs x) t = true ↔ |x.toQ| < t.toQ := by
  rw [B64.lt_fin (by rw [B64.abs_finite]; exact h) ht, decide_eq_true_eq, B64.abs_toQ]

theorem tol_value : B64.isFinite (B64.lit 1e-12) = true ∧ |(B64.lit 1e-12).toQ - 1e-12| ≤ 1e-27 := by decide +kernel

/-- The loop stops in doubles. -/
theorem solveQ_near (hL : AccurateProjection L) (he : Near e' e 4.5e-16) (h0 : 0 ≤ e) (h1 : e ≤ 0.1) (hq : q.isFinite)
    (bq : |(q.toQ : ℝ)| ≤ 3.5) :
    ∃ u : F64 L, TransverseMercator.solveQ e' q = .ok u ∧ u.isFinite ∧ |(u.toQ : ℝ)| ≤ 3.53 ∧
      |(u.toQ : ℝ) - iterR e q.toQ u.toQ| ≤ 1.08e-14 := by
  obtain ⟨kx, bx⟩ := iterQ_near hL he h0 h1 hq bq hq
  have bx' := kx.abs_le
  have bx0 : |((TransverseMercator.iterQ e' q q).toQ : ℝ)| ≤ 3.53 := by norm_num at *; linarith
  obtain ⟨fl, vl⟩ := tol_value
  have vl' := abs_le.1 vl
  have sub_ok : ∀ u v : F64 L, u.isFinite → v.isFinite → |(u.toQ : ℝ)| ≤ 3.53 → |(v.toQ : ℝ)| ≤ 3.53 →
      ((Flt.abs (u - v) <. 1e-12 : Bool) = true ↔ |(u - v).toQ| < (B64.lit 1e-12).toQ) ∧
      Near (u - v) ((u.toQ : ℝ) - v.toQ) 9e-16 := by
    intro u v hu hv bu bv
    have k := Near.sub (Near.exact hu) (Near.exact hv) (R := 7.1) (E := 9e-16) (by
      have := abs_sub (u.toQ : ℝ) v.toQ
      norm_num at *; linarith) (by norm_num) (by norm_num) (by norm_num)
    refine ⟨?_, k⟩
    exact abs_lt_b64 k.1 fl
  have hex : ∃ m, (fun st : F64 L × F64 L => Flt.abs (st.1 - st.2) <. 1e-12)
      (iterate (fun st : F64 L × F64 L => (TransverseMercator.iterQ e' q st.1, st.1)) (m + 1)
        (TransverseMercator.iterQ e' q q, TransverseMercator.iterQ e' q q)) = true := by
    refine ⟨7, ?_⟩
    obtain ⟨u, v, e1, e2, e3, e4, e5, e6, e7⟩ := iterate_solveQ_f64 hL he h0 h1 hq bq 7 (TransverseMercator.iterQ e' q q)
      (TransverseMercator.iterQ e' q q) kx.1 bx0
    rw [e1]
    obtain ⟨s1, s2⟩ := sub_ok u v e2 e3 e4 e5
    show (Flt.abs (u - v) <. 1e-12 : Bool) = true
    rw [s1]
    obtain ⟨ky, by'⟩ := iterQ_near hL he h0 h1 hq bq kx.1
    have b2 := ky.abs_le
    have b3 := abs_sub ((TransverseMercator.iterQ e' q (TransverseMercator.iterQ e' q q)).toQ : ℝ) (TransverseMercator.iterQ e' q q).toQ
    have b4 := s2.abs_le
    have b5 : |((u - v).toQ : ℝ)| ≤ ((9e-14 : ℚ) : ℝ) := by push_cast; norm_num at *; linarith
    have b6 : |(u - v).toQ| ≤ 9e-14 := by exact_mod_cast b5
    norm_num at *
    linarith
  obtain ⟨u, v, e1, e2, e3, e4, e5, e6, _⟩ := iterate_solveQ_f64 hL he h0 h1 hq bq (Nat.find hex) (TransverseMercator.iterQ e' q q)
      (TransverseMercator.iterQ e' q q) kx.1 bx0
  have hdone := Nat.find_spec hex
  unfold TransverseMercator.solveQ loopUntil
  simp only
  rw [dif_pos hex, e1]
  rw [e1] at hdone
  obtain ⟨s1, s2⟩ := sub_ok u v e2 e3 e4 e5
  replace hdone := s1.1 hdone
  refine ⟨u, rfl, e2, e4, ?_⟩
  have d1 : |(u - v).toQ| ≤ 1.001e-12 := by norm_num at *; linarith
  have d2 := cast_abs_le d1
  have d3 := abs_sub_le ((u.toQ : ℝ) - v.toQ) (u - v).toQ 0
  have s3 := s2.2
  rw [abs_sub_comm] at s3
  rw [sub_zero, sub_zero] at d3
  have l1 := iterR_lip h0 (lt_of_le_of_lt h1 (by norm_num)) q.toQ v.toQ u.toQ
  have he2 : e ^ 2 ≤ 0.01 := by norm_num at *; nlinarith
  have t3 := mul_le_mul_of_nonneg_right he2 (abs_nonneg ((v.toQ : ℝ) - u.toQ))
  rw [abs_sub_comm (v.toQ : ℝ)] at t3 l1
  have d4 := abs_sub_le (u.toQ : ℝ) (iterR e q.toQ v.toQ) (iterR e q.toQ u.toQ)
  push_cast at d2
  norm_num at *
  linarith

/-- Two approximate solutions of the equation of the loop. -/
theorem solve_close {e q q' u v D : ℝ} (h0 : 0 ≤ e) (h1 : e ≤ 0.1) (hu : |u - iterR e q u| ≤ 1.08e-14) (hv : |v - iterR e q' v| ≤ 1e-14)
    (hq : |q - q'| ≤ D) : |u - v| ≤ 1.011 * D + 2.11e-14 := by
  have l := iterR_lip h0 (lt_of_le_of_lt h1 (by norm_num)) q u v
  have he2 : e ^ 2 ≤ 0.01 := by norm_num at *; nlinarith
  have l2 := l.trans (mul_le_mul_of_nonneg_right he2 (abs_nonneg _))
  have hs : iterR e q v - iterR e q' v = q - q' := by unfold iterR; ring
  have t1 := abs_sub_le u (iterR e q u) v
  have t2 := abs_sub_le (iterR e q u) (iterR e q v) v
  have t3 := abs_sub_le (iterR e q v) (iterR e q' v) v
  rw [hs] at t3
  rw [abs_sub_comm] at hv
  have := (abs_nonneg _).trans hq
  norm_num at *
  linarith

end
end Geo
