import Verif.Lemmas.TransversePlane
import Verif.Lemmas.TransverseLoop
import Verif.Spec.IeeeSpecial

/-! The inverse of the transverse Mercator projection far from the central meridian, in IEEE arithmetic. -/

namespace Geo
open XR Spec
variable {L : Libm}

/-! ### NaN and infinities -/

namespace B64

theorem nonfin_add {a : B64} (h : a.isFinite = false) (b : B64) : (add a b).isFinite = false := by
  by_contra k
  rw [Bool.not_eq_false] at k
  rw [(finite_of_add k).1] at h
  cases h

theorem add_nonfin {b : B64} (h : b.isFinite = false) (a : B64) : (add a b).isFinite = false := by
  by_contra k
  rw [Bool.not_eq_false] at k
  rw [(finite_of_add k).2] at h
  cases h

theorem sub_nonfin {b : B64} (h : b.isFinite = false) (a : B64) : (sub a b).isFinite = false :=
  add_nonfin (by rw [neg_finite]; exact h) a

theorem mul_nonfin {b : B64} (h : b.isFinite = false) (a : B64) : (mul a b).isFinite = false := by
  by_contra k
  rw [Bool.not_eq_false] at k
  rw [(finite_of_mul k).2] at h
  cases h

/-- Not NaN, and of magnitude `c` at least unless infinite. -/
def Far (c : ℚ) (x : B64) : Prop := x ≠ nan ∧ (x.isFinite = true → c ≤ |x.toQ|)

theorem ofQ_far {s : Bool} {c q : ℚ} (hc : Rep c) (h : c ≤ |q|) : Far c (ofQ s q) := by
  refine ⟨ofQ_notNaN _ _, fun f => ?_⟩
  rw [ofQ_toQ f, abs_rndQ]
  exact le_rndQ hc h

theorem sub_far {a b : B64} (ha : a.isFinite = true) (hb : b.isFinite = true) {c : ℚ} (hc : Rep c) (h0 : 0 < c)
    (h : c ≤ |a.toQ - b.toQ|) : Far c (sub a b) := by
  have hb' : b.neg.isFinite = true := by rw [neg_finite]; exact hb
  unfold sub
  rw [add_fin ha hb']
  unfold addFin
  split_ifs with k
  · exfalso
    have e1 : a.toQ = 0 := by rw [k.1]; rfl
    have e2 : b.toQ = 0 := by
      have : b.neg.toQ = 0 := by rw [k.2]; rfl
      rw [neg_toQ] at this
      linarith
    rw [e1, e2] at h
    norm_num at h
    linarith
  · refine ofQ_far hc ?_
    rw [neg_toQ, ← sub_eq_add_neg]
    exact h

theorem mul_far {a b : B64} (ha : a.isFinite = true) {c d : ℚ} (hc : Rep c) (h0 : 0 < a.toQ) (hb : Far d b)
    (h : c ≤ a.toQ * d) : Far c (mul a b) := by
  by_cases f : b.isFinite = true
  · rw [mul_fin ha f]
    refine ofQ_far hc ?_
    rw [abs_mul, abs_of_pos h0]
    exact h.trans (mul_le_mul_of_nonneg_left (hb.2 f) h0.le)
  · rcases not_finite f with rfl | ⟨s, rfl⟩
    · exact absurd rfl hb.1
    · rw [mul_inf_right s ha, if_neg h0.ne']
      exact ⟨by simp, fun k => by cases k⟩

theorem div_far {a b : B64} (hb : b.isFinite = true) {c d e : ℚ} (hc : Rep c) (h0 : 0 < b.toQ) (he : b.toQ ≤ e) (ha : Far d a)
    (hc0 : 0 ≤ c) (h : c * e ≤ d) : Far c (div a b) := by
  by_cases f : a.isFinite = true
  · rw [div_fin f hb, divFin, if_neg h0.ne']
    refine ofQ_far hc ?_
    rw [abs_div, abs_of_pos h0, le_div_iff₀ h0]
    exact (mul_le_mul_of_nonneg_left he hc0).trans (h.trans (ha.2 f))
  · rcases not_finite f with rfl | ⟨s, rfl⟩
    · exact absurd rfl ha.1
    · have e : ∃ t, div (inf s) b = inf t := by
        cases b with
        | nan => cases hb
        | inf t => cases hb
        | negZero => exact ⟨_, rfl⟩
        | num q hq => exact ⟨_, rfl⟩
      obtain ⟨t, ht⟩ := e
      rw [ht]
      exact ⟨by simp, fun k => by cases k⟩

/-- Finite and of magnitude `c` at most. -/
def Within (c : ℚ) (x : B64) : Prop := x.isFinite = true ∧ |x.toQ| ≤ c

theorem ofQ_within {s : Bool} {q : ℚ} {k : ℤ} (h1 : -1000 ≤ k) (h2 : k ≤ 1023) (h : |q| ≤ 2 ^ k) : Within (2 ^ k) (ofQ s q) := by
  have hrep : Rep ((2 : ℚ) ^ k) := ⟨1, k, by rw [Int.cast_one, one_mul], by norm_num, by linarith⟩
  have hr : |rndQ q| ≤ 2 ^ k := by rw [abs_rndQ]; exact rndQ_le hrep h
  have hf : (ofQ s q).isFinite = true := (ofQ_finite _ _).2 (lt_of_le_of_lt hr (two_zpow_lt (by linarith)))
  exact ⟨hf, by rw [ofQ_toQ hf]; exact hr⟩

theorem mul_within {a b : B64} {i j k : ℤ} (ha : Within (2 ^ i) a) (hb : Within (2 ^ j) b) (h1 : -1000 ≤ k) (h2 : k ≤ 1023)
    (h : i + j = k) : Within (2 ^ k) (mul a b) := by
  rw [mul_fin ha.1 hb.1]
  refine ofQ_within h1 h2 ?_
  rw [abs_mul, ← h, two_zpow_add]
  exact mul_le_mul ha.2 hb.2 (abs_nonneg _) (two_zpow_pos _).le

theorem add_within {a b : B64} {c d : ℚ} {k : ℤ} (ha : Within c a) (hb : Within d b) (h1 : -1000 ≤ k) (h2 : k ≤ 1023)
    (h : c + d ≤ 2 ^ k) : Within (2 ^ k) (add a b) := by
  rw [add_fin ha.1 hb.1]
  unfold addFin
  split_ifs
  · exact ⟨rfl, by simpa [toQ] using (two_zpow_pos k).le⟩
  · exact ofQ_within h1 h2 ((abs_add_le _ _).trans ((add_le_add ha.2 hb.2).trans h))

theorem sub_within {a b : B64} {c d : ℚ} {k : ℤ} (ha : Within c a) (hb : Within d b) (h1 : -1000 ≤ k) (h2 : k ≤ 1023)
    (h : c + d ≤ 2 ^ k) : Within (2 ^ k) (sub a b) :=
  add_within ha ⟨by rw [neg_finite]; exact hb.1, by rw [neg_toQ, abs_neg]; exact hb.2⟩ h1 h2 h

theorem Within.mono {a : B64} {c d : ℚ} (h : Within c a) (hcd : c ≤ d) : Within d a := ⟨h.1, h.2.trans hcd⟩

end B64

/-! ### The loop on NaN -/

theorem iterQ_nan_f64 (e q : F64 L) : TransverseMercator.iterQ e (F64.nan : F64 L) q = F64.nan := rfl

theorem solveQ_nan_f64 (e : F64 L) : TransverseMercator.solveQ e (F64.nan : F64 L) = .error .diverge := by
  unfold TransverseMercator.solveQ
  simp only [iterQ_nan_f64]
  unfold loopUntil
  rw [dif_neg]
  · rfl
  · rintro ⟨m, hm⟩
    rw [iterate_const _ _ rfl] at hm
    exact absurd hm (by
      change ¬ B64.lt (B64.abs (B64.sub B64.nan B64.nan)) (B64.lit 1e-12) = true
      exact Bool.false_ne_true)

/-! ### Overflow of the series -/

theorem eight_value : (B64.lit 8.0).isFinite = true ∧ (B64.lit 8.0).toQ = 8 := by decide +kernel

theorem sumSinCosh_overflow (hS : IeeeSpecial L) (h0 h1 h2 h3 x : F64 L) {y : F64 L} (hy : B64.Far 90 y) :
    B64.isFinite (TransverseMercator.sumSinCosh (F := F64 L) h0 h1 h2 h3 x y) = false := by
  have k := B64.mul_far (a := B64.lit 8.0) (c := 720) eight_value.1 ⟨720, 0, by norm_num, by norm_num, by norm_num⟩
    (by rw [eight_value.2]; norm_num) hy (by rw [eight_value.2]; norm_num)
  have hc : L.cosh (B64.mul (B64.lit 8.0) y) = .inf false := hS.cosh_overflow _ k.1 (fun f => le_trans (by norm_num) (k.2 f))
  have hc' : B64.isFinite (Flt.cosh (8.0 * y) : F64 L) = false := by
    change B64.isFinite (L.cosh (B64.mul (B64.lit 8.0) y)) = false
    rw [hc]
    rfl
  unfold TransverseMercator.sumSinCosh fsum
  simp only [List.foldl]
  exact B64.add_nonfin (B64.mul_nonfin hc' _) _

theorem unproj_overflow (hS : IeeeSpecial L) (p : TransverseMercator (F64 L)) (E N h : F64 L)
    (hy : B64.Far 90 ((Length.mk E - p.false_easting) / (p.B * p.k0) : F64 L)) :
    p.unproj ⟨⟨E⟩, ⟨N⟩, ⟨h⟩⟩ = .error .diverge := by
  have hq : ∀ x y z : F64 L, B64.isFinite z = false →
      Flt.asinh (Flt.tan (Flt.asin (Flt.sin (x - z) / Flt.cosh y))) = (F64.nan : F64 L) := by
    intro x y z hz
    have h1 : (Flt.sin (x - z) : F64 L) = F64.nan := hS.sin_nonfinite _ (B64.sub_nonfin hz x)
    rw [h1]
    show L.asinh (L.tan (L.asin B64.nan)) = _
    rw [hS.asin_nan, hS.tan_nan, hS.asinh_nan]
    rfl
  have hs : ∀ x y z : F64 L, B64.isFinite z = false →
      TransverseMercator.solveQ p.e (Flt.asinh (Flt.tan (Flt.asin (Flt.sin (x - z) / Flt.cosh y)))) = .error .diverge :=
    fun x y z hz => by rw [hq x y z hz, solveQ_nan_f64]
  unfold TransverseMercator.unproj
  refine (congrArg (fun r => r >>= _) (hs _ _ _ (sumSinCosh_overflow hS p.hp0 p.hp1 p.hp2 p.hp3 _ hy))).trans ?_
  rfl

/-! ### The loop near the poles and on flatter ellipsoids -/

section
variable {e : ℝ} {e' q : F64 L}

theorem iterQ_near_far (hL : AccurateProjection L) (he : Near e' e 4.5e-16) (h0 : 0 ≤ e) (h1 : e ≤ 0.52) (hq : q.isFinite)
    (bq : |(q.toQ : ℝ)| ≤ 41) {x : F64 L} (hx : x.isFinite) :
    Near (TransverseMercator.iterQ e' q x) (iterR e q.toQ x.toQ) 7e-15 ∧ |iterR e q.toQ x.toQ| ≤ 41.4 := by
  have bt := (abs_tanh_lt (x.toQ : ℝ)).le
  have be : |e| ≤ 0.52 := by rw [abs_of_nonneg h0]; exact h1
  have k1 := Near.tanh hL (Near.exact hx) (E := 4.51e-16) (by norm_num)
  have k2 := Near.mul he k1 (A := 0.52) (B := 1) (R := 0.53) (E := 8e-16) be bt (by norm_num) (by norm_num) (by norm_num) (by norm_num)
  have b2 : |e * Real.tanh x.toQ| ≤ 0.52 := by
    rw [abs_mul]; exact (mul_le_mul be bt (abs_nonneg _) (by norm_num)).trans (by norm_num)
  have b3 := abs_artanh_le_div (A := 0.72) b2 (by norm_num) (by norm_num)
  have k3 := Near.atanh hL k2 (m := 0.53) (K := 1.4) (A := 0.72) (E := 1.8e-15) (by norm_num at *; linarith) (by norm_num) (by norm_num) b3
    (by norm_num)
  have k4 := Near.mul he k3 (A := 0.52) (B := 0.72) (R := 0.38) (E := 1.4e-15) be b3 (by norm_num) (by norm_num) (by norm_num) (by norm_num)
  have b4 : |e * Real.artanh (e * Real.tanh x.toQ)| ≤ 0.3744 := by
    rw [abs_mul]; exact (mul_le_mul be b3 (abs_nonneg _) (by norm_num)).trans (by norm_num)
  have b5 := abs_add_le (q.toQ : ℝ) (e * Real.artanh (e * Real.tanh x.toQ))
  refine ⟨Near.add (Near.exact hq) k4 (R := 41.4) (by norm_num at *; linarith) (by norm_num) (by norm_num) (by norm_num), ?_⟩
  unfold iterR
  norm_num at *; linarith

theorem iterate_solveQ_far (hL : AccurateProjection L) (he : Near e' e 4.5e-16) (h0 : 0 ≤ e) (h1 : e ≤ 0.52) (hq : q.isFinite)
    (bq : |(q.toQ : ℝ)| ≤ 41) (m : ℕ) (x y : F64 L) (hx : x.isFinite) (bx : |(x.toQ : ℝ)| ≤ 41.5) :
    ∃ u v : F64 L, iterate (fun st : F64 L × F64 L => (TransverseMercator.iterQ e' q st.1, st.1)) (m + 1) (x, y) = (u, v) ∧
      u.isFinite ∧ v.isFinite ∧ |(u.toQ : ℝ)| ≤ 41.5 ∧ |(v.toQ : ℝ)| ≤ 41.5 ∧
      |(u.toQ : ℝ) - v.toQ| ≤ 0.28 ^ m * |((TransverseMercator.iterQ e' q x).toQ : ℝ) - x.toQ| + 2e-14 * (1 - 0.28 ^ m) := by
  induction m generalizing x y with
  | zero =>
    obtain ⟨k, b⟩ := iterQ_near_far hL he h0 h1 hq bq hx
    refine ⟨TransverseMercator.iterQ e' q x, x, rfl, k.1, hx, ?_, bx, by simp⟩
    have := k.abs_le
    norm_num at *; linarith
  | succ m ih =>
    obtain ⟨k, b⟩ := iterQ_near_far hL he h0 h1 hq bq hx
    have b1 := k.abs_le
    obtain ⟨u, v, e1, e2, e3, e4, e5, e7⟩ := ih (TransverseMercator.iterQ e' q x) x k.1 (by norm_num at *; linarith)
    refine ⟨u, v, e1, e2, e3, e4, e5, e7.trans ?_⟩
    obtain ⟨k', _⟩ := iterQ_near_far hL he h0 h1 hq bq k.1
    have l1 := iterR_lip h0 (lt_of_le_of_lt h1 (by norm_num)) q.toQ (TransverseMercator.iterQ e' q x).toQ x.toQ
    have l2 : |((TransverseMercator.iterQ e' q (TransverseMercator.iterQ e' q x)).toQ : ℝ) - (TransverseMercator.iterQ e' q x).toQ| ≤
        0.28 * |((TransverseMercator.iterQ e' q x).toQ : ℝ) - x.toQ| + 1.4e-14 := by
      have t1 := k'.2
      have t2 := k.2
      have he2 : e ^ 2 ≤ 0.28 := by norm_num at *; nlinarith
      have t3 := mul_le_mul_of_nonneg_right he2 (abs_nonneg (((TransverseMercator.iterQ e' q x).toQ : ℝ) - x.toQ))
      have t4 := l1.trans t3
      generalize ((TransverseMercator.iterQ e' q (TransverseMercator.iterQ e' q x)).toQ : ℝ) = A at *
      generalize iterR e q.toQ (TransverseMercator.iterQ e' q x).toQ = B at *
      generalize ((TransverseMercator.iterQ e' q x).toQ : ℝ) = C at *
      generalize iterR e q.toQ x.toQ = D at *
      have := abs_sub_le A B C
      have := abs_sub_le B D C
      rw [abs_sub_comm] at t2
      norm_num at *; linarith
    have hp : (0 : ℝ) ≤ 0.28 ^ m := by positivity
    have := mul_le_mul_of_nonneg_left l2 hp
    rw [pow_succ]
    generalize (0.28 : ℝ) ^ m = P at *
    norm_num at this ⊢
    linarith

/-- The loop stops whatever the latitude. -/
theorem solveQ_far (hL : AccurateProjection L) (he : Near e' e 4.5e-16) (h0 : 0 ≤ e) (h1 : e ≤ 0.52) (hq : q.isFinite)
    (bq : |(q.toQ : ℝ)| ≤ 41) :
    ∃ u : F64 L, TransverseMercator.solveQ e' q = .ok u ∧ u.isFinite ∧ |(u.toQ : ℝ)| ≤ 41.5 := by
  obtain ⟨kx, bx⟩ := iterQ_near_far hL he h0 h1 hq bq hq
  have bx' := kx.abs_le
  have bx0 : |((TransverseMercator.iterQ e' q q).toQ : ℝ)| ≤ 41.5 := by norm_num at *; linarith
  obtain ⟨fl, vl⟩ := tol_value
  have vl' := abs_le.1 vl
  have hex : ∃ m, (fun st : F64 L × F64 L => Flt.abs (st.1 - st.2) <. 1e-12)
      (iterate (fun st : F64 L × F64 L => (TransverseMercator.iterQ e' q st.1, st.1)) (m + 1)
        (TransverseMercator.iterQ e' q q, TransverseMercator.iterQ e' q q)) = true := by
    refine ⟨30, ?_⟩
    obtain ⟨u, v, e1, e2, e3, e4, e5, e7⟩ := iterate_solveQ_far hL he h0 h1 hq bq 30 (TransverseMercator.iterQ e' q q)
      (TransverseMercator.iterQ e' q q) kx.1 bx0
    rw [e1]
    have s2 := Near.sub (Near.exact e2) (Near.exact e3) (R := 84) (E := 1.1e-14) (by
      have := abs_sub (u.toQ : ℝ) v.toQ
      norm_num at *; linarith) (by norm_num) (by norm_num) (by norm_num)
    show (Flt.abs (u - v) <. 1e-12 : Bool) = true
    refine (abs_lt_b64 s2.1 fl).2 ?_
    obtain ⟨ky, by'⟩ := iterQ_near_far hL he h0 h1 hq bq kx.1
    have b2 := ky.abs_le
    have b3 := abs_sub ((TransverseMercator.iterQ e' q (TransverseMercator.iterQ e' q q)).toQ : ℝ) (TransverseMercator.iterQ e' q q).toQ
    have b4 := s2.abs_le
    have b5 : |((u - v).toQ : ℝ)| ≤ ((9e-14 : ℚ) : ℝ) := by push_cast; norm_num at *; linarith
    have b6 : |(u - v).toQ| ≤ 9e-14 := by exact_mod_cast b5
    change |(u - v).toQ| < (B64.lit 1e-12).toQ
    norm_num at *
    linarith
  obtain ⟨u, v, e1, e2, e3, e4, e5, _⟩ := iterate_solveQ_far hL he h0 h1 hq bq (Nat.find hex) (TransverseMercator.iterQ e' q q)
      (TransverseMercator.iterQ e' q q) kx.1 bx0
  unfold TransverseMercator.solveQ loopUntil
  simp only
  rw [dif_pos hex, e1]
  exact ⟨u, rfl, e2, e4⟩

end

/-! ### The series inside its range -/

theorem sum_lit : (B64.lit 2.0).isFinite = true ∧ (B64.lit 2.0).toQ = 2 ∧ (B64.lit 4.0).isFinite = true ∧ (B64.lit 4.0).toQ = 4 ∧
    (B64.lit 6.0).isFinite = true ∧ (B64.lit 6.0).toQ = 6 := by decide +kernel

theorem mul_lit_range {c y : B64} {d : ℚ} (fc : c.isFinite = true) (hc : c.toQ = d) (h0 : 0 ≤ d) (h8 : d ≤ 8) (fy : y.isFinite = true)
    (hy : |y.toQ| ≤ 88) : (B64.mul c y).isFinite = true ∧ |(B64.mul c y).toQ| ≤ 709 := by
  have hb : |c.toQ * y.toQ| ≤ 709 := by
    rw [abs_mul, hc, abs_of_nonneg h0]
    exact (mul_le_mul h8 hy (abs_nonneg _) (by norm_num)).trans (by norm_num)
  have hr : |rndQ (c.toQ * y.toQ)| ≤ 709 := by
    rw [abs_rndQ]
    exact rndQ_le ⟨709, 0, by norm_num, by norm_num, by norm_num⟩ hb
  have hf : (B64.mul c y).isFinite = true := by
    rw [B64.mul_fin fc fy]
    exact (B64.ofQ_finite _ _).2 (lt_of_le_of_lt hr (lt_of_lt_of_le (by norm_num) (two_zpow_le (by norm_num : (10 : ℤ) ≤ 1024))))
  refine ⟨hf, ?_⟩
  rw [B64.mul_fin fc fy] at hf ⊢
  rw [show (B64.mulFin c y).toQ = _ from B64.ofQ_toQ hf]
  exact hr

theorem mul_lit_finite {c x : B64} (fc : c.isFinite = true) (hc : |c.toQ| ≤ 2 ^ (3 : ℤ)) (fx : x.isFinite = true)
    (hx : |x.toQ| ≤ 2 ^ (1000 : ℤ)) : (B64.mul c x).isFinite = true :=
  (B64.mul_within (i := 3) (j := 1000) (k := 1003) ⟨fc, hc⟩ ⟨fx, hx⟩ (by norm_num) (by norm_num) (by norm_num)).1

theorem four_within {a b c d : B64} (ha : B64.Within (2 ^ (1019 : ℤ)) a) (hb : B64.Within (2 ^ (1019 : ℤ)) b)
    (hc : B64.Within (2 ^ (1019 : ℤ)) c) (hd : B64.Within (2 ^ (1019 : ℤ)) d) :
    B64.Within (2 ^ (1022 : ℤ)) (B64.add (B64.add (B64.add (B64.add (B64.lit 0) a) b) c) d) := by
  have e1 : (2 : ℚ) ^ (1020 : ℤ) = 2 * 2 ^ (1019 : ℤ) := by
    rw [show (1020 : ℤ) = 1 + 1019 by norm_num, two_zpow_add, zpow_one]
  have e2 : (2 : ℚ) ^ (1021 : ℤ) = 4 * 2 ^ (1019 : ℤ) := by
    rw [show (1021 : ℤ) = 2 + 1019 by norm_num, two_zpow_add]; norm_num
  have e3 : (2 : ℚ) ^ (1022 : ℤ) = 8 * 2 ^ (1019 : ℤ) := by
    rw [show (1022 : ℤ) = 3 + 1019 by norm_num, two_zpow_add]; norm_num
  have hp := two_zpow_pos 1019
  have r1 : ∀ t : ℚ, 0 < t → 2 * t + t ≤ 4 * t ∧ 4 * t + t ≤ 8 * t := fun t ht => ⟨by linarith, by linarith⟩
  have z : B64.Within 0 (B64.lit 0) := by rw [B64.lit_zero]; exact ⟨rfl, by simp [B64.toQ]⟩
  have s1 := B64.add_within (k := 1019) z ha (by norm_num) (by norm_num) (by rw [zero_add])
  have s2 := B64.add_within (k := 1020) s1 hb (by norm_num) (by norm_num) (by rw [e1, two_mul])
  have s3 := B64.add_within (k := 1021) s2 hc (by norm_num) (by norm_num) (by rw [e1, e2]; exact (r1 _ hp).1)
  exact B64.add_within (k := 1022) s3 hd (by norm_num) (by norm_num) (by rw [e2, e3]; exact (r1 _ hp).2)

theorem term_within {h t u : B64} (hh : B64.Within (2 ^ (-4 : ℤ)) h) (ht : B64.Within (2 ^ (0 : ℤ)) t)
    (hu : B64.Within (2 ^ (1023 : ℤ)) u) : B64.Within (2 ^ (1019 : ℤ)) (B64.mul (B64.mul h t) u) :=
  B64.mul_within (i := -4) (j := 1023) (B64.mul_within (i := -4) (j := 0) hh ht (by norm_num) (by norm_num) (by norm_num)) hu
    (by norm_num) (by norm_num) (by norm_num)

section
variable {h0 h1 h2 h3 x y : F64 L} (hS : IeeeSpecial L) (k0 : B64.Within (2 ^ (-4 : ℤ)) h0) (k1 : B64.Within (2 ^ (-4 : ℤ)) h1)
    (k2 : B64.Within (2 ^ (-4 : ℤ)) h2) (k3 : B64.Within (2 ^ (-4 : ℤ)) h3) (hx : B64.Within (2 ^ (1000 : ℤ)) x)
    (hy : B64.Within 88 y)
include hS k0 k1 k2 k3 hx hy

theorem sumSinCosh_within : B64.Within (2 ^ (1022 : ℤ)) (TransverseMercator.sumSinCosh (F := F64 L) h0 h1 h2 h3 x y) := by
  obtain ⟨a1, a2, a3, a4, a5, a6⟩ := sum_lit
  obtain ⟨a7, a8⟩ := eight_value
  have key : ∀ (c : ℚ) (d : ℚ) (h : B64), (B64.lit c).isFinite = true → (B64.lit c).toQ = d → 0 ≤ d → d ≤ 8 →
      B64.Within (2 ^ (-4 : ℤ)) h →
      B64.Within (2 ^ (1019 : ℤ)) (B64.mul (B64.mul h (L.sin (B64.mul (B64.lit c) x))) (L.cosh (B64.mul (B64.lit c) y))) := by
    intro c d h f1 f2 d0 d8 hh
    have fs := mul_lit_finite f1 (by rw [f2, abs_of_nonneg d0]; exact d8.trans (by norm_num)) hx.1 hx.2
    have fc := mul_lit_range f1 f2 d0 d8 hy.1 hy.2
    exact term_within hh ⟨(hS.sin_le_one _ fs).1, (hS.sin_le_one _ fs).2.trans (by norm_num)⟩ (hS.cosh_range _ fc.1 fc.2)
  exact four_within (key 2.0 2 h0 a1 a2 (by norm_num) (by norm_num) k0) (key 4.0 4 h1 a3 a4 (by norm_num) (by norm_num) k1)
    (key 6.0 6 h2 a5 a6 (by norm_num) (by norm_num) k2) (key 8.0 8 h3 a7 a8 (by norm_num) (by norm_num) k3)

theorem sumCosSinh_within : B64.Within (2 ^ (1022 : ℤ)) (TransverseMercator.sumCosSinh (F := F64 L) h0 h1 h2 h3 x y) := by
  obtain ⟨a1, a2, a3, a4, a5, a6⟩ := sum_lit
  obtain ⟨a7, a8⟩ := eight_value
  have key : ∀ (c : ℚ) (d : ℚ) (h : B64), (B64.lit c).isFinite = true → (B64.lit c).toQ = d → 0 ≤ d → d ≤ 8 →
      B64.Within (2 ^ (-4 : ℤ)) h →
      B64.Within (2 ^ (1019 : ℤ)) (B64.mul (B64.mul h (L.cos (B64.mul (B64.lit c) x))) (L.sinh (B64.mul (B64.lit c) y))) := by
    intro c d h f1 f2 d0 d8 hh
    have fs := mul_lit_finite f1 (by rw [f2, abs_of_nonneg d0]; exact d8.trans (by norm_num)) hx.1 hx.2
    have fc := mul_lit_range f1 f2 d0 d8 hy.1 hy.2
    exact term_within hh ⟨(hS.cos_le_one _ fs).1, (hS.cos_le_one _ fs).2.trans (by norm_num)⟩ (hS.sinh_range _ fc.1 fc.2)
  exact four_within (key 2.0 2 h0 a1 a2 (by norm_num) (by norm_num) k0) (key 4.0 4 h1 a3 a4 (by norm_num) (by norm_num) k1)
    (key 6.0 6 h2 a5 a6 (by norm_num) (by norm_num) k2) (key 8.0 8 h3 a7 a8 (by norm_num) (by norm_num) k3)

end

/-! ### From the series to the loop -/

/-- The quotient of a sine and a hyperbolic cosine. -/
theorem sin_div_cosh (hS : IeeeSpecial L) {x y : B64} (hx : x.isFinite = true) (hy : y ≠ .nan) :
    B64.Within 1 (B64.div (L.sin x) (L.cosh y)) := by
  obtain ⟨f, b⟩ := hS.sin_le_one x hx
  rcases hS.cosh_ge_one y hy with k | ⟨k1, k2⟩
  · rw [k]
    have e : ∀ z : B64, z.isFinite = true → B64.div z (.inf false) = B64.ofQ (xor z.isNeg false) 0 := by
      intro z hz
      cases z with
      | nan => cases hz
      | inf t => cases hz
      | negZero => rfl
      | num q hq => rfl
    rw [e _ f]
    have := B64.ofQ_within (s := xor (L.sin x).isNeg false) (q := 0) (k := 0) (by norm_num) (by norm_num) (by norm_num)
    simpa using this
  · have h0 : 0 < (L.cosh y).toQ := lt_of_lt_of_le (by norm_num) k2
    rw [B64.div_fin f k1, B64.divFin, if_neg h0.ne']
    have := B64.ofQ_within (s := xor (L.sin x).isNeg (L.cosh y).isNeg) (q := (L.sin x).toQ / (L.cosh y).toQ) (k := 0) (by norm_num) (by norm_num) (by
      rw [abs_div, abs_of_pos h0, div_le_iff₀ h0, zpow_zero, one_mul]
      exact b.trans k2)
    simpa using this

theorem tan_bound {x : ℝ} (h : |x| ≤ 7074237752028440 / 2 ^ 52) : |Real.tan x| ≤ 2.7e16 := by
  have hpi := Real.pi_gt_d20
  have hpi2 := Real.pi_lt_d4
  have key : ∀ y : ℝ, 0 ≤ y → y ≤ 7074237752028440 / 2 ^ 52 → |Real.tan y| ≤ 2.7e16 := by
    intro y y0 y1
    have hc : 3.8e-17 ≤ Real.cos y := by
      rw [← Real.sin_pi_div_two_sub]
      have hz : 6.1e-17 ≤ Real.pi / 2 - y := by norm_num at *; linarith
      have hm := Real.mul_le_sin (x := Real.pi / 2 - y) (by norm_num at *; linarith) (by linarith)
      refine le_trans ?_ hm
      rw [div_mul_eq_mul_div, le_div_iff₀ Real.pi_pos]
      norm_num at *
      nlinarith
    have hc0 : 0 < Real.cos y := lt_of_lt_of_le (by norm_num) hc
    rw [Real.tan_eq_sin_div_cos, abs_div, abs_of_pos hc0, div_le_iff₀ hc0]
    have := Real.abs_sin_le_one y
    norm_num at *
    linarith
  rcases le_total 0 x with h0 | h0
  · exact key x h0 (by rwa [abs_of_nonneg h0] at h)
  · have := key (-x) (by linarith) (by rwa [abs_of_nonpos h0] at h)
    rwa [Real.tan_neg, abs_neg] at this

theorem arsinh_41 {x : ℝ} (h : |x| ≤ 2.8e16) : |Real.arsinh x| ≤ 40 := by
  have hb : (2.8e16 : ℝ) ≤ Real.sinh 40 := by
    rw [Real.sinh_eq]
    have h1 := Real.exp_one_gt_d9
    have h2 : Real.exp 40 = Real.exp 1 ^ 40 := by rw [← Real.exp_nat_mul]; norm_num
    have h3 : (2.7 : ℝ) ^ 40 ≤ Real.exp 40 := by
      rw [h2]; exact pow_le_pow_left₀ (by norm_num) (by norm_num at *; linarith) 40
    have h4 : Real.exp (-40) ≤ 1 := Real.exp_le_one_iff.2 (by norm_num)
    norm_num at h3
    norm_num
    linarith
  rw [abs_le] at h ⊢
  constructor
  · rw [← Real.sinh_le_sinh, Real.sinh_arsinh, Real.sinh_neg]; linarith
  · rw [← Real.sinh_le_sinh, Real.sinh_arsinh]; linarith

theorem asinh_tan_asin (hL : AccurateProjection L) (hS : IeeeSpecial L) {x : F64 L} (h : B64.Within 1 x) :
    (Flt.asinh (Flt.tan (Flt.asin x)) : F64 L).isFinite ∧ |((Flt.asinh (Flt.tan (Flt.asin x)) : F64 L).toQ : ℝ)| ≤ 41 := by
  have f1 := (hL.asin x h.1 h.2).1
  have b1 : |(Flt.asin x : F64 L).toQ| ≤ (Flt.pi_2 : F64 L).toQ := hS.asin_le x h.1 h.2
  obtain ⟨f2, k2⟩ := hL.tan _ f1 b1
  have b2 : |((Flt.asin x : F64 L).toQ : ℝ)| ≤ 7074237752028440 / 2 ^ 52 := by
    rw [show (Flt.pi_2 : F64 L).toQ = B64.pi_2.toQ from rfl, pi_2_fin.2] at b1
    have := cast_abs_le b1
    push_cast at this
    norm_num at this ⊢
    exact this
  have b3 := tan_bound b2
  have b4 : |((Flt.tan (Flt.asin x) : F64 L).toQ : ℝ)| ≤ 2.8e16 := by
    have t := abs_sub_le ((Flt.tan (Flt.asin x) : F64 L).toQ : ℝ) (Real.tan (Flt.asin x : F64 L).toQ) 0
    rw [sub_zero, sub_zero] at t
    have t2 : (2⁻¹ : ℝ) ^ 1074 ≤ 1 := pow_le_one₀ (by norm_num) (by norm_num)
    generalize (2⁻¹ : ℝ) ^ 1074 = w at *
    norm_num at *
    linarith
  have b5 : |(Flt.tan (Flt.asin x) : F64 L).toQ| ≤ 1e20 := by
    have : |((Flt.tan (Flt.asin x) : F64 L).toQ : ℝ)| ≤ ((1e20 : ℚ) : ℝ) := b4.trans (by norm_num)
    exact_mod_cast this
  obtain ⟨f3, k3⟩ := hL.asinh _ f2 b5
  have b6 := arsinh_41 b4
  refine ⟨f3, ?_⟩
  have t := abs_sub_le ((Flt.asinh (Flt.tan (Flt.asin x)) : F64 L).toQ : ℝ) (Real.arsinh (Flt.tan (Flt.asin x) : F64 L).toQ) 0
  rw [sub_zero, sub_zero] at t
  have t2 : (2⁻¹ : ℝ) ^ 1074 ≤ 2⁻¹ := pow_le_of_le_one (by norm_num) (by norm_num) (by norm_num)
  generalize (2⁻¹ : ℝ) ^ 1074 = w at *
  norm_num at *
  linarith

theorem unproj_returns (hL : AccurateProjection L) (hS : IeeeSpecial L) (p : TransverseMercator (F64 L)) {e : ℝ} (he : Near p.e e 4.5e-16)
    (e0 : 0 ≤ e) (e1 : e ≤ 0.52) (k0 : B64.Within (2 ^ (-4 : ℤ)) p.hp0) (k1 : B64.Within (2 ^ (-4 : ℤ)) p.hp1)
    (k2 : B64.Within (2 ^ (-4 : ℤ)) p.hp2) (k3 : B64.Within (2 ^ (-4 : ℤ)) p.hp3) {E N h : F64 L}
    (hy : B64.Within 88 ((Length.mk E - p.false_easting) / (p.B * p.k0) : F64 L))
    (hx : B64.Within (2 ^ (1000 : ℤ)) ((Length.mk N - p.false_northing + p.k0 * p.M0) / (p.B * p.k0) : F64 L)) :
    ∃ (lon : Lon (F64 L)) (u : F64 L), p.unproj ⟨⟨E⟩, ⟨N⟩, ⟨h⟩⟩ = .ok ⟨lon, Lat.new (Angle.new (Flt.atan (Flt.sinh u)) RAD), ⟨h⟩⟩ ∧
      u.isFinite ∧ |(u.toQ : ℝ)| ≤ 41.5 := by
  have s1 := sumSinCosh_within hS k0 k1 k2 k3 hx hy
  have s2 := sumCosSinh_within hS k0 k1 k2 k3 hx hy
  have e3 : (2 : ℚ) ^ (1023 : ℤ) = 2 * 2 ^ (1022 : ℤ) := by
    rw [show (1023 : ℤ) = 1 + 1022 by norm_num, two_zpow_add, zpow_one]
  have g1 : (2 : ℚ) ^ (1000 : ℤ) ≤ 2 ^ (1022 : ℤ) := two_zpow_le (by norm_num)
  have g2 : (2 : ℚ) ^ (7 : ℤ) ≤ 2 ^ (1022 : ℤ) := two_zpow_le (by norm_num)
  have w1 := B64.sub_within (k := 1023) hx s1 (by norm_num) (by norm_num) (by rw [e3, two_mul]; exact add_le_add g1 le_rfl)
  have w2 := B64.sub_within (k := 1023) hy s2 (by norm_num) (by norm_num) (by
    rw [e3, two_mul]; exact add_le_add (le_trans (by norm_num) g2) le_rfl)
  have hn : ∀ z : B64, z.isFinite = true → z ≠ .nan := by rintro z hz rfl; cases hz
  obtain ⟨q1, q2⟩ := asinh_tan_asin hL hS (x := _) (sin_div_cosh hS w1.1 (hn _ w2.1))
  obtain ⟨u, u1, u2, u3⟩ := solveQ_far hL he e0 e1 q1 q2
  refine ⟨p.lon0.addAngle (Angle.new (Flt.asin (Flt.tanh (((Length.mk E - p.false_easting) / (p.B * p.k0) : F64 L) -
    TransverseMercator.sumCosSinh p.hp0 p.hp1 p.hp2 p.hp3 ((Length.mk N - p.false_northing + p.k0 * p.M0) / (p.B * p.k0) : F64 L)
      ((Length.mk E - p.false_easting) / (p.B * p.k0) : F64 L)) / Flt.cos (Flt.asin (Flt.sin (((Length.mk N - p.false_northing + p.k0 * p.M0) / (p.B * p.k0) : F64 L) -
    TransverseMercator.sumSinCosh p.hp0 p.hp1 p.hp2 p.hp3 ((Length.mk N - p.false_northing + p.k0 * p.M0) / (p.B * p.k0) : F64 L)
      ((Length.mk E - p.false_easting) / (p.B * p.k0) : F64 L)) / Flt.cosh (((Length.mk E - p.false_easting) / (p.B * p.k0) : F64 L) -
    TransverseMercator.sumCosSinh p.hp0 p.hp1 p.hp2 p.hp3 ((Length.mk N - p.false_northing + p.k0 * p.M0) / (p.B * p.k0) : F64 L)
      ((Length.mk E - p.false_easting) / (p.B * p.k0) : F64 L)))))) RAD), u, ?_, u2, u3⟩
  unfold TransverseMercator.unproj
  refine (congrArg (fun r => r >>= _) u1).trans ?_
  rfl

end Geo
