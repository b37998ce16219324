import Verif.Lemmas.KarneySeriesRound

/-! The longitude series of the Karney solver in IEEE arithmetic. -/

namespace Geo
open XR Spec KarneyGeodesicSolver
variable {L : Libm} {x : F64 L} {ε : ℝ} {el : Ellipsoid (F64 L)} {n : ℝ}

/-- A polynomial in the third flattening. -/
theorem inner_near {y : F64 L} (hn : Near y n 3e-16) (hn' : |n| ≤ 0.0026) {cs : List B64} {qs : List ℚ} (h : coefOk cs qs = true) :
    Near ((Polynomial.mk (F := F64 L) cs).fastEvalAt y) (pev n (qs.map (fun q : ℚ => (q : ℝ)))) 5.1e-16 ∧ |pev n (qs.map (fun q : ℚ => (q : ℝ)))| ≤ 1.01 := by
  obtain ⟨k1, k2⟩ := poly_near hn hn' (by norm_num) (by norm_num) (by norm_num) (by norm_num) (coef_of_ok (L := L) h)
  exact ⟨k1.mono (by norm_num), k2.trans (by norm_num)⟩

theorem lit_coef {cs : F64 L} {q : ℚ} (h : coefOk [cs] [q] = true) : Near cs q 5.1e-16 ∧ |(q : ℝ)| ≤ 1.01 := by
  have := coef_of_ok (L := L) h
  cases this with
  | cons h1 h2 _ => exact ⟨h1.mono (by norm_num), h2.trans (by norm_num)⟩

theorem A3_near (hn : Near el.n n 3e-16) (hn' : |n| ≤ 0.0026) (hx : Near x ε 3e-16) (h0 : 0 ≤ ε) (h1 : ε ≤ 0.0026) :
    Near ((new el).A3 x) (karneyA3 n ε) 4.4e-16 ∧ |karneyA3 n ε| ≤ 1.0027 := by
  have hX : |ε| ≤ 0.0026 := by rwa [abs_of_nonneg h0]
  obtain ⟨o1, o2, o3, o4, o5⟩ := a3_ok
  obtain ⟨p1, q1⟩ := inner_near hn hn' o1
  obtain ⟨p2, q2⟩ := inner_near hn hn' o2
  obtain ⟨p3, q3⟩ := inner_near hn hn' o3
  obtain ⟨p4, q4⟩ := inner_near hn hn' o4
  obtain ⟨p5, q5⟩ := lit_coef (L := L) o5
  rw [← abs_neg] at q1 q2 q3 q4
  obtain ⟨k1, k2⟩ := poly_near hx hX (by norm_num) (by norm_num) (by norm_num) (by norm_num)
    (.cons p1.neg q1 (.cons p2.neg q2 (.cons p3.neg q3 (.cons p4.neg q4 (.cons p5 q5 .nil)))))
  clear p1 p2 p3 p4 p5 q1 q2 q3 q4 q5 o1 o2 o3 o4 o5
  set P := pev ε _ with hP
  have hb : |P * ε + 1| ≤ 1.0027 := by
    refine (abs_add_le _ _).trans ?_
    rw [abs_mul]
    have := mul_le_mul k2 hX (abs_nonneg _) (by norm_num)
    norm_num at *
    linarith
  have k3 := Near.mulAdd k1 hx int_1 k2 hX (R := 1.0028) (E := 4.4e-16) (by norm_num at * <;> linarith) (by norm_num) (by norm_num) (by norm_num)
  rw [← fastEval_cons] at k3
  have e : P * ε + 1 = karneyA3 n ε := by
    simp only [hP, pev, List.map, karneyA3]
    push_cast
    ring
  rw [e] at k3 hb
  exact ⟨k3, hb⟩

theorem I3_near (hL : AccurateGeodesic L) (hn : Near el.n n 3e-16) (hn' : |n| ≤ 0.0026) (hx : Near x ε 3e-16) (h0 : 0 ≤ ε) (h1 : ε ≤ 0.0026)
    {s : F64 L} {σ e E : ℝ} (ks : Near s σ e) (hσ : |σ| ≤ 7.6)
    (he : e ≤ 1.15e-13) (hE : 1.014 * e + 1.65e-14 ≤ E) :
    Near ((new el).I3 ((new el).A3 x) x ⟨s⟩) (karneyI3 n ε σ) E ∧ |karneyI3 n ε σ| ≤ 1.0028 * (|σ| + 0.0053) := by
  have hX : |ε| ≤ 0.0026 := by rwa [abs_of_nonneg h0]
  obtain ⟨kA, hA⟩ := A3_near (el := el) hn hn' hx h0 h1
  obtain ⟨o1, o2, o3, o4, o5, o6, o7, o8, o9, o10, o11, o12, o13, o14⟩ := c3_ok
  obtain ⟨p1, q1⟩ := inner_near hn hn' o1
  obtain ⟨p2, q2⟩ := inner_near hn hn' o2
  obtain ⟨p3, q3⟩ := inner_near hn hn' o3
  obtain ⟨p4, q4⟩ := inner_near hn hn' o4
  obtain ⟨p5, q5⟩ := lit_coef (L := L) o5
  obtain ⟨p6, q6⟩ := inner_near hn hn' o6
  obtain ⟨p7, q7⟩ := inner_near hn hn' o7
  obtain ⟨p8, q8⟩ := inner_near hn hn' o8
  obtain ⟨p9, q9⟩ := lit_coef (L := L) o9
  obtain ⟨p10, q10⟩ := inner_near hn hn' o10
  obtain ⟨p11, q11⟩ := inner_near hn hn' o11
  obtain ⟨p12, q12⟩ := lit_coef (L := L) o12
  obtain ⟨p13, q13⟩ := inner_near hn hn' o13
  obtain ⟨p14, q14⟩ := lit_coef (L := L) o14
  have z : Near (0 : F64 L) 0 5.1e-16 := zero_near.mono (by norm_num)
  have z' : |(0 : ℝ)| ≤ 1.01 := by norm_num
  obtain ⟨r1, t1⟩ := poly1_near hx hX (by norm_num) (by norm_num) (by norm_num) (by norm_num)
    (.cons p1 q1 (.cons p2 q2 (.cons p3 q3 (.cons p4 q4 (.cons p5 q5 .nil)))))
  obtain ⟨r2, t2⟩ := poly2_near hx hX (by norm_num) (by norm_num) (by norm_num) (by norm_num)
    (.cons p6 q6 (.cons p7 q7 (.cons p8 q8 (.cons p9 q9 .nil))))
  obtain ⟨r3, t3⟩ := poly2_near hx hX (by norm_num) (by norm_num) (by norm_num) (by norm_num)
    (.cons z z' (.cons p10 q10 (.cons p11 q11 (.cons p12 q12 .nil))))
  obtain ⟨r4, t4⟩ := poly2_near hx hX (by norm_num) (by norm_num) (by norm_num) (by norm_num)
    (.cons z z' (.cons z z' (.cons p13 q13 (.cons p12 q12 .nil))))
  obtain ⟨r5, t5⟩ := poly2_near hx hX (by norm_num) (by norm_num) (by norm_num) (by norm_num)
    (.cons z z' (.cons z z' (.cons z z' (.cons p14 q14 .nil))))
  have k := series_near hL (kA.mono (by norm_num)) hA (by norm_num) ks hσ he r1 t1
    (.cons r2 t2 (.cons r3 t3 (.cons r4 t4 (.cons r5 t5 .nil)))) (by simp) hE (c0 := (Polynomial.mk [0, 0, 0, 0, 0, 0]).fastEvalAt x)
  have e : ∀ v1 v2 v3 v4 v5 : ℝ, v1 = karneyC3 n ε 1 → v2 = karneyC3 n ε 2 → v3 = karneyC3 n ε 3 → v4 = karneyC3 n ε 4 → v5 = karneyC3 n ε 5 →
      karneyA3 n ε * (σ + sinSum (2 * σ) 1 [v1, v2, v3, v4, v5]) = karneyI3 n ε σ := by
    intro v1 v2 v3 v4 v5 h1 h2 h3 h4 h5
    rw [karneyI3, sineSum_sinSum, h1, h2, h3, h4, h5, show karneyC3 n ε 6 = 0 from rfl]
    simp only [sinSum]
    ring
  rw [e] at k
  · exact k
  all_goals
    simp only [pev, List.map, karneyC3]
    push_cast
    ring

end Geo
