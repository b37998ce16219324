import Verif.Props.ProjectedF64

/-! Forward projections of rounded geographic coordinates. -/

namespace Geo
open XR Spec
variable {L : Libm}

/-- The isometric latitude is as steep as `1 / cos φ`. -/
theorem isoQ_lip_local {e φ y δ : ℝ} (h0 : 0 ≤ e) (h1 : e < 1) (hφ : |φ| ≤ Real.pi / 2) (hc : 1.01e-3 ≤ Real.cos φ) (h : |y - φ| ≤ δ)
    (hδ : δ ≤ 1e-6) : |isoQ e y - isoQ e φ| ≤ 1.001 / Real.cos φ * δ ∧ |y| < Real.pi / 2 ∧ Real.cos φ ≤ 1.001 * Real.cos y ∧ 1e-3 ≤ Real.cos y := by
  have hcp : 0 < Real.cos φ := lt_of_lt_of_le (by norm_num) hc
  have δ0 : 0 ≤ δ := (abs_nonneg _).trans h
  have hpi := Real.pi_gt_d4
  have edge : ∀ z, |z - φ| ≤ δ → |z| < Real.pi / 2 := by
    intro z hz
    have hb : |φ| ≤ Real.pi / 2 - 1e-3 := by
      by_contra hh
      push Not at hh
      rw [← Real.cos_abs, ← Real.sin_pi_div_two_sub] at hc
      have := Real.sin_le (show 0 ≤ Real.pi / 2 - |φ| by linarith)
      norm_num at *
      linarith
    have := abs_sub_abs_le_abs_sub z φ
    norm_num at *
    linarith
  have cz : ∀ z, |z - φ| ≤ δ → Real.cos φ ≤ 1.001 * Real.cos z := by
    intro z hz
    have := (abs_le.1 (Real.abs_cos_sub_cos_le φ z)).2
    rw [abs_sub_comm] at this
    norm_num at *
    linarith
  have cy := cz y h
  refine ⟨?_, edge y h, cy, by norm_num at *; linarith⟩
  refine (lip_of_deriv (s := Metric.closedBall φ δ) (convex_closedBall φ δ)
    (fun z hz => isoQ_deriv h0 h1 (abs_lt.1 (edge z ?_)).1 (abs_lt.1 (edge z ?_)).2) (fun z hz => ?_) (C := 1.001 / Real.cos φ) ?_ ?_).trans
    (mul_le_mul_of_nonneg_left h (by positivity))
  · simpa [Real.dist_eq] using hz
  · simpa [Real.dist_eq] using hz
  · have c1 := cz z (by simpa [Real.dist_eq] using hz)
    have czp : 0 < Real.cos z := by norm_num at *; linarith
    have s1 := Real.sin_sq_le_one z
    have w : 1 - e ^ 2 ≤ 1 - e ^ 2 * Real.sin z ^ 2 := by nlinarith [sq_nonneg e]
    have e1 : 0 < 1 - e ^ 2 := by nlinarith
    rw [abs_of_pos (div_pos e1 (mul_pos czp (by linarith))), div_le_div_iff₀ (mul_pos czp (by linarith)) hcp]
    have := mul_le_mul c1 w e1.le (by positivity)
    linarith
  · simpa [Real.dist_eq] using h
  · simpa using δ0

/-- The easting of a point whose longitude is known to `δ`. -/
theorem east_same {E fe A l l' l0 δ e : ℝ} {j n : ℤ} (hA : 0 ≤ A) (hl : |l - l' - j * (2 * Real.pi)| ≤ δ) (hδ : δ ≤ 1e-6)
    (hE : |E - (fe + A * normR (l - l0)) - n * (2 * Real.pi * A)| ≤ e)
    (hn : (∃ j : ℤ, |l - l0 - j * (2 * Real.pi)| ≤ 3.14159265358979) → n = 0) :
    ∃ m : ℤ, |E - (fe + A * normR (l' - l0)) - m * (2 * Real.pi * A)| ≤ e + A * δ ∧ (|normR (l' - l0)| ≤ 3.14159 → m = 0) := by
  obtain ⟨p, hp⟩ := normR_same (l - l0)
  obtain ⟨q, hq⟩ := normR_same (l' - l0)
  have key : normR (l - l0) = normR (l' - l0) + (l - l' - j * (2 * Real.pi)) + ((j + p - q : ℤ) : ℝ) * (2 * Real.pi) := by
    rw [hp, hq]; push_cast; ring
  have r1 := normR_le (l - l0)
  have r2 := lt_normR (l - l0)
  refine ⟨n + (j + p - q), ?_, fun hX => ?_⟩
  · have e1 : E - (fe + A * normR (l' - l0)) - ((n + (j + p - q) : ℤ) : ℝ) * (2 * Real.pi * A) =
        (E - (fe + A * normR (l - l0)) - n * (2 * Real.pi * A)) + A * (l - l' - j * (2 * Real.pi)) := by
      rw [key]; push_cast; ring
    rw [e1]
    refine (abs_add_le _ _).trans (add_le_add hE ?_)
    rw [abs_mul, abs_of_nonneg hA]
    exact mul_le_mul_of_nonneg_left hl hA
  · have hn0 : n = 0 := hn ⟨j - q, by
      have e2 : l - l0 - ((j - q : ℤ) : ℝ) * (2 * Real.pi) = normR (l' - l0) + (l - l' - j * (2 * Real.pi)) := by
        rw [hq]; push_cast; ring
      rw [e2]
      refine (abs_add_le _ _).trans ?_
      norm_num at *
      linarith⟩
    have hpi := Real.pi_gt_d6
    have hr : |((j + p - q : ℤ) : ℝ)| < 1 := by
      have e3 : ((j + p - q : ℤ) : ℝ) * (2 * Real.pi) = normR (l - l0) - normR (l' - l0) - (l - l' - j * (2 * Real.pi)) := by
        rw [key]; ring
      have b : |((j + p - q : ℤ) : ℝ) * (2 * Real.pi)| < 2 * Real.pi := by
        rw [e3, abs_lt]
        rw [abs_le] at hX hl
        norm_num at *
        constructor <;> linarith
      rw [abs_mul, abs_of_pos (by linarith : 0 < 2 * Real.pi)] at b
      by_contra hc
      push Not at hc
      nlinarith
    have : j + p - q = 0 := by
      rw [← Int.abs_lt_one_iff]
      exact_mod_cast hr
    rw [hn0, this, add_zero]

/-- The plane coordinates that the projections `p` in doubles and `p'` in exact arithmetic give to a point whose longitude is known to `f` radians
of a great circle and its latitude to `g`: `e` metres apart in easting, whole multiples of `2πA` apart, and `n` metres in northing. -/
def ProjNear (p : Projection (F64 L)) (p' : Projection XR) (l' φ' f g fe A e n : ℝ) : Prop :=
  ∀ (l φ ht : F64 L) (h' : ℝ), InLonRange l → InLonRange φ → (∃ j : ℤ, Real.cos φ' * |(l.toQ : ℝ) - (l' + j * (2 * Real.pi))| ≤ f) →
    Near φ φ' g → ∃ (E N : F64 L) (E' N' : ℝ) (m : ℤ),
      p.proj ⟨⟨⟨l⟩⟩, ⟨⟨φ⟩⟩, ⟨ht⟩⟩ = .ok ⟨⟨E⟩, ⟨N⟩, ⟨ht⟩⟩ ∧ p'.proj (llh l' φ' h') = .ok (enh E' N' h') ∧
      E.isFinite ∧ |(E.toQ : ℝ)| ≤ 1.5e8 ∧ |(E.toQ : ℝ) - E' - m * (2 * Real.pi * A)| ≤ e ∧ (|E' - fe| ≤ 3.14159 * A → m = 0) ∧
      Near N N' n ∧ |(N.toQ : ℝ)| ≤ 1.5e8

/-- Web Mercator and Mercator: the exact easting is `fe + A · normR (l - l0)` and the exact northing `fn + A · isoQ e φ`. -/
theorem merc_write {p : Projection (F64 L)} {p' : Projection XR} {l' φ' f g A e : ℝ} {l0 fe fn : F64 L} (h0 : 0 ≤ e) (h1 : e < 1)
    (hA0 : 0 < A) (hA : A ≤ 1.4e7) (hfe1 : |fe.toQ| ≤ 20000000) (hfn1 : |fn.toQ| ≤ 20000000)
    (hφ : |φ'| ≤ Real.pi / 2) (hc : 1.01e-3 ≤ Real.cos φ') (hf : f ≤ 1e-9) (hg : g ≤ 1e-6)
    (hp' : ∀ h', p'.proj (llh l' φ' h') = .ok (enh (fe.toQ + A * normR (l' - l0.toQ)) (fn.toQ + A * isoQ e φ') h'))
    (hp : ∀ l φ ht : F64 L, InLonRange l → φ.isFinite → -(Real.pi / 2) < (φ.toQ : ℝ) → (φ.toQ : ℝ) < Real.pi / 2 → 1e-3 ≤ Real.cos φ.toQ →
      ∃ (E N : F64 L) (n : ℤ), p.proj ⟨⟨⟨l⟩⟩, ⟨⟨φ⟩⟩, ⟨ht⟩⟩ = .ok ⟨⟨E⟩, ⟨N⟩, ⟨ht⟩⟩ ∧ E.isFinite ∧
        |(E.toQ : ℝ) - (fe.toQ + A * normR ((l.toQ : ℝ) - l0.toQ)) - n * (2 * Real.pi * A)| ≤ 1e-7 ∧
        |normR ((l.toQ : ℝ) - l0.toQ) + n * (2 * Real.pi)| ≤ 3.142 ∧
        ((∃ j : ℤ, |(l.toQ : ℝ) - l0.toQ - j * (2 * Real.pi)| ≤ 3.14159265358979) → n = 0) ∧
        Near N (fn.toQ + A * isoQ e φ.toQ) (2.8e-7 + 1.3e-8 / Real.cos φ.toQ)) :
    ProjNear p p' l' φ' f g fe.toQ A (1e-7 + A * (f / Real.cos φ')) (2.8e-7 + 1.31e-8 / Real.cos φ' + A * (1.001 / Real.cos φ' * g)) := by
  intro l φ ht h' hl hφr hlon klat
  obtain ⟨j, hj⟩ := hlon
  have hcp : 0 < Real.cos φ' := lt_of_lt_of_le (by norm_num) hc
  obtain ⟨q1, q2, q3, q4⟩ := isoQ_lip_local h0 h1 hφ hc klat.2 hg
  obtain ⟨q5, q6⟩ := abs_lt.1 q2
  obtain ⟨E, N, n, r1, r2, r3, r4, r5, r6⟩ := hp l φ ht hl klat.1 q5 q6 q4
  have hd : |(l.toQ : ℝ) - l' - j * (2 * Real.pi)| ≤ f / Real.cos φ' := by
    rw [le_div_iff₀ hcp, mul_comm, sub_sub]; exact hj
  have hd1 : f / Real.cos φ' ≤ 1e-6 := by rw [div_le_iff₀ hcp]; norm_num at *; linarith
  obtain ⟨m, m1, m2⟩ := east_same hA0.le hd hd1 r3 r5
  have f1 : |(fe.toQ : ℝ)| ≤ 20000000 := by have := cast_abs_le hfe1; push_cast at this; exact this
  have f2 : |(fn.toQ : ℝ)| ≤ 20000000 := by have := cast_abs_le hfn1; push_cast at this; exact this
  have hN : Near N (fn.toQ + A * isoQ e φ') (2.8e-7 + 1.31e-8 / Real.cos φ' + A * (1.001 / Real.cos φ' * g)) := by
    refine ⟨r6.1, ?_⟩
    have t1 : |(fn.toQ + A * isoQ e φ.toQ : ℝ) - (fn.toQ + A * isoQ e φ')| ≤ A * (1.001 / Real.cos φ' * g) := by
      rw [show (fn.toQ + A * isoQ e φ.toQ : ℝ) - (fn.toQ + A * isoQ e φ') = A * (isoQ e φ.toQ - isoQ e φ') by ring, abs_mul, abs_of_pos hA0]
      exact mul_le_mul_of_nonneg_left q1 hA0.le
    refine (write_shift r6.2 t1).trans ?_
    have t2 : 1.3e-8 / Real.cos (φ.toQ : ℝ) ≤ 1.31e-8 / Real.cos φ' := by
      rw [div_le_div_iff₀ (lt_of_lt_of_le (by norm_num) q4) hcp]
      norm_num at *
      linarith
    linarith
  have bI : |isoQ e φ.toQ| ≤ 8 := (isoQ_abs_le h0 h1 q2).trans (lat_inside q5 q6 q4).2
  refine ⟨E, N, _, _, m, r1, hp' h', r2, ?_, m1, fun hh => m2 ?_, hN, ?_⟩
  · have e1 : (E.toQ : ℝ) = (E.toQ - (fe.toQ + A * normR ((l.toQ : ℝ) - l0.toQ)) - n * (2 * Real.pi * A)) + fe.toQ +
        A * (normR ((l.toQ : ℝ) - l0.toQ) + n * (2 * Real.pi)) := by ring
    rw [e1]
    refine (abs_add_three _ _ _).trans ?_
    have : |A * (normR ((l.toQ : ℝ) - l0.toQ) + n * (2 * Real.pi))| ≤ 1.4e7 * 3.142 := by
      rw [abs_mul, abs_of_pos hA0]
      exact mul_le_mul hA r4 (abs_nonneg _) (by norm_num)
    norm_num at *
    linarith
  · rw [add_sub_cancel_left, abs_mul, abs_of_pos hA0, mul_comm] at hh
    exact le_of_mul_le_mul_right hh hA0
  · have t1 := Near.abs_le r6
    have t2 : |A * isoQ e φ.toQ| ≤ 1.4e7 * 8 := by
      rw [abs_mul, abs_of_pos hA0]
      exact mul_le_mul hA bI (abs_nonneg _) (by norm_num)
    have t3 := abs_add_le (fn.toQ : ℝ) (A * isoQ e φ.toQ)
    have t4 : 1.3e-8 / Real.cos (φ.toQ : ℝ) ≤ 1 := by
      rw [div_le_iff₀ (lt_of_lt_of_le (by norm_num) q4)]; norm_num at *; linarith
    norm_num at *
    linarith

theorem lat_open {φ c : ℝ} (hφ : |φ| ≤ Real.pi / 2) (hc : c ≤ Real.cos φ) (h : 0 < c) : -(Real.pi / 2) < φ ∧ φ < Real.pi / 2 := by
  obtain ⟨a, b⟩ := abs_le.1 hφ
  constructor
  · refine lt_of_le_of_ne a fun e => ?_
    rw [← e, Real.cos_neg, Real.cos_pi_div_two] at hc
    linarith
  · refine lt_of_le_of_ne b fun e => ?_
    rw [e, Real.cos_pi_div_two] at hc
    linarith

theorem web_write (hL : AccurateProjection L) {el : Ellipsoid (F64 L)} (h : EarthSized el) {l0 fe fn : F64 L} {l' φ' f g : ℝ}
    (hl0 : InLonRange l0) (hfe : fe.isFinite) (hfe1 : |fe.toQ| ≤ 20000000) (hfn : fn.isFinite) (hfn1 : |fn.toQ| ≤ 20000000)
    (hφ : |φ'| ≤ Real.pi / 2) (hc : 1.01e-3 ≤ Real.cos φ') (hf : f ≤ 1e-9) (hg : g ≤ 1e-6) (lat0 : Lat (F64 L)) (lat0' : Lat XR) (s : String) :
    ProjNear ((ProjectionSpec.webMercator ⟨⟨l0⟩⟩ lat0 ⟨fe⟩ ⟨fn⟩).appliedTo el)
      ((ProjectionSpec.webMercator (lonR l0.toQ) lat0' ⟨fin fe.toQ⟩ ⟨fin fn.toQ⟩).appliedTo (ell s el.a.m.toQ el.b.m.toQ)) l' φ' f g
      fe.toQ el.a.m.toQ (1e-7 + el.a.m.toQ * (f / Real.cos φ')) (2.8e-7 + 1.31e-8 / Real.cos φ' + el.a.m.toQ * (1.001 / Real.cos φ' * g)) := by
  obtain ⟨a0, a1⟩ := earth_a h
  obtain ⟨i1, i2⟩ := lat_open hφ hc (by norm_num)
  refine merc_write (e := 0) (l0 := l0) le_rfl (by norm_num) (by linarith) ((abs_le.1 a1).2.trans (by norm_num)) hfe1 hfn1 hφ hc hf hg (fun h' => ?_) ?_
  · rw [isoQ_sphere]; exact webMerc_proj _ _ _ _ _ _ _ _ _ _ i1 i2
  · intro l φ ht hl hφ' h1 h2 hc'
    obtain ⟨E, N, n, r1, r2, r3, r4, r5, r6⟩ := web_forward hL h (ht := ht) hl hl0 hφ' h1 h2 hc' hfe hfe1 hfn hfn1 lat0
    have hcp : 0 < Real.cos (φ.toQ : ℝ) := lt_of_lt_of_le (by norm_num) hc'
    refine ⟨E, N, n, r1, r2, r3.trans (by norm_num), r4, r5, ?_⟩
    rw [isoQ_sphere]
    refine r6.mono (add_le_add (by norm_num) ?_)
    rw [div_le_div_iff_of_pos_right hcp]
    norm_num

theorem same_merc_write (hL : AccurateProjection L) {el : Ellipsoid (F64 L)} (h : EarthSized el) {l0 fe fn : F64 L} {l' φ' f g K : ℝ} {s : String}
    {p : Projection (F64 L)} {p' : Projection XR} (hp : SameMercator s el l0 fe fn K p p')
    (hl0 : InLonRange l0) (hfe : fe.isFinite) (hfe1 : |fe.toQ| ≤ 20000000) (hfn : fn.isFinite) (hfn1 : |fn.toQ| ≤ 20000000)
    (hφ : |φ'| ≤ Real.pi / 2) (hc : 1.01e-3 ≤ Real.cos φ') (hf : f ≤ 1e-9) (hg : g ≤ 1e-6) :
    ProjNear p p' l' φ' f g fe.toQ (K * el.a.m.toQ) (1e-7 + K * el.a.m.toQ * (f / Real.cos φ'))
      (2.8e-7 + 1.31e-8 / Real.cos φ' + K * el.a.m.toQ * (1.001 / Real.cos φ' * g)) := by
  obtain ⟨a0, a1⟩ := earth_a h
  obtain ⟨e1, e2, e3⟩ := earth_real h
  obtain ⟨i1, i2⟩ := lat_open hφ hc (by norm_num)
  obtain ⟨k0, lat0, κ, rfl, hk, K1, K2, hi⟩ := hp.eq hL h
  have hb0 : (0 : ℝ) < el.b.m.toQ := by linarith
  have K3 : K ≤ 2 := by rcases K2 with ⟨-, k⟩ | ⟨-, k⟩ <;> linarith
  have M0 : 0 < K * (el.a.m.toQ : ℝ) := by
    have : 0 < K := lt_of_lt_of_le (by norm_num) K1
    have : (0 : ℝ) < el.a.m.toQ := by linarith
    positivity
  have M1 : K * (el.a.m.toQ : ℝ) ≤ 1.4e7 := by
    have := mul_le_mul K3 e3 (by linarith) (by norm_num); norm_num at *; linarith
  refine merc_write (l0 := l0) (Real.sqrt_nonneg (ecc2 el.a.m.toQ el.b.m.toQ)) (sqrt_ecc2_lt hb0 e2) M0 M1 hfe1 hfn1 hφ hc hf hg (fun h' => ?_) ?_
  · exact hi.proj hb0 e2 _ _ _ i1 i2
  · intro l φ ht hl hφ' h1 h2 hc'
    have hcp : 0 < Real.cos (φ.toQ : ℝ) := lt_of_lt_of_le (by norm_num) hc'
    have g0 : 0 ≤ 1 / Real.cos (φ.toQ : ℝ) := by positivity
    have hκ : κ ≤ 1e-14 := by rcases K2 with ⟨k, -⟩ | ⟨k, -⟩ <;> rw [k] <;> norm_num
    obtain ⟨E, N, n, r1, r2, r3, r4, r5, r6⟩ := merc_forward hL h (ht := ht) lat0 hk (le_trans (by norm_num) K1) (K3.trans (by norm_num)) hκ hl hl0 hφ'
      h1 h2 hc' hfe hfe1 hfn hfn1
    refine ⟨E, N, n, r1, r2, r3.trans ?_, r4, r5, r6.mono ?_⟩
    · rcases K2 with ⟨k, -⟩ | ⟨k, k'⟩
      · rw [k]; norm_num at *; linarith
      · have : K * (el.a.m.toQ : ℝ) ≤ 7e6 := by
          have := mul_le_mul k' e3 (by linarith) (by norm_num); norm_num at *; linarith
        rw [k]; norm_num at *; linarith
    · rw [show 9.11e-16 / Real.cos (φ.toQ : ℝ) = 9.11e-16 * (1 / Real.cos (φ.toQ : ℝ)) by ring,
        show 1.3e-8 / Real.cos (φ.toQ : ℝ) = 1.3e-8 * (1 / Real.cos (φ.toQ : ℝ)) by ring]
      generalize 1 / Real.cos (φ.toQ : ℝ) = G at *
      have t : K * (el.a.m.toQ : ℝ) * G ≤ 1.4e7 * G := mul_le_mul_of_nonneg_right M1 g0
      rcases K2 with ⟨k, -⟩ | ⟨k, k'⟩
      · rw [k]; norm_num at *; nlinarith
      · have : K * (el.a.m.toQ : ℝ) ≤ 7e6 := by
          have := mul_le_mul k' e3 (by linarith) (by norm_num); norm_num at *; linarith
        rw [k]; norm_num at *; nlinarith

end Geo
