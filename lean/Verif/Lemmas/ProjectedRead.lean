import Verif.Props.TransformF64
import Verif.Props.TransverseInverseF64
import Verif.Props.MercatorF64
import Verif.Props.WebMercatorF64

/-! Errors in reading positions from projected coordinates, in IEEE arithmetic. -/

namespace Geo
open XR Spec
variable {L : Libm}

/-! ### Geocentric coordinates of a position whose longitude is known better near the equator -/

theorem cos_mul_lip {r x y d : ℝ} (hr : 0 ≤ r) (h : r * |x - y| ≤ d) : |r * Real.cos x - r * Real.cos y| ≤ d := by
  rw [← mul_sub, abs_mul, abs_of_nonneg hr]
  exact (mul_le_mul_of_nonneg_left (Real.abs_cos_sub_cos_le x y) hr).trans h

theorem sin_mul_lip {r x y d : ℝ} (hr : 0 ≤ r) (h : r * |x - y| ≤ d) : |r * Real.sin x - r * Real.sin y| ≤ d := by
  rw [← mul_sub, abs_mul, abs_of_nonneg hr]
  exact (mul_le_mul_of_nonneg_left (Real.abs_sin_sub_sin_le x y) hr).trans h

/-- Moving along the parallel by at most `f` radians of a great circle. -/
theorem parallel_move {a b : ℝ} (hb : 6000000 ≤ b) (hab : b ≤ a) (ha : a ≤ 7000000) (id n pn : String) (l0 : ℝ) {l l' φ h f : ℝ}
    (hc : 0 ≤ Real.cos φ) (hh : |h| ≤ 10000000) {m : ℤ} (hl : Real.cos φ * |l - l' - m * (2 * Real.pi)| ≤ f) {p : XYZ (F64 L)} {ε : ℝ}
    (k : NearXyz p ((dat id n pn a b l0).llhToXyz (llh l φ h)) ε) :
    NearXyz p ((dat id n pn a b l0).llhToXyz (llh l' φ h)) (ε + 1.84e7 * f) := by
  have hb0 : 0 < b := by linarith
  have hs : SameDirection (l' + m * (2 * Real.pi)) l' := ⟨m, rfl⟩
  rw [← llhToXyz_congr hb0 hab id n pn l0 φ h hs]
  rw [llhToXyz_all hb0 hab] at k ⊢
  have hd : |effLon a b l0 l - effLon a b l0 (l' + m * (2 * Real.pi))| = |l - l' - m * (2 * Real.pi)| := by
    unfold effLon
    split <;> congr 1 <;> ring
  rw [← hd] at hl
  generalize effLon a b l0 l = x at *
  generalize effLon a b l0 (l' + m * (2 * Real.pi)) = y at *
  obtain ⟨-, -, v1, v2⟩ := pvr_bounds hb hab ha φ
  generalize hv : pvr a b φ = v at *
  have hr : |v + h| ≤ 1.84e7 := by
    have := abs_add_le v h
    rw [abs_of_nonneg v1] at this
    norm_num at *; linarith
  have f0 : 0 ≤ f := le_trans (by positivity) hl
  have g : |v + h| * Real.cos φ * |x - y| ≤ 1.84e7 * f := by
    rw [mul_assoc]
    exact mul_le_mul hr hl (by positivity) (by norm_num)
  have gx := cos_mul_lip (by positivity) g
  have gy := sin_mul_lip (by positivity) g
  have key : ∀ t : ℝ, |(v + h) * Real.cos φ * t| = |(abs (v + h)) * Real.cos φ * t| := fun t => by
    rw [abs_mul, abs_mul, abs_mul, abs_mul, abs_abs]
  rw [← mul_sub, ← key, mul_sub] at gx gy
  obtain ⟨X, Y, Z, e, kx, ky, kz⟩ := k
  unfold geo at *
  rw [hv] at *
  simp only [xyz, XYZ.mk.injEq, Length.mk.injEq, XR.fin.injEq] at e
  obtain ⟨rfl, rfl, rfl⟩ := e
  exact ⟨_, _, _, rfl, kx.shift gx, ky.shift gy, kz.mono (by linarith)⟩

/-! ### Projections -/

/-- The geographic coordinates that the inverse projections `p` in doubles and `p'` in exact arithmetic give: `f` radians of a
great circle apart along the parallel and `g` radians along the meridian. -/
def UnprojNear (p : Projection (F64 L)) (p' : Projection XR) (E' N' f g : ℝ) : Prop :=
  ∀ (E N ht : F64 L) (h' : ℝ), Near E E' 3e-8 → Near N N' 3e-8 → ∃ (l φ : F64 L) (l' φ' : ℝ) (n : ℤ),
    p.unproj ⟨⟨E⟩, ⟨N⟩, ⟨ht⟩⟩ = .ok ⟨⟨⟨l⟩⟩, ⟨⟨φ⟩⟩, ⟨ht⟩⟩ ∧ p'.unproj (enh E' N' h') = .ok (llh l' φ' h') ∧ InLonRange l ∧
    Near φ φ' g ∧ |φ'| ≤ Real.pi / 2 ∧ Real.cos φ' * |(l.toQ : ℝ) - l' - n * (2 * Real.pi)| ≤ f

theorem near_lon_range {φ : F64 L} {φ' g : ℝ} (k : Near φ φ' g) (h : |φ'| ≤ 1.6) (hg : g ≤ 1) : InLonRange φ := by
  refine ⟨k.1, (k.abs_le_rat (q := 3) ?_).trans ?_⟩
  · push_cast; norm_num at *; linarith
  · rw [show (Flt.pi : F64 L).toQ = B64.pi.toQ from rfl, pi_fin.2]; norm_num

theorem remR_shift_near {x X u δ d : ℝ} (hd : |x - X| ≤ δ) {l : ℝ} {n : ℤ} (h : |l - remR (u + x) - n * (2 * Real.pi)| ≤ d) :
    ∃ m : ℤ, |l - remR (u + X) - m * (2 * Real.pi)| ≤ d + δ := by
  obtain ⟨i, hi⟩ := remR_same (u + x)
  obtain ⟨j, hj⟩ := remR_same (u + X)
  refine ⟨n + i - j, ?_⟩
  have e : l - remR (u + X) - ((n + i - j : ℤ) : ℝ) * (2 * Real.pi) = (l - remR (u + x) - n * (2 * Real.pi)) + (x - X) := by
    rw [hi, hj]; push_cast; ring
  rw [e]
  exact (abs_add_le _ _).trans (add_le_add h hd)

theorem offset_move {x X c A δ : ℝ} (hA : 0 < A) (h : |x - X| ≤ δ) : |(x - c) / A - (X - c) / A| ≤ δ / A := by
  rw [show (x - c) / A - (X - c) / A = (x - X) / A by ring, abs_div, abs_of_pos hA]
  exact div_le_div_of_nonneg_right h hA.le

theorem offset_grow {x X c A k K δ : ℝ} (h : |x - X| ≤ δ) (hX : |X - c| ≤ k * A) (hA : δ ≤ (K - k) * A) : |x - c| ≤ K * A := by
  have := abs_sub_le x X c
  linarith

theorem arctan_abs_le (x : ℝ) : |Real.arctan x| ≤ Real.pi / 2 :=
  abs_le.2 ⟨(Real.neg_pi_div_two_lt_arctan _).le, (Real.arctan_lt_pi_div_two _).le⟩

theorem web_unproj_near (hL : AccurateProjection L) {el : Ellipsoid (F64 L)} (h : EarthSized el) {l0 fe fn : F64 L} {E' N' : ℝ}
    (hl0 : InLonRange l0) (hfe : fe.isFinite) (hfn : fn.isFinite) (bE : |E' - fe.toQ| ≤ 4.9 * el.a.m.toQ)
    (bN : |N' - fn.toQ| ≤ 8.9 * el.a.m.toQ) (lat0 : Lat (F64 L)) (lat0' : Lat XR) (s : String) :
    UnprojNear ((ProjectionSpec.webMercator ⟨⟨l0⟩⟩ lat0 ⟨fe⟩ ⟨fn⟩).appliedTo el)
      ((ProjectionSpec.webMercator (lonR l0.toQ) lat0' ⟨fin fe.toQ⟩ ⟨fin fn.toQ⟩).appliedTo (ell s el.a.m.toQ el.b.m.toQ)) E' N' 8e-15 1e-14 := by
  intro E N ht h' kE kN
  obtain ⟨a0, a1⟩ := earth_a h
  have ha : (0 : ℝ) < el.a.m.toQ := by linarith
  obtain ⟨l, φ, l', φ', n, q1, q2, q3, q4, q5⟩ := C109_inverse hL h (ht := ht) hl0 kE.1 kN.1 hfe hfn
    (offset_grow kE.2 bE (by norm_num; linarith)) (offset_grow kN.2 bN (by norm_num; linarith)) lat0 lat0' s h'
  rw [webMerc_unproj s ha.ne'] at q2
  simp only [Except.ok.injEq, llh, LLH.mk.injEq, Lon.mk.injEq, Lat.mk.injEq, Angle.mk.injEq, XR.fin.injEq] at q2
  obtain ⟨rfl, rfl, -⟩ := q2
  have d : 3e-8 / (el.a.m.toQ : ℝ) ≤ 5e-15 := by rw [div_le_iff₀ ha]; norm_num; linarith
  obtain ⟨m, hm⟩ := remR_shift_near (offset_move (c := fe.toQ) ha kE.2) q5
  refine ⟨l, φ, _, _, m, q1, webMerc_unproj s ha.ne' _ _ _ _ _ _ _ _, q4, ⟨q3.1, ?_⟩, arctan_abs_le _, ?_⟩
  · refine (write_shift q3.2 ((gd_lip _ _).trans (offset_move (c := fn.toQ) ha kN.2))).trans ?_
    norm_num at *; linarith
  · refine (mul_le_mul (Real.cos_le_one _) hm (abs_nonneg _) zero_le_one).trans ?_
    norm_num at *; linarith

theorem merc_unproj_near (hL : AccurateProjection L) {el : Ellipsoid (F64 L)} (h : EarthSized el) {l0 fe fn : F64 L} {E' N' K : ℝ} {s : String}
    {p : Projection (F64 L)} {p' : Projection XR} (hp : SameMercator s el l0 fe fn K p p')
    (hl0 : InLonRange l0) (hfe : fe.isFinite) (hfn : fn.isFinite) (bE : |E' - fe.toQ| ≤ 4.9 * (K * el.a.m.toQ))
    (bN : |N' - fn.toQ| ≤ 8.9 * (K * el.a.m.toQ)) : UnprojNear p p' E' N' 3e-14 6.5e-14 := by
  intro E N ht h' kE kN
  obtain ⟨a0, a1⟩ := earth_a h
  obtain ⟨e1, e2, e3⟩ := earth_real h
  obtain ⟨q0, q1⟩ := ecc2_le e1 e2 e3
  have bq : |ecc2 el.a.m.toQ el.b.m.toQ| ≤ 0.27 := by rw [abs_of_nonneg q0]; exact q1
  obtain ⟨k0, lat0, κ, -, -, K1, -, hi⟩ := hp.eq hL h
  have ha : 3e6 ≤ K * (el.a.m.toQ : ℝ) := by norm_num at *; nlinarith
  have ha0 : 0 < K * (el.a.m.toQ : ℝ) := lt_of_lt_of_le (by norm_num) ha
  have hb0 : (0 : ℝ) < el.b.m.toQ := by linarith
  obtain ⟨l, φ, l', φ', n, q1, q2, q3, q4, q5⟩ := C110_inverse hL h hp (ht := ht) hl0 kE.1 kN.1 hfe hfn
    (offset_grow kE.2 bE (by norm_num at *; linarith)) (offset_grow kN.2 bN (by norm_num at *; linarith)) h'
  rw [hi.unproj hb0 e2] at q2
  simp only [Except.ok.injEq, llh, LLH.mk.injEq, Lon.mk.injEq, Lat.mk.injEq, Angle.mk.injEq, XR.fin.injEq] at q2
  obtain ⟨rfl, rfl, -⟩ := q2
  have d : 3e-8 / (K * (el.a.m.toQ : ℝ)) ≤ 1e-14 := by rw [div_le_iff₀ ha0]; norm_num at *; linarith
  obtain ⟨m, hm⟩ := remR_shift_near (offset_move (c := fe.toQ) ha0 kE.2) q5
  refine ⟨l, φ, _, _, m, q1, hi.unproj hb0 e2 _ _ _, q4, ⟨q3.1, ?_⟩, ?_, ?_⟩
  · have d2 := (gd_lip _ _).trans (offset_move (c := fn.toQ) ha0 kN.2)
    have d3 := (clampR_lip _ _).trans ((mercSeries_lip bq _ _).trans (mul_le_mul_of_nonneg_left d2 (show (0 : ℝ) ≤ 1.4 by norm_num)))
    refine (write_shift q3.2 d3).trans ?_
    norm_num at *; linarith
  · rw [abs_le]; constructor <;> unfold clampR <;> split_ifs <;> linarith [Real.pi_pos]
  · refine (mul_le_mul (Real.cos_le_one _) hm (abs_nonneg _) zero_le_one).trans ?_
    norm_num at *; linarith

/-- Coordinates, central meridian and scale may themselves be rounded. -/
theorem tm_unproj_near (hL : AccurateProjection L) {el : Ellipsoid (F64 L)} (h : EarthSized el) (hfl : 0.995 * el.a.m.toQ ≤ el.b.m.toQ)
    {l0 φ0 k0 fe fn : F64 L} {L0 K0 E' N' : ℝ} (hl0 : InLonRange l0) (kl0 : Near l0 L0 1.3e-15)
    (hφ0 : φ0.isFinite) (hb0 : |φ0.toQ| ≤ 1.4836) (hk : Near k0 K0 1.2e-16) (k1 : 0.9 ≤ K0) (k2 : K0 ≤ 1.1)
    (hfe : fe.isFinite) (hfn : fn.isFinite)
    (bE : |tmEta' el.a.m.toQ el.b.m.toQ K0 fe.toQ E'| ≤ 0.55) (bN : |tmXi' el.a.m.toQ el.b.m.toQ φ0.toQ K0 fn.toQ N'| ≤ 1.482)
    (s : String) : UnprojNear (.transverseMercator (TransverseMercator.new el ⟨⟨l0⟩⟩ ⟨⟨φ0⟩⟩ k0 ⟨fe⟩ ⟨fn⟩))
      (tmSpec s el.a.m.toQ el.b.m.toQ L0 φ0.toQ K0 fe.toQ fn.toQ) E' N' 3.5e-12 2.2e-13 := by
  intro E N ht h' kE kN
  obtain ⟨l, φ, l', φ', n, q1, q2, q3, q4, q5, q6, q7, q8, q9⟩ := tm_backward_zone hL h hfl (ht := ht) hl0 kl0 hφ0 hb0 hk k1 k2 hfe hfn
    (kE.mono (by norm_num)) (kN.mono (by norm_num)) bE bN s h'
  refine ⟨l, φ, l', φ', n, q1, q2, q4, q3, q9, ?_⟩
  have := mul_le_mul_of_nonneg_left q6 (mul_nonneg q5.le (abs_nonneg ((l.toQ : ℝ) - l' - n * (2 * Real.pi))))
  norm_num at *
  linarith

theorem tm_unproj_zone (hL : AccurateProjection L) {el : Ellipsoid (F64 L)} (h : EarthSized el) (hfl : 0.995 * el.a.m.toQ ≤ el.b.m.toQ)
    {l0 φ0 k0 fe fn : F64 L} {L0 K0 E' N' : ℝ} (hl0 : InLonRange l0) (kl0 : Near l0 L0 1.3e-15)
    (hφ0 : φ0.isFinite) (hb0 : |φ0.toQ| ≤ 1.4836) (hk : Near k0 K0 1.2e-16) (k1 : 0.9 ≤ K0) (k2 : K0 ≤ 1.1)
    (hfe : fe.isFinite) (hfn : fn.isFinite)
    (bE : |tmEta' el.a.m.toQ el.b.m.toQ K0 fe.toQ E'| ≤ 0.1) (bN : |tmXi' el.a.m.toQ el.b.m.toQ φ0.toQ K0 fn.toQ N'| ≤ 1.46)
    (s : String) : UnprojNear (.transverseMercator (TransverseMercator.new el ⟨⟨l0⟩⟩ ⟨⟨φ0⟩⟩ k0 ⟨fe⟩ ⟨fn⟩))
      (tmSpec s el.a.m.toQ el.b.m.toQ L0 φ0.toQ K0 fe.toQ fn.toQ) E' N' 3.9e-13 2.2e-13 := by
  intro E N ht h' kE kN
  obtain ⟨l, φ, l', φ', n, q1, q2, q3, q4, q5, q6, q7, q8, q9⟩ := tm_backward_zone hL h hfl (ht := ht) hl0 kl0 hφ0 hb0 hk k1 k2 hfe hfn
    (kE.mono (by norm_num)) (kN.mono (by norm_num)) (bE.trans (by norm_num)) (bN.trans (by norm_num)) s h'
  refine ⟨l, φ, l', φ', n, q1, q2, q4, q3, q9, ?_⟩
  have := mul_le_mul_of_nonneg_left (q8 bE bN) (mul_nonneg q5.le (abs_nonneg ((l.toQ : ℝ) - l' - n * (2 * Real.pi))))
  norm_num at *
  linarith

end Geo
