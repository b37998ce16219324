import Verif.Lemmas.NearExists
import Verif.Props.AnglesF64
import Verif.Props.DatumExact
import Mathlib.Analysis.Real.Pi.Bounds

/-! C97: accuracy of the conversion to geocentric coordinates in IEEE arithmetic. -/

namespace Geo
open XR Spec
variable {L : Libm}

/-! ### The hypotheses -/

/-- An ellipsoid of about the size of the Earth, whose inverse flattening is infinite only if it is a sphere. -/
structure EarthSized (e : Ellipsoid (F64 L)) : Prop where
  a_finite : e.a.m.isFinite
  b_finite : e.b.m.isFinite
  lo : 6000000 ≤ e.b.m.toQ
  le : e.b.m.toQ ≤ e.a.m.toQ
  hi : e.a.m.toQ ≤ 7000000
  flat : e.b.m.toQ < e.a.m.toQ → Flt.isInfinite e.invf = false

/-- An angle in `[-PI, PI]`. -/
def InLonRange (x : F64 L) : Prop := x.isFinite ∧ |x.toQ| ≤ (Flt.pi : F64 L).toQ

/-- A point in space, in doubles, every coordinate of which is within `ε` of those of an exact point. -/
def NearXyz (p : XYZ (F64 L)) (P : XYZ XR) (ε : ℝ) : Prop :=
  ∃ x y z : ℝ, P = xyz x y z ∧ Near p.x.m x ε ∧ Near p.y.m y ε ∧ Near p.z.m z ε

/-- A point at most 20000 km from the three coordinate planes. -/
def InSpace (P : XYZ XR) : Prop := ∃ x y z : ℝ, P = xyz x y z ∧ |x| ≤ 20000000 ∧ |y| ≤ 20000000 ∧ |z| ≤ 20000000

/-! ### Literals and angles -/

theorem near_one : Near (Flt.lit 1.0 : F64 L) 1 0 := by
  have h : IsDouble 1.0 := by
    norm_num
    exact B64.isDouble_one
  obtain ⟨f, e⟩ := B64.lit_toQ h
  refine ⟨f, ?_⟩
  show |((B64.lit 1.0).toQ : ℝ) - 1| ≤ 0
  rw [e]
  norm_num

theorem tau_near : |((884279719003555 / 2 ^ 47 : ℚ) : ℝ) - 2 * Real.pi| ≤ 2.5e-16 := by
  have h1 := Real.pi_gt_d20
  have h2 := Real.pi_lt_d20
  rw [abs_le]
  push_cast
  norm_num at *
  constructor <;> linarith

theorem pi_le_four : (Flt.pi : F64 L).toQ ≤ 4 := by
  show B64.pi.toQ ≤ 4
  rw [pi_fin.2]; norm_num

/-- `wrapped` keeps the direction, up to the error of `TAU`. -/
theorem wrapped_near {x : F64 L} {r ε : ℝ} (h : Near x r ε) (hx : |x.toQ| ≤ 9) : ∃ n : ℤ,
    |((⟨x⟩ : Angle (F64 L)).wrapped.rad).toQ| ≤ (Flt.pi : F64 L).toQ ∧
    Near (⟨x⟩ : Angle (F64 L)).wrapped.rad (r - n * (2 * Real.pi)) (ε + 2.5e-16) := by
  have hp : (Flt.pi : F64 L).toQ = 884279719003555 / 2 ^ 48 := pi_fin.2
  have ht : (Flt.tau : F64 L).toQ = 884279719003555 / 2 ^ 47 := tau_fin.2
  obtain ⟨n, r1, r2, r3⟩ := remainder_tau_f64 x h.1 (hx.trans (by rw [hp]; norm_num))
  have hw : (⟨x⟩ : Angle (F64 L)).wrapped.rad = remainder x tau := by
    show (if (remainder x tau <. -pi) = true then pi else remainder x tau) = _
    rw [if_neg]
    have e : (remainder x tau <. -pi) = _ :=
      B64.lt_fin r1 (show B64.isFinite (B64.neg B64.pi) = true by rw [B64.neg_finite]; exact pi_fin.1)
    rw [e]
    have h2 : (B64.neg B64.pi).toQ = -B64.pi.toQ := B64.neg_toQ _
    have h3 := (abs_le.1 r3).1
    simp only [decide_eq_true_eq, not_lt]
    exact h2.le.trans h3
  refine ⟨n, ?_, ?_⟩
  · rw [hw]; exact r3
  · rw [hw]
    refine ⟨r1, ?_⟩
    have hn : |(n : ℝ)| ≤ 1 := by
      have h1 : |(n : ℚ) * (884279719003555 / 2 ^ 47)| < 2 * (884279719003555 / 2 ^ 47) := by
        rw [ht] at r2
        have : (n : ℚ) * (884279719003555 / 2 ^ 47) = x.toQ - (remainder x tau).toQ := by linarith
        rw [this]
        refine (abs_sub _ _).trans_lt ?_
        rw [hp] at r3
        norm_num at *
        linarith
      rw [abs_mul, abs_of_pos (by norm_num : (0 : ℚ) < 884279719003555 / 2 ^ 47)] at h1
      have h2 := lt_of_mul_lt_mul_right h1 (by norm_num)
      have h3 : |n| < 2 := by exact_mod_cast h2
      have h4 : |n| ≤ 1 := by omega
      exact_mod_cast h4
    rw [r2, ht]
    have e : ((x.toQ - n * (884279719003555 / 2 ^ 47) : ℚ) : ℝ) - (r - n * (2 * Real.pi)) =
        ((x.toQ : ℝ) - r) - n * (((884279719003555 / 2 ^ 47 : ℚ) : ℝ) - 2 * Real.pi) := by
      push_cast; ring
    rw [e]
    refine (abs_sub _ _).trans ?_
    rw [abs_mul]
    have := mul_le_mul hn tau_near (abs_nonneg _) zero_le_one
    have := h.2
    norm_num at *
    linarith

/-- The sum of two longitudes, wrapped. -/
theorem lon_add_near {x y : F64 L} {l f : ℝ} (hx : InLonRange x) (kx : Near x l f) (hy : InLonRange y) (hf : f ≤ 1e-9) :
    ∃ n : ℤ, |((⟨x + y⟩ : Angle (F64 L)).wrapped.rad).toQ| ≤ 4 ∧
    Near (⟨x + y⟩ : Angle (F64 L)).wrapped.rad (l + y.toQ - n * (2 * Real.pi)) (f + 1.2e-15) := by
  have hp : (Flt.pi : F64 L).toQ = 884279719003555 / 2 ^ 48 := pi_fin.2
  obtain ⟨fx, bx⟩ := hx
  obtain ⟨fy, bY⟩ := hy
  rw [hp] at bx bY
  have b : |x.toQ + y.toQ| ≤ 6.5 := by
    refine (abs_add_le _ _).trans ?_
    norm_num at *
    linarith
  have bR : |(x.toQ : ℝ) + y.toQ| ≤ 6.5 := by
    have := (Rat.cast_le (K := ℝ)).2 b
    push_cast at this
    exact this
  have bl : |l + y.toQ| ≤ 6.5 + f := by
    have := abs_sub_le (l + (y.toQ : ℝ)) (x.toQ + y.toQ) 0
    rw [sub_zero, sub_zero, add_sub_add_right_eq_sub, abs_sub_comm] at this
    linarith [kx.2]
  have hs : Near (x + y) (l + y.toQ) (f + 9e-16) :=
    Near.add kx (Near.exact fy) (R := 6.6) (by norm_num at *; linarith) (by norm_num) (by norm_num) (by norm_num)
  have b2 : |(x + y).toQ| ≤ 9 := hs.abs_le_rat (by push_cast; norm_num at *; linarith)
  obtain ⟨n, r1, r2⟩ := wrapped_near hs b2
  exact ⟨n, r1.trans pi_le_four, r2.mono (by norm_num; linarith)⟩

/-! ### The ellipsoid -/

section
variable {e : Ellipsoid (F64 L)}

theorem earth_real (h : EarthSized e) : (6000000 : ℝ) ≤ e.b.m.toQ ∧ (e.b.m.toQ : ℝ) ≤ e.a.m.toQ ∧ (e.a.m.toQ : ℝ) ≤ 7000000 :=
  ⟨by exact_mod_cast h.lo, by exact_mod_cast h.le, by exact_mod_cast h.hi⟩

theorem ecc2_le {a b : ℝ} (hb : 6000000 ≤ b) (hab : b ≤ a) (ha : a ≤ 7000000) : 0 ≤ ecc2 a b ∧ ecc2 a b ≤ 0.27 := by
  have ha0 : 0 < a * a := by nlinarith
  constructor
  · exact div_nonneg (mul_nonneg (by linarith) (by linarith)) ha0.le
  · rw [ecc2, div_le_iff₀ ha0]
    nlinarith

theorem eSq_near (h : EarthSized e) : Near e.eSq (ecc2 e.a.m.toQ e.b.m.toQ) 2.5e-16 := by
  obtain ⟨h1, h2, h3⟩ := earth_real h
  have ka := Near.exact h.a_finite
  have kb := Near.exact h.b_finite
  obtain ⟨k0, k1⟩ := ecc2_le h1 h2 h3
  generalize ((e.a.m.toQ : ℚ) : ℝ) = a at *
  generalize ((e.b.m.toQ : ℚ) : ℝ) = b at *
  have d := Near.sub ka kb (R := 1000000) (E := 1.2e-10) (by rw [abs_of_nonneg (by linarith)]; linarith) (by norm_num)
    (by norm_num) (by norm_num)
  have s := Near.add ka kb (R := 14000000) (E := 1.7e-9) (by rw [abs_of_nonneg (by linarith)]; linarith) (by norm_num)
    (by norm_num) (by norm_num)
  have p := Near.mul d s (A := 1000000) (B := 14000000) (R := 1.4001e13) (E := 5.1e-3)
    (by rw [abs_of_nonneg (by linarith)]; linarith) (by rw [abs_of_nonneg (by linarith)]; linarith) (by norm_num)
    (by norm_num) (by norm_num) (by norm_num)
  have q := Near.mul ka ka (A := 7000000) (B := 7000000) (R := 4.9e13) (E := 6e-3)
    (by rw [abs_of_nonneg (by linarith)]; linarith) (by rw [abs_of_nonneg (by linarith)]; linarith) (by norm_num)
    (by norm_num) (by norm_num) (by norm_num)
  have ha0 : 0 < a * a := by nlinarith
  refine Near.div p q (A := 0.27) (B := 3.6e13) (R := 0.28) ?_ (by nlinarith) (by norm_num) (by norm_num) (by norm_num)
    (by norm_num) (by norm_num)
  rw [abs_of_nonneg (mul_nonneg (by linarith) (by linarith))]
  exact (div_le_iff₀ ha0).1 k1

theorem lat_sin_near (hL : Accurate L) {x : F64 L} (hx : InLonRange x) : Near (Flt.sin x) (Real.sin x.toQ) 2.3e-16 :=
  (Near.exact hx.1).sin hL (hx.2.trans pi_le_four) (by norm_num)

theorem lat_cos_near (hL : Accurate L) {x : F64 L} (hx : InLonRange x) : Near (Flt.cos x) (Real.cos x.toQ) 2.3e-16 :=
  (Near.exact hx.1).cos hL (hx.2.trans pi_le_four) (by norm_num)

theorem pvr_bounds {a b : ℝ} (hb : 6000000 ≤ b) (hab : b ≤ a) (ha : a ≤ 7000000) (φ : ℝ) :
    0.73 ≤ wf a b φ ∧ wf a b φ ≤ 1 ∧ 0 ≤ pvr a b φ ∧ pvr a b φ ≤ 8.3e6 := by
  obtain ⟨k0, k1⟩ := ecc2_le hb hab ha
  have s1 : Real.sin φ ^ 2 ≤ 1 := Real.sin_sq_le_one φ
  have s0 := sq_nonneg (Real.sin φ)
  have w1 : 0.73 ≤ wf a b φ := by
    unfold wf
    have := mul_le_mul k1 s1 s0 (by norm_num)
    norm_num at *
    linarith
  have w2 : wf a b φ ≤ 1 := by
    unfold wf
    have := mul_nonneg k0 s0
    linarith
  have r : 0.85 ≤ Real.sqrt (wf a b φ) := Real.le_sqrt_of_sq_le (le_trans (by norm_num) w1)
  refine ⟨w1, w2, div_nonneg (by linarith) (Real.sqrt_nonneg _), ?_⟩
  rw [pvr, div_le_iff₀ (by linarith)]
  norm_num at *
  linarith

theorem pvr_near (hL : Accurate L) (h : EarthSized e) {φ : Lat (F64 L)} {ψ g : ℝ} (kφ : Near φ.angle.rad ψ g)
    (hφ : InLonRange φ.angle.rad) (hg : g ≤ 1e-9) :
    Near (e.primeVerticalRadius φ).m (pvr e.a.m.toQ e.b.m.toQ ψ) (6.3e6 * g + 1.1e-8) := by
  obtain ⟨h1, h2, h3⟩ := earth_real h
  have ke := eSq_near h
  obtain ⟨k0, k1⟩ := ecc2_le h1 h2 h3
  have ka := Near.exact h.a_finite
  obtain ⟨w1, w2, v1, v2⟩ := pvr_bounds h1 h2 h3 ψ
  have g0 := kφ.nonneg
  have ks := kφ.sin hL (hφ.2.trans pi_le_four) (E := g + 2.3e-16) le_rfl
  have s1 := Real.abs_sin_le_one ψ
  have hgg : (g + 2.3e-16) * (g + 2.3e-16) ≤ 1.1e-9 * (g + 2.3e-16) :=
    mul_le_mul_of_nonneg_right (by norm_num at *; linarith) (by norm_num at *; linarith)
  have kp := ks.powi2 hL s1 (E := 2.001 * g + 7e-16) (by norm_num at *; linarith) (by norm_num at *; linarith)
  have s2 : |Real.sin ψ ^ 2| ≤ 1 := by rw [abs_pow]; exact pow_le_one₀ (abs_nonneg _) s1
  have km := Near.mul ke kp (A := 0.27) (B := 1) (R := 0.28) (E := 0.541 * g + 4.8e-16) (by rw [abs_of_nonneg k0]; exact k1) s2
    (by norm_num at *; linarith) (by norm_num) (by norm_num) (by norm_num at *; linarith)
  have kw : Near _ (wf e.a.m.toQ e.b.m.toQ ψ) (0.541 * g + 6.1e-16) := Near.sub near_one km (R := 1.01)
    (by
      show |wf _ _ _| + _ ≤ _
      rw [abs_of_nonneg (by norm_num at *; linarith)]; norm_num at *; linarith) (by norm_num) (by norm_num)
      (by norm_num at *; linarith)
  have kr := kw.sqrt hL (B := 0.85) (A := 1) (E := 0.637 * g + 9.6e-16) (by norm_num) (le_trans (by norm_num) w1)
    (by norm_num at *; linarith) (Real.sqrt_le_one.2 w2) (by norm_num at *; linarith)
  have s0 : 0.85 ≤ Real.sqrt (wf e.a.m.toQ e.b.m.toQ ψ) := Real.le_sqrt_of_sq_le (le_trans (by norm_num) w1)
  refine Near.div' ka kr (A := 8.3e6) (B := 0.85) (C := 0.849) (R := 8.301e6) ?_ (by norm_num) s0 (by norm_num)
    (by norm_num at *; linarith) (by norm_num at *; linarith) (by norm_num)
    (by norm_num) (by norm_num at *; linarith)
  rw [abs_of_nonneg (by linarith)]
  exact (div_le_iff₀ (by linarith)).1 v2

end

/-! ### C97 -/

theorem near_axis {x y : F64 L} {r c ε δ : ℝ} (hx : Near x r ε) (hr : |r| ≤ 1.83e7) (hy : Near y c δ) (hc : |c| ≤ 1)
    (hε : ε ≤ 2) (hδ : δ ≤ 1.1e-9) : Near (y * x) (r * c) (1.001 * ε + 1.83e7 * δ + 2.3e-9) ∧ |r * c| ≤ 1.83e7 := by
  constructor
  · rw [mul_comm r c]
    have h1 := hx.nonneg
    have h2 := hy.nonneg
    have h3 : δ * ε ≤ 1.1e-9 * ε := mul_le_mul_of_nonneg_right hδ h1
    refine Near.mul hy hx hc hr (R := 1.831e7) ?_ (by norm_num) (by norm_num) ?_
    · norm_num at *; linarith
    · norm_num at *; linarith
  · rw [abs_mul]
    exact (mul_le_of_le_one_right (abs_nonneg _) hc).trans hr

/-- The largest error that `f` in longitude, `g` in latitude and `k` in height, and the rounding, cause. -/
noncomputable def errXyz (f g k : ℝ) : ℝ := 1.9e7 * f + 2.5e7 * g + 1.01 * k + 5e-8

/-- **C97**: in IEEE arithmetic, with an accurate mathematical library, the geocentric coordinates of a point at most
10000 km above or below an ellipsoid of the size of the Earth, whose longitude, latitude and height are known to within
`f`, `g` and `k`, are within `1.9e7 f + 2.5e7 g + 1.01 k + 50 nm` of the exact coordinates of the exact point. -/
theorem C97_geocentric_error (hL : Accurate L) (d : GeodeticDatum (F64 L)) (he : EarthSized d.ellipsoid)
    (h0 : InLonRange d.primeMeridian.lon.angle.rad) (p : LLH (F64 L)) (hl : InLonRange p.lon.angle.rad)
    (hφ : InLonRange p.lat.angle.rad) {l φ h f g k : ℝ} (kl : Near p.lon.angle.rad l f) (kφ : Near p.lat.angle.rad φ g)
    (kh : Near p.height.m h k) (hh : |h| ≤ 10000000) (hf : f ≤ 1e-9) (hg : g ≤ 1e-9) (hk : k ≤ 1) (id n pn : String) :
    NearXyz (d.llhToXyz p)
      ((dat id n pn d.ellipsoid.a.m.toQ d.ellipsoid.b.m.toQ d.primeMeridian.lon.angle.rad.toQ).llhToXyz (llh l φ h))
      (errXyz f g k) := by
  obtain ⟨e1, e2, e3⟩ := earth_real he
  have hb : (0 : ℝ) < d.ellipsoid.b.m.toQ := by linarith
  rw [llhToXyz_all hb e2]
  refine ⟨_, _, _, rfl, ?_⟩
  have f0 := kl.nonneg
  have g0 := kφ.nonneg
  have k0 := kh.nonneg
  have ksφ := kφ.sin hL (hφ.2.trans pi_le_four) (E := g + 2.3e-16) le_rfl
  have kcφ := kφ.cos hL (hφ.2.trans pi_le_four) (E := g + 2.3e-16) le_rfl
  have b1 := Real.abs_sin_le_one φ
  have b2 := Real.abs_cos_le_one φ
  have ka := Near.exact he.a_finite
  have habs : |(d.ellipsoid.a.m.toQ : ℝ)| ≤ 7000000 := by rw [abs_of_nonneg (by linarith)]; exact e3
  rcases eq_or_lt_of_le he.le with hs | hs
  · have hsp : d.ellipsoid.isSpherical = true := by
      have : (d.ellipsoid.a.beq d.ellipsoid.b) = _ := B64.eq_fin he.a_finite he.b_finite
      rw [Ellipsoid.isSpherical, this]
      simp only [Bool.or_eq_true, decide_eq_true_eq]
      exact Or.inl hs.symm
    have hs' : (d.ellipsoid.b.m.toQ : ℝ) = d.ellipsoid.a.m.toQ := by exact_mod_cast hs
    have hneg : ¬ ((d.ellipsoid.b.m.toQ : ℝ) < d.ellipsoid.a.m.toQ) := by rw [hs']; exact lt_irrefl _
    rw [effLon, if_neg hneg, hs', pvr_self, ecc2_self, sub_zero, mul_one]
    unfold GeodeticDatum.llhToXyz
    simp only [hsp, if_true]
    have ksl := kl.sin hL (hl.2.trans pi_le_four) (E := f + 2.3e-16) le_rfl
    have kcl := kl.cos hL (hl.2.trans pi_le_four) (E := f + 2.3e-16) le_rfl
    have habs' : |(d.ellipsoid.a.m.toQ : ℝ) + h| ≤ 1.7e7 := by
      have := abs_add_le (d.ellipsoid.a.m.toQ : ℝ) h
      norm_num at *
      linarith
    have kd := Near.add ka kh (R := 1.71e7) (E := k + 2.1e-9) (by norm_num at *; linarith) (by norm_num) (by norm_num)
      (by norm_num)
    have hr := habs'.trans (show (1.7e7 : ℝ) ≤ 1.83e7 by norm_num)
    have c1 := near_axis kd hr kcφ b2 (by norm_num at *; linarith) (by norm_num at *; linarith)
    have c2 := near_axis kd hr ksφ b1 (by norm_num at *; linarith) (by norm_num at *; linarith)
    have x1 := near_axis c1.1 c1.2 kcl (Real.abs_cos_le_one l) (by norm_num at *; linarith) (by norm_num at *; linarith)
    have y1 := near_axis c1.1 c1.2 ksl (Real.abs_sin_le_one l) (by norm_num at *; linarith) (by norm_num at *; linarith)
    unfold errXyz
    exact ⟨x1.1.mono (by norm_num at *; linarith), y1.1.mono (by norm_num at *; linarith),
      c2.1.mono (by norm_num at *; linarith)⟩
  · have hsp : d.ellipsoid.isSpherical = false := by
      have : (d.ellipsoid.a.beq d.ellipsoid.b) = _ := B64.eq_fin he.a_finite he.b_finite
      rw [Ellipsoid.isSpherical, this, he.flat hs]
      simp only [Bool.or_false, decide_eq_false_iff_not]
      exact hs.ne'
    have hs' : (d.ellipsoid.b.m.toQ : ℝ) < d.ellipsoid.a.m.toQ := by exact_mod_cast hs
    rw [effLon, if_pos hs']
    unfold GeodeticDatum.llhToXyz
    simp only [hsp, Bool.false_eq_true, if_false]
    obtain ⟨i, w1, w2⟩ := lon_add_near hl kl h0 hf
    have kcl := w2.cos hL w1 (E := f + 1.43e-15) (by norm_num at *; linarith)
    have ksl := w2.sin hL w1 (E := f + 1.43e-15) (by norm_num at *; linarith)
    rw [Real.cos_sub_int_mul_two_pi] at kcl
    rw [Real.sin_sub_int_mul_two_pi] at ksl
    have kv := pvr_near hL he kφ hφ hg
    obtain ⟨_, _, v1, v2⟩ := pvr_bounds e1 e2 e3 φ
    have ke := eSq_near he
    obtain ⟨q1, q2⟩ := ecc2_le e1 e2 e3
    have u1 := Real.abs_cos_le_one (l + (d.primeMeridian.lon.angle.rad.toQ : ℝ))
    have u2 := Real.abs_sin_le_one (l + (d.primeMeridian.lon.angle.rad.toQ : ℝ))
    generalize pvr (d.ellipsoid.a.m.toQ : ℝ) d.ellipsoid.b.m.toQ φ = v at *
    generalize ecc2 (d.ellipsoid.a.m.toQ : ℝ) d.ellipsoid.b.m.toQ = q at *
    clear w1 w2 ka habs hsp e1 e2 e3 hb
    obtain ⟨g1, g2⟩ := abs_le.1 hh
    have hr : |v + h| ≤ 1.83e7 := by
      rw [abs_le]; norm_num at *; constructor <;> linarith
    have kd := Near.add kv kh (R := 1.8301e7) (E := 6.3e6 * g + k + 1.4e-8) (by norm_num at *; linarith) (by norm_num)
      (by norm_num) (by norm_num at *; linarith)
    have kq := Near.sub near_one ke (R := 1.01) (E := 4e-16)
      (by rw [abs_of_nonneg (by norm_num at *; linarith)]; norm_num at *; linarith) (by norm_num) (by norm_num) (by norm_num)
    have hq1 : |1 - q| ≤ 1 := by rw [abs_of_nonneg (by norm_num at *; linarith)]; linarith
    have kz := Near.mul kq kv (A := 1) (B := 8.3e6) (R := 8.31e6) (E := 6.301e6 * g + 1.6e-8) hq1
      (by rw [abs_of_nonneg v1]; exact v2) (by norm_num at *; linarith) (by norm_num) (by norm_num)
      (by norm_num at *; linarith)
    have hz0 : |(1 - q) * v| ≤ 8.3e6 := by
      rw [abs_mul, abs_of_nonneg v1]
      exact (mul_le_of_le_one_left v1 hq1).trans v2
    have hz : |(1 - q) * v + h| ≤ 1.83e7 := by
      have := abs_add_le ((1 - q) * v) h
      norm_num at *
      linarith
    have kz' := Near.add kz kh (R := 1.8301e7) (E := 6.301e6 * g + k + 1.9e-8) (by norm_num at *; linarith) (by norm_num)
      (by norm_num) (by norm_num at *; linarith)
    have c1 := near_axis kd hr kcφ b2 (by norm_num at *; linarith) (by norm_num at *; linarith)
    have c2 := near_axis kz' hz ksφ b1 (by norm_num at *; linarith) (by norm_num at *; linarith)
    have x1 := near_axis c1.1 c1.2 kcl u1 (by norm_num at *; linarith) (by norm_num at *; linarith)
    have y1 := near_axis c1.1 c1.2 ksl u2 (by norm_num at *; linarith) (by norm_num at *; linarith)
    rw [mul_comm v]
    unfold errXyz
    exact ⟨x1.1.mono (by norm_num at *; linarith), y1.1.mono (by norm_num at *; linarith),
      c2.1.mono (by norm_num at *; linarith)⟩

/-- **C97**, from the numbers the program is given: 50 nm. -/
theorem C97_geocentric_accuracy (hL : Accurate L) (d : GeodeticDatum (F64 L)) (he : EarthSized d.ellipsoid)
    (h0 : InLonRange d.primeMeridian.lon.angle.rad) (p : LLH (F64 L)) (hl : InLonRange p.lon.angle.rad)
    (hφ : InLonRange p.lat.angle.rad) (hf : p.height.m.isFinite) (hh : |p.height.m.toQ| ≤ 10000000) (id n pn : String) :
    NearXyz (d.llhToXyz p)
      ((dat id n pn d.ellipsoid.a.m.toQ d.ellipsoid.b.m.toQ d.primeMeridian.lon.angle.rad.toQ).llhToXyz
        (llh p.lon.angle.rad.toQ p.lat.angle.rad.toQ p.height.m.toQ)) 5e-8 := by
  have hhr : |(p.height.m.toQ : ℝ)| ≤ 10000000 := by
    have := (Rat.cast_le (K := ℝ)).2 hh
    push_cast at this
    exact this
  obtain ⟨x, y, z, e, hx, hy, hz⟩ := C97_geocentric_error hL d he h0 p hl hφ (Near.exact hl.1) (Near.exact hφ.1)
    (Near.exact hf) hhr (by norm_num) (by norm_num) (by norm_num) id n pn
  have e0 : errXyz 0 0 0 ≤ 5e-8 := by unfold errXyz; norm_num
  exact ⟨x, y, z, e, hx.mono e0, hy.mono e0, hz.mono e0⟩

theorem two_fin : (B64.lit 2).isFinite = true ∧ |(B64.lit 2).toQ| ≤ B64.pi.toQ := by decide +kernel

theorem pi_4_fin : B64.pi_4.isFinite = true ∧ |B64.pi_4.toQ| ≤ B64.pi.toQ := by decide +kernel

theorem thousand_fin : (B64.lit 1000).isFinite = true ∧ |(B64.lit 1000).toQ| ≤ 10000000 := by decide +kernel

theorem wgs84_fin :
    let m := B64.div (B64.lit 1) (B64.lit 1)
    let i := B64.lit 298.257223563
    let a := B64.mul (B64.lit 6378137) m
    let b := B64.mul (B64.mul (B64.lit 6378137) (B64.sub (B64.lit 1) (B64.div (B64.lit 1) i))) m
    i.isFinite = true ∧ a.isFinite = true ∧ b.isFinite = true ∧ 6000000 ≤ b.toQ ∧ b.toQ ≤ a.toQ ∧ a.toQ ≤ 7000000 := by
  decide +kernel

theorem not_infinite {x : F64 L} (h : x.isFinite) : Flt.isInfinite x = false := by
  rcases x with _ | _ | _ | _
  · rfl
  · exact absurd h (by simp [F64.isFinite, B64.isFinite])
  · rfl
  · rfl

theorem wgs84_earthSized : EarthSized (Ellipsoid.consts.WGS84 : Ellipsoid (F64 L)) := by
  obtain ⟨h0, h1, h2, h3, h4, h5⟩ := wgs84_fin
  exact ⟨h1, h2, h3, h4, h5, fun _ => not_infinite h0⟩

theorem greenwich_inLonRange : InLonRange (PrimeMeridian.consts.GREENWICH : PrimeMeridian (F64 L)).lon.angle.rad := by
  have h : (B64.mul (B64.lit 0) (B64.div B64.pi (B64.lit 180))).isFinite = true ∧
      |(B64.mul (B64.lit 0) (B64.div B64.pi (B64.lit 180))).toQ| ≤ B64.pi.toQ := by decide +kernel
  exact ⟨h.1, h.2⟩

/-- WGS 84, 1000 m above 45° N on the meridian at 2 rad. -/
example : Accurate roundLibm ∧ EarthSized (GeodeticDatum.consts.WGS84 : GeodeticDatum (F64 roundLibm)).ellipsoid ∧
    InLonRange (GeodeticDatum.consts.WGS84 : GeodeticDatum (F64 roundLibm)).primeMeridian.lon.angle.rad ∧
    InLonRange (Flt.lit 2 : F64 roundLibm) ∧ InLonRange (Flt.pi_4 : F64 roundLibm) ∧
    (Flt.lit 1000 : F64 roundLibm).isFinite ∧ |(Flt.lit 1000 : F64 roundLibm).toQ| ≤ 10000000 :=
  ⟨roundLibm_accurate, wgs84_earthSized, greenwich_inLonRange, ⟨two_fin.1, two_fin.2⟩, ⟨pi_4_fin.1, pi_4_fin.2⟩,
    thousand_fin.1, thousand_fin.2⟩

end Geo
