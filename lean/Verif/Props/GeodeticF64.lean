import Verif.Props.CrsF64
import Verif.Lemmas.VermeilleF64

/-!
# C100, C101: the accuracy of geodetic coordinates

`xyz_to_llh` in IEEE arithmetic (geodesy/geodetic_datum.rs:106-171) follows Vermeille's closed formula, with a cube root,
square roots and arc tangents.  Points between 5000 km and 10000 km from the centre; the ellipsoid is flattened, by at most
1/200.  The contract of the mathematical library is `AccurateInverse`.
-/

namespace Geo
open XR Spec GeodeticDatum
variable {L : Libm}

/-- A point, in doubles, between 5000 km and 10000 km from the centre. -/
structure NearSurface (p : XYZ (F64 L)) : Prop where
  x_finite : p.x.m.isFinite
  y_finite : p.y.m.isFinite
  z_finite : p.z.m.isFinite
  lo : 5000000 ^ 2 ≤ p.x.m.toQ ^ 2 + p.y.m.toQ ^ 2 + p.z.m.toQ ^ 2
  hi : p.x.m.toQ ^ 2 + p.y.m.toQ ^ 2 + p.z.m.toQ ^ 2 ≤ 10000000 ^ 2

/-- On the axis, or at least 1e-40 m from it. -/
def AxisOrOff (p : XYZ (F64 L)) : Prop :=
  (p.x.m.toQ = 0 ∧ p.y.m.toQ = 0) ∨ 1e-40 ^ 2 ≤ p.x.m.toQ ^ 2 + p.y.m.toQ ^ 2

/-- Longitude, latitude and height in doubles, within `f`, `g` and `k` of real ones, longitudes being compared as
directions. -/
structure NearLlh (p : LLH (F64 L)) (l φ h f g k : ℝ) : Prop where
  lon_range : InLonRange p.lon.angle.rad
  lat_range : InLonRange p.lat.angle.rad
  lon : ∃ m : ℤ, Near p.lon.angle.rad (l + m * (2 * Real.pi)) f
  lat : Near p.lat.angle.rad φ g
  height : Near p.height.m h k

theorem eSq_rel {e : Ellipsoid (F64 L)} (h : EarthSized e) : Rel e.eSq (ecc2 e.a.m.toQ e.b.m.toQ) 6e-16 1e-65 := by
  obtain ⟨h1, h2, h3⟩ := earth_real h
  have ka := Rel.exact h.a_finite
  have kb := Rel.exact h.b_finite
  obtain ⟨k0, k1⟩ := ecc2_le h1 h2 h3
  have d : Rel (e.a.m - e.b.m) ((e.a.m.toQ : ℝ) - e.b.m.toQ) 1.13e-16 1e-70 := by
    refine Rel.of_round (q := e.a.m.toQ - e.b.m.toQ) (δ := 0) (η := 0) (by push_cast; simp)
      (by rw [abs_of_nonneg (by linarith)]; linarith) (by norm_num) le_rfl (by norm_num) (fun k => ?_) (by norm_num) (by norm_num)
    have f := B64.sub_finite_of h.a_finite h.b_finite k
    exact ⟨f, (B64.sub_finite f).2.2⟩
  generalize ((e.a.m.toQ : ℚ) : ℝ) = a at *
  generalize ((e.b.m.toQ : ℚ) : ℝ) = b at *
  have aa : 3.6e13 ≤ a * a := by nlinarith
  have aa2 : a * a ≤ 4.9e13 := by nlinarith
  have s : Rel (e.a.m + e.b.m) (a + b) 1.13e-16 1e-70 := ka.add kb (by linarith) (by linarith) (by linarith) (by norm_num)
    le_rfl (by norm_num) le_rfl (by norm_num) (by norm_num) (by norm_num)
  have p : Rel ((e.a.m - e.b.m) * (e.a.m + e.b.m)) ((a - b) * (a + b)) 3.4e-16 2e-63 := d.mul s (A := 1000000) (B := 14000000)
    (by rw [abs_of_nonneg (by linarith)]; linarith) (by rw [abs_of_nonneg (by linarith)]; linarith) (by norm_num)
    (by norm_num) (by norm_num) (by norm_num) (by norm_num) (by norm_num) (by norm_num) (by norm_num) (by norm_num) (by norm_num)
    (by norm_num)
  have q : Rel (e.a.m * e.a.m) (a * a) 1.14e-16 0 := Rel.absorb (δ := 1.13e-16) (η := 1e-70) (B := 1)
    (ka.mul ka (A := 7000000) (B := 7000000)
    (by rw [abs_of_nonneg (by linarith)]; linarith) (by rw [abs_of_nonneg (by linarith)]; linarith) (by norm_num)
    le_rfl (by norm_num) le_rfl (by norm_num) le_rfl (by norm_num) le_rfl (by norm_num) (by norm_num) (by norm_num))
    (by rw [abs_of_nonneg (by linarith)]; linarith) (by norm_num) (by norm_num)
  refine p.div q (C := 3.6e13) (by rw [abs_of_nonneg (by linarith)]; exact aa) (by norm_num) ?_ (by norm_num) (by norm_num)
    (by norm_num) (by norm_num) (by norm_num) (by norm_num) (by norm_num) (by norm_num)
  have : (a - b) * (a + b) / (a * a) = ecc2 a b := rfl
  rw [this, abs_of_nonneg k0]
  linarith

/-! ### The longitude -/

theorem vlon_val (x y : ℝ) : vlon x y = if x = 0 ∧ y = 0 then 0 else
    if 0 ≤ y then Real.pi / 2 - 2 * Complex.arg ⟨Real.sqrt (x ^ 2 + y ^ 2) + y, x⟩
    else -(Real.pi / 2) + 2 * Complex.arg ⟨Real.sqrt (x ^ 2 + y ^ 2) - y, x⟩ := by
  have h := vlon_eq x y
  simp only [vermeilleLon, zero_eq, eq_fin, le_fin, pi_2_eq, ofNat_eq, add_fin, sub_fin, atan2_fin, mul_fin, neg_fin] at h
  simp only [Bool.and_eq_true, decide_eq_true_eq] at h
  by_cases h1 : x = 0 ∧ y = 0
  · rw [if_pos h1] at h ⊢
    exact (XR.fin.inj h).symm
  · rw [if_neg h1] at h ⊢
    by_cases h2 : 0 ≤ y
    · rw [if_pos h2] at h ⊢
      exact (XR.fin.inj h).symm
    · rw [if_neg h2] at h ⊢
      exact (XR.fin.inj h).symm

theorem arg_half (X Y : ℝ) (hX : 0 ≤ X) : |Complex.arg ⟨X, Y⟩| ≤ 1.571 := by
  have b := Complex.abs_arg_le_pi_div_two_iff.2 (show 0 ≤ (⟨X, Y⟩ : ℂ).re from hX)
  have := Real.pi_lt_d20
  norm_num at this ⊢
  linarith

theorem pi_2_near : Near (pi_2 : F64 L) (Real.pi / 2) 6.2e-17 := by
  obtain ⟨p1, p2⟩ := pi_2_real
  exact ⟨pi_2_fin.1, by
    change |((B64.pi_2.toQ : ℚ) : ℝ) - _| ≤ _
    rw [abs_le]; constructor <;> linarith⟩

theorem twice_near {x : F64 L} {A E : ℝ} (h : Near x A E) (hA : |A| ≤ 1.571) (hE : E ≤ 1e-10) :
    Near (2 * x) (2 * A) (2 * E + 3.8e-16) ∧ |2 * A| ≤ 3.142 := by
  have h2 : Near (2 : F64 L) 2 0 := rel_two.toNear (A := 2) (by norm_num) le_rfl (by norm_num)
  constructor
  · exact h2.mul h (A := 2) (B := 1.571) (R := 3.143) (by norm_num) hA (by norm_num at hE ⊢; linarith) (by norm_num) (by norm_num)
      (by norm_num)
  · rw [abs_mul]; norm_num at *; linarith

theorem lon_near (hL : AccurateInverse L) {x y : F64 L} (hx : x.isFinite) (hy : y.isFinite)
    (b : (x.toQ : ℝ) ^ 2 + y.toQ ^ 2 ≤ 10000000 ^ 2) (hr : Rel (Flt.hypot x y) (Real.sqrt (x.toQ ^ 2 + y.toQ ^ 2)) 2.23e-16 1e-70)
    (ha : (x.toQ = 0 ∧ y.toQ = 0) ∨ 1e-40 ^ 2 ≤ x.toQ ^ 2 + y.toQ ^ 2) :
    Near (vermeilleLon x y (Flt.hypot x y)) (vlon x.toQ y.toQ) 2.2e-15 ∧ |vlon x.toQ y.toQ| ≤ 4.8 := by
  have hzf : (0 : F64 L).isFinite ∧ (0 : F64 L).toQ = 0 := B64.lit_toQ isDouble_zero
  have ex : (x ==. 0) = decide (x.toQ = 0) := by
    have := B64.eq_fin hx hzf.1
    rw [show B64.toQ (0 : F64 L) = 0 from hzf.2] at this
    exact this
  have ey : (y ==. 0) = decide (y.toQ = 0) := by
    have := B64.eq_fin hy hzf.1
    rw [show B64.toQ (0 : F64 L) = 0 from hzf.2] at this
    exact this
  have el : (y >=. 0) = decide (0 ≤ y.toQ) := by
    have := B64.le_fin hzf.1 hy
    rw [show B64.toQ (0 : F64 L) = 0 from hzf.2] at this
    exact this
  rw [vlon_val, vermeilleLon, ex, ey, el]
  by_cases h0 : x.toQ = 0 ∧ y.toQ = 0
  · have h0' : (x.toQ : ℝ) = 0 ∧ (y.toQ : ℝ) = 0 := ⟨by exact_mod_cast h0.1, by exact_mod_cast h0.2⟩
    rw [if_pos h0', if_pos (by simp [h0])]
    exact ⟨zero_near.mono (by norm_num), by norm_num⟩
  · have h0' : ¬ ((x.toQ : ℝ) = 0 ∧ (y.toQ : ℝ) = 0) := by exact_mod_cast h0
    have ha' : (1e-40 : ℝ) ^ 2 ≤ (x.toQ : ℝ) ^ 2 + (y.toQ : ℝ) ^ 2 := by
      have := (Rat.cast_le (K := ℝ)).2 (ha.resolve_left h0)
      push_cast at this
      exact this
    rw [if_neg h0', if_neg (by simpa using h0)]
    have R1 : 1e-40 ≤ Real.sqrt ((x.toQ : ℝ) ^ 2 + (y.toQ : ℝ) ^ 2) := Real.le_sqrt_of_sq_le ha'
    have R2 : Real.sqrt ((x.toQ : ℝ) ^ 2 + (y.toQ : ℝ) ^ 2) ≤ 10000000 := Real.sqrt_le_iff.2 ⟨by norm_num, b⟩
    have R3 : |(y.toQ : ℝ)| ≤ Real.sqrt ((x.toQ : ℝ) ^ 2 + (y.toQ : ℝ) ^ 2) :=
      Real.abs_le_sqrt (by linarith [sq_nonneg (x.toQ : ℝ)])
    generalize Real.sqrt ((x.toQ : ℝ) ^ 2 + (y.toQ : ℝ) ^ 2) = R at *
    have R0 : 0 < R := lt_of_lt_of_le (by norm_num) R1
    have hr' : Rel (Flt.hypot x y) R 2.24e-16 0 := Rel.absorb (B := 1e-40) hr (by rw [abs_of_pos R0]; exact R1) (by norm_num)
      (by norm_num)
    have pi1 := Real.pi_gt_d20
    have pi2 := Real.pi_lt_d20
    by_cases hy0 : 0 ≤ y.toQ
    · have hy0' : (0 : ℝ) ≤ y.toQ := by exact_mod_cast hy0
      rw [if_pos hy0', if_pos (by simpa using hy0)]
      have hy2 : (y.toQ : ℝ) ≤ R := (le_abs_self _).trans R3
      have k1 : Rel (Flt.hypot x y + y) (R + y.toQ) 3.4e-16 0 := Rel.absorb (B := 1e-40) (δ := 3.39e-16) (η := 1e-70)
        (hr'.add ((Rel.exact hy).mono (by norm_num) le_rfl) R0.le hy0' (by linarith) (by norm_num) (by norm_num) (by norm_num)
          (by norm_num) (by norm_num) (by norm_num) (by norm_num))
        (by rw [abs_of_nonneg (by linarith)]; linarith) (by norm_num) (by norm_num)
      have k2 : Near (Flt.atan2 x (Flt.hypot x y + y)) (Complex.arg ⟨R + y.toQ, x.toQ⟩) 5.4e-16 :=
        Near.atan2' hL k1 hx (by linarith) (by norm_num) (by norm_num) (by norm_num)
      have a2 := arg_half (R + y.toQ) x.toQ (by linarith)
      obtain ⟨k3, a3⟩ := twice_near k2 a2 (by norm_num)
      have a4 : |Real.pi / 2 - 2 * Complex.arg ⟨R + y.toQ, x.toQ⟩| ≤ 4.72 := by
        have := abs_sub (Real.pi / 2) (2 * Complex.arg ⟨R + y.toQ, x.toQ⟩)
        rw [abs_of_pos (a := Real.pi / 2) (by positivity)] at this
        norm_num at *
        linarith
      refine ⟨(pi_2_near.sub k3 (R := 4.73) ?_ (by norm_num) (by norm_num) (by norm_num)), a4.trans (by norm_num)⟩
      norm_num at a4 ⊢
      linarith
    · have hy0' : ¬ (0 : ℝ) ≤ y.toQ := by exact_mod_cast hy0
      rw [if_neg hy0', if_neg (by simpa using hy0)]
      push Not at hy0'
      have hy2 : -(y.toQ : ℝ) ≤ R := (neg_le_abs _).trans R3
      have k1 : Rel (Flt.hypot x y - y) (R - y.toQ) 3.4e-16 0 := by
        have e : |((F64.toQ (Flt.hypot x y) - y.toQ : ℚ) : ℝ) - (R - y.toQ)| ≤ 2.24e-16 * |R - y.toQ| + 0 := by
          push_cast
          rw [sub_sub_sub_cancel_right, abs_of_nonneg (show 0 ≤ R - (y.toQ : ℝ) by linarith)]
          refine hr'.2.trans ?_
          rw [abs_of_pos R0]
          norm_num
          linarith
        refine Rel.absorb (B := 1e-40) (δ := 3.39e-16) (η := 1e-70) (Rel.of_round e (by rw [abs_of_nonneg (by linarith)]; linarith)
          (by norm_num) le_rfl (by norm_num) (fun k => ?_) (by norm_num) (by norm_num))
          (by rw [abs_of_nonneg (by linarith)]; linarith) (by norm_num) (by norm_num)
        have f := B64.sub_finite_of hr'.1 hy k
        exact ⟨f, (B64.sub_finite f).2.2⟩
      have k2 : Near (Flt.atan2 x (Flt.hypot x y - y)) (Complex.arg ⟨R - y.toQ, x.toQ⟩) 5.4e-16 :=
        Near.atan2' hL k1 hx (by linarith) (by norm_num) (by norm_num) (by norm_num)
      have a2 := arg_half (R - y.toQ) x.toQ (by linarith)
      obtain ⟨k3, a3⟩ := twice_near k2 a2 (by norm_num)
      have a4 : |-(Real.pi / 2) + 2 * Complex.arg ⟨R - y.toQ, x.toQ⟩| ≤ 4.72 := by
        have := abs_add_le (-(Real.pi / 2)) (2 * Complex.arg ⟨R - y.toQ, x.toQ⟩)
        rw [abs_neg, abs_of_pos (a := Real.pi / 2) (by positivity)] at this
        norm_num at *
        linarith
      refine ⟨(pi_2_near.neg.add k3 (R := 4.73) ?_ (by norm_num) (by norm_num) (by norm_num)), a4.trans (by norm_num)⟩
      norm_num at a4 ⊢
      linarith

/-- A double other than 0 is not smaller than the smallest one. -/
theorem double_ge (x : F64 L) (h : x.toQ ≠ 0) : (2⁻¹ : ℝ) ^ 1074 ≤ |(x.toQ : ℝ)| := by
  obtain ⟨m, e, q, -, e1, -⟩ := B64.toQ_isDouble x
  have q' : x.toQ = m * 2 ^ e := q
  have m0 : m ≠ 0 := by
    rintro rfl
    exact h (by rw [q']; simp)
  have m1 : (1 : ℝ) ≤ |(m : ℝ)| := by exact_mod_cast Int.one_le_abs m0
  have e2 : (2⁻¹ : ℝ) ^ 1074 ≤ 2 ^ e := by
    rw [inv_pow, ← zpow_natCast, ← zpow_neg]
    exact zpow_le_zpow_right₀ (by norm_num) e1
  rw [q']
  push_cast
  rw [abs_mul, abs_of_pos (show (0 : ℝ) < 2 ^ e by positivity)]
  have : (0 : ℝ) < 2 ^ e := by positivity
  generalize (2⁻¹ : ℝ) ^ 1074 = t at *
  nlinarith

/-- The longitude is bounded, however close to the axis the point is. -/
theorem lon_any (hL : AccurateInverse L) {x y : F64 L} (hx : x.isFinite) (hy : y.isFinite)
    (b : (x.toQ : ℝ) ^ 2 + y.toQ ^ 2 ≤ 10000000 ^ 2) (hr : Rel (Flt.hypot x y) (Real.sqrt (x.toQ ^ 2 + y.toQ ^ 2)) 2.23e-16 1e-70) :
    ∃ r, Near (vermeilleLon x y (Flt.hypot x y)) r 1e-14 ∧ |r| ≤ 4.8 := by
  have hzf : (0 : F64 L).isFinite ∧ (0 : F64 L).toQ = 0 := B64.lit_toQ isDouble_zero
  have ex : (x ==. 0) = decide (x.toQ = 0) := by
    have := B64.eq_fin hx hzf.1
    rw [show B64.toQ (0 : F64 L) = 0 from hzf.2] at this
    exact this
  have ey : (y ==. 0) = decide (y.toQ = 0) := by
    have := B64.eq_fin hy hzf.1
    rw [show B64.toQ (0 : F64 L) = 0 from hzf.2] at this
    exact this
  have el : (y >=. 0) = decide (0 ≤ y.toQ) := by
    have := B64.le_fin hzf.1 hy
    rw [show B64.toQ (0 : F64 L) = 0 from hzf.2] at this
    exact this
  rw [vermeilleLon, ex, ey, el]
  by_cases h0 : x.toQ = 0 ∧ y.toQ = 0
  · rw [if_pos (by simp [h0])]
    exact ⟨0, zero_near.mono (by norm_num), by norm_num⟩
  rw [if_neg (by simpa using h0)]
  have R2 : Real.sqrt ((x.toQ : ℝ) ^ 2 + (y.toQ : ℝ) ^ 2) ≤ 10000000 := Real.sqrt_le_iff.2 ⟨by norm_num, b⟩
  have R3 : |(y.toQ : ℝ)| ≤ Real.sqrt ((x.toQ : ℝ) ^ 2 + (y.toQ : ℝ) ^ 2) :=
    Real.abs_le_sqrt (by linarith [sq_nonneg (x.toQ : ℝ)])
  have R4 : |(x.toQ : ℝ)| ≤ Real.sqrt ((x.toQ : ℝ) ^ 2 + (y.toQ : ℝ) ^ 2) :=
    Real.abs_le_sqrt (by linarith [sq_nonneg (y.toQ : ℝ)])
  have bound : ∀ u : F64 L, |(u.toQ : ℝ)| ≤ Real.sqrt ((x.toQ : ℝ) ^ 2 + (y.toQ : ℝ) ^ 2) → |u.toQ| ≤ 1e30 := by
    intro u hu
    have h : ((|u.toQ| : ℚ) : ℝ) ≤ ((1e30 : ℚ) : ℝ) := by
      rw [Rat.cast_abs]
      norm_num
      linarith
    exact Rat.cast_le.1 h
  have con := (hL.hypot x y hx hy (bound x R4) (bound y R3)).2
  generalize Real.sqrt ((x.toQ : ℝ) ^ 2 + (y.toQ : ℝ) ^ 2) = R at *
  have R1 : (2⁻¹ : ℝ) ^ 1074 ≤ R := by
    by_cases h1 : x.toQ = 0
    · exact (double_ge y (fun h => h0 ⟨h1, h⟩)).trans R3
    · exact (double_ge x h1).trans R4
  have t0 : (0 : ℝ) < 2⁻¹ ^ 1074 := by positivity
  have R0 : 0 < R := lt_of_lt_of_le t0 R1
  have nn : 0 ≤ F64.toQ (Flt.hypot x y) := by
    by_contra hc
    push Not at hc
    have h1 := double_ge _ hc.ne
    have hc' : ((F64.toQ (Flt.hypot x y) : ℚ) : ℝ) < 0 := by exact_mod_cast hc
    rw [abs_of_neg hc'] at h1
    have h2 := (abs_le.1 con).1
    generalize (2⁻¹ : ℝ) ^ 1074 = t at *
    have : (2⁻¹ : ℝ) ^ 52 * R < R := by
      have : (2⁻¹ : ℝ) ^ 52 < 1 := by norm_num
      nlinarith
    linarith
  have key : ∀ X : F64 L, X.isFinite → 0 ≤ X.toQ → (0 < X.toQ ∨ x.toQ ≠ 0) → ∃ A, Near (2 * Flt.atan2 x X) A 5e-15 ∧ |A| ≤ 3.142 := by
    intro X f n0 n1
    have c := hL.atan2 X x f hx n0 n1
    have h1 := arg_half X.toQ x.toQ (by exact_mod_cast n0)
    have c2 : Near (Flt.atan2 x X) (Complex.arg ⟨X.toQ, x.toQ⟩) 1e-15 := by
      refine c.mono ?_
      have : (2⁻¹ : ℝ) ^ 1074 ≤ 1e-71 := tiny_le
      generalize (2⁻¹ : ℝ) ^ 1074 = t at *
      norm_num at *
      linarith
    obtain ⟨k1, k2⟩ := twice_near c2 h1 (by norm_num)
    exact ⟨_, k1.mono (by norm_num), k2⟩
  clear con R1 t0
  have pi1 := Real.pi_gt_d20
  have pi2 := Real.pi_lt_d20
  by_cases hy0 : 0 ≤ y.toQ
  · have hy0' : (0 : ℝ) ≤ y.toQ := by exact_mod_cast hy0
    rw [if_pos (by simpa using hy0)]
    have hy2 : (y.toQ : ℝ) ≤ R := (le_abs_self _).trans R3
    have k1 : Rel (Flt.hypot x y + y) (R + y.toQ) 3.4e-16 1e-69 :=
      hr.add ((Rel.exact hy).mono (by norm_num) le_rfl) R0.le hy0' (by linarith) (by norm_num) (by norm_num) (by norm_num)
        (by norm_num) (by norm_num) (by norm_num) (by norm_num)
    have e : F64.toQ (Flt.hypot x y + y) = rndQ (F64.toQ (Flt.hypot x y) + y.toQ) := (B64.add_finite k1.1).2.2
    have p : y.toQ ≤ F64.toQ (Flt.hypot x y + y) := by
      rw [e]
      exact ((B64.toQ_rep y).rnd).symm.le.trans (rndQ_mono (by show y.toQ ≤ _; linarith))
    obtain ⟨A, a1, a2⟩ := key _ k1.1 (hy0.trans p) (by
      by_cases h1 : x.toQ = 0
      · exact Or.inl (lt_of_lt_of_le (lt_of_le_of_ne hy0 (fun h => h0 ⟨h1, h.symm⟩)) p)
      · exact Or.inr h1)
    have a4 : |Real.pi / 2 - A| ≤ 4.72 := by
      have := abs_sub (Real.pi / 2) A
      rw [abs_of_pos (a := Real.pi / 2) (by positivity)] at this
      norm_num at *
      linarith
    refine ⟨_, (pi_2_near.sub a1 (R := 4.73) ?_ (by norm_num) (by norm_num) (by norm_num)), a4.trans (by norm_num)⟩
    norm_num at a4 ⊢
    linarith
  · rw [if_neg (by simpa using hy0)]
    push Not at hy0
    have hy0' : (y.toQ : ℝ) < 0 := by exact_mod_cast hy0
    have hy2 : -(y.toQ : ℝ) ≤ R := (neg_le_abs _).trans R3
    have k1 : Rel (Flt.hypot x y - y) (R - y.toQ) 3.4e-16 1e-69 := by
      have e : |((F64.toQ (Flt.hypot x y) - y.toQ : ℚ) : ℝ) - (R - y.toQ)| ≤ 2.23e-16 * |R - y.toQ| + 1e-70 := by
        push_cast
        rw [sub_sub_sub_cancel_right, abs_of_nonneg (show 0 ≤ R - (y.toQ : ℝ) by linarith)]
        refine hr.2.trans ?_
        rw [abs_of_pos R0]
        norm_num
        linarith
      refine Rel.of_round e (by rw [abs_of_nonneg (by linarith)]; linarith)
        (by norm_num) (by norm_num) (by norm_num) (fun k => ?_) (by norm_num) (by norm_num)
      have f := B64.sub_finite_of hr.1 hy k
      exact ⟨f, (B64.sub_finite f).2.2⟩
    have e : F64.toQ (Flt.hypot x y - y) = rndQ (F64.toQ (Flt.hypot x y) - y.toQ) := (B64.sub_finite k1.1).2.2
    have p : -y.toQ ≤ F64.toQ (Flt.hypot x y - y) := by
      rw [e]
      have h1 : rndQ (-y.toQ) = -y.toQ := by rw [rndQ_neg]; exact congrArg _ (B64.toQ_rep y).rnd
      exact h1.symm.le.trans (rndQ_mono (by linarith))
    obtain ⟨A, a1, a2⟩ := key _ k1.1 (by linarith) (Or.inl (by linarith))
    have a4 : |-(Real.pi / 2) + A| ≤ 4.72 := by
      have := abs_add_le (-(Real.pi / 2)) A
      rw [abs_neg, abs_of_pos (a := Real.pi / 2) (by positivity)] at this
      norm_num at *
      linarith
    refine ⟨_, (pi_2_near.neg.add a1 (R := 4.73) ?_ (by norm_num) (by norm_num) (by norm_num)), a4.trans (by norm_num)⟩
    norm_num at a4 ⊢
    linarith

/-! ### Latitude and height -/

/-- What the exact computation goes through. -/
structure VHeight (E R z k : ℝ) (D H : ℝ) : Prop where
  hD : D = k * R / (k + E)
  hH : H = Real.sqrt (D ^ 2 + z ^ 2)
  k1 : 0.689 ≤ k
  k2 : k ≤ 3.5
  D0 : 0 ≤ D
  D1 : D ≤ 10000000
  H1 : 4900000 ≤ H
  H2 : H ≤ 10000000

theorem VHeight.of {E R z k : ℝ} (e0 : 0 < E) (e1 : E ≤ 0.01) (R0 : 0 ≤ R) (lo : 5000000 ^ 2 ≤ R ^ 2 + z ^ 2)
    (hi : R ^ 2 + z ^ 2 ≤ 10000000 ^ 2) (k1 : 0.689 ≤ k) (k2 : k ≤ 3.5) :
    VHeight E R z k (k * R / (k + E)) (Real.sqrt ((k * R / (k + E)) ^ 2 + z ^ 2)) := by
  have kE : 0 < k + E := by linarith
  have D0 : 0 ≤ k * R / (k + E) := by positivity
  have D1 : k * R / (k + E) ≤ R := by
    rw [div_le_iff₀ kE]
    nlinarith
  have D2 : 0.985 * R ≤ k * R / (k + E) := by
    rw [le_div_iff₀ kE]
    have : 0.985 * (k + E) ≤ k := by norm_num at *; linarith
    nlinarith
  obtain ⟨D, hD⟩ : ∃ D, D = k * R / (k + E) := ⟨_, rfl⟩
  rw [← hD] at D0 D1 D2 ⊢
  have R2 : R ≤ 10000000 := by nlinarith [sq_nonneg z]
  have D3 : (0.985 * R) ^ 2 ≤ D ^ 2 := pow_le_pow_left₀ (by positivity) D2 2
  have D4 : D ^ 2 ≤ R ^ 2 := pow_le_pow_left₀ D0 D1 2
  refine ⟨hD, rfl, k1, k2, D0, D1.trans R2, Real.le_sqrt_of_sq_le ?_, Real.sqrt_le_iff.2 ⟨by norm_num, by linarith⟩⟩
  have := sq_nonneg z
  norm_num at *
  linarith

set_option maxHeartbeats 1000000 in
/-- From `k` on. -/
theorem height_core (hL : AccurateInverse L) {k' e2 r' z' : F64 L} {E R k D H : ℝ} (e0 : 0 < E) (e1 : E ≤ 0.01) (R0 : 0 ≤ R)
    (R2 : R ≤ 10000000) (z2 : |(z'.toQ : ℝ)| ≤ 10000000) (v : VHeight E R z'.toQ k D H) (hk : Rel k' k 2e-15 0)
    (he : Rel e2 E 6e-16 1e-65) (hr : Rel r' R 2.23e-16 1e-70) (hz : z'.isFinite) :
    Near (2 * Flt.atan2 z' (k' * r' / (k' + e2) + Flt.hypot (k' * r' / (k' + e2)) z')) (2 * Complex.arg ⟨D + H, z'.toQ⟩) 7e-15 ∧
    Near ((k' + e2 - 1) / k' * Flt.hypot (k' * r' / (k' + e2)) z') ((k + E - 1) / k * H) 1e-7 ∧
    -4600000 ≤ (k + E - 1) / k * H ∧ (k + E - 1) / k * H ≤ 10000000 := by
  obtain ⟨hD, hH, k1, k2, D0, D1, H1, H2⟩ := v
  have k0 : 0 < k := by linarith
  have n1 : Rel (k' * r') (k * R) 2.34e-15 1e-68 := hk.mul hr (A := 3.5) (B := 10000000) (by rw [abs_of_pos k0]; exact k2)
    (by rw [abs_of_nonneg R0]; exact R2) (by norm_num) (by norm_num) (by norm_num) (by norm_num) (by norm_num) (by norm_num)
    (by norm_num) (by norm_num) (by norm_num) (by norm_num) (by norm_num)
  have n2 : Rel (k' + e2) (k + E) 2.12e-15 0 := Rel.absorb (B := 0.5) (δ := 2.113e-15) (η := 2e-65)
    (hk.add (he.mono (by norm_num) le_rfl) k0.le e0.le (by linarith) (by norm_num) (by norm_num) (by norm_num) (by norm_num)
      (by norm_num) (by norm_num) (by norm_num)) (by rw [abs_of_pos (by linarith)]; linarith) (by norm_num) (by norm_num)
  have n3 : Rel (k' * r' / (k' + e2)) D 4.59e-15 1e-65 := by
    rw [hD]
    refine n1.div n2 (C := 0.5) (by rw [abs_of_pos (by linarith)]; linarith) (by norm_num) ?_ (by norm_num) (by norm_num)
      (by norm_num) (by norm_num) (by norm_num) (by norm_num) (by norm_num) (by norm_num)
    rw [← hD, abs_of_nonneg D0]
    linarith
  have n4 : Rel (Flt.hypot (k' * r' / (k' + e2)) z') H 4.83e-15 0 := by
    rw [hH]
    refine Rel.absorb (B := 1) (δ := 4.82e-15) (η := 2e-65) (n3.hypot hL ((Rel.exact hz).mono (by norm_num) le_rfl)
      (by rw [abs_of_nonneg D0]; linarith) (by norm_num at z2 ⊢; linarith) (by norm_num) (by norm_num) (by norm_num) (by norm_num)
      (by norm_num) (by norm_num) (by norm_num) (by norm_num)) (by rw [← hH, abs_of_pos (by linarith)]; linarith)
      (by norm_num) (by norm_num)
  have n5 : Rel (k' * r' / (k' + e2) + Flt.hypot (k' * r' / (k' + e2)) z') (D + H) 4.96e-15 0 :=
    Rel.absorb (B := 1) (δ := 4.95e-15) (η := 2e-65) ((n3.mono (by norm_num) le_rfl).add n4 D0 (by linarith) (by linarith)
      (by norm_num) (by norm_num) (by norm_num) (by norm_num) (by norm_num) (by norm_num) (by norm_num))
      (by rw [abs_of_pos (by linarith)]; linarith) (by norm_num) (by norm_num)
  have n6 : Near (Flt.atan2 z' (k' * r' / (k' + e2) + Flt.hypot (k' * r' / (k' + e2)) z')) (Complex.arg ⟨D + H, z'.toQ⟩) 2.86e-15 :=
    Near.atan2' hL n5 hz (by linarith) (by norm_num) (by norm_num) (by norm_num)
  have n7 := (twice_near n6 (arg_half _ _ (by linarith)) (by norm_num)).1
  have κ0 : 0 < k + E := by linarith
  have a1 : |k + E - 1| ≤ 1 * k := by
    rw [abs_le]
    constructor <;> norm_num at * <;> linarith
  have a2 : |k + E - 1| ≤ k + E := by
    rw [abs_le]
    constructor <;> linarith
  have m1 : Near (k' + e2) (k + E) (2.12e-15 * (k + E)) :=
    n2.toNear (A := k + E) (by rw [abs_of_pos κ0]) (by norm_num) (by rw [add_zero])
  have m2 : Near (k' + e2 - 1) (k + E - 1) (2.25e-15 * (k + E)) := by
    refine m1.sub (rel_one.toNear (A := 1) (E := 0) (by norm_num) le_rfl (by norm_num)) (R := 1.01 * (k + E)) ?_ ?_ ?_ ?_ <;> norm_num at * <;> linarith
  have m3 : Near k' k (2e-15 * k) := hk.toNear (A := k) (by rw [abs_of_pos k0]) (by norm_num) (by rw [add_zero])
  have c1 : (2.25e-15 * (k + E) + 1 * (2e-15 * k)) / (k - 2e-15 * k) ≤ 4.3e-15 := by
    rw [div_le_iff₀ (by norm_num at *; linarith)]
    norm_num at *
    linarith
  have m4 : Near ((k' + e2 - 1) / k') ((k + E - 1) / k) 4.45e-15 := by
    refine m2.div m3 (A := 1) (B := k) (R := 1.01) a1 le_rfl (by norm_num at *; linarith) ?_ (by norm_num) (by norm_num) ?_ <;>
    norm_num at c1 ⊢ <;> linarith
  have a3 : |(k + E - 1) / k| ≤ 1 := by
    rw [abs_div, abs_of_pos k0, div_le_iff₀ k0]
    exact a1
  have m5 : Near (Flt.hypot (k' * r' / (k' + e2)) z') H 4.83e-8 :=
    n4.toNear (A := 10000000) (by rw [abs_of_pos (by linarith)]; exact H2) (by norm_num) (by norm_num)
  refine ⟨n7.mono (by norm_num), ?_, ?_⟩
  · exact m4.mul m5 (A := 1) (B := 10000000) (R := 10000001) a3 (by rw [abs_of_pos (by linarith)]; exact H2) (by norm_num)
      (by norm_num) (by norm_num) (by norm_num)
  · have a4 : -0.46 ≤ (k + E - 1) / k := by
      rw [le_div_iff₀ k0]
      norm_num at *
      linarith
    have a5 := (abs_le.1 a3).2
    have H0 : 0 ≤ H := by linarith
    have b1 := mul_le_mul_of_nonneg_right a4 H0
    have b2 := mul_le_mul_of_nonneg_right a5 H0
    norm_num at *
    constructor <;> linarith

/-! ### The theorem -/

set_option maxHeartbeats 1000000 in
/-- The scaled squares `p` and `q`, and `k`. -/
theorem k_near (hL : AccurateInverse L) {a' e2 r' z' : F64 L} {E R : ℝ} (fa : a'.isFinite) (a1 : (6000000 : ℝ) ≤ a'.toQ)
    (a2 : (a'.toQ : ℝ) ≤ 7000000) (e0 : 0 < E) (e1 : E ≤ 0.01) (R0 : 0 ≤ R) (lo : 5000000 ^ 2 ≤ R ^ 2 + (z'.toQ : ℝ) ^ 2)
    (hi : R ^ 2 + (z'.toQ : ℝ) ^ 2 ≤ 10000000 ^ 2) (he : Rel e2 E 6e-16 1e-65) (hr : Rel r' R 2.23e-16 1e-70) (hz : z'.isFinite) :
    ∃ k, vermeilleK (fin E) (fin (R / a'.toQ * (R / a'.toQ))) (fin ((1 - E) * (z'.toQ / a'.toQ) * (z'.toQ / a'.toQ))) = fin k ∧
      Rel (vermeilleK e2 (r' / a' * (r' / a')) ((1 - e2) * (z' / a') * (z' / a'))) k 2e-15 0 ∧ 0.689 ≤ k ∧ k ≤ 3.5 ∧
      KDomain E (R / a'.toQ * (R / a'.toQ)) ((1 - E) * (z'.toQ / a'.toQ) * (z'.toQ / a'.toQ)) := by
  have ka := Rel.exact fa
  have kz := Rel.exact hz
  have R2 : R ≤ 10000000 := by nlinarith [sq_nonneg (z'.toQ : ℝ)]
  have z2 : |(z'.toQ : ℝ)| ≤ 10000000 := abs_le_of_sq_le_sq (by linarith [sq_nonneg R]) (by norm_num)
  have a0 : (0 : ℝ) < a'.toQ := by linarith
  obtain ⟨a, ha⟩ : ∃ a : ℝ, a = a'.toQ := ⟨_, rfl⟩
  obtain ⟨z, hz'⟩ : ∃ z : ℝ, z = z'.toQ := ⟨_, rfl⟩
  rw [← ha] at a1 a2 ka a0 ⊢
  rw [← hz'] at lo hi z2 kz ⊢
  have q1 : |R / a| ≤ 1.67 := by
    rw [abs_of_nonneg (by positivity), div_le_iff₀ a0]
    norm_num at *
    linarith
  have q2 : |z / a| ≤ 1.67 := by
    rw [abs_div, abs_of_pos a0, div_le_iff₀ a0]
    norm_num at *
    linarith
  have n1 : Rel (r' / a') (R / a) 3.37e-16 1e-69 := hr.div ka (C := 6000000) (by rw [abs_of_pos a0]; exact a1) (by norm_num)
    (q1.trans (by norm_num)) (by norm_num) (by norm_num) (by norm_num) (by norm_num) (by norm_num) (by norm_num) (by norm_num)
    (by norm_num)
  have n2 : Rel (z' / a') (z / a) 1.14e-16 1e-69 := kz.div ka (C := 6000000) (by rw [abs_of_pos a0]; exact a1) (by norm_num)
    (q2.trans (by norm_num)) (by norm_num) (by norm_num) (by norm_num) (by norm_num) (by norm_num) (by norm_num) (by norm_num)
    (by norm_num)
  have n3 : Rel (r' / a' * (r' / a')) (R / a * (R / a)) 7.9e-16 1e-68 := n1.mul n1 q1 q1 (by norm_num) (by norm_num) (by norm_num)
    (by norm_num) (by norm_num) (by norm_num) (by norm_num) (by norm_num) (by norm_num) (by norm_num) (by norm_num)
  have n4 : Rel (1 - e2) (1 - E) 1.21e-16 2e-65 := rel_one.sub he (c := 0.01) (by norm_num) e0.le (by linarith) (by norm_num)
    (by norm_num) (by norm_num) (by norm_num) (by norm_num) (by norm_num) (by norm_num) (by norm_num) (by norm_num) (by norm_num)
  have q3 : |1 - E| ≤ 1 := by rw [abs_of_nonneg (by norm_num at *; linarith)]; linarith
  have n5 : Rel ((1 - e2) * (z' / a')) ((1 - E) * (z / a)) 3.5e-16 1e-64 := n4.mul n2 q3 q2 (by norm_num) (by norm_num) (by norm_num)
    (by norm_num) (by norm_num) (by norm_num) (by norm_num) (by norm_num) (by norm_num) (by norm_num) (by norm_num)
  have q4 : |(1 - E) * (z / a)| ≤ 1.67 := by
    rw [abs_mul]
    exact (mul_le_mul q3 q2 (abs_nonneg _) (by norm_num)).trans (by norm_num)
  have n6 : Rel ((1 - e2) * (z' / a') * (z' / a')) ((1 - E) * (z / a) * (z / a)) 5.9e-16 1e-63 := n5.mul n2 q4 q2 (by norm_num)
    (by norm_num) (by norm_num) (by norm_num) (by norm_num) (by norm_num) (by norm_num) (by norm_num) (by norm_num) (by norm_num)
    (by norm_num)
  have p0 := mul_toQ_nonneg n3.1 (mul_self_nonneg _)
  have c0 : 0 ≤ (1 - e2 : F64 L).toQ := by
    have h1 := (abs_le.1 n4.2).1
    rw [abs_of_nonneg (show 0 ≤ 1 - E by norm_num at *; linarith)] at h1
    have : (0 : ℝ) ≤ ((1 - e2 : F64 L).toQ : ℝ) := by norm_num at h1 e1; linarith
    exact_mod_cast this
  have z0 : 0 ≤ ((1 - e2) * (z' / a') * (z' / a') : F64 L).toQ := by
    refine mul_toQ_nonneg n6.1 ?_
    have e : ((1 - e2) * (z' / a') : F64 L).toQ = rndQ ((1 - e2 : F64 L).toQ * (z' / a' : F64 L).toQ) := (B64.mul_finite n5.1).2.2
    rw [e]
    rcases le_total 0 (z' / a' : F64 L).toQ with h | h
    · exact mul_nonneg (rndQ_nonneg (mul_nonneg c0 h)) h
    · refine mul_nonneg_of_nonpos_of_nonpos ?_ h
      rw [← neg_neg (_ * _), rndQ_neg]
      exact neg_nonpos.2 (rndQ_nonneg (neg_nonneg.2 (mul_nonpos_of_nonneg_of_nonpos c0 h)))
  have sum : R / a * (R / a) + (1 - E) * (z / a) * (z / a) = (R ^ 2 + (1 - E) * z ^ 2) / a ^ 2 := by field_simp
  have dom : VDom E (R / a * (R / a)) ((1 - E) * (z / a) * (z / a)) := by
    have hz2 := sq_nonneg z
    have A1 : (6000000 : ℝ) ^ 2 ≤ a ^ 2 := pow_le_pow_left₀ (by norm_num) a1 2
    have A2 : a ^ 2 ≤ 7000000 ^ 2 := pow_le_pow_left₀ a0.le a2 2
    have Ez : E * z ^ 2 ≤ 0.01 * z ^ 2 := mul_le_mul_of_nonneg_right e1 hz2
    have Ez0 : 0 ≤ E * z ^ 2 := by positivity
    refine ⟨e0, e1, mul_self_nonneg _, ?_, ?_, ?_⟩
    · rw [mul_assoc]
      exact mul_nonneg (by norm_num at *; linarith) (mul_self_nonneg _)
    · rw [sum, le_div_iff₀ (by positivity)]
      norm_num at *
      linarith [sq_nonneg R]
    · rw [sum, div_le_iff₀ (by positivity)]
      norm_num at *
      linarith
  obtain ⟨r, s, t, u, v, w, k, hv⟩ := VK.exists dom
  have vb := hv.bounds dom
  refine ⟨k, hv.fin dom, vermeilleK_rel hL hv dom he (n3.mono (by norm_num) (by norm_num)) (n6.mono (by norm_num) (by norm_num)) p0 z0,
    ?_, vb.k2, ?_⟩
  · have := vb.k1
    have := vb.m1
    norm_num at *
    linarith
  · have h1 : E ^ 2 ≤ 1e-4 := (pow_le_pow_left₀ e0.le e1 2).trans (by norm_num)
    have lo' := dom.lo
    have p0' := dom.p0
    have q0' := dom.q0
    norm_num at lo' h1
    refine ⟨by intro h; linarith, Or.inl ?_, ?_⟩
    · have : 0 ≤ (R / a * (R / a) + (1 - E) * (z / a) * (z / a) - E ^ 2) / 6 := by linarith
      exact add_nonneg (mul_nonneg (by norm_num) (pow_nonneg this 3)) (mul_nonneg (mul_nonneg (sq_nonneg _) p0') q0')
    · rintro ⟨h, h'⟩
      linarith

theorem sub_wrap_near {x y : F64 L} {l f : ℝ} (hx : InLonRange x) (kx : Near x l f) (hy : InLonRange y) (hf : f ≤ 1e-9) :
    ∃ n : ℤ, InLonRange ((⟨x - y⟩ : Angle (F64 L)).wrapped.rad) ∧
    Near (⟨x - y⟩ : Angle (F64 L)).wrapped.rad (l - y.toQ - n * (2 * Real.pi)) (f + 1.2e-15) := by
  have hp : (Flt.pi : F64 L).toQ = 884279719003555 / 2 ^ 48 := pi_fin.2
  obtain ⟨fx, bx⟩ := hx
  obtain ⟨fy, bY⟩ := hy
  rw [hp] at bx bY
  have b : |x.toQ - y.toQ| ≤ 6.5 := by
    refine (abs_sub _ _).trans ?_
    norm_num at *
    linarith
  have bR : |(x.toQ : ℝ) - y.toQ| ≤ 6.5 := by
    have := (Rat.cast_le (K := ℝ)).2 b
    push_cast at this
    exact this
  have bl : |l - y.toQ| ≤ 6.5 + f := by
    have := abs_sub_le (l - (y.toQ : ℝ)) (x.toQ - y.toQ) 0
    rw [sub_zero, sub_zero, sub_sub_sub_cancel_right, abs_sub_comm l x.toQ] at this
    linarith [kx.2]
  have hs : Near (x - y) (l - y.toQ) (f + 9e-16) :=
    Near.sub kx (Near.exact fy) (R := 6.6) (by norm_num at *; linarith) (by norm_num) (by norm_num) (by norm_num)
  have b2 : |(x - y).toQ| ≤ 9 := hs.abs_le_rat (by push_cast; norm_num at *; linarith)
  obtain ⟨n, r1, r2⟩ := wrapped_near hs b2
  exact ⟨n, ⟨r2.1, r1⟩, r2.mono (by norm_num; linarith)⟩

theorem rad_near {x : F64 L} {r ε : ℝ} (h : Near x r ε) : Near (Angle.new x RAD).rad r ε := metre_near h

set_option maxHeartbeats 1000000 in
theorem geodetic_core (hL : AccurateInverse L) (d : GeodeticDatum (F64 L)) (he : EarthSized d.ellipsoid)
    (hlt : d.ellipsoid.b.m.toQ < d.ellipsoid.a.m.toQ) (hfl : 0.995 * d.ellipsoid.a.m.toQ ≤ d.ellipsoid.b.m.toQ)
    (h0 : InLonRange d.primeMeridian.lon.angle.rad) (P : XYZ (F64 L)) (hP : NearSurface P) (id n pn : String) :
    ∃ l φ h : ℝ,
      (dat id n pn d.ellipsoid.a.m.toQ d.ellipsoid.b.m.toQ d.primeMeridian.lon.angle.rad.toQ).llhToXyz (llh l φ h) =
        xyz P.x.m.toQ P.y.m.toQ P.z.m.toQ ∧
      (dat id n pn d.ellipsoid.a.m.toQ d.ellipsoid.b.m.toQ d.primeMeridian.lon.angle.rad.toQ).xyzToLlh
        (xyz P.x.m.toQ P.y.m.toQ P.z.m.toQ) = llh l φ h ∧
      -(Real.pi / 2) ≤ φ ∧ φ ≤ Real.pi / 2 ∧ -4600000 ≤ h ∧ h ≤ 10000000 ∧ InLonRange (d.xyzToLlh P).lon.angle.rad ∧
      InLonRange (d.xyzToLlh P).lat.angle.rad ∧ Near (d.xyzToLlh P).lat.angle.rad φ 1e-14 ∧
      Near (d.xyzToLlh P).height.m h 1e-7 ∧
      (AxisOrOff P → ∃ m : ℤ, Near (d.xyzToLlh P).lon.angle.rad (l + m * (2 * Real.pi)) 5e-15) := by
  obtain ⟨e1, e2, e3⟩ := earth_real he
  obtain ⟨fx, fy, fz, lo, hi⟩ := hP
  have hb : (0 : ℝ) < d.ellipsoid.b.m.toQ := by linarith
  have hltR : (d.ellipsoid.b.m.toQ : ℝ) < d.ellipsoid.a.m.toQ := by exact_mod_cast hlt
  have hflR : 0.995 * (d.ellipsoid.a.m.toQ : ℝ) ≤ d.ellipsoid.b.m.toQ := by
    have := (Rat.cast_le (K := ℝ)).2 hfl
    push_cast at this
    exact this
  have loR : (5000000 : ℝ) ^ 2 ≤ (P.x.m.toQ : ℝ) ^ 2 + (P.y.m.toQ : ℝ) ^ 2 + (P.z.m.toQ : ℝ) ^ 2 := by
    have := (Rat.cast_le (K := ℝ)).2 lo
    push_cast at this
    exact this
  have hiR : (P.x.m.toQ : ℝ) ^ 2 + (P.y.m.toQ : ℝ) ^ 2 + (P.z.m.toQ : ℝ) ^ 2 ≤ 10000000 ^ 2 := by
    have := (Rat.cast_le (K := ℝ)).2 hi
    push_cast at this
    exact this
  have hE := eSq_rel he
  -- the eccentricity
  have E0 : 0 < ecc2 (d.ellipsoid.a.m.toQ : ℝ) d.ellipsoid.b.m.toQ := by
    unfold ecc2
    have : (0 : ℝ) < d.ellipsoid.a.m.toQ - d.ellipsoid.b.m.toQ := by linarith
    have : (0 : ℝ) < d.ellipsoid.a.m.toQ := by linarith
    positivity
  have E1 : ecc2 (d.ellipsoid.a.m.toQ : ℝ) d.ellipsoid.b.m.toQ ≤ 0.01 := by
    unfold ecc2
    have : (0 : ℝ) < d.ellipsoid.a.m.toQ := by linarith
    rw [div_le_iff₀ (by positivity)]
    have h1 : (d.ellipsoid.a.m.toQ : ℝ) - d.ellipsoid.b.m.toQ ≤ 0.005 * d.ellipsoid.a.m.toQ := by norm_num at *; linarith
    have h2 : (d.ellipsoid.a.m.toQ : ℝ) + d.ellipsoid.b.m.toQ ≤ 2 * d.ellipsoid.a.m.toQ := by linarith
    exact (mul_le_mul h1 h2 (by linarith) (by linarith)).trans (by ring_nf; rfl)
  -- the distance to the axis
  have zz := sq_nonneg (P.z.m.toQ : ℝ)
  have rr : Real.sqrt ((P.x.m.toQ : ℝ) ^ 2 + (P.y.m.toQ : ℝ) ^ 2) ^ 2 = (P.x.m.toQ : ℝ) ^ 2 + (P.y.m.toQ : ℝ) ^ 2 :=
    Real.sq_sqrt (by positivity)
  have bx : |(P.x.m.toQ : ℝ)| ≤ 10000000 := abs_le_of_sq_le_sq (by linarith [sq_nonneg (P.y.m.toQ : ℝ)]) (by norm_num)
  have bY : |(P.y.m.toQ : ℝ)| ≤ 10000000 := abs_le_of_sq_le_sq (by linarith [sq_nonneg (P.x.m.toQ : ℝ)]) (by norm_num)
  have bz : |(P.z.m.toQ : ℝ)| ≤ 10000000 :=
    abs_le_of_sq_le_sq (by linarith [sq_nonneg (P.x.m.toQ : ℝ), sq_nonneg (P.y.m.toQ : ℝ)]) (by norm_num)
  have hr : Rel (Flt.hypot P.x.m P.y.m) (Real.sqrt ((P.x.m.toQ : ℝ) ^ 2 + (P.y.m.toQ : ℝ) ^ 2)) 2.23e-16 1e-70 :=
    (Rel.exact fx).hypot hL (Rel.exact fy) (by norm_num at *; linarith) (by norm_num at *; linarith) le_rfl (by norm_num) le_rfl
      (by norm_num) le_rfl (by norm_num) (by norm_num) (by norm_num)
  have lonN := lon_near hL fx fy (by linarith) hr
  obtain ⟨lr, lon1, lon2⟩ := lon_any hL fx fy (by linarith) hr
  -- the exact computation
  obtain ⟨R, hR⟩ : ∃ R, R = Real.sqrt ((P.x.m.toQ : ℝ) ^ 2 + (P.y.m.toQ : ℝ) ^ 2) := ⟨_, rfl⟩
  have R0 : 0 ≤ R := by rw [hR]; exact Real.sqrt_nonneg _
  rw [← hR] at rr hr
  have R2 : R ≤ 10000000 := by nlinarith
  have ep : pOf (d.ellipsoid.a.m.toQ : ℝ) P.x.m.toQ P.y.m.toQ = R / d.ellipsoid.a.m.toQ * (R / d.ellipsoid.a.m.toQ) := by
    rw [pOf, ← hR]
  obtain ⟨k, hk, kr, k1, k2, kd⟩ := k_near hL he.a_finite (by linarith) e3 E0 E1 R0 (by linarith) (by linarith) hE hr fz
  rw [← ep] at kd hk
  have conv := (kdomain_iff hb hltR P.x.m.toQ P.y.m.toQ P.z.m.toQ).1 kd
  obtain ⟨l, φ, h, x1, x2, -, -, x3, x4, -⟩ := datum_from_xyz hb hltR.le id n pn d.primeMeridian.lon.angle.rad.toQ P.x.m.toQ
    P.y.m.toQ P.z.m.toQ (fun _ => conv)
  have v := VHeight.of E0 E1 R0 (show 5000000 ^ 2 ≤ R ^ 2 + (P.z.m.toQ : ℝ) ^ 2 by linarith) (by linarith) k1 k2
  obtain ⟨g1, g2, g3⟩ := height_core hL E0 E1 R0 R2 bz v kr hE hr fz
  have x5 := xyzToLlh_k hb hltR id n pn d.primeMeridian.lon.angle.rad.toQ P.x.m.toQ P.y.m.toQ P.z.m.toQ
  rw [x1, qOf, hk] at x5
  have kpos : k ≠ 0 := by linarith
  have kE : k + ecc2 (d.ellipsoid.a.m.toQ : ℝ) d.ellipsoid.b.m.toQ ≠ 0 := by linarith
  simp only [add_fin, mul_fin, div_fin _ kE, hypot_fin, atan2_fin, ← hR, angle_new_rad, lat_new_fin, sub_fin, div_fin _ kpos,
    length_new_m, llh, LLH.mk.injEq] at x5
  obtain ⟨y1, y2, y3⟩ := x5
  have ey1 : l = remR (remR (vlon P.x.m.toQ P.y.m.toQ) - d.primeMeridian.lon.angle.rad.toQ) :=
    XR.fin.inj (Angle.mk.inj (Lon.mk.inj y1))
  have ey2 := XR.fin.inj (Angle.mk.inj (Lat.mk.inj y2))
  have ey3 := XR.fin.inj (Length.mk.inj y3)
  rw [← ey3] at g2 g3
  -- the branch
  have hsp : d.ellipsoid.isSpherical = false := by
    have : (d.ellipsoid.a.beq d.ellipsoid.b) = _ := B64.eq_fin he.a_finite he.b_finite
    rw [Ellipsoid.isSpherical, this, he.flat hlt]
    simp only [Bool.or_false, decide_eq_false_iff_not]
    exact hlt.ne'
  -- the longitude
  have r1 := rad_near lon1
  obtain ⟨n1, w1, w2⟩ := wrapped_near r1 (r1.abs_le_rat (by push_cast; norm_num at *; linarith))
  obtain ⟨n2, w3, w4⟩ := sub_wrap_near ⟨w2.1, w1⟩ w2 h0 (by norm_num)
  -- the latitude
  have r2 := rad_near g1
  obtain ⟨w5, w6⟩ := lat_clamp_near r2
  rw [← ey2] at w6
  have r3 := metre_near g2
  refine ⟨l, φ, h, x2, x1, x3, x4, g3.1, g3.2, ?_⟩
  unfold GeodeticDatum.xyzToLlh
  simp only [hsp, Bool.false_eq_true, if_false]
  refine ⟨w3, w5, w6.mono (by norm_num), r3, fun ax => ?_⟩
  obtain ⟨lon1, lon2⟩ := lonN ax
  have r1 := rad_near lon1
  obtain ⟨n1, w1, w2⟩ := wrapped_near r1 (r1.abs_le_rat (by push_cast; norm_num at *; linarith))
  obtain ⟨n2, w3, w4⟩ := sub_wrap_near ⟨w2.1, w1⟩ w2 h0 (by norm_num)
  obtain ⟨m1, hm1⟩ := remR_same (vlon P.x.m.toQ P.y.m.toQ)
  obtain ⟨m2, hm2⟩ := remR_same (remR (vlon P.x.m.toQ P.y.m.toQ) - d.primeMeridian.lon.angle.rad.toQ)
  rw [← ey1] at hm2
  have ek : l + ((-(n1 + n2 + m1 + m2) : ℤ) : ℝ) * (2 * Real.pi) =
      vlon P.x.m.toQ P.y.m.toQ - n1 * (2 * Real.pi) - d.primeMeridian.lon.angle.rad.toQ - n2 * (2 * Real.pi) := by
    push_cast
    linarith
  rw [← ek] at w4
  exact ⟨_, w4.mono (by norm_num)⟩

/-- **C100**: in IEEE arithmetic, with an accurate mathematical library, the longitude, the latitude and the height
`xyz_to_llh` computes for a point between 5000 km and 10000 km from the centre of an ellipsoid of the size and the shape
of the Earth are within 5e-15 rad, 1e-14 rad and 0.1 µm of those of the point: the exact triple whose geocentric
coordinates are the given ones. -/
theorem C100_geodetic_accuracy (hL : AccurateInverse L) (d : GeodeticDatum (F64 L)) (he : EarthSized d.ellipsoid)
    (hlt : d.ellipsoid.b.m.toQ < d.ellipsoid.a.m.toQ) (hfl : 0.995 * d.ellipsoid.a.m.toQ ≤ d.ellipsoid.b.m.toQ)
    (h0 : InLonRange d.primeMeridian.lon.angle.rad) (P : XYZ (F64 L)) (hP : NearSurface P) (ax : AxisOrOff P)
    (id n pn : String) :
    ∃ l φ h : ℝ,
      (dat id n pn d.ellipsoid.a.m.toQ d.ellipsoid.b.m.toQ d.primeMeridian.lon.angle.rad.toQ).llhToXyz (llh l φ h) =
        xyz P.x.m.toQ P.y.m.toQ P.z.m.toQ ∧
      (dat id n pn d.ellipsoid.a.m.toQ d.ellipsoid.b.m.toQ d.primeMeridian.lon.angle.rad.toQ).xyzToLlh
        (xyz P.x.m.toQ P.y.m.toQ P.z.m.toQ) = llh l φ h ∧
      -(Real.pi / 2) ≤ φ ∧ φ ≤ Real.pi / 2 ∧ -4600000 ≤ h ∧ h ≤ 10000000 ∧ NearLlh (d.xyzToLlh P) l φ h 5e-15 1e-14 1e-7 := by
  obtain ⟨l, φ, h, x2, x1, x3, x4, x5, x6, n1, n2, n3, n4, n5⟩ := geodetic_core hL d he hlt hfl h0 P hP id n pn
  exact ⟨l, φ, h, x2, x1, x3, x4, x5, x6, n1, n2, n5 ax, n3, n4⟩

/-- **C100**, with no condition on the distance to the axis: what is computed is within the same bounds of the exact
triple of a point within 1e-39 m of the given one. -/
theorem C100_geodetic_backward (hL : AccurateInverse L) (d : GeodeticDatum (F64 L)) (he : EarthSized d.ellipsoid)
    (hlt : d.ellipsoid.b.m.toQ < d.ellipsoid.a.m.toQ) (hfl : 0.995 * d.ellipsoid.a.m.toQ ≤ d.ellipsoid.b.m.toQ)
    (h0 : InLonRange d.primeMeridian.lon.angle.rad) (P : XYZ (F64 L)) (hP : NearSurface P) (id n pn : String) :
    ∃ l φ h x y : ℝ,
      (dat id n pn d.ellipsoid.a.m.toQ d.ellipsoid.b.m.toQ d.primeMeridian.lon.angle.rad.toQ).llhToXyz (llh l φ h) =
        xyz x y P.z.m.toQ ∧ |x - P.x.m.toQ| ≤ 1e-39 ∧ |y - P.y.m.toQ| ≤ 1e-39 ∧
      -(Real.pi / 2) ≤ φ ∧ φ ≤ Real.pi / 2 ∧ -4600000 ≤ h ∧ h ≤ 10000000 ∧ NearLlh (d.xyzToLlh P) l φ h 5e-15 1e-14 1e-7 := by
  obtain ⟨l, φ, h, x2, x1, x3, x4, x5, x6, n1, n2, n3, n4, n5⟩ := geodetic_core hL d he hlt hfl h0 P hP id n pn
  by_cases ax : AxisOrOff P
  · exact ⟨l, φ, h, _, _, x2, by norm_num, by norm_num, x3, x4, x5, x6, n1, n2, n5 ax, n3, n4⟩
  unfold AxisOrOff at ax
  push Not at ax
  have small : (P.x.m.toQ : ℝ) ^ 2 + (P.y.m.toQ : ℝ) ^ 2 ≤ 1e-40 ^ 2 := by
    have := (Rat.cast_lt (K := ℝ)).2 ax.2
    push_cast at this
    exact this.le
  obtain ⟨e1, e2, -⟩ := earth_real he
  have hb : (0 : ℝ) < d.ellipsoid.b.m.toQ := by linarith
  have hltR : (d.ellipsoid.b.m.toQ : ℝ) < d.ellipsoid.a.m.toQ := by exact_mod_cast hlt
  rw [llhToXyz_all hb e2] at x2
  simp only [geo, xyz, XYZ.mk.injEq, Length.mk.injEq, XR.fin.injEq] at x2
  obtain ⟨y1, y2, y3⟩ := x2
  set V := (pvr (d.ellipsoid.a.m.toQ : ℝ) d.ellipsoid.b.m.toQ φ + h) * Real.cos φ with hV
  have hV2 : V ^ 2 ≤ 1e-40 ^ 2 := by
    rw [← y1, ← y2] at small
    refine le_trans (le_of_eq ?_) small
    have := Real.sin_sq_add_cos_sq (effLon (d.ellipsoid.a.m.toQ : ℝ) d.ellipsoid.b.m.toQ d.primeMeridian.lon.angle.rad.toQ l)
    linear_combination (-(V ^ 2)) * this
  have hV1 : |V| ≤ 1e-40 := abs_le_of_sq_le_sq hV2 (by norm_num)
  have hx1 : |(P.x.m.toQ : ℝ)| ≤ 1e-40 := abs_le_of_sq_le_sq (by linarith [sq_nonneg (P.y.m.toQ : ℝ)]) (by norm_num)
  have hy1 : |(P.y.m.toQ : ℝ)| ≤ 1e-40 := abs_le_of_sq_le_sq (by linarith [sq_nonneg (P.x.m.toQ : ℝ)]) (by norm_num)
  have close : ∀ t u : ℝ, |t| ≤ 1 → |u| ≤ 1e-40 → |V * t - u| ≤ 1e-39 := by
    intro t u ht hu
    have h1 := abs_sub (V * t) u
    rw [abs_mul] at h1
    have : |V| * |t| ≤ 1e-40 * 1 := mul_le_mul hV1 ht (abs_nonneg _) (by norm_num)
    norm_num at *
    linarith
  set l' := effLon (d.ellipsoid.a.m.toQ : ℝ) d.ellipsoid.b.m.toQ d.primeMeridian.lon.angle.rad.toQ (d.xyzToLlh P).lon.angle.rad.toQ
    with hl'
  refine ⟨(d.xyzToLlh P).lon.angle.rad.toQ, φ, h, V * Real.cos l', V * Real.sin l', ?_, close _ _ (Real.abs_cos_le_one _) hx1,
    close _ _ (Real.abs_sin_le_one _) hy1, x3, x4, x5, x6, n1, n2, ⟨0, ?_⟩, n3, n4⟩
  · rw [llhToXyz_all hb e2, geo, ← y3]
  · simpa using (Near.exact n1.1).mono (show (0 : ℝ) ≤ 5e-15 by norm_num)

theorem Spec.Near.shift {x : F64 L} {r s ε δ : ℝ} (h : Near x r ε) (hs : |r - s| ≤ δ) : Near x s (ε + δ) :=
  ⟨h.1, (abs_sub_le _ r _).trans (add_le_add h.2 hs)⟩

/-- **C101**: computing the longitude, the latitude and the height of such a point and its geocentric coordinates again
moves it by at most half a micrometre along each axis. -/
theorem C101_round_trip_f64 (hL : AccurateInverse L) (d : GeodeticDatum (F64 L)) (he : EarthSized d.ellipsoid)
    (hlt : d.ellipsoid.b.m.toQ < d.ellipsoid.a.m.toQ) (hfl : 0.995 * d.ellipsoid.a.m.toQ ≤ d.ellipsoid.b.m.toQ)
    (h0 : InLonRange d.primeMeridian.lon.angle.rad) (P : XYZ (F64 L)) (hP : NearSurface P) :
    Near (d.llhToXyz (d.xyzToLlh P)).x.m P.x.m.toQ 5e-7 ∧ Near (d.llhToXyz (d.xyzToLlh P)).y.m P.y.m.toQ 5e-7 ∧
      Near (d.llhToXyz (d.xyzToLlh P)).z.m P.z.m.toQ 5e-7 := by
  obtain ⟨l, φ, h, X, Y, x1, dx, dy, -, -, h1, h2, n1, n2, ⟨m, n3⟩, n4, n5⟩ :=
    C100_geodetic_backward hL d he hlt hfl h0 P hP "" "" ""
  obtain ⟨x, y, z, e, kx, ky, kz⟩ := C97_geocentric_error hL.toAccurate d he h0 (d.xyzToLlh P) n1 n2 n3 n4 n5
    (abs_le.2 ⟨by linarith, h2⟩) (by norm_num)
    (by norm_num) (by norm_num) "" "" ""
  obtain ⟨e1, e2, -⟩ := earth_real he
  rw [llhToXyz_congr (by linarith) e2 _ _ _ _ _ _ (l := l) ⟨m, rfl⟩, x1] at e
  simp only [xyz, XYZ.mk.injEq, Length.mk.injEq, XR.fin.injEq] at e
  obtain ⟨rfl, rfl, rfl⟩ := e
  have b : errXyz 5e-15 1e-14 1e-7 + 1e-39 ≤ 5e-7 := by unfold errXyz; norm_num
  exact ⟨(kx.shift dx).mono b, (ky.shift dy).mono b, kz.mono (by linarith)⟩

theorem wgs84_flat :
    (GeodeticDatum.consts.WGS84 : GeodeticDatum (F64 L)).ellipsoid.b.m.toQ <
      (GeodeticDatum.consts.WGS84 : GeodeticDatum (F64 L)).ellipsoid.a.m.toQ ∧
    0.995 * (GeodeticDatum.consts.WGS84 : GeodeticDatum (F64 L)).ellipsoid.a.m.toQ ≤
      (GeodeticDatum.consts.WGS84 : GeodeticDatum (F64 L)).ellipsoid.b.m.toQ := by
  have h : let m := B64.div (B64.lit 1) (B64.lit 1)
      let a := B64.mul (B64.lit 6378137) m
      let b := B64.mul (B64.mul (B64.lit 6378137) (B64.sub (B64.lit 1) (B64.div (B64.lit 1) (B64.lit 298.257223563)))) m
      b.toQ < a.toQ ∧ 0.995 * a.toQ ≤ b.toQ := by decide +kernel
  exact h

theorem point_nearSurface : NearSurface (⟨⟨Flt.lit 4000000⟩, ⟨Flt.lit (-3000000)⟩, ⟨Flt.lit 4000000⟩⟩ : XYZ (F64 L)) := by
  have h : let x := B64.lit 4000000
      let y := B64.lit (-3000000)
      x.isFinite = true ∧ y.isFinite = true ∧ x.toQ = 4000000 ∧ y.toQ = -3000000 := by decide +kernel
  obtain ⟨h1, h2, h3, h4⟩ := h
  have e3 : (Flt.lit 4000000 : F64 L).toQ = 4000000 := h3
  have e4 : (Flt.lit (-3000000) : F64 L).toQ = -3000000 := h4
  refine ⟨h1, h2, h1, ?_, ?_⟩ <;> simp only [e3, e4] <;> norm_num

theorem point_axis : AxisOrOff (⟨⟨Flt.lit 4000000⟩, ⟨Flt.lit (-3000000)⟩, ⟨Flt.lit 4000000⟩⟩ : XYZ (F64 L)) := by
  have h : (B64.lit 4000000).toQ = 4000000 ∧ (B64.lit (-3000000)).toQ = -3000000 := by decide +kernel
  have e3 : (Flt.lit 4000000 : F64 L).toQ = 4000000 := h.1
  have e4 : (Flt.lit (-3000000) : F64 L).toQ = -3000000 := h.2
  refine Or.inr ?_
  simp only [e3, e4]
  norm_num

/-- WGS 84 and a point 28 km above it. -/
example : ∃ l φ h : ℝ, -4600000 ≤ h ∧ h ≤ 10000000 ∧
    NearLlh ((GeodeticDatum.consts.WGS84 : GeodeticDatum (F64 roundLibm)).xyzToLlh
      ⟨⟨Flt.lit 4000000⟩, ⟨Flt.lit (-3000000)⟩, ⟨Flt.lit 4000000⟩⟩) l φ h 5e-15 1e-14 1e-7 := by
  obtain ⟨l, φ, h, -, -, -, -, h1, h2, h3⟩ := C100_geodetic_accuracy roundLibm_accurateInverse GeodeticDatum.consts.WGS84
    wgs84_earthSized wgs84_flat.1 wgs84_flat.2 greenwich_inLonRange _ point_nearSurface point_axis "" "" ""
  exact ⟨l, φ, h, h1, h2, h3⟩

end Geo
