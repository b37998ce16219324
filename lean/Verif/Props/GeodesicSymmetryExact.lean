import Verif.Props.DirectExact

/-! # C92: the symmetries of the ellipsoid are symmetries of the geodesic solvers

Turning both points around the axis, exchanging them, and mirroring them in the equator or in a meridian changes the
azimuths the way it changes the directions, and never the length. -/

namespace Geo
open XR Spec

/-! ### Turning around the axis -/

section anyArithmetic
variable {F : Type} [Flt F]

/-- The inverse solvers read the longitudes only through their difference. -/
theorem solveInverse_lon (sv : GeodesicSolver F) {l₁ l₂ l₁' l₂' : Lon F} (φ₁ φ₂ : Lat F)
    (h : l₂'.sub l₁' = l₂.sub l₁) :
    sv.solveInverse (l₁', φ₁) (l₂', φ₂) = sv.solveInverse (l₁, φ₁) (l₂, φ₂) >>= fun g =>
      .ok { g with p1 := (l₁', φ₁), p2 := (l₂', φ₂) } := by
  cases sv with
  | vincenty s =>
    simp only [GeodesicSolver.solveInverse, VincentyGeodesicSolver.inverse, h, bind_assoc]
    rfl
  | rapp s =>
    simp only [GeodesicSolver.solveInverse, RappSolver.inverse, h, bind_assoc]
    rfl
  | karney s => rfl

/-- **C92**, in every arithmetic (f64 included): for every solver, the start longitude has no influence on the direct
problem except that the end longitude is counted from it. -/
theorem C92_direct_longitude (sv : GeodesicSolver F) (φ : Lat F) (α : Azimuth F) (s : Length F) :
    (∃ e, ∀ l : Lon F, sv.solveDirect (l, φ) α s = .error e) ∨
    ∃ (L : Angle F) (φ₂ : Lat F) (α₂ : Azimuth F), ∀ l : Lon F, sv.solveDirect (l, φ) α s =
      .ok { p1 := (l, φ), alpha1 := α, p2 := (l.addAngle L, φ₂), alpha2 := α₂, s := s } := by
  cases sv with
  | vincenty sv =>
    simp only [GeodesicSolver.solveDirect, VincentyGeodesicSolver.direct]
    generalize loopMax _ _ _ _ _ = r
    rcases r with e | st
    · exact .inl ⟨e, fun _ => rfl⟩
    · exact .inr ⟨_, _, _, fun _ => rfl⟩
  | rapp sv =>
    simp only [GeodesicSolver.solveDirect, RappSolver.direct]
    generalize loopMax _ _ _ _ _ = r
    rcases r with e | st
    · exact .inl ⟨e, fun _ => rfl⟩
    · exact .inr ⟨_, _, _, fun _ => rfl⟩
  | karney sv =>
    simp only [GeodesicSolver.solveDirect, KarneyGeodesicSolver.direct]
    exact .inr ⟨_, _, _, fun _ => rfl⟩

end anyArithmetic

/-- **C92**: for every solver, adding the same angle to both longitudes does not change the result of the inverse
problem: same length and azimuths, or same error. -/
theorem C92_inverse_turn (sv : GeodesicSolver XR) (l₁ l₂ w : ℝ) (φ₁ φ₂ : Lat XR) :
    sv.solveInverse ((lonR l₁).addAngle ⟨fin w⟩, φ₁) ((lonR l₂).addAngle ⟨fin w⟩, φ₂) =
      sv.solveInverse (lonR l₁, φ₁) (lonR l₂, φ₂) >>= fun g =>
        .ok { g with p1 := ((lonR l₁).addAngle ⟨fin w⟩, φ₁), p2 := ((lonR l₂).addAngle ⟨fin w⟩, φ₂) } := by
  apply solveInverse_lon
  obtain ⟨⟨x, hx, -, -, -, sx, -⟩, -⟩ := C01_operators l₁ w
  obtain ⟨⟨y, hy, -, -, -, sy, -⟩, -⟩ := C01_operators l₂ w
  show ((Lon.mk ⟨fin l₂⟩).addAngle _).sub ((Lon.mk ⟨fin l₁⟩).addAngle _) = _
  rw [hx, hy]
  show (lonR y).sub (lonR x) = (lonR l₂).sub (lonR l₁)
  simp only [Lon.sub, lonR, diffTo_fin]
  congr 2
  apply normR_congr
  have := sy.sub sx
  rwa [show l₂ + w - (l₁ + w) = l₂ - l₁ by ring] at this

namespace VincentySymmetry
open VincentyGeodesicSolver

/-- The loop of the inverse problem between points whose auxiliary triangle is the same up to the sign of the
longitude difference. -/
theorem loop_sym (f β₁ β₂ β₁' β₂' L ε : ℝ) (hε : ε = 1 ∨ ε = -1)
    (hsym : ∀ l, arc β₁' β₂' (ε * l) = arc β₁ β₂ l ∧ salpha β₁' β₂' (ε * l) = ε * salpha β₁ β₂ l ∧
      ∀ c, mid β₁' β₂' (ε * l) c = mid β₁ β₂ l c)
    (msg : String) (n : ℕ) (l c₀ : ℝ) (st st' r : InverseState XR)
    (h1 : st.lambda = fin l) (h2 : st.sin_lambda = fin (Real.sin l)) (h3 : st.cos_lambda = fin (Real.cos l))
    (h4 : st.cos_2_sigma_m = fin c₀) (h1' : st'.lambda = fin (ε * l)) (h2' : st'.sin_lambda = fin (Real.sin (ε * l)))
    (h3' : st'.cos_lambda = fin (Real.cos (ε * l))) (h4' : st'.cos_2_sigma_m = fin c₀)
    (h : loopMax (inverseStep (fin f) (fin (Real.sin β₁)) (fin (Real.cos β₁)) (fin (Real.sin β₂)) (fin (Real.cos β₂))
      (fin L)) inverseDone msg n st = .ok r) :
    ∃ r' m, loopMax (inverseStep (fin f) (fin (Real.sin β₁')) (fin (Real.cos β₁')) (fin (Real.sin β₂'))
      (fin (Real.cos β₂')) (fin (ε * L))) inverseDone msg n st' = .ok r' ∧
      (r'.cos_alpha_sq = r.cos_alpha_sq ∧ r'.sigma = r.sigma ∧ r'.sin_sigma = r.sin_sigma ∧
        r'.cos_sigma = r.cos_sigma ∧ r'.cos_2_sigma_m = r.cos_2_sigma_m) ∧
      (r.sin_lambda = fin (Real.sin m) ∧ r.cos_lambda = fin (Real.cos m) ∧
        r'.sin_lambda = fin (Real.sin (ε * m)) ∧ r'.cos_lambda = fin (Real.cos (ε * m))) ∧
      (l = L → Real.sin L = 0 → m = L) := by
  induction n generalizing l c₀ st st' with
  | zero => cases h
  | succ n ih =>
    rw [loopMax] at h
    by_cases hs : Real.sin (arc β₁ β₂ l) = 0
    · have hn := inverseStep_coincident f β₁ β₂ L l st hs h2 h3
      simp only [inverseDone_nan _ hn, Bool.false_eq_true, if_false, loopMax_nan _ _ _ _ _ _ _ hn] at h
      cases h
    · have hr := inverseStep_real f β₁ β₂ L l c₀ st hs h1 h2 h3 h4
      obtain ⟨s1, s2, s3⟩ := hsym l
      have hs' : Real.sin (arc β₁' β₂' (ε * l)) ≠ 0 := by rwa [s1]
      have hr' := inverseStep_real f β₁' β₂' (ε * L) (ε * l) c₀ st' hs' h1' h2' h3' h4'
      rw [s1, s2, s3, excess_sign _ _ _ _ _ hε, ← mul_add, show (ε * salpha β₁ β₂ l) ^ 2 = salpha β₁ β₂ l ^ 2 by
        rcases hε with rfl | rfl <;> ring] at hr'
      have hL : l = L → Real.sin L = 0 →
          vincentyExcess f (salpha β₁ β₂ l) (arc β₁ β₂ l) (mid β₁ β₂ l c₀) + L = L := by
        rintro rfl h0
        have : salpha β₁ β₂ l = 0 := by rw [salpha, h0]; ring
        rw [this, vincentyExcess]
        ring
      have hd : inverseDone (inverseStep (fin f) (fin (Real.sin β₁')) (fin (Real.cos β₁')) (fin (Real.sin β₂'))
          (fin (Real.cos β₂')) (fin (ε * L)) st') = inverseDone (inverseStep (fin f) (fin (Real.sin β₁))
          (fin (Real.cos β₁)) (fin (Real.sin β₂)) (fin (Real.cos β₂)) (fin L) st) := by
        rw [inverseDone_real hr, inverseDone_real hr', ← mul_sub, abs_mul]
        rcases hε with rfl | rfl <;> simp
      rw [loopMax]
      simp only [hd]
      split at h
      · rename_i hd
        cases h
        refine ⟨_, _, if_pos hd, ⟨?_, ?_, ?_, ?_, ?_⟩, ⟨hr.sin_lambda, hr.cos_lambda, hr'.sin_lambda, hr'.cos_lambda⟩,
          hL⟩
        · rw [hr'.cos_alpha_sq, hr.cos_alpha_sq]
        · rw [hr'.sigma, hr.sigma]
        · rw [hr'.sin_sigma, hr.sin_sigma]
        · rw [hr'.cos_sigma, hr.cos_sigma]
        · rw [hr'.mid, hr.mid]
      · rename_i hd
        simp only [hd, Bool.false_eq_true, if_false]
        obtain ⟨r', m, q1, q2, q3, q4⟩ := ih _ _ _ _ hr.lambda hr.sin_lambda hr.cos_lambda hr.mid hr'.lambda
          hr'.sin_lambda hr'.cos_lambda hr'.mid h
        exact ⟨r', m, q1, q2, q3, fun e e0 => q4 (hL e e0) e0⟩

/-- The direction of the geodesic at the first and at the second point. -/
noncomputable def dir1 (β₁ β₂ l : ℝ) : ℂ :=
  ⟨Real.cos β₁ * Real.sin β₂ - Real.sin β₁ * Real.cos β₂ * Real.cos l, Real.cos β₂ * Real.sin l⟩
@[inherit_doc dir1] noncomputable def dir2 (β₁ β₂ l : ℝ) : ℂ :=
  ⟨-Real.sin β₁ * Real.cos β₂ + Real.cos β₁ * Real.sin β₂ * Real.cos l, Real.cos β₁ * Real.sin l⟩

theorem inverse_sym {a b : ℝ} (hb : 0 < b) (hab : b ≤ a) (n : String) {l₁ φ₁ l₂ φ₂ l₁' φ₁' l₂' φ₂' : ℝ}
    {β₁ β₂ β₁' β₂' ε : ℝ} (e₁ : (ell n a b).reducedLatitude (latR φ₁) = ⟨fin β₁⟩)
    (e₂ : (ell n a b).reducedLatitude (latR φ₂) = ⟨fin β₂⟩) (e₁' : (ell n a b).reducedLatitude (latR φ₁') = ⟨fin β₁'⟩)
    (e₂' : (ell n a b).reducedLatitude (latR φ₂') = ⟨fin β₂'⟩) (hε : ε = 1 ∨ ε = -1)
    (hL : normR (l₂' - l₁') = ε * normR (l₂ - l₁))
    (hsym : ∀ l, arc β₁' β₂' (ε * l) = arc β₁ β₂ l ∧ salpha β₁' β₂' (ε * l) = ε * salpha β₁ β₂ l ∧
      ∀ c, mid β₁' β₂' (ε * l) c = mid β₁ β₂ l c) (g : Geodesic XR)
    (h : inverse ⟨ell n a b⟩ (lonR l₁, latR φ₁) (lonR l₂, latR φ₂) = .ok g) :
    ∃ g' m, inverse ⟨ell n a b⟩ (lonR l₁', latR φ₁') (lonR l₂', latR φ₂') = .ok g' ∧ g'.s = g.s ∧
      g.alpha1 = aziR (normR (dir1 β₁ β₂ m).arg) ∧ g.alpha2 = aziR (normR (dir2 β₁ β₂ m).arg) ∧
      g'.alpha1 = aziR (normR (dir1 β₁' β₂' (ε * m)).arg) ∧ g'.alpha2 = aziR (normR (dir2 β₁' β₂' (ε * m)).arg) ∧
      (Real.sin (normR (l₂ - l₁)) = 0 → m = normR (l₂ - l₁)) := by
  rw [inverse_eq hb hab n l₁ φ₁ l₂ φ₂ β₁ β₂ e₁ e₂] at h
  obtain ⟨st, hst, hg⟩ := bind_eq_ok.1 h
  obtain ⟨r', m, hr', ⟨q1, q2, q3, q4, q5⟩, ⟨t1, t2, t3, t4⟩, hm⟩ := loop_sym _ β₁ β₂ β₁' β₂' _ ε hε hsym _ _
    (normR (l₂ - l₁)) 0 _ (inverseInit (fin (ε * normR (l₂ - l₁)))) st rfl rfl rfl zero_eq rfl rfl rfl zero_eq hst
  rw [inverse_eq hb hab n l₁' φ₁' l₂' φ₂' β₁' β₂' e₁' e₂', hL, hr', ok_bind]
  refine ⟨_, m, rfl, ?_⟩
  cases hg
  refine ⟨by simp only [inverseLength, q1, q2, q3, q4, q5], ?_, ?_, ?_, ?_, hm rfl⟩
  · simp only [t1, t2, mul_fin, sub_fin, atan2_fin, angle_new_rad, azi_new_fin, dir1]
  · simp only [t1, t2, mul_fin, add_fin, neg_fin, atan2_fin, angle_new_rad, azi_new_fin, dir2]
  · simp only [t3, t4, mul_fin, sub_fin, atan2_fin, angle_new_rad, azi_new_fin, dir1]
  · simp only [t3, t4, mul_fin, add_fin, neg_fin, atan2_fin, angle_new_rad, azi_new_fin, dir2]

/-- A longitude difference that is its own opposite is `0` or `π`. -/
theorem sin_swap {x ε m : ℝ} (hε : ε = 1 ∨ ε = -1) (hL : normR (-x) = ε * normR x)
    (hm : Real.sin (normR x) = 0 → m = normR x) :
    Real.sin (ε * m) = -Real.sin m ∧ Real.cos (ε * m) = Real.cos m := by
  rcases hε with rfl | rfl
  · have h0 : Real.sin (normR x) = 0 := by
      have e1 := (normR_same (-x)).sin
      rw [hL, one_mul, Real.sin_neg] at e1
      have e2 := (normR_same x).sin
      linarith
    rw [one_mul, hm h0, h0, neg_zero]
    exact ⟨rfl, rfl⟩
  · rw [neg_one_mul, Real.sin_neg, Real.cos_neg]
    exact ⟨rfl, rfl⟩

theorem dir_zero (β₁ β₂ l : ℝ) : (dir1 β₁ β₂ l = 0 ↔ ssq β₁ β₂ l = 0) ∧ (dir2 β₁ β₂ l = 0 ↔ ssq β₁ β₂ l = 0) := by
  have key : ∀ (z : ℂ), (z = 0 ↔ z.im ^ 2 + z.re ^ 2 = 0) := by
    intro z
    constructor
    · rintro rfl; simp
    · intro h
      have h1 : z.im = 0 := by nlinarith [sq_nonneg z.im, sq_nonneg z.re]
      have h2 : z.re = 0 := by nlinarith [sq_nonneg z.im, sq_nonneg z.re]
      exact Complex.ext h2 h1
  constructor
  · rw [key, ssq, dir1]
  · rw [key, ← ssq_comm, ssq, dir2]
    simp only
    ring_nf

/-- If the direction vanishes the points have the same or opposite reduced latitudes. -/
theorem sin_sq_of_ssq {β₁ β₂ l : ℝ} (h : ssq β₁ β₂ l = 0) : Real.sin β₁ ^ 2 = Real.sin β₂ ^ 2 := by
  have e1 := (dir_zero β₁ β₂ l).1.2 h
  have e2 := (dir_zero β₁ β₂ l).2.2 h
  have r1 : Real.cos β₁ * Real.sin β₂ - Real.sin β₁ * Real.cos β₂ * Real.cos l = 0 := congrArg Complex.re e1
  have r2 : -Real.sin β₁ * Real.cos β₂ + Real.cos β₁ * Real.sin β₂ * Real.cos l = 0 := congrArg Complex.re e2
  have i1 : Real.cos β₂ * Real.sin l = 0 := congrArg Complex.im e1
  have i2 : Real.cos β₁ * Real.sin l = 0 := congrArg Complex.im e2
  have p1 := Real.sin_sq_add_cos_sq β₁
  have p2 := Real.sin_sq_add_cos_sq β₂
  have p3 := Real.sin_sq_add_cos_sq l
  by_cases hl : Real.sin l = 0
  · have hc : Real.cos l ^ 2 = 1 := by nlinarith
    have h1 : (Real.cos β₁ * Real.sin β₂) ^ 2 = (Real.sin β₁ * Real.cos β₂) ^ 2 := by
      rw [sub_eq_zero.1 r1, mul_pow _ (Real.cos l), hc, mul_one]
    nlinarith
  · have c1 : Real.cos β₁ = 0 := (mul_eq_zero.1 i2).resolve_right hl
    have c2 : Real.cos β₂ = 0 := (mul_eq_zero.1 i1).resolve_right hl
    rw [c1] at p1; rw [c2] at p2
    linarith

theorem same_of_angle {x y : ℝ} (h : (x : Real.Angle) = (y : Real.Angle)) : SameDirection x y := by
  rw [Real.Angle.angle_eq_iff_two_pi_dvd_sub] at h
  obtain ⟨k, hk⟩ := h
  exact ⟨k, by linarith⟩

theorem arg_neg_same {z : ℂ} (h : z ≠ 0) : SameDirection (-z).arg (z.arg + Real.pi) :=
  same_of_angle (by rw [Complex.arg_neg_coe_angle h]; simp)

theorem arg_conj_same (z : ℂ) : SameDirection (star z).arg (-z.arg) :=
  same_of_angle (Complex.arg_conj_coe_angle z)

/-- The reduced latitude of the mirrored point. -/
theorem reduced_neg {a b : ℝ} (hb : 0 < b) (hab : b ≤ a) (n : String) {φ β : ℝ} (h1 : -(Real.pi / 2) ≤ φ)
    (h2 : φ ≤ Real.pi / 2) (e : (ell n a b).reducedLatitude (latR φ) = ⟨fin β⟩) :
    (ell n a b).reducedLatitude (latR (-φ)) = ⟨fin (-β)⟩ ∧ b * Real.sin β = pvr a b φ * (1 - ecc2 a b) * Real.sin φ := by
  have ha : 0 < a := lt_of_lt_of_le hb hab
  obtain ⟨x, ex, x1, x2, hx⟩ := reducedLatitude_all hb hab n φ
  obtain ⟨y, ey, y1, y2, hy⟩ := reducedLatitude_all hb hab n (-φ)
  obtain rfl : x = β := by rw [ex] at e; simpa using e
  have hc := Real.cos_nonneg_of_neg_pi_div_two_le_of_le h1 h2
  obtain ⟨-, sx⟩ := hx hc
  obtain ⟨-, sy⟩ := hy (by rwa [Real.cos_neg])
  refine ⟨?_, sx⟩
  have hw : pvr a b (-φ) = pvr a b φ := by simp [pvr, wf]
  rw [hw, Real.sin_neg] at sy
  have : Real.sin y = Real.sin (-x) := by
    rw [Real.sin_neg]
    apply mul_left_cancel₀ hb.ne'
    linarith
  rw [ey, Real.injOn_sin ⟨y1, y2⟩ ⟨by linarith, by linarith⟩ this]

/-- Different absolute latitudes have different absolute reduced latitudes. -/
theorem abs_reduced {a b : ℝ} (hb : 0 < b) (hab : b ≤ a) (n : String) {φ₁ φ₂ β₁ β₂ : ℝ} (h1 : -(Real.pi / 2) ≤ φ₁)
    (h1' : φ₁ ≤ Real.pi / 2) (h2 : -(Real.pi / 2) ≤ φ₂) (h2' : φ₂ ≤ Real.pi / 2)
    (e₁ : (ell n a b).reducedLatitude (latR φ₁) = ⟨fin β₁⟩) (e₂ : (ell n a b).reducedLatitude (latR φ₂) = ⟨fin β₂⟩)
    (h : Real.sin β₁ ^ 2 = Real.sin β₂ ^ 2) : |φ₁| = |φ₂| := by
  have ha : 0 < a := lt_of_lt_of_le hb hab
  have inj : ∀ {φ ψ β : ℝ}, -(Real.pi / 2) ≤ φ → φ ≤ Real.pi / 2 → -(Real.pi / 2) ≤ ψ → ψ ≤ Real.pi / 2 →
      (ell n a b).reducedLatitude (latR φ) = ⟨fin β⟩ → (ell n a b).reducedLatitude (latR ψ) = ⟨fin β⟩ → φ = ψ := by
    intro φ ψ β u1 u2 v1 v2 eu ev
    obtain ⟨x, ex, -, -, hx⟩ := reducedLatitude_all hb hab n φ
    obtain ⟨y, ey, -, -, hy⟩ := reducedLatitude_all hb hab n ψ
    obtain rfl : x = β := by rw [ex] at eu; simpa using eu
    obtain rfl : y = x := by rw [ey] at ev; simpa using ev
    obtain ⟨cx, sx⟩ := hx (Real.cos_nonneg_of_neg_pi_div_two_le_of_le u1 u2)
    obtain ⟨cy, sy⟩ := hy (Real.cos_nonneg_of_neg_pi_div_two_le_of_le v1 v2)
    have p1 : 0 < pvr a b φ := div_pos ha (Real.sqrt_pos.2 (wf_pos hb hab φ))
    have p2 : 0 < pvr a b ψ := div_pos ha (Real.sqrt_pos.2 (wf_pos hb hab ψ))
    have he : 0 < 1 - ecc2 a b := by rw [one_sub_ecc2 hb hab]; positivity
    have k1 : pvr a b φ * Real.sin φ = pvr a b ψ * Real.sin ψ := by
      apply mul_left_cancel₀ he.ne'
      linarith
    have k2 : pvr a b φ * Real.cos φ = pvr a b ψ * Real.cos ψ := by rw [← cx, ← cy]
    have k3 : (pvr a b φ) ^ 2 = pvr a b ψ ^ 2 := by
      have w1 := Real.sin_sq_add_cos_sq φ
      have w2 := Real.sin_sq_add_cos_sq ψ
      calc pvr a b φ ^ 2 = (pvr a b φ * Real.sin φ) ^ 2 + (pvr a b φ * Real.cos φ) ^ 2 := by
            rw [mul_pow, mul_pow, ← mul_add, w1, mul_one]
        _ = pvr a b ψ ^ 2 := by rw [k1, k2, mul_pow, mul_pow, ← mul_add, w2, mul_one]
    have k4 : pvr a b φ = pvr a b ψ := by
      rcases sq_eq_sq_iff_eq_or_eq_neg.1 k3 with e | e
      · exact e
      · linarith
    rw [k4] at k1
    exact Real.injOn_sin ⟨u1, u2⟩ ⟨v1, v2⟩ (mul_left_cancel₀ p2.ne' k1)
  obtain ⟨x, ex, x1, x2, -⟩ := reducedLatitude_all hb hab n φ₁
  obtain ⟨y, ey, y1, y2, -⟩ := reducedLatitude_all hb hab n φ₂
  obtain rfl : x = β₁ := by rw [ex] at e₁; simpa using e₁
  obtain rfl : y = β₂ := by rw [ey] at e₂; simpa using e₂
  rw [abs_eq_abs]
  rcases sq_eq_sq_iff_eq_or_eq_neg.1 h with e | e
  · left
    obtain rfl := Real.injOn_sin ⟨x1, x2⟩ ⟨y1, y2⟩ e
    exact inj h1 h1' h2 h2' e₁ e₂
  · right
    rw [← Real.sin_neg] at e
    have e3 := (reduced_neg hb hab n h2 h2' e₂).1
    rw [← Real.injOn_sin ⟨x1, x2⟩ ⟨by linarith, by linarith⟩ e] at e3
    exact inj h1 h1' (by linarith) (by linarith) e₁ e3

end VincentySymmetry

open VincentyGeodesicSolver VincentySymmetry

/-- **C92**: exchanging the points reverses the geodesic: same length, and each azimuth is the opposite of the one the
other way at the same point.  The exception is the degenerate triangle of two points on the same parallel or on opposite
parallels, for which all the azimuths are `0`. -/
theorem C92_inverse_exchange {a b : ℝ} (hb : 0 < b) (hab : b ≤ a) (n : String) {l₁ φ₁ l₂ φ₂ : ℝ}
    (h1 : -(Real.pi / 2) ≤ φ₁) (h1' : φ₁ ≤ Real.pi / 2) (h2 : -(Real.pi / 2) ≤ φ₂) (h2' : φ₂ ≤ Real.pi / 2)
    (g : Geodesic XR) (h : inverse ⟨ell n a b⟩ (lonR l₁, latR φ₁) (lonR l₂, latR φ₂) = .ok g) :
    ∃ (g' : Geodesic XR) (α₁ α₂ α₁' α₂' : ℝ),
      inverse ⟨ell n a b⟩ (lonR l₂, latR φ₂) (lonR l₁, latR φ₁) = .ok g' ∧ g'.s = g.s ∧
      g.alpha1 = aziR α₁ ∧ g.alpha2 = aziR α₂ ∧ g'.alpha1 = aziR α₁' ∧ g'.alpha2 = aziR α₂' ∧
      (SameDirection α₁' (α₂ + Real.pi) ∧ SameDirection α₂' (α₁ + Real.pi) ∨
        |φ₁| = |φ₂| ∧ α₁ = 0 ∧ α₂ = 0 ∧ α₁' = 0 ∧ α₂' = 0) := by
  obtain ⟨β₁, e₁, _⟩ := reducedLatitude_all hb hab n φ₁
  obtain ⟨β₂, e₂, _⟩ := reducedLatitude_all hb hab n φ₂
  obtain ⟨ε, hε, hL⟩ := normR_swap (l₂ - l₁)
  have hL' : normR (l₁ - l₂) = ε * normR (l₂ - l₁) := by rw [← hL, neg_sub]
  obtain ⟨g', m, hg', hs, q1, q2, q3, q4, hm⟩ := inverse_sym hb hab n e₁ e₂ e₂ e₁ hε hL' (sign_cases hε β₁ β₂) g h
  obtain ⟨hsin, hcos⟩ := sin_swap hε hL hm
  have d1 : dir1 β₂ β₁ (ε * m) = -dir2 β₁ β₂ m := by
    apply Complex.ext <;> simp only [dir1, dir2, hsin, hcos, Complex.neg_re, Complex.neg_im] <;> ring
  have d2 : dir2 β₂ β₁ (ε * m) = -dir1 β₁ β₂ m := by
    apply Complex.ext <;> simp only [dir1, dir2, hsin, hcos, Complex.neg_re, Complex.neg_im] <;> ring
  refine ⟨g', _, _, _, _, hg', hs, q1, q2, q3, q4, ?_⟩
  have nz : normR 0 = 0 := normR_id (by linarith [Real.pi_pos]) Real.pi_pos.le
  by_cases hz : ssq β₁ β₂ m = 0
  · right
    have z1 := (dir_zero β₁ β₂ m).1.2 hz
    have z2 := (dir_zero β₁ β₂ m).2.2 hz
    rw [d1, d2, z1, z2, neg_zero, Complex.arg_zero, nz]
    exact ⟨abs_reduced hb hab n h1 h1' h2 h2' e₁ e₂ (sin_sq_of_ssq hz), rfl, rfl, rfl, rfl⟩
  · left
    rw [d1, d2]
    have z1 : dir1 β₁ β₂ m ≠ 0 := fun e => hz ((dir_zero β₁ β₂ m).1.1 e)
    have z2 : dir2 β₁ β₂ m ≠ 0 := fun e => hz ((dir_zero β₁ β₂ m).2.1 e)
    exact ⟨((normR_same _).trans (arg_neg_same z2)).trans ((normR_same _).symm.add (.refl _)),
      ((normR_same _).trans (arg_neg_same z1)).trans ((normR_same _).symm.add (.refl _))⟩

/-- **C92**: mirroring both points in a meridian keeps the length and changes the sign of the azimuths. -/
theorem C92_inverse_east_west {a b : ℝ} (hb : 0 < b) (hab : b ≤ a) (n : String) (l₁ φ₁ l₂ φ₂ : ℝ)
    (g : Geodesic XR) (h : inverse ⟨ell n a b⟩ (lonR l₁, latR φ₁) (lonR l₂, latR φ₂) = .ok g) :
    ∃ (g' : Geodesic XR) (α₁ α₂ α₁' α₂' : ℝ),
      inverse ⟨ell n a b⟩ (lonR (-l₁), latR φ₁) (lonR (-l₂), latR φ₂) = .ok g' ∧ g'.s = g.s ∧
      g.alpha1 = aziR α₁ ∧ g.alpha2 = aziR α₂ ∧ g'.alpha1 = aziR α₁' ∧ g'.alpha2 = aziR α₂' ∧
      SameDirection α₁' (-α₁) ∧ SameDirection α₂' (-α₂) := by
  obtain ⟨β₁, e₁, _⟩ := reducedLatitude_all hb hab n φ₁
  obtain ⟨β₂, e₂, _⟩ := reducedLatitude_all hb hab n φ₂
  obtain ⟨ε, hε, hL⟩ := normR_swap (l₂ - l₁)
  have hL' : normR (-l₂ - -l₁) = ε * normR (l₂ - l₁) := by rw [← hL]; congr 1; ring
  have hsym : ∀ l, arc β₁ β₂ (ε * l) = arc β₁ β₂ l ∧ salpha β₁ β₂ (ε * l) = ε * salpha β₁ β₂ l ∧
      ∀ c, mid β₁ β₂ (ε * l) c = mid β₁ β₂ l c := by
    intro l
    rcases hε with rfl | rfl
    · simp
    · have s : salpha β₁ β₂ (-1 * l) = -1 * salpha β₁ β₂ l := by
        rw [neg_one_mul, salpha, arc_neg, Real.sin_neg, salpha]; ring
      refine ⟨by rw [neg_one_mul, arc_neg], s, fun c => ?_⟩
      rw [mid, mid, s, neg_one_mul, neg_one_mul, neg_sq, arc_neg]
  obtain ⟨g', m, hg', hs, q1, q2, q3, q4, hm⟩ := inverse_sym hb hab n e₁ e₂ e₁ e₂ hε hL' hsym g h
  obtain ⟨hsin, hcos⟩ := sin_swap hε hL hm
  have d1 : dir1 β₁ β₂ (ε * m) = star (dir1 β₁ β₂ m) := by
    apply Complex.ext <;> simp [dir1, hsin, hcos]
  have d2 : dir2 β₁ β₂ (ε * m) = star (dir2 β₁ β₂ m) := by
    apply Complex.ext <;> simp [dir2, hsin, hcos]
  refine ⟨g', _, _, _, _, hg', hs, q1, q2, q3, q4, ?_⟩
  rw [d1, d2]
  exact ⟨((normR_same _).trans (arg_conj_same _)).trans (normR_same _).symm.neg,
    ((normR_same _).trans (arg_conj_same _)).trans (normR_same _).symm.neg⟩

/-- **C92**: mirroring both points in the equator keeps the length and mirrors the azimuths (with the same exception as
for the exchange). -/
theorem C92_inverse_north_south {a b : ℝ} (hb : 0 < b) (hab : b ≤ a) (n : String) (l₁ l₂ : ℝ) {φ₁ φ₂ : ℝ}
    (h1 : -(Real.pi / 2) ≤ φ₁) (h1' : φ₁ ≤ Real.pi / 2) (h2 : -(Real.pi / 2) ≤ φ₂) (h2' : φ₂ ≤ Real.pi / 2)
    (g : Geodesic XR) (h : inverse ⟨ell n a b⟩ (lonR l₁, latR φ₁) (lonR l₂, latR φ₂) = .ok g) :
    ∃ (g' : Geodesic XR) (α₁ α₂ α₁' α₂' : ℝ),
      inverse ⟨ell n a b⟩ (lonR l₁, latR (-φ₁)) (lonR l₂, latR (-φ₂)) = .ok g' ∧ g'.s = g.s ∧
      g.alpha1 = aziR α₁ ∧ g.alpha2 = aziR α₂ ∧ g'.alpha1 = aziR α₁' ∧ g'.alpha2 = aziR α₂' ∧
      (SameDirection α₁' (Real.pi - α₁) ∧ SameDirection α₂' (Real.pi - α₂) ∨
        |φ₁| = |φ₂| ∧ α₁ = 0 ∧ α₂ = 0 ∧ α₁' = 0 ∧ α₂' = 0) := by
  obtain ⟨β₁, e₁, _⟩ := reducedLatitude_all hb hab n φ₁
  obtain ⟨β₂, e₂, _⟩ := reducedLatitude_all hb hab n φ₂
  have harc : ∀ l, arc (-β₁) (-β₂) l = arc β₁ β₂ l := by
    intro l
    have e1 : ssq (-β₁) (-β₂) l = ssq β₁ β₂ l := by simp only [ssq, Real.sin_neg, Real.cos_neg]; ring
    have e2 : csig (-β₁) (-β₂) l = csig β₁ β₂ l := by simp only [csig, Real.sin_neg, Real.cos_neg]; ring
    rw [arc, e1, e2, arc]
  have hsym : ∀ l, arc (-β₁) (-β₂) (1 * l) = arc β₁ β₂ l ∧ salpha (-β₁) (-β₂) (1 * l) = 1 * salpha β₁ β₂ l ∧
      ∀ c, mid (-β₁) (-β₂) (1 * l) c = mid β₁ β₂ l c := by
    intro l
    have s : salpha (-β₁) (-β₂) l = salpha β₁ β₂ l := by
      rw [salpha, harc, Real.cos_neg, Real.cos_neg, salpha]
    refine ⟨by rw [one_mul, harc], by rw [one_mul, one_mul, s], fun c => ?_⟩
    rw [one_mul, mid, mid, s, harc, Real.sin_neg, Real.sin_neg, mul_neg, mul_neg, neg_mul, neg_neg]
  obtain ⟨g', m, hg', hs, q1, q2, q3, q4, -⟩ := inverse_sym hb hab n e₁ e₂ (reduced_neg hb hab n h1 h1' e₁).1
    (reduced_neg hb hab n h2 h2' e₂).1 (.inl rfl) (one_mul _).symm hsym g h
  rw [one_mul] at q3 q4
  have d1 : dir1 (-β₁) (-β₂) m = -star (dir1 β₁ β₂ m) := by
    apply Complex.ext <;> simp [dir1]; ring
  have d2 : dir2 (-β₁) (-β₂) m = -star (dir2 β₁ β₂ m) := by
    apply Complex.ext <;> simp [dir2]; ring
  refine ⟨g', _, _, _, _, hg', hs, q1, q2, q3, q4, ?_⟩
  have nz : normR 0 = 0 := normR_id (by linarith [Real.pi_pos]) Real.pi_pos.le
  by_cases hz : ssq β₁ β₂ m = 0
  · right
    have z1 := (dir_zero β₁ β₂ m).1.2 hz
    have z2 := (dir_zero β₁ β₂ m).2.2 hz
    rw [d1, d2, z1, z2, star_zero, neg_zero, Complex.arg_zero, nz]
    exact ⟨abs_reduced hb hab n h1 h1' h2 h2' e₁ e₂ (sin_sq_of_ssq hz), rfl, rfl, rfl, rfl⟩
  · left
    rw [d1, d2]
    have key : ∀ z : ℂ, z ≠ 0 → SameDirection (normR (-star z).arg) (Real.pi - normR z.arg) := by
      intro z hz
      have := ((normR_same _).trans (arg_neg_same (star_ne_zero.2 hz))).trans ((arg_conj_same z).add (.refl Real.pi))
      refine this.trans ?_
      have := (SameDirection.refl Real.pi).sub (normR_same z.arg).symm
      rwa [show -z.arg + Real.pi = Real.pi - z.arg by ring]
    exact ⟨key _ (fun e => hz ((dir_zero β₁ β₂ m).1.1 e)), key _ (fun e => hz ((dir_zero β₁ β₂ m).2.1 e))⟩

/-! ### The distance of 2D geographic CRS -/

/-- The inverse solver fails only in one way. -/
theorem inverse_error {a b : ℝ} (hb : 0 < b) (hab : b ≤ a) (n : String) (l₁ φ₁ l₂ φ₂ : ℝ) :
    (∃ g, inverse ⟨ell n a b⟩ (lonR l₁, latR φ₁) (lonR l₂, latR φ₂) = .ok g) ∨
      inverse ⟨ell n a b⟩ (lonR l₁, latR φ₁) (lonR l₂, latR φ₂) = .error (.err notConverging) := by
  obtain ⟨β₁, e₁, _⟩ := reducedLatitude_all hb hab n φ₁
  obtain ⟨β₂, e₂, _⟩ := reducedLatitude_all hb hab n φ₂
  rw [inverse_eq hb hab n l₁ φ₁ l₂ φ₂ β₁ β₂ e₁ e₂]
  rcases hr : loopMax (inverseStep (fin ((a - b) / a)) (fin (Real.sin β₁)) (fin (Real.cos β₁)) (fin (Real.sin β₂))
        (fin (Real.cos β₂)) (fin (normR (l₂ - l₁)))) inverseDone notConverging 30
        (inverseInit (fin (normR (l₂ - l₁)))) with e | st
  · right
    rw [(loopMax_error hr).1]
    rfl
  · exact .inl ⟨_, rfl⟩

/-- Two computations with the same successes and one way to fail. -/
theorem dist_eq {r r' : Res (Geodesic XR)} {e : Fail} (h : (∃ g, r = .ok g) ∨ r = .error e)
    (h' : (∃ g, r' = .ok g) ∨ r' = .error e) (h1 : ∀ g, r = .ok g → ∃ g', r' = .ok g' ∧ g'.s = g.s)
    (h2 : ∀ g, r' = .ok g → ∃ g', r = .ok g' ∧ g'.s = g.s) :
    (r' >>= fun g => .ok g.s) = (r >>= fun g => .ok g.s) := by
  rcases h with ⟨g, hg⟩ | hg
  · obtain ⟨g', hg', hs⟩ := h1 g hg
    rw [hg, hg', ok_bind, ok_bind, hs]
  · rcases h' with ⟨g', hg'⟩ | hg'
    · obtain ⟨g, hg2, -⟩ := h2 g' hg'
      rw [hg] at hg2
      cases hg2
    · rw [hg, hg']

theorem clampR_neg (x : ℝ) : clampR (-x) = -clampR x := by
  have := Real.pi_pos
  unfold clampR
  split_ifs <;> linarith

section crs
variable {a b : ℝ} (hb : 0 < b) (hab : b ≤ a) (id n pn : String) (l0 : ℝ) (s : GeodeticSystem) (hv : s.Valid)
  (h2 : ¬ s.Is3D) (crs : GeographicCrs XR) (hax : crs.axes = s.axes) (hdat : crs.datum = dat id n pn a b l0)
include hb hab hv h2 hax hdat

/-- **C92**: the distance between two positions of a 2D geographic CRS does not depend on their order: same value, or
same error. -/
theorem C92_dist_exchange (c d : List ℝ) (hc : s.Fits c) (hd : s.Fits d) :
    crs.toCrs.dist (d.map fin) (c.map fin) = crs.toCrs.dist (c.map fin) (d.map fin) := by
  rw [geographic_2d_dist id n pn l0 s hv h2 crs hax hdat c d hc hd,
    geographic_2d_dist id n pn l0 s hv h2 crs hax hdat d c hd hc]
  exact dist_eq (inverse_error hb hab n _ _ _ _) (inverse_error hb hab n _ _ _ _)
    (C62_symmetric hb hab n _ _ _ _) (C62_symmetric hb hab n _ _ _ _)

omit hb hab in
/-- **C92**: nor on the meridian from which the longitudes are counted. -/
theorem C92_dist_turn (w : ℝ) (c d c' d' : List ℝ) (hc : s.Fits c) (hd : s.Fits d) (hc' : s.Fits c')
    (hd' : s.Fits d') (e1 : s.lonOf c' = s.lonOf c + w) (e2 : s.latOf c' = s.latOf c)
    (e3 : s.lonOf d' = s.lonOf d + w) (e4 : s.latOf d' = s.latOf d) :
    crs.toCrs.dist (c'.map fin) (d'.map fin) = crs.toCrs.dist (c.map fin) (d.map fin) := by
  rw [geographic_2d_dist id n pn l0 s hv h2 crs hax hdat c d hc hd,
    geographic_2d_dist id n pn l0 s hv h2 crs hax hdat c' d' hc' hd', e1, e2, e3, e4]
  have := solveInverse_lon (.vincenty ⟨ell n a b⟩) (l₁ := lonR (remR (s.lonOf c))) (l₂ := lonR (remR (s.lonOf d)))
    (l₁' := lonR (remR (s.lonOf c + w))) (l₂' := lonR (remR (s.lonOf d + w))) (latR (clampR (s.latOf c)))
    (latR (clampR (s.latOf d))) (by
      simp only [Lon.sub, lonR, diffTo_fin]
      congr 2
      apply normR_congr
      refine ((remR_same _).sub (remR_same _)).trans ?_
      rw [show s.lonOf d + w - (s.lonOf c + w) = s.lonOf d - s.lonOf c by ring]
      exact ((remR_same _).sub (remR_same _)).symm)
  simp only [GeodesicSolver.solveInverse] at this
  rw [this, bind_assoc]
  rfl

/-- **C92**: nor does it change in a mirror. -/
theorem C92_dist_mirror (c d c' d' : List ℝ) (hc : s.Fits c) (hd : s.Fits d) (hc' : s.Fits c') (hd' : s.Fits d')
    (h : (s.lonOf c' = -s.lonOf c ∧ s.latOf c' = s.latOf c ∧ s.lonOf d' = -s.lonOf d ∧ s.latOf d' = s.latOf d) ∨
      (s.lonOf c' = s.lonOf c ∧ s.latOf c' = -s.latOf c ∧ s.lonOf d' = s.lonOf d ∧ s.latOf d' = -s.latOf d)) :
    crs.toCrs.dist (c'.map fin) (d'.map fin) = crs.toCrs.dist (c.map fin) (d.map fin) := by
  rw [geographic_2d_dist id n pn l0 s hv h2 crs hax hdat c d hc hd,
    geographic_2d_dist id n pn l0 s hv h2 crs hax hdat c' d' hc' hd']
  rcases h with ⟨e1, e2, e3, e4⟩ | ⟨e1, e2, e3, e4⟩
  · rw [e1, e2, e3, e4]
    have hl : ∀ x y : ℝ, (lonR (remR (-y))).sub (lonR (remR (-x))) = (lonR (-remR y)).sub (lonR (-remR x)) := by
      intro x y
      simp only [Lon.sub, lonR, diffTo_fin]
      congr 2
      apply normR_congr
      exact ((remR_same _).sub (remR_same _)).trans ((remR_same _).neg.sub (remR_same _).neg).symm
    have := solveInverse_lon (.vincenty ⟨ell n a b⟩) (latR (clampR (s.latOf c))) (latR (clampR (s.latOf d)))
      (hl (s.lonOf c) (s.lonOf d))
    simp only [GeodesicSolver.solveInverse] at this
    rw [this, bind_assoc]
    refine dist_eq (r' := inverse ⟨ell n a b⟩ (lonR (-remR (s.lonOf c)), latR (clampR (s.latOf c)))
      (lonR (-remR (s.lonOf d)), latR (clampR (s.latOf d)))) (inverse_error hb hab n _ _ _ _)
      (inverse_error hb hab n _ _ _ _) (fun g hg => ?_) (fun g hg => ?_)
    · obtain ⟨g', _, _, _, _, q1, q2, -⟩ := C92_inverse_east_west hb hab n _ _ _ _ g hg
      exact ⟨g', q1, q2⟩
    · obtain ⟨g', _, _, _, _, q1, q2, -⟩ := C92_inverse_east_west hb hab n _ _ _ _ g hg
      rw [neg_neg, neg_neg] at q1
      exact ⟨g', q1, q2⟩
  · rw [e1, e2, e3, e4, clampR_neg, clampR_neg]
    obtain ⟨u1, u2, -⟩ := clampR_closest (s.latOf c)
    obtain ⟨v1, v2, -⟩ := clampR_closest (s.latOf d)
    refine dist_eq (inverse_error hb hab n _ _ _ _)
      (inverse_error hb hab n _ _ _ _) (fun g hg => ?_) (fun g hg => ?_)
    · obtain ⟨g', _, _, _, _, q1, q2, -⟩ := C92_inverse_north_south hb hab n _ _ u1 u2 v1 v2 g hg
      exact ⟨g', q1, q2⟩
    · obtain ⟨g', _, _, _, _, q1, q2, -⟩ := C92_inverse_north_south hb hab n _ _ (by linarith) (by linarith)
        (by linarith) (by linarith) g hg
      rw [neg_neg, neg_neg] at q1
      exact ⟨g', q1, q2⟩

end crs

/-- The hypotheses are met, on a sphere: from latitude `0` to latitude `π/6`. -/
example : ∃ (g g' : Geodesic XR) (α₁ α₂' : ℝ), inverse ⟨ell "s" 7 7⟩ (lonR 0, latR 0) (lonR 1, latR (Real.pi / 6)) = .ok g ∧
    inverse ⟨ell "s" 7 7⟩ (lonR 1, latR (Real.pi / 6)) (lonR 0, latR 0) = .ok g' ∧ g.alpha1 = aziR α₁ ∧
    g'.alpha2 = aziR α₂' ∧ SameDirection α₂' (α₁ + Real.pi) := by
  have hp := Real.pi_pos
  have h3 : ∀ l φ : ℝ, unitAt l φ 2 = Real.sin φ := fun _ _ => rfl
  obtain ⟨g, hg, -⟩ := C64_inverse (a := 7) (by norm_num) "s" (l₁ := 0) (φ₁ := 0) (l₂ := 1) (φ₂ := Real.pi / 6)
    (by linarith) (by linarith) (by linarith) (by linarith)
    (fun e => by have := congrArg (fun v : EuclideanSpace ℝ (Fin 3) => v 2) e; simp [h3] at this)
    (fun e => by have := congrArg (fun v : EuclideanSpace ℝ (Fin 3) => v 2) e; simp [h3] at this)
  obtain ⟨g', α₁, α₂, α₁', α₂', q1, -, q2, -, -, q3, q4⟩ := C92_inverse_exchange (by norm_num) le_rfl "s"
    (by linarith) (by linarith) (by linarith) (by linarith) g hg
  rcases q4 with ⟨-, q4⟩ | ⟨q4, -⟩
  · exact ⟨g, g', α₁, α₂', hg, q1, q2, q3, q4⟩
  · rw [abs_zero, abs_of_pos (by positivity)] at q4
    linarith

/-- Degrees, latitude first, on a flattened ellipsoid: both ways, and both turned by 5 units. -/
example (crs : GeographicCrs XR) (hax : crs.axes = .northEast (angleUnit 1 57))
    (hdat : crs.datum = dat "d" "e" "p" 10 9 0) :
    crs.toCrs.dist [fin 45, fin 3] [fin 10, fin 8] = crs.toCrs.dist [fin 10, fin 8] [fin 45, fin 3] ∧
    crs.toCrs.dist [fin 45, fin 8] [fin 10, fin 13] = crs.toCrs.dist [fin 45, fin 3] [fin 10, fin 8] :=
  ⟨C92_dist_exchange (by norm_num) (by norm_num) "d" "e" "p" 0 (.northEast 1 57) ⟨by norm_num, by norm_num⟩
    (fun h => h) crs hax hdat [10, 8] [45, 3] rfl rfl,
   C92_dist_turn "d" "e" "p" 0 (.northEast 1 57) ⟨by norm_num, by norm_num⟩
    (fun h => h) crs hax hdat (5 * (1 / 57)) [45, 3] [10, 8] [45, 8] [10, 13] rfl rfl rfl rfl
    (by simp [GeodeticSystem.lonOf]; norm_num) rfl (by simp [GeodeticSystem.lonOf]; norm_num) rfl⟩

end Geo
