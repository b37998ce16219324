import Verif.Lemmas.Vincenty
import Verif.Props.DatumExact
import Mathlib.Geometry.Euclidean.Angle.Unoriented.Basic

/-! # C20, C62, C64 (inverse problem), C71: the Vincenty inverse solver, in exact arithmetic -/

namespace Geo
open XR Spec VincentyGeodesicSolver

/-- The message of the solver. -/
abbrev notConverging : String := "Inverse geodesic computation is not converging!"

/-- The inverse problem between points at reduced latitudes `β₁`, `β₂`, as a function of the last state. -/
theorem inverse_eq {a b : ℝ} (hb : 0 < b) (hab : b ≤ a) (n : String) (l₁ φ₁ l₂ φ₂ β₁ β₂ : ℝ)
    (h₁ : (ell n a b).reducedLatitude (latR φ₁) = ⟨fin β₁⟩) (h₂ : (ell n a b).reducedLatitude (latR φ₂) = ⟨fin β₂⟩) :
    inverse ⟨ell n a b⟩ (lonR l₁, latR φ₁) (lonR l₂, latR φ₂) =
      loopMax (inverseStep (fin ((a - b) / a)) (fin (Real.sin β₁)) (fin (Real.cos β₁)) (fin (Real.sin β₂))
        (fin (Real.cos β₂)) (fin (normR (l₂ - l₁)))) inverseDone notConverging 30
        (inverseInit (fin (normR (l₂ - l₁)))) >>= fun st =>
      Except.ok
        { p1 := (lonR l₁, latR φ₁)
          alpha1 := Azimuth.new (Angle.new (Flt.atan2 (fin (Real.cos β₂) * st.sin_lambda)
            (fin (Real.cos β₁) * fin (Real.sin β₂) - fin (Real.sin β₁) * fin (Real.cos β₂) * st.cos_lambda)) RAD)
          p2 := (lonR l₂, latR φ₂)
          alpha2 := Azimuth.new (Angle.new (Flt.atan2 (fin (Real.cos β₁) * st.sin_lambda)
            (-fin (Real.sin β₁) * fin (Real.cos β₂) + fin (Real.cos β₁) * fin (Real.sin β₂) * st.cos_lambda)) RAD)
          s := inverseLength (ell n a b) st } := by
  have hL : ((lonR l₂).sub (lonR l₁)).rad = fin (normR (l₂ - l₁)) := by
    simp [Lon.sub, lonR, diffTo_fin]
  simp only [inverse, h₁, h₂, ell_f hb hab, hL, Angle.sin, Angle.cos, sin_fin, cos_fin]
  rfl

theorem inverseLength_real {a b : ℝ} (hb : 0 < b) (n : String) {st : InverseState XR} {l p sa σ c : ℝ}
    (h : RealState st l p (1 - sa ^ 2) σ c) : inverseLength (ell n a b) st = ⟨fin (vincentyLength a b sa σ c)⟩ := by
  have hbm : (ell n a b).b.m = fin b := rfl
  have n1 : (16384 : ℝ) ≠ 0 := by norm_num
  have n2 : (1024 : ℝ) ≠ 0 := by norm_num
  have n3 : (4 : ℝ) ≠ 0 := by norm_num
  have n4 : (6 : ℝ) ≠ 0 := by norm_num
  by_cases hk : 1 - sa ^ 2 = 0
  · simp only [inverseLength, h.cos_alpha_sq, zero_eq, eq_fin, hk, decide_true, if_true, hbm, h.sigma, mul_fin,
      length_new_m, vincentyLength, vincentyA, vincentyB, vincentyDeltaSigma]
    congr 2
    ring
  · simp only [inverseLength, h.cos_alpha_sq, zero_eq, one_eq, ofNat_eq, eq_fin, hk, decide_false, Bool.false_eq_true,
      if_false, hbm, h.sigma, h.sin_sigma, h.cos_sigma, h.mid, ell_ePrimeSq hb, seriesA, seriesB, deltaSigma, neg_fin,
      mul_fin, add_fin, sub_fin, powi_fin, div_fin _ n1, div_fin _ n2, div_fin _ n3, div_fin _ n4, length_new_m,
      vincentyLength, vincentyA, vincentyB, vincentyDeltaSigma]

/-- What a successful loop returns, started from longitude difference `l`. -/
theorem loop_real (f β₁ β₂ L : ℝ) (msg : String) (n : ℕ) (l c₀ : ℝ) (st r : InverseState XR)
    (h1 : st.lambda = fin l) (h2 : st.sin_lambda = fin (Real.sin l)) (h3 : st.cos_lambda = fin (Real.cos l))
    (h4 : st.cos_2_sigma_m = fin c₀)
    (h : loopMax (inverseStep (fin f) (fin (Real.sin β₁)) (fin (Real.cos β₁)) (fin (Real.sin β₂)) (fin (Real.cos β₂))
      (fin L)) inverseDone msg n st = .ok r) :
    ∃ p c, Real.sin (arc β₁ β₂ p) ≠ 0 ∧
      RealState r (vincentyExcess f (salpha β₁ β₂ p) (arc β₁ β₂ p) (mid β₁ β₂ p c) + L) p (1 - salpha β₁ β₂ p ^ 2)
        (arc β₁ β₂ p) (mid β₁ β₂ p c) ∧
      |vincentyExcess f (salpha β₁ β₂ p) (arc β₁ β₂ p) (mid β₁ β₂ p c) + L - p| < 1e-12 := by
  induction n generalizing l c₀ st with
  | zero => cases h
  | succ n ih =>
    rw [loopMax] at h
    by_cases hs : Real.sin (arc β₁ β₂ l) = 0
    · have hn := inverseStep_coincident f β₁ β₂ L l st hs h2 h3
      simp only [inverseDone_nan _ hn, Bool.false_eq_true, if_false, loopMax_nan _ _ _ _ _ _ _ hn] at h
      cases h
    · have hr := inverseStep_real f β₁ β₂ L l c₀ st hs h1 h2 h3 h4
      simp only [inverseDone_real hr] at h
      split at h
      · rename_i hd
        cases h
        exact ⟨l, c₀, hs, hr, by simpa using hd⟩
      · exact ih _ _ _ hr.lambda hr.sin_lambda hr.cos_lambda hr.mid h

/-- **C62**: when the solver returns, the last two longitude differences `l`, `l'` on the auxiliary sphere differ by
less than `1e-12`, are linked by Vincenty's equation, and the length and the azimuths are those of his equations. -/
theorem C62_converged {a b : ℝ} (hb : 0 < b) (hab : b ≤ a) (n : String) (l₁ φ₁ l₂ φ₂ : ℝ) (g : Geodesic XR)
    (h : inverse ⟨ell n a b⟩ (lonR l₁, latR φ₁) (lonR l₂, latR φ₂) = .ok g) :
    ∃ β₁ β₂ L l l' σ sa c : ℝ, (ell n a b).reducedLatitude (latR φ₁) = ⟨fin β₁⟩ ∧
      (ell n a b).reducedLatitude (latR φ₂) = ⟨fin β₂⟩ ∧ NormalizesTo L (l₂ - l₁) ∧
      AuxTriangle β₁ β₂ l σ sa c ∧ l' = L + vincentyExcess ((a - b) / a) sa σ c ∧ |l' - l| < 1e-12 ∧
      g.s = ⟨fin (vincentyLength a b sa σ c)⟩ ∧
      g.alpha1 = Azimuth.new ⟨fin (Complex.arg ⟨Real.cos β₁ * Real.sin β₂ - Real.sin β₁ * Real.cos β₂ * Real.cos l',
        Real.cos β₂ * Real.sin l'⟩)⟩ ∧
      g.alpha2 = Azimuth.new ⟨fin (Complex.arg ⟨-Real.sin β₁ * Real.cos β₂ + Real.cos β₁ * Real.sin β₂ * Real.cos l',
        Real.cos β₁ * Real.sin l'⟩)⟩ := by
  obtain ⟨β₁, e₁, _⟩ := reducedLatitude_all hb hab n φ₁
  obtain ⟨β₂, e₂, _⟩ := reducedLatitude_all hb hab n φ₂
  rw [inverse_eq hb hab n l₁ φ₁ l₂ φ₂ β₁ β₂ e₁ e₂] at h
  obtain ⟨st, hst, hg⟩ := bind_eq_ok.1 h
  obtain ⟨p, c, hs, hr, hlt⟩ := loop_real _ β₁ β₂ _ _ _ (normR (l₂ - l₁)) 0 _ st rfl rfl rfl zero_eq hst
  cases hg
  refine ⟨β₁, β₂, normR (l₂ - l₁), p, _, _, _, _, e₁, e₂, normR_normalizes _, auxTriangle β₁ β₂ p c hs, rfl, ?_,
    inverseLength_real hb n hr, ?_, ?_⟩
  · rw [add_comm (normR _)]; exact hlt
  · simp only [hr.sin_lambda, hr.cos_lambda, mul_fin, sub_fin, atan2_fin, angle_new_rad]
    rw [add_comm (normR _)]
  · simp only [hr.sin_lambda, hr.cos_lambda, mul_fin, add_fin, neg_fin, atan2_fin, angle_new_rad]
    rw [add_comm (normR _)]

/-! ### Swapping the end points -/

theorem sign_cases {ε : ℝ} (h : ε = 1 ∨ ε = -1) (β₁ β₂ l : ℝ) :
    arc β₂ β₁ (ε * l) = arc β₁ β₂ l ∧ salpha β₂ β₁ (ε * l) = ε * salpha β₁ β₂ l ∧
    ∀ c, mid β₂ β₁ (ε * l) c = mid β₁ β₂ l c := by
  have e1 : arc β₂ β₁ (ε * l) = arc β₁ β₂ l := by
    rcases h with rfl | rfl
    · rw [one_mul, arc_comm]
    · rw [neg_one_mul, arc_neg, arc_comm]
  have e2 : salpha β₂ β₁ (ε * l) = ε * salpha β₁ β₂ l := by
    rw [salpha, e1, salpha]
    rcases h with rfl | rfl
    · rw [one_mul, one_mul]; ring
    · rw [neg_one_mul, Real.sin_neg]; ring
  refine ⟨e1, e2, fun c => ?_⟩
  have e3 : (ε * salpha β₁ β₂ l) ^ 2 = salpha β₁ β₂ l ^ 2 := by
    rcases h with rfl | rfl <;> ring
  rw [mid, mid, e1, e2, e3]
  split
  · rfl
  · ring

theorem excess_sign (ε f sa σ c : ℝ) (h : ε = 1 ∨ ε = -1) :
    vincentyExcess f (ε * sa) σ c = ε * vincentyExcess f sa σ c := by
  have e3 : (ε * sa) ^ 2 = sa ^ 2 := by rcases h with rfl | rfl <;> ring
  simp only [vincentyExcess, e3]
  ring

theorem loop_swap (f β₁ β₂ L ε : ℝ) (hε : ε = 1 ∨ ε = -1) (msg : String) (n : ℕ) (l c₀ : ℝ) (st st' r : InverseState XR)
    (h1 : st.lambda = fin l) (h2 : st.sin_lambda = fin (Real.sin l)) (h3 : st.cos_lambda = fin (Real.cos l))
    (h4 : st.cos_2_sigma_m = fin c₀) (h1' : st'.lambda = fin (ε * l)) (h2' : st'.sin_lambda = fin (Real.sin (ε * l)))
    (h3' : st'.cos_lambda = fin (Real.cos (ε * l))) (h4' : st'.cos_2_sigma_m = fin c₀)
    (h : loopMax (inverseStep (fin f) (fin (Real.sin β₁)) (fin (Real.cos β₁)) (fin (Real.sin β₂)) (fin (Real.cos β₂))
      (fin L)) inverseDone msg n st = .ok r) :
    ∃ r', loopMax (inverseStep (fin f) (fin (Real.sin β₂)) (fin (Real.cos β₂)) (fin (Real.sin β₁)) (fin (Real.cos β₁))
      (fin (ε * L))) inverseDone msg n st' = .ok r' ∧
      r'.cos_alpha_sq = r.cos_alpha_sq ∧ r'.sigma = r.sigma ∧ r'.sin_sigma = r.sin_sigma ∧ r'.cos_sigma = r.cos_sigma ∧
      r'.cos_2_sigma_m = r.cos_2_sigma_m := by
  induction n generalizing l c₀ st st' with
  | zero => cases h
  | succ n ih =>
    rw [loopMax] at h
    by_cases hs : Real.sin (arc β₁ β₂ l) = 0
    · have hn := inverseStep_coincident f β₁ β₂ L l st hs h2 h3
      simp only [inverseDone_nan _ hn, Bool.false_eq_true, if_false, loopMax_nan _ _ _ _ _ _ _ hn] at h
      cases h
    · have hr := inverseStep_real f β₁ β₂ L l c₀ st hs h1 h2 h3 h4
      obtain ⟨s1, s2, s3⟩ := sign_cases hε β₁ β₂ l
      have hs' : Real.sin (arc β₂ β₁ (ε * l)) ≠ 0 := by rwa [s1]
      have hr' := inverseStep_real f β₂ β₁ (ε * L) (ε * l) c₀ st' hs' h1' h2' h3' h4'
      rw [s1, s2, s3, excess_sign _ _ _ _ _ hε, ← mul_add, show (ε * salpha β₁ β₂ l) ^ 2 = salpha β₁ β₂ l ^ 2 by
        rcases hε with rfl | rfl <;> ring] at hr'
      have hd : inverseDone (inverseStep (fin f) (fin (Real.sin β₂)) (fin (Real.cos β₂)) (fin (Real.sin β₁))
          (fin (Real.cos β₁)) (fin (ε * L)) st') = inverseDone (inverseStep (fin f) (fin (Real.sin β₁))
          (fin (Real.cos β₁)) (fin (Real.sin β₂)) (fin (Real.cos β₂)) (fin L) st) := by
        rw [inverseDone_real hr, inverseDone_real hr', ← mul_sub, abs_mul]
        rcases hε with rfl | rfl <;> simp
      rw [loopMax]
      simp only [hd]
      split at h
      · rename_i hd
        cases h
        refine ⟨_, if_pos hd, ?_, ?_, ?_, ?_, ?_⟩
        · rw [hr'.cos_alpha_sq, hr.cos_alpha_sq]
        · rw [hr'.sigma, hr.sigma]
        · rw [hr'.sin_sigma, hr.sin_sigma]
        · rw [hr'.cos_sigma, hr.cos_sigma]
        · rw [hr'.mid, hr.mid]
      · rename_i hd
        simp only [hd, Bool.false_eq_true, if_false]
        exact ih _ _ _ _ hr.lambda hr.sin_lambda hr.cos_lambda hr.mid hr'.lambda hr'.sin_lambda hr'.cos_lambda
          hr'.mid h

/-- The longitude difference the other way. -/
theorem normR_swap (x : ℝ) : ∃ ε : ℝ, (ε = 1 ∨ ε = -1) ∧ normR (-x) = ε * normR x := by
  have hsame : SameDirection (-normR x) (-x) := (normR_same x).neg
  by_cases h : normR x = Real.pi
  · refine ⟨1, Or.inl rfl, ?_⟩
    rw [one_mul]
    refine normR_eq ⟨lt_normR x, normR_le x, ?_⟩
    obtain ⟨k, hk⟩ := hsame
    exact ⟨k + 1, by push_cast; rw [h] at hk ⊢; linarith⟩
  · refine ⟨-1, Or.inr rfl, ?_⟩
    rw [neg_one_mul]
    have := lt_normR x
    have := lt_of_le_of_ne (normR_le x) h
    exact normR_eq ⟨by linarith, by linarith, hsame⟩

/-- **C62**: the distance does not depend on the order of the points; in particular the solver returns for one order
exactly when it does for the other. -/
theorem C62_symmetric {a b : ℝ} (hb : 0 < b) (hab : b ≤ a) (n : String) (l₁ φ₁ l₂ φ₂ : ℝ) (g : Geodesic XR)
    (h : inverse ⟨ell n a b⟩ (lonR l₁, latR φ₁) (lonR l₂, latR φ₂) = .ok g) :
    ∃ g', inverse ⟨ell n a b⟩ (lonR l₂, latR φ₂) (lonR l₁, latR φ₁) = .ok g' ∧ g'.s = g.s := by
  obtain ⟨β₁, e₁, _⟩ := reducedLatitude_all hb hab n φ₁
  obtain ⟨β₂, e₂, _⟩ := reducedLatitude_all hb hab n φ₂
  rw [inverse_eq hb hab n l₁ φ₁ l₂ φ₂ β₁ β₂ e₁ e₂] at h
  obtain ⟨st, hst, hg⟩ := bind_eq_ok.1 h
  obtain ⟨ε, hε, hL⟩ := normR_swap (l₂ - l₁)
  rw [neg_sub] at hL
  obtain ⟨r', hr', q1, q2, q3, q4, q5⟩ := loop_swap _ β₁ β₂ _ ε hε _ _ (normR (l₂ - l₁)) 0 _
    (inverseInit (fin (ε * normR (l₂ - l₁)))) st rfl rfl rfl zero_eq rfl rfl rfl zero_eq hst
  rw [inverse_eq hb hab n l₂ φ₂ l₁ φ₁ β₂ β₁ e₂ e₁, hL, hr', ok_bind]
  refine ⟨_, rfl, ?_⟩
  cases hg
  simp only [inverseLength, q1, q2, q3, q4, q5]

/-! ### Coincident points (C20) -/

/-- The solver fails whenever the two points coincide. -/
theorem inverse_coincident {a b : ℝ} (hb : 0 < b) (hab : b ≤ a) (n : String) (l φ : ℝ) :
    inverse ⟨ell n a b⟩ (lonR l, latR φ) (lonR l, latR φ) = .error (.err notConverging) := by
  obtain ⟨β, e, _⟩ := reducedLatitude_all hb hab n φ
  have hL : normR (l - l) = 0 := by
    rw [sub_self]; exact normR_id (by linarith [Real.pi_pos]) Real.pi_pos.le
  have hs : Real.sin (arc β β 0) = 0 := by
    rw [sin_arc, ssq, Real.sin_zero, Real.cos_zero]
    ring_nf
    exact Real.sqrt_zero
  rw [inverse_eq hb hab n l φ l φ β β e e, hL]
  have hn := inverseStep_coincident ((a - b) / a) β β 0 0 (inverseInit (fin 0)) hs rfl rfl
  rw [loopMax]
  simp only [inverseDone_nan _ hn, Bool.false_eq_true, if_false, loopMax_nan _ _ _ _ _ _ _ hn]
  rfl

/-- **C20** (missing: 2D geographic CRSs, for which it is false, see the next theorem): the distance of a position to
itself is zero, for geocentric, projected and 3D geographic CRSs. -/
theorem C20_partial :
    (∀ (crs : GeocentricCrs XR) (x y z : ℝ), crs.toCrs.dist [fin x, fin y, fin z] [fin x, fin y, fin z] =
      .ok ⟨fin 0⟩) ∧
    (∀ (s : ProjectedSystem) (crs : ProjectedCrs XR), s.Valid → crs.axes = s.axes → ∀ c, s.Fits c →
      crs.toCrs.dist (c.map fin) (c.map fin) = .ok ⟨fin 0⟩) ∧
    (∀ (a b l0 : ℝ) (id n pn : String) (s : GeodeticSystem) (crs : GeographicCrs XR), 0 < b → b ≤ a → s.Valid →
      s.Is3D → crs.axes = s.axes → crs.datum = dat id n pn a b l0 → ∀ c, s.Fits c →
      crs.toCrs.dist (c.map fin) (c.map fin) = .ok ⟨fin 0⟩) := by
  refine ⟨fun crs x y z => ?_, fun s crs hv hax c hc => ?_, fun a b l0 id n pn s crs hb hab hv h3 hax hd c hc => ?_⟩
  · rw [C19_crs_dist.1, dist_self]
  · rw [C19_crs_dist.2 s crs hv hax c c hc hc, dist_self]
  · obtain ⟨pc, pd, x, y, z, x', y', z', h1, h2, h3, h4, h5⟩ :=
      C19_geographic_3d hb hab id n pn l0 s hv h3 crs hax hd c c hc hc
    rw [h1] at h2
    cases h2
    rw [h3] at h4
    have e1 : x = x' := by simpa [xyz] using congrArg (fun p => p.x.m) h4
    have e2 : y = y' := by simpa [xyz] using congrArg (fun p => p.y.m) h4
    have e3 : z = z' := by simpa [xyz] using congrArg (fun p => p.z.m) h4
    rw [h5, e1, e2, e3, dist_self]

/-- What a 2D geographic CRS computes: the Vincenty inverse between the normalised positions. -/
theorem geographic_2d_dist {a b : ℝ} (id n pn : String) (l0 : ℝ)
    (s : GeodeticSystem) (hv : s.Valid) (h2 : ¬ s.Is3D) (crs : GeographicCrs XR)
    (hax : crs.axes = s.axes) (hdat : crs.datum = dat id n pn a b l0)
    (c d : List ℝ) (hc : s.Fits c) (hd : s.Fits d) :
    crs.toCrs.dist (c.map fin) (d.map fin) =
      inverse ⟨ell n a b⟩ (lonR (remR (s.lonOf c)), latR (clampR (s.latOf c)))
        (lonR (remR (s.lonOf d)), latR (clampR (s.latOf d))) >>= fun g => .ok g.s := by
  have n1 := geodetic_normalize_fin s hv c hc
  have n2 := geodetic_normalize_fin s hv d hd
  have hdim : s.axes.dim = 2 := by
    cases s <;> first | rfl | exact absurd trivial h2
  have e1 : (c.map fin).length = 2 := by rw [List.length_map, ← hdim]; exact hc
  have e2 : (d.map fin).length = 2 := by rw [List.length_map, ← hdim]; exact hd
  simp only [GeographicCrs.toCrs, GeographicCrs.dist, hax, hdat, hdim, e1, e2, n1, n2]
  rfl

/-- **C20, negation**: the distance of any position to itself in any 2D geographic CRS is an error. -/
theorem C20_geographic_2d_violated {a b : ℝ} (hb : 0 < b) (hab : b ≤ a) (id n pn : String) (l0 : ℝ)
    (s : GeodeticSystem) (hv : s.Valid) (h2 : ¬ s.Is3D) (crs : GeographicCrs XR)
    (hax : crs.axes = s.axes) (hdat : crs.datum = dat id n pn a b l0) (c : List ℝ) (hc : s.Fits c) :
    crs.toCrs.dist (c.map fin) (c.map fin) = .error (.err notConverging) := by
  rw [geographic_2d_dist id n pn l0 s hv h2 crs hax hdat c c hc hc, inverse_coincident hb hab]
  rfl

/-- The hypotheses are met: degrees, latitude first, on a flattened ellipsoid. -/
example (crs : GeographicCrs XR) (hax : crs.axes = .northEast (angleUnit 1 57))
    (hdat : crs.datum = dat "d" "e" "p" 10 9 0) :
    crs.toCrs.dist [fin 45, fin 3] [fin 45, fin 3] = .error (.err notConverging) :=
  C20_geographic_2d_violated (by norm_num) (by norm_num) "d" "e" "p" 0 (.northEast 1 57) ⟨by norm_num, by norm_num⟩
    (fun h => h) crs hax hdat [45, 3] rfl

example (crs : GeographicCrs XR) (hax : crs.axes = .northEastUp (angleUnit 1 57) (lengthUnit 1 3))
    (hdat : crs.datum = dat "d" "e" "p" 10 9 0) :
    crs.toCrs.dist [fin 45, fin 3, fin 7] [fin 45, fin 3, fin 7] = .ok ⟨fin 0⟩ :=
  C20_partial.2.2 10 9 0 "d" "e" "p" (.northEastUp 1 57 1 3) crs (by norm_num) (by norm_num)
    ⟨by norm_num, by norm_num, by norm_num, by norm_num⟩ trivial hax hdat [45, 3, 7] rfl

/-! ### Sphere (C64) -/

/-- The unit vector at longitude `l` and latitude `φ`. -/
noncomputable def unitAt (l φ : ℝ) : EuclideanSpace ℝ (Fin 3) :=
  point3 (Real.cos φ * Real.cos l) (Real.cos φ * Real.sin l) (Real.sin φ)

theorem inner_point3 (x y z x' y' z' : ℝ) : inner ℝ (point3 x y z) (point3 x' y' z') = x * x' + y * y' + z * z' := by
  simp [point3, PiLp.inner_apply, Fin.sum_univ_three]
  ring

theorem norm_unitAt (l φ : ℝ) : ‖unitAt l φ‖ = 1 := by
  have h : inner ℝ (unitAt l φ) (unitAt l φ) = 1 := by
    rw [unitAt, inner_point3]
    linear_combination Real.cos φ ^ 2 * Real.sin_sq_add_cos_sq l + Real.sin_sq_add_cos_sq φ
  rw [real_inner_self_eq_norm_sq] at h
  nlinarith [norm_nonneg (unitAt l φ)]

theorem angle_unitAt (l₁ φ₁ l₂ φ₂ : ℝ) :
    InnerProductGeometry.angle (unitAt l₁ φ₁) (unitAt l₂ φ₂) = arc φ₁ φ₂ (l₂ - l₁) := by
  rw [InnerProductGeometry.angle, norm_unitAt, norm_unitAt, arc_eq_arccos, unitAt, unitAt, inner_point3, csig,
    Real.cos_sub]
  congr 1
  ring

theorem arc_congr {β₁ β₂ l l' : ℝ} (h : SameDirection l l') : arc β₁ β₂ l = arc β₁ β₂ l' := by
  rw [arc, arc, ssq, ssq, csig, csig, h.sin, h.cos]

/-- On a sphere the reduced latitude is the latitude. -/
theorem reducedLatitude_sphere {a : ℝ} (ha : 0 < a) (n : String) {φ : ℝ} (h1 : -(Real.pi / 2) ≤ φ)
    (h2 : φ ≤ Real.pi / 2) : (ell n a a).reducedLatitude (latR φ) = ⟨fin φ⟩ := by
  obtain ⟨β, e, b1, b2, hβ⟩ := reducedLatitude_all ha le_rfl n φ
  obtain ⟨-, hs⟩ := hβ (Real.cos_nonneg_of_neg_pi_div_two_le_of_le h1 h2)
  rw [pvr_self, show ecc2 a a = 0 by simp [ecc2], sub_zero, mul_one] at hs
  rw [e, Real.injOn_sin ⟨b1, b2⟩ ⟨h1, h2⟩ (mul_left_cancel₀ ha.ne' hs)]

/-- **C64** (inverse problem): on a sphere, the solver returns for every pair of points that are neither equal nor
antipodal, and the distance is the radius times the angle between the directions of the two points. -/
theorem C64_inverse {a : ℝ} (ha : 0 < a) (n : String) {l₁ φ₁ l₂ φ₂ : ℝ} (h1 : -(Real.pi / 2) ≤ φ₁)
    (h1' : φ₁ ≤ Real.pi / 2) (h2 : -(Real.pi / 2) ≤ φ₂) (h2' : φ₂ ≤ Real.pi / 2)
    (hne : unitAt l₁ φ₁ ≠ unitAt l₂ φ₂) (hop : unitAt l₁ φ₁ ≠ -unitAt l₂ φ₂) :
    ∃ g, inverse ⟨ell n a a⟩ (lonR l₁, latR φ₁) (lonR l₂, latR φ₂) = .ok g ∧
      g.s = ⟨fin (a * InnerProductGeometry.angle (unitAt l₁ φ₁) (unitAt l₂ φ₂))⟩ := by
  rw [inverse_eq ha le_rfl n l₁ φ₁ l₂ φ₂ φ₁ φ₂ (reducedLatitude_sphere ha n h1 h1') (reducedLatitude_sphere ha n h2 h2'),
    angle_unitAt]
  have hcong : arc φ₁ φ₂ (normR (l₂ - l₁)) = arc φ₁ φ₂ (l₂ - l₁) := arc_congr (normR_same _)
  have hs : Real.sin (arc φ₁ φ₂ (normR (l₂ - l₁))) ≠ 0 := by
    rw [hcong, ← angle_unitAt]
    intro h
    have hn1 : unitAt l₁ φ₁ ≠ 0 := by rw [← norm_ne_zero_iff, norm_unitAt]; norm_num
    rcases InnerProductGeometry.sin_eq_zero_iff_angle_eq_zero_or_angle_eq_pi.1 h with h | h
    · obtain ⟨-, r, hr, e⟩ := InnerProductGeometry.angle_eq_zero_iff.1 h
      have := congrArg norm e
      rw [norm_smul, norm_unitAt, norm_unitAt, Real.norm_eq_abs, abs_of_pos hr, mul_one] at this
      rw [← this, one_smul] at e
      exact hne e.symm
    · obtain ⟨-, r, hr, e⟩ := InnerProductGeometry.angle_eq_pi_iff.1 h
      have := congrArg norm e
      rw [norm_smul, norm_unitAt, norm_unitAt, Real.norm_eq_abs, abs_of_neg hr, mul_one] at this
      rw [show r = -1 by linarith, neg_one_smul] at e
      exact hop (by rw [e, neg_neg])
  have hr := inverseStep_real ((a - a) / a) φ₁ φ₂ (normR (l₂ - l₁)) (normR (l₂ - l₁)) 0
    (inverseInit (fin (normR (l₂ - l₁)))) hs rfl rfl rfl zero_eq
  have hz : ∀ sa σ c, vincentyExcess ((a - a) / a) sa σ c = 0 := fun sa σ c => by simp [vincentyExcess]
  have hd := inverseDone_real hr
  rw [hz, zero_add, sub_self (normR (l₂ - l₁)), abs_zero, decide_eq_true (by norm_num)] at hd
  rw [loopMax]
  simp only [hd, if_true, ok_bind]
  refine ⟨_, rfl, ?_⟩
  rw [← hcong]
  show inverseLength (ell n a a) _ = _
  rw [inverseLength_real ha n hr]
  simp [vincentyLength, vincentyA, vincentyB, vincentyDeltaSigma]

/-- A quarter of a meridian, from the equator to the pole. -/
example : ∃ g, inverse ⟨ell "s" 10 10⟩ (lonR 0, latR 0) (lonR 1, latR (Real.pi / 2)) = .ok g ∧
    g.s = ⟨fin (10 * (Real.pi / 2))⟩ := by
  have hp := Real.pi_pos
  have key : ∀ s : ℝ, unitAt 0 0 ≠ s • unitAt 1 (Real.pi / 2) := fun s h => by
    have := congrArg (fun v => v 0) h
    simp [unitAt] at this
  obtain ⟨g, h, hg⟩ := C64_inverse (a := 10) (by norm_num) "s" (l₁ := 0) (φ₁ := 0) (l₂ := 1) (φ₂ := Real.pi / 2)
    (by linarith) (by linarith) (by linarith) le_rfl (by simpa using key 1) (by simpa using key (-1))
  refine ⟨g, h, ?_⟩
  rw [hg, angle_unitAt, arc_eq_arccos]
  simp [csig]

/-! ### Equator (C71) -/

theorem equator_arc {l : ℝ} (h : |l| ≤ Real.pi) : arc 0 0 l = |l| := by
  rw [arc_eq_arccos, csig, Real.sin_zero, Real.cos_zero, zero_mul, zero_add, one_mul, one_mul, ← Real.cos_abs,
    Real.arccos_cos (abs_nonneg _) h]

theorem equator_salpha {l : ℝ} (h : |l| < Real.pi) (h0 : l ≠ 0) :
    Real.sin (arc 0 0 l) ≠ 0 ∧ salpha 0 0 l * arc 0 0 l = l ∧ 1 - salpha 0 0 l ^ 2 = 0 := by
  have hp : 0 < |l| := abs_pos.2 h0
  have hs : 0 < Real.sin |l| := Real.sin_pos_of_pos_of_lt_pi hp h
  rw [salpha, equator_arc h.le, Real.cos_zero, one_mul, one_mul]
  refine ⟨hs.ne', ?_, ?_⟩
  · rcases abs_cases l with ⟨e, _⟩ | ⟨e, _⟩ <;> rw [e] at hs ⊢
    · rw [div_self hs.ne', one_mul]
    · rw [Real.sin_neg] at hs ⊢
      have : Real.sin l ≠ 0 := by intro h; rw [h] at hs; simp at hs
      field_simp
  · rcases abs_cases l with ⟨e, _⟩ | ⟨e, _⟩ <;> rw [e] at hs ⊢
    · rw [div_self hs.ne']; norm_num
    · rw [Real.sin_neg] at hs ⊢
      rw [div_neg, div_self (by intro h; rw [h] at hs; simp at hs)]; norm_num

/-- The longitude differences of the iteration on the equator. -/
noncomputable def eqLon (f L : ℝ) : ℕ → ℝ
  | 0 => L
  | k + 1 => L + f * eqLon f L k

theorem eqLon_bounds {f L : ℝ} (hf : 0 ≤ f) (hL : L ≠ 0) (h : |L| < Real.pi * (1 - f)) (k : ℕ) :
    |eqLon f L k| < Real.pi ∧ eqLon f L k ≠ 0 ∧ |eqLon f L (k + 1) - eqLon f L k| = f ^ (k + 1) * |L| := by
  have hpos : ∀ k, 0 < L * eqLon f L k := fun k => by
    induction k with
    | zero => exact mul_self_pos.2 hL
    | succ k ih => rw [eqLon]; nlinarith [mul_self_pos.2 hL, mul_nonneg hf ih.le]
  refine ⟨?_, fun e => by have := hpos k; rw [e] at this; simp at this, ?_⟩
  · induction k with
    | zero => rw [eqLon]; nlinarith [Real.pi_pos]
    | succ k ih =>
      rw [eqLon]
      have := abs_add_le L (f * eqLon f L k)
      rw [abs_mul, abs_of_nonneg hf] at this
      nlinarith
  · induction k with
    | zero => simp only [eqLon]; rw [add_sub_cancel_left, abs_mul, abs_of_nonneg hf]; ring
    | succ k ih =>
      rw [eqLon]
      conv_lhs => rw [show L + f * eqLon f L (k + 1) - eqLon f L (k + 1) =
        f * (eqLon f L (k + 1) - eqLon f L k) by rw [eqLon]; ring]
      rw [abs_mul, ih, abs_of_nonneg hf]; ring

/-- The iteration on the equator, started from `k` earlier iterations. -/
theorem equator_iterate {f L : ℝ} (hf : 0 ≤ f) (hL : L ≠ 0) (h : |L| < Real.pi * (1 - f)) (k : ℕ) :
    RealState (iterate (inverseStep (fin f) (fin (Real.sin 0)) (fin (Real.cos 0)) (fin (Real.sin 0))
      (fin (Real.cos 0)) (fin L)) (k + 1) (inverseInit (fin L))) (eqLon f L (k + 1)) (eqLon f L k) 0
      |eqLon f L k| 0 := by
  have step : ∀ k (st : InverseState XR), st.lambda = fin (eqLon f L k) →
      st.sin_lambda = fin (Real.sin (eqLon f L k)) → st.cos_lambda = fin (Real.cos (eqLon f L k)) →
      st.cos_2_sigma_m = fin 0 → RealState (inverseStep (fin f) (fin (Real.sin 0)) (fin (Real.cos 0))
        (fin (Real.sin 0)) (fin (Real.cos 0)) (fin L) st) (eqLon f L (k + 1)) (eqLon f L k) 0 |eqLon f L k| 0 := by
    intro k st h1 h2 h3 h4
    obtain ⟨b1, b2, _⟩ := eqLon_bounds hf hL h k
    obtain ⟨s1, s2, s3⟩ := equator_salpha b1 b2
    have hr := inverseStep_real f 0 0 L (eqLon f L k) 0 st s1 h1 h2 h3 h4
    have hx : vincentyExcess f (salpha 0 0 (eqLon f L k)) (arc 0 0 (eqLon f L k)) (mid 0 0 (eqLon f L k) 0) + L =
        eqLon f L (k + 1) := by
      rw [vincentyExcess, eqLon, s3]
      simp only [vincentyC, mul_zero, zero_mul, sub_zero, one_mul, add_zero]
      rw [mul_assoc, s2, add_comm]
    rwa [hx, mid, if_pos s3, s3, equator_arc b1.le] at hr
  induction k with
  | zero => exact step 0 _ rfl rfl rfl zero_eq
  | succ k ih =>
    rw [iterate_succ_apply']
    exact step (k + 1) _ ih.lambda ih.sin_lambda ih.cos_lambda ih.mid

theorem reducedLatitude_zero {a b : ℝ} (hb : 0 < b) (hab : b ≤ a) (n : String) :
    (ell n a b).reducedLatitude (latR 0) = ⟨fin 0⟩ := by
  simp [Ellipsoid.reducedLatitude, ell_f hb hab, latR, Lat.tan, Angle.tan, tan_fin, angle_new_rad]

/-- **C71**: along the equator, for longitudes that differ by less than `π (1 - f)` (beyond which the equator is not
the shortest path) on an ellipsoid with `f ≤ 1/3`, the solver returns and the distance is `a` times the difference of
longitudes, within `1e-12 a`. -/
theorem C71_equator {a b : ℝ} (hb : 0 < b) (hab : b ≤ a) (hf : (a - b) / a ≤ 1 / 3) (n : String) (l₁ l₂ L : ℝ)
    (hsame : SameDirection L (l₂ - l₁)) (h0 : L ≠ 0) (hL : |L| < Real.pi * (1 - (a - b) / a)) :
    ∃ (g : Geodesic XR) (s : ℝ), inverse ⟨ell n a b⟩ (lonR l₁, latR 0) (lonR l₂, latR 0) = .ok g ∧ g.s = ⟨fin s⟩ ∧
      |s - a * (|L|)| ≤ a * 1e-12 := by
  have ha : 0 < a := lt_of_lt_of_le hb hab
  have hpi := Real.pi_pos
  have f0 : 0 ≤ (a - b) / a := div_nonneg (by linarith) ha.le
  have hLp : |L| < Real.pi := by nlinarith
  have hN : normR (l₂ - l₁) = L := by
    rw [← normR_congr hsame]
    exact normR_id (abs_lt.1 hLp).1 (abs_lt.1 hLp).2.le
  rw [inverse_eq hb hab n l₁ 0 l₂ 0 0 0 (reducedLatitude_zero hb hab n) (reducedLatitude_zero hb hab n), hN]
  rcases hloop : loopMax (inverseStep (fin ((a - b) / a)) (fin (Real.sin 0)) (fin (Real.cos 0)) (fin (Real.sin 0))
      (fin (Real.cos 0)) (fin L)) inverseDone notConverging 30 (inverseInit (fin L)) with e | st
  · exfalso
    have h29 := (loopMax_error hloop).2 29 (by norm_num)
    rw [inverseDone_real (equator_iterate f0 h0 hL 29), (eqLon_bounds f0 h0 hL 29).2.2] at h29
    have hpow : ((a - b) / a) ^ (29 + 1) ≤ (1 / 3) ^ (29 + 1) := pow_le_pow_left₀ f0 hf _
    have hlt : ((a - b) / a) ^ (29 + 1) * |L| < 1e-12 := by
      have h4 : |L| < 4 := lt_of_lt_of_le hLp Real.pi_le_four
      calc ((a - b) / a) ^ (29 + 1) * |L| ≤ (1 / 3) ^ (29 + 1) * 4 :=
            mul_le_mul hpow h4.le (abs_nonneg _) (by positivity)
        _ < 1e-12 := by norm_num
    simp [hlt] at h29
  · obtain ⟨k, hk, hst, hd, -⟩ := loopMax_ok hloop
    have hr := equator_iterate f0 h0 hL k
    rw [← hst] at hr
    rw [inverseDone_real hr, decide_eq_true_iff] at hd
    have hr1 : RealState st (eqLon ((a - b) / a) L (k + 1)) (eqLon ((a - b) / a) L k) (1 - (1 : ℝ) ^ 2)
        |eqLon ((a - b) / a) L k| 0 := by norm_num; exact hr
    refine ⟨_, b * |eqLon ((a - b) / a) L k|, rfl, ?_, ?_⟩
    · show inverseLength (ell n a b) st = _
      rw [inverseLength_real hb n hr1]
      simp [vincentyLength, vincentyA, vincentyB, vincentyDeltaSigma]
    · rw [eqLon] at hd
      set p := eqLon ((a - b) / a) L k
      have e : L + (a - b) / a * p - p = (a * L - b * p) / a := by field_simp; ring
      rw [e, abs_div, abs_of_pos ha, div_lt_iff₀ ha] at hd
      have h2 := abs_abs_sub_abs_le_abs_sub (b * p) (a * L)
      rw [abs_mul, abs_mul, abs_of_pos hb, abs_of_pos ha, abs_sub_comm (b * p)] at h2
      linarith

/-- A quarter of the equator. -/
example : ∃ (g : Geodesic XR) (s : ℝ), inverse ⟨ell "e" 10 9⟩ (lonR 1, latR 0) (lonR (1 + Real.pi / 2), latR 0) = .ok g ∧
    g.s = ⟨fin s⟩ ∧ |s - 10 * (|Real.pi / 2|)| ≤ 10 * 1e-12 :=
  C71_equator (by norm_num) (by norm_num) (by norm_num) "e" 1 (1 + Real.pi / 2) (Real.pi / 2) ⟨0, by simp⟩
    (by positivity) (by rw [abs_of_pos (by positivity)]; nlinarith [Real.pi_pos])

/-- The hypothesis of C62 is met (by C71). -/
example : ∃ g, inverse ⟨ell "e" 10 9⟩ (lonR 1, latR 0) (lonR (1 + Real.pi / 2), latR 0) = .ok g := by
  obtain ⟨g, _, h, _⟩ := C71_equator (a := 10) (b := 9) (by norm_num) (by norm_num) (by norm_num) "e" 1
    (1 + Real.pi / 2) (Real.pi / 2) ⟨0, by simp⟩ (by positivity)
    (by rw [abs_of_pos (by positivity)]; nlinarith [Real.pi_pos])
  exact ⟨g, h⟩

end Geo
