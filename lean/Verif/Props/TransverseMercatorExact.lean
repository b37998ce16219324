import Verif.Lemmas.TransverseMercator

/-! # C36-C40: transverse Mercator and UTM, in exact arithmetic -/

namespace Geo
open XR Spec

/-- The transverse Mercator projection a user obtains from its specification. -/
noncomputable def tmSpec (s : String) (a b l0 φ0 k0 fe fn : ℝ) : Projection XR :=
  (ProjectionSpec.transverseMercator (lonR l0) (latR φ0) (fin k0) ⟨fin fe⟩ ⟨fin fn⟩).appliedTo (ell s a b)

theorem tmSpec_eq {a b : ℝ} (hb : 0 < b) (hab : b ≤ a) (s : String) (l0 : ℝ) {φ0 : ℝ} (h1 : -(Real.pi / 2) ≤ φ0)
    (h2 : φ0 ≤ Real.pi / 2) (k0 fe fn : ℝ) :
    tmSpec s a b l0 φ0 k0 fe fn = .transverseMercator
      (tmR (Real.sqrt (ecc2 a b)) l0 k0 fe fn (tmB a b) (tmh0 (nR a b)) (tmh1 (nR a b)) (tmh2 (nR a b))
        (tmh3 (nR a b)) (tmp0 (nR a b)) (tmp1 (nR a b)) (tmp2 (nR a b)) (tmp3 (nR a b)) (tmM0 a b φ0)) := by
  rw [tmSpec, ProjectionSpec.appliedTo, tmNew_eq hb hab s l0 h1 h2]

/-! ### C37: symmetry -/

/-- **C37**: the central meridian is mapped on the false easting. -/
theorem C37_central_meridian {a b : ℝ} (hb : 0 < b) (hab : b ≤ a) (s : String) (l0 : ℝ) {φ0 : ℝ}
    (h1 : -(Real.pi / 2) ≤ φ0) (h2 : φ0 ≤ Real.pi / 2) (k0 fe fn : ℝ) {l φ h : ℝ} (hl : SameDirection l l0)
    (g1 : -(Real.pi / 2) ≤ φ) (g2 : φ ≤ Real.pi / 2) :
    ∃ N, (tmSpec s a b l0 φ0 k0 fe fn).proj (llh l φ h) = .ok (enh fe N h) := by
  have hz : Real.sin (l - l0) = 0 := by
    have := (hl.sub (SameDirection.refl l0)).sin
    rwa [sub_self, Real.sin_zero] at this
  rw [tmSpec_eq hb hab s l0 h1 h2, Projection.proj,
    tmR_proj _ _ _ _ _ _ _ _ _ _ _ _ _ _ _ (Real.sqrt_nonneg _) (sqrt_ecc2_lt hb hab) l φ h g1 g2 (by simp [hz])]
  simp only [hz, mul_zero, Real.artanh_zero, sCS_zero, add_zero]
  exact ⟨_, rfl⟩

/-- **C37**: mirror positions about the central meridian have opposite easting offsets and the same northing. Excluded
are the two points of the equator 90° from the central meridian, which the projection sends to infinity. -/
theorem C37_reflect_lon {a b : ℝ} (hb : 0 < b) (hab : b ≤ a) (s : String) (l0 : ℝ) {φ0 : ℝ}
    (h1 : -(Real.pi / 2) ≤ φ0) (h2 : φ0 ≤ Real.pi / 2) (k0 fe fn : ℝ) {l l' φ h : ℝ}
    (hl : SameDirection (l' - l0) (-(l - l0)))
    (g1 : -(Real.pi / 2) ≤ φ) (g2 : φ ≤ Real.pi / 2) (hd : ¬ (φ = 0 ∧ Real.cos (l - l0) = 0)) :
    ∃ d N, (tmSpec s a b l0 φ0 k0 fe fn).proj (llh l φ h) = .ok (enh (fe + d) N h) ∧
      (tmSpec s a b l0 φ0 k0 fe fn).proj (llh l' φ h) = .ok (enh (fe - d) N h) := by
  have he0 := Real.sqrt_nonneg (ecc2 a b)
  have he := sqrt_ecc2_lt hb hab
  have hs : Real.sin (l' - l0) = -Real.sin (l - l0) := by rw [hl.sin, Real.sin_neg]
  have hd1 := tm_domain he0 he g1 g2 hd
  have hd2 : |Real.cos (confR (Real.sqrt (ecc2 a b)) φ) * Real.sin (l' - l0)| < 1 := by
    rw [hs, mul_neg, abs_neg]; exact hd1
  rw [tmSpec_eq hb hab s l0 h1 h2, Projection.proj, Projection.proj,
    tmR_proj _ _ _ _ _ _ _ _ _ _ _ _ _ _ _ he0 he l φ h g1 g2 hd1,
    tmR_proj _ _ _ _ _ _ _ _ _ _ _ _ _ _ _ he0 he l' φ h g1 g2 hd2]
  refine ⟨_, _, rfl, ?_⟩
  simp only [hs, mul_neg, artanh_neg' (abs_lt.1 hd1).1 (abs_lt.1 hd1).2, Real.cosh_neg, sCS_neg_right, sSC_neg_right]
  congr 2
  ring

/-- **C37**: with the origin on the equator, mirror positions about the equator have opposite northing offsets and the
same easting. -/
theorem C37_reflect_lat {a b : ℝ} (hb : 0 < b) (hab : b ≤ a) (s : String) (l0 k0 fe fn : ℝ) {l φ h : ℝ}
    (g1 : -(Real.pi / 2) ≤ φ) (g2 : φ ≤ Real.pi / 2) (hd : ¬ (φ = 0 ∧ Real.cos (l - l0) = 0)) :
    ∃ E d, (tmSpec s a b l0 0 k0 fe fn).proj (llh l φ h) = .ok (enh E (fn + d) h) ∧
      (tmSpec s a b l0 0 k0 fe fn).proj (llh l (-φ) h) = .ok (enh E (fn - d) h) := by
  have hp := Real.pi_pos
  have he0 := Real.sqrt_nonneg (ecc2 a b)
  have he := sqrt_ecc2_lt hb hab
  have hd1 := tm_domain he0 he g1 g2 hd
  have hβ := confR_neg he0 he φ
  have hd2 : |Real.cos (confR (Real.sqrt (ecc2 a b)) (-φ)) * Real.sin (l - l0)| < 1 := by
    rw [hβ, Real.cos_neg]; exact hd1
  have hM : tmM0 a b 0 = 0 := by simp [tmM0]
  rw [tmSpec_eq hb hab s l0 (by linarith) (by linarith), Projection.proj, Projection.proj,
    tmR_proj _ _ _ _ _ _ _ _ _ _ _ _ _ _ _ he0 he l φ h g1 g2 hd1,
    tmR_proj _ _ _ _ _ _ _ _ _ _ _ _ _ _ _ he0 he l (-φ) h (by linarith) (by linarith) hd2]
  refine ⟨_, _, rfl, ?_⟩
  simp only [hβ, Real.cos_neg, Real.sin_neg, neg_mul, Real.arcsin_neg, sCS_neg_left, sSC_neg_left, hM]
  congr 2
  ring

theorem tmM0_self (r : ℝ) {φ0 : ℝ} (h1 : -(Real.pi / 2) ≤ φ0) (h2 : φ0 ≤ Real.pi / 2) : tmM0 r r φ0 = r * φ0 := by
  rw [tmM0, tmB_self, nR_self, sub_self, zero_mul, zero_div, Real.sqrt_zero, confR_sphere h1 h2]
  split
  · rename_i h; rw [h, mul_zero]
  · split
    · rfl
    · simp [tmh0, tmh1, tmh2, tmh3]

/-- **C37**: on a sphere the northing along the central meridian is the true-scale meridian arc from the origin. -/
theorem C37_sphere_meridian {r : ℝ} (hr : 0 < r) (s : String) (l0 : ℝ) {φ0 : ℝ}
    (h1 : -(Real.pi / 2) ≤ φ0) (h2 : φ0 ≤ Real.pi / 2) (k0 fe fn : ℝ) {φ h : ℝ}
    (g1 : -(Real.pi / 2) ≤ φ) (g2 : φ ≤ Real.pi / 2) :
    (tmSpec s r r l0 φ0 k0 fe fn).proj (llh l0 φ h) = .ok (enh fe (fn + k0 * (r * (φ - φ0))) h) := by
  have hM := tmM0_self r h1 h2
  rw [tmSpec_eq hr le_rfl s l0 h1 h2, Projection.proj,
    tmR_proj _ _ _ _ _ _ _ _ _ _ _ _ _ _ _ (Real.sqrt_nonneg _) (sqrt_ecc2_lt hr le_rfl) l0 φ h g1 g2 (by simp)]
  rw [ecc2_self, Real.sqrt_zero, confR_sphere g1 g2, tmB_self, nR_self, hM, sub_self, Real.sin_zero, mul_zero,
    Real.artanh_zero, Real.cosh_zero, mul_one, Real.arcsin_sin g1 g2, sCS_zero]
  simp only [sSC, tmh0, tmh1, tmh2, tmh3]
  congr 3
  · ring
  · congr 1; ring

/-- WGS84 with an origin off the equator; a position 10° east of the central meridian. -/
example : ∃ d N, (tmSpec "WGS 84" 6378137 6356752 0.1 0.5 0.9996 500000 0).proj (llh 0.3 0.7 12) =
      .ok (enh (500000 + d) N 12) ∧
    (tmSpec "WGS 84" 6378137 6356752 0.1 0.5 0.9996 500000 0).proj (llh (-0.1) 0.7 12) = .ok (enh (500000 - d) N 12) := by
  have := Real.pi_gt_three
  exact C37_reflect_lon (by norm_num) (by norm_num) _ _ (by linarith) (by linarith) _ _ _
    (by rw [show (-0.1 - 0.1 : ℝ) = -(0.3 - 0.1) by norm_num]; exact SameDirection.refl _)
    (by linarith) (by linarith) (by norm_num)

example : ∃ E d, (tmSpec "WGS 84" 6378137 6356752 0.1 0 0.9996 500000 0).proj (llh 0.3 0.7 12) =
      .ok (enh E (0 + d) 12) ∧
    (tmSpec "WGS 84" 6378137 6356752 0.1 0 0.9996 500000 0).proj (llh 0.3 (-0.7) 12) = .ok (enh E (0 - d) 12) := by
  have := Real.pi_gt_three
  exact C37_reflect_lat (by norm_num) (by norm_num) _ _ _ _ _ (by linarith) (by linarith) (by norm_num)

/-! ### C36: the inverse terminates -/

section
variable (e l0 k0 fe fn B h0 h1 h2 h3 p0 p1 p2 p3 M0 : ℝ)

/-- What `unproj` does on finite coordinates, off the poles. -/
theorem tmR_unproj (he0 : 0 ≤ e) (he : e < 1) (hkB : k0 * B ≠ 0) (E N h : ℝ) (ξ η : ℝ)
    (hξ : ξ = (N - fn + k0 * M0) / (k0 * B) - sSC p0 p1 p2 p3 ((N - fn + k0 * M0) / (k0 * B)) ((E - fe) / (k0 * B)))
    (hη : η = (E - fe) / (k0 * B) - sCS p0 p1 p2 p3 ((N - fn + k0 * M0) / (k0 * B)) ((E - fe) / (k0 * B)))
    (hd : |Real.sin ξ| < Real.cosh η) :
    ∃ u, (tmR e l0 k0 fe fn B h0 h1 h2 h3 p0 p1 p2 p3 M0).unproj (enh E N h) =
        .ok (llh (remR (l0 + Real.arcsin (Real.tanh η / Real.cos (Real.arcsin (Real.sin ξ / Real.cosh η)))))
          (Real.arctan (Real.sinh u)) h) ∧
      |u - iterR e (Real.arsinh (Real.tan (Real.arcsin (Real.sin ξ / Real.cosh η)))) u| ≤ e ^ 2 * 1e-12 := by
  have hc := Real.cosh_pos η
  have hlt : |Real.sin ξ / Real.cosh η| < 1 := by rw [abs_div, abs_of_pos hc, div_lt_one hc]; exact hd
  obtain ⟨g1, g2⟩ := abs_lt.1 hlt
  have hcb : 0 < Real.cos (Real.arcsin (Real.sin ξ / Real.cosh η)) := by
    rw [Real.cos_arcsin]; apply Real.sqrt_pos.2; nlinarith
  have hasin : |Real.tanh η / Real.cos (Real.arcsin (Real.sin ξ / Real.cosh η))| ≤ 1 := by
    rw [abs_div, abs_of_pos hcb, div_le_one hcb, Real.cos_arcsin]
    apply Real.le_sqrt_of_sq_le
    rw [sq_abs, Real.tanh_eq_sinh_div_cosh, div_pow, div_pow, Real.cosh_sq η]
    have : 0 < Real.sinh η ^ 2 + 1 := by positivity
    rw [le_sub_iff_add_le, ← add_div, div_le_one this]
    linarith [Real.sin_sq_le_one ξ]
  obtain ⟨a1, a2⟩ := abs_le.1 hasin
  obtain ⟨u, hu, hub⟩ := solveQ_fin he0 he (Real.arsinh (Real.tan (Real.arcsin (Real.sin ξ / Real.cosh η))))
  refine ⟨u, ?_, hub⟩
  have hla := lon_add_fin l0 (Real.arcsin (Real.tanh η / Real.cos (Real.arcsin (Real.sin ξ / Real.cosh η))))
  have b1 := Real.neg_pi_div_two_lt_arctan (Real.sinh u)
  have b2 := Real.arctan_lt_pi_div_two (Real.sinh u)
  simp only [lonR] at hla
  simp only [TransverseMercator.unproj, tmR, enh, lonR, Length.mk_sub, Length.mk_add, Length.mul_mk, Length.mk_mul,
    sub_fin, mul_fin, add_fin, Length.mk_div_mk, div_fin _ hkB, sumSinCosh_fin, sumCosSinh_fin, ← hξ, ← hη]
  rw [sin_fin, cosh_fin, div_fin _ hc.ne', asin_fin g1.le g2.le, cos_fin, tanh_fin, div_fin _ hcb.ne', asin_fin a1 a2,
    tan_fin hcb.ne', asinh_fin, hu]
  simp only [angle_new_rad, hla, bind, Except.bind, pure, Except.pure, sinh_fin, atan_fin, lat_new_fin,
    clampR_id b1.le b2.le, llh, lonR]
end

theorem sin_arctan_sinh (u : ℝ) : Real.sin (Real.arctan (Real.sinh u)) = Real.tanh u := by
  rw [Real.sin_arctan, Real.tanh_eq_sinh_div_cosh, add_comm, ← Real.cosh_sq, Real.sqrt_sq (Real.cosh_pos u).le]

theorem isoQ_arctan_sinh (e u : ℝ) : Real.arsinh (Real.tan (Real.arctan (Real.sinh u))) -
    e * Real.artanh (e * Real.sin (Real.arctan (Real.sinh u))) = u - e * Real.artanh (e * Real.tanh u) := by
  rw [Real.tan_arctan, Real.arsinh_sinh, sin_arctan_sinh]

theorem sin_lt_cosh {ξ η : ℝ} (h : ¬ (|Real.sin ξ| = 1 ∧ η = 0)) : |Real.sin ξ| < Real.cosh η := by
  have h1 := Real.abs_sin_le_one ξ
  by_cases hη : η = 0
  · have : |Real.sin ξ| ≠ 1 := fun g => h ⟨g, hη⟩
    rw [hη, Real.cosh_zero]
    exact lt_of_le_of_ne h1 this
  · exact lt_of_le_of_lt h1 (Real.one_lt_cosh.2 hη)

/-- **C36**: the loop stops for every eccentricity `0 ≤ e < 1` and every finite conformal argument `q`, with a value
that satisfies the equation of the loop to `e² 1e-12`. -/
theorem C36_loop_terminates {e : ℝ} (h0 : 0 ≤ e) (h1 : e < 1) (q : ℝ) :
    ∃ u, TransverseMercator.solveQ (fin e) (fin q) = .ok (fin u) ∧
      |u - e * Real.artanh (e * Real.tanh u) - q| ≤ e ^ 2 * 1e-12 := by
  obtain ⟨u, h, hb⟩ := solveQ_fin h0 h1 q
  refine ⟨u, h, ?_⟩
  unfold iterR at hb
  rwa [show u - e * Real.artanh (e * Real.tanh u) - q = u - (q + e * Real.artanh (e * Real.tanh u)) by ring]

/-- **C36**: `unproj` terminates with a position for every finite easting and northing, other than those of the poles
(corrected coordinates `η = 0`, `sin ξ = ±1`). The latitude `φ` returned is the geodetic latitude of the conformal
latitude `arcsin (sin ξ / cosh η)`, to within `e² 1e-12` in isometric latitude. -/
theorem C36_unproj_terminates {a b : ℝ} (hb : 0 < b) (hab : b ≤ a) (s : String) (l0 : ℝ) {φ0 : ℝ}
    (h1 : -(Real.pi / 2) ≤ φ0) (h2 : φ0 ≤ Real.pi / 2) {k0 : ℝ} (hk : k0 ≠ 0) (fe fn E N h : ℝ)
    (hpole : ¬ (|Real.sin (tmXi a b φ0 k0 fe fn E N)| = 1 ∧ tmEta a b φ0 k0 fe fn E N = 0)) :
    ∃ l φ, (tmSpec s a b l0 φ0 k0 fe fn).unproj (enh E N h) = .ok (llh l φ h) ∧
      -Real.pi ≤ l ∧ l ≤ Real.pi ∧ -(Real.pi / 2) < φ ∧ φ < Real.pi / 2 ∧
      |Real.arsinh (Real.tan φ) - Real.sqrt (ecc2 a b) * Real.artanh (Real.sqrt (ecc2 a b) * Real.sin φ) -
        Real.arsinh (Real.tan (Real.arcsin (Real.sin (tmXi a b φ0 k0 fe fn E N) /
          Real.cosh (tmEta a b φ0 k0 fe fn E N))))| ≤ ecc2 a b * 1e-12 := by
  have he0 := Real.sqrt_nonneg (ecc2 a b)
  have he := sqrt_ecc2_lt hb hab
  have hkB : k0 * tmB a b ≠ 0 := mul_ne_zero hk (tmB_pos hb hab).ne'
  obtain ⟨u, e1, e2⟩ := tmR_unproj (Real.sqrt (ecc2 a b)) l0 k0 fe fn (tmB a b) (tmh0 (nR a b)) (tmh1 (nR a b))
    (tmh2 (nR a b)) (tmh3 (nR a b)) (tmp0 (nR a b)) (tmp1 (nR a b)) (tmp2 (nR a b)) (tmp3 (nR a b)) (tmM0 a b φ0)
    he0 he hkB E N h (tmXi a b φ0 k0 fe fn E N) (tmEta a b φ0 k0 fe fn E N) rfl rfl (sin_lt_cosh hpole)
  rw [tmSpec_eq hb hab s l0 h1 h2, Projection.unproj, e1]
  refine ⟨_, _, rfl, le_remR _, remR_le _, Real.neg_pi_div_two_lt_arctan _, Real.arctan_lt_pi_div_two _, ?_⟩
  rw [isoQ_arctan_sinh]
  rw [Real.sq_sqrt (ecc2_nonneg hb hab)] at e2
  unfold iterR at e2
  rwa [sub_sub, add_comm (Real.sqrt (ecc2 a b) * Real.artanh _)]

theorem iterate_const {α : Type} (f : α → α) (x : α) (h : f x = x) (n : ℕ) : iterate f n x = x := by
  induction n with
  | zero => rfl
  | succ n ih => rw [iterate, h, ih]

theorem solveQ_nan (e : XR) : TransverseMercator.solveQ e nan = .error .diverge := by
  have hq : TransverseMercator.iterQ e nan nan = nan := by simp [TransverseMercator.iterQ]
  unfold TransverseMercator.solveQ
  simp only [hq]
  unfold loopUntil
  rw [dif_neg]
  · rfl
  · rintro ⟨m, hm⟩
    rw [iterate_const _ _ (by simp [hq])] at hm
    simp at hm

theorem nonfin_add {a : XR} (h : ¬ IsFin a) (b : XR) : ¬ IsFin (a + b) := by
  rintro ⟨x, hx⟩
  cases a <;> cases b <;> first | exact h ⟨_, rfl⟩ | exact absurd hx (by intro h; cases h)
theorem add_nonfin {a : XR} (h : ¬ IsFin a) (b : XR) : ¬ IsFin (b + a) := by
  rintro ⟨x, hx⟩
  cases a <;> cases b <;> first | exact h ⟨_, rfl⟩ | exact absurd hx (by intro h; cases h)
theorem nonfin_sub {a : XR} (h : ¬ IsFin a) (b : XR) : ¬ IsFin (a - b) := by
  rintro ⟨x, hx⟩
  cases a <;> cases b <;> first | exact h ⟨_, rfl⟩ | exact absurd hx (by intro h; cases h)
theorem sub_nonfin {a : XR} (h : ¬ IsFin a) (b : XR) : ¬ IsFin (b - a) := by
  rintro ⟨x, hx⟩
  cases a <;> cases b <;> first | exact h ⟨_, rfl⟩ | exact absurd hx (by intro h; cases h)
theorem signInf_nonfin (x : ℝ) : ¬ IsFin (signInf x) := by
  unfold signInf
  rintro ⟨y, hy⟩
  split at hy
  · cases hy
  · split at hy <;> cases hy
theorem mul_nonfin {a : XR} (h : ¬ IsFin a) (b : XR) : ¬ IsFin (b * a) := by
  cases a <;> cases b <;> first | exact absurd ⟨_, rfl⟩ h | exact signInf_nonfin _ | (rintro ⟨_, ⟨⟩⟩)
theorem nonfin_div {a : XR} (h : ¬ IsFin a) (b : XR) : ¬ IsFin (a / b) := by
  cases a <;> cases b <;> first | exact absurd ⟨_, rfl⟩ h | (rintro ⟨_, ⟨⟩⟩) | exact signInf_nonfin _ | skip
  all_goals
    rintro ⟨y, hy⟩
    change (if _ then _ else _ : XR) = _ at hy
    split at hy <;> cases hy
theorem cosh_nonfin {a : XR} (h : ¬ IsFin a) : ¬ IsFin (Flt.cosh a) := by
  cases a <;> first | exact absurd ⟨_, rfl⟩ h | (rintro ⟨_, ⟨⟩⟩)
theorem sin_nonfin {a : XR} (h : ¬ IsFin a) : Flt.sin a = nan := by
  cases a <;> first | exact absurd ⟨_, rfl⟩ h | rfl

theorem sumSinCosh_nonfin (h0 h1 h2 h3 x : XR) {y : XR} (hy : ¬ IsFin y) :
    ¬ IsFin (TransverseMercator.sumSinCosh h0 h1 h2 h3 x y) := by
  simp only [TransverseMercator.sumSinCosh, fsum, List.foldl]
  exact nonfin_add (nonfin_add (nonfin_add (add_nonfin (mul_nonfin (cosh_nonfin (mul_nonfin hy _)) _) _) _) _) _

/-- **C36**, where it stops holding: on an easting or northing that is NaN or infinite, `unproj` never returns,
whatever the projection. -/
theorem C36_nonfinite_diverges (p : TransverseMercator XR) (E N : XR) (h : Length XR)
    (hEN : ¬ IsFin E ∨ ¬ IsFin N) :
    (Projection.transverseMercator p).unproj ⟨⟨E⟩, ⟨N⟩, h⟩ = .error .diverge := by
  have key : ∀ x y : XR, (¬ IsFin x ∨ ¬ IsFin y) → Flt.sin (x -
      TransverseMercator.sumSinCosh p.hp0 p.hp1 p.hp2 p.hp3 x y) = nan := by
    intro x y hxy
    apply sin_nonfin
    rcases hxy with h | h
    · exact nonfin_sub h _
    · exact sub_nonfin (sumSinCosh_nonfin _ _ _ _ _ h) _
  have hx : ¬ IsFin N → ¬ IsFin ((Length.mk N - p.false_northing + p.k0 * p.M0) / (p.B * p.k0) : XR) := fun h =>
    nonfin_div (nonfin_add (nonfin_sub h _) _) _
  have hy : ¬ IsFin E → ¬ IsFin ((Length.mk E - p.false_easting) / (p.B * p.k0) : XR) := fun h =>
    nonfin_div (nonfin_sub h _) _
  have hs := key ((Length.mk N - p.false_northing + p.k0 * p.M0) / (p.B * p.k0) : XR)
    ((Length.mk E - p.false_easting) / (p.B * p.k0) : XR) (hEN.symm.imp hx hy)
  simp only [Projection.unproj, TransverseMercator.unproj, hs, nan_div]
  rw [show Flt.asinh (Flt.tan (Flt.asin (nan : XR))) = nan from rfl, solveQ_nan]
  rfl

/-! ### C38: the round trip on a sphere -/

theorem sphere_coeffs : tmh0 0 = 0 ∧ tmh1 0 = 0 ∧ tmh2 0 = 0 ∧ tmh3 0 = 0 ∧ tmp0 0 = 0 ∧ tmp1 0 = 0 ∧ tmp2 0 = 0 ∧
    tmp3 0 = 0 := by
  simp [tmh0, tmh1, tmh2, tmh3, tmp0, tmp1, tmp2, tmp3]

theorem sSC_zero_coeffs (x y : ℝ) : sSC 0 0 0 0 x y = 0 := by simp [sSC]
theorem sCS_zero_coeffs (x y : ℝ) : sCS 0 0 0 0 x y = 0 := by simp [sCS]

theorem tmSpec_sphere {r : ℝ} (hr : 0 < r) (s : String) (l0 : ℝ) {φ0 : ℝ} (h1 : -(Real.pi / 2) ≤ φ0)
    (h2 : φ0 ≤ Real.pi / 2) (k0 fe fn : ℝ) :
    tmSpec s r r l0 φ0 k0 fe fn = .transverseMercator (tmR 0 l0 k0 fe fn r 0 0 0 0 0 0 0 0 (r * φ0)) := by
  obtain ⟨c1, c2, c3, c4, c5, c6, c7, c8⟩ := sphere_coeffs
  rw [tmSpec_eq hr le_rfl s l0 h1 h2, ecc2_self, Real.sqrt_zero, tmB_self, nR_self, c1, c2, c3, c4, c5, c6, c7, c8,
    tmM0_self r h1 h2]

theorem tmSpec_sphere_proj {r : ℝ} (hr : 0 < r) (s : String) (l0 : ℝ) {φ0 : ℝ} (h1 : -(Real.pi / 2) ≤ φ0)
    (h2 : φ0 ≤ Real.pi / 2) (k0 fe fn : ℝ) (l φ h : ℝ) (g1 : -(Real.pi / 2) ≤ φ) (g2 : φ ≤ Real.pi / 2)
    (hd : |Real.cos φ * Real.sin (l - l0)| < 1) :
    (tmSpec s r r l0 φ0 k0 fe fn).proj (llh l φ h) =
      .ok (enh (fe + k0 * r * Real.artanh (Real.cos φ * Real.sin (l - l0)))
        (fn + k0 * (r * Real.arcsin (Real.sin φ * Real.cosh (Real.artanh (Real.cos φ * Real.sin (l - l0)))) - r * φ0))
        h) := by
  have hc := confR_sphere g1 g2
  rw [tmSpec_sphere hr s l0 h1 h2, Projection.proj,
    tmR_proj _ _ _ _ _ _ _ _ _ _ _ _ _ _ _ le_rfl one_pos l φ h g1 g2 (by rw [hc]; exact hd)]
  simp only [hc, sSC_zero_coeffs, sCS_zero_coeffs, add_zero]

theorem tmSpec_sphere_unproj {r : ℝ} (hr : 0 < r) (s : String) (l0 : ℝ) {φ0 : ℝ} (h1 : -(Real.pi / 2) ≤ φ0)
    (h2 : φ0 ≤ Real.pi / 2) {k0 : ℝ} (hk : k0 ≠ 0) (fe fn : ℝ) (ξ η h : ℝ) (hd : |Real.sin ξ| < Real.cosh η) :
    (tmSpec s r r l0 φ0 k0 fe fn).unproj (enh (fe + k0 * r * η) (fn + k0 * (r * ξ - r * φ0)) h) =
      .ok (llh (remR (l0 + Real.arcsin (Real.tanh η / Real.cos (Real.arcsin (Real.sin ξ / Real.cosh η)))))
        (Real.arcsin (Real.sin ξ / Real.cosh η)) h) := by
  have hkr : k0 * r ≠ 0 := mul_ne_zero hk hr.ne'
  have e1 : (fn + k0 * (r * ξ - r * φ0) - fn + k0 * (r * φ0)) / (k0 * r) = ξ := by
    rw [div_eq_iff hkr]; ring
  have e2 : (fe + k0 * r * η - fe) / (k0 * r) = η := by
    rw [div_eq_iff hkr]; ring
  obtain ⟨u, hu, hub⟩ := tmR_unproj 0 l0 k0 fe fn r 0 0 0 0 0 0 0 0 (r * φ0) le_rfl one_pos hkr
    (fe + k0 * r * η) (fn + k0 * (r * ξ - r * φ0)) h ξ η (by rw [e1, sSC_zero_coeffs, sub_zero])
    (by rw [e2, sCS_zero_coeffs, sub_zero]) hd
  rw [tmSpec_sphere hr s l0 h1 h2, Projection.unproj, hu]
  have hu' : u = Real.arsinh (Real.tan (Real.arcsin (Real.sin ξ / Real.cosh η))) := by
    have : |u - iterR 0 (Real.arsinh (Real.tan (Real.arcsin (Real.sin ξ / Real.cosh η)))) u| ≤ 0 := by
      simpa using hub
    have := abs_nonpos_iff.1 this
    simp only [iterR, zero_mul, add_zero] at this
    linarith
  have hc := Real.cosh_pos η
  have hlt : |Real.sin ξ / Real.cosh η| < 1 := by rw [abs_div, abs_of_pos hc, div_lt_one hc]; exact hd
  obtain ⟨b1, b2⟩ := abs_lt.1 hlt
  have hr1 : -(Real.pi / 2) < Real.arcsin (Real.sin ξ / Real.cosh η) := Real.neg_pi_div_two_lt_arcsin.2 b1
  have hr2 : Real.arcsin (Real.sin ξ / Real.cosh η) < Real.pi / 2 := Real.arcsin_lt_pi_div_two.2 b2
  rw [hu', arctan_sinh_iso hr1 hr2]

/-- Going through the sphere: the forward coordinates determine the latitude and the sine of the longitude
difference. -/
theorem sphere_inverse {φ Δ : ℝ} (g1 : -(Real.pi / 2) < φ) (g2 : φ < Real.pi / 2)
    (hd : |Real.cos φ * Real.sin Δ| < 1) :
    let η := Real.artanh (Real.cos φ * Real.sin Δ)
    let ξ := Real.arcsin (Real.sin φ * Real.cosh η)
    |Real.sin ξ| < Real.cosh η ∧ Real.arcsin (Real.sin ξ / Real.cosh η) = φ ∧
      Real.tanh η / Real.cos φ = Real.sin Δ := by
  intro η ξ
  obtain ⟨a1, a2⟩ := abs_lt.1 hd
  obtain ⟨b1, b2⟩ := sin_cosh_le hd
  have hc := Real.cosh_pos η
  have hcφ := cos_pos_of_lat g1 g2
  have hξ : Real.sin ξ = Real.sin φ * Real.cosh η := Real.sin_arcsin b1 b2
  have hη : Real.tanh η = Real.cos φ * Real.sin Δ := Real.tanh_artanh ⟨a1, a2⟩
  refine ⟨?_, ?_, ?_⟩
  · rw [hξ, abs_mul, abs_of_pos hc]
    have : |Real.sin φ| < 1 := by
      rw [← sq_lt_one_iff_abs_lt_one]
      have := Real.sin_sq_add_cos_sq φ
      have : 0 < Real.cos φ ^ 2 := by positivity
      linarith
    nlinarith
  · rw [hξ, mul_div_cancel_right₀ _ hc.ne', Real.arcsin_sin g1.le g2.le]
  · rw [hη, mul_div_cancel_left₀ _ hcφ.ne']

theorem sphere_domain {φ Δ : ℝ} (g1 : -(Real.pi / 2) < φ) (g2 : φ < Real.pi / 2) (hd : ¬ (φ = 0 ∧ Real.cos Δ = 0)) :
    |Real.cos φ * Real.sin Δ| < 1 := by
  have := tm_domain (e := 0) le_rfl one_pos g1.le g2.le hd
  rwa [confR_sphere g1.le g2.le] at this

/-- **C38**: on a sphere `unproj` undoes `proj`, for positions other than the poles at most 90° from the central
meridian (and not on the equator at exactly 90°). The longitude is the same up to whole turns, exactly the same inside
±180°. -/
theorem C38_round_trip {r : ℝ} (hr : 0 < r) (s : String) (l0 : ℝ) {φ0 : ℝ}
    (h1 : -(Real.pi / 2) ≤ φ0) (h2 : φ0 ≤ Real.pi / 2) {k0 : ℝ} (hk : k0 ≠ 0) (fe fn : ℝ) (l δ φ h : ℝ)
    (hδ : SameDirection δ (l - l0)) (hδ' : |δ| ≤ Real.pi / 2)
    (g1 : -(Real.pi / 2) < φ) (g2 : φ < Real.pi / 2) (hd : ¬ (φ = 0 ∧ Real.cos (l - l0) = 0)) :
    ∃ E N l', (tmSpec s r r l0 φ0 k0 fe fn).proj (llh l φ h) = .ok (enh E N h) ∧
      (tmSpec s r r l0 φ0 k0 fe fn).unproj (enh E N h) = .ok (llh l' φ h) ∧
      -Real.pi ≤ l' ∧ l' ≤ Real.pi ∧ SameDirection l' l ∧ (-Real.pi < l → l < Real.pi → l' = l) := by
  have hd' := sphere_domain g1 g2 hd
  obtain ⟨i1, i2, i3⟩ := sphere_inverse g1 g2 hd'
  obtain ⟨d1, d2⟩ := abs_le.1 hδ'
  have hback : SameDirection (remR (l0 + δ)) l := (remR_same _).trans (by
    have := (SameDirection.refl l0).add hδ
    rwa [add_sub_cancel] at this)
  refine ⟨_, _, remR (l0 + δ), tmSpec_sphere_proj hr s l0 h1 h2 k0 fe fn l φ h g1.le g2.le hd', ?_, le_remR _, remR_le _,
    hback, fun a1 a2 => same_open (le_remR _) (remR_le _) a1 a2 hback⟩
  rw [tmSpec_sphere_unproj hr s l0 h1 h2 hk fe fn _ _ h i1, i2, i3, ← hδ.sin, Real.arcsin_sin d1 d2]

/-- **C38**, beyond 90° from the central meridian: no error; the position comes back mirrored about the meridian 90°
from the central one. -/
theorem C38_beyond_mirrored {r : ℝ} (hr : 0 < r) (s : String) (l0 : ℝ) {φ0 : ℝ}
    (h1 : -(Real.pi / 2) ≤ φ0) (h2 : φ0 ≤ Real.pi / 2) {k0 : ℝ} (hk : k0 ≠ 0) (fe fn : ℝ) (l δ φ h : ℝ)
    (hδ : SameDirection δ (l - l0)) (hδ1 : Real.pi / 2 < δ) (hδ2 : δ ≤ Real.pi)
    (g1 : -(Real.pi / 2) < φ) (g2 : φ < Real.pi / 2) :
    ∃ E N l', (tmSpec s r r l0 φ0 k0 fe fn).proj (llh l φ h) = .ok (enh E N h) ∧
      (tmSpec s r r l0 φ0 k0 fe fn).unproj (enh E N h) = .ok (llh l' φ h) ∧
      SameDirection (l' - l0) (Real.pi - δ) ∧ ¬ SameDirection l' l := by
  have hp := Real.pi_pos
  have hcos : Real.cos (l - l0) < 0 := by
    rw [← hδ.cos]; exact Real.cos_neg_of_pi_div_two_lt_of_lt hδ1 (by linarith)
  have hd' := sphere_domain g1 g2 (fun h : φ = 0 ∧ Real.cos (l - l0) = 0 => hcos.ne h.2)
  obtain ⟨i1, i2, i3⟩ := sphere_inverse g1 g2 hd'
  have hdir : SameDirection (remR (l0 + (Real.pi - δ)) - l0) (Real.pi - δ) := by
    have := (remR_same (l0 + (Real.pi - δ))).sub (SameDirection.refl l0)
    rwa [add_sub_cancel_left] at this
  refine ⟨_, _, remR (l0 + (Real.pi - δ)),
    tmSpec_sphere_proj hr s l0 h1 h2 k0 fe fn l φ h g1.le g2.le hd', ?_, hdir, ?_⟩
  · rw [tmSpec_sphere_unproj hr s l0 h1 h2 hk fe fn _ _ h i1, i2, i3, ← hδ.sin, ← Real.sin_pi_sub,
      Real.arcsin_sin (by linarith) (by linarith)]
  · intro hsame
    have h3 := (hsame.sub (SameDirection.refl l0)).cos
    rw [hdir.cos] at h3
    have : 0 ≤ Real.cos (Real.pi - δ) := Real.cos_nonneg_of_mem_Icc ⟨by linarith, by linarith⟩
    linarith

/-- **C38**, the opposite round trip: on a sphere `proj` undoes `unproj` for every easting, and northings up to a
quarter of a (scaled) meridian from the equator, off the poles. -/
theorem C38_unproj_proj {r : ℝ} (hr : 0 < r) (s : String) (l0 : ℝ) {φ0 : ℝ}
    (h1 : -(Real.pi / 2) ≤ φ0) (h2 : φ0 ≤ Real.pi / 2) {k0 : ℝ} (hk : 0 < k0) (fe fn E N h : ℝ)
    (hN : |(N - fn) / (k0 * r) + φ0| ≤ Real.pi / 2) (hpole : ¬ (E = fe ∧ |(N - fn) / (k0 * r) + φ0| = Real.pi / 2)) :
    ∃ l φ, (tmSpec s r r l0 φ0 k0 fe fn).unproj (enh E N h) = .ok (llh l φ h) ∧
      -(Real.pi / 2) < φ ∧ φ < Real.pi / 2 ∧
      (tmSpec s r r l0 φ0 k0 fe fn).proj (llh l φ h) = .ok (enh E N h) := by
  have hkr : 0 < k0 * r := mul_pos hk hr
  set ξ := (N - fn) / (k0 * r) + φ0 with hξ
  set η := (E - fe) / (k0 * r) with hη
  have hE : E = fe + k0 * r * η := by rw [hη]; field_simp; ring
  have hN' : N = fn + k0 * (r * ξ - r * φ0) := by rw [hξ]; field_simp; ring
  obtain ⟨x1, x2⟩ := abs_le.1 hN
  have hd : |Real.sin ξ| < Real.cosh η := by
    apply sin_lt_cosh
    rintro ⟨q1, q2⟩
    apply hpole
    constructor
    · rw [hE, q2, mul_zero, add_zero]
    · refine le_antisymm hN ?_
      by_contra hlt
      push Not at hlt
      obtain ⟨y1, y2⟩ := abs_lt.1 hlt
      have hc := cos_pos_of_lat y1 y2
      have := Real.sin_sq_add_cos_sq ξ
      rw [← sq_abs (Real.sin ξ), q1] at this
      nlinarith
  have hc := Real.cosh_pos η
  have hlt : |Real.sin ξ / Real.cosh η| < 1 := by rw [abs_div, abs_of_pos hc, div_lt_one hc]; exact hd
  obtain ⟨b1, b2⟩ := abs_lt.1 hlt
  set φ := Real.arcsin (Real.sin ξ / Real.cosh η) with hφ
  have hr1 : -(Real.pi / 2) < φ := Real.neg_pi_div_two_lt_arcsin.2 b1
  have hr2 : φ < Real.pi / 2 := Real.arcsin_lt_pi_div_two.2 b2
  have hcφ := cos_pos_of_lat hr1 hr2
  have hsφ : Real.sin φ = Real.sin ξ / Real.cosh η := Real.sin_arcsin b1.le b2.le
  have hasin : |Real.tanh η / Real.cos φ| ≤ 1 := by
    rw [abs_div, abs_of_pos hcφ, div_le_one hcφ]
    apply abs_le_of_sq_le_sq _ hcφ.le
    rw [Real.cos_sq', hsφ, Real.tanh_eq_sinh_div_cosh, div_pow, div_pow, Real.cosh_sq η]
    have : 0 < Real.sinh η ^ 2 + 1 := by positivity
    rw [le_sub_iff_add_le, ← add_div, div_le_one this]
    linarith [Real.sin_sq_le_one ξ]
  obtain ⟨a1, a2⟩ := abs_le.1 hasin
  have hun := tmSpec_sphere_unproj hr s l0 h1 h2 hk.ne' fe fn ξ η h hd
  rw [← hE, ← hN', ← hφ] at hun
  refine ⟨_, _, hun, hr1, hr2, ?_⟩
  have hs : Real.sin (remR (l0 + Real.arcsin (Real.tanh η / Real.cos φ)) - l0) = Real.tanh η / Real.cos φ := by
    have := ((remR_same (l0 + Real.arcsin (Real.tanh η / Real.cos φ))).sub (SameDirection.refl l0)).sin
    rw [this, add_sub_cancel_left, Real.sin_arcsin a1 a2]
  have hprod : Real.cos φ * Real.sin (remR (l0 + Real.arcsin (Real.tanh η / Real.cos φ)) - l0) = Real.tanh η := by
    rw [hs, mul_div_cancel₀ _ hcφ.ne']
  rw [tmSpec_sphere_proj hr s l0 h1 h2 k0 fe fn _ φ h hr1.le hr2.le (by rw [hprod]; exact abs_tanh_lt η), hprod,
    Real.artanh_tanh, hsφ, div_mul_cancel₀ _ hc.ne', Real.arcsin_sin x1 x2, ← hE, ← hN']

/-- A position 60° from the central meridian, away from the equator. -/
example : ∃ E N l', (tmSpec "unit" 1 1 3 0.5 0.9996 500000 0).proj (llh (-2.4) 0.7 12) = .ok (enh E N 12) ∧
    (tmSpec "unit" 1 1 3 0.5 0.9996 500000 0).unproj (enh E N 12) = .ok (llh l' 0.7 12) ∧
    -Real.pi ≤ l' ∧ l' ≤ Real.pi ∧ SameDirection l' (-2.4) ∧ (-Real.pi < -2.4 → -2.4 < Real.pi → l' = -2.4) := by
  have h3 := Real.pi_gt_three
  have h4 := Real.pi_lt_d2
  refine C38_round_trip one_pos _ _ (by linarith) (by linarith) (by norm_num) _ _ _ (-2.4 - 3 + 2 * Real.pi) _ _
    ⟨1, by push_cast; ring⟩ ?_ (by linarith) (by linarith) (by norm_num)
  rw [abs_le]; constructor <;> linarith

/-! ### C39, C40: UTM -/

/-- The standard central meridian of zone `z`, in radians. -/
noncomputable def utmCentral (z : ℕ) : ℝ := (6 * z - 183) * (Real.pi / 180)

theorem utmLon0_eq (z : ℕ) : (TransverseMercator.utmLon0 z : Lon XR) = lonR (remR ((6 * z - 180) * (Real.pi / 180))) := by
  simp only [TransverseMercator.utmLon0, TransverseMercator.UTM_ZONE_1_WEST_LIMIT_DEG,
    TransverseMercator.UTM_ZONE_WIDTH_DEG, lit_eq, ofNat_eq, neg_fin, mul_fin, add_fin, div_fin _ two_ne_zero, sub_fin,
    angle_new_deg, lon_new_fin]
  congr 3
  push_cast
  ring_nf

/-- The UTM projections a user obtains from their specifications. -/
noncomputable def utmN (s : String) (a b : ℝ) (z : ℕ) : Projection XR :=
  (ProjectionSpec.utmNorth z).appliedTo (ell s a b)
noncomputable def utmS (s : String) (a b : ℝ) (z : ℕ) : Projection XR :=
  (ProjectionSpec.utmSouth z).appliedTo (ell s a b)

theorem utm_consts : (TransverseMercator.UTM_K0 : XR) = fin 0.9996 ∧
    (TransverseMercator.UTM_FE : Length XR) = ⟨fin 500000⟩ ∧ (TransverseMercator.UTM_FN_NORTH : Length XR) = ⟨fin 0⟩ ∧
    (TransverseMercator.UTM_FN_SOUTH : Length XR) = ⟨fin 10000000⟩ ∧ (TransverseMercator.UTM_LAT0 : Lat XR) = latR 0 := by
  refine ⟨?_, ?_, ?_, ?_, ?_⟩
  · simp [TransverseMercator.UTM_K0]
  · simp [TransverseMercator.UTM_FE, length_new_m]
  · simp [TransverseMercator.UTM_FN_NORTH, Length.ZERO]
  · simp [TransverseMercator.UTM_FN_SOUTH, length_new_m]
  · simp [TransverseMercator.UTM_LAT0, Lat.ZERO, Angle.ZERO, latR]

theorem utmN_eq (s : String) (a b : ℝ) (z : ℕ) :
    utmN s a b z = tmSpec s a b (remR ((6 * z - 180) * (Real.pi / 180))) 0 0.9996 500000 0 := by
  obtain ⟨c1, c2, c3, c4, c5⟩ := utm_consts
  rw [utmN, tmSpec, ProjectionSpec.appliedTo, ProjectionSpec.appliedTo, TransverseMercator.newUtmNorth, utmLon0_eq, c1, c2,
    c3, c5]

theorem utmS_eq (s : String) (a b : ℝ) (z : ℕ) :
    utmS s a b z = tmSpec s a b (remR ((6 * z - 180) * (Real.pi / 180))) 0 0.9996 500000 10000000 := by
  obtain ⟨c1, c2, c3, c4, c5⟩ := utm_consts
  rw [utmS, tmSpec, ProjectionSpec.appliedTo, ProjectionSpec.appliedTo, TransverseMercator.newUtmSouth, utmLon0_eq, c1, c2,
    c4, c5]

/-- The code's central meridian is 3° east of the standard one. -/
theorem utm_shift (z : ℕ) : SameDirection (remR ((6 * z - 180) * (Real.pi / 180)) - utmCentral z) (Real.pi / 60) := by
  have := (remR_same ((6 * z - 180) * (Real.pi / 180))).sub (SameDirection.refl (utmCentral z))
  rwa [show (6 * z - 180) * (Real.pi / 180) - utmCentral z = Real.pi / 60 by unfold utmCentral; ring] at this

/-- **C39 is violated**: in every zone the standard central meridian is not the central meridian of the code. On a
sphere, the point of the equator on the standard central meridian gets an easting other than 500 000. -/
theorem C39_violated (z : ℕ) :
    (∀ l, (TransverseMercator.utmLon0 z : Lon XR) = lonR l → ¬ SameDirection l (utmCentral z)) ∧
    ∀ (s : String) (r : ℝ), 0 < r → ∃ E N, (utmN s r r z).proj (llh (utmCentral z) 0 0) = .ok (enh E N 0) ∧
      E < 500000 := by
  have hp := Real.pi_pos
  have hs3 : 0 < Real.sin (Real.pi / 60) := Real.sin_pos_of_pos_of_lt_pi (by linarith) (by linarith)
  have hs3' : Real.sin (Real.pi / 60) < 1 := by
    refine lt_of_le_of_ne (Real.sin_le_one _) fun h => ?_
    have hc : 0 < Real.cos (Real.pi / 60) := Real.cos_pos_of_mem_Ioo ⟨by linarith, by linarith⟩
    have := Real.sin_sq_add_cos_sq (Real.pi / 60)
    rw [h] at this
    nlinarith
  have hsin : Real.sin (utmCentral z - remR ((6 * z - 180) * (Real.pi / 180))) = -Real.sin (Real.pi / 60) := by
    rw [← neg_sub, Real.sin_neg, (utm_shift z).sin]
  constructor
  · intro l hl hsame
    rw [utmLon0_eq] at hl
    have hl' : remR ((6 * z - 180) * (Real.pi / 180)) = l := by
      simpa [lonR] using hl
    have h3 := (hsame.sub (SameDirection.refl (utmCentral z))).sin
    rw [← hl', (utm_shift z).sin, sub_self, Real.sin_zero] at h3
    exact hs3.ne' h3
  · intro s r hr
    have hd : |Real.cos 0 * Real.sin (utmCentral z - remR ((6 * z - 180) * (Real.pi / 180)))| < 1 := by
      rw [hsin, Real.cos_zero, one_mul, abs_neg, abs_of_pos hs3]; exact hs3'
    rw [utmN_eq, tmSpec_sphere_proj hr s _ (by linarith) (by linarith) _ _ _ _ 0 0 (by linarith) (by linarith) hd]
    refine ⟨_, _, rfl, ?_⟩
    rw [hsin, Real.cos_zero, one_mul, artanh_neg' (by linarith) hs3']
    have : 0 < Real.artanh (Real.sin (Real.pi / 60)) := Real.artanh_pos ⟨hs3, hs3'⟩
    have : 0 < 0.9996 * r * Real.artanh (Real.sin (Real.pi / 60)) := by positivity
    linarith

/-- **C39**, the part that holds: 3° are added in every zone alike. Zone `z` maps the meridian 6z-180° on the easting
500 000 for every ellipsoid; consecutive zones are 6° apart and zone `z + 60` is zone `z`. Missing: the meridian should
be 6z-183°. -/
theorem C39_zones_partial (z : ℕ) :
    (∃ l l' l'', (TransverseMercator.utmLon0 z : Lon XR) = lonR l ∧ (TransverseMercator.utmLon0 (z + 1) : Lon XR) = lonR l' ∧
      (TransverseMercator.utmLon0 (z + 60) : Lon XR) = lonR l'' ∧
      SameDirection (l' - l) (Real.pi / 30) ∧ SameDirection l'' l) ∧
    ∀ (s : String) (a b : ℝ), 0 < b → b ≤ a → ∀ l φ h, SameDirection l (utmCentral z + Real.pi / 60) →
      -(Real.pi / 2) ≤ φ → φ ≤ Real.pi / 2 → ∃ N, (utmN s a b z).proj (llh l φ h) = .ok (enh 500000 N h) := by
  have hp := Real.pi_pos
  refine ⟨⟨_, _, _, utmLon0_eq z, utmLon0_eq (z + 1), utmLon0_eq (z + 60), ?_, ?_⟩, ?_⟩
  · have := (remR_same ((6 * ((z + 1 : ℕ) : ℝ) - 180) * (Real.pi / 180))).sub
      (remR_same ((6 * z - 180) * (Real.pi / 180)))
    rwa [show (6 * ((z + 1 : ℕ) : ℝ) - 180) * (Real.pi / 180) - (6 * z - 180) * (Real.pi / 180) = Real.pi / 30 by
      push_cast; ring] at this
  · refine (remR_same _).trans (SameDirection.trans ?_ (remR_same ((6 * z - 180) * (Real.pi / 180))).symm)
    rw [show (6 * ((z + 60 : ℕ) : ℝ) - 180) * (Real.pi / 180) = (6 * z - 180) * (Real.pi / 180) + 2 * Real.pi by
      push_cast; ring]
    first
      | exact ⟨1, by push_cast; ring⟩
      | exact ⟨-1, by push_cast; ring⟩
  · intro s a b hb hab l φ h hl g1 g2
    rw [utmN_eq]
    refine C37_central_meridian hb hab s _ (by linarith) (by linarith) _ _ _ (hl.trans ?_) g1 g2
    rw [show utmCentral z + Real.pi / 60 = (6 * z - 180) * (Real.pi / 180) by unfold utmCentral; ring]
    exact (remR_same _).symm

/-- Zone 31, whose central meridian is 3° east: the code has 6° east. -/
example : utmCentral 31 = Real.pi / 60 := by unfold utmCentral; push_cast; ring

theorem utmZone_eq (l : ℝ) : TransverseMercator.utmZone (lonR l) =
    fin ((⌊(l / (Real.pi / 180) + 177) / 6⌋ - 60 * ⌊(⌊(l / (Real.pi / 180) + 177) / 6⌋ : ℝ) / 60⌋ : ℤ) : ℝ) := by
  have hd : (Angle.val (lonR l).angle DEG : XR) = fin (l / (Real.pi / 180)) := by
    simp [Angle.val, lonR, DEG]
    rw [div_fin _ Real.pi_ne_zero]; congr 1; field_simp
  have hc : (TransverseMercator.UTM_ZONE_COUNT : XR) = fin 60 := by
    simp [TransverseMercator.UTM_ZONE_COUNT, TransverseMercator.UTM_ZONE_WIDTH_DEG, div_fin_ite]; norm_num
  simp only [TransverseMercator.utmZone, hd, hc, TransverseMercator.UTM_ZONE_1_WEST_LIMIT_DEG,
    TransverseMercator.UTM_ZONE_WIDTH_DEG, ofNat_eq, neg_fin, sub_fin]
  rw [div_fin _ (by norm_num)]
  rw [floor_fin, div_fin _ (by norm_num), floor_fin, mul_fin, sub_fin]
  congr 1
  push_cast
  rw [mul_comm]
  norm_num

/-- **C39 is violated** by `utm_zone` too: for every longitude it returns a whole number `z` from 0 to 59 for which the
longitude lies 3 to 9 degrees east of the meridian `utm_lon0 z` of the code; it never is the standard number of the
zone, the one in 1..60 with the longitude at most 3 degrees from 6z - 183 degrees. -/
theorem C39_utm_zone_violated (l : ℝ) : ∃ z : ℕ, TransverseMercator.utmZone (lonR l) = fin (z : ℝ) ∧ z < 60 ∧
    (∃ d l0, 3 ≤ d ∧ d < 9 ∧ (TransverseMercator.utmLon0 z : Lon XR) = lonR l0 ∧
      SameDirection l (l0 + d * (Real.pi / 180))) ∧
    ∀ d, -3 ≤ d → d ≤ 3 → ¬ SameDirection l (utmCentral z + d * (Real.pi / 180)) := by
  set x := l / (Real.pi / 180) with hx
  have hp := Real.pi_pos
  have hlx : l = x * (Real.pi / 180) := by rw [hx]; field_simp
  set m := ⌊(x + 177) / 6⌋ with hm
  set q := ⌊(m : ℝ) / 60⌋ with hq
  have hm1 := Int.floor_le ((x + 177) / 6)
  have hm2 := Int.lt_floor_add_one ((x + 177) / 6)
  have hq1 := Int.floor_le ((m : ℝ) / 60)
  have hq2 := Int.lt_floor_add_one ((m : ℝ) / 60)
  rw [← hm] at hm1 hm2
  rw [← hq] at hq1 hq2
  have z0 : 0 ≤ m - 60 * q := by
    have : ((60 * q : ℤ) : ℝ) ≤ m := by push_cast; linarith
    have := Int.cast_le.1 this
    linarith
  have z1 : m - 60 * q < 60 := by
    have : (m : ℝ) < ((60 * q + 60 : ℤ) : ℝ) := by push_cast; linarith
    have := Int.cast_lt.1 this
    linarith
  obtain ⟨z, hz⟩ := Int.eq_ofNat_of_zero_le z0
  have hzr : (m : ℝ) = z + 60 * q := by
    have : ((m - 60 * q : ℤ) : ℝ) = z := by rw [hz]; simp
    push_cast at this
    linarith
  refine ⟨z, ?_, by omega, ⟨x + 180 - 6 * m, _, by linarith, by linarith, utmLon0_eq z, ?_⟩, ?_⟩
  · rw [utmZone_eq, ← hx, ← hm, ← hq, hz]; simp
  · have h1 := (remR_same ((6 * z - 180) * (Real.pi / 180))).symm.add
      (SameDirection.refl ((x + 180 - 6 * m) * (Real.pi / 180)))
    refine SameDirection.trans ⟨q, ?_⟩ h1
    rw [hzr, hlx]; ring
  · rintro d d1 d2 ⟨k, hk⟩
    have e1 : x = 6 * z - 183 + d + 360 * k := by
      have : x * (Real.pi / 180) = (6 * z - 183 + d + 360 * k) * (Real.pi / 180) := by
        rw [← hlx, hk, utmCentral]; ring
      exact mul_right_cancel₀ (by positivity) this
    have f1 : (0 : ℝ) < ((k - q : ℤ) : ℝ) := by push_cast; linarith
    have f2 : ((k - q : ℤ) : ℝ) < 1 := by push_cast; linarith
    have f1' : (0 : ℤ) < k - q := by exact_mod_cast f1
    have f2' : k - q < (1 : ℤ) := by exact_mod_cast f2
    omega

/-- Greenwich is in zone 31; `utm_zone` returns 29. -/
example : TransverseMercator.utmZone (lonR 0) = fin 29 := by
  rw [utmZone_eq]
  norm_num
theorem tmSpec_fn {a b : ℝ} (hb : 0 < b) (hab : b ≤ a) (s : String) (l0 : ℝ) {φ0 : ℝ} (h1 : -(Real.pi / 2) ≤ φ0)
    (h2 : φ0 ≤ Real.pi / 2) (k0 fe fn fn' : ℝ) (x : LLH XR) :
    ∃ E N : XR, (tmSpec s a b l0 φ0 k0 fe fn).proj x = .ok ⟨⟨E⟩, ⟨fin fn + N⟩, x.height⟩ ∧
      (tmSpec s a b l0 φ0 k0 fe fn').proj x = .ok ⟨⟨E⟩, ⟨fin fn' + N⟩, x.height⟩ := by
  rw [tmSpec_eq hb hab s l0 h1 h2, tmSpec_eq hb hab s l0 h1 h2]
  exact ⟨_, _, rfl, rfl⟩

/-- **C40**: for the same zone and ellipsoid the southern projection yields the easting and height of the northern one,
and its northing plus 10 000 km; for every input whatsoever. -/
theorem C40_proj {a b : ℝ} (hb : 0 < b) (hab : b ≤ a) (s : String) (z : ℕ) (x : LLH XR) :
    ∃ E N : XR, (utmN s a b z).proj x = .ok ⟨⟨E⟩, ⟨N⟩, x.height⟩ ∧
      (utmS s a b z).proj x = .ok ⟨⟨E⟩, ⟨N + fin 10000000⟩, x.height⟩ := by
  have hp := Real.pi_pos
  rw [utmN_eq, utmS_eq]
  obtain ⟨E, N, e1, e2⟩ := tmSpec_fn hb hab s (remR ((6 * z - 180) * (Real.pi / 180))) (φ0 := 0) (by linarith) (by linarith)
    0.9996 500000 0 10000000 x
  refine ⟨E, fin 0 + N, e1, ?_⟩
  rw [e2]
  cases N <;> first | rfl | (simp only [add_fin]; congr 4; ring)

/-- **C40**: `unproj` undoes the same offset. -/
theorem C40_unproj {a b : ℝ} (hb : 0 < b) (hab : b ≤ a) (s : String) (z : ℕ) (E N : XR) (h : Length XR) :
    (utmS s a b z).unproj ⟨⟨E⟩, ⟨N + fin 10000000⟩, h⟩ = (utmN s a b z).unproj ⟨⟨E⟩, ⟨N⟩, h⟩ := by
  have hp := Real.pi_pos
  rw [utmN_eq, utmS_eq, tmSpec_eq hb hab s _ (by linarith) (by linarith), tmSpec_eq hb hab s _ (by linarith) (by linarith)]
  have : (N + fin 10000000 - fin 10000000 : XR) = N - fin 0 := by
    cases N <;> first | rfl | (simp only [add_fin, sub_fin]; congr 1; ring)
  simp only [Projection.unproj, TransverseMercator.unproj, tmR, Length.mk_sub, this]

end Geo
