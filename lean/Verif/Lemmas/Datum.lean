import Verif.Lemmas.Vermeille
import Verif.Spec.Ellipsoid
import Verif.Props.AnglesExact

/-! Evaluation of the geodetic/geocentric conversions in exact arithmetic. -/

namespace Geo
open XR GeodeticDatum Spec
open Classical

theorem half_arg {X Y H : ℝ} (hH : 0 < H) (h2 : X ^ 2 + Y ^ 2 = H ^ 2) (hX : -H < X) :
    -Real.pi < 2 * Complex.arg ⟨X + H, Y⟩ ∧ 2 * Complex.arg ⟨X + H, Y⟩ < Real.pi ∧
    Real.cos (2 * Complex.arg ⟨X + H, Y⟩) = X / H ∧ Real.sin (2 * Complex.arg ⟨X + H, Y⟩) = Y / H := by
  set ζ : ℂ := ⟨X + H, Y⟩ with hζ
  have hre : 0 < ζ.re := by show 0 < X + H; linarith
  have hne : ζ ≠ 0 := fun h => by rw [h] at hre; simp at hre
  have habs := (Complex.abs_arg_lt_pi_div_two_iff (z := ζ)).2 (Or.inl hre)
  have hb := abs_lt.1 habs
  have hn : ‖ζ‖ ^ 2 = 2 * H * (H + X) := by
    rw [Complex.sq_norm, Complex.normSq_apply]
    show (X + H) * (X + H) + Y * Y = _
    linear_combination h2
  have hn0 : ‖ζ‖ ≠ 0 := by simpa using hne
  have hc : Real.cos ζ.arg = (X + H) / ‖ζ‖ := Complex.cos_arg hne
  have hs : Real.sin ζ.arg = Y / ‖ζ‖ := Complex.sin_arg ζ
  have hHX : H + X ≠ 0 := by linarith
  refine ⟨by linarith [hb.1], by linarith [hb.2], ?_, ?_⟩
  · rw [Real.cos_two_mul, hc, div_pow, hn]
    field_simp; ring
  · rw [Real.sin_two_mul, hc, hs]
    have : 2 * (Y / ‖ζ‖) * ((X + H) / ‖ζ‖) = 2 * Y * (X + H) / ‖ζ‖ ^ 2 := by field_simp
    rw [this, hn]; field_simp; ring

theorem abs_le_of_cos_nonneg {θ : ℝ} (h1 : -Real.pi < θ) (h2 : θ < Real.pi) (hc : 0 ≤ Real.cos θ) :
    -(Real.pi / 2) ≤ θ ∧ θ ≤ Real.pi / 2 := by
  constructor
  · by_contra h
    push Not at h
    have := Real.cos_neg_of_pi_div_two_lt_of_lt (x := -θ) (by linarith) (by linarith [Real.pi_pos])
    rw [Real.cos_neg] at this; linarith
  · by_contra h
    push Not at h
    have := Real.cos_neg_of_pi_div_two_lt_of_lt (x := θ) (by linarith) (by linarith [Real.pi_pos])
    linarith

/-- The longitude of the ellipsoidal branch is the polar angle of `(x, y)`. -/
theorem vermeilleLon_fin (x y : ℝ) : ∃ l, vermeilleLon (fin x) (fin y) (fin (Real.sqrt (x ^ 2 + y ^ 2))) = fin l ∧
    Real.sqrt (x ^ 2 + y ^ 2) * Real.cos l = x ∧ Real.sqrt (x ^ 2 + y ^ 2) * Real.sin l = y := by
  set R := Real.sqrt (x ^ 2 + y ^ 2) with hR
  have hR2 : R ^ 2 = x ^ 2 + y ^ 2 := Real.sq_sqrt (by positivity)
  simp only [vermeilleLon, zero_eq, eq_fin, le_fin, pi_2_eq, ofNat_eq, add_fin, sub_fin, atan2_fin, mul_fin, neg_fin]
  by_cases h0 : x = 0 ∧ y = 0
  · obtain ⟨rfl, rfl⟩ := h0
    have : R = 0 := by rw [hR]; simp
    exact ⟨0, by simp, by rw [this]; simp, by rw [this]; simp⟩
  · have hpos : 0 < x ^ 2 + y ^ 2 := by
      by_contra hc
      have hx : x ^ 2 = 0 := le_antisymm (by nlinarith [sq_nonneg y]) (sq_nonneg x)
      have hy : y ^ 2 = 0 := le_antisymm (by nlinarith [sq_nonneg x]) (sq_nonneg y)
      exact h0 ⟨by simpa using hx, by simpa using hy⟩
    have hRpos : 0 < R := Real.sqrt_pos.2 hpos
    rw [if_neg (by simpa using h0)]
    by_cases hy : 0 ≤ y
    · rw [if_pos (by simpa using hy)]
      have hh := half_arg (X := y) (Y := x) hRpos (by rw [hR2]; ring) (by linarith)
      rw [add_comm y R] at hh
      refine ⟨_, rfl, ?_, ?_⟩
      · rw [Real.cos_pi_div_two_sub, hh.2.2.2]; field_simp
      · rw [Real.sin_pi_div_two_sub, hh.2.2.1]; field_simp
    · rw [if_neg (by simpa using hy)]
      push Not at hy
      have hh := half_arg (X := -y) (Y := x) hRpos (by rw [hR2]; ring) (by linarith)
      rw [show -y + R = R - y by ring] at hh
      refine ⟨_, rfl, ?_, ?_⟩
      · rw [show ∀ t, -(Real.pi / 2) + t = t - Real.pi / 2 by intro t; ring, Real.cos_sub_pi_div_two, hh.2.2.2]
        field_simp
      · rw [show ∀ t, -(Real.pi / 2) + t = t - Real.pi / 2 by intro t; ring, Real.sin_sub_pi_div_two, hh.2.2.1]
        field_simp

/-- The parameters `p` and `q` of the method. -/
noncomputable def pOf (a x y : ℝ) : ℝ := Real.sqrt (x ^ 2 + y ^ 2) / a * (Real.sqrt (x ^ 2 + y ^ 2) / a)
noncomputable def qOf (a b z : ℝ) : ℝ := (1 - ecc2 a b) * (z / a) * (z / a)

theorem astroid {A B C : ℝ} (hA : 0 ≤ A) (hB : 0 ≤ B) (hC : 0 < C) :
    0 ≤ (A ^ 3 + B ^ 3 - C ^ 3) ^ 3 + 27 * (A ^ 3 * B ^ 3 * C ^ 3) ↔ C ≤ A + B := by
  have e1 : (A ^ 3 + B ^ 3 - C ^ 3) ^ 3 + 27 * (A ^ 3 * B ^ 3 * C ^ 3) =
      (A ^ 3 + B ^ 3 - C ^ 3) ^ 3 - (-(3 * A * B * C)) ^ 3 := by ring
  have e2 : A ^ 3 + B ^ 3 - C ^ 3 - -(3 * A * B * C) =
      (A + B - C) * (A ^ 2 + B ^ 2 + C ^ 2 - A * B + B * C + C * A) := by ring
  have hf : 0 < A ^ 2 + B ^ 2 + C ^ 2 - A * B + B * C + C * A := by
    nlinarith [sq_nonneg (A - B), mul_nonneg hB hC.le, mul_nonneg hC.le hA, sq_nonneg A, sq_nonneg B]
  rw [e1, sub_nonneg, Odd.pow_le_pow (by decide : Odd 3), ← sub_nonneg, e2]
  rw [mul_nonneg_iff_of_pos_right hf]
  constructor <;> intro h <;> linarith

theorem rpow_two_thirds_cube {x : ℝ} (hx : 0 ≤ x) : (x ^ (2 / 3 : ℝ)) ^ 3 = x ^ 2 := by
  rw [← Real.rpow_natCast, ← Real.rpow_mul hx]
  norm_num

theorem kdomain_iff {a b : ℝ} (hb : 0 < b) (hab : b < a) (x y z : ℝ) :
    KDomain (ecc2 a b) (pOf a x y) (qOf a b z) ↔ Convertible a b x y z := by
  have ha : 0 < a := hb.trans hab
  set R := Real.sqrt (x ^ 2 + y ^ 2) with hR
  have hR0 : 0 ≤ R := Real.sqrt_nonneg _
  have hc0 : 0 < a ^ 2 - b ^ 2 := by nlinarith
  have hp : a ^ 4 * pOf a x y = (a * R) ^ 2 := by unfold pOf; rw [← hR]; field_simp
  have hq : a ^ 4 * qOf a b z = (b * |z|) ^ 2 := by
    unfold qOf; rw [one_sub_ecc2 hb hab.le, mul_pow, sq_abs]; field_simp
  have he : a ^ 4 * ecc2 a b ^ 2 = (a ^ 2 - b ^ 2) ^ 2 := by unfold ecc2; field_simp; ring
  have hpa : 0 < a ^ 4 := by positivity
  have h1 : pOf a x y + qOf a b z = ecc2 a b ^ 2 ↔ a ^ 2 * R ^ 2 + b ^ 2 * z ^ 2 = (a ^ 2 - b ^ 2) ^ 2 := by
    rw [← mul_right_inj' hpa.ne', mul_add, hp, hq, he, mul_pow, mul_pow, sq_abs]
  have h2 : 0 ≤ 8 * ((pOf a x y + qOf a b z - ecc2 a b ^ 2) / 6) ^ 3 + ecc2 a b ^ 2 * pOf a x y * qOf a b z ↔
      OutsideEvolute a b R z := by
    unfold OutsideEvolute
    have hA : 0 ≤ (a * R) ^ (2 / 3 : ℝ) := by positivity
    have hB : 0 ≤ (b * |z|) ^ (2 / 3 : ℝ) := by positivity
    have hC : 0 < (a ^ 2 - b ^ 2) ^ (2 / 3 : ℝ) := Real.rpow_pos_of_pos hc0 _
    rw [← astroid hA hB hC, rpow_two_thirds_cube (by positivity), rpow_two_thirds_cube (by positivity),
      rpow_two_thirds_cube hc0.le, ← hp, ← hq, ← he]
    have : (a ^ 4 * pOf a x y + a ^ 4 * qOf a b z - a ^ 4 * ecc2 a b ^ 2) ^ 3 +
        27 * (a ^ 4 * pOf a x y * (a ^ 4 * qOf a b z) * (a ^ 4 * ecc2 a b ^ 2)) = 27 * a ^ 12 *
        (8 * ((pOf a x y + qOf a b z - ecc2 a b ^ 2) / 6) ^ 3 + ecc2 a b ^ 2 * pOf a x y * qOf a b z) := by ring
    rw [this]
    exact (mul_nonneg_iff_of_pos_left (by positivity)).symm
  have h3 : pOf a x y = 0 ↔ R = 0 := by
    rw [← mul_right_inj' hpa.ne', hp, mul_zero]
    simp [ha.ne']
  have h4 : qOf a b z = 0 ↔ z = 0 := by
    rw [← mul_right_inj' hpa.ne', hq, mul_zero]
    simp [hb.ne']
  have h5 : pOf a x y ≤ ecc2 a b ^ 2 ↔ a * R ≤ a ^ 2 - b ^ 2 := by
    rw [← mul_le_mul_iff_right₀ hpa, hp, he]
    exact pow_le_pow_iff_left₀ (by positivity) hc0.le (by norm_num)
  unfold KDomain Convertible
  simp only [← hR, Ne, h1, h2, h3, h4, h5]

theorem isSpherical_ell_of_lt {a b : ℝ} (hb : 0 < b) (hab : b < a) (n : String) :
    (ell n a b).isSpherical = false := by
  rw [ell_isSpherical hb hab.le]; simp [hab.ne']

/-- The polar angle of `(x, y)` as computed. -/
noncomputable def vlon (x y : ℝ) : ℝ := Classical.choose (vermeilleLon_fin x y)
theorem vlon_eq (x y : ℝ) : vermeilleLon (fin x) (fin y) (fin (Real.sqrt (x ^ 2 + y ^ 2))) = fin (vlon x y) :=
  (Classical.choose_spec (vermeilleLon_fin x y)).1
theorem vlon_cos (x y : ℝ) : Real.sqrt (x ^ 2 + y ^ 2) * Real.cos (vlon x y) = x :=
  (Classical.choose_spec (vermeilleLon_fin x y)).2.1
theorem vlon_sin (x y : ℝ) : Real.sqrt (x ^ 2 + y ^ 2) * Real.sin (vlon x y) = y :=
  (Classical.choose_spec (vermeilleLon_fin x y)).2.2

/-- Value of `xyz_to_llh` up to the number `k`. -/
theorem xyzToLlh_k {a b : ℝ} (hb : 0 < b) (hab : b < a) (id n pn : String) (l0 x y z : ℝ) :
    (dat id n pn a b l0).xyzToLlh (xyz x y z) =
      (let k := vermeilleK (fin (ecc2 a b)) (fin (pOf a x y)) (fin (qOf a b z))
       let D := k * fin (Real.sqrt (x ^ 2 + y ^ 2)) / (k + fin (ecc2 a b))
       let h_ := Flt.hypot D (fin z)
       ⟨lonR (remR (remR (vlon x y) - l0)), Lat.new (Angle.new (fin 2 * Flt.atan2 (fin z) (D + h_)) RAD),
        Length.new ((k + fin (ecc2 a b) - fin 1) / k * h_) M⟩) := by
  have ha : 0 < a := hb.trans hab
  have hl := vlon_eq x y
  simp only [xyzToLlh, dat, isSpherical_ell_of_lt hb hab, ell_eSq hb hab.le, xyz]
  simp only [hypot_fin, ofNat_eq, one_eq, sub_fin, hl]
  have e1 : (ell n a b).a.m = fin a := rfl
  rw [e1, div_fin _ ha.ne', div_fin _ ha.ne']
  simp only [mul_fin, angle_new_rad, Lon.new, wrapped_fin, lonR, Lon.subAngle, Angle.mk_sub, sub_fin]
  rfl

/-- `xyz_to_llh` on its domain. -/
theorem xyzToLlh_fin {a b : ℝ} (hb : 0 < b) (hab : b < a) (id n pn : String) (l0 x y z : ℝ)
    (hd : Convertible a b x y z) :
    ∃ l φ h : ℝ, (dat id n pn a b l0).xyzToLlh (xyz x y z) = llh l φ h ∧
      -Real.pi ≤ l ∧ l ≤ Real.pi ∧ -(Real.pi / 2) ≤ φ ∧ φ ≤ Real.pi / 2 ∧
      -(1 - ecc2 a b) * pvr a b φ < h ∧ geo a b (l + l0) φ h = xyz x y z := by
  have ha : 0 < a := hb.trans hab
  set R := Real.sqrt (x ^ 2 + y ^ 2) with hR
  have hR0 : 0 ≤ R := Real.sqrt_nonneg _
  have he : 0 < ecc2 a b := by
    unfold ecc2
    have : 0 < a - b := by linarith
    positivity
  have he1 : ecc2 a b < 1 := ecc2_lt_one hb hab.le
  have hp : 0 ≤ pOf a x y := mul_self_nonneg _
  have hq : 0 ≤ qOf a b z := by
    unfold qOf; rw [mul_assoc]; exact mul_nonneg (by linarith) (mul_self_nonneg _)
  obtain ⟨k, hk, hkpos, hroot⟩ := vermeilleK_fin he hp hq ((kdomain_iff hb hab x y z).2 hd)
  have hval := xyzToLlh_k hb hab id n pn l0 x y z
  have hl1 := vlon_cos x y
  have hl2 := vlon_sin x y
  set l := vlon x y
  rw [← hR] at hl1 hl2 hval
  set e2 := ecc2 a b with he2
  have hke : 0 < k + e2 := by linarith
  set D := k * R / (k + e2) with hD
  have hD0 : 0 ≤ D := by positivity
  set H := Real.sqrt (D ^ 2 + z ^ 2) with hH
  have hH2 : H ^ 2 = D ^ 2 + z ^ 2 := Real.sq_sqrt (by positivity)
  have hHpos : 0 < H := by
    apply Real.sqrt_pos.2
    by_contra hc
    have hz : z = 0 := by
      have : z ^ 2 = 0 := le_antisymm (by nlinarith [sq_nonneg D]) (sq_nonneg z)
      simpa using this
    have hD' : D = 0 := by
      have : D ^ 2 = 0 := le_antisymm (by nlinarith [sq_nonneg z]) (sq_nonneg D)
      simpa using this
    have hRz : R = 0 := by
      rw [hD] at hD'
      rcases div_eq_zero_iff.1 hD' with h | h
      · rcases mul_eq_zero.1 h with h | h
        · linarith
        · exact h
      · linarith
    apply hd.2.2
    refine ⟨hz, ?_⟩
    rw [← hR, hRz]; nlinarith
  -- H² - e² z² = a² k²
  have hkey : H ^ 2 - e2 * z ^ 2 = a ^ 2 * k ^ 2 := by
    have hr : pOf a x y * k ^ 2 + qOf a b z * (k + e2) ^ 2 = k ^ 2 * (k + e2) ^ 2 := hroot
    have hp2 : pOf a x y = R ^ 2 / a ^ 2 := by unfold pOf; rw [← hR]; field_simp
    have hq2 : qOf a b z = (1 - e2) * (z ^ 2 / a ^ 2) := by unfold qOf; rw [← he2]; field_simp
    rw [hp2, hq2] at hr
    have hr' : R ^ 2 * k ^ 2 + (1 - e2) * z ^ 2 * (k + e2) ^ 2 = a ^ 2 * (k ^ 2 * (k + e2) ^ 2) := by
      rw [← hr]; field_simp
    have hDk : D * (k + e2) = k * R := by rw [hD]; field_simp
    have h3 : (H ^ 2 - e2 * z ^ 2) * (k + e2) ^ 2 = a ^ 2 * k ^ 2 * (k + e2) ^ 2 := by
      rw [hH2]
      linear_combination (D * (k + e2) + k * R) * hDk + hr'
    exact mul_right_cancel₀ (by positivity) h3
  -- latitude
  have hX : -H < D := by linarith
  obtain ⟨ht1, ht2, hc, hs⟩ := half_arg hHpos hH2.symm hX
  set φ := 2 * Complex.arg ⟨D + H, z⟩ with hφ
  have hφr := abs_le_of_cos_nonneg ht1 ht2 (by rw [hc]; positivity)
  have hw : wf a b φ = (a * k / H) ^ 2 := by
    rw [wf, hs, ← he2]
    field_simp
    linarith
  have hN : pvr a b φ = H / k := by
    rw [pvr, hw, Real.sqrt_sq (by positivity)]; field_simp
  have hres : (dat id n pn a b l0).xyzToLlh (xyz x y z) = llh (remR (remR l - l0)) φ ((k + e2 - 1) / k * H) := by
    rw [hval, hk]
    simp only [mul_fin, add_fin]
    rw [div_fin _ hke.ne', ← hD, hypot_fin, ← hH, add_fin, atan2_fin, mul_fin, ← hφ, angle_new_rad, lat_new_fin,
      clampR_id hφr.1 hφr.2, sub_fin, div_fin _ hkpos.ne', mul_fin, length_new_m]
    rfl
  refine ⟨_, φ, _, hres, le_remR _, remR_le _, hφr.1, hφr.2, ?_, ?_⟩
  · rw [hN]
    have : (k + e2 - 1) / k * H - -(1 - e2) * (H / k) = H := by field_simp; ring
    linarith
  · have hsame : SameDirection (remR (remR l - l0) + l0) l := by
      have h1 := remR_same (remR l - l0)
      have h2 := remR_same l
      have h3 := (h1.trans (h2.sub (SameDirection.refl l0))).add (SameDirection.refl l0)
      rwa [sub_add_cancel] at h3
    unfold geo
    rw [hsame.cos, hsame.sin, hN, hc, hs]
    have hR' : (H / k + (k + e2 - 1) / k * H) * (D / H) = R := by
      rw [hD]; field_simp; ring
    rw [hR', hl1, hl2]
    congr 1
    rw [← he2]; field_simp; ring

/-- Geodetic coordinates above the region of the evolute are unique. -/
theorem geo_unique {a b : ℝ} (hb : 0 < b) (hab : b < a) {l φ h l' φ' h' : ℝ}
    (h1 : -(Real.pi / 2) ≤ φ) (h2 : φ ≤ Real.pi / 2) (h1' : -(Real.pi / 2) ≤ φ') (h2' : φ' ≤ Real.pi / 2)
    (hh : -(1 - ecc2 a b) * pvr a b φ < h) (hh' : -(1 - ecc2 a b) * pvr a b φ' < h')
    (heq : geo a b l φ h = geo a b l' φ' h') :
    φ = φ' ∧ h = h' ∧ (Real.cos φ ≠ 0 → SameDirection l l') := by
  have ha : 0 < a := hb.trans hab
  have he : 0 < ecc2 a b := by
    unfold ecc2
    have : 0 < a - b := by linarith
    positivity
  have he1 : ecc2 a b < 1 := ecc2_lt_one hb hab.le
  set e2 := ecc2 a b with he2
  have hN : ∀ ψ, 0 < pvr a b ψ := fun ψ => div_pos ha (Real.sqrt_pos.2 (wf_pos hb hab.le ψ))
  have hN2 : ∀ ψ, pvr a b ψ ^ 2 * wf a b ψ = a ^ 2 := fun ψ => by
    rw [pvr, div_pow, Real.sq_sqrt (wf_pos hb hab.le ψ).le]
    have := (wf_pos hb hab.le ψ).ne'
    field_simp
  simp only [geo, xyz, XYZ.mk.injEq, Length.mk.injEq, fin_inj, ← he2] at heq
  obtain ⟨q1, q2, q3⟩ := heq
  have hcos : 0 ≤ Real.cos φ := Real.cos_nonneg_of_mem_Icc ⟨h1, h2⟩
  have hcos' : 0 ≤ Real.cos φ' := Real.cos_nonneg_of_mem_Icc ⟨h1', h2'⟩
  set N := pvr a b φ with hNd
  set N' := pvr a b φ' with hNd'
  have hNp : 0 < N := hN φ
  have hNp' : 0 < N' := hN φ'
  -- k and k'
  set k := 1 - e2 + h / N with hk
  set k' := 1 - e2 + h' / N' with hk'
  have hkN : k * N = N * (1 - e2) + h := by rw [hk]; field_simp
  have hkN' : k' * N' = N' * (1 - e2) + h' := by rw [hk']; field_simp
  have hkpos : 0 < k := by
    have : 0 < k * N := by rw [hkN]; linarith
    exact pos_of_mul_pos_left this hNp.le
  have hkpos' : 0 < k' := by
    have : 0 < k' * N' := by rw [hkN']; linarith
    exact pos_of_mul_pos_left this hNp'.le
  have e1 : N + h = (k + e2) * N := by linear_combination -hkN
  have e1' : N' + h' = (k' + e2) * N' := by linear_combination -hkN'
  rw [e1, e1'] at q1 q2
  rw [← hkN, ← hkN'] at q3
  have hR : (k + e2) * N * Real.cos φ = (k' + e2) * N' * Real.cos φ' := by
    have hsq : ((k + e2) * N * Real.cos φ) ^ 2 = ((k' + e2) * N' * Real.cos φ') ^ 2 := by
      have a1 := Real.sin_sq_add_cos_sq l
      have a2 := Real.sin_sq_add_cos_sq l'
      calc ((k + e2) * N * Real.cos φ) ^ 2 = ((k + e2) * N * Real.cos φ * Real.cos l) ^ 2 +
            ((k + e2) * N * Real.cos φ * Real.sin l) ^ 2 := by linear_combination -((k + e2) * N * Real.cos φ) ^ 2 * a1
        _ = ((k' + e2) * N' * Real.cos φ' * Real.cos l') ^ 2 + ((k' + e2) * N' * Real.cos φ' * Real.sin l') ^ 2 := by
          rw [q1, q2]
        _ = _ := by linear_combination ((k' + e2) * N' * Real.cos φ') ^ 2 * a2
    exact (pow_left_inj₀ (by positivity) (by positivity) (by norm_num)).1 hsq
  -- both are roots of the same equation
  have rootk : ∀ (κ M ψ : ℝ), M ^ 2 * wf a b ψ = a ^ 2 →
      KRoot e2 (((κ + e2) * M * Real.cos ψ) ^ 2 / a ^ 2) ((1 - e2) * (κ * M * Real.sin ψ) ^ 2 / a ^ 2) κ := by
    intro κ M ψ hM
    unfold KRoot
    rw [wf, ← he2] at hM
    have hsc := Real.sin_sq_add_cos_sq ψ
    field_simp
    have hcc : Real.cos ψ ^ 2 = 1 - Real.sin ψ ^ 2 := by linarith
    linear_combination κ ^ 2 * (κ + e2) ^ 2 * hM + κ ^ 2 * (κ + e2) ^ 2 * M ^ 2 * hcc
  have r1 := rootk k N φ (hN2 φ)
  have r2 := rootk k' N' φ' (hN2 φ')
  rw [hR, q3] at r1
  have hkk : k = k' := by
    refine kroot_unique he ?_ ?_ hkpos hkpos' r1 r2
    · positivity
    · have : 0 ≤ 1 - e2 := by linarith
      positivity
  rw [← hkk] at hR q3
  have c1 : N * Real.cos φ = N' * Real.cos φ' := by
    apply mul_left_cancel₀ (show k + e2 ≠ 0 by linarith); linarith
  have s1 : N * Real.sin φ = N' * Real.sin φ' := by
    apply mul_left_cancel₀ hkpos.ne'; linarith
  have hNN : N = N' := by
    have hsq : N ^ 2 = N' ^ 2 := by
      have a1 := Real.sin_sq_add_cos_sq φ
      have a2 := Real.sin_sq_add_cos_sq φ'
      calc N ^ 2 = (N * Real.cos φ) ^ 2 + (N * Real.sin φ) ^ 2 := by linear_combination -N ^ 2 * a1
        _ = (N' * Real.cos φ') ^ 2 + (N' * Real.sin φ') ^ 2 := by rw [c1, s1]
        _ = N' ^ 2 := by linear_combination N' ^ 2 * a2
    exact (pow_left_inj₀ hNp.le hNp'.le (by norm_num)).1 hsq
  have hsin : Real.sin φ = Real.sin φ' := by
    rw [← hNN] at s1; exact mul_left_cancel₀ hNp.ne' s1
  have hφ : φ = φ' := Real.injOn_sin ⟨h1, h2⟩ ⟨h1', h2'⟩ hsin
  refine ⟨hφ, ?_, ?_⟩
  · have : k * N = k' * N' := by rw [hkk, hNN]
    rw [hkN, hkN', ← hNN] at this
    linarith
  · intro hc0
    rw [← hkk, ← hNN, ← hφ] at q1 q2
    have hne : (k + e2) * N * Real.cos φ ≠ 0 := by
      have : k + e2 ≠ 0 := by linarith
      positivity
    exact SameDirection.of_cos_sin (mul_left_cancel₀ hne q1) (mul_left_cancel₀ hne q2)

end Geo
