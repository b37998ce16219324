import Verif.Lemmas.TransverseReturn

/-! # C107: there and back through the transverse Mercator projection and UTM in IEEE arithmetic

Both directions are computed in doubles; the distance is that between two points of the ellipsoid. -/

namespace Geo
open XR Spec
variable {L : Libm}

/-- The exact point returned is not far in longitude. -/
theorem cos_returned {l l' L0 δ : ℝ} (hc : 0.877 ≤ Real.cos (l - L0)) (h1 : 0.072 ≤ Real.cos (l' - L0)) (hs : |Real.sin (l' - l)| ≤ δ)
    (hδ : δ ≤ 1e-8) : 0.876 ≤ Real.cos (l' - L0) := by
  have e : Real.cos (l' - L0) = Real.cos (l' - l) * Real.cos (l - L0) - Real.sin (l' - l) * Real.sin (l - L0) := by
    rw [← Real.cos_add]; congr 1; ring
  have k1 : |Real.sin (l' - l) * Real.sin (l - L0)| ≤ 1e-8 := by
    rw [abs_mul]
    exact (mul_le_mul (hs.trans hδ) (Real.abs_sin_le_one _) (abs_nonneg _) (by norm_num)).trans (by norm_num)
  have k2 := Real.sin_sq_add_cos_sq (l' - l)
  have k3 : Real.sin (l' - l) ^ 2 ≤ (1e-8) ^ 2 := by rw [← sq_abs]; exact pow_le_pow_left₀ (abs_nonneg _) (hs.trans hδ) 2
  rw [abs_le] at k1
  have k4 := Real.cos_le_one (l' - l)
  have k5 := Real.cos_le_one (l - L0)
  rw [e] at h1 ⊢
  generalize Real.cos (l' - l) = c at *
  generalize Real.cos (l - L0) = d at *
  generalize Real.sin (l' - l) * Real.sin (l - L0) = w at *
  have hd : 0 < d := lt_of_lt_of_le (by norm_num) hc
  have hc0 : 0 < c := by
    by_contra hn
    push Not at hn
    have := mul_nonpos_of_nonpos_of_nonneg hn hd.le
    have := k1.1
    norm_num at *
    linarith
  have hc1 : 1 - 1e-16 ≤ c := by
    have : c ^ 2 ≤ c := by nlinarith
    norm_num at *
    linarith
  have := mul_le_mul hc1 hc (by norm_num) hc0.le
  have := k1.2
  norm_num at *
  linarith

theorem return_close {a b l φ l' φ' x y L0 D : ℝ} {n : ℤ} (hb : 0 < b) (hab : b ≤ a) (hf : 0.995 * a ≤ b)
    (hD : ‖surfacePoint a b l' φ' - surfacePoint a b l φ‖ ≤ a * D) (hD1 : D ≤ 1e-10) (hcφ : 0.1 ≤ Real.cos φ) (hc : 0.877 ≤ Real.cos (l - L0))
    (h1 : 0.072 ≤ Real.cos (l' - L0)) (hφ' : 0 < Real.cos φ') (hy : |y - φ'| ≤ 2.2e-13)
    (hx : |x - l' - n * (2 * Real.pi)| * (Real.cos φ' * Real.cos (l' - L0)) ≤ 2.5e-13) :
    ‖surfacePoint a b x y - surfacePoint a b l φ‖ ≤ a * (D + 5.1e-13) := by
  have ha : 0 < a := lt_of_lt_of_le hb hab
  have hcφ0 : 0 < Real.cos φ := lt_of_lt_of_le (by norm_num) hcφ
  obtain ⟨r1, -⟩ := rpar_le hb hab hcφ0.le
  have hr : 0 < Frame.rpar a b φ := lt_of_lt_of_le (by positivity) r1
  have hs : |Real.sin (l' - l)| ≤ 1e-9 := by
    rcases surfacePoint_plane (a := a) (b := b) (l := l) (l' := l') (φ := φ) (φ' := φ') with h | h
    · have h2 : a * 0.1 * |Real.sin (l' - l)| ≤ a * 1e-10 := by
        refine le_trans ?_ (h.trans (hD.trans (mul_le_mul_of_nonneg_left hD1 ha.le)))
        exact mul_le_mul_of_nonneg_right (le_trans (mul_le_mul_of_nonneg_left hcφ ha.le) r1) (abs_nonneg _)
      rw [mul_assoc] at h2
      have h3 := le_of_mul_le_mul_left h2 ha
      norm_num at h3 ⊢
      linarith
    · linarith
  have hc' := cos_returned hc h1 hs (by norm_num)
  have hR : a ^ 2 / b ≤ 1.00503 * a := by
    rw [div_le_iff₀ hb]
    norm_num at hf ⊢
    nlinarith
  have hlon : |x - l' - n * (2 * Real.pi)| * Real.cos φ' ≤ 2.5e-13 / 0.876 := by
    rw [le_div_iff₀ (by norm_num), mul_assoc]
    refine le_trans ?_ hx
    exact mul_le_mul_of_nonneg_left (mul_le_mul_of_nonneg_left hc' hφ'.le) (abs_nonneg _)
  have s1 := surfacePoint_lat (l := x) (φ := φ') (φ' := y) hb hab
  have s2 := surfacePoint_lon (l := l') (l' := x - n * (2 * Real.pi)) hb hab hφ'.le
  rw [surfacePoint_turn, show x - n * (2 * Real.pi) - l' = x - l' - n * (2 * Real.pi) by ring] at s2
  have t1 : ‖surfacePoint a b x y - surfacePoint a b x φ'‖ ≤ 1.00503 * a * 2.2e-13 :=
    s1.trans (mul_le_mul hR hy (abs_nonneg _) (by positivity))
  have t2 : ‖surfacePoint a b x φ' - surfacePoint a b l' φ'‖ ≤ 1.00503 * a * (2.5e-13 / 0.876) :=
    s2.trans (mul_le_mul hR hlon (mul_nonneg (abs_nonneg _) hφ'.le) (by positivity))
  have e : surfacePoint a b x y - surfacePoint a b l φ = (surfacePoint a b x y - surfacePoint a b x φ') +
      (surfacePoint a b x φ' - surfacePoint a b l' φ') + (surfacePoint a b l' φ' - surfacePoint a b l φ) := by abel
  rw [e]
  refine (norm_add₃_le).trans ((add_le_add (add_le_add t1 t2) hD).trans ?_)
  norm_num
  linarith

theorem cos_84 {φ : ℝ} (h : |φ| ≤ 1.4661) : 0.1 ≤ Real.cos φ := by
  have hp := Real.pi_gt_d4
  have hp' := Real.pi_lt_d4
  rw [← Real.cos_abs]
  have : Real.cos 1.4661 ≤ Real.cos |φ| := Real.cos_le_cos_of_nonneg_of_le_pi (abs_nonneg _) (by norm_num at *; linarith) h
  refine le_trans ?_ this
  rw [← Real.sin_pi_div_two_sub]
  have h3 := Real.sin_gt_sub_cube (x := Real.pi / 2 - 1.4661) (by norm_num at *; linarith)
  have h4 : (Real.pi / 2 - 1.4661) ^ 3 ≤ 0.1047 ^ 3 := pow_le_pow_left₀ (by norm_num at *; linarith) (by norm_num at *; linarith) 3
  norm_num at *
  linarith

theorem tm_return (hL : AccurateProjection L) {el : Ellipsoid (F64 L)} (h : EarthSized el) (hfl : 0.995 * el.a.m.toQ ≤ el.b.m.toQ)
    {l l0 φ φ0 k0 fe fn ht : F64 L} {L0 K0 : ℝ} (hl : InLonRange l) (hl0 : InLonRange l0) (kl0 : Near l0 L0 1.3e-15) (hφ : φ.isFinite)
    (hb : |φ.toQ| ≤ 1.4661) (hφ0 : φ0.isFinite) (hb0 : |φ0.toQ| ≤ 1.4836) (hk : Near k0 K0 1.2e-16) (k1 : 0.9 ≤ K0) (k2 : K0 ≤ 1.1)
    (hfe : fe.isFinite) (hfe1 : |fe.toQ| ≤ 20000000) (hfn : fn.isFinite) (hfn1 : |fn.toQ| ≤ 20000000)
    (hc : 0 < Real.cos ((l.toQ : ℝ) - L0)) (hs : |Real.sin ((l.toQ : ℝ) - L0)| ≤ 0.48) :
    ∃ E N l' φ' : F64 L,
      (TransverseMercator.new el ⟨⟨l0⟩⟩ ⟨⟨φ0⟩⟩ k0 ⟨fe⟩ ⟨fn⟩).proj ⟨⟨⟨l⟩⟩, ⟨⟨φ⟩⟩, ⟨ht⟩⟩ = .ok ⟨⟨E⟩, ⟨N⟩, ⟨ht⟩⟩ ∧
      (TransverseMercator.new el ⟨⟨l0⟩⟩ ⟨⟨φ0⟩⟩ k0 ⟨fe⟩ ⟨fn⟩).unproj ⟨⟨E⟩, ⟨N⟩, ⟨ht⟩⟩ = .ok ⟨⟨⟨l'⟩⟩, ⟨⟨φ'⟩⟩, ⟨ht⟩⟩ ∧
      l'.isFinite ∧ φ'.isFinite ∧
      ‖surfacePoint el.a.m.toQ el.b.m.toQ l'.toQ φ'.toQ - surfacePoint el.a.m.toQ el.b.m.toQ l.toQ φ.toQ‖ ≤
        el.a.m.toQ * (275 * nR el.a.m.toQ el.b.m.toQ ^ 5 + ecc2 el.a.m.toQ el.b.m.toQ * 1.1e-12 + 5.1e-13) ∧
      (|Real.sin ((l.toQ : ℝ) - L0)| ≤ 1 / 9 →
        ‖surfacePoint el.a.m.toQ el.b.m.toQ l'.toQ φ'.toQ - surfacePoint el.a.m.toQ el.b.m.toQ l.toQ φ.toQ‖ ≤
          el.a.m.toQ * (13 * nR el.a.m.toQ el.b.m.toQ ^ 5 + ecc2 el.a.m.toQ el.b.m.toQ * 1.1e-12 + 5.1e-13)) := by
  obtain ⟨e1, e2, e3⟩ := earth_real h
  have hf : 0.995 * (el.a.m.toQ : ℝ) ≤ el.b.m.toQ := by
    have : ((0.995 * el.a.m.toQ : ℚ) : ℝ) ≤ ((el.b.m.toQ : ℚ) : ℝ) := by exact_mod_cast hfl
    push_cast at this
    exact this
  have hb0' : (0 : ℝ) < el.b.m.toQ := by linarith
  have r : |(φ.toQ : ℝ)| ≤ 1.4661 := by have := cast_abs_le hb; push_cast at this; exact this
  have r0 : |(φ0.toQ : ℝ)| ≤ 1.4836 := by have := cast_abs_le hb0; push_cast at this; exact this
  have hp := Real.pi_gt_d4
  have p1 : |(φ.toQ : ℝ)| < Real.pi / 2 := lt_of_le_of_lt r (by norm_num at *; linarith)
  have p2 : |(φ0.toQ : ℝ)| ≤ Real.pi / 2 := r0.trans (by norm_num at *; linarith)
  obtain ⟨g1, g2⟩ := abs_lt.1 p1
  obtain ⟨z1, z2⟩ := abs_le.1 p2
  have hK : K0 ≠ 0 := by have : (0 : ℝ) < K0 := lt_of_lt_of_le (by norm_num) k1; exact this.ne'
  obtain ⟨n0, n1⟩ := nR_flat e1 e2 hf
  obtain ⟨q0, q1⟩ := ecc2_small hb0' e2 hf
  have n5 : nR (el.a.m.toQ : ℝ) el.b.m.toQ ^ 5 ≤ 0.002507 ^ 5 := pow_le_pow_left₀ n0 n1 5
  have n50 : 0 ≤ nR (el.a.m.toQ : ℝ) el.b.m.toQ ^ 5 := by positivity
  have hcφ := cos_84 r
  have rk : |K0| ≤ 1.1 := by
    rw [abs_of_pos (lt_of_lt_of_le (by norm_num) k1)]; exact k2
  obtain ⟨E, N, E', N', f1, f2, f3, f4⟩ := tm_forward hL h (ht := ht) hl hl0 kl0 hφ (hb.trans (by norm_num)) hφ0 hb0 hk rk hfe hfe1
    hfn hfn1 hs "" 0
  obtain ⟨bE, bN⟩ := tm_plane e1 e2 hf "" z1 z2 hK r hc hs f2
  obtain ⟨x, y, l', φ', n, w1, w2, w3, w4, w5, w6, w7⟩ := tm_backward hL h hfl (ht := ht) hl0 kl0 hφ0 hb0 hk k1 k2 hfe hfn f3 f4 bE bN "" 0
  have hc' := cos_ge_of_sin (c := 0.877) hc hs (by norm_num)
  have same : ∀ {E'' N'' l'' φ'' : ℝ}, (tmSpec "" el.a.m.toQ el.b.m.toQ L0 φ0.toQ K0 fe.toQ fn.toQ).proj (llh l.toQ φ.toQ 0) = .ok (enh E'' N'' 0) →
      (tmSpec "" el.a.m.toQ el.b.m.toQ L0 φ0.toQ K0 fe.toQ fn.toQ).unproj (enh E'' N'' 0) = .ok (llh l'' φ'' 0) → l'' = l' ∧ φ'' = φ' := by
    intro E'' N'' l'' φ'' h1 h2
    rw [f2] at h1
    have h3 := Except.ok.inj h1
    rw [← h3, w2] at h2
    simp only [llh, Except.ok.injEq, LLH.mk.injEq, Lon.mk.injEq, Lat.mk.injEq, Angle.mk.injEq, XR.fin.injEq] at h2
    exact ⟨h2.1.symm, h2.2.1.symm⟩
  refine ⟨E, N, x, y, f1, w1, w4.1, w3.1, ?_, ?_⟩
  · obtain ⟨E'', N'', l'', φ'', c1, c2, -, -, -, -, c3⟩ := C85_round_trip hb0' e2 (by norm_num at q1 ⊢; linarith) "" L0 z1 z2 hK
      (fe.toQ : ℝ) (fn.toQ : ℝ) (l := l.toQ) (φ := φ.toQ) 0 g1 g2 hc (hs.trans (by norm_num)) (by norm_num at n5 hcφ ⊢; linarith)
    obtain ⟨i1, i2⟩ := same c1 c2
    rw [i1, i2] at c3
    exact return_close hb0' e2 hf c3 (by norm_num at n5 q1 ⊢; linarith) hcφ hc' w6 w5 w3.2 w7
  · intro hz
    obtain ⟨E'', N'', l'', φ'', c1, c2, -, -, -, -, c3⟩ := C85_round_trip_zone hb0' e2 (by norm_num at q1 ⊢; linarith) "" L0 z1 z2 hK
      (fe.toQ : ℝ) (fn.toQ : ℝ) (l := l.toQ) (φ := φ.toQ) 0 g1 g2 hc hz (by norm_num at n5 hcφ ⊢; linarith)
    obtain ⟨i1, i2⟩ := same c1 c2
    rw [i1, i2] at c3
    exact return_close hb0' e2 hf c3 (by norm_num at n5 q1 ⊢; linarith) hcφ hc' w6 w5 w3.2 w7

/-- **C107**: with an accurate mathematical library, on an ellipsoid of the size of the Earth and of flattening at most 1/200, for latitudes up to
84° and longitudes up to 28° from the central meridian, `unproj` of the doubles returned by `proj` ends and returns a position at a distance of at
most `a (275 n⁵ + 1.1e-12 e² + 5.1e-13)` of the first one on the ellipsoid (`n` the third flattening), with its height. The last term is that of
the rounding in both directions. -/
theorem C107_round_trip (hL : AccurateProjection L) {el : Ellipsoid (F64 L)} (h : EarthSized el) (hfl : 0.995 * el.a.m.toQ ≤ el.b.m.toQ)
    {l l0 φ φ0 k0 fe fn ht : F64 L} (hl : InLonRange l) (hl0 : InLonRange l0) (hφ : φ.isFinite)
    (hb : |φ.toQ| ≤ 1.4661) (hφ0 : φ0.isFinite) (hb0 : |φ0.toQ| ≤ 1.4836) (hk : k0.isFinite) (hk1 : 0.9 ≤ k0.toQ) (hk2 : k0.toQ ≤ 1.1)
    (hfe : fe.isFinite) (hfe1 : |fe.toQ| ≤ 20000000) (hfn : fn.isFinite) (hfn1 : |fn.toQ| ≤ 20000000)
    (hc : 0 < Real.cos ((l.toQ : ℝ) - l0.toQ)) (hs : |Real.sin ((l.toQ : ℝ) - l0.toQ)| ≤ 0.48) :
    ∃ E N l' φ' : F64 L,
      ((ProjectionSpec.transverseMercator ⟨⟨l0⟩⟩ ⟨⟨φ0⟩⟩ k0 ⟨fe⟩ ⟨fn⟩).appliedTo el).proj ⟨⟨⟨l⟩⟩, ⟨⟨φ⟩⟩, ⟨ht⟩⟩ = .ok ⟨⟨E⟩, ⟨N⟩, ⟨ht⟩⟩ ∧
      ((ProjectionSpec.transverseMercator ⟨⟨l0⟩⟩ ⟨⟨φ0⟩⟩ k0 ⟨fe⟩ ⟨fn⟩).appliedTo el).unproj ⟨⟨E⟩, ⟨N⟩, ⟨ht⟩⟩ = .ok ⟨⟨⟨l'⟩⟩, ⟨⟨φ'⟩⟩, ⟨ht⟩⟩ ∧
      l'.isFinite ∧ φ'.isFinite ∧
      ‖surfacePoint el.a.m.toQ el.b.m.toQ l'.toQ φ'.toQ - surfacePoint el.a.m.toQ el.b.m.toQ l.toQ φ.toQ‖ ≤
        el.a.m.toQ * (275 * nR el.a.m.toQ el.b.m.toQ ^ 5 + ecc2 el.a.m.toQ el.b.m.toQ * 1.1e-12 + 5.1e-13) ∧
      (|Real.sin ((l.toQ : ℝ) - l0.toQ)| ≤ 1 / 9 →
        ‖surfacePoint el.a.m.toQ el.b.m.toQ l'.toQ φ'.toQ - surfacePoint el.a.m.toQ el.b.m.toQ l.toQ φ.toQ‖ ≤
          el.a.m.toQ * (13 * nR el.a.m.toQ el.b.m.toQ ^ 5 + ecc2 el.a.m.toQ el.b.m.toQ * 1.1e-12 + 5.1e-13)) := by
  have k1 : (0.9 : ℝ) ≤ k0.toQ := by
    have : ((0.9 : ℚ) : ℝ) ≤ ((k0.toQ : ℚ) : ℝ) := by exact_mod_cast hk1
    push_cast at this; exact this
  have k2 : (k0.toQ : ℝ) ≤ 1.1 := by
    have : ((k0.toQ : ℚ) : ℝ) ≤ ((1.1 : ℚ) : ℝ) := by exact_mod_cast hk2
    push_cast at this; exact this
  exact tm_return hL h hfl hl hl0 ((Near.exact hl0.1).mono (by norm_num)) hφ hb hφ0 hb0 ((Near.exact hk).mono (by norm_num)) k1 k2
    hfe hfe1 hfn hfn1 hc hs

/-- A national grid: origin at 0.75 rad of latitude and 0.0625 rad of longitude, unit scale, false coordinates 500 000 and 0, and the point of the
equator at longitude 0.5. -/
example : ∃ E N l' φ' : F64 roundLibm,
    ((ProjectionSpec.transverseMercator ⟨⟨Flt.lit 0.0625⟩⟩ ⟨⟨Flt.lit 0.75⟩⟩ (Flt.lit 1) ⟨Flt.lit 500000⟩ ⟨Flt.lit 0⟩).appliedTo
      (Ellipsoid.consts.WGS84 : Ellipsoid (F64 roundLibm))).proj
      ⟨⟨⟨Flt.lit 0.5⟩⟩, ⟨⟨Flt.lit 0⟩⟩, ⟨Flt.lit 0⟩⟩ = .ok ⟨⟨E⟩, ⟨N⟩, ⟨Flt.lit 0⟩⟩ ∧
    ((ProjectionSpec.transverseMercator ⟨⟨Flt.lit 0.0625⟩⟩ ⟨⟨Flt.lit 0.75⟩⟩ (Flt.lit 1) ⟨Flt.lit 500000⟩ ⟨Flt.lit 0⟩).appliedTo
      (Ellipsoid.consts.WGS84 : Ellipsoid (F64 roundLibm))).unproj ⟨⟨E⟩, ⟨N⟩, ⟨Flt.lit 0⟩⟩ = .ok ⟨⟨⟨l'⟩⟩, ⟨⟨φ'⟩⟩, ⟨Flt.lit 0⟩⟩ ∧
    l'.isFinite ∧ φ'.isFinite := by
  have v : (B64.isFinite (B64.lit 0.0625) = true ∧ (B64.lit 0.0625).toQ = 0.0625) ∧
      (B64.isFinite (B64.lit 0.75) = true ∧ (B64.lit 0.75).toQ = 0.75) ∧
      (B64.isFinite (B64.lit 0.5) = true ∧ (B64.lit 0.5).toQ = 0.5) ∧ (B64.isFinite (B64.lit 0) = true ∧ (B64.lit 0).toQ = 0) ∧
      (B64.isFinite (B64.lit 1) = true ∧ (B64.lit 1).toQ = 1) ∧
      (B64.isFinite (B64.lit 500000) = true ∧ (B64.lit 500000).toQ = 500000) ∧
      |(0.0625 : ℚ)| ≤ B64.pi.toQ ∧ |(0.5 : ℚ)| ≤ B64.pi.toQ := by decide +kernel
  obtain ⟨⟨f1, v1⟩, ⟨f2, v2⟩, ⟨f3, v3⟩, ⟨f4, v4⟩, ⟨f5, v5⟩, ⟨f6, v6⟩, i1, i2⟩ := v
  have hd : (((B64.lit 0.5).toQ : ℚ) : ℝ) - (((B64.lit 0.0625).toQ : ℚ) : ℝ) = 0.4375 := by rw [v3, v1]; norm_num
  have hp := Real.pi_gt_three
  obtain ⟨E, N, l', φ', q1, q2, q3, q4, -⟩ := C107_round_trip roundLibm_accurateProjection wgs84_earthSized wgs84_flat.2 (l := B64.lit 0.5)
    (l0 := B64.lit 0.0625) (φ := B64.lit 0) (φ0 := B64.lit 0.75) (k0 := B64.lit 1) (fe := B64.lit 500000) (fn := B64.lit 0) (ht := B64.lit 0)
    ⟨f3, by rw [← v3] at i2; exact i2⟩ ⟨f1, by rw [← v1] at i1; exact i1⟩ f4
    (by show |(B64.lit 0).toQ| ≤ _; rw [v4]; norm_num) f2
    (by show |(B64.lit 0.75).toQ| ≤ _; rw [v2, abs_of_pos (by norm_num)]; norm_num) f5
    (by show _ ≤ (B64.lit 1).toQ; rw [v5]; norm_num) (by show (B64.lit 1).toQ ≤ _; rw [v5]; norm_num) f6
    (by show |(B64.lit 500000).toQ| ≤ _; rw [v6]; norm_num) f4 (by show |(B64.lit 0).toQ| ≤ _; rw [v4]; norm_num)
    (by
      show 0 < Real.cos ((((B64.lit 0.5).toQ : ℚ) : ℝ) - (((B64.lit 0.0625).toQ : ℚ) : ℝ))
      rw [hd]
      exact Real.cos_pos_of_mem_Ioo ⟨by norm_num; linarith, by norm_num; linarith⟩)
    (by
      show |Real.sin ((((B64.lit 0.5).toQ : ℚ) : ℝ) - (((B64.lit 0.0625).toQ : ℚ) : ℝ))| ≤ _
      rw [hd]
      refine Real.abs_sin_le_abs.trans ?_
      rw [abs_le]; constructor <;> norm_num)
  exact ⟨E, N, l', φ', q1, q2, q3, q4⟩

/-- The bound in metres in a zone, for flattenings up to 1/286. -/
theorem zone_bound {a b : ℝ} (hb : 6000000 ≤ b) (hab : b ≤ a) (ha : a ≤ 7000000) (hf : 0.9965 * a ≤ b) :
    a * (13 * nR a b ^ 5 + ecc2 a b * 1.1e-12 + 5.1e-13) ≤ 5.2e-6 := by
  have hb0 : 0 < b := by linarith
  have ha0 : 0 < a := by linarith
  have n0 := nR_nonneg hb0 hab
  have n1 : nR a b ≤ 0.001754 := by
    rw [nR, div_le_iff₀ (by linarith)]
    norm_num at hf ⊢
    linarith
  have n5 : nR a b ^ 5 ≤ 0.001754 ^ 5 := pow_le_pow_left₀ n0 n1 5
  have q : ecc2 a b ≤ 0.0070 := by
    rw [ecc2, div_le_iff₀ (by positivity)]
    norm_num at hf ⊢
    nlinarith
  have q0 := ecc2_nonneg hb0 hab
  have n50 : 0 ≤ nR a b ^ 5 := by positivity
  refine (mul_le_mul ha (c := 13 * nR a b ^ 5 + ecc2 a b * 1.1e-12 + 5.1e-13) (d := 7.4e-13) ?_ (by positivity) (by norm_num)).trans (by norm_num)
  norm_num at n5 q ⊢
  linarith

/-- **C107**, UTM: on an ellipsoid of the size of the Earth and of flattening at most 1/286, in each of the sixty zones, north and south, for latitudes
up to 84° and longitudes up to 6.3° from the central meridian, the position returned is within 5.2 micrometres of the first one. -/
theorem C107_utm (hL : AccurateProjection L) {el : Ellipsoid (F64 L)} (h : EarthSized el) (hfl : 0.9965 * el.a.m.toQ ≤ el.b.m.toQ)
    {z : ℕ} (h1 : 1 ≤ z) (h2 : z ≤ 60) {l φ ht : F64 L} (hl : InLonRange l) (hφ : φ.isFinite) (hb : |φ.toQ| ≤ 1.4661)
    (hc : 0 < Real.cos ((l.toQ : ℝ) - (6 * z - 180) * (Real.pi / 180)))
    (hs : |Real.sin ((l.toQ : ℝ) - (6 * z - 180) * (Real.pi / 180))| ≤ 1 / 9) {P : ProjectionSpec (F64 L)}
    (hP : P = .utmNorth z ∨ P = .utmSouth z) :
    ∃ E N l' φ' : F64 L,
      (P.appliedTo el).proj ⟨⟨⟨l⟩⟩, ⟨⟨φ⟩⟩, ⟨ht⟩⟩ = .ok ⟨⟨E⟩, ⟨N⟩, ⟨ht⟩⟩ ∧
      (P.appliedTo el).unproj ⟨⟨E⟩, ⟨N⟩, ⟨ht⟩⟩ = .ok ⟨⟨⟨l'⟩⟩, ⟨⟨φ'⟩⟩, ⟨ht⟩⟩ ∧ l'.isFinite ∧ φ'.isFinite ∧
      ‖surfacePoint el.a.m.toQ el.b.m.toQ l'.toQ φ'.toQ - surfacePoint el.a.m.toQ el.b.m.toQ l.toQ φ.toQ‖ ≤ 5.2e-6 := by
  obtain ⟨g1, g2, g3⟩ := earth_real h
  have hf : 0.9965 * (el.a.m.toQ : ℝ) ≤ el.b.m.toQ := by
    have : ((0.9965 * el.a.m.toQ : ℚ) : ℝ) ≤ ((el.b.m.toQ : ℚ) : ℝ) := by exact_mod_cast hfl
    push_cast at this
    exact this
  have hfl' : 0.995 * el.a.m.toQ ≤ el.b.m.toQ := by
    have ha : (0 : ℝ) ≤ (el.a.m.toQ : ℝ) := by linarith
    have ha' : (0 : ℚ) ≤ el.a.m.toQ := by exact_mod_cast ha
    norm_num at hfl ⊢
    linarith
  have zb := zone_bound g1 g2 g3 hf
  obtain ⟨⟨k1, k2⟩, ⟨e1, e2⟩, ⟨n1, n2⟩, ⟨s1, s2⟩, ⟨p1, p2⟩⟩ := utm_values
  obtain ⟨c1, c2⟩ := utm_lon0_near (L := L) h1 h2
  have hk : Near (TransverseMercator.UTM_K0 : F64 L) 0.9996 1.2e-16 := by
    refine ⟨k1, ?_⟩
    have := cast_abs_le k2
    push_cast at this
    exact this
  have hs1 : |Real.sin ((l.toQ : ℝ) - remR ((6 * z - 180) * (Real.pi / 180)))| ≤ 1 / 9 := by
    rw [((SameDirection.refl _).sub (remR_same _)).sin]; exact hs
  have hc1 : 0 < Real.cos ((l.toQ : ℝ) - remR ((6 * z - 180) * (Real.pi / 180))) := by
    rw [((SameDirection.refl _).sub (remR_same _)).cos]; exact hc
  have ee : |(TransverseMercator.UTM_FE : Length (F64 L)).m.toQ| ≤ 20000000 := by
    change |B64.toQ (TransverseMercator.UTM_FE : Length (F64 noLibm)).m| ≤ _; rw [e2]; norm_num
  have nn : |(TransverseMercator.UTM_FN_NORTH : Length (F64 L)).m.toQ| ≤ 20000000 := by
    change |B64.toQ (TransverseMercator.UTM_FN_NORTH : Length (F64 noLibm)).m| ≤ _; rw [n2]; norm_num
  have ss : |(TransverseMercator.UTM_FN_SOUTH : Length (F64 L)).m.toQ| ≤ 20000000 := by
    change |B64.toQ (TransverseMercator.UTM_FN_SOUTH : Length (F64 noLibm)).m| ≤ _; rw [s2]; norm_num
  have pp : |(TransverseMercator.UTM_LAT0 : Lat (F64 L)).angle.rad.toQ| ≤ 1.4836 := by
    change |B64.toQ (TransverseMercator.UTM_LAT0 : Lat (F64 noLibm)).angle.rad| ≤ _; rw [p2]; norm_num
  rcases hP with rfl | rfl
  · obtain ⟨E, N, l', φ', w1, w2, w3, w4, -, w5⟩ := tm_return hL h hfl' (ht := ht) hl c1 c2 hφ hb
      (φ0 := (TransverseMercator.UTM_LAT0 : Lat (F64 L)).angle.rad) p1 pp hk (by norm_num) (by norm_num)
      (fe := (TransverseMercator.UTM_FE : Length (F64 L)).m) e1 ee
      (fn := (TransverseMercator.UTM_FN_NORTH : Length (F64 L)).m) n1 nn hc1 (hs1.trans (by norm_num))
    exact ⟨E, N, l', φ', w1, w2, w3, w4, (w5 hs1).trans zb⟩
  · obtain ⟨E, N, l', φ', w1, w2, w3, w4, -, w5⟩ := tm_return hL h hfl' (ht := ht) hl c1 c2 hφ hb
      (φ0 := (TransverseMercator.UTM_LAT0 : Lat (F64 L)).angle.rad) p1 pp hk (by norm_num) (by norm_num)
      (fe := (TransverseMercator.UTM_FE : Length (F64 L)).m) e1 ee
      (fn := (TransverseMercator.UTM_FN_SOUTH : Length (F64 L)).m) s1 ss hc1 (hs1.trans (by norm_num))
    exact ⟨E, N, l', φ', w1, w2, w3, w4, (w5 hs1).trans zb⟩

theorem wgs84_flat_286 : 0.9965 * (Ellipsoid.consts.WGS84 : Ellipsoid (F64 L)).a.m.toQ ≤ (Ellipsoid.consts.WGS84 : Ellipsoid (F64 L)).b.m.toQ := by
  change 0.9965 * (Ellipsoid.consts.WGS84 : Ellipsoid (F64 noLibm)).a.m.toQ ≤ (Ellipsoid.consts.WGS84 : Ellipsoid (F64 noLibm)).b.m.toQ
  decide +kernel

/-- A point at 0.0625 rad of longitude and 0.75 rad of latitude, in zone 31, on WGS 84, with the correctly rounded library. -/
example : ∃ E N l' φ' : F64 roundLibm,
    ((ProjectionSpec.utmNorth 31).appliedTo (Ellipsoid.consts.WGS84 : Ellipsoid (F64 roundLibm))).proj
      ⟨⟨⟨Flt.lit 0.0625⟩⟩, ⟨⟨Flt.lit 0.75⟩⟩, ⟨Flt.lit 0⟩⟩ = .ok ⟨⟨E⟩, ⟨N⟩, ⟨Flt.lit 0⟩⟩ ∧
    ((ProjectionSpec.utmNorth 31).appliedTo (Ellipsoid.consts.WGS84 : Ellipsoid (F64 roundLibm))).unproj ⟨⟨E⟩, ⟨N⟩, ⟨Flt.lit 0⟩⟩ =
      .ok ⟨⟨⟨l'⟩⟩, ⟨⟨φ'⟩⟩, ⟨Flt.lit 0⟩⟩ ∧
    ‖surfacePoint (Ellipsoid.consts.WGS84 : Ellipsoid (F64 roundLibm)).a.m.toQ (Ellipsoid.consts.WGS84 : Ellipsoid (F64 roundLibm)).b.m.toQ
      l'.toQ φ'.toQ - surfacePoint (Ellipsoid.consts.WGS84 : Ellipsoid (F64 roundLibm)).a.m.toQ
      (Ellipsoid.consts.WGS84 : Ellipsoid (F64 roundLibm)).b.m.toQ 0.0625 0.75‖ ≤ 5.2e-6 := by
  have v : (B64.isFinite (B64.lit 0.0625) = true ∧ (B64.lit 0.0625).toQ = 0.0625) ∧
      B64.isFinite (B64.lit 0.75) = true ∧ (B64.lit 0.75).toQ = 0.75 := by decide +kernel
  obtain ⟨⟨f1, v1⟩, f2, v2⟩ := v
  have u1 : ((B64.lit 0.0625).toQ : ℝ) = 0.0625 := by rw [v1]; norm_num
  have u2 : ((B64.lit 0.75).toQ : ℝ) = 0.75 := by rw [v2]; norm_num
  have hp := Real.pi_gt_d2
  have hp' := Real.pi_lt_d2
  norm_num at hp hp'
  obtain ⟨E, N, l', φ', q1, q2, -, -, q3⟩ := C107_utm roundLibm_accurateProjection wgs84_earthSized wgs84_flat_286 (z := 31) (by norm_num)
    (by norm_num) (l := B64.lit 0.0625) (φ := B64.lit 0.75) (ht := Flt.lit 0) ⟨f1, by
      show |(B64.lit 0.0625).toQ| ≤ B64.pi.toQ
      rw [v1, pi_fin.2, abs_of_pos (by norm_num)]; norm_num⟩ f2 (by
      show |(B64.lit 0.75).toQ| ≤ 1.4661
      rw [v2, abs_of_pos (by norm_num)]; norm_num) (by
      show 0 < Real.cos (((B64.lit 0.0625).toQ : ℝ) - _)
      rw [u1]
      exact Real.cos_pos_of_mem_Ioo ⟨by norm_num; linarith, by norm_num; linarith⟩) (by
      show |Real.sin (((B64.lit 0.0625).toQ : ℝ) - _)| ≤ _
      rw [u1]
      refine Real.abs_sin_le_abs.trans ?_
      rw [abs_le]; constructor <;> norm_num <;> linarith) (Or.inl rfl)
  refine ⟨E, N, l', φ', q1, q2, ?_⟩
  change ‖_ - surfacePoint _ _ ((B64.lit 0.0625).toQ : ℝ) ((B64.lit 0.75).toQ : ℝ)‖ ≤ _ at q3
  rw [u1, u2] at q3
  exact q3

end Geo
