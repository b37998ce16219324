import Verif.Lemmas.MercatorLat
import Verif.Props.CylindricalExact

/-!
The latitude recovered by the inverse Mercator projection (C34) in exact arithmetic, for ellipsoids with
`e² ≤ 1/50`.
-/

namespace Geo
open XR Spec

theorem mercSeries_eq (ε χ : ℝ) : mercSeries ε χ = χ + Ser.Merc.S ε χ := by
  unfold mercSeries Ser.Merc.S; ring

/-- **C34**, ellipsoids with `e² = (a² - b²) / a² ≤ 1/50`: the round trip returns the latitude with an error of at most
`1.5 e¹⁰` radians, the longitude up to whole turns (exactly inside ±180°) and the height exactly. -/
theorem C34_latitude {n : String} {a b l0 fe fn k : ℝ} (hb : 0 < b) (hab : b ≤ a)
    (he : (a ^ 2 - b ^ 2) / a ^ 2 ≤ 1 / 50) {p : Projection XR}
    (hp : IsMercator n a b l0 fe fn k p) (l φ h : ℝ) (h1 : -(Real.pi / 2) < φ) (h2 : φ < Real.pi / 2) :
    ∃ E N l' φ', p.proj (llh l φ h) = .ok (enh E N h) ∧ p.unproj (enh E N h) = .ok (llh l' φ' h) ∧
      |φ' - φ| ≤ 3 / 2 * ((a ^ 2 - b ^ 2) / a ^ 2) ^ 5 ∧ -(Real.pi / 2) < φ' ∧ φ' < Real.pi / 2 ∧
      SameDirection l' l ∧ (-Real.pi < l → l < Real.pi → l' = l) := by
  have ha : 0 < a := lt_of_lt_of_le hb hab
  have hk := (hp.eq hb hab).1
  have hka : k * a ≠ 0 := (mul_pos hk ha).ne'
  have ee : ecc2 a b = (a ^ 2 - b ^ 2) / a ^ 2 := by
    unfold ecc2; field_simp; ring
  rw [← ee] at he ⊢
  have h0 : 0 ≤ ecc2 a b := by
    rw [ee]
    apply div_nonneg _ (by positivity)
    nlinarith
  obtain ⟨g1, g2, g3⟩ := merc_latitude h0 he h1 h2
  rw [← mercSeries_eq] at g1 g2 g3
  refine ⟨_, _, remR (l0 + normR (l - l0)), _, hp.proj hb hab l φ h h1 h2, ?_, g3, g1, g2, lon_back l l0, ?_⟩
  · rw [hp.unproj hb hab, add_sub_cancel_left, add_sub_cancel_left, mul_div_cancel_left₀ _ hka,
      mul_div_cancel_left₀ _ hka, clampR_id, confL]
    · exact g1.le
    · exact g2.le
  · intro g1 g2
    exact same_open (le_remR _) (remR_le _) g1 g2 (lon_back l l0)

/-- On WGS84 the latitude comes back to within `2.1e-11` radians (a seventh of a millimetre on the ground). -/
example (l φ h : ℝ) (h1 : -(Real.pi / 2) < φ) (h2 : φ < Real.pi / 2) :
    ∃ E N l' φ', (merc1 "WGS 84" 6378137 6356752.314 0 0.9996 0 0).proj (llh l φ h) = .ok (enh E N h) ∧
      (merc1 "WGS 84" 6378137 6356752.314 0 0.9996 0 0).unproj (enh E N h) = .ok (llh l' φ' h) ∧
      |φ' - φ| ≤ 2.1e-11 := by
  obtain ⟨E, N, l', φ', e1, e2, e3, -⟩ := C34_latitude (by norm_num) (by norm_num) (by norm_num)
    (IsMercator.oneSP (n := "WGS 84") (a := 6378137) (b := 6356752.314) (l0 := 0) (fe := 0) (fn := 0) 0.9996
      (by norm_num)) l φ h h1 h2
  exact ⟨E, N, l', φ', e1, e2, e3.trans (by norm_num)⟩

end Geo
