import Verif.Lemmas.Ellipsoid

/-! C21 (exact part), C22, C23, C70: ellipsoids in exact arithmetic. -/

namespace Geo
open XR
open Classical

/-! ### C21 -/

/-- **C21**: `from_ab` accepts exactly `0 < b ≤ a`, and panics otherwise. -/
theorem C21_from_ab (name : String) (a b : ℝ) :
    (0 < b ∧ b ≤ a → ∃ e, Ellipsoid.fromAb name ⟨fin a⟩ ⟨fin b⟩ = .ok e ∧ e.a = ⟨fin a⟩ ∧ e.b = ⟨fin b⟩ ∧
      e.name = name) ∧
    (¬ (0 < b ∧ b ≤ a) → ∃ msg, Ellipsoid.fromAb name ⟨fin a⟩ ⟨fin b⟩ = .error (.panic msg)) := by
  constructor
  · rintro ⟨h1, h2⟩
    simp [Ellipsoid.fromAb, rassert, h1, h2, Length.le]
  · intro h
    by_cases h1 : 0 < b
    · have h2 : ¬ b ≤ a := fun h2 => h ⟨h1, h2⟩
      simp [Ellipsoid.fromAb, rassert, h1, h2, Length.le]
    · simp [Ellipsoid.fromAb, rassert, h1]

/-- **C21**: `from_ainvf` accepts exactly `a > 0`, `invf > 1`, and panics otherwise. -/
theorem C21_from_ainvf (name : String) (a r : ℝ) :
    (0 < a ∧ 1 < r → ∃ e, Ellipsoid.fromAinvf name ⟨fin a⟩ (fin r) = .ok e ∧ e.a = ⟨fin a⟩ ∧ e.invf = fin r ∧
      e.name = name) ∧
    (¬ (0 < a ∧ 1 < r) → ∃ msg, Ellipsoid.fromAinvf name ⟨fin a⟩ (fin r) = .error (.panic msg)) := by
  constructor
  · rintro ⟨h1, h2⟩
    simp [Ellipsoid.fromAinvf, rassert, h1, h2, Length.lt, length_zero]
  · intro h
    by_cases h1 : 0 < a
    · have h2 : ¬ 1 < r := fun h2 => h ⟨h1, h2⟩
      simp [Ellipsoid.fromAinvf, rassert, h1, h2, Length.lt, length_zero]
    · simp [Ellipsoid.fromAinvf, rassert, h1, Length.lt, length_zero]

/-- **C21**: NaN is always rejected. -/
theorem C21_nan (name : String) (x : XR) :
    (∃ msg, Ellipsoid.fromAb name ⟨x⟩ ⟨nan⟩ = .error (.panic msg)) ∧
    (∃ msg, Ellipsoid.fromAb name ⟨nan⟩ ⟨x⟩ = .error (.panic msg)) ∧
    (∃ msg, Ellipsoid.fromAinvf name ⟨nan⟩ x = .error (.panic msg)) ∧
    (∃ msg, Ellipsoid.fromAinvf name ⟨x⟩ nan = .error (.panic msg)) := by
  refine ⟨?_, ?_, ?_, ?_⟩
  · simp [Ellipsoid.fromAb, rassert]
  · by_cases h : (fin 0 <. x) = true <;> simp [Ellipsoid.fromAb, rassert, Length.le, h]
  · simp [Ellipsoid.fromAinvf, rassert, Length.lt]
  · by_cases h : (fin 0 <. x) = true <;> simp [Ellipsoid.fromAinvf, rassert, Length.lt, h, length_zero]

theorem fromAb_eq {name : String} {a b : ℝ} {e : Ellipsoid XR}
    (h : Ellipsoid.fromAb name ⟨fin a⟩ ⟨fin b⟩ = .ok e) : 0 < b ∧ b ≤ a ∧ e = ell name a b := by
  have hv : 0 < b ∧ b ≤ a := by
    by_contra hc
    obtain ⟨msg, hm⟩ := (C21_from_ab name a b).2 hc
    rw [hm] at h; cases h
  refine ⟨hv.1, hv.2, ?_⟩
  simp only [Ellipsoid.fromAb, rassert, Length.le, zero_eq, lt_fin, le_fin, hv.1, hv.2, decide_true, if_true] at h
  cases h
  unfold ell
  congr 1
  by_cases hlt : b < a
  · rw [if_pos hlt, if_pos (by simpa [Length.lt] using hlt)]
    simp only [Length.mk_sub, sub_fin, Length.mk_div_mk]
    rw [div_fin _ (by linarith)]
  · rw [if_neg hlt, if_neg (by simpa [Length.lt] using hlt)]
    rfl

theorem fromAinvf_eq {name : String} {a r : ℝ} {e : Ellipsoid XR}
    (h : Ellipsoid.fromAinvf name ⟨fin a⟩ (fin r) = .ok e) :
    0 < a ∧ 1 < r ∧ e = ell name a (a * (1 - 1 / r)) := by
  have hv : 0 < a ∧ 1 < r := by
    by_contra hc
    obtain ⟨msg, hm⟩ := (C21_from_ainvf name a r).2 hc
    rw [hm] at h; cases h
  refine ⟨hv.1, hv.2, ?_⟩
  simp only [Ellipsoid.fromAinvf, rassert, Length.lt, length_zero, one_eq, lt_fin, hv.1, hv.2, decide_true, if_true] at h
  cases h
  have hr : 0 < r := by linarith [hv.2]
  have h1 : 0 < 1 / r := by positivity
  have hlt : a * (1 - 1 / r) < a := by nlinarith [hv.1]
  unfold ell
  rw [if_pos hlt, div_fin _ hr.ne']
  simp only [sub_fin, Length.mk_mul, mul_fin]
  congr 2
  · rw [mul_comm]
  · have := hv.1; field_simp; simp

theorem ainvf_valid {a r : ℝ} (ha : 0 < a) (hr : 1 < r) : 0 < a * (1 - 1 / r) ∧ a * (1 - 1 / r) < a := by
  have hr0 : 0 < r := by linarith
  have h1 : 0 < 1 / r := by positivity
  have h2 : 1 / r < 1 := by rw [div_lt_one hr0]; exact hr
  constructor
  · exact mul_pos ha (by linarith)
  · nlinarith

/-- Shape invariants of an ellipsoid with finite axes. -/
def GoodShape (e : Ellipsoid XR) : Prop :=
  ∃ a b f e2 : ℝ, e.a = ⟨fin a⟩ ∧ e.b = ⟨fin b⟩ ∧ e.f = fin f ∧ e.eSq = fin e2 ∧
    0 < b ∧ b ≤ a ∧ 0 ≤ f ∧ f < 1 ∧ 0 ≤ e2 ∧ e2 < 1

theorem goodShape_ell (n : String) {a b : ℝ} (hb : 0 < b) (hab : b ≤ a) : GoodShape (ell n a b) := by
  have ha : 0 < a := lt_of_lt_of_le hb hab
  refine ⟨a, b, _, _, rfl, rfl, ell_f hb hab n, ell_eSq hb hab n, hb, hab, ?_, ?_, ecc2_nonneg hb hab,
    ecc2_lt_one hb hab⟩
  · exact div_nonneg (by linarith) ha.le
  · rw [div_lt_one ha]; linarith

/-- **C21**: a constructed ellipsoid with finite axes has `0 < b ≤ a`, flattening and `e²` in `[0, 1)`. -/
theorem C21_constructed :
    (∀ name a b e, Ellipsoid.fromAb name ⟨fin a⟩ ⟨fin b⟩ = .ok e → GoodShape e) ∧
    (∀ name a r e, Ellipsoid.fromAinvf name ⟨fin a⟩ (fin r) = .ok e → GoodShape e) := by
  constructor
  · intro name a b e h
    obtain ⟨h1, h2, rfl⟩ := fromAb_eq h
    exact goodShape_ell _ h1 h2
  · intro name a r e h
    obtain ⟨h1, h2, rfl⟩ := fromAinvf_eq h
    exact goodShape_ell _ (ainvf_valid h1 h2).1 (ainvf_valid h1 h2).2.le

example : ∃ e, Ellipsoid.fromAinvf "WGS 84" (⟨fin 6378137⟩ : Length XR) (fin 298.257223563) = .ok e := by
  obtain ⟨e, h, _⟩ := (C21_from_ainvf "WGS 84" 6378137 298.257223563).1 (by norm_num)
  exact ⟨e, h⟩

/-! ### C22 -/

/-- The relations between the parameters of an ellipsoid with semi-axes `a`, `b` and flattening `f`. -/
def ConsistentParameters (e : Ellipsoid XR) (a b f : ℝ) : Prop :=
  e.a = ⟨fin a⟩ ∧ e.b = ⟨fin b⟩ ∧ e.f = fin f ∧ f = (a - b) / a ∧
  (b < a → e.invf = fin (a / (a - b))) ∧ (b < a → e.invf = fin (1 / f)) ∧
  e.n = fin (f / (2 - f)) ∧
  e.eSq = fin (f * (2 - f)) ∧ e.eSq = fin (1 - b ^ 2 / a ^ 2) ∧
  e.ePrimeSq = fin (f * (2 - f) / (1 - f * (2 - f))) ∧
  e.e = fin (Real.sqrt (f * (2 - f))) ∧
  e.ePrime = fin (Real.sqrt (f * (2 - f) / (1 - f * (2 - f)))) ∧
  (e.isSpherical = true ↔ a = b)

theorem consistent_ell (n : String) {a b : ℝ} (hb : 0 < b) (hab : b ≤ a) :
    ConsistentParameters (ell n a b) a b ((a - b) / a) := by
  have ha : 0 < a := lt_of_lt_of_le hb hab
  have e1 : ecc2 a b = (a - b) / a * (2 - (a - b) / a) := by
    unfold ecc2; field_simp; ring
  have e2 : ecc2 a b = 1 - b ^ 2 / a ^ 2 := by linarith [one_sub_ecc2 hb hab]
  have e3 : (a * a - b * b) / (b * b) = ecc2 a b / (1 - ecc2 a b) := by
    rw [one_sub_ecc2 hb hab]; unfold ecc2; field_simp; ring
  have h1 := ell_eSq hb hab n
  have h2 : (ell n a b).ePrimeSq = fin (ecc2 a b / (1 - ecc2 a b)) := by
    simp only [Ellipsoid.ePrimeSq, Ellipsoid.aSq, Ellipsoid.bSq, ell, mul_fin, sub_fin]
    rw [div_fin _ (by positivity), e3]
  refine ⟨rfl, rfl, ell_f hb hab n, rfl, fun h => ?_, fun h => ?_, ?_, ?_, ?_, ?_, ?_, ?_, ?_⟩
  · simp [ell, h]
  · simp only [ell, h, if_true]; congr 1; field_simp
  · simp only [Ellipsoid.n, ell, Length.mk_sub, Length.mk_add, Length.mk_div_mk, sub_fin, add_fin]
    rw [div_fin _ (by positivity)]
    congr 1
    have : 2 - (a - b) / a = (a + b) / a := by field_simp; ring
    rw [this]; field_simp
  · rw [h1, e1]
  · rw [h1, e2]
  · rw [h2, e1]
  · rw [Ellipsoid.e, h1, sqrt_fin (ecc2_nonneg hb hab), e1]
  · rw [Ellipsoid.ePrime, h2, sqrt_fin, e1]
    exact div_nonneg (ecc2_nonneg hb hab) (by linarith [ecc2_lt_one hb hab])
  · rw [ell_isSpherical hb hab]; simp

/-- **C22**: parameters of an ellipsoid built from its two axes. -/
theorem C22_from_ab {name : String} {a b : ℝ} {e : Ellipsoid XR}
    (h : Ellipsoid.fromAb name ⟨fin a⟩ ⟨fin b⟩ = .ok e) : ConsistentParameters e a b ((a - b) / a) := by
  obtain ⟨h1, h2, rfl⟩ := fromAb_eq h
  exact consistent_ell _ h1 h2

/-- **C22**: parameters of an ellipsoid built from its semi-major axis and inverse flattening. -/
theorem C22_from_ainvf {name : String} {a r : ℝ} {e : Ellipsoid XR}
    (h : Ellipsoid.fromAinvf name ⟨fin a⟩ (fin r) = .ok e) :
    ConsistentParameters e a (a * (1 - 1 / r)) (1 / r) := by
  obtain ⟨h1, h2, rfl⟩ := fromAinvf_eq h
  have hv := ainvf_valid h1 h2
  have := consistent_ell name hv.1 hv.2.le
  have e1 : (a - a * (1 - 1 / r)) / a = 1 / r := by
    have : r ≠ 0 := by linarith
    field_simp; ring
  rwa [e1] at this

/-- **C22**: both constructors agree on matching parameters. -/
theorem C22_same_ellipsoid {name name' : String} {a b : ℝ} {e e' : Ellipsoid XR} (hlt : b < a)
    (h : Ellipsoid.fromAb name ⟨fin a⟩ ⟨fin b⟩ = .ok e)
    (h' : Ellipsoid.fromAinvf name' ⟨fin a⟩ (fin (a / (a - b))) = .ok e') :
    e.beq e' = true ∧ e.f = e'.f ∧ e.eSq = e'.eSq := by
  obtain ⟨h1, h2, rfl⟩ := fromAb_eq h
  obtain ⟨h3, h4, rfl⟩ := fromAinvf_eq h'
  have : a * (1 - 1 / (a / (a - b))) = b := by
    have : a - b ≠ 0 := by linarith
    field_simp; ring
  rw [this]
  refine ⟨?_, ?_, ?_⟩
  · simp [Ellipsoid.beq, ell, Length.beq, hlt]
  · rw [ell_f h1 h2, ell_f h1 h2]
  · rw [ell_eSq h1 h2, ell_eSq h1 h2]

/-- The hypotheses of `C22_same_ellipsoid` are met. -/
example : ∃ e e', Ellipsoid.fromAb "x" (⟨fin 3⟩ : Length XR) ⟨fin 2⟩ = .ok e ∧
    Ellipsoid.fromAinvf "y" (⟨fin 3⟩ : Length XR) (fin (3 / (3 - 2))) = .ok e' := by
  obtain ⟨e, h, _⟩ := (C21_from_ab "x" 3 2).1 (by norm_num)
  obtain ⟨e', h', _⟩ := (C21_from_ainvf "y" 3 (3 / (3 - 2))).1 (by norm_num)
  exact ⟨e, e', h, h'⟩

/-! ### C23 -/

theorem rpow_three_halves {w : ℝ} (hw : 0 < w) : w ^ (1.5 : ℝ) = w * Real.sqrt w := by
  rw [Real.sqrt_eq_rpow]
  nth_rewrite 2 [← Real.rpow_one w]
  rw [← Real.rpow_add hw]
  norm_num

/-- Values of the radii. -/
theorem radii_fin (n : String) {a b : ℝ} (hb : 0 < b) (hab : b ≤ a) (φ : ℝ) :
    (ell n a b).conformalSphereRadius (latR φ) =
      ⟨fin (Real.sqrt (a * (1 - ecc2 a b) / wf a b φ ^ (1.5 : ℝ) * (a / Real.sqrt (wf a b φ))))⟩ := by
  have ha : 0 < a := lt_of_lt_of_le hb hab
  have hw := wf_pos hb hab φ
  have h1 := ecc2_lt_one hb hab
  rw [Ellipsoid.conformalSphereRadius, ell_M hb hab, ell_N hb hab]
  simp only [mul_fin]
  rw [sqrt_fin, length_new_m]
  have : 0 < 1 - ecc2 a b := by linarith
  have := Real.rpow_pos_of_pos hw 1.5
  have := Real.sqrt_pos.2 hw
  positivity

/-- **C23**: bounds of the radii of curvature. -/
theorem C23_bounds {name : String} {a b : ℝ} {e : Ellipsoid XR}
    (he : Ellipsoid.fromAb name ⟨fin a⟩ ⟨fin b⟩ = .ok e) (φ : ℝ) :
    ∃ N M R : ℝ, e.primeVerticalRadius (latR φ) = ⟨fin N⟩ ∧ e.primeMeridionalRadius (latR φ) = ⟨fin M⟩ ∧
      e.conformalSphereRadius (latR φ) = ⟨fin R⟩ ∧
      a ≤ N ∧ N ≤ a ^ 2 / b ∧ b ^ 2 / a ≤ M ∧ M ≤ N ∧ R = Real.sqrt (M * N) ∧ M ≤ R ∧ R ≤ N := by
  obtain ⟨hb, hab, rfl⟩ := fromAb_eq he
  have ha : 0 < a := lt_of_lt_of_le hb hab
  have hw := wf_pos hb hab φ
  have hw1 := wf_le_one hb hab φ
  have hw2 := wf_ge hb hab φ
  have hs := Real.sqrt_pos.2 hw
  have hs1 : Real.sqrt (wf a b φ) ≤ 1 := Real.sqrt_le_one.2 hw1
  have hs2 : b / a ≤ Real.sqrt (wf a b φ) := by
    apply Real.le_sqrt_of_sq_le; rw [div_pow]; exact hw2
  have hM : a * (1 - ecc2 a b) / wf a b φ ^ (1.5 : ℝ) = b ^ 2 / a / (wf a b φ * Real.sqrt (wf a b φ)) := by
    rw [one_sub_ecc2 hb hab, rpow_three_halves hw]; field_simp
  have hMN : b ^ 2 / a / (wf a b φ * Real.sqrt (wf a b φ)) ≤ a / Real.sqrt (wf a b φ) := by
    rw [← div_div, div_le_div_iff_of_pos_right hs, div_le_iff₀ hw]
    calc b ^ 2 / a = a * (b ^ 2 / a ^ 2) := by field_simp
      _ ≤ a * wf a b φ := by gcongr
  refine ⟨_, _, _, ell_N hb hab name φ, ell_M hb hab name φ, radii_fin name hb hab φ, ?_, ?_, ?_, ?_, rfl, ?_, ?_⟩
  · rw [le_div_iff₀ hs]; nlinarith
  · rw [div_le_div_iff₀ hs hb]
    have : a ^ 2 * (b / a) ≤ a ^ 2 * Real.sqrt (wf a b φ) := by gcongr
    calc a * b = a ^ 2 * (b / a) := by field_simp
      _ ≤ _ := this
  · rw [hM, le_div_iff₀ (by positivity)]
    have : wf a b φ * Real.sqrt (wf a b φ) ≤ 1 := mul_le_one₀ hw1 hs.le hs1
    have h0 : 0 ≤ b ^ 2 / a := by positivity
    nlinarith
  · rw [hM]; exact hMN
  · rw [hM]
    apply Real.le_sqrt_of_sq_le
    rw [pow_two]; gcongr
  · rw [hM]
    rw [Real.sqrt_le_iff]
    exact ⟨by positivity, (mul_le_mul_of_nonneg_right hMN (by positivity)).trans_eq (pow_two _).symm⟩

/-- **C23**: values at the equator and at the poles. -/
theorem C23_ends {name : String} {a b : ℝ} {e : Ellipsoid XR}
    (he : Ellipsoid.fromAb name ⟨fin a⟩ ⟨fin b⟩ = .ok e) :
    e.primeVerticalRadius (latR 0) = ⟨fin a⟩ ∧ e.primeMeridionalRadius (latR 0) = ⟨fin (b ^ 2 / a)⟩ ∧
    (∀ φ, φ = Real.pi / 2 ∨ φ = -(Real.pi / 2) →
      e.primeVerticalRadius (latR φ) = ⟨fin (a ^ 2 / b)⟩ ∧ e.primeMeridionalRadius (latR φ) = ⟨fin (a ^ 2 / b)⟩) := by
  obtain ⟨hb, hab, rfl⟩ := fromAb_eq he
  have ha : 0 < a := lt_of_lt_of_le hb hab
  have h0 : wf a b 0 = 1 := by simp [wf]
  refine ⟨?_, ?_, ?_⟩
  · rw [ell_N hb hab, h0]; simp
  · rw [ell_M hb hab, h0, one_sub_ecc2 hb hab]
    rw [Real.one_rpow]
    congr 2; field_simp
  · intro φ hφ
    have h1 : wf a b φ = (b / a) ^ 2 := by
      rw [wf, div_pow, ← one_sub_ecc2 hb hab]
      rcases hφ with rfl | rfl <;> simp
    have hw := wf_pos hb hab φ
    rw [ell_N hb hab, ell_M hb hab, rpow_three_halves hw, h1, one_sub_ecc2 hb hab,
      Real.sqrt_sq (by positivity)]
    constructor <;> (congr 2; field_simp)

/-- **C23**: the radii are even in latitude and non-decreasing from the equator to the poles. -/
theorem C23_even_monotone {name : String} {a b : ℝ} {e : Ellipsoid XR}
    (he : Ellipsoid.fromAb name ⟨fin a⟩ ⟨fin b⟩ = .ok e) :
    (∀ φ, e.primeVerticalRadius (latR (-φ)) = e.primeVerticalRadius (latR φ) ∧
      e.primeMeridionalRadius (latR (-φ)) = e.primeMeridionalRadius (latR φ)) ∧
    (∀ φ ψ, |φ| ≤ |ψ| → |ψ| ≤ Real.pi / 2 → ∃ N N' M M' : ℝ,
      e.primeVerticalRadius (latR φ) = ⟨fin N⟩ ∧ e.primeVerticalRadius (latR ψ) = ⟨fin N'⟩ ∧
      e.primeMeridionalRadius (latR φ) = ⟨fin M⟩ ∧ e.primeMeridionalRadius (latR ψ) = ⟨fin M'⟩ ∧
      N ≤ N' ∧ M ≤ M') := by
  obtain ⟨hb, hab, rfl⟩ := fromAb_eq he
  have ha : 0 < a := lt_of_lt_of_le hb hab
  constructor
  · intro φ
    have : wf a b (-φ) = wf a b φ := by simp [wf]
    rw [ell_N hb hab, ell_M hb hab, ell_N hb hab, ell_M hb hab, this]
    exact ⟨rfl, rfl⟩
  · intro φ ψ h1 h2
    have hpi := Real.pi_pos
    have hsin : Real.sin φ ^ 2 ≤ Real.sin ψ ^ 2 := by
      have e1 : ∀ x, Real.sin x ^ 2 = Real.sin |x| ^ 2 := fun x => by
        rcases abs_choice x with h | h <;> rw [h] <;> simp
      rw [e1 φ, e1 ψ]
      have : Real.sin |φ| ≤ Real.sin |ψ| :=
        Real.sin_le_sin_of_le_of_le_pi_div_two (by linarith [abs_nonneg φ]) h2 h1
      have h0 : 0 ≤ Real.sin |φ| := Real.sin_nonneg_of_nonneg_of_le_pi (abs_nonneg _) (by linarith)
      gcongr
    have hwle : wf a b ψ ≤ wf a b φ := by
      have := mul_le_mul_of_nonneg_left hsin (ecc2_nonneg hb hab)
      unfold wf; linarith
    have hwψ := wf_pos hb hab ψ
    have hwφ := wf_pos hb hab φ
    refine ⟨_, _, _, _, ell_N hb hab name φ, ell_N hb hab name ψ, ell_M hb hab name φ, ell_M hb hab name ψ, ?_, ?_⟩
    · have := Real.sqrt_pos.2 hwψ
      gcongr
    · have h3 : 0 ≤ 1 - ecc2 a b := by linarith [ecc2_lt_one hb hab]
      have := Real.rpow_pos_of_pos hwψ 1.5
      gcongr

example : ∃ e, Ellipsoid.fromAb "x" (⟨fin 3⟩ : Length XR) ⟨fin 2⟩ = .ok e := by
  obtain ⟨e, h, _⟩ := (C21_from_ab "x" 3 2).1 (by norm_num)
  exact ⟨e, h⟩

/-! ### C70 -/

theorem defAinvf_eq (name : String) {a r : ℝ} (ha : 0 < a) (hr : 1 < r) :
    Ellipsoid.defAinvf name (fin a) (fin r) = ell name a (a * (1 - 1 / r)) := by
  have hv := ainvf_valid ha hr
  have hr0 : r ≠ 0 := by linarith
  simp only [Ellipsoid.defAinvf, Ellipsoid.newStatic, one_eq, length_new_m, ell]
  rw [div_fin _ hr0, if_pos hv.2]
  simp only [sub_fin, mul_fin, length_new_m]
  congr 2
  field_simp; simp

theorem defAb_eq (name : String) {a b : ℝ} (hab : b < a) :
    Ellipsoid.defAb name (fin a) (fin b) = ell name a b := by
  simp only [Ellipsoid.defAb, Ellipsoid.newStatic, length_new_m, ell, eq_fin, sub_fin]
  rw [div_fin _ (by linarith), if_pos hab, if_pos (by simpa using hab.ne')]

/-- What the checked constructors guarantee: positive axes in order and the inverse flattening of the axes. -/
def ValidEllipsoid (e : Ellipsoid XR) : Prop :=
  ∃ a b : ℝ, e.a = ⟨fin a⟩ ∧ e.b = ⟨fin b⟩ ∧ 0 < b ∧ b < a ∧ e.invf = fin (a / (a - b)) ∧ 1 < a / (a - b)

theorem valid_ell (n : String) {a b : ℝ} (hb : 0 < b) (hab : b < a) : ValidEllipsoid (ell n a b) := by
  refine ⟨a, b, rfl, rfl, hb, hab, ?_, ?_⟩
  · simp [ell, hab]
  · rw [one_lt_div (by linarith)]; linarith

theorem valid_defAinvf (n : String) (a r : ℝ) (ha : 0 < a) (hr : 1 < r) :
    ValidEllipsoid (Ellipsoid.defAinvf n (fin a) (fin r)) := by
  rw [defAinvf_eq n ha hr]
  exact valid_ell n (ainvf_valid ha hr).1 (ainvf_valid ha hr).2
theorem valid_defAb (n : String) (a b : ℝ) (hb : 0 < b) (hab : b < a) :
    ValidEllipsoid (Ellipsoid.defAb n (fin a) (fin b)) := by
  rw [defAb_eq n hab]
  exact valid_ell n hb hab

/-- **C70**: every named ellipsoid satisfies the invariants of the constructors (and is not a sphere). -/
theorem C70_ellipsoids_partial : ∀ e ∈ (Ellipsoid.consts.all : List (Ellipsoid XR)), ValidEllipsoid e := by
  open Ellipsoid.consts in
  simp only [all, List.mem_cons, List.not_mem_nil, or_false, forall_eq_or_imp, forall_eq, AIRY, ANDRAE, DANISH,
    APL_4_9, AUST_SA, BESSEL, BESS_NAM, CLRK66, CLRK80, CLRK80IGN, CPM,
    DELMBR, ENGELIS, EVRST30, EVRST48, EVRST56, EVRST69, EVRSTSS, FSCHR60, FSCHR68, GSK2011,
    GRS67, GRS80, IAU76, HELMERT, HOUGH, INTL, KAULA, KRASS, LERCH, MPRTS, MERIT, MOD_AIRY,
    FSCHR60M, NWL9D, NEW_INTL, PLESSIS, PZ90, SEASIA, SGS85, WALBECK, WGS60, WGS66, WGS72, WGS84,
    SPHERE, sci_eq, ofNat_eq]
  and_intros <;> first
    | exact valid_defAinvf _ _ _ (by norm_num) (by norm_num)
    | exact valid_defAb _ _ _ (by norm_num) (by norm_num)

/-- **C70**: every named prime meridian lies strictly between -180 and 180 degrees. -/
theorem C70_prime_meridians_partial : ∀ p ∈ (PrimeMeridian.consts.all : List (PrimeMeridian XR)),
    ∃ d : ℝ, p.lon = lonR (d * (Real.pi / 180)) ∧ -180 < d ∧ d < 180 := by
  have key : ∀ (n : String) (d : ℝ), -180 < d → d < 180 →
      ∃ d' : ℝ, (PrimeMeridian.defDeg n (fin d)).lon = lonR (d' * (Real.pi / 180)) ∧ -180 < d' ∧ d' < 180 := by
    intro n d h1 h2
    refine ⟨d, ?_, h1, h2⟩
    simp only [PrimeMeridian.defDeg, PrimeMeridian.newStatic, Lon.constNew, angle_new_deg, lonR]
  open PrimeMeridian.consts in
  simp only [all, List.mem_cons, List.not_mem_nil, or_false, forall_eq_or_imp, forall_eq, GREENWICH, LISBON, PARIS,
    BOGOTA, MADRID, ROME, BERN, JAKARTA, FERRO, BRUSSELS, STOCKHOLM, ATHENS, OSLO, COPENHAGEN, sci_eq, zero_eq,
    neg_fin]
  and_intros <;> exact key _ _ (by norm_num) (by norm_num)

/-- **C70** fails for the constant called a sphere: its axes differ by one metre (an inverse flattening was
given where a second axis was meant). -/
theorem C70_sphere_is_not_spherical :
    (Ellipsoid.consts.SPHERE : Ellipsoid XR).isSpherical = false ∧
    (Ellipsoid.consts.SPHERE : Ellipsoid XR).a = ⟨fin 6370997⟩ ∧
    (Ellipsoid.consts.SPHERE : Ellipsoid XR).b = ⟨fin 6370996⟩ := by
  have h : (Ellipsoid.consts.SPHERE : Ellipsoid XR) = ell "Normal Sphere (r=6370997)" 6370997 6370996 := by
    simp only [Ellipsoid.consts.SPHERE, ofNat_eq]
    rw [defAinvf_eq _ (by norm_num) (by norm_num)]
    congr 1; norm_num
  rw [h, ell_isSpherical (by norm_num) (by norm_num)]
  refine ⟨by norm_num, rfl, rfl⟩

end Geo
