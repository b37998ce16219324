import Verif.Model.Cs
import Verif.Sem.XR
import Verif.Spec.Circle
import Verif.Lemmas.Res

/-! Exact arithmetic of wrapped and normalized angles. -/

namespace Geo
open XR Spec

theorem abs_sub_rte (x : ℝ) : |x - rte x| ≤ 1 / 2 := by
  have h0 := Int.fract_nonneg x
  have h1 := Int.fract_lt_one x
  have hx : x = ⌊x⌋ + Int.fract x := (Int.floor_add_fract x).symm
  unfold rte
  rw [abs_le]
  split
  · constructor <;> linarith
  · split
    · push_cast; constructor <;> linarith
    · split
      · constructor <;> linarith
      · push_cast; constructor <;> linarith

theorem rte_eq_zero {x : ℝ} (h1 : -(1 / 2) ≤ x) (h2 : x ≤ 1 / 2) : rte x = 0 := by
  have hx : (⌊x⌋ : ℝ) + Int.fract x = x := Int.floor_add_fract x
  have h0 := Int.fract_nonneg x
  have h3 := Int.fract_lt_one x
  have hfl : ⌊x⌋ = 0 ∨ ⌊x⌋ = -1 := by
    have ha : (⌊x⌋ : ℝ) < 1 := by linarith
    have hb : (-2 : ℝ) < ⌊x⌋ := by linarith
    have ha' : ⌊x⌋ < 1 := by exact_mod_cast ha
    have hb' : (-2 : ℤ) < ⌊x⌋ := by exact_mod_cast hb
    omega
  unfold rte
  rcases hfl with h | h
  · rw [h] at hx ⊢
    push_cast at hx
    split
    · rfl
    · rw [if_neg (by linarith)]
      simp
  · rw [h] at hx ⊢
    push_cast at hx
    rw [if_neg (by linarith)]
    split
    · rfl
    · rw [if_neg (by decide)]
      rfl

/-- `remainder(x, 2π)`. -/
noncomputable def remR (x : ℝ) : ℝ := x - rte (x / (2 * Real.pi)) * (2 * Real.pi)

theorem two_pi_pos' : (0 : ℝ) < 2 * Real.pi := by positivity

theorem remR_abs (x : ℝ) : |remR x| ≤ Real.pi := by
  have h := abs_sub_rte (x / (2 * Real.pi))
  have hp := two_pi_pos'
  have : remR x = (x / (2 * Real.pi) - rte (x / (2 * Real.pi))) * (2 * Real.pi) := by
    unfold remR
    field_simp
  rw [this, abs_mul, abs_of_pos hp]
  nlinarith [Real.pi_pos]

theorem remR_le (x : ℝ) : remR x ≤ Real.pi := (abs_le.1 (remR_abs x)).2
theorem le_remR (x : ℝ) : -Real.pi ≤ remR x := (abs_le.1 (remR_abs x)).1

theorem remR_same (x : ℝ) : SameDirection (remR x) x :=
  ⟨-rte (x / (2 * Real.pi)), by unfold remR; push_cast; ring⟩

theorem remR_id {x : ℝ} (h1 : -Real.pi ≤ x) (h2 : x ≤ Real.pi) : remR x = x := by
  have hp := Real.pi_pos
  unfold remR
  rw [rte_eq_zero]
  · simp
  · rw [le_div_iff₀ two_pi_pos']; linarith
  · rw [div_le_iff₀ two_pi_pos']; linarith

theorem remR_wraps (x : ℝ) : WrapsTo (remR x) x :=
  ⟨le_remR x, remR_le x, remR_same x, fun h1 h2 => remR_id h1 h2⟩

/-- Value of `normalized`. -/
noncomputable def normR (x : ℝ) : ℝ := if remR x ≤ -Real.pi then Real.pi else remR x

theorem Spec.SameDirection.refl (a : ℝ) : SameDirection a a := ⟨0, by simp⟩
theorem Spec.SameDirection.symm {a b : ℝ} (h : SameDirection a b) : SameDirection b a := by
  obtain ⟨k, hk⟩ := h
  exact ⟨-k, by rw [hk]; push_cast; ring⟩
theorem Spec.SameDirection.trans {a b c : ℝ} (h : SameDirection a b) (h' : SameDirection b c) :
    SameDirection a c := by
  obtain ⟨k, hk⟩ := h
  obtain ⟨l, hl⟩ := h'
  exact ⟨k + l, by rw [hk, hl]; push_cast; ring⟩
theorem Spec.SameDirection.add {a b c d : ℝ} (h : SameDirection a b) (h' : SameDirection c d) :
    SameDirection (a + c) (b + d) := by
  obtain ⟨k, hk⟩ := h
  obtain ⟨l, hl⟩ := h'
  exact ⟨k + l, by rw [hk, hl]; push_cast; ring⟩
theorem Spec.SameDirection.neg {a b : ℝ} (h : SameDirection a b) : SameDirection (-a) (-b) := by
  obtain ⟨k, hk⟩ := h
  exact ⟨-k, by rw [hk]; push_cast; ring⟩
theorem Spec.SameDirection.sub {a b c d : ℝ} (h : SameDirection a b) (h' : SameDirection c d) :
    SameDirection (a - c) (b - d) := by
  rw [sub_eq_add_neg, sub_eq_add_neg]
  exact h.add h'.neg

theorem normR_normalizes (x : ℝ) : NormalizesTo (normR x) x := by
  have hp := Real.pi_pos
  unfold normR
  split
  · rename_i h
    have he : remR x = -Real.pi := le_antisymm h (le_remR x)
    refine ⟨by linarith, le_refl _, ?_⟩
    have : SameDirection Real.pi (remR x) := ⟨1, by rw [he]; push_cast; ring⟩
    exact this.trans (remR_same x)
  · rename_i h
    exact ⟨not_le.1 h, remR_le x, remR_same x⟩

theorem same_unique {a b : ℝ} (ha : -Real.pi < a) (ha' : a ≤ Real.pi) (hb : -Real.pi < b)
    (hb' : b ≤ Real.pi) (h : SameDirection a b) : a = b := by
  obtain ⟨k, hk⟩ := h
  have hp := two_pi_pos'
  have h1 : (k : ℝ) * (2 * Real.pi) < 1 * (2 * Real.pi) := by linarith
  have h2 : (-1 : ℝ) * (2 * Real.pi) < k * (2 * Real.pi) := by linarith
  have h1' : (k : ℝ) < 1 := lt_of_mul_lt_mul_right h1 hp.le
  have h2' : (-1 : ℝ) < k := lt_of_mul_lt_mul_right h2 hp.le
  have : k = 0 := by
    have a1 : k < 1 := by exact_mod_cast h1'
    have a2 : -1 < k := by exact_mod_cast h2'
    omega
  rw [hk, this]; simp

theorem normalizes_unique {r r' x y : ℝ} (h : NormalizesTo r x) (h' : NormalizesTo r' y)
    (hxy : SameDirection x y) : r = r' :=
  same_unique h.1 h.2.1 h'.1 h'.2.1 ((h.2.2.trans hxy).trans h'.2.2.symm)

theorem normR_eq {r x : ℝ} (h : NormalizesTo r x) : normR x = r :=
  normalizes_unique (normR_normalizes x) h (SameDirection.refl x)

theorem normR_congr {x y : ℝ} (h : SameDirection x y) : normR x = normR y :=
  normalizes_unique (normR_normalizes x) (normR_normalizes y) h

theorem normR_same (x : ℝ) : SameDirection (normR x) x := (normR_normalizes x).2.2
theorem normR_le (x : ℝ) : normR x ≤ Real.pi := (normR_normalizes x).2.1
theorem lt_normR (x : ℝ) : -Real.pi < normR x := (normR_normalizes x).1

theorem normR_id {x : ℝ} (h1 : -Real.pi < x) (h2 : x ≤ Real.pi) : normR x = x :=
  normR_eq ⟨h1, h2, SameDirection.refl x⟩

theorem normR_normR (x : ℝ) : normR (normR x) = normR x := normR_id (lt_normR x) (normR_le x)

/-- The normalized angle is the smallest representative in absolute value. -/
theorem abs_normR_le {x y : ℝ} (h : SameDirection y x) : |normR x| ≤ |y| := by
  by_cases hy : |y| ≤ Real.pi
  · rcases eq_or_lt_of_le (neg_le_of_abs_le hy) with he | hlt
    · rw [← he, abs_neg, abs_of_pos Real.pi_pos, abs_le]
      exact ⟨(lt_normR x).le, normR_le x⟩
    · rw [normR_eq ⟨hlt, le_of_abs_le hy, h⟩]
  · exact le_trans (abs_le.2 ⟨(lt_normR x).le, normR_le x⟩) (not_le.1 hy).le

theorem remainder_tau (x : ℝ) : remainder (fin x) (fin (2 * Real.pi)) = fin (remR x) := by
  have : (2 * Real.pi : ℝ) ≠ 0 := two_pi_pos'.ne'
  simp [remainder, div_fin _ this, remR]

theorem wrapped_fin (x : ℝ) : (Angle.mk (fin x)).wrapped = ⟨fin (remR x)⟩ := by
  have := le_remR x
  simp [Angle.wrapped, remainder_tau, not_lt.2 this]

theorem normalized_fin (x : ℝ) : (Angle.mk (fin x)).normalized = ⟨fin (normR x)⟩ := by
  unfold Angle.normalized normR
  simp only [tau_eq, remainder_tau, pi_eq, neg_fin, le_fin]
  by_cases h : remR x ≤ -Real.pi <;> simp [h]

@[simp] theorem Angle.rad_add (a b : Angle XR) : (a + b).rad = a.rad + b.rad := rfl
@[simp] theorem Angle.rad_sub (a b : Angle XR) : (a - b).rad = a.rad - b.rad := rfl
@[simp] theorem Angle.rad_neg (a : Angle XR) : (-a).rad = -a.rad := rfl
@[simp] theorem Angle.mk_add (x y : XR) : (Angle.mk x + Angle.mk y) = ⟨x + y⟩ := rfl
@[simp] theorem Angle.mk_sub (x y : XR) : (Angle.mk x - Angle.mk y) = ⟨x - y⟩ := rfl
@[simp] theorem Angle.mk_neg (x : XR) : (-Angle.mk x) = ⟨-x⟩ := rfl
@[simp] theorem Angle.mk_mul (x y : XR) : (Angle.mk x * y : Angle XR) = ⟨x * y⟩ := rfl
@[simp] theorem Angle.mul_mk (x y : XR) : (x * Angle.mk y : Angle XR) = ⟨x * y⟩ := rfl
@[simp] theorem Angle.mk_div (x y : XR) : (Angle.mk x / y : Angle XR) = ⟨x / y⟩ := rfl
@[simp] theorem Length.mk_add (x y : XR) : (Length.mk x + Length.mk y) = ⟨x + y⟩ := rfl
@[simp] theorem Length.mk_sub (x y : XR) : (Length.mk x - Length.mk y) = ⟨x - y⟩ := rfl
@[simp] theorem Length.mul_mk (x y : XR) : (x * Length.mk y : Length XR) = ⟨x * y⟩ := rfl
@[simp] theorem Length.mk_mul (x y : XR) : (Length.mk x * y : Length XR) = ⟨y * x⟩ := rfl
@[simp] theorem Length.mk_div (x y : XR) : (Length.mk x / y : Length XR) = ⟨x / y⟩ := rfl
@[simp] theorem Length.mk_div_mk (x y : XR) : (Length.mk x / Length.mk y : XR) = x / y := rfl

theorem radPerUnit_rad : (RAD : AngleUnit XR).radPerUnit = fin 1 := by
  simp [RAD, AngleUnit.radPerUnit, div_fin]
theorem radPerUnit_deg : (DEG : AngleUnit XR).radPerUnit = fin (Real.pi / 180) := by
  simp [DEG, AngleUnit.radPerUnit, div_fin]
theorem angle_new_rad (x : ℝ) : Angle.new (fin x) RAD = ⟨fin x⟩ := by
  simp [Angle.new, radPerUnit_rad]
theorem angle_new_deg (x : ℝ) : Angle.new (fin x) DEG = ⟨fin (x * (Real.pi / 180))⟩ := by
  simp [Angle.new, radPerUnit_deg]
theorem length_new_m (x : ℝ) : Length.new (fin x) M = ⟨fin x⟩ := by
  simp [Length.new, M, LengthUnit.mPerUnit, div_fin]
theorem length_zero : (Length.ZERO : Length XR) = ⟨fin 0⟩ := by simp [Length.ZERO]

theorem diffTo_fin (a b : ℝ) : (Angle.mk (fin a)).diffTo ⟨fin b⟩ = ⟨fin (normR (b - a))⟩ := by
  simp [Angle.diffTo, normalized_fin]

end Geo
