import Mathlib.Analysis.InnerProductSpace.PiL2
import Verif.Model.Transformations
import Verif.Props.AxesExact

/-! # C45-C47: datum shifts, in exact arithmetic -/

namespace Geo
open XR

/-! ### C45 -/

/-- The translation by the vector `(a, b, c)` metres. -/
noncomputable def translation (a b c : ℝ) : XYZTransformation XR := GeocentricTranslation.toTransformation ⟨⟨fin a⟩, ⟨fin b⟩, ⟨fin c⟩⟩

/-- **C45**: `to_ref` moves every point by the translation vector, and `from_ref` undoes it, both ways. -/
theorem C45_translation (a b c x y z : ℝ) :
    (translation a b c).toRef (xyz x y z) = xyz (x + a) (y + b) (z + c) ∧
    (translation a b c).fromRef ((translation a b c).toRef (xyz x y z)) = xyz x y z ∧
    (translation a b c).toRef ((translation a b c).fromRef (xyz x y z)) = xyz x y z := by
  refine ⟨rfl, ?_, ?_⟩ <;>
    simp [translation, GeocentricTranslation.toTransformation, GeocentricTranslation.toRef,
      GeocentricTranslation.fromRef, xyz]

/-- **C45** fails off the finite points, as it must: an infinite translation sends everything to NaN. -/
example : ((GeocentricTranslation.mk ⟨(pinf : XR)⟩ ⟨0⟩ ⟨0⟩).fromRef
    ((GeocentricTranslation.mk ⟨(pinf : XR)⟩ ⟨0⟩ ⟨0⟩).toRef (xyz 1 2 3))).x = ⟨nan⟩ := rfl

/-! ### C46 -/

/-- The 7-parameter transformation with position-vector rotation `r` (radians), translation `t` (metres), scale `m`
(parts per million). -/
noncomputable def helmert (r1 r2 r3 t1 t2 t3 m : ℝ) : XYZTransformation XR :=
  (Helmert7Params.new .positionVector ⟨fin r1⟩ ⟨fin r2⟩ ⟨fin r3⟩ ⟨fin t1⟩ ⟨fin t2⟩ ⟨fin t3⟩ ⟨fin m⟩).toTransformation

theorem ppm_factor (m : ℝ) : (PPM.mk (fin m)).factor = fin (1 + m * 1e-6) := by
  simp only [PPM.factor, sci_eq, mul_fin, add_fin]
  norm_num
theorem ppm_invFactor (m : ℝ) : (PPM.mk (fin m)).invFactor = fin (1 - m * 1e-6) := by
  simp only [PPM.invFactor, sci_eq, mul_fin, sub_fin]
  norm_num

/-- **C46**: `to_ref` is `p ↦ (1 + m 1e-6) (p + r × p) + t`. -/
theorem C46_to_ref (r1 r2 r3 t1 t2 t3 m x y z : ℝ) :
    (helmert r1 r2 r3 t1 t2 t3 m).toRef (xyz x y z) =
      xyz ((1 + m * 1e-6) * (x + (r2 * z - r3 * y)) + t1) ((1 + m * 1e-6) * (y + (r3 * x - r1 * z)) + t2)
        ((1 + m * 1e-6) * (z + (r1 * y - r2 * x)) + t3) := by
  simp only [helmert, Helmert7Params.toTransformation, Helmert7Params.toRef, Helmert7Params.new, Mat3.identity, Mat3.add,
    Mat3.mulF, Mat3.mulVec, Vec3.add, xyz, ppm_factor, zero_eq, one_eq, neg_fin, add_fin, mul_fin, length_new_m]
  congr 3 <;> ring

theorem helmert_fromRef (r1 r2 r3 t1 t2 t3 m x y z : ℝ) :
    (helmert r1 r2 r3 t1 t2 t3 m).fromRef (xyz x y z) =
      xyz ((1 - m * 1e-6) * (x - (r2 * z - r3 * y)) - t1) ((1 - m * 1e-6) * (y - (r3 * x - r1 * z)) - t2)
        ((1 - m * 1e-6) * (z - (r1 * y - r2 * x)) - t3) := by
  simp only [helmert, Helmert7Params.toTransformation, Helmert7Params.fromRef, Helmert7Params.new, Mat3.identity, Mat3.sub,
    Mat3.mulF, Mat3.mulVec, Vec3.sub, xyz, ppm_invFactor, zero_eq, one_eq, neg_fin, sub_fin, add_fin, mul_fin,
    length_new_m]
  congr 3 <;> ring

/-- Length of a vector. -/
noncomputable def norm3 (x y z : ℝ) : ℝ := ‖(WithLp.toLp 2 ![x, y, z] : EuclideanSpace ℝ (Fin 3))‖

theorem norm3_eq (x y z : ℝ) : norm3 x y z = Real.sqrt (x ^ 2 + y ^ 2 + z ^ 2) := by
  simp [norm3, EuclideanSpace.norm_eq, Fin.sum_univ_three]

theorem norm3_nonneg (x y z : ℝ) : 0 ≤ norm3 x y z := norm_nonneg _

theorem norm3_add (x y z x' y' z' : ℝ) : norm3 (x + x') (y + y') (z + z') ≤ norm3 x y z + norm3 x' y' z' := by
  have := norm_add_le (WithLp.toLp 2 ![x, y, z] : EuclideanSpace ℝ (Fin 3)) (WithLp.toLp 2 ![x', y', z'])
  refine le_trans (le_of_eq ?_) this
  unfold norm3
  congr 1
  ext i
  fin_cases i <;> simp

theorem norm3_smul (k x y z : ℝ) : norm3 (k * x) (k * y) (k * z) = |k| * norm3 x y z := by
  rw [norm3_eq, norm3_eq, ← Real.sqrt_sq_eq_abs, ← Real.sqrt_mul (sq_nonneg k)]
  congr 1; ring

theorem norm3_cross (r1 r2 r3 x y z : ℝ) :
    norm3 (r2 * z - r3 * y) (r3 * x - r1 * z) (r1 * y - r2 * x) ≤ norm3 r1 r2 r3 * norm3 x y z := by
  rw [norm3_eq, norm3_eq, norm3_eq, ← Real.sqrt_mul (by positivity)]
  apply Real.sqrt_le_sqrt
  nlinarith [sq_nonneg (r1 * x + r2 * y + r3 * z)]

/-- **C46**: `from_ref (to_ref p)` is at distance at most `m²|p| + |1 - m²| |r|² |p| + |m| |t| + |1 - m| |r| |t|` from
`p`, for the scale `m` as a ratio. -/
theorem C46_residual (r1 r2 r3 t1 t2 t3 m x y z : ℝ) :
    ∃ x' y' z', (helmert r1 r2 r3 t1 t2 t3 m).fromRef ((helmert r1 r2 r3 t1 t2 t3 m).toRef (xyz x y z)) = xyz x' y' z' ∧
      norm3 (x' - x) (y' - y) (z' - z) ≤
        ((m * 1e-6) ^ 2 + |1 - (m * 1e-6) ^ 2| * norm3 r1 r2 r3 ^ 2) * norm3 x y z
          + (|m * 1e-6| + |1 - m * 1e-6| * norm3 r1 r2 r3) * norm3 t1 t2 t3 := by
  rw [C46_to_ref, helmert_fromRef]
  refine ⟨_, _, _, rfl, ?_⟩
  set k := m * 1e-6
  -- the residual is `-k² p - (1 - k²) r × (r × p) - k t - (1 - k) r × t`
  set c1 := r2 * z - r3 * y with hc1
  set c2 := r3 * x - r1 * z with hc2
  set c3 := r1 * y - r2 * x with hc3
  set d1 := r2 * c3 - r3 * c2 with hd1
  set d2 := r3 * c1 - r1 * c3 with hd2
  set d3 := r1 * c2 - r2 * c1 with hd3
  have e1 := norm3_smul (-k ^ 2) x y z
  have e2 := norm3_smul (-(1 - k ^ 2)) d1 d2 d3
  have e3 := norm3_smul (-k) t1 t2 t3
  have e4 := norm3_smul (-(1 - k)) (r2 * t3 - r3 * t2) (r3 * t1 - r1 * t3) (r1 * t2 - r2 * t1)
  rw [abs_neg, abs_of_nonneg (sq_nonneg k)] at e1
  rw [abs_neg] at e2 e3 e4
  have q1 := norm3_cross r1 r2 r3 c1 c2 c3
  have q2 := norm3_cross r1 r2 r3 x y z
  have q3 := norm3_cross r1 r2 r3 t1 t2 t3
  have hr := norm3_nonneg r1 r2 r3
  have q4 : norm3 d1 d2 d3 ≤ norm3 r1 r2 r3 ^ 2 * norm3 x y z := by
    refine q1.trans ?_
    rw [pow_two, mul_assoc]
    exact mul_le_mul_of_nonneg_left q2 hr
  have q5 := mul_le_mul_of_nonneg_left q4 (abs_nonneg (1 - k ^ 2))
  have q6 := mul_le_mul_of_nonneg_left q3 (abs_nonneg (1 - k))
  have s1 := norm3_add (-k ^ 2 * x) (-k ^ 2 * y) (-k ^ 2 * z) (-(1 - k ^ 2) * d1) (-(1 - k ^ 2) * d2) (-(1 - k ^ 2) * d3)
  have s2 := norm3_add (-k * t1) (-k * t2) (-k * t3) (-(1 - k) * (r2 * t3 - r3 * t2)) (-(1 - k) * (r3 * t1 - r1 * t3))
    (-(1 - k) * (r1 * t2 - r2 * t1))
  have s3 := norm3_add (x := -k ^ 2 * x + -(1 - k ^ 2) * d1) (y := -k ^ 2 * y + -(1 - k ^ 2) * d2)
    (z := -k ^ 2 * z + -(1 - k ^ 2) * d3) (x' := -k * t1 + -(1 - k) * (r2 * t3 - r3 * t2))
    (y' := -k * t2 + -(1 - k) * (r3 * t1 - r1 * t3)) (z' := -k * t3 + -(1 - k) * (r1 * t2 - r2 * t1))
  have heq : norm3 ((1 - k) * ((1 + k) * (x + c1) + t1 - (r2 * ((1 + k) * (z + c3) + t3) - r3 * ((1 + k) * (y + c2) + t2)))
        - t1 - x)
      ((1 - k) * ((1 + k) * (y + c2) + t2 - (r3 * ((1 + k) * (x + c1) + t1) - r1 * ((1 + k) * (z + c3) + t3))) - t2 - y)
      ((1 - k) * ((1 + k) * (z + c3) + t3 - (r1 * ((1 + k) * (y + c2) + t2) - r2 * ((1 + k) * (x + c1) + t1))) - t3 - z) =
      norm3 (-k ^ 2 * x + -(1 - k ^ 2) * d1 + (-k * t1 + -(1 - k) * (r2 * t3 - r3 * t2)))
        (-k ^ 2 * y + -(1 - k ^ 2) * d2 + (-k * t2 + -(1 - k) * (r3 * t1 - r1 * t3)))
        (-k ^ 2 * z + -(1 - k ^ 2) * d3 + (-k * t3 + -(1 - k) * (r1 * t2 - r2 * t1))) := by
    congr 1
    · rw [hd1, hc1, hc2, hc3]; ring
    · rw [hd2, hc1, hc2, hc3]; ring
    · rw [hd3, hc1, hc2, hc3]; ring
  rw [heq]
  calc _ ≤ _ := s3
    _ ≤ (k ^ 2 * norm3 x y z + |1 - k ^ 2| * (norm3 r1 r2 r3 ^ 2 * norm3 x y z)) +
        (|k| * norm3 t1 t2 t3 + |1 - k| * (norm3 r1 r2 r3 * norm3 t1 t2 t3)) := by
        rw [e1, e2] at s1
        rw [e3, e4] at s2
        exact add_le_add (s1.trans (add_le_add_right q5 _)) (s2.trans (add_le_add_right q6 _))
    _ = _ := by ring

/-- **C46**: a pure translation is inverted exactly. -/
theorem C46_pure_translation_exact (t1 t2 t3 x y z : ℝ) :
    (helmert 0 0 0 t1 t2 t3 0).fromRef ((helmert 0 0 0 t1 t2 t3 0).toRef (xyz x y z)) = xyz x y z ∧
    (helmert 0 0 0 t1 t2 t3 0).toRef ((helmert 0 0 0 t1 t2 t3 0).fromRef (xyz x y z)) = xyz x y z := by
  rw [C46_to_ref, helmert_fromRef, helmert_fromRef, C46_to_ref]
  constructor <;> (congr 1 <;> ring)

/-- **C46**: the residual is there. With a rotation of 1e-6 rad (0.2 arc seconds) and a translation of 100 m, the
origin comes back 0.1 mm away: an error of first order in the rotation. -/
theorem C46_not_exact :
    (helmert 0 0 1e-6 100 0 0 0).fromRef ((helmert 0 0 1e-6 100 0 0 0).toRef (xyz 0 0 0)) = xyz 0 (-1e-4) 0 := by
  rw [C46_to_ref, helmert_fromRef]
  congr 1 <;> norm_num

/-- Parameters of a realistic size (0.4 arc seconds, 427 m, 1 ppm), a point on the ground: below 2 mm. -/
example : ∃ x' y' z', (helmert 0 0 2e-6 84 87 409 1).fromRef ((helmert 0 0 2e-6 84 87 409 1).toRef (xyz 4e6 2e5 4.9e6)) =
    xyz x' y' z' ∧ norm3 (x' - 4e6) (y' - 2e5) (z' - 4.9e6) < 0.002 := by
  obtain ⟨x', y', z', h, hb⟩ := C46_residual 0 0 2e-6 84 87 409 1 4e6 2e5 4.9e6
  refine ⟨x', y', z', h, lt_of_le_of_lt hb ?_⟩
  have h1 : norm3 0 0 2e-6 ≤ 2e-6 := by rw [norm3_eq, Real.sqrt_le_left (by norm_num)]; norm_num
  have h2 : norm3 4e6 2e5 4.9e6 ≤ 7e6 := by rw [norm3_eq, Real.sqrt_le_left (by norm_num)]; norm_num
  have h3 : norm3 84 87 409 ≤ 500 := by rw [norm3_eq, Real.sqrt_le_left (by norm_num)]; norm_num
  have := norm3_nonneg 0 0 2e-6
  have := norm3_nonneg 84 87 409
  have := norm3_nonneg 4e6 2e5 4.9e6
  have e1 : |(1:ℝ) - (1 * 1e-6) ^ 2| ≤ 1 := by rw [abs_le]; norm_num
  have e2 : |(1:ℝ) * 1e-6| ≤ 1e-6 := by rw [abs_le]; norm_num
  have e3 : |(1:ℝ) - 1 * 1e-6| ≤ 1 := by rw [abs_le]; norm_num
  calc _ ≤ ((1 * 1e-6) ^ 2 + 1 * (2e-6) ^ 2) * 7e6 + (1e-6 + 1 * 2e-6) * (500:ℝ) := by gcongr
    _ < 0.002 := by norm_num

/-! ### C47 -/

/-- **C47** for every arithmetic in which negation is an involution. -/
theorem C47_conventions {F : Type} [Flt F] (hneg : ∀ x : F, -(-x) = x) (rx ry rz : Angle F) (tx ty tz : Length F)
    (ppm : PPM F) :
    Helmert7Params.new .coordinateFrame rx ry rz tx ty tz ppm =
      Helmert7Params.new .positionVector (-rx) (-ry) (-rz) tx ty tz ppm ∧
    Helmert7Params.new .positionVector rx ry rz tx ty tz ppm =
      Helmert7Params.new .coordinateFrame (-rx) (-ry) (-rz) tx ty tz ppm := by
  have h : ∀ a : Angle F, (-a).rad = -a.rad := fun _ => rfl
  constructor <;> simp only [Helmert7Params.new, h, hneg]

/-- **C47** in exact arithmetic (NaN and infinities included). -/
theorem C47_conventions_exact (rx ry rz : Angle XR) (tx ty tz : Length XR) (ppm : PPM XR) :
    Helmert7Params.new .coordinateFrame rx ry rz tx ty tz ppm =
      Helmert7Params.new .positionVector (-rx) (-ry) (-rz) tx ty tz ppm ∧
    Helmert7Params.new .positionVector rx ry rz tx ty tz ppm =
      Helmert7Params.new .coordinateFrame (-rx) (-ry) (-rz) tx ty tz ppm :=
  C47_conventions (fun x => by cases x with
    | fin x => exact congrArg fin (neg_neg x)
    | _ => rfl) rx ry rz tx ty tz ppm

/-- The conventions do differ: a rotation about the z axis, seen in a point on the x axis. -/
example : (Helmert7Params.new .positionVector ⟨fin 0⟩ ⟨fin 0⟩ ⟨fin 1⟩ ⟨fin 0⟩ ⟨fin 0⟩ ⟨fin 0⟩ ⟨fin 0⟩).rot.m21 = fin 1 ∧
    (Helmert7Params.new .coordinateFrame ⟨fin 0⟩ ⟨fin 0⟩ ⟨fin 1⟩ ⟨fin 0⟩ ⟨fin 0⟩ ⟨fin 0⟩ ⟨fin 0⟩).rot.m21 = fin (-1) := by
  simp [Helmert7Params.new, Mat3.add, Mat3.identity]

end Geo
