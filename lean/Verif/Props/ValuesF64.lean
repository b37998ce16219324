import Verif.Lemmas.TwoSum
import Verif.Model.Transformations
import Verif.Model.Geodesy

/-! C09, C16, C21, C25, C47 in IEEE arithmetic. -/

namespace Geo
variable {L : Libm}

/-! ### C09, C16 -/

theorem one_div_one_f64 : (1 : F64 L) / (1 : F64 L) = 1 := by
  show B64.div (B64.lit ((1 : ℕ) : ℚ)) (B64.lit ((1 : ℕ) : ℚ)) = B64.lit ((1 : ℕ) : ℚ)
  decide +kernel

theorem mul_one_f64 (x : F64 L) : x * (1 : F64 L) = x := by
  have := B64.mul_one x
  exact (congrArg (B64.mul x) (by norm_num : B64.lit ((1 : ℕ) : ℚ) = B64.lit 1)).trans this

theorem div_one_f64 (x : F64 L) : x / (1 : F64 L) = x := by
  have := B64.div_one x
  exact (congrArg (B64.div x) (by norm_num : B64.lit ((1 : ℕ) : ℚ) = B64.lit 1)).trans this

/-- C09: radians and metres are stored and read back bit for bit, whatever the double (NaN, infinities and `-0.0` included). -/
theorem C09_bits (v : F64 L) :
    (Angle.new v RAD).rad = v ∧ (Angle.new v RAD).val RAD = v ∧
    (Length.new v M).m = v ∧ (Length.new v M).val M = v := by
  have h1 : v * ((1 : F64 L) / 1) = v := by rw [one_div_one_f64, mul_one_f64]
  refine ⟨h1, ?_, h1, ?_⟩
  · show v * ((1 : F64 L) / 1) * 1 / 1 = v
    rw [h1, mul_one_f64, div_one_f64]
  · show v * ((1 : F64 L) / 1) / (1 / 1) = v
    rw [h1, one_div_one_f64, div_one_f64]

/-- C16: geocentric coordinates are stored and read back bit for bit, in both directions. -/
theorem C16_geocentric_bits (x y z : F64 L) (axes : GeocentricAxes) (buf : List (F64 L)) (hb : buf.length = axes.dim) :
    axes.normalize [x, y, z] = .ok ⟨⟨x⟩, ⟨y⟩, ⟨z⟩⟩ ∧ axes.denormalize ⟨⟨x⟩, ⟨y⟩, ⟨z⟩⟩ buf = .ok [x, y, z] := by
  obtain ⟨a, b, c, rfl⟩ := List.length_eq_three.1 hb
  have h : ∀ v : F64 L, Length.new v M = ⟨v⟩ := fun v => Length.ext (C09_bits v).2.2.1
  constructor
  · show Except.ok (XYZ.mk (Length.new x M) (Length.new y M) (Length.new z M)) = _
    rw [h, h, h]
  · rfl

example : ([B64.nan, B64.negZero, B64.inf true] : List (F64 L)).length = GeocentricAxes.xyz.dim := rfl

/-! ### C25 -/

theorem eq_comm_f64 (a b : F64 L) : (a ==. b) = (b ==. a) := B64.eq_comm a b

theorem eq_trans_f64 {a b c : F64 L} (h : (a ==. b) = true) (h' : (b ==. c) = true) : (a ==. c) = true := B64.eq_trans h h'

theorem eq_refl_f64 {a : F64 L} (h : ¬ a.isNaN) : (a ==. a) = true := B64.eq_refl h

theorem eq_nan_f64 {a b : F64 L} (h : a.isNaN) : (a ==. b) = false := by
  have : a = B64.nan := h
  subst this
  show B64.eq B64.nan b = false
  cases b <;> rfl

theorem eq_fin_f64 {a b : F64 L} (ha : a.isFinite) (hb : b.isFinite) : (a ==. b) = decide (a.toQ = b.toQ) := B64.eq_fin ha hb

/-- C25, ellipsoids. -/
theorem C25_ellipsoid (e₁ e₂ e₃ : Ellipsoid (F64 L)) :
    -- the names do not matter
    (∀ n₁ n₂, Ellipsoid.beq { e₁ with name := n₁ } { e₂ with name := n₂ } = e₁.beq e₂) ∧
    -- symmetry, transitivity
    e₁.beq e₂ = e₂.beq e₁ ∧
    (e₁.beq e₂ = true → e₂.beq e₃ = true → e₁.beq e₃ = true) ∧
    -- reflexivity exactly when no number is NaN
    (e₁.beq e₁ = true ↔ ¬ e₁.a.m.isNaN ∧ ¬ e₁.b.m.isNaN ∧ ¬ e₁.invf.isNaN) ∧
    -- between finite ellipsoids: the same numbers
    (e₁.a.m.isFinite → e₁.b.m.isFinite → e₁.invf.isFinite → e₂.a.m.isFinite → e₂.b.m.isFinite → e₂.invf.isFinite →
      (e₁.beq e₂ = true ↔ e₁.a.m.toQ = e₂.a.m.toQ ∧ e₁.b.m.toQ = e₂.b.m.toQ ∧ e₁.invf.toQ = e₂.invf.toQ)) := by
  refine ⟨fun _ _ => rfl, ?_, ?_, ⟨?_, ?_⟩, ?_⟩
  · simp only [Ellipsoid.beq, Length.beq]
    rw [eq_comm_f64 e₁.a.m, eq_comm_f64 e₁.b.m, eq_comm_f64 e₁.invf]
  · simp only [Ellipsoid.beq, Length.beq, Bool.and_eq_true]
    rintro ⟨⟨h1, h2⟩, h3⟩ ⟨⟨h4, h5⟩, h6⟩
    exact ⟨⟨eq_trans_f64 h1 h4, eq_trans_f64 h2 h5⟩, eq_trans_f64 h3 h6⟩
  · simp only [Ellipsoid.beq, Length.beq, Bool.and_eq_true]
    rintro ⟨⟨h1, h2⟩, h3⟩
    refine ⟨fun h => ?_, fun h => ?_, fun h => ?_⟩
    · rw [eq_nan_f64 h] at h1; cases h1
    · rw [eq_nan_f64 h] at h2; cases h2
    · rw [eq_nan_f64 h] at h3; cases h3
  · rintro ⟨h1, h2, h3⟩
    simp only [Ellipsoid.beq, Length.beq, Bool.and_eq_true]
    exact ⟨⟨eq_refl_f64 h1, eq_refl_f64 h2⟩, eq_refl_f64 h3⟩
  · intro h1 h2 h3 h4 h5 h6
    simp only [Ellipsoid.beq, Length.beq, Bool.and_eq_true, eq_fin_f64 h1 h4, eq_fin_f64 h2 h5, eq_fin_f64 h3 h6,
      decide_eq_true_eq, and_assoc]

/-- C25, prime meridians. -/
theorem C25_prime_meridian (p₁ p₂ p₃ : PrimeMeridian (F64 L)) :
    (∀ n₁ n₂, PrimeMeridian.beq { p₁ with name := n₁ } { p₂ with name := n₂ } = p₁.beq p₂) ∧
    p₁.beq p₂ = p₂.beq p₁ ∧
    (p₁.beq p₂ = true → p₂.beq p₃ = true → p₁.beq p₃ = true) ∧
    (p₁.beq p₁ = true ↔ ¬ p₁.lon.angle.rad.isNaN) ∧
    (p₁.lon.angle.rad.isFinite → p₂.lon.angle.rad.isFinite →
      (p₁.beq p₂ = true ↔ p₁.lon.angle.rad.toQ = p₂.lon.angle.rad.toQ)) := by
  refine ⟨fun _ _ => rfl, eq_comm_f64 _ _, eq_trans_f64, ⟨fun h hn => ?_, eq_refl_f64⟩, fun h1 h2 => ?_⟩
  · simp only [PrimeMeridian.beq, Lon.beq, Angle.beq, eq_nan_f64 hn] at h
    cases h
  · simp only [PrimeMeridian.beq, Lon.beq, Angle.beq, eq_fin_f64 h1 h2, decide_eq_true_eq]

/-- C25, datums: datums with different ids differ, and so do datums whose ellipsoids or prime meridians differ. -/
theorem C25_datum (d₁ d₂ d₃ : GeodeticDatum (F64 L)) :
    (d₁.beq d₂ = true ↔ d₁.id = d₂.id ∧ d₁.ellipsoid.beq d₂.ellipsoid = true ∧
      d₁.primeMeridian.beq d₂.primeMeridian = true) ∧
    d₁.beq d₂ = d₂.beq d₁ ∧
    (d₁.beq d₂ = true → d₂.beq d₃ = true → d₁.beq d₃ = true) ∧
    (d₁.beq d₁ = true ↔ ¬ d₁.ellipsoid.a.m.isNaN ∧ ¬ d₁.ellipsoid.b.m.isNaN ∧ ¬ d₁.ellipsoid.invf.isNaN ∧
      ¬ d₁.primeMeridian.lon.angle.rad.isNaN) := by
  have key : ∀ d d' : GeodeticDatum (F64 L), d.beq d' = true ↔ d.id = d'.id ∧ d.ellipsoid.beq d'.ellipsoid = true ∧
      d.primeMeridian.beq d'.primeMeridian = true := fun d d' => by
    simp only [GeodeticDatum.beq, Bool.and_eq_true, beq_iff_eq, and_assoc]
  refine ⟨key _ _, ?_, ?_, ?_⟩
  · rw [Bool.eq_iff_iff, key, key, (C25_ellipsoid d₁.ellipsoid d₂.ellipsoid d₁.ellipsoid).2.1,
      (C25_prime_meridian d₁.primeMeridian d₂.primeMeridian d₁.primeMeridian).2.1, eq_comm (a := d₁.id)]
  · rw [key, key, key]
    rintro ⟨h1, h2, h3⟩ ⟨h4, h5, h6⟩
    exact ⟨h1.trans h4, (C25_ellipsoid _ _ _).2.2.1 h2 h5, (C25_prime_meridian _ _ _).2.2.1 h3 h6⟩
  · rw [key, (C25_ellipsoid d₁.ellipsoid d₁.ellipsoid d₁.ellipsoid).2.2.2.1,
      (C25_prime_meridian d₁.primeMeridian d₁.primeMeridian d₁.primeMeridian).2.2.2.1]
    simp only [true_and, and_assoc]

/-- Two ellipsoids that are equal although their names and the sign of a zero differ, and one that is not equal to itself. -/
example : Ellipsoid.beq (⟨"A", ⟨B64.lit 1⟩, ⟨B64.lit 0⟩, B64.inf false⟩ : Ellipsoid (F64 L))
      ⟨"B", ⟨B64.lit 1⟩, ⟨B64.negZero⟩, B64.inf false⟩ = true ∧
    Ellipsoid.beq (⟨"A", ⟨B64.lit 1⟩, ⟨B64.nan⟩, B64.inf false⟩ : Ellipsoid (F64 L))
      ⟨"A", ⟨B64.lit 1⟩, ⟨B64.nan⟩, B64.inf false⟩ = false := by
  constructor
  · show (B64.eq (B64.lit 1) (B64.lit 1) && B64.eq (B64.lit 0) B64.negZero && B64.eq (B64.inf false) (B64.inf false)) = true
    decide +kernel
  · show (B64.eq (B64.lit 1) (B64.lit 1) && B64.eq B64.nan B64.nan && B64.eq (B64.inf false) (B64.inf false)) = false
    decide +kernel

/-! ### C47 -/

theorem neg_neg_f64 (a : F64 L) : - -a = a := B64.neg_neg a

/-- C47: `CoordinateFrame` with a rotation is `PositionVector` with the opposite rotation, bit for bit, in both directions. -/
theorem C47_f64 (rx ry rz : Angle (F64 L)) (tx ty tz : Length (F64 L)) (ppm : PPM (F64 L)) (p : XYZ (F64 L)) :
    (Helmert7Params.new .coordinateFrame rx ry rz tx ty tz ppm).toTransformation.toRef p =
      (Helmert7Params.new .positionVector (-rx) (-ry) (-rz) tx ty tz ppm).toTransformation.toRef p ∧
    (Helmert7Params.new .coordinateFrame rx ry rz tx ty tz ppm).toTransformation.fromRef p =
      (Helmert7Params.new .positionVector (-rx) (-ry) (-rz) tx ty tz ppm).toTransformation.fromRef p := by
  have : Helmert7Params.new .coordinateFrame rx ry rz tx ty tz ppm =
      Helmert7Params.new .positionVector (-rx) (-ry) (-rz) tx ty tz ppm := by
    have e : ∀ a : Angle (F64 L), (-a).rad = -a.rad := fun _ => rfl
    simp only [Helmert7Params.new, e, neg_neg_f64]
  rw [this]
  exact ⟨rfl, rfl⟩

/-! ### C21 -/

theorem zero_f64 : ((0 : F64 L) : F64 L).isFinite ∧ (0 : F64 L).toQ = 0 := by
  have := B64.lit_toQ isDouble_zero
  exact ⟨(congrArg B64.isFinite (by norm_num : B64.lit ((0 : ℕ) : ℚ) = B64.lit 0)).trans this.1,
    (congrArg B64.toQ (by norm_num : B64.lit ((0 : ℕ) : ℚ) = B64.lit 0)).trans this.2⟩

theorem one_f64 : (1 : F64 L).isFinite ∧ (1 : F64 L).toQ = 1 := by
  have := B64.lit_toQ B64.isDouble_one
  exact ⟨(congrArg B64.isFinite (by norm_num : B64.lit ((1 : ℕ) : ℚ) = B64.lit 1)).trans this.1,
    (congrArg B64.toQ (by norm_num : B64.lit ((1 : ℕ) : ℚ) = B64.lit 1)).trans this.2⟩

theorem lt_fin_f64 {a b : F64 L} (ha : a.isFinite) (hb : b.isFinite) : (a <. b) = decide (a.toQ < b.toQ) := B64.lt_fin ha hb

theorem le_fin_f64 {a b : F64 L} (ha : a.isFinite) (hb : b.isFinite) : (a <=. b) = decide (a.toQ ≤ b.toQ) := B64.le_fin ha hb

theorem lt_nan_left (b : F64 L) : (F64.nan (L := L) <. b) = false := by
  show B64.lt B64.nan b = false
  cases b <;> rfl

theorem lt_nan_right (a : F64 L) : (a <. F64.nan) = false := by
  show B64.lt a B64.nan = false
  cases a <;> rfl

theorem le_nan_right (a : F64 L) : (a <=. F64.nan) = false := by
  show (B64.lt a B64.nan || B64.eq a B64.nan) = false
  cases a <;> rfl

/-- C21: acceptance of `from_ab` for finite axes, in f64. -/
theorem C21_from_ab_f64 (name : String) (a b : F64 L) (ha : a.isFinite) (hb : b.isFinite) :
    (0 < b.toQ ∧ b.toQ ≤ a.toQ → ∃ e, Ellipsoid.fromAb name ⟨a⟩ ⟨b⟩ = .ok e ∧ e.a = ⟨a⟩ ∧ e.b = ⟨b⟩ ∧ e.name = name) ∧
    (¬ (0 < b.toQ ∧ b.toQ ≤ a.toQ) → ∃ msg, Ellipsoid.fromAb name ⟨a⟩ ⟨b⟩ = .error (.panic msg)) := by
  have h0 : ((0 : F64 L) <. b) = decide (0 < b.toQ) := by rw [lt_fin_f64 zero_f64.1 hb, zero_f64.2]
  have h1 : (Length.mk b).le ⟨a⟩ = decide (b.toQ ≤ a.toQ) := le_fin_f64 hb ha
  constructor
  · rintro ⟨p, q⟩
    simp only [Ellipsoid.fromAb, rassert, h0, h1, decide_eq_true p, decide_eq_true q, if_true]
    exact ⟨_, rfl, rfl, rfl, rfl⟩
  · intro h
    by_cases p : 0 < b.toQ
    · have q : ¬ b.toQ ≤ a.toQ := fun q => h ⟨p, q⟩
      simp only [Ellipsoid.fromAb, rassert, h0, h1, decide_eq_true p, decide_eq_false q, if_true]
      exact ⟨_, rfl⟩
    · simp only [Ellipsoid.fromAb, rassert, h0, decide_eq_false p]
      exact ⟨_, rfl⟩

/-- C21: acceptance of `from_ainvf` for finite arguments, in f64. -/
theorem C21_from_ainvf_f64 (name : String) (a r : F64 L) (ha : a.isFinite) (hr : r.isFinite) :
    (0 < a.toQ ∧ 1 < r.toQ → ∃ e, Ellipsoid.fromAinvf name ⟨a⟩ r = .ok e ∧ e.a = ⟨a⟩ ∧ e.invf = r ∧ e.name = name) ∧
    (¬ (0 < a.toQ ∧ 1 < r.toQ) → ∃ msg, Ellipsoid.fromAinvf name ⟨a⟩ r = .error (.panic msg)) := by
  have h0 : (Length.ZERO : Length (F64 L)).lt ⟨a⟩ = decide (0 < a.toQ) := by
    have := lt_fin_f64 (zero_f64 (L := L)).1 ha
    rw [zero_f64.2] at this
    exact this
  have h1 : ((1 : F64 L) <. r) = decide (1 < r.toQ) := by rw [lt_fin_f64 one_f64.1 hr, one_f64.2]
  constructor
  · rintro ⟨p, q⟩
    simp only [Ellipsoid.fromAinvf, rassert, h0, h1, decide_eq_true p, decide_eq_true q, if_true]
    exact ⟨_, rfl, rfl, rfl, rfl⟩
  · intro h
    by_cases p : 0 < a.toQ
    · have q : ¬ 1 < r.toQ := fun q => h ⟨p, q⟩
      simp only [Ellipsoid.fromAinvf, rassert, h0, h1, decide_eq_true p, decide_eq_false q, if_true]
      exact ⟨_, rfl⟩
    · simp only [Ellipsoid.fromAinvf, rassert, h0, decide_eq_false p]
      exact ⟨_, rfl⟩

/-- C21: a NaN argument always panics, in f64. -/
theorem C21_nan_f64 (name : String) (x n : F64 L) (hn : n.isNaN) :
    (∃ msg, Ellipsoid.fromAb name ⟨x⟩ ⟨n⟩ = .error (.panic msg)) ∧
    (∃ msg, Ellipsoid.fromAb name ⟨n⟩ ⟨x⟩ = .error (.panic msg)) ∧
    (∃ msg, Ellipsoid.fromAinvf name ⟨n⟩ x = .error (.panic msg)) ∧
    (∃ msg, Ellipsoid.fromAinvf name ⟨x⟩ n = .error (.panic msg)) := by
  have hn' : n = F64.nan := hn
  refine ⟨?_, ?_, ?_, ?_⟩
  · have h : ((0 : F64 L) <. n) = false := by rw [hn']; exact lt_nan_right _
    simp only [Ellipsoid.fromAb, rassert, h]
    exact ⟨_, rfl⟩
  · have h : (Length.mk x).le ⟨n⟩ = false := by rw [hn']; exact le_nan_right _
    simp only [Ellipsoid.fromAb, rassert, h]
    by_cases p : ((0 : F64 L) <. x) = true
    · rw [p]; exact ⟨_, rfl⟩
    · rw [Bool.not_eq_true] at p; rw [p]; exact ⟨_, rfl⟩
  · have h : (Length.ZERO : Length (F64 L)).lt ⟨n⟩ = false := by rw [hn']; exact lt_nan_right _
    simp only [Ellipsoid.fromAinvf, rassert, h]
    exact ⟨_, rfl⟩
  · have h : ((1 : F64 L) <. n) = false := by rw [hn']; exact lt_nan_right _
    simp only [Ellipsoid.fromAinvf, rassert, h]
    by_cases p : (Length.ZERO : Length (F64 L)).lt ⟨x⟩ = true
    · rw [p]; exact ⟨_, rfl⟩
    · rw [Bool.not_eq_true] at p; rw [p]; exact ⟨_, rfl⟩

/-- C21: the semi-minor axis computed by `from_ainvf` in f64 is in `[0, a]`, and positive unless `a` is tiny. -/
theorem C21_axes_f64 (name : String) (a r : F64 L) (ha : a.isFinite) (hr : r.isFinite) (e : Ellipsoid (F64 L))
    (h : Ellipsoid.fromAinvf name ⟨a⟩ r = .ok e) :
    e.b.m.isFinite ∧ 0 ≤ e.b.m.toQ ∧ e.b.m.toQ ≤ e.a.m.toQ ∧ (2 ^ (-1000 : ℤ) ≤ a.toQ → 0 < e.b.m.toQ) := by
  have acc := C21_from_ainvf_f64 name a r ha hr
  by_cases hc : 0 < a.toQ ∧ 1 < r.toQ
  swap
  · obtain ⟨msg, hm⟩ := acc.2 hc
    rw [hm] at h; cases h
  obtain ⟨a0, r1⟩ := hc
  have h0 : (Length.ZERO : Length (F64 L)).lt ⟨a⟩ = true := by
    have := lt_fin_f64 (zero_f64 (L := L)).1 ha
    rw [zero_f64.2, decide_eq_true a0] at this
    exact this
  have h1 : ((1 : F64 L) <. r) = true := by rw [lt_fin_f64 one_f64.1 hr, one_f64.2, decide_eq_true r1]
  simp only [Ellipsoid.fromAinvf, rassert, h0, h1, if_true] at h
  have he : e = { name := name, a := ⟨a⟩, b := (⟨a⟩ : Length (F64 L)) * ((1 : F64 L) - 1 / r), invf := r } := (Except.ok.inj h).symm
  -- the double `r` is at least `1 + 2 ^ -52`
  have hrr : 1 + 2 ^ (-52 : ℤ) ≤ r.toQ := by
    obtain ⟨m, hm⟩ := (B64.toQ_rep r).grid.mono (le_expo (q := B64.toQ r) (e := -52) (by
      norm_num; exact r1.le.trans (le_abs_self _)))
    have r1' : (1 : ℚ) < B64.toQ r := r1
    show _ ≤ B64.toQ r
    rw [hm] at r1' ⊢
    have h52 : (2 : ℚ) ^ (-52 : ℤ) * 2 ^ 52 = 1 := by norm_num
    have hp := two_zpow_pos (-52)
    have : (2 ^ 52 : ℚ) < m := by
      by_contra hc
      push Not at hc
      nlinarith
    have : 2 ^ 52 + 1 ≤ m := by
      have h' : (2 ^ 52 : ℤ) < m := by exact_mod_cast this
      linarith
    have h'' : (2 ^ 52 + 1 : ℚ) ≤ m := by exact_mod_cast this
    nlinarith
  have r0 : 0 < r.toQ := by linarith
  have hp53 := two_zpow_pos (-53)
  have h52 : (2 : ℚ) ^ (-52 : ℤ) = 2 * 2 ^ (-53 : ℤ) := by norm_num
  have hsm : (2 : ℚ) ^ (-53 : ℤ) ≤ 1 / 4 := by norm_num
  -- 1 / r
  have rep1 : Rep (1 - 2 ^ (-53 : ℤ)) := ⟨2 ^ 53 - 1, -53, by norm_num, by norm_num, by norm_num⟩
  have rep1' : Rep 1 := B64.isDouble_one.rep
  have q1 : rndQ (1 / r.toQ) ≤ 1 - 2 ^ (-53 : ℤ) := by
    refine rndQ_le rep1 ?_
    rw [div_le_iff₀ r0]
    rw [h52] at hrr
    clear rep1 h52
    generalize (2 : ℚ) ^ (-53 : ℤ) = d at hp53 hsm hrr
    have := mul_le_mul_of_nonneg_left hrr (by linarith : 0 ≤ 1 - d)
    nlinarith
  have q0 : 0 ≤ rndQ (1 / r.toQ) := rndQ_nonneg (by positivity)
  obtain ⟨d1, d2⟩ := B64.div_finite_of (a := (1 : F64 L)) (b := r) one_f64.1 hr r0.ne' (by
    rw [show B64.toQ (1 : F64 L) = 1 from one_f64.2]
    rw [show B64.toQ r = r.toQ from rfl, abs_of_nonneg q0]
    have : (2 : ℚ) ^ (0 : ℤ) < huge := two_zpow_lt (by norm_num)
    rw [zpow_zero] at this
    linarith)
  rw [show B64.toQ (1 : F64 L) = 1 from one_f64.2, show B64.toQ r = r.toQ from rfl] at d2
  -- 1 - 1 / r
  have s1 : rndQ (1 - rndQ (1 / r.toQ)) ≤ 1 := rndQ_le rep1' (by linarith)
  have s0 : 2 ^ (-53 : ℤ) ≤ rndQ (1 - rndQ (1 / r.toQ)) := le_rndQ (Rep.pow (by norm_num)) (by linarith)
  have hs : (B64.sub (1 : F64 L) (B64.div (1 : F64 L) r)).isFinite = true := B64.sub_finite_of one_f64.1 d1 (by
    rw [show B64.toQ (1 : F64 L) = 1 from one_f64.2, d2, abs_of_nonneg (by linarith)]
    have : (2 : ℚ) ^ (0 : ℤ) < huge := two_zpow_lt (by norm_num)
    norm_num at this
    linarith)
  have hs' := (B64.sub_finite hs).2.2
  rw [show B64.toQ (1 : F64 L) = 1 from one_f64.2, d2] at hs'
  -- the product
  have hb0 : 0 ≤ rndQ (rndQ (1 - rndQ (1 / r.toQ)) * a.toQ) := rndQ_nonneg (by nlinarith)
  have hb1 : rndQ (rndQ (1 - rndQ (1 / r.toQ)) * a.toQ) ≤ a.toQ := rndQ_le (B64.toQ_rep a) (by nlinarith)
  have ha1 : a.toQ < huge := (le_abs_self _).trans_lt (B64.toQ_isDouble a).abs_lt
  have hm : (B64.mul (B64.sub (1 : F64 L) (B64.div (1 : F64 L) r)) a).isFinite = true := B64.mul_finite_of hs ha (by
    rw [hs', show B64.toQ a = a.toQ from rfl, abs_of_nonneg hb0]
    linarith)
  have hm' := (B64.mul_finite hm).2.2
  rw [hs', show B64.toQ a = a.toQ from rfl] at hm'
  have eb : e.b.m.toQ = rndQ (rndQ (1 - rndQ (1 / r.toQ)) * a.toQ) := by rw [he]; exact hm'
  have ea : e.a.m.toQ = a.toQ := by rw [he]
  refine ⟨by rw [he]; exact hm, by rw [eb]; exact hb0, by rw [eb, ea]; exact hb1, fun hbig => ?_⟩
  rw [eb]
  refine (two_zpow_pos (-1053)).trans_le (le_rndQ (Rep.pow (by norm_num)) ?_)
  rw [show (-1053 : ℤ) = -53 + -1000 by norm_num, two_zpow_add]
  have := two_zpow_pos (-1000)
  nlinarith

/-- WGS84. -/
example : (Flt.lit 6378137 : F64 L).isFinite ∧ (Flt.lit 298.257223563 : F64 L).isFinite ∧
    0 < (Flt.lit 6378137 : F64 L).toQ ∧ 1 < (Flt.lit 298.257223563 : F64 L).toQ := by
  refine ⟨?_, ?_, ?_, ?_⟩
  · show (B64.lit 6378137).isFinite = true
    decide +kernel
  · show (B64.lit 298.257223563).isFinite = true
    decide +kernel
  · show 0 < (B64.lit 6378137).toQ
    decide +kernel
  · show 1 < (B64.lit 298.257223563).toQ
    decide +kernel

end Geo
