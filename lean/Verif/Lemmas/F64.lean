import Verif.Sem.F64

/-! Lemmas about `F64`: values of finite results, comparisons. -/

namespace Geo

namespace B64

theorem toQ_isDouble (a : B64) : IsDouble a.toQ := by
  cases a <;> first | exact isDouble_zero | assumption

theorem toQ_rep (a : B64) : Rep a.toQ := a.toQ_isDouble.rep

theorem ofQ_finite (s : Bool) (q : ℚ) : (ofQ s q).isFinite = true ↔ |rndQ q| < huge := by
  unfold ofQ
  by_cases h : |rndQ q| < huge
  · rw [dif_pos h]
    split_ifs <;> simp [isFinite, h]
  · rw [dif_neg h]
    simp [isFinite, h]

theorem ofQ_toQ {s : Bool} {q : ℚ} (h : (ofQ s q).isFinite = true) : (ofQ s q).toQ = rndQ q := by
  have h' := (ofQ_finite s q).1 h
  unfold ofQ
  rw [dif_pos h']
  split_ifs with h0
  · exact h0.1.symm
  · rfl

theorem ofQ_notNaN (s : Bool) (q : ℚ) : ofQ s q ≠ nan := by
  unfold ofQ
  split_ifs <;> simp

theorem neg_finite (a : B64) : a.neg.isFinite = a.isFinite := by
  cases a <;> simp only [neg] <;> try rfl
  split_ifs <;> rfl

theorem neg_toQ (a : B64) : a.neg.toQ = -a.toQ := by
  cases a <;> simp only [neg, toQ, neg_zero]
  split_ifs with h
  · rw [h]; simp
  · rfl

theorem neg_neg (a : B64) : a.neg.neg = a := by
  cases a with
  | nan => rfl
  | inf s => simp [neg]
  | negZero => simp [neg]
  | num q h =>
    by_cases h0 : q = 0
    · subst h0; simp [neg]
    · simp [neg, h0]

theorem abs_finite (a : B64) : a.abs.isFinite = a.isFinite := by
  unfold abs
  split_ifs
  · exact neg_finite a
  · rfl

theorem abs_toQ (a : B64) : a.abs.toQ = |a.toQ| := by
  unfold abs
  cases a with
  | num q h =>
    by_cases h0 : q < 0
    · rw [show (num q h).isNeg = true by simp [isNeg, h0], if_pos rfl, neg_toQ]; exact (abs_of_neg h0).symm
    · simp [isNeg, h0, toQ, abs_of_nonneg (not_lt.1 h0)]
  | negZero => simp [isNeg, neg, toQ]
  | nan => simp [isNeg, toQ]
  | inf s => cases s <;> simp [isNeg, neg, toQ]

attribute [local irreducible] ofQ

/-! ### Sums -/

theorem add_fin {a b : B64} (ha : a.isFinite = true) (hb : b.isFinite = true) : add a b = addFin a b := by
  cases a <;> simp [isFinite] at ha <;> cases b <;> simp [isFinite] at hb <;> rfl

theorem finite_of_add {a b : B64} (h : (add a b).isFinite = true) : a.isFinite = true ∧ b.isFinite = true := by
  cases a with
  | nan => exact absurd h (by simp [add, isFinite])
  | inf s =>
    exfalso
    cases b <;> simp only [add, isFinite, Bool.false_eq_true] at h
    split_ifs at h
  | negZero => cases b <;> first | exact ⟨rfl, rfl⟩ | exact absurd h (by simp [add, isFinite])
  | num q hq => cases b <;> first | exact ⟨rfl, rfl⟩ | exact absurd h (by simp [add, isFinite])

theorem addFin_toQ {a b : B64} (h : (addFin a b).isFinite = true) : (addFin a b).toQ = rndQ (a.toQ + b.toQ) := by
  unfold addFin at h ⊢
  split_ifs at h ⊢ with h0
  · rw [h0.1, h0.2]; simp [toQ, rndQ_zero]
  · exact ofQ_toQ h

theorem add_finite {a b : B64} (h : (add a b).isFinite = true) :
    a.isFinite = true ∧ b.isFinite = true ∧ (add a b).toQ = rndQ (a.toQ + b.toQ) := by
  obtain ⟨ha, hb⟩ := finite_of_add h
  rw [add_fin ha hb] at h ⊢
  exact ⟨ha, hb, addFin_toQ h⟩

theorem add_finite_of {a b : B64} (ha : a.isFinite = true) (hb : b.isFinite = true)
    (h : |rndQ (a.toQ + b.toQ)| < huge) : (add a b).isFinite = true := by
  rw [add_fin ha hb, addFin]
  split_ifs
  · rfl
  · exact (ofQ_finite _ _).2 h

theorem sub_finite {a b : B64} (h : (sub a b).isFinite = true) :
    a.isFinite = true ∧ b.isFinite = true ∧ (sub a b).toQ = rndQ (a.toQ - b.toQ) := by
  have := add_finite h
  rw [neg_finite, neg_toQ, ← sub_eq_add_neg] at this
  exact this

theorem sub_finite_of {a b : B64} (ha : a.isFinite = true) (hb : b.isFinite = true)
    (h : |rndQ (a.toQ - b.toQ)| < huge) : (sub a b).isFinite = true :=
  add_finite_of ha (by rwa [neg_finite]) (by rwa [neg_toQ, ← sub_eq_add_neg])

/-! ### Products and quotients -/

theorem mul_fin {a b : B64} (ha : a.isFinite = true) (hb : b.isFinite = true) : mul a b = mulFin a b := by
  cases a <;> simp [isFinite] at ha <;> cases b <;> simp [isFinite] at hb <;> rfl

theorem mul_nan_left (b : B64) : mul nan b = nan := rfl

theorem mul_inf_inf (s t : Bool) : mul (inf s) (inf t) = inf (xor s t) := rfl

theorem mul_inf_left (s : Bool) {b : B64} (h : b.isFinite = true) :
    mul (inf s) b = if b.toQ = 0 then nan else inf (xor s b.isNeg) := by
  cases b <;> simp [isFinite] at h <;> rfl

theorem mul_inf_right (t : Bool) {a : B64} (h : a.isFinite = true) :
    mul a (inf t) = if a.toQ = 0 then nan else inf (xor a.isNeg t) := by
  cases a <;> simp [isFinite] at h <;> rfl

theorem mul_nan_right (a : B64) : mul a nan = nan := by
  cases a <;> rfl

theorem not_finite {a : B64} (h : ¬ a.isFinite = true) : a = nan ∨ ∃ s, a = inf s := by
  cases a <;> simp [isFinite] at h ⊢

theorem finite_of_mul {a b : B64} (h : (mul a b).isFinite = true) : a.isFinite = true ∧ b.isFinite = true := by
  by_cases ha : a.isFinite = true
  · by_cases hb : b.isFinite = true
    · exact ⟨ha, hb⟩
    · exfalso
      rcases not_finite hb with rfl | ⟨s, rfl⟩
      · rw [mul_nan_right] at h; exact absurd h (by simp [isFinite])
      · rw [mul_inf_right s ha] at h
        split_ifs at h <;> simp [isFinite] at h
  · exfalso
    rcases not_finite ha with rfl | ⟨s, rfl⟩
    · rw [mul_nan_left] at h; exact absurd h (by simp [isFinite])
    · by_cases hb : b.isFinite = true
      · rw [mul_inf_left s hb] at h
        split_ifs at h <;> simp [isFinite] at h
      · rcases not_finite hb with rfl | ⟨t, rfl⟩
        · rw [mul_nan_right] at h; exact absurd h (by simp [isFinite])
        · rw [mul_inf_inf] at h; exact absurd h (by simp [isFinite])

theorem mul_finite {a b : B64} (h : (mul a b).isFinite = true) :
    a.isFinite = true ∧ b.isFinite = true ∧ (mul a b).toQ = rndQ (a.toQ * b.toQ) := by
  obtain ⟨ha, hb⟩ := finite_of_mul h
  rw [mul_fin ha hb] at h ⊢
  exact ⟨ha, hb, ofQ_toQ h⟩

theorem mul_finite_of {a b : B64} (ha : a.isFinite = true) (hb : b.isFinite = true)
    (h : |rndQ (a.toQ * b.toQ)| < huge) : (mul a b).isFinite = true := by
  rw [mul_fin ha hb]
  exact (ofQ_finite _ _).2 h

theorem div_fin {a b : B64} (ha : a.isFinite = true) (hb : b.isFinite = true) : div a b = divFin a b := by
  cases a <;> simp [isFinite] at ha <;> cases b <;> simp [isFinite] at hb <;> rfl

theorem div_finite_of {a b : B64} (ha : a.isFinite = true) (hb : b.isFinite = true) (h0 : b.toQ ≠ 0)
    (h : |rndQ (a.toQ / b.toQ)| < huge) :
    (div a b).isFinite = true ∧ (div a b).toQ = rndQ (a.toQ / b.toQ) := by
  rw [div_fin ha hb, divFin, if_neg h0]
  have hf := (ofQ_finite (xor a.isNeg b.isNeg) _).2 h
  exact ⟨hf, ofQ_toQ hf⟩

/-! ### Comparisons -/

theorem lt_fin {a b : B64} (ha : a.isFinite = true) (hb : b.isFinite = true) : lt a b = decide (a.toQ < b.toQ) := by
  cases a <;> cases b <;> simp only [isFinite, Bool.false_eq_true] at ha hb <;> rfl

theorem eq_fin {a b : B64} (ha : a.isFinite = true) (hb : b.isFinite = true) : eq a b = decide (a.toQ = b.toQ) := by
  cases a <;> cases b <;> simp only [isFinite, Bool.false_eq_true] at ha hb <;> rfl

theorem le_fin {a b : B64} (ha : a.isFinite = true) (hb : b.isFinite = true) : le a b = decide (a.toQ ≤ b.toQ) := by
  rw [le, lt_fin ha hb, eq_fin ha hb]
  by_cases h : a.toQ < b.toQ
  · simp [h, h.le]
  · by_cases h' : a.toQ = b.toQ
    · simp [h']
    · simp [h, h', lt_of_le_of_ne (not_lt.1 h) (Ne.symm h')]

theorem eq_refl {a : B64} (h : a ≠ nan) : eq a a = true := by
  cases a <;> simp [eq] at h ⊢

theorem eq_comm (a b : B64) : eq a b = eq b a := by
  cases a <;> cases b <;> simp only [eq] <;>
    first | rfl | exact Bool.beq_comm | exact decide_eq_decide.2 ⟨Eq.symm, Eq.symm⟩

theorem eq_trans {a b c : B64} (h : eq a b = true) (h' : eq b c = true) : eq a c = true := by
  cases a <;> cases b <;> simp only [eq, Bool.false_eq_true] at h <;>
    cases c <;> simp only [eq, Bool.false_eq_true, decide_eq_true_eq, beq_iff_eq] at h h' ⊢ <;>
    first | trivial | exact h.trans h'

theorem lit_toQ {q : ℚ} (h : IsDouble q) : (lit q).isFinite = true ∧ (lit q).toQ = q := by
  have hf : (lit q).isFinite = true := (ofQ_finite _ _).2 (by rw [h.rep.rnd]; exact h.abs_lt)
  exact ⟨hf, by rw [lit, ofQ_toQ hf, h.rep.rnd]⟩

theorem ofQ_self {s : Bool} {q : ℚ} (h : IsDouble q) (hs : q = 0 → s = false) : ofQ s q = num q h := by
  unfold ofQ
  rw [dif_pos (by rw [h.rep.rnd]; exact h.abs_lt)]
  have : ¬ (rndQ q = 0 ∧ s = true) := by
    rw [h.rep.rnd]
    rintro ⟨h0, hn⟩
    rw [hs h0] at hn
    exact absurd hn (by simp)
  rw [if_neg this]
  simp only [h.rep.rnd]

theorem ofQ_negZero : ofQ true 0 = negZero := by
  unfold ofQ
  rw [dif_pos (by rw [rndQ_zero]; norm_num [huge]), if_pos ⟨rndQ_zero, rfl⟩]

theorem isDouble_one : IsDouble 1 := ⟨1, 0, by norm_num, by norm_num, by norm_num, by norm_num⟩

theorem lit_one : lit 1 = num 1 isDouble_one := ofQ_self isDouble_one (by norm_num)

theorem lit_zero : lit 0 = num 0 isDouble_zero := ofQ_self isDouble_zero (by norm_num)

/-- Multiplication and division by one do not change anything. -/
theorem mul_one (a : B64) : mul a (lit 1) = a := by
  rw [lit_one]
  have h10 : decide ((1 : ℚ) < 0) = false := by norm_num
  cases a with
  | nan => rfl
  | inf s => rw [mul_inf_left s rfl, if_neg (by simp [toQ])]; simp only [isNeg, h10]; simp
  | negZero => rw [mul_fin rfl rfl, mulFin]; simp only [toQ, isNeg, h10, zero_mul]; exact ofQ_negZero
  | num q h =>
    rw [mul_fin rfl rfl, mulFin]
    simp only [toQ, isNeg, _root_.mul_one, h10]
    refine ofQ_self h ?_
    rintro rfl
    simp

theorem div_one (a : B64) : div a (lit 1) = a := by
  rw [lit_one]
  have h10 : decide ((1 : ℚ) < 0) = false := by norm_num
  cases a with
  | nan => rfl
  | inf s => show inf _ = _; simp only [isNeg, h10]; simp
  | negZero =>
    rw [div_fin rfl rfl, divFin]; simp only [toQ, isNeg, h10, zero_div]; rw [if_neg (by simp)]; exact ofQ_negZero
  | num q h =>
    rw [div_fin rfl rfl, divFin]
    simp only [toQ, isNeg, _root_.div_one, h10]
    rw [if_neg (by simp)]
    refine ofQ_self h ?_
    rintro rfl
    simp

end B64

end Geo
