import Verif.Model.Crs
import Verif.Lemmas.Res

/-!
C18: the contract of `Crs::approx_eq`, for every float semantics and every CRS.
-/

namespace Geo
variable {F : Type} [Flt F]

/-- Specification: axis `i` of the two positions differs by at most the `i`-th tolerance (nothing is
required when one of the three slices has no `i`-th entry). -/
def AxisWithin (a b tol : List F) (i : Nat) : Prop :=
  ∀ x y t, a[i]? = some x → b[i]? = some y → tol[i]? = some t → Flt.le (Flt.abs (x - y)) t = true

/-- **C18**: positions of the wrong length panic. -/
theorem C18_wrong_length (crs : Crs F) (a b tol : List F)
    (h : a.length ≠ crs.dim ∨ b.length ≠ crs.dim) :
    ∃ msg, crs.approxEq a b tol = .error (.panic msg) := by
  unfold Crs.approxEq
  by_cases ha : a.length = crs.dim
  · have hb : b.length ≠ crs.dim := by
      rcases h with h | h
      · exact absurd ha h
      · exact h
    simp [ha, hb, rassert, bind, Except.bind]
  · simp [ha, rassert, bind, Except.bind]

/-- **C18**: a CRS whose dimension is neither 2 nor 3 (the documentation also allows 1) always panics. -/
theorem C18_bad_dim (crs : Crs F) (a b tol : List F) (h2 : crs.dim ≠ 2) (h3 : crs.dim ≠ 3) :
    ∃ msg, crs.approxEq a b tol = .error (.panic msg) := by
  by_cases hw : a.length ≠ crs.dim ∨ b.length ≠ crs.dim
  · exact C18_wrong_length crs a b tol hw
  · have ha : a.length = crs.dim := by
      by_contra h; exact hw (Or.inl h)
    have hb : b.length = crs.dim := by
      by_contra h; exact hw (Or.inr h)
    have hab : b.length = a.length := hb.trans ha.symm
    unfold Crs.approxEq
    simp only [ha, hb, h2, h3, beq_self_eq_true, beq_iff_eq, rassert_true, ok_bind, if_false]
    clear ha hb hw h2 h3
    rcases a with _ | ⟨a0, _ | ⟨a1, l⟩⟩ <;> rcases b with _ | ⟨b0, _ | ⟨b1, m⟩⟩ <;>
      simp at hab <;>
      rcases tol with _ | ⟨t0, _ | ⟨t1, n⟩⟩ <;> simp [and1] <;> split <;> simp

/-- **C18**: with enough tolerances the answer is "every axis is within its tolerance"; tolerances past
`dim()` do not matter. -/
theorem C18_value (crs : Crs F) (a b tol : List F) (hd : crs.dim = 2 ∨ crs.dim = 3)
    (ha : a.length = crs.dim) (hb : b.length = crs.dim) (ht : crs.dim ≤ tol.length) :
    ∃ r, crs.approxEq a b tol = .ok r ∧
      (r = true ↔ ∀ i, i < crs.dim → AxisWithin a b tol i) := by
  rcases hd with hd | hd
  · obtain ⟨a0, a1, rfl⟩ : ∃ x y, a = [x, y] := List.length_eq_two.1 (ha.trans hd)
    obtain ⟨b0, b1, rfl⟩ : ∃ x y, b = [x, y] := List.length_eq_two.1 (hb.trans hd)
    rcases tol with _ | ⟨t0, _ | ⟨t1, n⟩⟩ <;> simp [hd] at ht
    refine ⟨floatAbsDiffEq a0 b0 t0 && floatAbsDiffEq a1 b1 t1, ?_, ?_⟩
    · unfold Crs.approxEq
      simp only [hd, rassert, idx, bind, Except.bind, and1, pure, Except.pure]
      cases h0 : floatAbsDiffEq a0 b0 t0 <;> simp [h0]
    · rw [hd]
      constructor
      · intro h i hi
        rcases i with _ | _ | i
        · simp_all [AxisWithin, floatAbsDiffEq]
        · simp_all [AxisWithin, floatAbsDiffEq]
        · omega
      · intro h
        have h0 := h 0 (by omega) a0 b0 t0 rfl rfl rfl
        have h1 := h 1 (by omega) a1 b1 t1 rfl rfl rfl
        simp [floatAbsDiffEq, h0, h1]
  · obtain ⟨a0, a1, a2, rfl⟩ : ∃ x y z, a = [x, y, z] := List.length_eq_three.1 (ha.trans hd)
    obtain ⟨b0, b1, b2, rfl⟩ : ∃ x y z, b = [x, y, z] := List.length_eq_three.1 (hb.trans hd)
    rcases tol with _ | ⟨t0, _ | ⟨t1, _ | ⟨t2, n⟩⟩⟩ <;> simp [hd] at ht
    refine ⟨floatAbsDiffEq a0 b0 t0 && floatAbsDiffEq a1 b1 t1 && floatAbsDiffEq a2 b2 t2, ?_, ?_⟩
    · unfold Crs.approxEq
      simp only [hd, rassert, idx, bind, Except.bind, and1, pure, Except.pure]
      cases h0 : floatAbsDiffEq a0 b0 t0 <;> cases h1 : floatAbsDiffEq a1 b1 t1 <;> simp [h0, h1]
    · rw [hd]
      constructor
      · intro h i hi
        rcases i with _ | _ | _ | i
        · simp_all [AxisWithin, floatAbsDiffEq]
        · simp_all [AxisWithin, floatAbsDiffEq]
        · simp_all [AxisWithin, floatAbsDiffEq]
        · omega
      · intro h
        have h0 := h 0 (by omega) a0 b0 t0 rfl rfl rfl
        have h1 := h 1 (by omega) a1 b1 t1 rfl rfl rfl
        have h2 := h 2 (by omega) a2 b2 t2 rfl rfl rfl
        simp [floatAbsDiffEq, h0, h1, h2]

/-- **C18**: with too few tolerances the call panics exactly when all the axes that have a tolerance are
within it; otherwise it answers `false` before consulting the missing ones. -/
theorem C18_short_tol (crs : Crs F) (a b tol : List F) (hd : crs.dim = 2 ∨ crs.dim = 3)
    (ha : a.length = crs.dim) (hb : b.length = crs.dim) (ht : tol.length < crs.dim) :
    ((∀ i, i < tol.length → AxisWithin a b tol i) →
      ∃ msg, crs.approxEq a b tol = .error (.panic msg)) ∧
    (¬ (∀ i, i < tol.length → AxisWithin a b tol i) → crs.approxEq a b tol = .ok false) := by
  have one : ∀ (x y t : F) (l m n : List F),
      (∀ i, i < (t :: n).length → AxisWithin (x :: l) (y :: m) (t :: n) i) ↔
        (floatAbsDiffEq x y t = true ∧ ∀ i, i < n.length → AxisWithin l m n i) := by
    intro x y t l m n
    constructor
    · intro h
      refine ⟨h 0 (by simp) x y t rfl rfl rfl, fun i hi => ?_⟩
      have := h (i + 1) (by simpa using hi)
      simpa [AxisWithin] using this
    · rintro ⟨h0, h⟩ (_ | i) hi
      · intro x' y' t' hx hy ht
        simp at hx hy ht
        subst hx hy ht
        exact h0
      · have := h i (by simpa using hi)
        simpa [AxisWithin] using this
  rcases hd with hd | hd
  · obtain ⟨a0, a1, rfl⟩ : ∃ x y, a = [x, y] := List.length_eq_two.1 (ha.trans hd)
    obtain ⟨b0, b1, rfl⟩ : ∃ x y, b = [x, y] := List.length_eq_two.1 (hb.trans hd)
    unfold Crs.approxEq
    rcases tol with _ | ⟨t0, _ | ⟨t1, n⟩⟩ <;> simp only [one] <;> simp [hd] at ht
    · simp [hd, rassert, idx, bind, Except.bind]
    · cases h0 : floatAbsDiffEq a0 b0 t0 <;>
        simp [hd, rassert, idx, bind, Except.bind, and1, pure, Except.pure, h0]
    · omega
  · obtain ⟨a0, a1, a2, rfl⟩ : ∃ x y z, a = [x, y, z] := List.length_eq_three.1 (ha.trans hd)
    obtain ⟨b0, b1, b2, rfl⟩ : ∃ x y z, b = [x, y, z] := List.length_eq_three.1 (hb.trans hd)
    unfold Crs.approxEq
    rcases tol with _ | ⟨t0, _ | ⟨t1, _ | ⟨t2, n⟩⟩⟩ <;> simp only [one] <;> simp [hd] at ht
    · simp [hd, rassert, idx, bind, Except.bind]
    · cases h0 : floatAbsDiffEq a0 b0 t0 <;>
        simp [hd, rassert, idx, bind, Except.bind, and1, pure, Except.pure, h0]
    · cases h0 : floatAbsDiffEq a0 b0 t0 <;> cases h1 : floatAbsDiffEq a1 b1 t1 <;>
        simp [hd, rassert, idx, bind, Except.bind, and1, pure, Except.pure, h0, h1]
    · omega

/-- The hypotheses are met by a 2D CRS, two positions and three tolerances. -/
example (id : String) (d : List F → List F → Res (Length F)) (x y t0 t1 t2 : F) :
    ∃ r, (Crs.mk id 2 d).approxEq [x, y] [y, x] [t0, t1, t2] = .ok r ∧
      (r = true ↔ ∀ i, i < 2 → AxisWithin [x, y] [y, x] [t0, t1, t2] i) :=
  C18_value ⟨id, 2, d⟩ [x, y] [y, x] [t0, t1, t2] (Or.inl rfl) rfl rfl (by simp)

end Geo
