import Verif.Arith
import Mathlib.Tactic.ByContra
import Mathlib.Tactic.Ring
import Mathlib.Tactic.Linarith
import Mathlib.Data.List.Basic

/-! Simplification lemmas for results, indexing and loops. -/

namespace Geo
variable {α β : Type}

@[simp] theorem ok_bind (a : α) (f : α → Res β) : (Except.ok a >>= f : Res β) = f a := rfl
@[simp] theorem error_bind (e : Fail) (f : α → Res β) :
    ((Except.error e : Res α) >>= f : Res β) = .error e := rfl
@[simp] theorem res_pure (a : α) : (pure a : Res α) = .ok a := rfl

theorem bind_eq_ok {x : Res α} {f : α → Res β} {b : β} :
    (x >>= f) = .ok b ↔ ∃ a, x = .ok a ∧ f a = .ok b := by
  cases x <;> simp

theorem bind_eq_error {x : Res α} {f : α → Res β} {e : Fail} :
    (x >>= f) = .error e ↔ x = .error e ∨ ∃ a, x = .ok a ∧ f a = .error e := by
  cases x <;> simp

@[simp] theorem idx_nil (i : Nat) : idx ([] : List α) i = .error (.panic "index out of bounds") := rfl
@[simp] theorem idx_cons_zero (a : α) (l : List α) : idx (a :: l) 0 = .ok a := rfl
@[simp] theorem idx_cons_succ (a : α) (l : List α) (i : Nat) : idx (a :: l) (i + 1) = idx l i := rfl
@[simp] theorem idx_cons_one (a : α) (l : List α) : idx (a :: l) 1 = idx l 0 := rfl
@[simp] theorem idx_cons_two (a : α) (l : List α) : idx (a :: l) 2 = idx l 1 := rfl

theorem idx_of_lt (l : List α) (i : Nat) (h : i < l.length) : idx l i = .ok l[i] := by
  simp [idx, h]

theorem idx_of_le (l : List α) (i : Nat) (h : l.length ≤ i) :
    idx l i = .error (.panic "index out of bounds") := by
  simp [idx, h]

@[simp] theorem rassert_true (msg : String) : rassert true msg = .ok () := rfl
@[simp] theorem rassert_false (msg : String) : rassert false msg = .error (.panic msg) := rfl

theorem iterate_succ_apply' {σ : Type} (step : σ → σ) (n : Nat) (s : σ) :
    iterate step (n + 1) s = step (iterate step n s) := by
  induction n generalizing s with
  | zero => rfl
  | succ n ih => exact ih (step s)

/-- `loopUntil` returns a state reached by at least one iteration at which `done` holds, and `done` held
at no earlier iteration. -/
theorem loopUntil_ok {σ : Type} {step : σ → σ} {done : σ → Bool} {s r : σ}
    (h : loopUntil step done s = .ok r) :
    ∃ n, r = iterate step (n + 1) s ∧ done r = true ∧
      ∀ m, m < n → done (iterate step (m + 1) s) = false := by
  unfold loopUntil at h
  split at h
  · rename_i hex
    cases h
    refine ⟨_, rfl, Nat.find_spec hex, fun m hm => ?_⟩
    exact Bool.eq_false_iff.2 (Nat.find_min hex hm)
  · cases h

/-- The first iteration at which `done` holds determines the result. -/
theorem loopUntil_eq_ok {σ : Type} {step : σ → σ} {done : σ → Bool} {s : σ} (n : Nat)
    (hn : done (iterate step (n + 1) s) = true)
    (hm : ∀ m, m < n → done (iterate step (m + 1) s) = false) :
    loopUntil step done s = .ok (iterate step (n + 1) s) := by
  have hex : ∃ n, done (iterate step (n + 1) s) = true := ⟨n, hn⟩
  unfold loopUntil
  rw [dif_pos hex]
  have : Nat.find hex = n := by
    rw [Nat.find_eq_iff]
    exact ⟨hn, fun m h => by simp [hm m h]⟩
  rw [this]

/-- The loop terminates as soon as some iteration satisfies `done`. -/
theorem loopUntil_terminates {σ : Type} {step : σ → σ} {done : σ → Bool} {s : σ}
    (h : ∃ n, done (iterate step (n + 1) s) = true) : ∃ r, loopUntil step done s = .ok r := by
  unfold loopUntil
  rw [dif_pos h]
  exact ⟨_, rfl⟩

theorem loopUntil_diverge {σ : Type} {step : σ → σ} {done : σ → Bool} {s : σ}
    (h : ∀ n, done (iterate step (n + 1) s) = false) : loopUntil step done s = .error .diverge := by
  unfold loopUntil
  rw [dif_neg]
  rintro ⟨n, hn⟩
  simp [h n] at hn

/-- `loopUntil` only fails by not terminating. -/
theorem loopUntil_error {σ : Type} {step : σ → σ} {done : σ → Bool} {s : σ} {e : Fail}
    (h : loopUntil step done s = .error e) : e = .diverge := by
  unfold loopUntil at h
  split at h
  · cases h
  · cases h; rfl

/-- `loopMax` returns a state reached by at most `n` iterations, the first one at which `done` holds. -/
theorem loopMax_ok {σ : Type} {step : σ → σ} {done : σ → Bool} {msg : String} {n : Nat} {s r : σ}
    (h : loopMax step done msg n s = .ok r) :
    ∃ k, k < n ∧ r = iterate step (k + 1) s ∧ done r = true ∧
      ∀ m, m < k → done (iterate step (m + 1) s) = false := by
  induction n generalizing s with
  | zero => cases h
  | succ n ih =>
    unfold loopMax at h
    cases hd : done (step s) with
    | true =>
      simp only [hd, if_true] at h
      cases h
      exact ⟨0, Nat.succ_pos n, rfl, hd, fun m hm => absurd hm (Nat.not_lt_zero m)⟩
    | false =>
      simp only [hd, Bool.false_eq_true, if_false] at h
      obtain ⟨k, hk, hr, hdone, hmin⟩ := ih h
      refine ⟨k + 1, Nat.succ_lt_succ hk, hr, hdone, ?_⟩
      rintro (_ | m) hm
      · exact hd
      · exact hmin m (Nat.lt_of_succ_lt_succ hm)

/-- `loopMax` fails with its message exactly when none of the `n` iterations satisfies `done`. -/
theorem loopMax_error {σ : Type} {step : σ → σ} {done : σ → Bool} {msg : String} {n : Nat} {s : σ}
    {e : Fail} (h : loopMax step done msg n s = .error e) :
    e = .err msg ∧ ∀ k, k < n → done (iterate step (k + 1) s) = false := by
  induction n generalizing s with
  | zero => cases h; exact ⟨rfl, fun k hk => absurd hk (Nat.not_lt_zero k)⟩
  | succ n ih =>
    unfold loopMax at h
    cases hd : done (step s) with
    | true => simp [hd] at h
    | false =>
      simp only [hd, Bool.false_eq_true, if_false] at h
      obtain ⟨he, hk⟩ := ih h
      refine ⟨he, ?_⟩
      rintro (_ | k) h
      · exact hd
      · exact hk k (Nat.lt_of_succ_lt_succ h)

end Geo
