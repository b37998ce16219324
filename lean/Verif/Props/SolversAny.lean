import Verif.Model.Geodesics
import Verif.Lemmas.Res

/-!
C61, C66, C69: control flow of the geodesic solvers and of the fixed-point helper, for every float
semantics.
-/

namespace Geo
variable {F : Type} [Flt F]

/-- **C61** (direct problem).  Every solver returns: either `Err` (Vincenty and Rapp after 30 iterations
without convergence), or a geodesic that carries the given start point, azimuth and length unchanged.  No
panic, no endless loop, whatever the floats (NaN included). -/
theorem C61_direct (solver : GeodesicSolver F) (p1 : Lon F × Lat F) (alpha1 : Azimuth F)
    (s12 : Length F) :
    (∃ g, solver.solveDirect p1 alpha1 s12 = .ok g ∧ g.p1 = p1 ∧ g.alpha1 = alpha1 ∧ g.s = s12) ∨
    solver.solveDirect p1 alpha1 s12 = .error (.err "Direct geodesic computation is not converging!") := by
  cases solver with
  | vincenty s =>
    cases h : s.direct p1 alpha1 s12 with
    | ok g =>
      left
      obtain ⟨_, _, h⟩ := bind_eq_ok.1 h
      cases h
      exact ⟨_, by assumption, rfl, rfl, rfl⟩
    | error e =>
      right
      rcases bind_eq_error.1 h with h' | ⟨_, _, h'⟩
      · rw [(loopMax_error h').1] at h; exact h
      · cases h'
  | rapp s =>
    cases h : s.direct p1 alpha1 s12 with
    | ok g =>
      left
      obtain ⟨_, _, h⟩ := bind_eq_ok.1 h
      cases h
      exact ⟨_, by assumption, rfl, rfl, rfl⟩
    | error e =>
      right
      rcases bind_eq_error.1 h with h' | ⟨_, _, h'⟩
      · rw [(loopMax_error h').1] at h; exact h
      · cases h'
  | karney s => exact Or.inl ⟨_, rfl, rfl, rfl, rfl⟩

/-- **C61** (inverse problem, Vincenty and Rapp).  `Err` or a geodesic with the given end points. -/
theorem C61_inverse (solver : GeodesicSolver F) (hk : ∀ k, solver ≠ .karney k)
    (p1 p2 : Lon F × Lat F) :
    (∃ g, solver.solveInverse p1 p2 = .ok g ∧ g.p1 = p1 ∧ g.p2 = p2) ∨
    solver.solveInverse p1 p2 = .error (.err "Inverse geodesic computation is not converging!") := by
  cases solver with
  | vincenty s =>
    cases h : s.inverse p1 p2 with
    | ok g =>
      left
      obtain ⟨_, _, h⟩ := bind_eq_ok.1 h
      cases h
      exact ⟨_, by assumption, rfl, rfl⟩
    | error e =>
      right
      rcases bind_eq_error.1 h with h' | ⟨_, _, h'⟩
      · rw [(loopMax_error h').1] at h; exact h
      · cases h'
  | rapp s =>
    cases h : s.inverse p1 p2 with
    | ok g =>
      left
      obtain ⟨_, _, h⟩ := bind_eq_ok.1 h
      cases h
      exact ⟨_, by assumption, rfl, rfl⟩
    | error e =>
      right
      rcases bind_eq_error.1 h with h' | ⟨_, _, h'⟩
      · rw [(loopMax_error h').1] at h; exact h
      · cases h'
  | karney s => exact absurd rfl (hk s)

example (e : Ellipsoid F) (p1 p2 : Lon F × Lat F) :
    (∃ g, (GeodesicSolver.rapp (RappSolver.new e)).solveInverse p1 p2 = .ok g ∧ g.p1 = p1 ∧ g.p2 = p2) ∨
    (GeodesicSolver.rapp (RappSolver.new e)).solveInverse p1 p2 =
      .error (.err "Inverse geodesic computation is not converging!") :=
  C61_inverse _ (fun k h => by cases h) p1 p2

/-- **C66, negation**: the Karney solver never returns from the inverse problem; it panics on every
input. -/
theorem C66_karney_inverse_always_panics (e : Ellipsoid F) (p1 p2 : Lon F × Lat F) :
    (GeodesicSolver.karney (KarneyGeodesicSolver.new e)).solveInverse p1 p2 =
      .error (.panic "not implemented") := rfl

/-- **C66, negation** in the form of the property. -/
theorem C66_karney_inverse_never_ok (e : Ellipsoid F) :
    ¬ ∃ p1 p2 g, (GeodesicSolver.karney (KarneyGeodesicSolver.new e)).solveInverse p1 p2 = .ok g := by
  rintro ⟨p1, p2, g, h⟩
  cases h

/-- Specification for C69: `res` is reached from `init` by repeatedly adding, component by component, the
increments `deltas` computes at the current point; `last` are the last increments. -/
inductive ReachedBy (deltas : List F → List F) : List F → List F → List F → Prop
  | one (init : List F) :
    ReachedBy deltas init (List.zipWith (fun r d => r + d) init (deltas init)) (deltas init)
  | more {init res last : List F} : ReachedBy deltas init res last →
    ReachedBy deltas init (List.zipWith (fun r d => r + d) res (deltas res)) (deltas res)

/-- **C69**: when `iter_fn` returns, the result was reached by adding increments (at least once) and every
component of the last increment is below its tolerance; the only other outcome is an endless loop. -/
theorem C69_iter_fn (init : List F) (deltas : List F → List F) (epsilon : List F) :
    (∀ res, iterFn init deltas epsilon = .ok res →
      ∃ last, ReachedBy deltas init res last ∧
        ∀ (i : Nat) (d e : F), last[i]? = some d → epsilon[i]? = some e → Flt.lt (Flt.abs d) e = true) ∧
    (∀ err, iterFn init deltas epsilon = .error err → err = .diverge) := by
  have reach : ∀ n, ReachedBy deltas init (iterate (iterFnStep deltas) (n + 1) (init, [])).1
      (iterate (iterFnStep deltas) (n + 1) (init, [])).2 := by
    intro n
    induction n with
    | zero => exact ReachedBy.one init
    | succ n ih =>
      rw [iterate_succ_apply']
      exact ReachedBy.more ih
  constructor
  · intro res h
    obtain ⟨st, h1, h2⟩ := bind_eq_ok.1 h
    cases h2
    obtain ⟨n, hst, hd, -⟩ := loopUntil_ok h1
    refine ⟨st.2, hst ▸ reach n, ?_⟩
    intro i d e hi he
    have hz : (d, e) ∈ st.2.zip epsilon := by
      apply List.mem_of_getElem? (i := i)
      simp [List.getElem?_zip_eq_some, hi, he]
    have := List.all_eq_true.1 hd _ hz
    exact this
  · intro err h
    rcases bind_eq_error.1 h with h | ⟨_, _, h⟩
    · exact loopUntil_error h
    · cases h

end Geo
