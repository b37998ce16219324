import Verif.Lemmas.Series

/-!
A product of truncated series that does not compute the dropped terms: they are bounded by the products of the bounds of
the coefficients.
-/

namespace Geo.Ser

variable {K : Type} [RCLike K] {r M : ℚ}

/-- `L` bounds the coefficients of `l` one by one. -/
def Dom (E : Env K r M) : List Co → List ℚ → Prop
  | [], L => ∀ q ∈ L, 0 ≤ q
  | _ :: _, [] => False
  | x :: l, q :: L => ‖cv E x‖ ≤ q ∧ Dom E l L

namespace Dom
variable {E : Env K r M}

theorem nonneg : ∀ {l : List Co} {L : List ℚ}, Dom E l L → ∀ q ∈ L, 0 ≤ q
  | [], _, h => h
  | _ :: _, [], h => h.elim
  | x :: l, q :: L, h => by
    intro p hp
    rcases List.mem_cons.1 hp with rfl | hp
    · exact_mod_cast (norm_nonneg _).trans h.1
    · exact nonneg h.2 p hp

theorem padd_nonneg : ∀ {L L' : List ℚ}, (∀ q ∈ L, 0 ≤ q) → (∀ q ∈ L', 0 ≤ q) → ∀ q ∈ padd L L', 0 ≤ q
  | [], _, _, h => by simpa [padd] using h
  | a :: L, [], h, _ => by simpa [padd] using h
  | a :: L, b :: L', h, h' => by
    intro q hq
    rcases List.mem_cons.1 hq with rfl | hq
    · exact add_nonneg (h a (by simp)) (h' b (by simp))
    · exact padd_nonneg (fun q hq => h q (by simp [hq])) (fun q hq => h' q (by simp [hq])) q hq

theorem add : ∀ {l l' : List Co} {L L' : List ℚ}, Dom E l L → Dom E l' L' → Dom E (padd l l') (padd L L')
  | [], [], _, _, h, h' => padd_nonneg h h'
  | [], x :: l', [], _, _, h' => by simpa [padd] using h'
  | [], x :: l', q :: L, [], _, h' => h'.elim
  | [], x :: l', q :: L, q' :: L', h, h' => by
    have := h q (by simp)
    refine ⟨?_, ?_⟩
    · have h1 := h'.1
      have : (0 : ℝ) ≤ q := by exact_mod_cast this
      push_cast
      linarith
    · have := add (l := []) (L := L) (fun q hq => h q (by simp [hq])) h'.2
      simpa [padd] using this
  | x :: l, _, [], _, h, _ => h.elim
  | x :: l, [], q :: L, [], h, _ => by simpa [padd] using h
  | x :: l, [], q :: L, q' :: L', h, h' => by
    have := h' q' (by simp)
    refine ⟨?_, ?_⟩
    · have h1 := h.1
      have : (0 : ℝ) ≤ q' := by exact_mod_cast this
      push_cast
      linarith
    · have := add (l' := []) (L' := L') h.2 (fun q hq => h' q (by simp [hq]))
      cases l <;> simpa [padd] using this
  | x :: l, y :: l', q :: L, [], _, h' => h'.elim
  | x :: l, y :: l', q :: L, q' :: L', h, h' => by
    refine ⟨?_, add h.2 h'.2⟩
    rw [cv_add]
    push_cast
    exact (norm_add_le _ _).trans (add_le_add h.1 h'.1)

theorem smul {x : Co} {q : ℚ} (hx : ‖cv E x‖ ≤ q) : ∀ {l : List Co} {L : List ℚ}, Dom E l L →
    Dom E (l.map (x * ·)) (L.map (q * ·))
  | [], L, h => by
    have hq : 0 ≤ q := by exact_mod_cast (norm_nonneg _).trans hx
    intro p hp
    obtain ⟨p', h1, rfl⟩ := List.mem_map.1 hp
    exact mul_nonneg hq (h p' h1)
  | _ :: _, [], h => h.elim
  | y :: l, p :: L, h => by
    refine ⟨?_, smul hx h.2⟩
    rw [cv_mul, norm_mul]
    push_cast
    exact mul_le_mul hx h.1 (norm_nonneg _) ((norm_nonneg _).trans hx)

theorem mul : ∀ {l l' : List Co} {L L' : List ℚ}, Dom E l L → Dom E l' L' → Dom E (pmul Co.zero l l') (pmul 0 L L')
  | [], l', L, L', h, h' => by
    show ∀ q ∈ pmul 0 L L', 0 ≤ q
    have h2 := h'.nonneg
    clear h'
    induction L with
    | nil => simp [pmul]
    | cons a L ih =>
      refine padd_nonneg ?_ ?_
      · intro q hq
        obtain ⟨p, hp, rfl⟩ := List.mem_map.1 hq
        exact mul_nonneg (h a (by simp)) (h2 p hp)
      · intro q hq
        rcases List.mem_cons.1 hq with rfl | hq
        · exact le_rfl
        · exact ih (fun q hq => h q (by simp [hq])) q hq
  | _ :: _, _, [], _, h, _ => h.elim
  | x :: l, l', q :: L, L', h, h' => by
    refine add (smul h.1 h') ⟨?_, mul h.2 h'⟩
    rw [cv_zero]; simp

theorem drop : ∀ (N : ℕ) {l : List Co} {L : List ℚ}, Dom E l L → Dom E (l.drop N) (L.drop N)
  | 0, _, _, h => by simpa using h
  | N + 1, [], L, h => fun q hq => h q (List.mem_of_mem_drop hq)
  | N + 1, _ :: _, [], h => h.elim
  | N + 1, x :: l, q :: L, h => by simpa using drop N h.2

theorem norm : ∀ {l : List Co} {L : List ℚ}, Dom E l L → ‖sv E l‖ ≤ pnorm id r L
  | [], [], _ => by simp [sv, peval, pnorm]
  | [], q :: L, h => by
    have := norm (l := []) (L := L) (fun q hq => h q (by simp [hq]))
    simp only [sv, peval, norm_zero] at this ⊢
    have hr : (0 : ℝ) ≤ r := (norm_nonneg _).trans E.hε
    have : (0 : ℝ) ≤ q := by exact_mod_cast h q (by simp)
    simp only [pnorm, id]
    push_cast
    positivity
  | _ :: _, [], h => h.elim
  | x :: l, q :: L, h => by
    have := norm h.2
    have hr : (0 : ℝ) ≤ r := (norm_nonneg _).trans E.hε
    simp only [sv, peval, pnorm, id] at this ⊢
    push_cast
    refine (norm_add_le _ _).trans (add_le_add h.1 ?_)
    rw [norm_mul]
    exact mul_le_mul E.hε this (norm_nonneg _) hr

theorem nrm (E : Env K r M) : ∀ l : List Co, Dom E l (l.map fun x => up (Co.nrm M x))
  | [] => by simp [Dom]
  | x :: l => ⟨(norm_cv E x).trans (by exact_mod_cast le_up _), nrm E l⟩
end Dom

namespace Mod
/-- The product without its terms of order `N` and more. -/
def mulF (N : ℕ) (r M : ℚ) (a b : Mod) : Mod :=
  let A := a.co.map fun x => up (Co.nrm M x)
  let B := b.co.map fun x => up (Co.nrm M x)
  ⟨((pmul Co.zero a.co b.co).take N).map Co.trim,
    up (pnorm id r A * b.rem + a.rem * (pnorm id r B + b.rem * r ^ N) + pnorm id r ((pmul 0 A B).drop N))⟩
end Mod

theorem Is.mulF {N : ℕ} {E : Env K r M} {a b : Mod} {f g : K} (ha : Is N E a f) (hb : Is N E b g) :
    Is N E (Mod.mulF N r M a b) (f * g) := by
  set A := a.co.map fun x => up (Co.nrm M x)
  set B := b.co.map fun x => up (Co.nrm M x)
  have dA : Dom E a.co A := Dom.nrm E _
  have dB : Dom E b.co B := Dom.nrm E _
  have hr := E.r_nonneg
  have hb0 : (0 : ℝ) ≤ b.rem := by exact_mod_cast hb.1
  have ha0 : (0 : ℝ) ≤ a.rem := by exact_mod_cast ha.1
  have h1 := ha.2
  have h2 := hb.2
  have h3 := dA.norm
  have h4 : ‖g‖ ≤ pnorm id r B + b.rem * r ^ N := by
    have h4 : (b.rem : ℝ) * ‖E.ε‖ ^ N ≤ b.rem * r ^ N := by
      have := E.hε
      gcongr
    rw [show g = sv E b.co + (g - sv E b.co) by ring]
    exact (norm_add_le _ _).trans (add_le_add dB.norm (h2.trans h4))
  have h5 : (0 : ℝ) ≤ pnorm id r A := (norm_nonneg _).trans h3
  have h6 : (0 : ℝ) ≤ pnorm id r B := (norm_nonneg _).trans dB.norm
  have h7 := ((dA.mul dB).drop N).norm
  have h8 : (0 : ℝ) ≤ pnorm id r ((pmul 0 A B).drop N) := (norm_nonneg _).trans h7
  set S := pnorm id r A * b.rem + a.rem * (pnorm id r B + b.rem * r ^ N) + pnorm id r ((pmul 0 A B).drop N) with hS
  have hS0 : (0 : ℝ) ≤ S := by
    rw [hS]
    push_cast
    positivity
  have hup : (S : ℝ) ≤ up S := by exact_mod_cast le_up S
  have hup0 := hS0.trans hup
  refine ⟨by exact_mod_cast hup0, ?_⟩
  show ‖f * g - sv E (((pmul Co.zero a.co b.co).take N).map Co.trim)‖ ≤ (up S : ℝ) * ‖E.ε‖ ^ N
  rw [sv_trim]
  have e : f * g - sv E ((pmul Co.zero a.co b.co).take N) = (sv E a.co * (g - sv E b.co) + (f - sv E a.co) * g) +
      E.ε ^ N * sv E ((pmul Co.zero a.co b.co).drop N) := by
    have k1 := peval_split (φ := cv E) (x := E.ε) N (pmul Co.zero a.co b.co)
    rw [peval_pmul (cv_zero E) (cv_add E) (cv_mul E)] at k1
    simp only [sv]
    linear_combination k1
  rw [e]
  refine (norm_add_le _ _).trans ((add_le_add (norm_add_le _ _) le_rfl).trans ?_)
  rw [norm_mul, norm_mul, norm_mul, norm_pow]
  refine le_trans ?_ (mul_le_mul_of_nonneg_right hup (by positivity))
  rw [hS]
  push_cast
  rw [add_mul, add_mul]
  refine add_le_add (add_le_add ?_ ?_) ?_
  · rw [mul_assoc]
    exact mul_le_mul h3 h2 (norm_nonneg _) h5
  · calc ‖f - sv E a.co‖ * ‖g‖ ≤ (a.rem * ‖E.ε‖ ^ N) * (pnorm id r B + b.rem * r ^ N) :=
          mul_le_mul h1 h4 (norm_nonneg _) (by positivity)
      _ = _ := by ring
  · rw [mul_comm]
    exact mul_le_mul_of_nonneg_right h7 (by positivity)

namespace Mod
/-- The polynomial `q` in `a`, by Horner's scheme with the fast product. -/
def hornerF (N : ℕ) (r M : ℚ) (a : Mod) : List ℚ → Mod
  | [] => ⟨[], 0⟩
  | [q] => const (Co.ofQ q)
  | q :: qs => (const (Co.ofQ q)).add (mulF N r M a (hornerF N r M a qs))
/-- `comp` with the fast product. -/
def compF (N : ℕ) (r M : ℚ) (q : List ℚ) (κ : ℚ) (a : Mod) : Mod :=
  let h := hornerF N r M a q
  ⟨h.co, h.rem + κ * slope N r M a ^ N⟩
end Mod

theorem Is.hornerF {N : ℕ} {E : Env K r M} {a : Mod} {f : K} (ha : Is N E a f) :
    ∀ q : List ℚ, Is N E (Mod.hornerF N r M a q) (qeval f q)
  | [] => ⟨le_rfl, by simp [Mod.hornerF, sv, peval, qeval]⟩
  | [q] => (Is.const E (Co.ofQ q)).congr (by simp [cv_ofQ, qeval])
  | q :: p :: qs =>
    ((Is.const E (Co.ofQ q)).add (ha.mulF (Is.hornerF ha (p :: qs)))).congr (by rw [cv_ofQ]; rfl)

/-- Composition with a function known by its Taylor polynomial, by the fast product. -/
theorem Is.compF {N : ℕ} {E : Env K r M} {a : Mod} {f : K} (hN : 0 < N) (ha : Is N E a f)
    (h0 : a.co.head?.all Co.isZero = true) {G : K → K} {q : List ℚ} {κ ρ : ℚ} (hκ : 0 ≤ κ)
    (hρ : a.slope N r M * r ≤ ρ) (hG : ∀ x : K, ‖x‖ ≤ ρ → ‖G x - qeval x q‖ ≤ κ * ‖x‖ ^ N) :
    Is N E (Mod.compF N r M q κ a) (G f) := by
  have h1 := ha.slope hN h0
  have h2 := ha.hornerF q
  have hr := E.r_nonneg
  have hsl : (0 : ℝ) ≤ a.slope N r M := by
    have := sn_nonneg E a.co.tail
    have hr0 : (0 : ℝ) ≤ a.rem := by exact_mod_cast ha.1
    simp only [Mod.slope]; push_cast
    positivity
  have hκ' : (0 : ℝ) ≤ κ := by exact_mod_cast hκ
  have hf : ‖f‖ ≤ ρ := by
    refine h1.trans ((mul_le_mul_of_nonneg_left E.hε hsl).trans ?_)
    exact_mod_cast hρ
  have h3 := hG f hf
  refine ⟨?_, ?_⟩
  · have h4 : (0 : ℝ) ≤ (Mod.hornerF N r M a q).rem := by exact_mod_cast h2.1
    have : (0 : ℝ) ≤ (Mod.hornerF N r M a q).rem + κ * a.slope N r M ^ N := by positivity
    simp only [Mod.compF]
    exact_mod_cast this
  · simp only [Mod.compF]
    push_cast
    have e : G f - sv E (Mod.hornerF N r M a q).co = (qeval f q - sv E (Mod.hornerF N r M a q).co) + (G f - qeval f q) := by
      ring
    rw [e, add_mul]
    refine (norm_add_le _ _).trans (add_le_add h2.2 (h3.trans ?_))
    rw [mul_assoc, ← mul_pow]
    gcongr

end Geo.Ser
