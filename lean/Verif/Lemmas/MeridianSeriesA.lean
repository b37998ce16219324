import Verif.Lemmas.MercatorSeries
import Verif.Lemmas.KarneySeries
import Verif.Lemmas.SeriesFast

/-!
The series of the transverse Mercator projection on the central meridian: meridian arc from conformal latitude, up to the
power 4 of the third flattening `n`.
-/

namespace Geo.Ser

deriving instance DecidableEq for Co

def geoQ : List ℚ := [1, -1, 1, -1, 1, -1, 1]

theorem geo_taylor (x : ℝ) (hx : ‖x‖ ≤ ((1 / 10 : ℚ) : ℝ)) : ‖(1 + x)⁻¹ - qeval x geoQ‖ ≤ ((10 / 9 : ℚ) : ℝ) * ‖x‖ ^ 7 := by
  rw [Real.norm_eq_abs] at hx
  push_cast at hx
  obtain ⟨h1, h2⟩ := abs_le.1 hx
  have h3 : 0 < 1 + x := by linarith
  have e : (1 + x)⁻¹ - qeval x geoQ = -x ^ 7 / (1 + x) := by
    simp only [qeval, geoQ]; push_cast; field_simp; ring
  rw [e, norm_div, norm_neg, norm_pow, Real.norm_eq_abs (1 + x), abs_of_pos h3, div_le_iff₀ h3]
  have : 0 ≤ ‖x‖ ^ 7 := by positivity
  push_cast
  nlinarith

def artQ7 : List ℚ := [1, 1/3, 1/5, 1/7, 1/9, 1/11, 1/13]

/-- `artanh (√t) / √t`, continued by its Taylor polynomial. -/
noncomputable def artF7 (t : ℝ) : ℝ := if 0 < t then Real.artanh (Real.sqrt t) / Real.sqrt t else qeval t artQ7

theorem artF7_eq {t : ℝ} (h : 0 ≤ t) : artF7 t = artF t := by
  rcases h.lt_or_eq with h | h
  · rw [artF7, artF, if_pos h, if_pos h]
  · rw [artF7, artF, if_neg (by linarith), if_neg (by linarith), ← h]; simp [qeval, artQ, artQ7]

theorem artanh_taylor7 {y : ℝ} (h0 : 0 ≤ y) (h1 : y ^ 2 ≤ 1 / 40) :
    |Real.artanh y - (y + y ^ 3 / 3 + y ^ 5 / 5 + y ^ 7 / 7 + y ^ 9 / 9 + y ^ 11 / 11 + y ^ 13 / 13)| ≤ 1 / 14 * y ^ 15 := by
  have hy1 : y < 1 := by nlinarith
  have hsq : ∀ x ∈ Set.Icc 0 y, 0 ≤ x ∧ x < 1 ∧ x ^ 2 ≤ 1 / 40 := by
    intro x hx
    exact ⟨hx.1, lt_of_le_of_lt hx.2 hy1, le_trans (by nlinarith [hx.1, hx.2]) h1⟩
  set f := fun x : ℝ => Real.artanh x - (x + x ^ 3 / 3 + x ^ 5 / 5 + x ^ 7 / 7 + x ^ 9 / 9 + x ^ 11 / 11 + x ^ 13 / 13) with hf
  have hd : ∀ x ∈ Set.Icc 0 y, HasDerivAt f (x ^ 14 / (1 - x ^ 2)) x := by
    intro x hx
    obtain ⟨a1, a2, a3⟩ := hsq x hx
    have e1 := hasDerivAt_artanh (x := x) (by linarith) a2
    have p := fun n : ℕ => hasDerivAt_pow n x
    refine HasDerivAt.congr_deriv (e1.sub (((((((hasDerivAt_id x).add ((p 3).div_const 3)).add ((p 5).div_const 5)).add
        ((p 7).div_const 7)).add ((p 9).div_const 9)).add ((p 11).div_const 11)).add ((p 13).div_const 13))) ?_
    have : 1 - x ^ 2 ≠ 0 := by nlinarith
    push_cast
    field_simp
    ring
  have hd2 : ∀ x ∈ Set.Icc 0 y, HasDerivAt (fun x : ℝ => 1 / 14 * x ^ 15) (1 / 14 * (15 * x ^ 14)) x := by
    intro x _
    refine HasDerivAt.congr_deriv ((hasDerivAt_pow 15 x).const_mul (1 / 14)) ?_
    push_cast; ring
  set g := fun x : ℝ => 1 / 14 * x ^ 15 with hg
  have hf0 : f 0 = 0 := by simp [hf]
  have hg0 : g 0 = 0 := by simp [hg]
  have m1 : MonotoneOn f (Set.Icc 0 y) := by
    apply monotoneOn_of_deriv_nonneg (convex_Icc _ _)
    · exact fun x hx => (hd x hx).continuousAt.continuousWithinAt
    · exact fun x hx => (hd x (interior_subset hx)).differentiableAt.differentiableWithinAt
    · intro x hx
      rw [(hd x (interior_subset hx)).deriv]
      obtain ⟨a1, a2, a3⟩ := hsq x (interior_subset hx)
      exact div_nonneg (by positivity) (by linarith)
  have m2 : MonotoneOn (fun x => g x - f x) (Set.Icc 0 y) := by
    have hd3 := fun x hx => (hd2 x hx).sub (hd x hx)
    apply monotoneOn_of_deriv_nonneg (convex_Icc _ _)
    · exact fun x hx => (hd3 x hx).continuousAt.continuousWithinAt
    · exact fun x hx => (hd3 x (interior_subset hx)).differentiableAt.differentiableWithinAt
    · intro x hx
      have := (hd3 x (interior_subset hx)).deriv
      rw [show (fun x => g x - f x) = g - f from rfl, this]
      obtain ⟨a1, a2, a3⟩ := hsq x (interior_subset hx)
      have hp : 0 < 1 - x ^ 2 := by linarith
      rw [sub_nonneg, div_le_iff₀ hp]
      have : 0 ≤ x ^ 14 := by positivity
      nlinarith
  have h2 := m1 (Set.left_mem_Icc.2 h0) (Set.right_mem_Icc.2 h0) h0
  have h3 := m2 (Set.left_mem_Icc.2 h0) (Set.right_mem_Icc.2 h0) h0
  simp only [hf0, hg0] at h2 h3
  rw [abs_of_nonneg h2]
  show f y ≤ g y
  linarith

theorem artF7_taylor (t : ℝ) (ht : ‖t‖ ≤ ((1 / 40 : ℚ) : ℝ)) :
    ‖artF7 t - qeval t artQ7‖ ≤ ((1 / 14 : ℚ) : ℝ) * ‖t‖ ^ 7 := by
  unfold artF7
  split
  · rename_i h0
    have hs : 0 < Real.sqrt t := Real.sqrt_pos.2 h0
    have hsq : Real.sqrt t ^ 2 = t := Real.sq_sqrt h0.le
    rw [Real.norm_eq_abs, abs_of_pos h0] at ht
    push_cast at ht
    have h := artanh_taylor7 hs.le (by rw [hsq]; linarith)
    set y := Real.sqrt t
    rw [Real.norm_eq_abs, Real.norm_eq_abs, abs_of_pos h0]
    have e : Real.artanh y / y - qeval t artQ7 =
        (Real.artanh y - (y + y ^ 3 / 3 + y ^ 5 / 5 + y ^ 7 / 7 + y ^ 9 / 9 + y ^ 11 / 11 + y ^ 13 / 13)) / y := by
      rw [← hsq]
      simp only [qeval, artQ7]; push_cast; field_simp; ring
    rw [e, abs_div, abs_of_pos hs, div_le_iff₀ hs]
    refine h.trans (le_of_eq ?_)
    rw [← hsq]; push_cast; ring
  · simp

/-- The terms below order `N` are zero. -/
theorem Is.bound_lower {N k : ℕ} {K : Type} [RCLike K] {r M : ℚ} {E : Env K r M} {m : Mod} {f : K} (h : Is (N + k) E m f)
    (hz : (Mod.trunc N r M ⟨m.co, m.rem * r ^ k⟩).co.all Co.isZero = true) {C : ℚ}
    (hC : (Mod.trunc N r M ⟨m.co, m.rem * r ^ k⟩).rem ≤ C) : ‖f‖ ≤ C * ‖E.ε‖ ^ N :=
  h.lower.trunc.bound hz hC

/-- The series `l` is `m` with a larger bound of the remainder. -/
def lit (m l : Mod) : Bool := decide (m.co = l.co) && decide (m.rem ≤ l.rem)

theorem Is.lit {N : ℕ} {K : Type} [RCLike K] {r M : ℚ} {E : Env K r M} {m l : Mod} {f : K} (h : Is N E m f)
    (hl : Ser.lit m l = true) : Is N E l f := by
  simp only [Ser.lit, Bool.and_eq_true, decide_eq_true_eq] at hl
  have := h.weak hl.2
  rwa [Mod.weak, hl.1] at this

namespace Mer

def r0 : ℚ := 1 / 190
def mulM (a b : Mod) : Mod := Mod.mulF 7 r0 1 a b
def compM (q : List ℚ) (κ : ℚ) (a : Mod) : Mod := Mod.compF 7 r0 1 q κ a
def oneM : Mod := .const (Co.ofQ 1)
def sM : Mod := .const ⟨[0, 1], []⟩

def epsM : Mod := Mod.exact [Co.zero, Co.ofQ 1]
def I1 : Mod := compM geoQ (10/9) epsM
def E2M : Mod := (mulM epsM (mulM I1 I1)).smul 4
def TM : Mod := mulM E2M (mulM sM sM)
def AM : Mod := compM artQ7 (1/14) TM
def WM : Mod := mulM E2M (mulM sM AM)

/-! The intermediate series, as they come out with the remainder rounded up: the kernel checks one step at a time. -/

def WL : Mod := ⟨[⟨[], []⟩,
  ⟨[0, 4], []⟩,
  ⟨[0, -8, 0, 16/3], []⟩,
  ⟨[0, 12, 0, -64/3, 0, 64/5], []⟩,
  ⟨[0, -16, 0, 160/3, 0, -384/5, 0, 256/7], []⟩,
  ⟨[0, 20, 0, -320/3, 0, 1344/5, 0, -2048/7, 0, 1024/9], []⟩,
  ⟨[0, -24, 0, 560/3, 0, -3584/5, 0, 9216/7, 0, -10240/9, 0, 4096/11], []⟩], 141⟩
def shM : Mod := compM (sinhQ 7) (expK 7) WL
def chM : Mod := compM (coshQ 7) (expK 7) WL
def shL : Mod := ⟨[⟨[0], []⟩,
  ⟨[0, 4], []⟩,
  ⟨[0, -8, 0, 16/3], []⟩,
  ⟨[0, 12, 0, -32/3, 0, 64/5], []⟩,
  ⟨[0, -16, 0, -32/3, 0, -512/15, 0, 256/7], []⟩,
  ⟨[0, 20, 0, 352/3, 0, -64, 0, -41984/315, 0, 1024/9], []⟩,
  ⟨[0, -24, 0, -1232/3, 0, 11008/15, 0, -1536/7, 0, -1550336/2835, 0, 4096/11], []⟩], 482⟩
def chL : Mod := ⟨[⟨[1], []⟩,
  ⟨[], []⟩,
  ⟨[0, 0, 8], []⟩,
  ⟨[0, 0, -32, 0, 64/3], []⟩,
  ⟨[0, 0, 80, 0, -352/3, 0, 2944/45], []⟩,
  ⟨[0, 0, -160, 0, 1088/3, 0, -20992/45, 0, 22528/105], []⟩,
  ⟨[0, 0, 280, 0, -2432/3, 0, 1792, 0, -596992/315, 0, 1153024/1575], []⟩], 317⟩
def D1M : Mod := (chL.sub oneM).sub (mulM sM shL)
def IDM : Mod := compM geoQ (10/9) D1M
def IDL : Mod := ⟨[⟨[1], []⟩,
  ⟨[0, 0, 4], []⟩,
  ⟨[0, 0, -16, 0, 64/3], []⟩,
  ⟨[0, 0, 44, 0, -160, 0, 1792/15], []⟩,
  ⟨[0, 0, -96, 0, 2144/3, 0, -11648/9, 0, 214016/315], []⟩,
  ⟨[0, 0, 180, 0, -7264/3, 0, 356992/45, 0, -3016192/315, 0, 1224704/315], []⟩,
  ⟨[0, 0, -304, 0, 6848, 0, -538112/15, 0, 4683776/63, 0, -954320896/14175, 0, 1159675904/51975], []⟩], 44151⟩

theorem check_e : (epsM.co.head?.all Co.isZero && decide (epsM.slope 7 r0 1 * r0 ≤ 1/10)) = true := by decide +kernel
theorem check_T : (TM.co.head?.all Co.isZero && decide (TM.slope 7 r0 1 * r0 ≤ 1/40)) = true := by decide +kernel
theorem check_W : (lit WM WL) = true := by decide +kernel
theorem check_W1 : (WL.co.head?.all Co.isZero && decide (WL.slope 7 r0 1 * r0 ≤ 1)) = true := by decide +kernel
theorem check_sh : (lit shM shL) = true := by decide +kernel
theorem check_ch : (lit chM chL) = true := by decide +kernel
theorem check_D : (D1M.co.head?.all Co.isZero && decide (D1M.slope 7 r0 1 * r0 ≤ 1/30)) = true := by decide +kernel
theorem check_ID : (lit IDM IDL) = true := by decide +kernel

end Mer
end Geo.Ser
