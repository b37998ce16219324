import Verif.Lemmas.TwoSum
import Verif.Model.Cs

/-! C02, C06: ranges of longitudes and latitudes in IEEE arithmetic. -/

namespace Geo
variable {L : Libm}

/-! ### Constants -/

theorem pi_fin : B64.pi.isFinite = true ∧ B64.pi.toQ = 884279719003555 / 2 ^ 48 := by decide +kernel

theorem pi_2_fin : B64.pi_2.isFinite = true ∧ B64.pi_2.toQ = 884279719003555 / 2 ^ 49 := by decide +kernel

theorem tau_fin : B64.tau.isFinite = true ∧ B64.tau.toQ = 884279719003555 / 2 ^ 47 := by decide +kernel

/-! ### C06 -/

/-- A double that is NaN or in `[-FRAC_PI_2, FRAC_PI_2]`. -/
def InLatRange (x : F64 L) : Prop :=
  x.isNaN ∨ x.isFinite ∧ -(Flt.pi_2 : F64 L).toQ ≤ x.toQ ∧ x.toQ ≤ (Flt.pi_2 : F64 L).toQ

/-- The latitudes that a program can build with the public API of `Lat` (cs/geodetic.rs:586-770). -/
inductive BuiltLat : Lat (F64 L) → Prop where
  | min : BuiltLat Lat.MIN
  | zero : BuiltLat Lat.ZERO
  | max : BuiltLat Lat.MAX
  | new (a : Angle (F64 L)) : BuiltLat (Lat.new a)
  | deg (d : F64 L) : BuiltLat (Lat.deg d)
  | dms (debug : Bool) (d m s : F64 L) (l : Lat (F64 L)) : Lat.dms debug d m s = .ok l → BuiltLat l
  | abs {l : Lat (F64 L)} : BuiltLat l → BuiltLat l.abs
  | neg {l : Lat (F64 L)} : BuiltLat l → BuiltLat (-l)
  | addAngle {l : Lat (F64 L)} (a : Angle (F64 L)) : BuiltLat l → BuiltLat (l.addAngle a)
  | addAssign {l : Lat (F64 L)} (a : Angle (F64 L)) : BuiltLat l → BuiltLat (l.addAssign a)
  | subAngle {l : Lat (F64 L)} (a : Angle (F64 L)) : BuiltLat l → BuiltLat (l.subAngle a)
  | subAssign {l : Lat (F64 L)} (a : Angle (F64 L)) : BuiltLat l → BuiltLat (l.subAssign a)
  | mulF {l : Lat (F64 L)} (k : F64 L) : BuiltLat l → BuiltLat (l.mulF k)
  | mulAssign {l : Lat (F64 L)} (k : F64 L) : BuiltLat l → BuiltLat (l.mulAssign k)
  | divF {l : Lat (F64 L)} (k : F64 L) : BuiltLat l → BuiltLat (l.divF k)
  | divAssign {l : Lat (F64 L)} (k : F64 L) : BuiltLat l → BuiltLat (l.divAssign k)

theorem neg_pi_2_toQ : (-(Flt.pi_2 : F64 L)).toQ = -(Flt.pi_2 : F64 L).toQ := B64.neg_toQ _

theorem neg_pi_2_fin : (-(Flt.pi_2 : F64 L)).isFinite := (B64.neg_finite B64.pi_2).trans pi_2_fin.1

theorem pi_2_pos : (0 : ℚ) < (Flt.pi_2 : F64 L).toQ := by
  show 0 < B64.pi_2.toQ
  rw [pi_2_fin.2]; norm_num

theorem inLatRange_clamp (x : F64 L) : InLatRange (clamp x (-Flt.pi_2) Flt.pi_2) := by
  have hp := pi_2_pos (L := L)
  have hlo : InLatRange (-(Flt.pi_2 : F64 L)) := Or.inr ⟨neg_pi_2_fin, by rw [neg_pi_2_toQ], by rw [neg_pi_2_toQ]; linarith⟩
  have hhi : InLatRange (Flt.pi_2 : F64 L) := Or.inr ⟨pi_2_fin.1, by linarith, le_rfl⟩
  unfold clamp
  split_ifs with h1 h2
  · exact hlo
  · exact hhi
  · by_cases hx : x.isFinite
    · right
      refine ⟨hx, ?_, ?_⟩
      · by_contra hc
        refine h1 ?_
        have : B64.lt x (-(Flt.pi_2 : F64 L)) = _ := B64.lt_fin hx neg_pi_2_fin
        refine this.trans ?_
        have hc' := not_le.1 hc
        rw [← neg_pi_2_toQ] at hc'
        exact decide_eq_true hc'
      · by_contra hc
        refine h2 ?_
        have : B64.lt (Flt.pi_2 : F64 L) x = _ := B64.lt_fin pi_2_fin.1 hx
        refine this.trans ?_
        exact decide_eq_true (not_le.1 hc)
    · rcases B64.not_finite hx with e | ⟨s, e⟩
      · exact Or.inl e
      · exfalso
        subst e
        cases s
        · exact h2 (by show B64.lt B64.pi_2 (B64.inf false) = true; decide +kernel)
        · exact h1 (by show B64.lt (B64.inf true) (B64.neg B64.pi_2) = true; decide +kernel)

/-- C06. -/
theorem C06_latitude_invariant (l : Lat (F64 L)) (h : BuiltLat l) : InLatRange l.angle.rad := by
  have hp := pi_2_pos (L := L)
  induction h with
  | min => exact Or.inr ⟨neg_pi_2_fin, neg_pi_2_toQ.ge, neg_pi_2_toQ.le.trans (by linarith)⟩
  | zero =>
    have h0 : (B64.lit 0).toQ = 0 := (B64.lit_toQ isDouble_zero).2
    exact Or.inr ⟨(B64.lit_toQ isDouble_zero).1, by show _ ≤ (B64.lit 0).toQ; rw [h0]; linarith,
      by show (B64.lit 0).toQ ≤ _; rw [h0]; linarith⟩
  | max => exact Or.inr ⟨pi_2_fin.1, by show _ ≤ (Flt.pi_2 : F64 L).toQ; linarith, le_rfl⟩
  | dms debug d m s l hl =>
    have : l = Lat.new (dmsAngle d m s) := by
      unfold Lat.dms at hl
      cases debug
      · simp only [Bool.false_eq_true, if_false] at hl
        exact (Except.ok.inj hl).symm
      · simp only [if_true] at hl
        cases ha : Lat.dmsAsserts d m s with
        | error e => rw [ha] at hl; cases hl
        | ok u => rw [ha] at hl; exact (Except.ok.inj hl).symm
    rw [this]
    exact inLatRange_clamp _
  | abs _ ih =>
    rename_i l _
    rcases ih with h | ⟨hf, h1, h2⟩
    · left
      have : l.angle.rad = B64.nan := h
      show B64.abs l.angle.rad = B64.nan
      rw [this]; rfl
    · right
      have e : (l.abs.angle.rad).toQ = |l.angle.rad.toQ| := B64.abs_toQ _
      refine ⟨(B64.abs_finite _).trans hf, ?_, ?_⟩
      · rw [e]; exact (neg_nonpos.2 hp.le).trans (abs_nonneg _)
      · rw [e]; exact abs_le.2 ⟨h1, h2⟩
  | neg _ ih =>
    rename_i l _
    rcases ih with h | ⟨hf, h1, h2⟩
    · left
      have : l.angle.rad = B64.nan := h
      show B64.neg l.angle.rad = B64.nan
      rw [this]; rfl
    · right
      have e : ((-l).angle.rad).toQ = -l.angle.rad.toQ := B64.neg_toQ _
      refine ⟨(B64.neg_finite _).trans hf, ?_, ?_⟩ <;> rw [e] <;> linarith
  | _ => exact inLatRange_clamp _

/-- `(Lat::deg(80) + 20°) * -0.5`, an infinite divisor, and a NaN. -/
example : BuiltLat (((Lat.deg (Flt.lit 80) : Lat (F64 L)).addAngle (Angle.new (Flt.lit 20) DEG)).mulF (Flt.lit (-0.5))) ∧
    BuiltLat ((Lat.MAX : Lat (F64 L)).divF Flt.infinity) ∧
    BuiltLat ((Lat.ZERO : Lat (F64 L)).mulF Flt.infinity) ∧
    ((Lat.ZERO : Lat (F64 L)).mulF Flt.infinity).angle.rad.isNaN := by
  refine ⟨.mulF _ (.addAngle _ (.deg _)), .divF _ .max, .mulF _ .zero, ?_⟩
  show (if B64.lt (B64.mul (B64.lit 0) (B64.inf false)) (B64.neg B64.pi_2) then B64.neg B64.pi_2
    else if B64.lt B64.pi_2 (B64.mul (B64.lit 0) (B64.inf false)) then B64.pi_2
    else B64.mul (B64.lit 0) (B64.inf false)) = B64.nan
  decide +kernel

/-! ### C02 -/

theorem rteQ_odd {q : ℚ} (h : rteQ q % 2 = 1) : |(rteQ q : ℚ) - q| < 1 / 2 := by
  have h1 := Int.floor_le q
  have h2 := Int.lt_floor_add_one q
  unfold rteQ at h ⊢
  split_ifs at h ⊢ with c1 c2 c3
  · rw [abs_lt]; constructor <;> linarith
  · rw [abs_lt]; push_cast; constructor <;> linarith
  · omega
  · omega

theorem gap {x C : ℚ} (hx : Rep x) (e m0 : ℤ) (h : C < x) (h1 : ((m0 : ℚ) - 1) * 2 ^ e ≤ C) (h2 : (m0 : ℚ) * 2 ^ e ≤ C + 1)
    (h3 : 2 ^ (e + 52) ≤ C ∨ C + 1 ≤ -2 ^ (e + 52)) : (m0 : ℚ) * 2 ^ e ≤ x := by
  rcases le_or_gt (C + 1) x with hc | hc
  · exact h2.trans hc
  · have hk : 2 ^ (e + 52) ≤ |x| := by
      rcases h3 with h3 | h3
      · exact (h3.trans h.le).trans (le_abs_self x)
      · exact (by linarith : 2 ^ (e + 52) ≤ -x).trans (neg_le_abs x)
    obtain ⟨m, rfl⟩ := hx.grid.mono (le_expo hk)
    have hp := two_zpow_pos e
    refine mul_le_mul_of_nonneg_right ?_ hp.le
    have h4 := lt_of_mul_lt_mul_right (h1.trans_lt h) hp.le
    have h5 : m0 - 1 < m := by
      have : ((m0 - 1 : ℤ) : ℚ) < m := by push_cast; exact h4
      exact_mod_cast this
    have h6 : m0 ≤ m := by omega
    exact_mod_cast h6

/-- Value of `TAU`. -/
def tauQ : ℚ := 884279719003555 / 2 ^ 47

/-- Up to `17 PI` the multiple of `TAU` subtracted by `remainder` is large enough. -/
theorem remainder_le {x : ℚ} (hr : Rep x) (hx1 : -(17 / 2 * tauQ) ≤ x) (hx2 : x ≤ 17 / 2 * tauQ) :
    |rteQ (rndQ (x / tauQ))| ≤ 8 ∧ x - rteQ (rndQ (x / tauQ)) * tauQ ≤ tauQ / 2 := by
  have ht : (0 : ℚ) < tauQ := by norm_num [tauQ]
  have r17 : Rep (17 / 2) := ⟨17, -1, by norm_num, by norm_num, by norm_num⟩
  have q2 : rndQ (x / tauQ) ≤ 17 / 2 := rndQ_le r17 (by rw [div_le_iff₀ ht]; exact hx2)
  have q1 : -(17 / 2) ≤ rndQ (x / tauQ) := le_rndQ r17.neg (by rw [le_div_iff₀ ht]; linarith)
  have herr := abs_le.1 (rteQ_err (rndQ (x / tauQ)))
  have hodd := @rteQ_odd (rndQ (x / tauQ))
  have hmono : ∀ y, y ≤ x → rndQ (y / tauQ) ≤ rndQ (x / tauQ) := fun y hy => rndQ_mono (by gcongr)
  generalize rndQ (x / tauQ) = q at *
  generalize rteQ q = n at *
  have n9 : -9 ≤ n ∧ n ≤ 9 := by
    constructor
    · have : (-9 : ℚ) ≤ n := by linarith
      exact_mod_cast this
    · have : (n : ℚ) ≤ 9 := by linarith
      exact_mod_cast this
  have n8 : -8 ≤ n ∧ n ≤ 8 := by
    constructor
    · by_contra hc
      have : n = -9 := by omega
      subst this
      have := abs_lt.1 (hodd (by norm_num))
      norm_num at this
      linarith
    · by_contra hc
      have : n = 9 := by omega
      subst this
      have := abs_lt.1 (hodd (by norm_num))
      norm_num at this
      linarith
  refine ⟨abs_le.2 n8, ?_⟩
  by_contra hc
  have h : (n + 1 / 2) * tauQ < x := by linarith
  have hrep : Rep (n + 1 / 2) := by
    refine ⟨2 * n + 1, -1, by push_cast; norm_num; ring, ?_, by norm_num⟩
    rw [abs_le]; constructor <;> omega
  have hq' : (n : ℚ) + 1 / 2 ≤ q := by
    have := hmono _ h.le
    rwa [mul_div_assoc, div_self ht.ne', mul_one, hrep.rnd] at this
  have hqe : q = n + 1 / 2 := le_antisymm (by linarith) hq'
  have heven : n % 2 = 0 := by
    by_contra ho
    have := abs_lt.1 (hodd (by omega))
    linarith
  have hq : ∀ y, y ≤ x → rndQ (y / tauQ) ≤ n + 1 / 2 := fun y hy => (hmono y hy).trans hqe.le
  clear hmono hq' hqe hodd herr hrep hc
  obtain ⟨n1, n2⟩ := n8
  unfold tauQ at h
  have hcase : n = -8 ∨ n = -6 ∨ n = -4 ∨ n = -2 ∨ n = 0 ∨ n = 2 ∨ n = 4 ∨ n = 6 ∨ n = 8 := by omega
  rcases hcase with rfl | rfl | rfl | rfl | rfl | rfl | rfl | rfl | rfl
  · have hg := gap hr (-47) (-6632097892526662) h (by norm_num) (by norm_num) (Or.inr (by norm_num))
    exact absurd (hq _ hg) (by decide +kernel)
  · have hg := gap hr (-47) (-4863538454519552) h (by norm_num) (by norm_num) (Or.inr (by norm_num))
    exact absurd (hq _ hg) (by decide +kernel)
  · have hg := gap hr (-48) (-6189958033024884) h (by norm_num) (by norm_num) (Or.inr (by norm_num))
    exact absurd (hq _ hg) (by decide +kernel)
  · have hg := gap hr (-49) (-5305678314021329) h (by norm_num) (by norm_num) (Or.inr (by norm_num))
    exact absurd (hq _ hg) (by decide +kernel)
  · have hg := gap hr (-51) (7074237752028441) h (by norm_num) (by norm_num) (Or.inl (by norm_num))
    exact absurd (hq _ hg) (by decide +kernel)
  · have hg := gap hr (-49) (8842797190035551) h (by norm_num) (by norm_num) (Or.inl (by norm_num))
    exact absurd (hq _ hg) (by decide +kernel)
  · have hg := gap hr (-48) (7958517471031996) h (by norm_num) (by norm_num) (Or.inl (by norm_num))
    exact absurd (hq _ hg) (by decide +kernel)
  · have hg := gap hr (-47) (5747818173523108) h (by norm_num) (by norm_num) (Or.inl (by norm_num))
    exact absurd (hq _ hg) (by decide +kernel)
  · exact absurd hx2 (not_le.2 (by unfold tauQ; push_cast at h; linarith))

theorem remainder_exact {x : ℚ} (hr : Rep x) (hx : |x| ≤ 17 / 2 * tauQ) :
    |rteQ (rndQ (x / tauQ))| ≤ 8 ∧ |x - rteQ (rndQ (x / tauQ)) * tauQ| ≤ tauQ / 2 ∧
    Rep (rteQ (rndQ (x / tauQ)) * tauQ) ∧ Rep (x - rteQ (rndQ (x / tauQ)) * tauQ) := by
  have ht : (0 : ℚ) < tauQ := by norm_num [tauQ]
  obtain ⟨h1, h2⟩ := abs_le.1 hx
  obtain ⟨hn, hu⟩ := remainder_le hr h1 h2
  have hl := (remainder_le hr.neg (by linarith) (by linarith)).2
  rw [neg_div, rndQ_neg, rteQ_neg] at hl
  push_cast at hl
  have habs : |x - rteQ (rndQ (x / tauQ)) * tauQ| ≤ tauQ / 2 := abs_le.2 ⟨by linarith, hu⟩
  have hg : OnGrid (-47) (rteQ (rndQ (x / tauQ)) * tauQ) :=
    ⟨rteQ (rndQ (x / tauQ)) * 884279719003555, by unfold tauQ; push_cast; rw [zpow_neg]; norm_num; ring⟩
  refine ⟨hn, habs, hg.rep (by norm_num) ?_, ?_⟩
  · have hn' : |(rteQ (rndQ (x / tauQ)) : ℚ)| ≤ 8 := by exact_mod_cast hn
    rw [abs_mul, abs_of_pos ht]
    calc _ ≤ 8 * tauQ := by nlinarith
      _ ≤ _ := by norm_num [tauQ]
  · by_cases h0 : rteQ (rndQ (x / tauQ)) = 0
    · rw [h0]; simpa using hr
    · have hbig : 2 ≤ |x| := by
        by_contra hc
        push Not at hc
        refine h0 ?_
        have r1 : Rep (1 / 3 - 1 / 3 + 3 / 8) := ⟨3, -3, by norm_num, by norm_num, by norm_num⟩
        rw [sub_self, zero_add] at r1
        have h3 : |rndQ (x / tauQ)| ≤ 3 / 8 := by
          rw [abs_rndQ]
          refine rndQ_le r1 ?_
          rw [abs_div, abs_of_pos ht, div_le_iff₀ ht]
          refine hc.le.trans ?_
          norm_num [tauQ]
        have h4 := abs_le.1 (rteQ_err (rndQ (x / tauQ)))
        have h5 := abs_le.1 h3
        have h6 : (-1 : ℚ) < rteQ (rndQ (x / tauQ)) ∧ (rteQ (rndQ (x / tauQ)) : ℚ) < 1 := ⟨by linarith, by linarith⟩
        have h7 : -1 < rteQ (rndQ (x / tauQ)) := by exact_mod_cast h6.1
        have h8 : rteQ (rndQ (x / tauQ)) < 1 := by exact_mod_cast h6.2
        omega
      have hgx : OnGrid (-51) x := hr.grid.mono (le_expo (by norm_num; exact hbig))
      refine (hgx.sub (hg.mono (by norm_num))).rep (by norm_num) (habs.trans ?_)
      norm_num [tauQ]

theorem small_lt_huge {q : ℚ} (h : |q| ≤ 1000) : |q| < huge := by
  refine h.trans_lt ?_
  have : (2 : ℚ) ^ (10 : ℤ) < huge := two_zpow_lt (by norm_num)
  norm_num at this
  linarith

/-- `remainder(x, TAU)` is exact up to `17 PI`. -/
theorem remainder_tau_f64 (x : F64 L) (hf : x.isFinite) (hx : |x.toQ| ≤ 17 * (Flt.pi : F64 L).toQ) :
    ∃ n : ℤ, (remainder x tau).isFinite ∧ (remainder x tau).toQ = x.toQ - n * (Flt.tau : F64 L).toQ ∧
      |(remainder x tau).toQ| ≤ (Flt.pi : F64 L).toQ := by
  have hpi : (Flt.pi : F64 L).toQ = tauQ / 2 := by
    show B64.pi.toQ = _
    rw [pi_fin.2]; norm_num [tauQ]
  have htau : B64.tau.toQ = tauQ := tau_fin.2
  have ht : (0 : ℚ) < tauQ := by norm_num [tauQ]
  have ht7 : tauQ ≤ 7 := by norm_num [tauQ]
  rw [hpi] at hx ⊢
  obtain ⟨hn, habs, hr1, hr2⟩ := remainder_exact (B64.toQ_rep x) (hx.trans (by linarith))
  have r17 : Rep (17 / 2) := ⟨17, -1, by norm_num, by norm_num, by norm_num⟩
  have hq : |rndQ (B64.toQ x / tauQ)| ≤ 17 / 2 := by
    rw [abs_rndQ]
    refine rndQ_le r17 ?_
    rw [abs_div, abs_of_pos ht, div_le_iff₀ ht]
    exact hx.trans (by linarith)
  obtain ⟨d1, d2⟩ := B64.div_finite_of (a := x) hf tau_fin.1 (by rw [htau]; exact ht.ne')
    (by rw [htau]; exact small_lt_huge (hq.trans (by norm_num)))
  rw [htau] at d2
  set n := rteQ (rndQ (B64.toQ x / tauQ)) with hnd
  have hn' : |(n : ℚ)| ≤ 8 := by exact_mod_cast hn
  have hnr : Rep (n : ℚ) := ⟨n, 0, by simp, by linarith [show (8 : ℤ) ≤ 2 ^ 53 by norm_num], by norm_num⟩
  have hm : B64.mapInt rteQ (B64.div x B64.tau) = B64.ofQ (B64.div x B64.tau).isNeg n := by
    unfold B64.mapInt
    rw [if_pos d1, d2]
  have hm1 : (B64.mapInt rteQ (B64.div x B64.tau)).isFinite = true := by
    rw [hm, B64.ofQ_finite, hnr.rnd]; exact small_lt_huge (hn'.trans (by norm_num))
  have hm2 : (B64.mapInt rteQ (B64.div x B64.tau)).toQ = n := by
    rw [hm] at hm1 ⊢
    rw [B64.ofQ_toQ hm1, hnr.rnd]
  have hp1 : (B64.mul (B64.mapInt rteQ (B64.div x B64.tau)) B64.tau).isFinite = true := by
    refine B64.mul_finite_of hm1 tau_fin.1 ?_
    rw [hm2, htau, hr1.rnd, abs_mul, abs_of_pos ht]
    refine lt_of_le_of_lt (b := 8 * tauQ) (by nlinarith) ?_
    have := small_lt_huge (q := 8 * tauQ) (by rw [abs_of_pos (by linarith)]; linarith)
    rwa [abs_of_pos (by linarith)] at this
  have hp2 := (B64.mul_finite hp1).2.2
  rw [hm2, htau, hr1.rnd] at hp2
  have hs1 : (B64.sub x (B64.mul (B64.mapInt rteQ (B64.div x B64.tau)) B64.tau)).isFinite = true := by
    refine B64.sub_finite_of hf hp1 ?_
    rw [hp2, hr2.rnd]
    exact small_lt_huge (habs.trans (by linarith))
  have hs2 := (B64.sub_finite hs1).2.2
  rw [hp2, hr2.rnd] at hs2
  refine ⟨n, hs1, ?_, ?_⟩
  · show _ = _ - (n : ℚ) * B64.tau.toQ
    rw [htau]; exact hs2
  · have : |(B64.sub x (B64.mul (B64.mapInt rteQ (B64.div x B64.tau)) B64.tau)).toQ| ≤ tauQ / 2 := by
      rw [hs2]; exact habs
    exact this

theorem pi_le_iff (a : F64 L) (ha : a.isFinite) : (a <. -Flt.pi) = decide (a.toQ < -(Flt.pi : F64 L).toQ) := by
  have h : (B64.neg B64.pi).isFinite = true := (B64.neg_finite _).trans pi_fin.1
  have := B64.lt_fin ha h
  rw [B64.neg_toQ] at this
  exact this

/-- C02, partial: up to `17 PI` (3060 degrees) a longitude is in `[-PI, PI]`, and is exactly the angle minus a multiple of the
double `TAU`.  Missing: larger angles, for which the property fails (`C02_range_violated`). -/
theorem C02_range_partial (x : Angle (F64 L)) (hf : x.rad.isFinite) (hx : |x.rad.toQ| ≤ 17 * (Flt.pi : F64 L).toQ) :
    (Lon.new x).angle.rad.isFinite ∧
    -(Flt.pi : F64 L).toQ ≤ (Lon.new x).angle.rad.toQ ∧ (Lon.new x).angle.rad.toQ ≤ (Flt.pi : F64 L).toQ ∧
    ∃ n : ℤ, (Lon.new x).angle.rad.toQ = x.rad.toQ - n * (Flt.tau : F64 L).toQ := by
  obtain ⟨n, h1, h2, h3⟩ := remainder_tau_f64 x.rad hf hx
  have h4 := abs_le.1 h3
  have e : (Lon.new x).angle.rad = remainder x.rad tau := by
    show (if (remainder x.rad tau <. -Flt.pi) then Flt.pi else remainder x.rad tau) = remainder x.rad tau
    rw [pi_le_iff _ h1, decide_eq_false (not_lt.2 h4.1)]
    simp
  rw [e]
  exact ⟨h1, h4.1, h4.2, n, h2⟩

/-- `Lon::new` on doubles. -/
def lonB64 (x : B64) : B64 :=
  if B64.lt (B64.sub x (B64.mul (B64.mapInt rteQ (B64.div x B64.tau)) B64.tau)) (B64.neg B64.pi) then B64.pi
  else B64.sub x (B64.mul (B64.mapInt rteQ (B64.div x B64.tau)) B64.tau)

/-- C02, negation: for the first double above `17 PI` the longitude is larger than `PI`, and for `1.6369836687665635e19` it is
`2048`. -/
theorem C02_range_violated (L : Libm) :
    (∃ x : Angle (F64 L), x.rad.isFinite ∧ x.rad.toQ ≤ 54 ∧ (Lon.new x).angle.rad.isFinite ∧
      (Flt.pi : F64 L).toQ < (Lon.new x).angle.rad.toQ) ∧
    (∃ x : Angle (F64 L), x.rad.toQ = 16369836687665635328 ∧ (Lon.new x).angle.rad.isFinite ∧
      (Lon.new x).angle.rad.toQ = 2048) := by
  refine ⟨⟨⟨B64.lit ((17 * 884279719003555 + 1) / 2 ^ 48)⟩, ?_, ?_, ?_, ?_⟩, ⟨⟨B64.lit 16369836687665635328⟩, ?_, ?_, ?_⟩⟩
  · show B64.isFinite (B64.lit ((17 * 884279719003555 + 1) / 2 ^ 48)) = true
    decide +kernel
  · show B64.toQ (B64.lit ((17 * 884279719003555 + 1) / 2 ^ 48)) ≤ 54
    decide +kernel
  · show B64.isFinite (lonB64 (B64.lit ((17 * 884279719003555 + 1) / 2 ^ 48))) = true
    decide +kernel
  · show B64.toQ B64.pi < B64.toQ (lonB64 (B64.lit ((17 * 884279719003555 + 1) / 2 ^ 48)))
    decide +kernel
  · show B64.toQ (B64.lit 16369836687665635328) = _
    decide +kernel
  · show B64.isFinite (lonB64 (B64.lit 16369836687665635328)) = true
    decide +kernel
  · show B64.toQ (lonB64 (B64.lit 16369836687665635328)) = _
    decide +kernel

/-- The same for `Azimuth::new` and `Angle::normalized`, in `(-PI, PI]`; only `-PI` is moved to `PI`. -/
theorem C02_azimuth_partial (x : Angle (F64 L)) (hf : x.rad.isFinite) (hx : |x.rad.toQ| ≤ 17 * (Flt.pi : F64 L).toQ) :
    (Azimuth.new x).angle = x.normalized ∧ x.normalized.rad.isFinite ∧
    -(Flt.pi : F64 L).toQ < x.normalized.rad.toQ ∧ x.normalized.rad.toQ ≤ (Flt.pi : F64 L).toQ ∧
    ∃ n : ℤ, x.normalized.rad.toQ = x.rad.toQ - n * (Flt.tau : F64 L).toQ := by
  obtain ⟨n, h1, h2, h3⟩ := remainder_tau_f64 x.rad hf hx
  have h4 := abs_le.1 h3
  have hpi : (Flt.pi : F64 L).toQ = tauQ / 2 := by
    show B64.pi.toQ = _
    rw [pi_fin.2]; norm_num [tauQ]
  have htau : (Flt.tau : F64 L).toQ = tauQ := tau_fin.2
  have ht : (0 : ℚ) < tauQ := by norm_num [tauQ]
  have hle : (remainder x.rad tau <=. -Flt.pi) = decide ((remainder x.rad tau).toQ ≤ -(Flt.pi : F64 L).toQ) := by
    have h : (B64.neg B64.pi).isFinite = true := (B64.neg_finite _).trans pi_fin.1
    have := B64.le_fin h1 h
    rw [B64.neg_toQ] at this
    exact this
  have e : x.normalized.rad = (if (remainder x.rad tau <=. -Flt.pi) then Flt.pi else remainder x.rad tau) := rfl
  refine ⟨rfl, ?_⟩
  rw [e, hle]
  by_cases hc : (remainder x.rad tau).toQ ≤ -(Flt.pi : F64 L).toQ
  · rw [decide_eq_true hc]
    simp only [if_true]
    refine ⟨pi_fin.1, ?_, le_rfl, n - 1, ?_⟩
    · rw [hpi]; linarith
    · have : (remainder x.rad tau).toQ = -(Flt.pi : F64 L).toQ := le_antisymm hc h4.1
      rw [h2, hpi, htau] at this
      rw [hpi, htau]
      push_cast
      linarith
  · rw [decide_eq_false hc]
    simp only [Bool.false_eq_true, if_false]
    exact ⟨h1, not_le.1 hc, h4.2, n, h2⟩

/-- Two and a half turns and a bit. -/
example : (⟨Flt.lit 16⟩ : Angle (F64 L)).rad.isFinite ∧
    |(⟨Flt.lit 16⟩ : Angle (F64 L)).rad.toQ| ≤ 17 * (Flt.pi : F64 L).toQ ∧
    (Flt.pi : F64 L).toQ < |(⟨Flt.lit 16⟩ : Angle (F64 L)).rad.toQ| := by
  refine ⟨?_, ?_, ?_⟩
  · show B64.isFinite (B64.lit 16) = true
    decide +kernel
  · show |B64.toQ (B64.lit 16)| ≤ 17 * B64.pi.toQ
    decide +kernel
  · show B64.pi.toQ < |B64.toQ (B64.lit 16)|
    decide +kernel

end Geo
