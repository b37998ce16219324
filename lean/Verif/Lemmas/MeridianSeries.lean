import Verif.Lemmas.MeridianSeriesA

/-!
The series of the transverse Mercator projection on the central meridian, continued: the residual of the code's
coefficients is of the power 5 of the third flattening.
-/

namespace Geo.Ser
namespace Mer

def YM : Mod := mulM ((mulM sM chL).sub shL) IDL
def YL : Mod := ⟨[⟨[0, 1], []⟩,
  ⟨[0, -4, 0, 4], []⟩,
  ⟨[0, 8, 0, -88/3, 0, 64/3], []⟩,
  ⟨[0, -12, 0, 356/3, 0, -3392/15, 0, 1792/15], []⟩,
  ⟨[0, 16, 0, -1072/3, 0, 19712/15, 0, -520448/315, 0, 214016/315], []⟩,
  ⟨[0, -20, 0, 2684/3, 0, -5568, 0, 780032/63, 0, -1215488/105, 0, 1224704/315], []⟩,
  ⟨[0, 24, 0, -5896/3, 0, 96064/5, 0, -7005184/105, 0, 59987968/567, 0, -12266074112/155925, 0, 1159675904/51975], []⟩], 49265⟩
def C2M : Mod := oneM.sub ((mulM YL YL).smul 2)
def C2L : Mod := ⟨[⟨[1, 0, -2], [0]⟩,
  ⟨[0, 0, 16, 0, -16], [0]⟩,
  ⟨[0, 0, -64, 0, 544/3, 0, -352/3], [0]⟩,
  ⟨[0, 0, 176, 0, -1072, 0, 8576/5, 0, -4096/5], [0]⟩,
  ⟨[0, 0, -384, 0, 13376/3, 0, -118592/9, 0, 4612096/315, 0, -581632/105], [0]⟩,
  ⟨[0, 0, 720, 0, -44272/3, 0, 3203968/45, 0, -14434304/105, 0, 36831232/315, 0, -11534336/315], [0]⟩,
  ⟨[0, 0, -1216, 0, 41504, 0, -4569248/15, 0, 284975104/315, 0, -18331623424/14175, 0, 138907222016/155925, 0, -1766981632/7425], [0]⟩], 201768⟩
def C4M : Mod := ((mulM C2L C2L).smul 2).sub oneM
def C4L : Mod := ⟨[⟨[1, 0, -8, 0, 8], [0]⟩,
  ⟨[0, 0, 64, 0, -192, 0, 128], [0]⟩,
  ⟨[0, 0, -256, 0, 5248/3, 0, -2944, 0, 4352/3], [0]⟩,
  ⟨[0, 0, 704, 0, -9792, 0, 467072/15, 0, -541696/15, 0, 210944/15], [0]⟩,
  ⟨[0, 0, -1536, 0, 121088/3, 0, -1932032/9, 0, 138021376/315, 0, -121778176/315, 0, 7829504/63], [0]⟩,
  ⟨[0, 0, 2880, 0, -403264/3, 0, 50169472/45, 0, -124158976/35, 0, 557000704/105, 0, -1188380672/315, 0, 65011712/63], [0]⟩,
  ⟨[0, 0, -4864, 0, 382080, 0, -70735232/15, 0, 6882839296/315, 0, -695924310016/14175, 0, 600930279424/10395, 0, -5366230810624/155925, 0, 85127593984/10395], [0]⟩], 844693⟩
def C6M : Mod := ((mulM C2L C4L).smul 2).sub C2L
def C8M : Mod := ((mulM C4L C4L).smul 2).sub oneM
def C6L : Mod := ⟨[⟨[1, 0, -18, 0, 48, 0, -32], [0]⟩,
  ⟨[0, 0, 144, 0, -912, 0, 1536, 0, -768], [0]⟩,
  ⟨[0, 0, -576, 0, 7776, 0, -25120, 0, 29696, 0, -11776], [0]⟩,
  ⟨[0, 0, 1584, 0, -42672, 0, 1175424/5, 0, -2467072/5, 0, 2226176/5, 0, -729088/5], [0]⟩,
  ⟨[0, 0, -3456, 0, 175296, 0, -1538880, 0, 178120704/35, 0, -164436992/21, 0, 597880832/105, 0, -166518784/105], [0]⟩,
  ⟨[0, 0, 6480, 0, -585168, 0, 39092608/5, 0, -1333232896/35, 0, 1330153472/15, 0, -11261026304/105, 0, 6846939136/105, 0, -236781568/15], [0]⟩,
  ⟨[0, 0, -10944, 0, 1669920, 0, -164064224/5, 0, 7889040384/35, 0, -167114680832/225, 0, 2756537368576/2079, 0, -68519371767808/51975, 0, 35766049046528/51975, 0, -1093231837184/7425], [0]⟩], 2461200⟩
def C8L : Mod := ⟨[⟨[1, 0, -32, 0, 160, 0, -256, 0, 128], [0]⟩,
  ⟨[0, 0, 256, 0, -2816, 0, 8704, 0, -10240, 0, 4096], [0]⟩,
  ⟨[0, 0, -1024, 0, 70144/3, 0, -375296/3, 0, 787456/3, 0, -716800/3, 0, 237568/3], [0]⟩,
  ⟨[0, 0, 2816, 0, -127232, 0, 16572928/15, 0, -55236608/15, 0, 86044672/15, 0, -4227072, 0, 5963776/5], [0]⟩,
  ⟨[0, 0, -6144, 0, 1565696/3, 0, -63343616/9, 0, 10993739776/315, 0, -26048995328/315, 0, 711565312/7, 0, -19757203456/315, 0, 538509312/35], [0]⟩,
  ⟨[0, 0, 11520, 0, -5231872/3, 0, 1589344768/45, 0, -26208139264/105, 0, 37906804736/45, 0, -161106460672/105, 0, 488886566912/315, 0, -259020292096/315, 0, 56150196224/315], [0]⟩,
  ⟨[0, 0, -19456, 0, 4985344, 0, -2212832768/15, 0, 453738916864/315, 0, -13437919916032/2025, 0, 2615173320318976/155925, 0, -350142485757952/14175, 0, 660689735385088/31185, 0, -1532069141282816/155925, 0, 33040183066624/17325], [0]⟩], 4033983⟩
def h0 : List ℚ := [0, 1/2, -2/3, 5/16, 41/180]
def h1 : List ℚ := [0, 0, 13/48, -3/5, 557/1440]
def h2 : List ℚ := [0, 0, 0, 61/240, -103/140]
def h3 : List ℚ := [0, 0, 0, 0, 49561/161280]
def SumM : Mod := ((((oneM.add ((mulM (qM h0) C2L).smul 2)).add ((mulM (qM h1) C4L).smul 4)).add
  ((mulM (qM h2) C6L).smul 6)).add ((mulM (qM h3) C8L).smul 8))
def SumL : Mod := ⟨[⟨[1, 0, 0], [0]⟩,
  ⟨[1, 0, -2], [0]⟩,
  ⟨[-1/4, 0, 10, 0, -22/3], [0]⟩,
  ⟨[-1/4, 0, -51/2, 0, 146/3, 0, -412/15], [0]⟩,
  ⟨[3/64, 0, 95/2, 0, -989/6, 0, 10324/45, 0, -3646/35], [0]⟩,
  ⟨[0, 0, -60, 0, -148, 0, 15920/9, 0, -1060768/315, 0, 63232/35], [0]⟩,
  ⟨[0, 0, 4, 0, 6724, 0, -2709368/45, 0, 52867952/315, 0, -872602816/4725, 0, 332277376/4725], [0]⟩], 10526⟩
def PM : Mod := qM [1, 0, 1/4, 0, 1/64]
def XM : Mod := mulM PM SumL
def VM : Mod := .exact [Co.ofQ 1, ⟨[2, 0, -4], []⟩, Co.ofQ 1]
def N1M : Mod := qM [1, 1]
def NDM : Mod := mulM (mulM N1M N1M) (oneM.add D1M)
def resM : Mod := (mulM (mulM XM XM) VM).sub (mulM NDM NDM)

def finM : Mod := Mod.trunc 5 r0 1 ⟨resM.co, resM.rem * r0 ^ 2⟩

theorem check_Y : (lit YM YL) = true := by decide +kernel
theorem check_C2 : (lit C2M C2L) = true := by decide +kernel
theorem check_C4 : (lit C4M C4L) = true := by decide +kernel
theorem check_C6 : (lit C6M C6L) = true := by decide +kernel
theorem check_C8 : (lit C8M C8L) = true := by decide +kernel
theorem check_Sum : (lit SumM SumL) = true := by decide +kernel
theorem check_fin : (finM.co.all Co.isZero && decide (finM.rem ≤ 41)) = true := by decide +kernel

theorem residual {n : ℝ} (h0 : 0 ≤ n) (h1 : n ≤ 1 / 190) (φ χ : ℝ) (ε w D : ℝ) (hε : ε = 4 * n / (1 + n) ^ 2)
    (hw : w = Real.sqrt ε * Real.artanh (Real.sqrt ε * Real.sin φ)) (hD : D = Real.cosh w - Real.sin φ * Real.sinh w)
    (hχ : Real.sin χ = (Real.sin φ * Real.cosh w - Real.sinh w) / D) :
    |((1 + n ^ 2 / 4 + n ^ 4 / 64) * (1 + 2 * qeval n Mer.h0 * Real.cos (2 * χ) + 4 * qeval n Mer.h1 * Real.cos (4 * χ) +
        6 * qeval n Mer.h2 * Real.cos (6 * χ) + 8 * qeval n Mer.h3 * Real.cos (8 * χ))) ^ 2 *
        (1 + 2 * n * Real.cos (2 * φ) + n ^ 2) - ((1 + n) ^ 2 * D) ^ 2| ≤ 41 * n ^ 5 ∧ |D - 1| ≤ 1 / 30 := by
  have two : ∀ {a b : Bool}, (a && b) = true → a = true ∧ b = true := fun h => by simpa using h
  obtain ⟨c0', c0⟩ := two check_e
  obtain ⟨c1, c2⟩ := two check_T
  obtain ⟨c3, c4⟩ := two check_W1
  obtain ⟨c5, c6⟩ := two check_D
  obtain ⟨c7, c8⟩ := two check_fin
  rw [decide_eq_true_eq] at c0 c2 c4 c6 c8
  let E : Env ℝ r0 1 := realEnv n φ (by rw [abs_of_nonneg h0]; norm_num [r0]; linarith)
  have hs : E.s = Real.sin φ := by simp [E, realEnv, Env.s]
  have hn : E.ε = n := rfl
  have i1 : Is 7 E oneM (1 : ℝ) := (Is.const E _).congr (by rw [cv_ofQ]; norm_num)
  have is : Is 7 E sM (Real.sin φ) := (Is.const E _).congr (by rw [← hs]; simp [cv, peval, qv])
  have ie : Is 7 E epsM n := (Is.exact E _).congr (by simp [sv, peval, cv_zero, cv_ofQ, hn])
  have iI : Is 7 E I1 ((1 + n)⁻¹) := ie.compF (G := fun x => (1 + x)⁻¹) (by norm_num) c0' (by norm_num) c0 geo_taylor
  have iε : Is 7 E E2M ε := ((ie.mulF (iI.mulF iI)).smul 4).congr (by
    rw [hε]; push_cast; have : 1 + n ≠ 0 := by linarith
    field_simp)
  have hε0 : 0 ≤ ε := by rw [hε]; positivity
  have hε1 : ε < 1 := by rw [hε, div_lt_one (by positivity)]; nlinarith
  set s := Real.sin φ
  have iT : Is 7 E TM (ε * (s * s)) := iε.mulF (is.mulF is)
  have iA : Is 7 E AM (artF7 (ε * (s * s))) := iT.compF (by norm_num) c1 (by norm_num) c2 artF7_taylor
  have hlt : -1 < Real.sqrt ε * s ∧ Real.sqrt ε * s < 1 :=
    abs_e_sin_lt (Real.sqrt_nonneg _) (by rw [Real.sqrt_lt' one_pos]; linarith) _
  have iW : Is 7 E WL w := Is.lit ((iε.mulF (is.mulF iA)).congr (by
    rw [hw, e_artanh hε0 hlt, artF7_eq (mul_nonneg hε0 (mul_self_nonneg s))])) check_W
  have iSh : Is 7 E shL (Real.sinh w) := Is.lit (m := shM) (iW.compF (by norm_num) c3 (by norm_num [expK, Nat.factorial]) c4 (rsinh_taylor (by norm_num))) check_sh
  have iCh : Is 7 E chL (Real.cosh w) := Is.lit (m := chM) (iW.compF (by norm_num) c3 (by norm_num [expK, Nat.factorial]) c4 (rcosh_taylor (by norm_num))) check_ch
  have iD1 : Is 7 E D1M (D - 1) := ((iCh.sub i1).sub (is.mulF iSh)).congr (by rw [hD]; ring)
  have hDb : |D - 1| ≤ 1 / 30 := by
    have h := iD1.slope (by norm_num) c5
    rw [Real.norm_eq_abs] at h
    refine h.trans ((mul_le_mul_of_nonneg_left E.hε ?_).trans ?_)
    · have h2 : (0 : ℝ) ≤ D1M.rem := by exact_mod_cast iD1.1
      have := sn_nonneg E D1M.co.tail
      have hr := E.r_nonneg
      simp only [Mod.slope]; push_cast
      positivity
    · have : ((D1M.slope 7 r0 1 * r0 : ℚ) : ℝ) ≤ ((1 / 30 : ℚ) : ℝ) := by exact_mod_cast c6
      push_cast at this
      exact this
  have iID : Is 7 E IDL (D⁻¹) := Is.lit (m := IDM) ((iD1.compF (G := fun x => (1 + x)⁻¹) (by norm_num) c5 (by norm_num) (c6.trans (by norm_num)) geo_taylor).congr (by
    rw [add_sub_cancel])) check_ID
  have iY : Is 7 E YL (Real.sin χ) := Is.lit (m := YM) ((((is.mulF iCh).sub iSh).mulF iID).congr (by rw [hχ, div_eq_mul_inv])) check_Y
  have hcos2 : ∀ x : ℝ, Real.cos (2 * x) = 2 * (Real.cos x * Real.cos x) - 1 := fun x => by rw [Real.cos_two_mul]; ring
  have iC2 : Is 7 E C2L (Real.cos (2 * χ)) := Is.lit (m := C2M) ((i1.sub ((iY.mulF iY).smul 2)).congr (by
    rw [Real.cos_two_mul, Real.cos_sq']; push_cast; ring)) check_C2
  have iC4 : Is 7 E C4L (Real.cos (4 * χ)) := Is.lit (m := C4M) ((((iC2.mulF iC2).smul 2).sub i1).congr (by
    rw [show 4 * χ = 2 * (2 * χ) by ring, hcos2 (2 * χ)]; push_cast; ring)) check_C4
  have iC6 : Is 7 E C6L (Real.cos (6 * χ)) := Is.lit (m := C6M) ((((iC2.mulF iC4).smul 2).sub iC2).congr (by
    have h1 := Real.cos_add (4 * χ) (2 * χ)
    have h2 := Real.cos_sub (4 * χ) (2 * χ)
    rw [show 4 * χ + 2 * χ = 6 * χ by ring] at h1
    rw [show 4 * χ - 2 * χ = 2 * χ by ring] at h2
    push_cast; linarith)) check_C6
  have iC8 : Is 7 E C8L (Real.cos (8 * χ)) := Is.lit (m := C8M) ((((iC4.mulF iC4).smul 2).sub i1).congr (by
    rw [show 8 * χ = 2 * (4 * χ) by ring, hcos2 (4 * χ)]; push_cast; ring)) check_C8
  have q := fun l => Is.qM (N := 7) E l
  have iSum := Is.lit (m := SumM) ((((i1.add (((q Mer.h0).mulF iC2).smul 2)).add (((q Mer.h1).mulF iC4).smul 4)).add
    (((q Mer.h2).mulF iC6).smul 6)).add (((q Mer.h3).mulF iC8).smul 8)) check_Sum
  have iX := (q [1, 0, 1/4, 0, 1/64]).mulF iSum
  have iV : Is 7 E VM (1 + 2 * n * Real.cos (2 * φ) + n ^ 2) := (Is.exact E _).congr (by
    simp only [sv, peval, cv_ofQ, hn]
    simp only [cv, peval, qv, hs, Real.cos_two_mul, Real.cos_sq']
    push_cast; ring)
  have iN := q [1, 1]
  have iND := (iN.mulF iN).mulF (i1.add iD1)
  have iR : Is 7 E resM _ := ((iX.mulF iX).mulF iV).sub (iND.mulF iND)
  refine ⟨?_, hDb⟩
  have := Is.bound_lower (N := 5) (k := 2) iR c7 c8
  rw [Real.norm_eq_abs, Real.norm_eq_abs, hn, abs_of_nonneg h0] at this
  push_cast at this
  refine le_of_eq_of_le ?_ this
  congr 1
  simp only [qeval]
  push_cast
  ring

end Mer
end Geo.Ser
