import Verif.Lemmas.KarneySeries

/-!
The distance series of Vincenty and of Rapp against the square root of which the distance is the integral.
-/

namespace Geo.Ser.Vin

def r0 : ℚ := 1 / 20
def mulM (a b : Mod) : Mod := Mod.mulF 7 r0 1 a b

def oneM : Mod := .const (Co.ofQ 1)
/-- `1 + u² sin² σ`, the angle being `2 σ`. -/
def wwL : List Co := [Co.ofQ 1, Co.ofQ (1/2) + Co.ofQ (-1/2) * cosC]

/-! ### Vincenty -/

def A : Mod := qM [1, 1/4, -3/64, 5/256, -175/16384]
def B : Mod := qM [0, 1/4, -1/8, 37/512, -47/1024]
def B2 : Mod := mulM B B
def B3 : Mod := mulM B2 B
/-- The derivative of the series. -/
def pV : Mod := mulM A (((oneM.sub (mulM B (.const (cosK 1)))).sub ((mulM B2 (.const (cosK 2))).smul (1/4))).sub
  ((mulM B3 (.const (cosK 3))).smul (1/8)))
def resV : Mod := (mulM pV pV).sub (.exact wwL)

/-! ### Rapp -/

def pR : Mod := (((qM [1, 1/4, -3/64, 5/256, -175/16384]).add (mulM (qM [0, -1/4, 1/16, -15/512, 35/2048]) (.const (cosK 1)))).add
  ((mulM (qM [0, 0, -1/128, 3/512, -35/8192]) (.const (cosK 2))).smul 2)).add
  ((mulM (qM [0, 0, 0, -1/1536, 5/6144]) (.const (cosK 3))).smul 3)
def resR : Mod := (mulM pR pR).sub (.exact wwL)

theorem checksV : ((resV.co.take 4).all Co.isZero && decide (sn r0 1 (resV.co.drop 4) + resV.rem * r0 ^ 3 ≤ 51/10000) &&
    (pV.sub oneM).co.head?.all Co.isZero && decide ((pV.sub oneM).slope 7 r0 1 ≤ 51/100)) = true := by decide +kernel

theorem checksR : ((resR.co.take 4).all Co.isZero && decide (sn r0 1 (resR.co.drop 4) + resR.rem * r0 ^ 3 ≤ 34/10000) &&
    (pR.sub oneM).co.head?.all Co.isZero && decide ((pR.sub oneM).slope 7 r0 1 ≤ 51/100)) = true := by decide +kernel

end Geo.Ser.Vin
