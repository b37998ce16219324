import Verif.Model.Cs
import Verif.Sem.XR

/-! Coordinates of the model made of real numbers (radians and metres). -/

namespace Geo
open XR

/-- Geodetic, geocentric, projected coordinates made of reals. -/
def llh (lon lat h : ℝ) : LLH XR := ⟨⟨⟨fin lon⟩⟩, ⟨⟨fin lat⟩⟩, ⟨fin h⟩⟩
def xyz (x y z : ℝ) : XYZ XR := ⟨⟨fin x⟩, ⟨fin y⟩, ⟨fin z⟩⟩
def enh (e n h : ℝ) : ENH XR := ⟨⟨fin e⟩, ⟨fin n⟩, ⟨fin h⟩⟩

/-- A latitude in radians. -/
def latR (φ : ℝ) : Lat XR := ⟨⟨fin φ⟩⟩
/-- A longitude in radians. -/
def lonR (l : ℝ) : Lon XR := ⟨⟨fin l⟩⟩

end Geo
